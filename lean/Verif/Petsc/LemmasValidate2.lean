import Verif.Petsc.LemmasValidate

/-! Lemmas for the validation of halos: the comparison with the halo. -/

set_option autoImplicit false

namespace NP

theorem valPoint_true {fatal : Bool} {ints : List (Option Int)} {reals : List (Option ℚ)}
    {H : List ValPoint × LidMap} {h : Nat} {v : Bool} :
    valPoint fatal ints reals H h v = some true ↔ v = true ∧ ∃ e x, omGet H.2 (h : Int) = some e ∧
      H.1[h]? = some x ∧ atGet ints (e.2.2 * 7 + 0) = some (some (x.depth : Int)) ∧
      atGet ints (e.2.2 * 7 + 1) = some (some (x.cone.length : Int)) ∧
      (∀ c < x.cone.length, ∃ q eq, x.cone[c]? = some q ∧ omGet H.2 (q : Int) = some eq ∧
        atGet ints (e.2.2 * 7 + (2 + c)) = some (some eq.2.2)) ∧
      (x.depth = 2 → atGet ints (e.2.2 * 7 + 6) = some (some e.1)) ∧ x.coords.length ≤ 8 ∧
      valCoords reals e.2.2 x.coords = some true := by
  have hloop : ∀ (e : Int × Int × Int) (x : ValPoint) (v : Bool),
      forLoop 0 x.cone.length (fun c v => (x.cone[c]?).bind fun q =>
        (atGet ints (e.2.2 * 7 + (2 + c))).bind fun a => (omGet H.2 (q : Int)).bind fun eq =>
        valCheck fatal v (decide (a = some eq.2.2))) v = some true ↔ v = true ∧
      ∀ c < x.cone.length, ∃ q eq, x.cone[c]? = some q ∧ omGet H.2 (q : Int) = some eq ∧
        atGet ints (e.2.2 * 7 + (2 + c)) = some (some eq.2.2) := by
    intro e x v
    refine forLoop_true_iff ?_ v
    intro c hc v
    simp only [Option.bind_eq_some_iff, valCheck_true, decide_eq_true_eq]
    constructor
    · rintro ⟨q, h1, a, h2, eq, h3, h4, rfl⟩
      exact ⟨h4, q, eq, h1, h3, h2⟩
    · rintro ⟨h4, q, eq, h1, h3, h2⟩
      exact ⟨q, h1, _, h2, eq, h3, h4, rfl⟩
  constructor
  · intro hh
    unfold valPoint at hh
    simp only [Option.bind_eq_some_iff] at hh
    obtain ⟨e, he, x, hx, a, ha, v1, hv1, b, hb, v2, hv2, v3, hv3, v4, hv4, v5, hv5, same, hsame,
      hv6⟩ := hh
    obtain ⟨rfl, rfl⟩ := valCheck_true.1 hv6
    obtain ⟨rfl, hco⟩ := valCheck_true.1 hv5
    have hv4' : v3 = true ∧ (x.depth = 2 → atGet ints (e.2.2 * 7 + 6) = some (some e.1)) := by
      split at hv4
      · obtain ⟨r, hr, hc⟩ := Option.bind_eq_some_iff.1 hv4
        obtain ⟨h1, h2⟩ := valCheck_true.1 hc
        refine ⟨h1, fun _ => ?_⟩
        rw [hr, of_decide_eq_true h2]
      · exact ⟨Option.some.inj hv4, fun h => by omega⟩
    obtain ⟨rfl, hrank⟩ := hv4'
    obtain ⟨rfl, hcone⟩ := (hloop e x v2).1 hv3
    obtain ⟨rfl, h2⟩ := valCheck_true.1 hv2
    obtain ⟨rfl, h1⟩ := valCheck_true.1 hv1
    refine ⟨rfl, e, x, he, hx, ?_, ?_, hcone, hrank, of_decide_eq_true hco, hsame⟩
    · rw [ha, of_decide_eq_true h1]
    · rw [hb, of_decide_eq_true h2]
  · rintro ⟨rfl, e, x, he, hx, ha, hb, hcone, hrank, hco, hsame⟩
    unfold valPoint
    simp only [he, hx, ha, hb, Option.bind_some, decide_true, valCheck_true.2 ⟨rfl, rfl⟩,
      (hloop e x true).2 ⟨rfl, hcone⟩]
    have : (if x.depth = 2 then (atGet ints (e.2.2 * 7 + 6)).bind fun a =>
        valCheck fatal true (decide (some e.1 = a)) else some true) = some true := by
      split
      · rename_i h2
        rw [hrank h2, Option.bind_some]
        exact valCheck_true.2 ⟨rfl, by simp⟩
      · rfl
    rw [this, Option.bind_some, valCheck_true.2 ⟨rfl, decide_eq_true hco⟩, Option.bind_some, hsame,
      Option.bind_some]
    exact valCheck_true.2 ⟨rfl, rfl⟩

theorem valCoords_true {reals : List (Option ℚ)} {g m : Nat} {coords ys : List ℚ}
    (hc : coords.length = 2 * m) (hy : ys.length = 2 * m)
    (hr : ∀ c, c < ys.length → reals[g * 8 + c]? = some (ys[c]?)) :
    valCoords reals (g : Int) coords = some true ↔
      ∀ v, Spec.verticesOf coords v ↔ Spec.verticesOf ys v := by
  have hm : (coords.length + 1) / 2 = m := by omega
  obtain ⟨s, h1, h2⟩ := forLoop_invariant (a := 0) (b := m)
    (step := fun k (s : List (Option ℚ × Option ℚ) × List (Option ℚ × Option ℚ)) =>
      (atGet reals ((g : Int) * 8 + 2 * k)).bind fun a =>
      (atGet reals ((g : Int) * 8 + (2 * k + 1))).bind fun b =>
      (coords[2 * k]?).bind fun c => (coords[2 * k + 1]?).bind fun d =>
      some (s.1 ++ [(a, b)], s.2 ++ [(some c, some d)])) (s := ([], []))
    (fun i s => s = ((List.range i).map fun k => (ys[2 * k]?, ys[2 * k + 1]?),
      (List.range i).map fun k => (coords[2 * k]?, coords[2 * k + 1]?))) (Nat.zero_le m) (by
      rintro i s - hi rfl
      have e1 : ((g : Int) * 8 + 2 * (i : Int)) = ((g * 8 + 2 * i : Nat) : Int) := by
        push_cast; omega
      have e2 : ((g : Int) * 8 + (2 * (i : Int) + 1)) = ((g * 8 + (2 * i + 1) : Nat) : Int) := by
        push_cast; omega
      refine ⟨_, ?_, rfl⟩
      rw [e1, e2, atGet_nat, atGet_nat, hr _ (by omega), hr _ (by omega)]
      simp only [Option.bind_some, List.range_succ, List.map_append, List.map_cons, List.map_nil]
      rw [List.getElem?_eq_getElem (l := coords) (i := 2 * i) (by omega),
        List.getElem?_eq_getElem (l := coords) (i := 2 * i + 1) (by omega)]
      rfl) rfl
  have hmem : ∀ (l : List ℚ), l.length = 2 * m → ∀ x : Option ℚ × Option ℚ,
      x ∈ (List.range m).map (fun k => (l[2 * k]?, l[2 * k + 1]?)) ↔
      ∃ v : ℚ × ℚ, x = (some v.1, some v.2) ∧ Spec.verticesOf l v := by
    intro l hl x
    simp only [List.mem_map, List.mem_range]
    constructor
    · rintro ⟨k, hk, rfl⟩
      refine ⟨(l[2 * k], l[2 * k + 1]), ?_, k, ?_, ?_⟩
      · rw [List.getElem?_eq_getElem (by omega), List.getElem?_eq_getElem (by omega)]
      · exact List.getElem?_eq_getElem (by omega)
      · exact List.getElem?_eq_getElem (by omega)
    · rintro ⟨v, rfl, k, h1, h2⟩
      refine ⟨k, ?_, by rw [h1, h2]⟩
      have := (List.getElem?_eq_some_iff.1 h2).1
      omega
  unfold valCoords
  rw [hm, h1, Option.bind_some, h2, Option.some.injEq, decide_eq_true_eq]
  simp only
  constructor
  · rintro ⟨ha, hb⟩ v
    constructor
    · intro hv
      obtain ⟨w, hw, hw'⟩ := (hmem ys hy _).1 (ha _ ((hmem coords hc _).2 ⟨v, rfl, hv⟩))
      simp only [Prod.mk.injEq, Option.some.injEq] at hw
      rwa [show v = w from Prod.ext hw.1 hw.2]
    · intro hv
      obtain ⟨w, hw, hw'⟩ := (hmem coords hc _).1 (hb _ ((hmem ys hy _).2 ⟨v, rfl, hv⟩))
      simp only [Prod.mk.injEq, Option.some.injEq] at hw
      rwa [show v = w from Prod.ext hw.1 hw.2]
  · intro hv
    constructor
    · intro x hx
      obtain ⟨w, rfl, hw⟩ := (hmem coords hc _).1 hx
      exact (hmem ys hy _).2 ⟨w, rfl, (hv w).1 hw⟩
    · intro x hx
      obtain ⟨w, rfl, hw⟩ := (hmem ys hy _).1 hx
      exact (hmem coords hc _).2 ⟨w, rfl, (hv w).2 hw⟩

/-- The arrays after the reductions. -/
structure ValAll (ranks : List ValRank) (np : Nat) (ints : List (Option Int))
    (reals : List (Option ℚ)) : Prop where
  len : ints.length = np * 7
  rows : ∀ (g s p : Nat) S y, Spec.OwnedBy ranks g s p → ranks[s]? = some S →
    S.points[p]? = some y → IntRow S s y ints g ∧ RealRow y reals g
  rest : ∀ g : Nat, g < np → (∀ s p, ¬ Spec.OwnedBy ranks g s p) → ints[g * 7]? = some none

theorem CoordsOk_even {x : ValPoint} (h : Spec.CoordsOk x) : ∃ m, x.coords.length = 2 * m := by
  unfold Spec.CoordsOk at h
  split at h
  · exact ⟨1, h⟩
  · split at h
    · exact ⟨2, h⟩
    · exact ⟨_, h⟩

/-- The comparison for a point of the halo is that with its owner. -/
theorem valPoint_copy {ranks : List ValRank} {np : Nat} {ints : List (Option Int)}
    {reals : List (Option ℚ)} (hw : Spec.ValWf ranks) (ha : ValAll ranks np ints reals)
    {fatal : Bool} {H : List ValPoint × LidMap} {h : Nat} {x : ValPoint} (hx : H.1[h]? = some x)
    (hxc : Spec.CoordsOk x) {v : Bool} :
    valPoint fatal ints reals H h v = some true ↔ v = true ∧
    ∃ rank lid g s p S y, omGet H.2 (h : Int) = some (rank, lid, g) ∧ Spec.OwnedBy ranks g s p ∧
      ranks[s]? = some S ∧ S.points[p]? = some y ∧ y.depth = x.depth ∧
      y.cone.length = x.cone.length ∧
      (∀ (c q q' : Nat), x.cone[c]? = some q → y.cone[c]? = some q' →
        ∃ e n, omGet H.2 (q : Int) = some e ∧ S.numbers[q']? = some n ∧
          e.2.2 = if 0 ≤ n then n else -n - 1) ∧
      (x.depth = 2 → rank = s) ∧ x.coords.length ≤ 8 ∧
      ∀ v, Spec.verticesOf x.coords v ↔ Spec.verticesOf y.coords v := by
  have hun : ∀ n : Int, unsignedId n = if 0 ≤ n then n else -n - 1 := by
    intro n
    unfold unsignedId
    split <;> split <;> omega
  have hlen : ∀ y : ValPoint, Spec.CoordsOk y → y.depth = x.depth →
      y.cone.length = x.cone.length → y.coords.length = x.coords.length := by
    intro y hy h1 h2
    unfold Spec.CoordsOk at hy hxc
    rw [h1, h2] at hy
    rw [hy, hxc]
  rw [valPoint_true]
  refine and_congr_right fun _ => ?_
  obtain ⟨m, hm⟩ := CoordsOk_even hxc
  constructor
  · rintro ⟨⟨rank, lid, g⟩, x', he, hx', h0, h1, hc, hr, h8, hs⟩
    rw [hx] at hx'
    obtain rfl := Option.some.inj hx'
    simp only at h0 h1 hc hr hs
    have hg : 0 ≤ g := by
      unfold atGet at h0
      split at h0
      · omega
      · cases h0
    obtain ⟨G, rfl⟩ := Int.eq_ofNat_of_zero_le hg
    have e0 : ((G : Int) * 7 + 0) = ((G * 7 : Nat) : Int) := by push_cast; omega
    have e1 : ((G : Int) * 7 + 1) = ((G * 7 + 1 : Nat) : Int) := by push_cast; omega
    have e6 : ((G : Int) * 7 + 6) = ((G * 7 + 6 : Nat) : Int) := by push_cast; omega
    rw [e0, atGet_nat] at h0
    rw [e1, atGet_nat] at h1
    rw [e6, atGet_nat] at hr
    have hG : G < np := by
      have := (List.getElem?_eq_some_iff.1 h0).1
      rw [ha.len] at this
      omega
    have hown : ∃ s p, Spec.OwnedBy ranks G s p := by
      by_contra hno
      have := ha.rest G hG (by
        intro s p hsp
        exact hno ⟨s, p, hsp⟩)
      rw [h0] at this
      cases this
    obtain ⟨s, p, hsp⟩ := hown
    obtain ⟨S, hS, hSn, -, hp⟩ := hsp
    have hy := List.getElem?_eq_getElem hp
    have hSm := List.mem_of_getElem? hS
    obtain ⟨⟨r0, r1, r2, r6⟩, rr⟩ := ha.rows G s p S _ ⟨S, hS, hSn, by omega, hp⟩ hS hy
    rw [h0] at r0
    rw [h1] at r1
    simp only [Option.some.injEq, Int.natCast_inj] at r0 r1
    have hyc := hw.coords S hSm _ (List.mem_of_getElem? hy)
    refine ⟨rank, lid, G, s, p, S, S.points[p], he, ⟨S, hS, hSn, by omega, hp⟩, hS, hy, r0.symm,
      r1.symm, ?_, ?_, h8, ?_⟩
    · intro c q q' hq hq'
      obtain ⟨q2, eq, k1, k2, k3⟩ := hc c (List.getElem?_eq_some_iff.1 hq).1
      rw [hq] at k1
      obtain rfl := Option.some.inj k1
      obtain ⟨n, hn, hn'⟩ := r2 c q' hq'
      have e2 : ((G : Int) * 7 + (2 + (c : Int))) = ((G * 7 + (2 + c) : Nat) : Int) := by
        push_cast; omega
      rw [e2, atGet_nat, hn'] at k3
      simp only [Option.some.injEq] at k3
      exact ⟨eq, n, k2, hn, by rw [← k3, hun]⟩
    · intro hd
      have := hr hd
      rw [r6] at this
      simp only [Option.some.injEq] at this
      exact this.symm
    · have hl := hlen _ hyc r0.symm r1.symm
      exact (valCoords_true hm (by omega) rr).1 hs
  · rintro ⟨rank, lid, g, s, p, S, y, he, hsp, hS, hy, hd, hcl, hc, hr, h8, hv⟩
    have hg : 0 ≤ g := by obtain ⟨_, _, _, h, _⟩ := hsp; exact h
    obtain ⟨G, rfl⟩ := Int.eq_ofNat_of_zero_le hg
    have e0 : ((G : Int) * 7 + 0) = ((G * 7 : Nat) : Int) := by push_cast; omega
    have e1 : ((G : Int) * 7 + 1) = ((G * 7 + 1 : Nat) : Int) := by push_cast; omega
    have e6 : ((G : Int) * 7 + 6) = ((G * 7 + 6 : Nat) : Int) := by push_cast; omega
    obtain ⟨⟨r0, r1, r2, r6⟩, rr⟩ := ha.rows G s p S y hsp hS hy
    have hyc := hw.coords S (List.mem_of_getElem? hS) _ (List.mem_of_getElem? hy)
    have hl := hlen _ hyc hd hcl
    refine ⟨(rank, lid, (G : Int)), x, he, hx, ?_, ?_, ?_, ?_, h8, ?_⟩
    · simp only
      rw [e0, atGet_nat, r0, hd]
    · simp only
      rw [e1, atGet_nat, r1, hcl]
    · intro c hcx
      have e2 : ((G : Int) * 7 + (2 + (c : Int))) = ((G * 7 + (2 + c) : Nat) : Int) := by
        push_cast; omega
      have hq := List.getElem?_eq_getElem hcx
      have hq' := List.getElem?_eq_getElem (l := y.cone) (i := c) (by omega)
      obtain ⟨e, n, k1, k2, k3⟩ := hc c _ _ hq hq'
      obtain ⟨n', hn, hn'⟩ := r2 c _ hq'
      rw [k2] at hn
      obtain rfl := Option.some.inj hn
      refine ⟨x.cone[c], e, hq, k1, ?_⟩
      simp only
      rw [e2, atGet_nat, hn', k3, hun]
    · intro h2
      simp only
      rw [e6, atGet_nat, r6, hr h2]
    · exact (valCoords_true hm (by omega) rr).2 hv

/-! ### The numbers of the points -/

theorem valMaxGlobal_ge {R : ValRank} (h : R.numbers.length = R.points.length) :
    ∃ m, valMaxGlobal R = some m ∧ ∀ (p : Nat) (g : Int), R.numbers[p]? = some g → g ≤ m := by
  obtain ⟨m, h1, h2⟩ := forLoop_invariant (a := 0) (b := R.points.length)
    (step := fun p s => (valGlobal R p).bind fun g => some (max s g)) (s := (0 : Int))
    (fun i m => ∀ (p : Nat) (g : Int), p < i → R.numbers[p]? = some g → g ≤ m)
    (Nat.zero_le _) (by
      rintro i m - hi hm
      have hn := List.getElem?_eq_getElem (l := R.numbers) (i := i) (by omega)
      refine ⟨max m (unsignedId (R.numbers[i]'(by omega))), ?_, ?_⟩
      · simp [valGlobal, hi, hn]
      · intro p g hp hg
        rcases Nat.lt_or_ge p i with hpi | hpi
        · exact le_trans (hm p g hpi hg) (le_max_left _ _)
        · have : p = i := by omega
          subst this
          rw [hn] at hg
          obtain rfl := Option.some.inj hg
          refine le_trans ?_ (le_max_right _ _)
          unfold unsignedId
          split <;> omega) (by intro p g hp; omega)
  refine ⟨m, h1, ?_⟩
  intro p g hg
  have := (List.getElem?_eq_some_iff.1 hg).1
  exact h2 p g (by omega) hg

theorem foldl_max_ge_int (l : List Int) (a : Int) :
    a ≤ l.foldl max a ∧ ∀ x ∈ l, x ≤ l.foldl max a := by
  induction l generalizing a with
  | nil => simp
  | cons x l ih =>
    obtain ⟨h1, h2⟩ := ih (max a x)
    rw [List.foldl_cons]
    refine ⟨le_trans (le_max_left _ _) h1, ?_⟩
    intro y hy
    rcases List.mem_cons.1 hy with rfl | hy
    · exact le_trans (le_max_right _ _) h1
    · exact h2 y hy

theorem valReduce_length {α : Type} [Max α] {n : Nat} (ts : List (List (Option α)))
    (h : ∀ t ∈ ts, t.length = n) : (valReduce n ts).length = n := by
  unfold valReduce
  suffices H : ∀ acc : List (Option α), acc.length = n →
      (ts.foldl (List.zipWith lowMax) acc).length = n from H _ (by simp)
  induction ts with
  | nil => intro acc h; exact h
  | cons t ts ih =>
    intro acc hacc
    rw [List.foldl_cons]
    exact ih (fun t' h' => h t' (List.mem_cons_of_mem _ h')) _
      (by simp [hacc, h t List.mem_cons_self])

/-- The reductions gather the rows of all ranks. -/
theorem valAll_of_tables {ranks : List ValRank} {np : Nat} {ss : List ValState}
    (hw : Spec.ValWf ranks) (hlen : ss.length = ranks.length)
    (hnp : ∀ (g s p : Nat), Spec.OwnedBy ranks g s p → g < np)
    (hl : Spec.AtMostFour ranks)
    (h : ∀ (r : Nat) R s, ranks[r]? = some R → ss[r]? = some s → ValTables R r np s) :
    ValAll ranks np (valReduce (np * 7) (ss.map ValState.ints))
      (valReduce (np * 8) (ss.map ValState.reals)) := by
  have hget : ∀ (r : Nat) s, ss[r]? = some s → ∃ R, ranks[r]? = some R ∧ ValTables R r np s := by
    intro r s hs
    have := (List.getElem?_eq_some_iff.1 hs).1
    have hR := List.getElem?_eq_getElem (l := ranks) (i := r) (by omega)
    exact ⟨_, hR, h r _ s hR hs⟩
  have hli : ∀ t ∈ ss.map ValState.ints, t.length = np * 7 := by
    intro t ht
    obtain ⟨s, hs, rfl⟩ := List.mem_map.1 ht
    obtain ⟨r, hr⟩ := List.mem_iff_getElem?.1 hs
    obtain ⟨R, _, hT⟩ := hget r s hr
    exact hT.ints
  have hlr : ∀ t ∈ ss.map ValState.reals, t.length = np * 8 := by
    intro t ht
    obtain ⟨s, hs, rfl⟩ := List.mem_map.1 ht
    obtain ⟨r, hr⟩ := List.mem_iff_getElem?.1 hs
    obtain ⟨R, _, hT⟩ := hget r s hr
    exact hT.reals
  refine ⟨valReduce_length _ hli, ?_, ?_⟩
  · intro g s p S y hsp hS hy
    have hgn := hnp g s p hsp
    have hy4 := hl g s p S y hsp hS hy
    obtain ⟨S', hS', hSn, hg0, hp⟩ := hsp
    rw [hS] at hS'
    obtain rfl := Option.some.inj hS'
    have hsl := (List.getElem?_eq_some_iff.1 hS).1
    have hs := List.getElem?_eq_getElem (l := ss) (i := s) (by omega)
    generalize ss[s]'(by omega) = st at hs
    obtain ⟨⟨r0, r1, r2, r6⟩, rr⟩ := (h s S st hS hs).rows p g y hSn hy
    have hother : ∀ (r' : Nat) s', r' ≠ s → ss[r']? = some s' →
        (∀ c < 7, s'.ints[g * 7 + c]? = some none) ∧
        ∀ c < 8, s'.reals[g * 8 + c]? = some none := by
      intro r' s' hne hs'
      obtain ⟨R', hR', hT⟩ := hget r' s' hs'
      refine hT.rest g hgn ?_
      intro p' hp' hn'
      exact hne (hw.owner g r' p' s p ⟨R', hR', hn', hg0, hp'⟩ ⟨S, hS, hSn, hg0, hp⟩).1
    have hI : ∀ c < 7, (valReduce (np * 7) (ss.map ValState.ints))[g * 7 + c]? =
        st.ints[g * 7 + c]? := by
      intro c hc
      refine valReduce_one (by omega) _ hli (r := s) (by simp [hs]) ?_
      intro r' t' hne ht'
      rw [List.getElem?_map, Option.map_eq_some_iff] at ht'
      obtain ⟨s', hs', rfl⟩ := ht'
      exact (hother r' s' hne hs').1 c hc
    have hR : ∀ c < 8, (valReduce (np * 8) (ss.map ValState.reals))[g * 8 + c]? =
        st.reals[g * 8 + c]? := by
      intro c hc
      refine valReduce_one (by omega) _ hlr (r := s) (by simp [hs]) ?_
      intro r' t' hne ht'
      rw [List.getElem?_map, Option.map_eq_some_iff] at ht'
      obtain ⟨s', hs', rfl⟩ := ht'
      exact (hother r' s' hne hs').2 c hc
    refine ⟨⟨?_, ?_, ?_, ?_⟩, ?_⟩
    · have := hI 0 (by omega)
      rw [Nat.add_zero] at this
      rw [this]; exact r0
    · rw [hI 1 (by omega)]; exact r1
    · intro c q hq
      have hc := (List.getElem?_eq_some_iff.1 hq).1
      rw [hI (2 + c) (by omega)]; exact r2 c q hq
    · rw [hI 6 (by omega)]; exact r6
    · intro c hc
      rw [hR c (by omega)]; exact rr c hc
  · intro g hg hno
    refine valReduce_none (by omega) _ hli ?_
    intro t ht
    obtain ⟨s, hs, rfl⟩ := List.mem_map.1 ht
    obtain ⟨r, hr⟩ := List.mem_iff_getElem?.1 hs
    obtain ⟨R, hR, hT⟩ := hget r s hr
    have := (hT.rest g hg (by
      intro p hp hn
      exact hno r p ⟨R, hR, hn, by omega, hp⟩)).1 0 (by omega)
    simpa using this

end NP
