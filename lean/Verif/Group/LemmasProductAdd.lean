import Verif.Group.PropsProduct

/-! Adding products to a group. -/

set_option autoImplicit false

namespace NP

open Spec

variable {V : Type}

/-! ## Lookup of properties -/

theorem symIndex_append (props : List (Nat × Nat)) (q : Nat × Nat) (ds : List ((Nat × Nat) × V))
    (s : Nat) : (⟨props ++ [q], ds⟩ : ProdSpec V).symIndex s =
      if q.1 = s then some props.length else (⟨props, ds⟩ : ProdSpec V).symIndex s := by
  unfold ProdSpec.symIndex
  dsimp only
  rw [List.zipIdx_append, List.foldl_append]
  simp

theorem symIndex_eq (p : ProdSpec V) (s : Nat) (hn : (p.props.map Prod.fst).Nodup) :
    p.symIndex s = propertyIndex p.props s := by
  obtain ⟨props, ds⟩ := p
  dsimp only at hn ⊢
  induction props using List.reverseRecOn with
  | nil => rfl
  | append_singleton l q ih =>
    rw [List.map_append, List.nodup_append] at hn
    rw [symIndex_append, ih hn.1]
    unfold propertyIndex
    rw [List.findIdx?_append]
    by_cases h : q.1 = s
    · rw [if_pos h]
      have : l.findIdx? (fun q => q.1 == s) = none := by
        rw [List.findIdx?_eq_none_iff]
        intro x hx
        rw [beq_eq_false_iff_ne]
        intro hc
        exact hn.2.2 x.1 (List.mem_map_of_mem hx) q.1 (by simp) (by rw [hc, h])
      rw [this]
      simp [List.findIdx?_cons, h]
    · rw [if_neg h]
      simp [List.findIdx?_cons, h]

theorem propertyIndex_some {props : List (Nat × Nat)} {s j : Nat}
    (h : propertyIndex props s = some j) : ∃ n, props[j]? = some (s, n) := by
  unfold propertyIndex at h
  rw [List.findIdx?_eq_some_iff_getElem] at h
  obtain ⟨h1, h2, -⟩ := h
  refine ⟨props[j].2, ?_⟩
  rw [List.getElem?_eq_getElem h1]
  simp only [beq_iff_eq] at h2
  rw [← h2]

theorem propertyIndex_none {props : List (Nat × Nat)} {s : Nat}
    (h : propertyIndex props s = none) : ∀ q ∈ props, q.1 ≠ s := by
  unfold propertyIndex at h
  rw [List.findIdx?_eq_none_iff] at h
  intro q hq
  have := h q hq
  simpa using this

/-! ## Room for the entries -/

theorem st_length_eq {m m' : List V} {i : Nat} {v : V} (h : st m i v = some m') :
    m'.length = m.length := by
  unfold st at h
  by_cases hi : i < m.length
  · rw [if_pos hi] at h
    cases h
    rw [List.length_set]
  · rw [if_neg hi] at h; cases h

theorem prodRun_room [Zero V] [Add V] {mem : Fresh V} {props : List (Nat × Nat)}
    {calls : List (ProdCall V)} {s : Nat × ProdHalf V} (h : prodRun mem props calls = some s) :
    0 < s.1 → s.1 * (props.map Prod.snd).sum ≤ s.2.data.length := by
  have key : ∀ (calls : List (ProdCall V)) (s s' : Nat × ProdHalf V), HalfShape props s.2 →
      (0 < s.1 → s.1 * (props.map Prod.snd).sum ≤ s.2.data.length) →
      runItems prodCall calls s = some s' →
      (0 < s'.1 → s'.1 * (props.map Prod.snd).sum ≤ s'.2.data.length) := by
    intro calls
    induction calls with
    | nil =>
      intro s s' hs hr he
      simp only [runItems_nil, Option.some.injEq] at he
      rw [← he]; exact hr
    | cons c cs ih =>
      intro s s' hs hr he
      rw [runItems_cons] at he
      obtain ⟨s1, h1, h2⟩ := Option.bind_eq_some_iff.1 he
      cases c with
      | setDefault sym comp v =>
        simp only [prodCall, Option.some.injEq] at h1
        subst h1
        exact ih (s.1, { s.2 with spec := s.2.spec.setDefault sym comp v }) s'
          ⟨hs.props, hs.offsets⟩ hr h2
      | reset sched mem num =>
        simp only [prodCall, Option.map_eq_some_iff] at h1
        obtain ⟨h', e1, e2⟩ := h1
        subst e2
        obtain ⟨h'', f1, f2, -, f4, -⟩ := reset_spec hs sched mem num
        rw [f1] at e1
        cases e1
        exact ih _ s' f2 f4 h2
      | access a =>
        simp only [prodCall, Option.map_eq_some_iff] at h1
        obtain ⟨h', e1, e2⟩ := h1
        subst e2
        have : HalfShape props h' ∧ h'.data.length = s.2.data.length := by
          cases a with
          | write t v =>
            simp only [ProdHalf.access, ProdHalf.write] at e1
            obtain ⟨i, -, e1⟩ := Option.bind_eq_some_iff.1 e1
            obtain ⟨d, e0, e1⟩ := Option.map_eq_some_iff.1 e1
            subst e1
            exact ⟨⟨hs.props, hs.offsets⟩, st_length_eq e0⟩
          | add t v =>
            simp only [ProdHalf.access, ProdHalf.fetchAdd] at e1
            obtain ⟨x, e1, e3⟩ := Option.map_eq_some_iff.1 e1
            obtain ⟨i, -, e1⟩ := Option.bind_eq_some_iff.1 e1
            obtain ⟨o, -, e1⟩ := Option.bind_eq_some_iff.1 e1
            obtain ⟨d, e0, e1⟩ := Option.map_eq_some_iff.1 e1
            subst e1
            subst e3
            exact ⟨⟨hs.props, hs.offsets⟩, st_length_eq e0⟩
        exact ih _ s' this.1 (by dsimp only; rw [this.2]; exact hr) h2
      | set sched values =>
        simp only [prodCall, Option.map_eq_some_iff] at h1
        obtain ⟨h', e1, e2⟩ := h1
        subst e2
        unfold ProdHalf.set at e1
        by_cases h0 : s.1 > 0
        · rw [if_pos h0] at e1
          obtain ⟨d, e0, e1⟩ := Option.map_eq_some_iff.1 e1
          subst e1
          have hd : d.length = s.2.data.length := by
            have : ∀ (l : List Nat) (d d' : List V), runItems (s.2.setProp s.1 values) l d = some d' →
                d'.length = d.length := by
              intro l
              induction l with
              | nil => intro d d' h; cases h; rfl
              | cons a l ih =>
                intro d d' h
                rw [runItems_cons] at h
                obtain ⟨d1, g1, g2⟩ := Option.bind_eq_some_iff.1 h
                rw [ih _ _ g2, setProp_shape g1]
            exact this _ _ _ e0
          refine ih (s.1, { s.2 with data := d }) s' ⟨hs.props, hs.offsets⟩ ?_ h2
          dsimp only
          rw [hd]; exact hr
        · rw [if_neg h0] at e1
          cases e1
          exact ih _ s' hs hr h2
  exact key calls _ s ⟨rfl, rfl⟩ (fun h0 => absurd h0 (Nat.lt_irrefl 0)) h

theorem prodRun_read [Zero V] [Add V] {mem : Fresh V} {props : List (Nat × Nat)}
    {calls : List (ProdCall V)} {num : Nat} {h : ProdHalf V}
    (hr : prodRun mem props calls = some (num, h)) {t : ProdEntry} (ht : t.In props num) :
    ∃ v, h.read num t.product t.property t.component = some v := by
  have hs := prodRun_shape hr
  have hroom := prodRun_room hr (by have := ht.1; dsimp only; omega)
  dsimp only at hs hroom
  rw [hs.read ht]
  have := prodPos_lt ht
  exact ⟨_, List.getElem?_eq_getElem (by omega)⟩

/-! ## Layers -/

/-- The cell named by an integer, if there is one. -/
def cellOf (ncell : Nat) (z : Int) : Option Nat := if -1 < z ∧ z < ncell then some z.toNat else none

theorem cellOf_some {ncell : Nat} {z : Int} {c : Nat} :
    cellOf ncell z = some c ↔ z = (c : Int) ∧ c < ncell := by
  unfold cellOf
  constructor
  · intro h
    by_cases hz : -1 < z ∧ z < ncell
    · rw [if_pos hz] at h
      cases h
      omega
    · rw [if_neg hz] at h; cases h
  · rintro ⟨rfl, h⟩
    rw [if_pos (by omega)]
    rfl

theorem newLayers_any {s : Sched} {ncell : Nat} {ctr : List Nat} (hl : ctr.length = ncell)
    {cells lay : List Int} (hlay : lay.length = cells.length) (hpos : 0 < cells.length) :
    ∃ (N : List Nat) (L : List Int) (rk : Nat → Nat),
      getNewLayers s ncell ctr cells.length cells lay = some (N, L) ∧
      N.length = ncell ∧
      (∀ i c, (cells[i]?).bind (cellOf ncell) = some c →
        L[i]? = some (((ctr.getD c 0 + rk i : Nat) : Int))) ∧
      (∀ i, i < cells.length → (cells[i]?).bind (cellOf ncell) = none → L[i]? = some (-1)) ∧
      (∀ c, c < ncell → N[c]? = some (ctr.getD c 0 +
        ((List.range cells.length).filter fun i =>
          (cells[i]?).bind (cellOf ncell) == some c).length)) ∧
      (∀ i c, (cells[i]?).bind (cellOf ncell) = some c → rk i <
        ((List.range cells.length).filter fun i =>
          (cells[i]?).bind (cellOf ncell) == some c).length) ∧
      (∀ i j c, (cells[i]?).bind (cellOf ncell) = some c →
        (cells[j]?).bind (cellOf ncell) = some c → rk i = rk j → i = j) ∧
      (∀ c r, r < ((List.range cells.length).filter fun i =>
          (cells[i]?).bind (cellOf ncell) == some c).length →
        ∃ i, (cells[i]?).bind (cellOf ncell) = some c ∧ rk i = r) := by
  let key : Nat → Option Nat := fun i => (cells[i]?).bind (cellOf ncell)
  have hperm := s.perm (List.range cells.length)
  have hnd : (s.order (List.range cells.length)).Nodup := hperm.nodup_iff.2 List.nodup_range
  have hkc : ∀ c, keyCount key (s.order (List.range cells.length)) c =
      ((List.range cells.length).filter fun i => key i == some c).length := by
    intro c
    rw [keyCount_perm hperm]
    unfold keyCount
    congr 1
    apply List.filter_congr
    intro i _
    by_cases h : key i = some c <;> simp [h]
  have hmem : ∀ i c, key i = some c → i ∈ s.order (List.range cells.length) := by
    intro i c hp
    rw [hperm.mem_iff, List.mem_range]
    obtain ⟨z, hz, -⟩ := Option.bind_eq_some_iff.1 hp
    exact (List.getElem?_eq_some_iff.1 hz).1
  have hkl : ∀ i c, key i = some c → c < ncell := by
    intro i c hp
    obtain ⟨z, -, hz⟩ := Option.bind_eq_some_iff.1 hp
    exact (cellOf_some.1 hz).2
  have h1 := runItems_fetch (key := key) (store := fun i off (l : List Int) => st l i (off : Int))
    (skip := fun i l => st l i (-1)) hnd (ctr := ctr) (by
      intro i hi c hk
      have := hkl i c hk
      omega) lay
  obtain ⟨L, h2, h3, h4, -⟩ := runItems_put (items := s.order (List.range cells.length)) (m := lay)
    (step := fun i l => match key i with
        | none => st l i (-1)
        | some c => st l i ((ctr.getD c 0 + rank key (s.order (List.range cells.length)) i : Nat) : Int))
    (fun i => some i) (fun i => match key i with
      | none => -1
      | some c => ((ctr.getD c 0 + rank key (s.order (List.range cells.length)) i : Nat) : Int))
    (by
      intro i hi a _
      cases hk : key i <;> simp only)
    (by
      intro i _ j _ d h h'
      simp only [Option.some.injEq] at h h'
      rw [h, h'])
    (by
      intro i hi d h
      simp only [Option.some.injEq] at h
      rw [hperm.mem_iff, List.mem_range] at hi
      omega)
  refine ⟨addCounts key (s.order (List.range cells.length)) ctr, L,
    rank key (s.order (List.range cells.length)), ?_, by simp [addCounts, hl], ?_, ?_, ?_, ?_, ?_, ?_⟩
  · unfold getNewLayers
    rw [if_pos hpos]
    rw [runItems_congr (step' := fetchStep key (fun i off (l : List Int) => st l i (off : Int))
      (fun i l => st l i (-1))) ?_, h1]
    · exact congrArg (Option.map _) h2
    · intro i hi st'
      rw [hperm.mem_iff, List.mem_range] at hi
      unfold newLayerStep fetchStep
      have hci : cells[i]? = some cells[i] := List.getElem?_eq_getElem hi
      generalize cells[i] = z at hci
      have hk : key i = cellOf ncell z := by simp only [key, hci, Option.bind_some]
      simp only [rd, hci, Option.bind_some, hk]
      unfold cellOf
      by_cases hz : -1 < z ∧ z < ncell
      · rw [if_pos hz, if_pos hz]
      · rw [if_neg hz, if_neg hz]
  · intro i c hp
    have := h4 i (hmem i c hp) i rfl
    rw [this]
    have hp' : key i = some c := hp
    rw [hp']
  · intro i hi hp
    have := h4 i (by rw [hperm.mem_iff, List.mem_range]; exact hi) i rfl
    rw [this]
    have hp' : key i = none := hp
    rw [hp']
  · intro c hc'
    rw [getElem?_addCounts, get_getD hl hc', hkc]
    rfl
  · intro i c hp
    have := rank_lt (key := key) (hmem i c hp) hp
    rw [hkc] at this
    exact this
  · intro i j c hp hq hr
    exact rank_inj (key := key) (hmem i c hp) hp hq hr
  · intro c r hr
    have hr' : r < keyCount key (s.order (List.range cells.length)) c := by rw [hkc]; exact hr
    obtain ⟨i, hi, hk, hrr⟩ := rank_surj hnd hr'
    exact ⟨i, hk, hrr⟩

/-! ## Adding -/

theorem find_eq {pm : ProdMatrix} (h : MatrixOk pm) (s : Nat) :
    pm.find s = match propertyIndex pm.real.spec.props s with
      | some j => some (pm.real, j)
      | none => (propertyIndex pm.int.spec.props s).map fun j => (pm.int, j) := by
  have hn := h.names
  rw [List.map_append, List.nodup_append] at hn
  unfold ProdMatrix.find
  rw [symIndex_eq _ _ hn.1, symIndex_eq _ _ hn.2.1]
  rfl

theorem specContains_iff {dats : List Dat} {props : List (Nat × Nat)} :
    specContains dats props = true ↔ ∀ q ∈ props, ∃ d ∈ dats, d.sym = q.1 ∧ d.ncomp = q.2 := by
  unfold specContains
  simp only [List.all_eq_true, List.any_eq_true, Bool.and_eq_true, beq_iff_eq]

theorem fits_iff {g : Group} {pm : ProdMatrix} :
    (specContains g.dats pm.real.spec.props = true ∧ specContains g.dats pm.int.spec.props = true) ↔
      MatrixFits g pm := by
  rw [specContains_iff, specContains_iff]
  unfold MatrixFits
  constructor
  · rintro ⟨h1, h2⟩ q hq
    rcases List.mem_append.1 hq with h | h
    · exact h1 q h
    · exact h2 q h
  · intro h
    exact ⟨fun q hq => h q (List.mem_append_left _ hq), fun q hq => h q (List.mem_append_right _ hq)⟩

/-- A property found in the matrix. -/
theorem find_some {pm : ProdMatrix} (h : MatrixOk pm) {s : Nat} {x : ProdHalf Int × Nat}
    (hx : pm.find s = some x) :
    ∃ n, (s, n) ∈ pm.real.spec.props ++ pm.int.spec.props ∧ x.1.spec.numComponents s = some n ∧
      ∀ i c, i < pm.num → c < n → ∃ v, x.1.read pm.num i x.2 c = some v := by
  have hn := h.names
  rw [List.map_append, List.nodup_append] at hn
  obtain ⟨memR, callsR, hR⟩ := h.real
  obtain ⟨memI, callsI, hI⟩ := h.int
  rw [find_eq h] at hx
  cases hj : propertyIndex pm.real.spec.props s with
  | some j =>
    rw [hj] at hx
    cases hx
    obtain ⟨n, h1⟩ := propertyIndex_some hj
    refine ⟨n, List.mem_append_left _ (List.mem_of_getElem? h1), ?_, fun i c hi hc =>
      prodRun_read hR (t := ⟨i, j, c⟩) ⟨hi, _, h1, hc⟩⟩
    unfold ProdSpec.numComponents
    rw [symIndex_eq _ _ hn.1, hj]
    dsimp only
    simp only [rd]
    rw [h1]
    rfl
  | none =>
    rw [hj] at hx
    obtain ⟨j, hj', hx⟩ := Option.map_eq_some_iff.1 hx
    subst hx
    obtain ⟨n, h1⟩ := propertyIndex_some hj'
    refine ⟨n, List.mem_append_right _ (List.mem_of_getElem? h1), ?_, fun i c hi hc =>
      prodRun_read hI (t := ⟨i, j, c⟩) ⟨hi, _, h1, hc⟩⟩
    unfold ProdSpec.numComponents
    rw [symIndex_eq _ _ hn.2.1, hj']
    dsimp only
    simp only [rd]
    rw [h1]
    rfl

theorem compsOk_of_fits {g : Group} {pm : ProdMatrix} (h : MatrixOk pm) (hf : MatrixFits g pm)
    (hn : (g.dats.map (·.sym)).Nodup) {dats : List Dat} (hs : SameSyms g.dats dats) :
    dats.all (productCompsOk pm) = true := by
  rw [List.all_eq_true]
  intro d hd
  obtain ⟨d0, h1, h2, h3⟩ := forall₂_mem_right hs hd
  unfold productCompsOk
  cases hx : pm.find d.sym with
  | none => rfl
  | some x =>
    obtain ⟨n, a1, a2, -⟩ := find_some h hx
    dsimp only
    rw [a2]
    obtain ⟨d', b1, b2, b3⟩ := hf _ a1
    have : d' = d0 := List.inj_on_of_nodup_map hn b1 h1 (by rw [b2, h2])
    subst this
    dsimp only at b3 ⊢
    rw [h3, b3, beq_self_eq_true]

/-- The value of a component of a product. -/
def productEntry (g : Group) (pm : ProdMatrix) (par : Option Parents) (sj : Nat × Nat) (i : Nat) :
    Option Int :=
  match propertyIndex pm.real.spec.props sj.1 with
    | some j => pm.real.read pm.num i j sj.2
    | none => match propertyIndex pm.int.spec.props sj.1 with
      | some j => pm.int.read pm.num i j sj.2
      | none => match par with
        | none => some 0
        | some p =>
          if sj.1 ∈ p.dats.map (·.sym) then
            (p.cells[i]?).bind fun c => (p.layers[i]?).bind fun l =>
              sourceMem g p.src ⟨sj.1, c.toNat, sj.2, l.toNat⟩
          else some 0

theorem lookup_isSome (dats : List Dat) (s : Nat) :
    (dats.find? (fun x => x.sym == s)).isSome = decide (s ∈ dats.map (·.sym)) :=
  dat?_isSome (g := { emptyGroup 0 0 0 0 0 with dats := dats }) (s := s)

/-- Products outside the cells are skipped. -/
theorem productStep_skip {pm : ProdMatrix} {par : Option Parents} {cells layers : List Int}
    {it : (Nat × Nat) × Nat} {z : Int} (hz : cells[it.2]? = some z)
    (hl : layers[it.2]? = some (-1))
    (hp : ∀ p, par = some p → it.2 < p.cells.length ∧ it.2 < p.layers.length) (m : Mem) :
    productDataStep pm par cells layers it m = some m := by
  unfold productDataStep
  simp only [rd]
  rw [hz, Option.bind_some, hl, Option.bind_some]
  cases pm.find it.1.1 with
  | some x => rfl
  | none =>
    cases par with
    | none => rfl
    | some p =>
      obtain ⟨h1, h2⟩ := hp p rfl
      dsimp only
      rw [List.getElem?_eq_getElem h1, List.getElem?_eq_getElem h2]
      by_cases h : (p.dats.find? fun x => x.sym == it.1.1).isSome = true
      · rw [if_pos h]; rfl
      · rw [if_neg h]; rfl

theorem productStep_store {g : Group} {pm : ProdMatrix} (hm : MatrixOk pm) {par : Option Parents}
    {cells layers : List Int} {it : (Nat × Nat) × Nat} {c row : Nat}
    (hz : cells[it.2]? = some (c : Int)) (hl : layers[it.2]? = some (row : Int)) {m : Mem} {v : Int}
    (hv : productEntry g pm par it.1 it.2 = some v)
    (hp : ∀ p, par = some p → it.1.1 ∈ p.dats.map (·.sym) → ∃ cs ls : Nat,
      p.cells[it.2]? = some (cs : Int) ∧ p.layers[it.2]? = some (ls : Int) ∧
      p.src.read m ⟨it.1.1, cs, it.1.2, ls⟩ = sourceMem g p.src ⟨it.1.1, cs, it.1.2, ls⟩) :
    productDataStep pm par cells layers it m = mst m ⟨it.1.1, c, it.1.2, row⟩ v := by
  unfold productDataStep
  simp only [rd]
  rw [hz, Option.bind_some, hl, Option.bind_some, find_eq hm]
  unfold productEntry at hv
  have hc : index (c : Int) = some c := by
    unfold index; rw [if_pos (by omega)]; rfl
  cases hj : propertyIndex pm.real.spec.props it.1.1 with
  | some j =>
    rw [hj] at hv
    dsimp only at hv ⊢
    rw [if_pos (by omega), hc, Option.bind_some, hv, Option.bind_some]
    rfl
  | none =>
    rw [hj] at hv
    cases hj' : propertyIndex pm.int.spec.props it.1.1 with
    | some j =>
      rw [hj'] at hv
      simp only [Option.map_some]
      dsimp only at hv
      rw [if_pos (by omega), hc, Option.bind_some, hv, Option.bind_some]
      rfl
    | none =>
      rw [hj'] at hv
      simp only [Option.map_none]
      cases par with
      | none =>
        dsimp only at hv ⊢
        cases hv
        rw [if_pos (by omega), hc, Option.bind_some]
        rfl
      | some p =>
        dsimp only at hv ⊢
        rw [lookup_isSome]
        by_cases h : it.1.1 ∈ p.dats.map (·.sym)
        · rw [if_pos h] at hv
          obtain ⟨cs, ls, e1, e2, e3⟩ := hp p rfl h
          have hcs : index (cs : Int) = some cs := by
            unfold index; rw [if_pos (by omega)]; rfl
          have hls : index (ls : Int) = some ls := by
            unfold index; rw [if_pos (by omega)]; rfl
          rw [e1, Option.bind_some, e2, Option.bind_some] at hv
          simp only [Int.toNat_natCast] at hv
          rw [if_pos (by simpa using h), e1, Option.bind_some, e2, Option.bind_some,
            if_pos (by omega), hc, Option.bind_some, hcs, Option.bind_some, hls, Option.bind_some,
            e3, hv, Option.bind_some]
          rfl
        · rw [if_neg h] at hv
          cases hv
          rw [if_neg (by simpa using h), if_pos (by omega), hc, Option.bind_some]
          rfl

theorem addProducts_spec (e : Env) {g : Group} (hg : Consistent g) {pm : ProdMatrix}
    (hm : MatrixOk pm) (hf : MatrixFits g pm) {par : Option Parents}
    (hpar : ∀ p, par = some p → ParentsOk g pm p) {cells : List Int}
    (hlen : cells.length = pm.num)
    (hcells : ∀ i, i < pm.num → cells[i]? = productCell g pm par i)
    (hpc : pm.num ≠ 0 →
      productCells g pm (par.map fun p => (p.cells, p.layers)) = some cells) :
    ∃ g', addProducts e g pm par = some g' ∧ Consistent g' ∧ SameShape g g' ∧
      g'.version = g.version + 1 ∧
      ∀ c, c < g.ncell → ∃ l, contents g' c = contents g c ++ l ∧
        l.Perm (((List.range pm.num).filter fun i => productCell g pm par i == some (c : Int)).map
          (productParticle g pm par)) := by
  unfold addProducts
  rw [if_neg (not_not.2 (fits_iff.2 hf))]
  by_cases h0 : pm.num = 0
  · rw [if_pos h0]
    refine ⟨_, rfl, hg.withVersion _, ⟨rfl, rfl, rfl, rfl, rfl, rfl⟩, rfl, fun c _ => ⟨[], ?_, ?_⟩⟩
    · rw [List.append_nil]; rfl
    · rw [h0]; exact List.Perm.refl _
  rw [if_neg h0, hpc h0, Option.bind_some, ← hlen]
  obtain ⟨N, L, rk, h1, h2, h3, h3', h4, h5, h6, h7⟩ := newLayers_any (s := e.sched 0) hg.len
    (cells := cells) (lay := (e.freshI 0 cells.length).1) (by exact (e.freshI 0 cells.length).2)
    (by omega)
  rw [h1]
  simp only [Option.bind_some]
  obtain ⟨es, m2, dats2, k1, k2, k3, k4, k5, k6, k7⟩ := grow_spec (e := e) hg (N := N) h2 (by
    intro c n n' hn hn'
    have hc : c < g.ncell := by
      have := (List.getElem?_eq_some_iff.1 hn).1
      rw [hg.len] at this; exact this
    rw [h4 c hc] at hn'
    have := getD_eq hn
    simp only [Option.some.injEq] at hn'
    omega)
  rw [k1]
  simp only [Option.bind_some]
  rw [k2]
  simp only [Option.bind_some]
  rw [if_neg (not_not.2 (compsOk_of_fits hm hf hg.nodup k5))]
  have hfl := flatComps_congr k5
  -- the products that are added
  have hhome : ∀ i c, (cells[i]?).bind (cellOf g.ncell) = some c ↔
      i < pm.num ∧ c < g.ncell ∧ productCell g pm par i = some (c : Int) := by
    intro i c
    constructor
    · intro h
      obtain ⟨z, hz, hc⟩ := Option.bind_eq_some_iff.1 h
      obtain ⟨rfl, hc⟩ := cellOf_some.1 hc
      have hi := (List.getElem?_eq_some_iff.1 hz).1
      rw [hlen] at hi
      exact ⟨hi, (by assumption), by rw [← hcells i hi]; exact hz⟩
    · rintro ⟨hi, hc, h⟩
      rw [hcells i hi, h, Option.bind_some]
      exact cellOf_some.2 ⟨rfl, hc⟩
  let home : Nat → Nat := fun i => ((cells[i]?).bind (cellOf g.ncell)).getD 0
  have hhomeP : ∀ i, ((cells[i]?).bind (cellOf g.ncell)).isSome = true →
      (cells[i]?).bind (cellOf g.ncell) = some (home i) := by
    intro i hi
    obtain ⟨c, hc⟩ := Option.isSome_iff_exists.1 hi
    simp only [home, hc, Option.getD_some]
  -- values
  have hentry : ∀ sj ∈ flatComps g.dats, ∀ i,
      ((cells[i]?).bind (cellOf g.ncell)).isSome = true →
      ∃ v, productEntry g pm par sj i = some v := by
    intro sj hsj i hi
    obtain ⟨hi', hc', hpcell⟩ := (hhome i _).1 (hhomeP i hi)
    have hnc : ∀ n, (sj.1, n) ∈ pm.real.spec.props ++ pm.int.spec.props → sj.2 < n := by
      intro n hn
      obtain ⟨d, hd, hd1, hd2⟩ := mem_flatComps.1 hsj
      obtain ⟨d', hd', e1, e2⟩ := hf _ hn
      have : d' = d := List.inj_on_of_nodup_map hg.nodup hd' hd (by rw [e1, hd1])
      subst this
      dsimp only at e2
      omega
    have hfind := find_eq hm sj.1
    unfold productEntry
    cases hj : propertyIndex pm.real.spec.props sj.1 with
    | some j =>
      rw [hj] at hfind
      obtain ⟨n, a1, -, a3⟩ := find_some hm hfind
      exact a3 i sj.2 hi' (hnc n a1)
    | none =>
      rw [hj] at hfind
      cases hj' : propertyIndex pm.int.spec.props sj.1 with
      | some j =>
        rw [hj'] at hfind
        obtain ⟨n, a1, -, a3⟩ := find_some hm hfind
        exact a3 i sj.2 hi' (hnc n a1)
      | none =>
        cases par with
        | none => exact ⟨0, rfl⟩
        | some p =>
          dsimp only
          by_cases hmem : sj.1 ∈ p.dats.map (·.sym)
          · rw [if_pos hmem]
            obtain ⟨cs, ls, e1, e2, e3, -⟩ := (hpar p rfl).exist i _ hi' hc' hpcell
            rw [e1, Option.bind_some, e2, Option.bind_some]
            exact Option.isSome_iff_exists.1 (e3 sj hsj hmem)
          · rw [if_neg hmem]; exact ⟨0, rfl⟩
  -- drop the products that are not added
  have hperm := (e.sched 1).perm (compItems dats2 cells.length)
  have hfilter := runItems_filter (step := productDataStep pm par cells L)
    (p := fun it => ((cells[it.2]?).bind (cellOf g.ncell)).isSome)
    (items := (e.sched 1).order (compItems dats2 cells.length)) (by
      rintro ⟨sj, i⟩ hit hp s
      rw [hperm.mem_iff, mem_compItems] at hit
      obtain ⟨-, hi⟩ := hit
      dsimp only at hi hp
      refine productStep_skip (z := cells[i]) (List.getElem?_eq_getElem hi)
        (h3' i hi (by simpa using hp)) (fun p hp' => ?_) s
      have := hpar p hp'
      exact ⟨by have := this.cells; dsimp only; omega, by have := this.layers; dsimp only; omega⟩) m2
  rw [hfilter]
  obtain ⟨m3, r1, r2, r3, r4⟩ := runItems_rows
    (step := productDataStep pm par cells L)
    (items := ((e.sched 1).order (compItems dats2 cells.length)).filter
      fun it => ((cells[it.2]?).bind (cellOf g.ncell)).isSome)
    (dats := dats2) (m := m2)
    (P := fun i => ((cells[i]?).bind (cellOf g.ncell)).isSome = true)
    (by
      intro it
      rw [List.mem_filter, hperm.mem_iff, mem_compItems]
      constructor
      · rintro ⟨⟨a, -⟩, b⟩; exact ⟨a, b⟩
      · rintro ⟨a, b⟩
        refine ⟨⟨a, ?_⟩, b⟩
        have := ((hhome _ _).1 (hhomeP _ b)).1
        omega)
    home (fun i => g.hNpart.getD (home i) 0 + rk i)
    (fun it => (productEntry g pm par it.1 it.2).getD 0)
    (by
      rintro ⟨sj, i⟩ hsj hi m' hm'
      dsimp only at hsj hi hm' ⊢
      rw [hfl] at hsj
      obtain ⟨v, hv⟩ := hentry sj hsj i hi
      have hh := hhomeP i hi
      obtain ⟨hi', hc', hpcell⟩ := (hhome i _).1 hh
      rw [hv, Option.getD_some]
      refine productStep_store hm (g := g) (it := (sj, i)) (by rw [hcells i hi']; exact hpcell)
        (h3 i _ hh) hv ?_
      intro p hp hmem
      subst hp
      obtain ⟨cs, ls, e1, e2, e3, e4⟩ := (hpar p rfl).exist i _ hi' hc' hpcell
      refine ⟨cs, ls, e1, e2, ?_⟩
      cases hsrc : p.src with
      | other m'' => rfl
      | self =>
        rw [hsrc] at e4
        dsimp only at e4
        obtain ⟨hcell, hlt⟩ := e4
        have e5 := k7 sj hsj cs ls _ (get_getD hg.len hcell) hlt
        simp only [SrcMem.read]
        rw [hm' _ (by
          rintro j hj ⟨q1, q2⟩
          dsimp only at q1 q2
          rw [← q1] at q2
          unfold count at hlt
          omega), e5]
        rfl)
    (by
      intro i j hi hj q1 q2
      rw [q1] at q2
      have b := hhomeP j hj
      have a := hhomeP i hi
      rw [q1] at a
      exact h6 i j _ a b (by omega))
    (by
      intro sj hsj i hi
      have a := hhomeP i hi
      have := h5 i _ a
      exact rows_isSome h2 (fun d hd => ⟨(k6 d hd).1, (k6 d hd).2.2.2⟩) hsj
        (h4 _ ((hhome i _).1 a).2.1) (by omega))
  rw [r1]
  simp only [Option.bind_some]
  obtain ⟨dats3, u1, u2, u3⟩ := finish_spec (m3 := m3) hg h2 k3 k4 k5 k6 r4
  rw [u1]
  refine ⟨_, rfl, u3 _, SameShape.of_sameSyms u2 rfl rfl rfl rfl rfl, rfl, ?_⟩
  intro c hcn
  have hfl3 := flatComps_congr u2
  have happ := contents_append (g := g) (g' := invalidateVersion { g with
      hNpart := N, dNpart := N, npartEs := es, npartLocal := N.sum, mem := m3, dats := dats3 })
    (c := c) (n := g.hNpart.getD c 0) hfl3 (get_getD hg.len hcn) (h4 c hcn) (by
      intro sj hsj k hk
      simp only [invalidateVersion]
      rw [r3 _ (by
        rintro i hi ⟨h1, h2⟩
        simp only at h1 h2
        rw [← h1] at h2
        omega)]
      exact k7 sj hsj c k _ (get_getD hg.len hcn) hk)
  refine ⟨_, happ, ?_⟩
  have hff : ((List.range cells.length).filter fun i => (cells[i]?).bind (cellOf g.ncell) == some c) =
      (List.range pm.num).filter fun i => productCell g pm par i == some (c : Int) := by
    rw [hlen]
    apply List.filter_congr
    intro i hi
    rw [List.mem_range] at hi
    have := hhome i c
    by_cases h : productCell g pm par i = some (c : Int)
    · rw [this.2 ⟨hi, hcn, h⟩, h, beq_self_eq_true, beq_self_eq_true]
    · have hne : (cells[i]?).bind (cellOf g.ncell) ≠ some c := fun hx => h (this.1 hx).2.2
      rw [beq_eq_false_iff_ne.2 hne, beq_eq_false_iff_ne.2 h]
  have hin : ∀ i ∈ (List.range pm.num).filter fun i => productCell g pm par i == some (c : Int),
      (cells[i]?).bind (cellOf g.ncell) = some c ∧ home i = c := by
    intro i hi
    rw [List.mem_filter, List.mem_range, beq_iff_eq] at hi
    have := (hhome i c).2 ⟨hi.1, hcn, hi.2⟩
    exact ⟨this, by simp only [home, this, Option.getD_some]⟩
  rw [hff, hlen]
  refine map_range_perm (f := rk) (List.nodup_range.filter _) ?_ ?_ ?_ ?_
  · intro i hi j hj hr
    exact h6 i j c (hin i hi).1 (hin j hj).1 hr
  · intro i hi
    have := h5 i c (hin i hi).1
    rw [hff] at this
    exact this
  · intro r hr
    obtain ⟨i, hi, hrr⟩ := h7 c r (by rw [hff]; exact hr)
    refine ⟨i, ?_, hrr⟩
    obtain ⟨a1, -, a3⟩ := (hhome i c).1 hi
    rw [List.mem_filter, List.mem_range, beq_iff_eq]
    exact ⟨a1, a3⟩
  · intro i hi
    obtain ⟨a1, a2⟩ := hin i hi
    unfold particle
    rw [show productParticle g pm par i =
      (flatComps g.dats).map fun sj => productEntry g pm par sj i from rfl]
    simp only [invalidateVersion]
    rw [hfl3]
    apply List.map_congr_left
    intro sj hsj
    have hsome : ((cells[i]?).bind (cellOf g.ncell)).isSome = true := by rw [a1]; rfl
    have := r2 sj (by rw [hfl]; exact hsj) i hsome
    dsimp only at this
    rw [a2] at this
    rw [this]
    obtain ⟨v, hv⟩ := hentry sj hsj i hsome
    rw [hv]
    rfl

end NP
