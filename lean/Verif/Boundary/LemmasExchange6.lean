import Verif.Boundary.LemmasExchange5
import Mathlib.Algebra.BigOperators.Group.List.Basic

/-!
# Lemmas for the exchange of face data: packing and unpacking
-/

set_option autoImplicit false

namespace NP

theorem mem_surfItems {sched : Sched} {n ncomp : Nat} {x : Nat × Nat} :
    x ∈ surfItems sched n ncomp ↔ x.1 < n ∧ x.2 < ncomp := by
  unfold surfItems
  rw [(sched.perm _).mem_iff, List.mem_flatMap]
  constructor
  · rintro ⟨i, hi, h⟩
    obtain ⟨c, hc, rfl⟩ := List.mem_map.1 h
    exact ⟨List.mem_range.1 hi, List.mem_range.1 hc⟩
  · rintro ⟨h1, h2⟩
    exact ⟨x.1, List.mem_range.2 h1, List.mem_map.2 ⟨x.2, List.mem_range.2 h2, rfl⟩⟩

theorem row_inj {n a b c d : Nat} (hc : c < n) (hd : d < n) (h : a * n + c = b * n + d) :
    a = b ∧ c = d := by
  have h1 : (a * n + c) / n = a := by
    rw [Nat.mul_comm, Nat.mul_add_div (by omega), Nat.div_eq_of_lt hc, Nat.add_zero]
  have h2 : (b * n + d) / n = b := by
    rw [Nat.mul_comm, Nat.mul_add_div (by omega), Nat.div_eq_of_lt hd, Nat.add_zero]
  have hab : a = b := by rw [← h1, ← h2, h]
  subst hab
  exact ⟨rfl, by omega⟩

theorem row_lt {n a c m : Nat} (hc : c < n) (ha : a < m) : a * n + c < m * n := by
  have : (a + 1) * n ≤ m * n := Nat.mul_le_mul_right n ha
  rw [Nat.add_mul] at this; omega

/-- A kernel that copies row `s i` of one array to row `d i` of another, for each `i`. -/
theorem copyRows {T : Type} [Inhabited T] {N ncomp : Nat} (sched : Sched) (s d : Nat → Nat)
    (src out : List T) (step : Nat × Nat → List T → Option (List T))
    (hstep : ∀ x o, x.1 < N → x.2 < ncomp → step x o =
      (rd src (s x.1 * ncomp + x.2)).bind fun v => st o (d x.1 * ncomp + x.2) v)
    (hd : ∀ i < N, ∀ j < N, d i = d j → i = j)
    (hsrc : ∀ i < N, ∀ c < ncomp, s i * ncomp + c < src.length)
    (hout : ∀ i < N, ∀ c < ncomp, d i * ncomp + c < out.length) :
    ∃ out', runItems step (surfItems sched N ncomp) out = some out' ∧ out'.length = out.length ∧
      (∀ i < N, ∀ c < ncomp, out'[d i * ncomp + c]? = src[s i * ncomp + c]?) ∧
      ∀ k, (∀ i < N, ∀ c < ncomp, k ≠ d i * ncomp + c) → out'[k]? = out[k]? := by
  obtain ⟨m', h1, h2, h3, h4⟩ := runItems_put (step := step) (items := surfItems sched N ncomp)
    (m := out) (fun x => some (d x.1 * ncomp + x.2))
    (fun x => (src[s x.1 * ncomp + x.2]?).getD default)
    (fun x hx o _ => by
      obtain ⟨a1, a2⟩ := mem_surfItems.1 hx
      rw [hstep x o a1 a2]
      simp only [rd]
      rw [List.getElem?_eq_getElem (hsrc _ a1 _ a2), Option.bind_some, Option.getD_some])
    (fun x hx y hy k hk hk' => by
      obtain ⟨a1, a2⟩ := mem_surfItems.1 hx
      obtain ⟨b1, b2⟩ := mem_surfItems.1 hy
      obtain ⟨e1, e2⟩ := row_inj a2 b2 ((Option.some.inj hk).trans (Option.some.inj hk').symm)
      rw [hd _ a1 _ b1 e1, e2])
    (fun x hx k hk => by
      obtain ⟨a1, a2⟩ := mem_surfItems.1 hx
      rw [← Option.some.inj hk]
      exact hout _ a1 _ a2)
  refine ⟨m', h1, h2, fun i hi c hc => ?_, fun k hk => h4 k fun x hx => ?_⟩
  · rw [h3 (i, c) (mem_surfItems.2 ⟨hi, hc⟩) _ rfl, List.getElem?_eq_getElem (hsrc i hi c hc),
      Option.getD_some]
  · obtain ⟨a1, a2⟩ := mem_surfItems.1 hx
    intro e
    exact hk _ a1 _ a2 (Option.some.inj e).symm

/-- An array made of rows is determined by its entries. -/
theorem eq_rows {T β : Type} {ncomp : Nat} {l : List β} {f : β → Nat → T} {m : List T}
    (hlen : m.length = l.length * ncomp)
    (h : ∀ p x, l[p]? = some x → ∀ c < ncomp, m[p * ncomp + c]? = some (f x c)) :
    m = l.flatMap fun x => (List.range ncomp).map (f x) := by
  by_cases hn : ncomp = 0
  · subst hn
    rw [Nat.mul_zero] at hlen
    rw [List.length_eq_zero_iff.1 hlen]
    symm
    rw [List.flatMap_eq_nil_iff]
    simp
  · have hn : 0 < ncomp := by omega
    apply List.ext_getElem? fun k => ?_
    rw [getElem?_flatMap_const hn (by simp)]
    have hk := Nat.div_add_mod k ncomp
    by_cases hp : k / ncomp < l.length
    · have hx : l[k / ncomp]? = some l[k / ncomp] := List.getElem?_eq_getElem hp
      have hm := Nat.mod_lt k hn
      have := h _ _ hx _ hm
      rw [Nat.mul_comm, hk] at this
      rw [this, hx, Option.bind_some, List.getElem?_map, List.getElem?_range hm, Option.map_some]
    · rw [List.getElem?_eq_none (l := l) (by omega), Option.bind_none, List.getElem?_eq_none]
      rw [hlen]
      have : l.length ≤ k / ncomp := by omega
      exact (Nat.le_div_iff_mul_le hn).1 this

theorem getElem?_rows {T β : Type} {ncomp : Nat} {l : List β} {f : β → Nat → T} {p c : Nat} {x : β}
    (hx : l[p]? = some x) (hc : c < ncomp) :
    (l.flatMap fun x => (List.range ncomp).map (f x))[p * ncomp + c]? = some (f x c) := by
  have hn : 0 < ncomp := by omega
  rw [getElem?_flatMap_const hn (by simp)]
  have h1 : (p * ncomp + c) / ncomp = p := by
    rw [Nat.mul_comm, Nat.mul_add_div (by omega), Nat.div_eq_of_lt hc, Nat.add_zero]
  have h2 : (p * ncomp + c) % ncomp = c := by
    rw [Nat.mul_comm, Nat.mul_add_mod, Nat.mod_eq_of_lt hc]
  rw [h1, h2, hx, Option.bind_some, List.getElem?_map, List.getElem?_range hc, Option.map_some]

theorem length_rows {T β : Type} (ncomp : Nat) (l : List β) (f : β → Nat → T) :
    (l.flatMap fun x => (List.range ncomp).map (f x)).length = l.length * ncomp := by
  rw [List.length_flatMap]
  simp

theorem filterMap_range_one {β : Type} {n i : Nat} (hi : i < n) (x : β) :
    (List.range n).filterMap (fun k => if k = i then some x else none) = [x] := by
  induction n with
  | zero => omega
  | succ n ih =>
    rw [List.range_succ, List.filterMap_append]
    by_cases h : i = n
    · subst h
      have : (List.range i).filterMap (fun k => if k = i then some x else none) = [] := by
        rw [List.filterMap_eq_nil_iff]
        intro k hk
        rw [if_neg (by have := List.mem_range.1 hk; omega)]
      rw [this]
      simp
    · rw [ih (by omega)]
      have : ¬ n = i := fun e => h e.symm
      simp [this]

/-- Summing with `foldl`. -/
theorem foldl_add_sum {T : Type} [AddCommMonoid T] (l : List T) (a : T) :
    l.foldl (· + ·) a = a + l.sum := by
  induction l generalizing a with
  | nil => simp
  | cons x l ih => rw [List.foldl_cons, ih, List.sum_cons, add_assoc]

/-- A kernel that adds row `p` of an array to row `loc p` of another atomically. -/
theorem addRows {T β : Type} [AddCommMonoid T] {ncomp : Nat} (sched : Sched) (Z : List β)
    (loc : β → Nat) (f : β → Nat → T) (dst : List T) (step : Nat × Nat → List T → Option (List T))
    (hstep : ∀ x o z, Z[x.1]? = some z → x.2 < ncomp → step x o =
      (rd o (loc z * ncomp + x.2)).bind fun current => st o (loc z * ncomp + x.2) (current + f z x.2))
    (hdst : ∀ z ∈ Z, ∀ c < ncomp, loc z * ncomp + c < dst.length) :
    ∃ dst', runItems step (surfItems sched Z.length ncomp) dst = some dst' ∧
      dst'.length = dst.length ∧
      (∀ i, ∀ c < ncomp, dst'[i * ncomp + c]? = (dst[i * ncomp + c]?).map fun a =>
        a + ((Z.filter fun z => loc z = i).map fun z => f z c).sum) ∧
      ∀ k, (∀ z ∈ Z, ∀ c < ncomp, k ≠ loc z * ncomp + c) → dst'[k]? = dst[k]? := by
  by_cases hZ : Z = []
  · subst hZ
    have he : surfItems sched ([] : List β).length ncomp = [] := by
      rw [List.eq_nil_iff_forall_not_mem]
      intro x hx
      have := (mem_surfItems.1 hx).1
      simp at this
    rw [he]
    exact ⟨dst, rfl, rfl, fun i c _ => by simp, fun k _ => rfl⟩
  obtain ⟨z0, hz0⟩ := List.exists_mem_of_ne_nil Z hZ
  let zz := fun p : Nat => (Z[p]?).getD z0
  have hzz : ∀ p < Z.length, Z[p]? = some (zz p) := fun p hp => by
    simp only [zz, List.getElem?_eq_getElem hp, Option.getD_some]
  obtain ⟨m', h1, h2, h3⟩ := runItems_accumulate (T := T) (· + ·)
    (fun x : Nat × Nat => loc (zz x.1) * ncomp + x.2) (fun x => f (zz x.1) x.2)
    (surfItems sched Z.length ncomp) dst (fun x hx => by
      obtain ⟨a1, a2⟩ := mem_surfItems.1 hx
      exact hdst _ (List.mem_of_getElem? (hzz _ a1)) _ a2)
  have hrun : runItems step (surfItems sched Z.length ncomp) dst = some m' := by
    rw [← h1]
    have : ∀ (l : List (Nat × Nat)), (∀ x ∈ l, x.1 < Z.length ∧ x.2 < ncomp) → ∀ o,
        runItems step l o = runItems (fun (i : Nat × Nat) m =>
          (rd m (loc (zz i.1) * ncomp + i.2)).bind fun current =>
            st m (loc (zz i.1) * ncomp + i.2) (current + f (zz i.1) i.2)) l o := by
      intro l
      induction l with
      | nil => intro _ o; rfl
      | cons x l ih =>
        intro hl o
        obtain ⟨a1, a2⟩ := hl x (by simp)
        rw [runItems_cons, runItems_cons, hstep x o _ (hzz _ a1) a2]
        congr 1
        funext o'
        exact ih (fun y hy => hl y (by simp [hy])) o'
    exact this _ (fun x hx => mem_surfItems.1 hx) dst
  refine ⟨m', hrun, h2, fun i c hc => ?_, fun k hk => ?_⟩
  · rw [h3]
    congr 1
    funext a
    rw [foldl_add_sum]
    congr 1
    have hperm : (surfItems sched Z.length ncomp).Perm ((List.range Z.length).flatMap fun p =>
        (List.range ncomp).map fun c => (p, c)) := sched.perm _
    rw [(hperm.filterMap _).sum_eq, List.filterMap_flatMap]
    have hinner : ∀ p ∈ List.range Z.length,
        ((List.range ncomp).map fun c => (p, c)).filterMap (fun x : Nat × Nat =>
          if loc (zz x.1) * ncomp + x.2 = i * ncomp + c then some (f (zz x.1) x.2) else none) =
        if loc (zz p) = i then [f (zz p) c] else [] := by
      intro p _
      rw [List.filterMap_map]
      by_cases hl : loc (zz p) = i
      · rw [if_pos hl]
        have : ((fun x : Nat × Nat =>
            if loc (zz x.1) * ncomp + x.2 = i * ncomp + c then some (f (zz x.1) x.2) else none) ∘
            fun c => (p, c)) = fun c' => if c' = c then some (f (zz p) c) else none := by
          funext c'
          simp only [Function.comp]
          rw [hl]
          by_cases hcc : c' = c
          · rw [if_pos (by rw [hcc]), if_pos hcc, hcc]
          · rw [if_neg (by omega), if_neg hcc]
        rw [this, filterMap_range_one hc]
      · rw [if_neg hl, List.filterMap_eq_nil_iff]
        intro c' hc'
        simp only [Function.comp]
        rw [if_neg]
        intro e
        exact hl (row_inj (List.mem_range.1 hc') hc e).1
    rw [List.flatMap_congr hinner]
    have hZe : Z = (List.range Z.length).map zz := by
      apply List.ext_getElem? fun k => ?_
      by_cases hk : k < Z.length
      · rw [hzz k hk, List.getElem?_map, List.getElem?_range hk, Option.map_some]
      · rw [List.getElem?_eq_none (by omega), List.getElem?_eq_none (by simp; omega)]
    conv_rhs => rw [hZe]
    generalize List.range Z.length = l
    induction l with
    | nil => rfl
    | cons p l ih =>
      rw [List.flatMap_cons, List.map_cons, List.filter_cons]
      by_cases hl : loc (zz p) = i
      · rw [if_pos hl, if_pos (by simpa using hl), List.map_cons, List.sum_cons, List.sum_append,
          List.sum_singleton, ih]
      · rw [if_neg hl, if_neg (by simpa using hl), List.nil_append, ih]
  · rw [h3]
    have : (surfItems sched Z.length ncomp).filterMap (fun x : Nat × Nat =>
        if loc (zz x.1) * ncomp + x.2 = k then some (f (zz x.1) x.2) else none) = [] := by
      rw [List.filterMap_eq_nil_iff]
      intro x hx
      obtain ⟨a1, a2⟩ := mem_surfItems.1 hx
      rw [if_neg]
      exact fun e => hk _ (List.mem_of_getElem? (hzz _ a1)) _ a2 e.symm
    rw [this]
    simp

end NP

namespace NP

/-! ## Calls that are not accepted -/

theorem surfRegisters_weak {n : Nat} {R : Nat → List Int} {a : SurfRank} {b : Bool}
    (hrecv : a.recvIds = (List.range n).map R) {ps : List (Nat × Int)} (hps : ∀ p ∈ ps, p.1 < n) :
    ∃ a' b' R', runItems surfRegister ps (a, b) = some (a', b') ∧
      a'.recvIds = (List.range n).map R' ∧ (∀ q g, g ∈ R q → g ∈ R' q) ∧
      (∀ p ∈ ps, p.2 ∈ R' p.1) ∧ (b = true → b' = true) ∧
      (∀ p ∈ ps, p.2 ∉ R p.1 → b' = true) ∧ a'.ownedIndex = a.ownedIndex := by
  induction ps generalizing a b R with
  | nil => exact ⟨a, b, R, rfl, hrecv, fun _ _ h => h, by simp, fun h => h, by simp, rfl⟩
  | cons p ps ih =>
    have hn := hps p (by simp)
    have hone : ∃ a1 b1 R1, surfRegister p (a, b) = some (a1, b1) ∧
        a1.recvIds = (List.range n).map R1 ∧ (∀ q g, g ∈ R q → g ∈ R1 q) ∧ p.2 ∈ R1 p.1 ∧
        (b = true → b1 = true) ∧ (p.2 ∉ R p.1 → b1 = true) ∧ (b1 = true ∨ R1 = R) ∧
        a1.ownedIndex = a.ownedIndex := by
      unfold surfRegister
      dsimp only
      rw [hrecv, rd_table R hn, Option.bind_some]
      by_cases hm : p.2 ∈ R p.1
      · rw [if_pos (by simpa using hm)]
        exact ⟨a, b, R, rfl, hrecv, fun _ _ h => h, hm, fun h => h, fun h => absurd hm h,
          Or.inr rfl, rfl⟩
      · rw [if_neg (by simpa using hm)]
        refine ⟨_, _, fun j => if j = p.1 then intSetInsert p.2 (R p.1) else R j, rfl,
          set_table R _ hn, ?_, ?_, fun _ => rfl, fun _ => rfl, Or.inl rfl, rfl⟩
        · intro q g hg
          dsimp only
          by_cases hqp : q = p.1
          · rw [if_pos hqp, mem_intSetInsert]; exact Or.inr (hqp ▸ hg)
          · rw [if_neg hqp]; exact hg
        · dsimp only
          rw [if_pos rfl, mem_intSetInsert]; exact Or.inl rfl
    obtain ⟨a1, b1, R1, e1, r1, m1, p1, t1, u1, v1, o1⟩ := hone
    obtain ⟨a2, b2, R2, e2, r2, m2, p2, t2, u2, o2⟩ := ih (b := b1) r1 fun p hp => hps p (by simp [hp])
    refine ⟨a2, b2, R2, by rw [runItems_cons, e1, Option.bind_some, e2], r2,
      fun q g h => m2 q g (m1 q g h), ?_, fun h => t2 (t1 h), ?_, o2.trans o1⟩
    · intro p' hp'
      rcases List.mem_cons.1 hp' with rfl | hp'
      · exact m2 _ _ p1
      · exact p2 p' hp'
    · intro p' hp' hnm
      rcases List.mem_cons.1 hp' with rfl | hp'
      · exact t2 (u1 hnm)
      · rcases v1 with h | h
        · exact t2 h
        · exact u2 p' hp' (by rw [h]; exact hnm)

theorem surfRegister_none {n : Nat} {R : Nat → List Int} {a : SurfRank} {b : Bool}
    (hrecv : a.recvIds = (List.range n).map R) {ps : List (Nat × Int)} (hps : ∃ p ∈ ps, ¬ p.1 < n) :
    runItems surfRegister ps (a, b) = none := by
  induction ps generalizing a b R with
  | nil => simp at hps
  | cons p ps ih =>
    rw [runItems_cons]
    by_cases hn : p.1 < n
    · have hrest : ∃ p ∈ ps, ¬ p.1 < n := by
        obtain ⟨p', h1, h2⟩ := hps
        rcases List.mem_cons.1 h1 with rfl | h1
        · exact absurd hn h2
        · exact ⟨p', h1, h2⟩
      obtain ⟨a1, b1, R1, e1, r1, -⟩ := surfRegisters_weak (b := b) hrecv (ps := [p]) (by simpa using hn)
      rw [runItems_cons] at e1
      cases h : surfRegister p (a, b) with
      | none => rfl
      | some s =>
        rw [h, Option.bind_some, runItems_nil] at e1
        cases e1
        rw [Option.bind_some]
        exact ih r1 hrest
    · unfold surfRegister
      dsimp only
      simp only [rd]
      rw [hrecv, List.getElem?_eq_none (by simp; omega), Option.bind_none, Option.bind_none]

theorem surfSendId_some {a : SurfRank} {src n : Nat} {s s' : List (List Int) × Nat}
    (h : runItems (fun _ => surfSendId a src) (List.range' 0 n) s = some s') :
    s'.2 = s.2 + n ∧ ∀ k < n, ∀ g, a.inIds[s.2 + k]? = some g →
      (surfFind a.ownedIndex g).isSome := by
  have gen : ∀ (l : List Nat) (s s' : List (List Int) × Nat),
      runItems (fun _ => surfSendId a src) l s = some s' →
      s'.2 = s.2 + l.length ∧ ∀ k < l.length, ∀ g, a.inIds[s.2 + k]? = some g →
        (surfFind a.ownedIndex g).isSome := by
    intro l
    induction l with
    | nil => intro s s' h; cases h; simp
    | cons x l ih =>
      intro s s' h
      rw [runItems_cons] at h
      obtain ⟨t, h1, h2⟩ := Option.bind_eq_some_iff.1 h
      unfold surfSendId at h1
      obtain ⟨g0, a1, h1⟩ := Option.bind_eq_some_iff.1 h1
      obtain ⟨ids, a2, h1⟩ := Option.bind_eq_some_iff.1 h1
      obtain ⟨m, a3, h1⟩ := Option.bind_eq_some_iff.1 h1
      by_cases ho : (surfFind a.ownedIndex g0).isSome
      · rw [if_pos ho] at h1
        cases h1
        obtain ⟨b1, b2⟩ := ih _ _ h2
        dsimp only at b1 b2
        refine ⟨by rw [b1, List.length_cons]; omega, fun k hk g hg => ?_⟩
        cases k with
        | zero =>
          rw [Nat.add_zero] at hg
          rw [show a.inIds[s.2]? = some g0 from a1] at hg
          cases hg; exact ho
        | succ k =>
          exact b2 k (by simpa using hk) g (by rw [← hg]; congr 1; omega)
      · rw [if_neg ho] at h1; cases h1
  simpa using gen _ _ _ h

theorem surfSendIds_none {a : SurfRank} (hcount : a.inCounts.length = a.sources.length)
    (hlen : a.inIds.length = a.inCounts.sum)
    (hbad : ∃ g ∈ a.inIds, surfFind a.ownedIndex g = none) : surfSendIds a = none := by
  unfold surfSendIds
  cases h : forLoop 0 a.sources.length (fun j s => (rd a.sources j).bind fun src =>
    (rd a.inCounts j).bind fun n => forLoop 0 n (fun _ => surfSendId a src) s) (a.sendIds, 0) with
  | none => rfl
  | some t =>
    exfalso
    have gen : ∀ (m j : Nat) (s s' : List (List Int) × Nat),
        runItems (fun j s => (rd a.sources j).bind fun src => (rd a.inCounts j).bind fun n =>
          forLoop 0 n (fun _ => surfSendId a src) s) (List.range' j m) s = some s' →
        j + m ≤ a.sources.length → s.2 = (a.inCounts.take j).sum →
        s'.2 = (a.inCounts.take (j + m)).sum ∧ ∀ k, s.2 ≤ k → k < s'.2 → ∀ g,
          a.inIds[k]? = some g → (surfFind a.ownedIndex g).isSome := by
      intro m
      induction m with
      | zero =>
        intro j s s' h _ hs
        cases h
        exact ⟨hs, fun k h1 h2 => by omega⟩
      | succ m ih =>
        intro j s s' h hjm hs
        rw [List.range'_succ, runItems_cons] at h
        obtain ⟨u, h1, h2⟩ := Option.bind_eq_some_iff.1 h
        obtain ⟨src, a1, h1⟩ := Option.bind_eq_some_iff.1 h1
        obtain ⟨n, a2, h1⟩ := Option.bind_eq_some_iff.1 h1
        unfold forLoop at h1
        rw [Nat.sub_zero] at h1
        obtain ⟨b1, b2⟩ := surfSendId_some h1
        have hu : u.2 = (a.inCounts.take (j + 1)).sum := by
          rw [b1, hs, List.take_add_one, show a.inCounts[j]? = some n from a2]
          simp
        obtain ⟨c1, c2⟩ := ih (j + 1) u s' h2 (by omega) hu
        refine ⟨by rw [c1]; congr 2; omega, fun k k1 k2 g hg => ?_⟩
        by_cases hk : k < u.2
        · exact b2 (k - s.2) (by omega) g (by rw [← hg]; congr 1; omega)
        · exact c2 k (by omega) k2 g hg
    unfold forLoop at h
    obtain ⟨c1, c2⟩ := gen _ _ _ _ h (by omega) (by simp)
    obtain ⟨g, g1, g2⟩ := hbad
    obtain ⟨k, hk, hg⟩ := List.mem_iff_getElem.1 g1
    have hk' : a.inIds[k]? = some g := by rw [List.getElem?_eq_getElem hk, hg]
    have := c2 k (Nat.zero_le _) (by
      rw [c1, List.take_of_length_le (by omega), ← hlen]; exact hk) g hk'
    rw [g2] at this
    cases this

/-- A pair that does not name the owner of the face makes the call fail. -/
theorem surfExtend_none {owned : List (List Int)} {H : Nat → Int → Prop} {R : Nat → Nat → List Int}
    {W : Nat → SurfRank} (hI : SurfInv owned H R W) (mpi : SurfOrders) (mem : Nat → Fresh Int)
    {pairs : List (List (Nat × Int))} (hlen : pairs.length = owned.length)
    (hbad : ∃ ps ∈ pairs, ∃ p ∈ ps, ¬ surfOwn owned p.1 p.2) :
    surfExtend mpi mem pairs ((List.range owned.length).map W) = none := by
  obtain ⟨ps0, hps0, p0, hp0, hno⟩ := hbad
  obtain ⟨s0, hs0, hget⟩ := List.mem_iff_getElem.1 hps0
  rw [hlen] at hs0
  have hget0 : pairs[s0]? = some ps0 := by rw [List.getElem?_eq_getElem (by omega), hget]
  have hpair : ∀ r < owned.length, pairs[r]? = some (pairs.getD r []) := fun r hr => by
    rw [List.getD_eq_getElem?_getD, List.getElem?_eq_getElem (by omega), Option.getD_some]
  unfold surfExtend
  by_cases hall : ∀ r < owned.length, ∀ p ∈ pairs.getD r [], p.1 < owned.length
  · obtain ⟨g, hg1, hg2⟩ := mapRanks_exists (n := owned.length) (W := W)
      (f := fun r a => (rd pairs r).bind fun ps => runItems surfRegister ps (a, false))
      (P := fun r b => ∃ R', b.1.recvIds = (List.range owned.length).map R' ∧
        (∀ p ∈ pairs.getD r [], p.2 ∈ R' p.1) ∧
        (∀ p ∈ pairs.getD r [], p.2 ∉ R r p.1 → b.2 = true) ∧
        b.1.ownedIndex = (W r).ownedIndex) (by
      intro r hr
      obtain ⟨a', b', R', f1, f2, -, f3, -, f4, f5⟩ :=
        surfRegisters_weak (b := false) (hI.core r hr).recv (hall r hr)
      refine ⟨(a', b'), ?_, R', f2, f3, f4, f5⟩
      simp only [rd]
      rw [hpair r hr, Option.bind_some, f1])
    choose! R' c1 c2 c3 c4 using hg2
    rw [hg1, Option.bind_some, List.map_map]
    have hp0' : p0 ∈ pairs.getD s0 [] := by
      rw [List.getD_eq_getElem?_getD, hget0, Option.getD_some]; exact hp0
    have hq0 := hall s0 hs0 p0 hp0'
    have hnew : p0.2 ∉ R s0 p0.1 := fun h => hno (((hI.core s0 hs0).mem _ hq0 _).1 h).2
    rw [if_pos (by
      rw [List.any_eq_true]
      exact ⟨g s0, List.mem_map.2 ⟨s0, List.mem_range.2 hs0, rfl⟩, c3 s0 hs0 p0 hp0' hnew⟩)]
    rw [surfRebuild_ids (R := R') (W := Prod.fst ∘ g) mpi mem c1]
    refine mapRanks_none hq0 ?_
    have hmem := c2 s0 hs0 p0 hp0'
    have hin : s0 ∈ (mpi.sources p0.1).order
        (surfInEdges ((List.range owned.length).map (Prod.fst ∘ g)) p0.1) := by
      rw [((mpi.sources p0.1).perm _).mem_iff, mem_surfInEdges (W := Prod.fst ∘ g) c1 hq0]
      exact ⟨hs0, List.ne_nil_of_mem hmem⟩
    rw [surfSendIds_none (by simp [surfIds])
      (by simp only [surfIds]; rw [List.length_flatMap])
      ⟨p0.2, by
        simp only [surfIds]
        exact List.mem_flatMap.2 ⟨s0, hin, hmem⟩, by
        show surfFind (g p0.1).1.ownedIndex p0.2 = none
        rw [c4 _ hq0]
        cases h : surfFind (W p0.1).ownedIndex p0.2 with
        | none => rfl
        | some i =>
          exfalso
          rw [(hI.core _ hq0).index] at h
          exact hno ((surfOwn_iff hq0 _).2 (List.mem_of_getElem? h))⟩, Option.bind_none]
  · push Not at hall
    obtain ⟨r, hr, p, hp, hpn⟩ := hall
    rw [mapRanks_none hr (by
      simp only [rd]
      rw [hpair r hr, Option.bind_some]
      exact surfRegister_none (hI.core r hr).recv ⟨p, hp, by omega⟩), Option.bind_none]

end NP
