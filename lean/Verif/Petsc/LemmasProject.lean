import Verif.Petsc.SpecProject
import Verif.Mesh.LemmasMap
import Verif.Comm.LemmasExchange
import Verif.Common.KernelLemmas
import Mathlib.Algebra.Field.Basic
import Mathlib.Algebra.BigOperators.Group.List.Basic

/-!
# Lemmas: particle loops over tables
-/

set_option autoImplicit false

namespace NP

open Spec

variable {K : Type}

/-! ## Tables -/

/-- The sizes of two tables agree. -/
def CellTab.Same (t t' : CellTab K) : Prop := t'.ncells = t.ncells ∧ t'.nrow = t.nrow ∧ t'.ncol = t.ncol

theorem CellTab.Same.refl (t : CellTab K) : t.Same t := ⟨rfl, rfl, rfl⟩

theorem CellTab.Same.trans {t t' t'' : CellTab K} (h : t.Same t') (h' : t'.Same t'') : t.Same t'' :=
  ⟨h'.1.trans h.1, h'.2.1.trans h.2.1, h'.2.2.trans h.2.2⟩

theorem CellTab.at_eq {t : CellTab K} {c r k : Nat} (hc : c < t.ncells) (hr : r < t.nrow) (hk : k < t.ncol) :
    t.at c r k = some (t.val c r k) := if_pos ⟨hc, hr, hk⟩

theorem CellTab.at_some {t : CellTab K} {c r k : Nat} {v : K} (h : t.at c r k = some v) :
    c < t.ncells ∧ r < t.nrow ∧ k < t.ncol ∧ t.val c r k = v := by
  unfold CellTab.at at h
  split at h
  · rename_i hc
    exact ⟨hc.1, hc.2.1, hc.2.2, Option.some.inj h⟩
  · cases h

theorem CellTab.put_eq {t : CellTab K} {c r k : Nat} (v : K) (hc : c < t.ncells) (hr : r < t.nrow)
    (hk : k < t.ncol) : ∃ t', t.put c r k v = some t' ∧ t.Same t' ∧
      ∀ c' r' k', t'.val c' r' k' = if c' = c ∧ r' = r ∧ k' = k then v else t.val c' r' k' :=
  ⟨_, if_pos ⟨hc, hr, hk⟩, ⟨rfl, rfl, rfl⟩, fun _ _ _ => rfl⟩

theorem CellTab.put_same {t t' : CellTab K} {c r k : Nat} {v : K} (h : t.put c r k v = some t') :
    t.Same t' := by
  unfold CellTab.put at h
  split at h
  · cases h; exact ⟨rfl, rfl, rfl⟩
  · cases h

theorem CellTab.add_eq [Add K] {t : CellTab K} {c r k : Nat} (v : K) (hc : c < t.ncells)
    (hr : r < t.nrow) (hk : k < t.ncol) : ∃ t', t.add c r k v = some t' ∧ t.Same t' ∧
      ∀ c' r' k', t'.val c' r' k' =
        if c' = c ∧ r' = r ∧ k' = k then t.val c r k + v else t.val c' r' k' := by
  unfold CellTab.add
  rw [CellTab.at_eq hc hr hk, Option.bind_some]
  exact CellTab.put_eq _ hc hr hk

theorem CellTab.add_same [Add K] {t t' : CellTab K} {c r k : Nat} {v : K}
    (h : t.add c r k v = some t') : t.Same t' := by
  unfold CellTab.add at h
  rw [Option.bind_eq_some_iff] at h
  obtain ⟨x, -, h⟩ := h
  exact CellTab.put_same h

/-! ## Loops -/

theorem runItems_rel {ι σ : Type} {R : σ → σ → Prop} (hr : ∀ s, R s s)
    (ht : ∀ {a b c}, R a b → R b c → R a c) {step : ι → σ → Option σ}
    (h : ∀ i s s', step i s = some s' → R s s') (l : List ι) : ∀ {s s' : σ},
    runItems step l s = some s' → R s s' := by
  induction l with
  | nil => intro s s' hs; cases hs; exact hr _
  | cons a l ih =>
    intro s s' hs
    rw [runItems_cons] at hs
    cases hf : step a s with
    | none => rw [hf] at hs; cases hs
    | some s1 => rw [hf] at hs; exact ht (h _ _ _ hf) (ih hs)

theorem forLoop_same {a b : Nat} {step : Nat → CellTab K → Option (CellTab K)}
    (h : ∀ i t t', step i t = some t' → t.Same t') {t t' : CellTab K}
    (ht : forLoop a b step t = some t') : t.Same t' :=
  runItems_rel CellTab.Same.refl CellTab.Same.trans h _ ht

theorem loopTab_same {P : Type} {s : Sched} {f : Nat → P → CellTab K → Option (CellTab K)}
    {sel : List (Nat × Nat)} {cells : List (List P)} {t t' : CellTab K}
    (h : ∀ c p t t', f c p t = some t' → t.Same t') (ht : loopTab s f sel cells t = some t') :
    t.Same t' := by
  refine runItems_rel CellTab.Same.refl CellTab.Same.trans (fun it t t' hs => ?_) _ ht
  rw [Option.bind_eq_some_iff] at hs
  obtain ⟨p, -, hs⟩ := hs
  exact h _ _ _ _ hs

theorem loopWrite_spec {P : Type} (s : Sched) {f : Nat → P → Option P} {sel : List (Nat × Nat)}
    (hnd : sel.Nodup) {cells : List (List P)}
    (h : ∀ it ∈ sel, ∃ p p', rd2 cells it = some p ∧ f it.1 p = some p') :
    ∃ cells', loopWrite s f sel cells = some cells' ∧ cells'.length = cells.length ∧
      (∀ it ∈ sel, ∀ p, rd2 cells it = some p → rd2 cells' it = f it.1 p) ∧
      ∀ it, it ∉ sel → rd2 cells' it = rd2 cells it := by
  have hperm := s.perm sel
  obtain ⟨cells', h1, h2, h3, h4⟩ := runItems_invariant
    (step := fun it (cells : List (List P)) => (rd2 cells it).bind fun p =>
      (f it.1 p).bind fun p => st2 cells it p) (items := s.order sel) (s := cells)
    (P := fun done cs => cs.length = cells.length ∧ (∀ it ∈ done, ∀ p, rd2 cells it = some p →
        rd2 cs it = f it.1 p) ∧ ∀ it, it ∉ done → rd2 cs it = rd2 cells it) (by
    rintro pre it post cs hs ⟨k1, k2, k3⟩
    have hmem : it ∈ sel := hperm.mem_iff.mp (by rw [hs]; simp)
    have hni : it ∉ pre := by
      have := hperm.nodup_iff.mpr hnd
      rw [hs, List.nodup_append] at this
      exact fun hc => this.2.2 _ hc it (by simp) rfl
    obtain ⟨p, p', hp, hp'⟩ := h it hmem
    obtain ⟨cs', hc1, hc2, hc3, hc4⟩ := st2_spec (v := p') (by rw [k3 it hni, hp] : rd2 cs it = some p)
    refine ⟨cs', ?_, by rw [hc4, k1], ?_, ?_⟩
    · simp only [k3 it hni, hp, Option.bind_some, hp', hc1]
    · intro it' hit' q hq
      by_cases hii : it' = it
      · rw [hii] at hq ⊢
        rw [hp] at hq
        cases hq
        rw [hc2, hp']
      · rcases List.mem_append.mp hit' with hm | hm
        · rw [hc3 it' hii]; exact k2 it' hm q hq
        · exact absurd (List.mem_singleton.mp hm) hii
    · intro it' hit'
      rw [List.mem_append, not_or, List.mem_singleton] at hit'
      rw [hc3 it' hit'.2, k3 it' hit'.1]) ⟨rfl, by simp, by simp⟩
  exact ⟨cells', h1, h2, fun it hit => h3 it (hperm.mem_iff.mpr hit),
    fun it hit => h4 it fun hc => hit (hperm.mem_iff.mp hc)⟩

theorem cellSum_perm [AddCommMonoid K] {l l' : List (Nat × Nat)} (h : l.Perm l') (c : Nat)
    (f : Nat × Nat → K) : cellSum l c f = cellSum l' c f :=
  ((h.filter _).map _).sum_eq

theorem cellSum_snoc [AddCommMonoid K] (l : List (Nat × Nat)) (it : Nat × Nat) (c : Nat)
    (f : Nat × Nat → K) : cellSum (l ++ [it]) c f = cellSum l c f + if c = it.1 then f it else 0 := by
  unfold cellSum
  rw [List.filter_append, List.map_append, List.sum_append]
  congr 1
  by_cases h : c = it.1
  · rw [if_pos h, List.filter_cons_of_pos (by simp [h])]
    simp
  · rw [if_neg h, List.filter_cons_of_neg (by simp [Ne.symm h])]
    simp

/-- A loop whose kernel adds to the entries of its cell. -/
theorem loopTab_sum [AddCommMonoid K] {P : Type} (s : Sched)
    {f : Nat → P → CellTab K → Option (CellTab K)} {sel : List (Nat × Nat)} {cells : List (List P)}
    (g : Nat × Nat → Nat → Nat → K) {t : CellTab K}
    (h : ∀ it ∈ sel, ∃ p, rd2 cells it = some p ∧ ∀ t', t.Same t' → ∃ t'', f it.1 p t' = some t'' ∧
      t'.Same t'' ∧ ∀ c r k, t''.val c r k = t'.val c r k + if c = it.1 then g it r k else 0) :
    ∃ t', loopTab s f sel cells t = some t' ∧ t.Same t' ∧
      ∀ c r k, t'.val c r k = t.val c r k + cellSum sel c fun it => g it r k := by
  have hperm := s.perm sel
  obtain ⟨t', h1, h2, h3⟩ := runItems_invariant
    (step := fun it t => (rd2 cells it).bind fun p => f it.1 p t) (items := s.order sel) (s := t)
    (P := fun done t' => t.Same t' ∧
      ∀ c r k, t'.val c r k = t.val c r k + cellSum done c fun it => g it r k) (by
    rintro pre it post t' hs ⟨k1, k2⟩
    have hmem : it ∈ sel := hperm.mem_iff.mp (by rw [hs]; simp)
    obtain ⟨p, hp, hf⟩ := h it hmem
    obtain ⟨t'', m1, m2, m3⟩ := hf t' k1
    refine ⟨t'', by simp only [hp, Option.bind_some, m1], k1.trans m2, fun c r k => ?_⟩
    rw [m3, k2, cellSum_snoc, add_assoc]) ⟨CellTab.Same.refl t, fun c r k => by simp [cellSum]⟩
  exact ⟨t', h1, h2, fun c r k => by rw [h3, cellSum_perm hperm]⟩

theorem mem_allItems {P : Type} {cells : List (List P)} {it : Nat × Nat} :
    it ∈ allItems cells ↔ ∃ p, rd2 cells it = some p := by
  obtain ⟨c, l⟩ := it
  unfold allItems rd2
  simp only [List.mem_flatMap, List.mem_range, List.mem_map, Prod.mk.injEq, rd, Option.bind_eq_some_iff]
  constructor
  · rintro ⟨c', hc, l', hl, rfl, rfl⟩
    rw [List.getElem?_eq_getElem hc, Option.getD_some] at hl
    exact ⟨_, _, List.getElem?_eq_getElem hc, List.getElem?_eq_getElem hl⟩
  · rintro ⟨p, row, hrow, hp⟩
    obtain ⟨hc, rfl⟩ := List.getElem?_eq_some_iff.mp hrow
    obtain ⟨hl, -⟩ := List.getElem?_eq_some_iff.mp hp
    exact ⟨c, hc, l, by rw [List.getElem?_eq_getElem hc, Option.getD_some]; exact hl, rfl, rfl⟩

theorem allItems_nodup {P : Type} (cells : List (List P)) : (allItems cells).Nodup := by
  unfold allItems
  rw [List.nodup_flatMap]
  refine ⟨fun c _ => (List.nodup_range).map fun a b h => (Prod.mk.inj h).2, ?_⟩
  refine List.nodup_range.imp fun {a b} hab => ?_
  intro x hx hy
  rw [List.mem_map] at hx hy
  obtain ⟨i, -, rfl⟩ := hx
  obtain ⟨j, -, hj⟩ := hy
  exact hab (Prod.mk.inj hj).1.symm

/-! ## Kernels -/

theorem dgRead_spec {t : CellTab K} {c ncomp : Nat} (hc : c < t.ncells) (hr : ncomp ≤ t.nrow)
    (hk : 0 < t.ncol) {val : List K} (hv : val.length = ncomp) :
    dgRead ncomp t c val = some ((List.range ncomp).map fun r => t.val c r 0) := by
  unfold dgRead
  obtain ⟨v, h1, h2⟩ := forLoop_invariant (a := 0) (b := ncomp) (s := val)
    (step := fun cx val => (t.at c cx 0).bind fun v => st val cx v)
    (P := fun i v => v = (List.range i).map (fun r => t.val c r 0) ++ val.drop i) (Nat.zero_le _) (by
      rintro i q - hi rfl
      rw [CellTab.at_eq hc (by omega) hk, Option.bind_some]
      have hd : val.drop i = val[i]'(by omega) :: val.drop (i + 1) := List.drop_eq_getElem_cons (by omega)
      refine ⟨_, if_pos (by simp; omega), ?_⟩
      rw [hd, List.set_append_right _ _ (by simp)]
      have hz : i - ((List.range i).map fun r => t.val c r 0).length = 0 := by simp
      rw [hz, List.set_cons_zero, List.range_succ, List.map_append]
      simp) (by simp)
  rw [h1, h2, List.drop_eq_nil_of_le (by omega), List.append_nil]

theorem addComps_spec [Field K] {t : CellTab K} {c ncomp : Nat} (hc : c < t.ncells) (hr : ncomp ≤ t.nrow)
    (hk : 0 < t.ncol) {p : List K} (hp : p.length = ncomp) (iv : K) :
    ∃ t', forLoop 0 ncomp (fun cx t => (rd p cx).bind fun v => CellTab.add t c cx 0 (v * iv)) t = some t' ∧
      t.Same t' ∧ ∀ c' r k, t'.val c' r k =
        t.val c' r k + if c' = c then (if k = 0 then p[r]?.getD 0 * iv else 0) else 0 := by
  obtain ⟨t', h1, h2, h3⟩ := forLoop_invariant (a := 0) (b := ncomp) (s := t)
    (step := fun cx t => (rd p cx).bind fun v => CellTab.add t c cx 0 (v * iv))
    (P := fun i t' => t.Same t' ∧ ∀ c' r k, t'.val c' r k =
        t.val c' r k + if c' = c ∧ r < i ∧ k = 0 then p[r]?.getD 0 * iv else 0) (Nat.zero_le _) (by
      rintro i t1 - hi ⟨k1, k2⟩
      have hpi : p[i]? = some (p[i]'(by omega)) := List.getElem?_eq_getElem (by omega)
      obtain ⟨t2, m1, m2, m3⟩ := CellTab.add_eq (t := t1) (c := c) (r := i) (k := 0)
        (p[i]'(by omega) * iv) (by rw [k1.1]; exact hc) (by rw [k1.2.1]; omega) (by rw [k1.2.2]; exact hk)
      refine ⟨t2, by simp only [rd, hpi, Option.bind_some, m1], k1.trans m2, fun c' r k => ?_⟩
      rw [m3]
      by_cases hcase : c' = c ∧ r = i ∧ k = 0
      · obtain ⟨rfl, rfl, rfl⟩ := hcase
        rw [if_pos ⟨rfl, rfl, rfl⟩, k2, if_neg (by omega), if_pos ⟨rfl, by omega, rfl⟩, hpi,
          Option.getD_some, add_zero]
      · rw [if_neg hcase, k2]
        congr 1
        have : (c' = c ∧ r < i ∧ k = 0) ↔ (c' = c ∧ r < i + 1 ∧ k = 0) := by
          constructor
          · rintro ⟨a, b, d⟩; exact ⟨a, by omega, d⟩
          · rintro ⟨a, b, d⟩
            refine ⟨a, ?_, d⟩
            by_contra hb
            exact hcase ⟨a, by omega, d⟩
        simp only [this]) ⟨CellTab.Same.refl t, fun c' r k => by simp⟩
  refine ⟨t', h1, h2, fun c' r k => ?_⟩
  rw [h3]
  congr 1
  by_cases hcc : c' = c
  · rw [if_pos hcc]
    by_cases hkk : k = 0
    · rw [if_pos hkk]
      by_cases hrr : r < ncomp
      · rw [if_pos ⟨hcc, hrr, hkk⟩]
      · rw [if_neg (fun h => hrr h.2.1), List.getElem?_eq_none (by omega)]
        simp
    · rw [if_neg hkk, if_neg (fun h => hkk h.2.2)]
  · rw [if_neg hcc, if_neg (fun h => hcc h.1)]

/-! ## The object -/

/-- What holds for every object. -/
structure DgInv [Field K] (vols : List K) (qpm : Bool) (o : DgObj K) : Prop where
  ncells : o.tab.ncells = vols.length
  ncol : o.tab.ncol = 1
  nrow : 0 < o.tab.nrow
  inv : o.invVol = vols.map fun v => 1 / v
  ne : ∀ v ∈ vols, v ≠ 0
  qpmEq : o.qpm = qpm

theorem DgInv.tab [Field K] {vols : List K} {qpm : Bool} {o : DgObj K} (h : DgInv vols qpm o)
    {t : CellTab K} (ht : o.tab.Same t) : DgInv vols qpm { o with tab := t } :=
  ⟨ht.1.trans h.ncells, ht.2.2.trans h.ncol, by show 0 < t.nrow; rw [ht.2.1]; exact h.nrow, h.inv, h.ne,
    h.qpmEq⟩

theorem DgInv.check [Field K] {vols : List K} {qpm : Bool} {o : DgObj K} (h : DgInv vols qpm o)
    (ncomp : Nat) : DgInv vols qpm (o.checkNcomp ncomp) ∧ ncomp ≤ (o.checkNcomp ncomp).tab.nrow := by
  unfold DgObj.checkNcomp
  split
  · exact ⟨⟨h.ncells, rfl, by show 0 < ncomp; omega, h.inv, h.ne, h.qpmEq⟩, le_refl _⟩
  · exact ⟨h, by omega⟩

theorem dgNew_inv [Field K] [DecidableEq K] {vols : List K} {qpm : Bool} {space : String} {order : Int}
    {ndim : Nat} {o : DgObj K} (h : dgNew space order ndim vols qpm = some o) : DgInv vols qpm o := by
  unfold dgNew at h
  split at h
  · rw [Option.map_eq_some_iff] at h
    obtain ⟨iv, hiv, rfl⟩ := h
    have key : ∀ (vs iv : List K), vs.mapM kinv = some iv → iv = vs.map (fun v => 1 / v) ∧ ∀ v ∈ vs, v ≠ 0 := by
      intro vs
      induction vs with
      | nil => intro iv h; simp at h; subst h; simp
      | cons v vs ih =>
        intro iv h
        simp only [List.mapM_cons, Option.bind_eq_bind, Option.bind_eq_some_iff, Option.pure_def,
          Option.some.injEq] at h
        obtain ⟨b, hb, bs, hbs, rfl⟩ := h
        unfold kinv at hb
        split at hb
        · cases hb
        · rename_i hv
          cases hb
          obtain ⟨rfl, h2⟩ := ih bs hbs
          exact ⟨rfl, by simpa using ⟨hv, h2⟩⟩
    obtain ⟨h1, h2⟩ := key vols iv hiv
    exact ⟨rfl, rfl, Nat.one_pos, h1, h2, rfl⟩
  · cases h

theorem Spec.DgReach.inv [Field K] [DecidableEq K] {vols : List K} {qpm : Bool} {o : DgObj K}
    (h : DgReach vols qpm o) : DgInv vols qpm o := by
  induction h with
  | new h => exact dgNew_inv h
  | @project o s0 s1 ncomp cells sel pts o' pts' _ h ih =>
    unfold DgObj.project at h
    simp only [Option.bind_eq_some_iff, Option.map_eq_some_iff, Prod.mk.injEq] at h
    obtain ⟨t, ht, _, -, rfl, -⟩ := h
    refine (ih.check ncomp).1.tab (CellTab.Same.trans (t' := (o.checkNcomp ncomp).tab.fill 0) ⟨rfl, rfl, rfl⟩
      (loopTab_same (fun c p t t' h => ?_) ht))
    rw [Option.bind_eq_some_iff] at h
    obtain ⟨iv, -, h⟩ := h
    refine forLoop_same (fun i t t' h => ?_) h
    rw [Option.bind_eq_some_iff] at h
    obtain ⟨v, -, h⟩ := h
    exact CellTab.add_same h
  | @evaluate o s0 s1 ncomp cells sel pts o' cells' _ h ih =>
    unfold DgObj.evaluate at h
    simp only [Option.bind_eq_some_iff, Option.map_eq_some_iff, Prod.mk.injEq] at h
    obtain ⟨t, ht, _, -, rfl, -⟩ := h
    refine (ih.check ncomp).1.tab ?_
    split at ht
    · split at ht
      · refine loopTab_same (fun c p t t' h => ?_) ht
        split at h
        · refine forLoop_same (fun i t t' h => ?_) h
          rw [Option.bind_eq_some_iff] at h
          obtain ⟨v, -, h⟩ := h
          exact CellTab.put_same h
        · cases h; exact CellTab.Same.refl _
      · cases ht
    · cases ht; exact CellTab.Same.refl _
  | @setDofs o ncomp dofs o' _ h ih =>
    unfold DgObj.setDofs at h
    split at h
    · simp only at h
      split at h
      · rw [Option.map_eq_some_iff] at h
        obtain ⟨t, ht, rfl⟩ := h
        refine (ih.check _).1.tab (forLoop_same (fun i t t' h => ?_) ht)
        rw [Option.bind_eq_some_iff] at h
        obtain ⟨t1, h1, h2⟩ := h
        refine CellTab.Same.trans (forLoop_same (fun i t t' h => ?_) h1)
          (forLoop_same (fun i t t' h => CellTab.put_same h) h2)
        rw [Option.bind_eq_some_iff] at h
        obtain ⟨v, -, h⟩ := h
        exact CellTab.put_same h
      · cases h
    · cases h; exact ih

end NP
