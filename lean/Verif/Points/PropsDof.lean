import Verif.Points.SpecDof
import Verif.Common.KernelLemmas
import Verif.Common.Atomic
import Mathlib.Data.List.Induction

/-!
# C82: degrees of freedom are copied to and from the order of the external code
-/

set_option autoImplicit false

namespace NP

open Spec

variable {α : Type}

theorem dof_lt {ncell ndof c d : Nat} (hc : c < ncell) (hd : d < ndof) :
    c * ndof + d < ncell * ndof := by
  have := Nat.mul_le_mul_right ndof (Nat.succ_le_of_lt hc)
  rw [Nat.succ_mul] at this
  omega

theorem dof_inj {ndof c d c' d' : Nat} (hd : d < ndof) (hd' : d' < ndof)
    (h : c * ndof + d = c' * ndof + d') : c = c' ∧ d = d' := by
  have h1 : (c * ndof + d) / ndof = c := by
    rw [Nat.mul_comm, Nat.mul_add_div (by omega), Nat.div_eq_of_lt hd, Nat.add_zero]
  have h2 : (c' * ndof + d') / ndof = c' := by
    rw [Nat.mul_comm, Nat.mul_add_div (by omega), Nat.div_eq_of_lt hd', Nat.add_zero]
  have : c = c' := by rw [← h1, h, h2]
  subst this
  exact ⟨rfl, by omega⟩

theorem mem_dofItems {m : DofMapper α} {cd : Nat × Nat} :
    cd ∈ m.items ↔ cd.1 < m.ncell ∧ cd.2 < m.ndof := by
  unfold DofMapper.items
  simp only [List.mem_flatMap, List.mem_range, List.mem_map]
  constructor
  · rintro ⟨c, hc, d, hd, rfl⟩; exact ⟨hc, hd⟩
  · rintro ⟨hc, hd⟩; exact ⟨_, hc, _, hd, rfl⟩

theorem lastSet_append (ops : List (DofOp α)) (o : DofOp α) (cell dof : Int) :
    lastSet (ops ++ [o]) cell dof = match o with
      | .set c d ix => if c = cell ∧ d = dof then some ix else lastSet ops cell dof
      | _ => lastSet ops cell dof := by
  induction ops with
  | nil => cases o <;> simp [lastSet]
  | cons o' ops ih =>
    rw [List.cons_append]
    cases o' with
    | set c d ix =>
      simp only [lastSet]
      rw [ih]
      cases o with
      | set c' d' ix' =>
        dsimp only
        by_cases h : c' = cell ∧ d' = dof
        · rw [if_pos h, if_pos h]
        · rw [if_neg h, if_neg h]
      | copyTo => rfl
      | copyFrom => rfl
    | copyTo => exact ih
    | copyFrom => exact ih

/-- What a mapper is after a history. -/
structure DofReached (ncell ndof : Nat) (ops : List (DofOp α)) (m : DofMapper α) : Prop where
  cells : m.ncell = ncell
  dofsPer : m.ndof = ndof
  len : m.map.length = ncell * ndof
  buf : ∀ l, m.dofs = some l → l.length = ncell * ndof
  map : ∀ c d : Nat, c < ncell → d < ndof →
    m.map[c * ndof + d]? = some ((lastSet ops c d).getD (-1))

theorem length_toLoop {m : DofMapper α} {source : List α} {items : List (Nat × Nat)}
    {l l' : List α} (h : runItems (m.toStep source) items l = some l') : l'.length = l.length := by
  induction items generalizing l with
  | nil => rw [runItems_nil] at h; rw [Option.some.inj h]
  | cons i is ih =>
    rw [runItems_cons] at h
    obtain ⟨l1, h1, h2⟩ := Option.bind_eq_some_iff.1 h
    rw [ih h2]
    unfold DofMapper.toStep at h1
    obtain ⟨ix, -, h1⟩ := Option.bind_eq_some_iff.1 h1
    obtain ⟨j, -, h1⟩ := Option.bind_eq_some_iff.1 h1
    obtain ⟨v, -, h1⟩ := Option.bind_eq_some_iff.1 h1
    unfold st at h1
    split at h1
    · rw [← Option.some.inj h1, List.length_set]
    · cases h1

theorem DofReached.buffer {ncell ndof : Nat} {ops : List (DofOp α)} {m : DofMapper α}
    (h : DofReached ncell ndof ops m) (fresh : Fresh α) :
    (m.buffer fresh).length = ncell * ndof := by
  unfold DofMapper.buffer
  cases hm : m.dofs with
  | none => rw [Option.getD_none, (fresh _).2, h.cells, h.dofsPer]
  | some l => rw [Option.getD_some, h.buf l hm]

theorem dofReached {ncell ndof : Nat} {ops : List (DofOp α)} {m : DofMapper α}
    (h : runItems DofMapper.op ops (dofNew ncell ndof) = some m) :
    DofReached ncell ndof ops m := by
  induction ops using List.reverseRecOn generalizing m with
  | nil =>
    rw [runItems_nil] at h
    rw [← Option.some.inj h]
    refine ⟨rfl, rfl, by simp [dofNew], fun l hl => (by cases hl), fun c d hc hd => ?_⟩
    have := dof_lt hc hd
    simp [dofNew, lastSet, this]
  | append_singleton ops o ih =>
    rw [runItems_append] at h
    obtain ⟨m1, h1, h2⟩ := Option.bind_eq_some_iff.1 h
    have ok := ih h1
    rw [runItems_cons] at h2
    obtain ⟨m2, h3, h4⟩ := Option.bind_eq_some_iff.1 h2
    rw [runItems_nil] at h4
    obtain rfl := Option.some.inj h4
    cases o with
    | set cell dof ix =>
      simp only [DofMapper.op, DofMapper.set, DofMapper.index] at h3
      split at h3
      swap
      · cases h3
      rename_i hb
      rw [Option.bind_some] at h3
      obtain ⟨map, e1, e2⟩ := Option.bind_eq_some_iff.1 h3
      obtain rfl := Option.some.inj e2
      rw [ok.cells, ok.dofsPer] at hb
      obtain ⟨C, rfl⟩ := Int.eq_ofNat_of_zero_le hb.1.1
      obtain ⟨D, rfl⟩ := Int.eq_ofNat_of_zero_le hb.2.1
      have hC : C < ncell := by omega
      have hD : D < ndof := by omega
      have hix : ((C : Int) * (m1.ndof : Int) + (D : Int)).toNat = C * ndof + D := by
        rw [ok.dofsPer]
        have : (C : Int) * (ndof : Int) + (D : Int) = ((C * ndof + D : Nat) : Int) := by push_cast; rfl
        rw [this, Int.toNat_natCast]
      rw [hix, st_eq_some (by rw [ok.len]; exact dof_lt hC hD)] at e1
      obtain rfl := Option.some.inj e1
      refine ⟨ok.cells, ok.dofsPer, by simpa using ok.len, ok.buf, fun c d hc hd => ?_⟩
      rw [lastSet_append]
      dsimp only
      rw [List.getElem?_set]
      by_cases he : C * ndof + D = c * ndof + d
      · obtain ⟨rfl, rfl⟩ := dof_inj hD hd he
        rw [if_pos rfl, if_pos (by rw [ok.len]; exact dof_lt hc hd), if_pos ⟨rfl, rfl⟩]
        rfl
      · rw [if_neg he, ok.map c d hc hd, if_neg]
        rintro ⟨h5, h6⟩
        have h5 : C = c := by omega
        have h6 : D = d := by omega
        exact he (by rw [h5, h6])
    | copyTo fresh order source ext =>
      simp only [DofMapper.op] at h3
      obtain ⟨r, e1, e2⟩ := Option.bind_eq_some_iff.1 h3
      obtain rfl := Option.some.inj e2
      have hbl := ok.buffer fresh
      unfold DofMapper.copyTo at e1
      split at e1
      · obtain ⟨l, f1, e1⟩ := Option.bind_eq_some_iff.1 e1
        obtain ⟨v, f2, e1⟩ := Option.bind_eq_some_iff.1 e1
        obtain ⟨x, f3, e1⟩ := Option.bind_eq_some_iff.1 e1
        obtain rfl := Option.some.inj e1
        have hl := length_toLoop f1
        refine ⟨ok.cells, ok.dofsPer, ok.len, fun l' h' => ?_, fun c d hc hd => ?_⟩
        · rw [← Option.some.inj h', hl, hbl]
        · rw [lastSet_append]; exact ok.map c d hc hd
      · obtain rfl := Option.some.inj e1
        refine ⟨ok.cells, ok.dofsPer, ok.len, fun l' h' => ?_, fun c d hc hd => ?_⟩
        · rw [← Option.some.inj h', hbl]
        · rw [lastSet_append]; exact ok.map c d hc hd
    | copyFrom fresh order dest ext =>
      simp only [DofMapper.op] at h3
      obtain ⟨r, e1, e2⟩ := Option.bind_eq_some_iff.1 h3
      obtain rfl := Option.some.inj e2
      have hbl := ok.buffer fresh
      have : r.1 = { m1 with dofs := some (m1.buffer fresh) } := by
        unfold DofMapper.copyFrom at e1
        split at e1
        · obtain ⟨v, f2, e1⟩ := Option.bind_eq_some_iff.1 e1
          obtain ⟨x, f3, e1⟩ := Option.bind_eq_some_iff.1 e1
          obtain ⟨l, f1, e1⟩ := Option.bind_eq_some_iff.1 e1
          rw [← Option.some.inj e1]
        · rw [← Option.some.inj e1]
      rw [this]
      refine ⟨ok.cells, ok.dofsPer, ok.len, fun l' h' => ?_, fun c d hc hd => ?_⟩
      · rw [← Option.some.inj h', hbl]
      · rw [lastSet_append]; exact ok.map c d hc hd

/-- `get` returns the index of the last call of `set` for this cell and degree of freedom, or -1. -/
theorem C82_get {ncell ndof : Nat} {ops : List (DofOp α)} {m : DofMapper α}
    (h : runItems DofMapper.op ops (dofNew ncell ndof) = some m) {c d : Nat} (hc : c < ncell)
    (hd : d < ndof) : m.get c d = some ((lastSet ops c d).getD (-1)) := by
  have ok := dofReached h
  unfold DofMapper.get DofMapper.index
  rw [if_pos (by rw [ok.cells, ok.dofsPer]; omega), Option.bind_some, rd]
  have : ((c : Int) * (m.ndof : Int) + (d : Int)).toNat = c * ndof + d := by
    rw [ok.dofsPer]
    have : (c : Int) * (ndof : Int) + (d : Int) = ((c * ndof + d : Nat) : Int) := by push_cast; rfl
    rw [this, Int.toNat_natCast]
  rw [this, ok.map c d hc hd]

/-- The index of a degree of freedom. -/
theorem DofReached.at {ncell ndof : Nat} {ops : List (DofOp α)} {m : DofMapper α}
    (ok : DofReached ncell ndof ops m) {c d ix : Nat} (hc : c < ncell) (hd : d < ndof)
    (h : lastSet ops c d = some (ix : Int)) :
    (m.devGet c d).bind dofPtr = some ix := by
  unfold DofMapper.devGet dofPtr
  rw [rd, ok.dofsPer, ok.map c d hc hd, h]
  simp

/-- The loop of `copy_to_external`. -/
theorem toLoop_spec {ncell ndof : Nat} {ops : List (DofOp α)} {m : DofMapper α}
    (ok : DofReached ncell ndof ops m) (hn : DofNumbering ops ncell ndof) (order : Sched)
    {source dofs : List α} (hs : ncell * ndof ≤ source.length)
    (hl : dofs.length = ncell * ndof) :
    ∃ out, runItems (m.toStep source) (order.order m.items) dofs = some out ∧
      out.length = ncell * ndof ∧ ∀ (c d ix : Nat), c < ncell → d < ndof →
        lastSet ops c d = some (ix : Int) → out[ix]? = source[c * ndof + d]? := by
  have hp := order.perm m.items
  have hmem : ∀ cd ∈ order.order m.items, cd.1 < ncell ∧ cd.2 < ndof := by
    intro cd h
    have := mem_dofItems.1 (hp.mem_iff.1 h)
    rwa [ok.cells, ok.dofsPer] at this
  cases hsrc : source with
  | nil =>
    subst hsrc
    have h0 : ncell * ndof = 0 := by simpa using hs
    have : order.order m.items = [] := by
      rw [List.eq_nil_iff_forall_not_mem]
      intro cd h
      have := dof_lt (hmem cd h).1 (hmem cd h).2
      omega
    rw [this]
    refine ⟨dofs, rfl, hl, fun c d ix hc hd _ => ?_⟩
    have := dof_lt hc hd
    omega
  | cons v0 vs =>
    obtain ⟨out, r1, r2, r3, -⟩ := runItems_put (items := order.order m.items) (m := dofs)
      (step := m.toStep source) (fun cd => (m.devGet cd.1 cd.2).bind dofPtr)
      (fun cd => source.getD (cd.1 * ndof + cd.2) v0) (by
        intro cd hcd s _
        obtain ⟨hc, hd⟩ := hmem cd hcd
        obtain ⟨ix, h1, h2⟩ := hn.given cd.1 cd.2 hc hd
        have hat := ok.at hc hd h2
        obtain ⟨j, j1, j2⟩ := Option.bind_eq_some_iff.1 hat
        have hv := List.getElem?_eq_getElem (Nat.lt_of_lt_of_le (dof_lt hc hd) hs)
        unfold DofMapper.toStep
        rw [hat, j1, Option.bind_some, j2, Option.bind_some, rd, ok.dofsPer, hv, Option.bind_some]
        dsimp only
        rw [List.getD_eq_getElem?_getD, hv, Option.getD_some]) (by
        intro x hx y hy i h1 h2
        obtain ⟨hc, hd⟩ := hmem x hx
        obtain ⟨hc', hd'⟩ := hmem y hy
        obtain ⟨ix, -, g1⟩ := hn.given x.1 x.2 hc hd
        obtain ⟨iy, -, g2⟩ := hn.given y.1 y.2 hc' hd'
        rw [ok.at hc hd g1] at h1
        rw [ok.at hc' hd' g2] at h2
        obtain rfl := Option.some.inj h1
        obtain rfl := Option.some.inj h2
        obtain ⟨e1, e2⟩ := hn.distinct _ _ _ _ hc hd hc' hd' (g1.trans g2.symm)
        rw [e1, e2]) (by
        intro x hx i h1
        obtain ⟨hc, hd⟩ := hmem x hx
        obtain ⟨ix, g0, g1⟩ := hn.given x.1 x.2 hc hd
        rw [ok.at hc hd g1] at h1
        rw [← Option.some.inj h1, hl]
        exact g0)
    rw [← hsrc]
    refine ⟨out, r1, by omega, fun c d ix hc hd hix => ?_⟩
    have hv := List.getElem?_eq_getElem (Nat.lt_of_lt_of_le (dof_lt hc hd) hs)
    rw [r3 (c, d) (hp.mem_iff.2 (mem_dofItems.2 (by rw [ok.cells, ok.dofsPer]; exact ⟨hc, hd⟩))) ix
      (ok.at hc hd hix), List.getD_eq_getElem?_getD, hv, Option.getD_some]

/-- `copy_to_external` after any history: the value of each degree of freedom is written to the index
that the last call of `set` gave for it, and nothing else is written. Missing: the other direction,
which does not hold (`C82_copy_from_wrong`). -/
theorem C82_copy_to_partial {ncell ndof : Nat} {ops : List (DofOp α)} {m : DofMapper α}
    (h : runItems DofMapper.op ops (dofNew ncell ndof) = some m)
    (hn : DofNumbering ops ncell ndof) (fresh : Fresh α) (order : Sched) {source ext : List α}
    (hs : ncell * ndof ≤ source.length) (he : ncell * ndof ≤ ext.length) :
    ∃ m' ext', m.copyTo fresh order source ext = some (m', ext') ∧ ext'.length = ext.length ∧
      (∀ (c d ix : Nat), c < ncell → d < ndof → lastSet ops c d = some (ix : Int) →
        ext'[ix]? = source[c * ndof + d]?) ∧
      ∀ k, ncell * ndof ≤ k → ext'[k]? = ext[k]? := by
  have ok := dofReached h
  unfold DofMapper.copyTo
  dsimp only
  rw [ok.cells, ok.dofsPer]
  by_cases h0 : 0 < ncell * ndof
  · obtain ⟨out, r1, r2, r3⟩ := toLoop_spec ok hn order hs (ok.buffer fresh)
    have e1 := slice_eq_some (m := out) (a := 0) (b := ncell * ndof) (by omega) (by omega)
    rw [Nat.sub_zero, List.drop_zero, List.take_of_length_le (by omega)] at e1
    have e2 := stRange_eq_some (m := ext) (vs := out) (a := 0) (by omega)
    rw [if_pos h0, r1, Option.bind_some, e1, Option.bind_some, e2, Option.bind_some]
    refine ⟨_, _, rfl, (length_of_stRange e2).1, fun c d ix hc hd hix => ?_, fun k hk => ?_⟩
    · obtain ⟨ix', g1, g2⟩ := hn.given c d hc hd
      rw [hix] at g2
      have : ix = ix' := Int.ofNat.inj (Option.some.inj g2)
      rw [getElem?_of_stRange e2, if_pos (by omega), Nat.sub_zero, r3 c d ix hc hd hix]
    · rw [getElem?_of_stRange e2, if_neg (by omega)]
  · rw [if_neg h0]
    refine ⟨_, _, rfl, rfl, fun c d ix hc hd hix => ?_, fun k _ => rfl⟩
    have := dof_lt hc hd
    omega

/-- `copy_to_external` fails if a degree of freedom was not given an index. -/
theorem C82_unset_fails {ncell ndof : Nat} {ops : List (DofOp α)} {m : DofMapper α}
    (h : runItems DofMapper.op ops (dofNew ncell ndof) = some m) {c d : Nat} (hc : c < ncell)
    (hd : d < ndof) (hu : lastSet ops c d = none) (fresh : Fresh α) (order : Sched)
    (source ext : List α) : m.copyTo fresh order source ext = none := by
  have ok := dofReached h
  have hmem : (c, d) ∈ order.order m.items :=
    (order.perm m.items).mem_iff.2 (mem_dofItems.2 (by rw [ok.cells, ok.dofsPer]; exact ⟨hc, hd⟩))
  obtain ⟨pre, post, hsplit⟩ := List.append_of_mem hmem
  have hnone : ∀ l, m.toStep source (c, d) l = none := by
    intro l
    unfold DofMapper.toStep DofMapper.devGet dofPtr
    rw [rd, ok.dofsPer, ok.map c d hc hd, hu]
    rfl
  have := dof_lt hc hd
  unfold DofMapper.copyTo
  dsimp only
  rw [ok.cells, ok.dofsPer, if_pos (by omega), hsplit, runItems_append]
  cases runItems (m.toStep source) pre (m.buffer fresh) with
  | none => rfl
  | some l => rw [Option.bind_some, runItems_cons, hnone]; rfl

/-- `copy_from_external` never reads the external buffer: the values which it stores do not depend on
it. -/
theorem C82_copy_from_ignores (m : DofMapper α) (fresh : Fresh α) (order : Sched)
    (dest : List α) {ext ext' : List α} (h : ext.length = ext'.length) :
    (m.copyFrom fresh order dest ext).map (fun r => r.2.1) =
      (m.copyFrom fresh order dest ext').map (fun r => r.2.1) := by
  unfold DofMapper.copyFrom
  dsimp only
  split
  · cases slice (m.buffer fresh) 0 (m.ncell * m.ndof) with
    | none => rfl
    | some v =>
      rw [Option.bind_some, Option.bind_some]
      unfold stRange
      rw [h]
      split
      · rw [Option.bind_some, Option.bind_some]
        cases runItems (m.fromStep (m.buffer fresh)) (order.order m.items) dest <;> rfl
      · rfl
  · rfl

/-- After `copy_to_external`, `copy_from_external` stores the values that were copied before and not
those in the external buffer, whatever it holds now, and overwrites the external buffer. A test that
does not change the buffer in between cannot notice this. -/
theorem C82_copy_from_wrong {ncell ndof : Nat} {ops : List (DofOp α)} {m : DofMapper α}
    (h : runItems DofMapper.op ops (dofNew ncell ndof) = some m)
    (hn : DofNumbering ops ncell ndof) (fresh fresh' : Fresh α) (order order' : Sched)
    {source dest ext now : List α} (hs : source.length = ncell * ndof)
    (hd : dest.length = ncell * ndof) (he : ext.length = ncell * ndof)
    (hw : now.length = ncell * ndof) :
    ∃ m' ext', m.copyTo fresh order source ext = some (m', ext') ∧
      ∃ m'', m'.copyFrom fresh' order' dest now = some (m'', source, ext') := by
  have ok := dofReached h
  unfold DofMapper.copyTo
  dsimp only
  rw [ok.cells, ok.dofsPer]
  by_cases h0 : 0 < ncell * ndof
  · obtain ⟨out, r1, r2, r3⟩ := toLoop_spec ok hn order (by omega : ncell * ndof ≤ source.length)
      (ok.buffer fresh)
    have e1 := slice_eq_some (m := out) (a := 0) (b := ncell * ndof) (by omega) (by omega)
    rw [Nat.sub_zero, List.drop_zero, List.take_of_length_le (by omega)] at e1
    have e2 := stRange_eq_some (m := ext) (vs := out) (a := 0) (by omega)
    have e2' : ext.take 0 ++ out ++ ext.drop (0 + out.length) = out := by
      rw [List.drop_of_length_le (by omega)]; simp
    have e3 := stRange_eq_some (m := now) (vs := out) (a := 0) (by omega)
    have e3' : now.take 0 ++ out ++ now.drop (0 + out.length) = out := by
      rw [List.drop_of_length_le (by omega)]; simp
    rw [e2'] at e2
    rw [e3'] at e3
    rw [if_pos h0, r1, Option.bind_some, e1, Option.bind_some, e2, Option.bind_some]
    refine ⟨_, _, rfl, ?_⟩
    have ok' : DofReached ncell ndof ops { m with dofs := some out } :=
      ⟨ok.cells, ok.dofsPer, ok.len, fun l hl => by rw [← Option.some.inj hl, r2], ok.map⟩
    have hp := order'.perm m.items
    have hmem : ∀ cd ∈ order'.order m.items, cd.1 < ncell ∧ cd.2 < ndof := by
      intro cd h
      have := mem_dofItems.1 (hp.mem_iff.1 h)
      rwa [ok.cells, ok.dofsPer] at this
    obtain ⟨v0, hv0⟩ : ∃ v0, source[0]? = some v0 :=
      ⟨_, List.getElem?_eq_getElem (by omega)⟩
    obtain ⟨out', q1, q2, q3, -⟩ := runItems_put (items := order'.order m.items) (m := dest)
      (step := DofMapper.fromStep { m with dofs := some out } out)
      (fun cd => some (cd.1 * ndof + cd.2)) (fun cd => source.getD (cd.1 * ndof + cd.2) v0) (by
        intro cd hcd s _
        obtain ⟨hc, hd⟩ := hmem cd hcd
        obtain ⟨ix, g0, g1⟩ := hn.given cd.1 cd.2 hc hd
        have hat := ok'.at hc hd g1
        obtain ⟨j, j1, j2⟩ := Option.bind_eq_some_iff.1 hat
        have hv := List.getElem?_eq_getElem
          (Nat.lt_of_lt_of_eq (dof_lt hc hd) hs.symm)
        unfold DofMapper.fromStep
        rw [j1, Option.bind_some, j2, Option.bind_some, rd, r3 _ _ _ hc hd g1, hv,
          Option.bind_some]
        dsimp only
        rw [List.getD_eq_getElem?_getD, hv, Option.getD_some, ok.dofsPer]) (by
        intro x hx y hy i h1 h2
        have := (Option.some.inj h1).trans (Option.some.inj h2).symm
        rw [this]) (by
        intro x hx i h1
        rw [← Option.some.inj h1, hd]
        exact dof_lt (hmem x hx).1 (hmem x hx).2)
    have hout : out' = source := by
      apply List.ext_getElem?
      intro k
      by_cases hk : k < ncell * ndof
      · have hnd : 0 < ndof := Nat.pos_of_ne_zero fun h => by rw [h] at hk; simp at hk
        have hc : k / ndof < ncell := Nat.div_lt_of_lt_mul (by rw [Nat.mul_comm]; exact hk)
        have hd : k % ndof < ndof := Nat.mod_lt _ hnd
        have hke : k / ndof * ndof + k % ndof = k := by
          rw [Nat.mul_comm]; exact Nat.div_add_mod k ndof
        have hm : (k / ndof, k % ndof) ∈ order'.order m.items :=
          hp.mem_iff.2 (mem_dofItems.2 (by rw [ok.cells, ok.dofsPer]; exact ⟨hc, hd⟩))
        have := q3 _ hm k (by dsimp only; rw [hke])
        dsimp only at this
        rw [this, hke, List.getD_eq_getElem?_getD,
          List.getElem?_eq_getElem (by omega : k < source.length), Option.getD_some]
      · rw [List.getElem?_eq_none (by omega), List.getElem?_eq_none (by omega)]
    refine ⟨{ m with ncell := ncell, ndof := ndof, dofs := some out }, ?_⟩
    have heq : ({ m with ncell := ncell, ndof := ndof, dofs := some out } : DofMapper α) =
        { m with dofs := some out } := by rw [← ok.cells, ← ok.dofsPer]
    rw [heq]
    unfold DofMapper.copyFrom
    dsimp only [DofMapper.buffer, Option.getD_some]
    rw [ok.cells, ok.dofsPer, if_pos h0, e1, Option.bind_some, e3, Option.bind_some]
    have hit : DofMapper.items { m with dofs := some out } = m.items := rfl
    rw [heq, hit, q1, hout]
    rfl
  · rw [if_neg h0]
    have hz : ncell * ndof = 0 := by omega
    refine ⟨_, _, rfl, ?_⟩
    unfold DofMapper.copyFrom
    dsimp only
    rw [if_neg h0]
    have a1 : source = [] := List.length_eq_zero_iff.1 (by omega)
    have a2 : dest = [] := List.length_eq_zero_iff.1 (by omega)
    have a3 : ext = [] := List.length_eq_zero_iff.1 (by omega)
    have a4 : now = [] := List.length_eq_zero_iff.1 (by omega)
    rw [a1, a2, a3, a4]
    exact ⟨_, rfl⟩

/-! ## Two cells with two degrees of freedom -/

namespace Ex

/-- New memory. -/
def dofFresh : Fresh Nat := fun n => ⟨List.replicate n 9, List.length_replicate⟩

/-- The degrees of freedom get the indices 2, 0, 3, 1. One is set twice, and there is a copy in
between. -/
def dofOps : List (DofOp Nat) :=
  [.set 0 0 2, .set 0 1 0, .set 1 0 1, .set 1 1 3,
    .copyTo dofFresh Sched.reversed [1, 2, 3, 4] [0, 0, 0, 0], .set 1 0 3, .set 1 1 1]

theorem dofOps_ok : DofNumbering dofOps 2 2 := by
  have hg : ∀ c d : Nat, c < 2 → d < 2 → lastSet dofOps c d =
      some ((([2, 0, 3, 1] : List Nat).getD (c * 2 + d) 0 : Nat) : Int) := by
    intro c d hc hd
    have : (c = 0 ∨ c = 1) ∧ (d = 0 ∨ d = 1) := by omega
    rcases this with ⟨rfl | rfl, rfl | rfl⟩ <;> rfl
  refine ⟨fun c d hc hd => ⟨_, ?_, hg c d hc hd⟩, fun c d c' d' hc hd hc' hd' h => ?_⟩
  · have : (c = 0 ∨ c = 1) ∧ (d = 0 ∨ d = 1) := by omega
    rcases this with ⟨rfl | rfl, rfl | rfl⟩ <;> decide
  · rw [hg c d hc hd, hg c' d' hc' hd'] at h
    have h1 : (c = 0 ∨ c = 1) ∧ (d = 0 ∨ d = 1) := by omega
    have h2 : (c' = 0 ∨ c' = 1) ∧ (d' = 0 ∨ d' = 1) := by omega
    rcases h1 with ⟨rfl | rfl, rfl | rfl⟩ <;> rcases h2 with ⟨rfl | rfl, rfl | rfl⟩ <;>
      first
      | exact ⟨rfl, rfl⟩
      | exact absurd h (by decide)

end Ex

/-- The values go to the indices, and then come back although the buffer was changed. -/
example : ((runItems DofMapper.op Ex.dofOps (dofNew 2 2)).bind fun m =>
    (m.copyTo Ex.dofFresh Sched.reversed [10, 11, 12, 13] [0, 0, 0, 0]).bind fun r =>
    (r.1.copyFrom Ex.dofFresh Sched.inOrder [5, 5, 5, 5] [70, 71, 72, 73]).map fun s =>
      (r.2, s.2)) = some ([11, 13, 10, 12], [10, 11, 12, 13], [11, 13, 10, 12]) := by
  decide +kernel

/-- Without a copy before, the external values are replaced by new memory. -/
example : ((runItems DofMapper.op [.set 0 0 1, .set 0 1 0] (dofNew 1 2)).bind fun m =>
    (m.copyFrom Ex.dofFresh Sched.inOrder [5, 5] [70, 71]).map fun s => s.2) =
    some ([9, 9], [9, 9]) := by
  decide +kernel

end NP
