import Verif.Io.LemmasRead
import Verif.Basics.Lemmas
import Verif.Basics.Props

/-!
# C75: trajectories in H5Part files

`ranks` are the ranks that call `write`, `Ls` lists by cell the particles that each writes.
-/

set_option autoImplicit false

namespace NP

open Spec

/-- **C75** `write` makes one step. The step has number `step`, or the next one; it holds the
values of all particles of all ranks, in the order of ranks, cells and rows, whatever the orders
in which particles are visited and ranks write. Earlier steps are kept. The call is rejected
exactly if the step exists, or, unless no rank has a particle, if two datasets would have the same
name. -/
theorem C75_write (sch : Sched) (h : H5Part) {ranks : List IoRank} {Ls : List (List (List Nat))}
    (hok : ∀ r ∈ ranks, IoOk r) (hL : List.Forall₂ Writes ranks Ls)
    {pos : Nat} {ncomp : Nat → Nat} (hsame : SameProps ranks pos ncomp) (hpos : ncomp pos ≤ 3)
    (hs : ∀ r ∈ ranks, ∀ s ∈ pos :: h.reals ++ h.ints, (r.g.dat? s).isSome = true)
    (stepIn : Int) :
    let step := if stepIn < 0 then h.step else stepIn
    h.write sch ranks stepIn =
      if step ∈ h.file.map (·.1) then none
      else if writtenOrder ranks Ls = [] then
        some { h with step := step + 1, file := h.file ++ [(step, [])] }
      else if ((stepEntries h ranks Ls pos ncomp).map (·.1)).Nodup then
        some { h with step := step + 1, file := h.file ++ [(step, stepEntries h ranks Ls pos ncomp)] }
      else none := by
  intro step
  have hstep : (if stepIn ≥ 0 then stepIn else h.step) = step := by
    simp only [step]
    by_cases h0 : stepIn < 0
    · rw [if_pos h0, if_neg (by omega)]
    · rw [if_neg h0, if_pos (by omega)]
  unfold H5Part.write
  rw [hstep]
  dsimp only
  split
  · rfl
  · rw [ioWriteInner_spec sch h hok hL hsame hpos hs]
    split
    · rfl
    · split <;> rfl

/-- **C75**, names: if the properties that are written have different names then all datasets of
a step have different names, also where the name of a property ends like the name of a component
or is `x`, `y` or `z`. -/
theorem C75_names_distinct {h : H5Part} (ranks : List IoRank) (Ls : List (List (List Nat)))
    {pos : Nat} {ncomp : Nat → Nat} (hpos : ncomp pos ≤ 3)
    (hn : ((h.reals ++ h.ints).map h.names).Nodup) :
    ((stepEntries h ranks Ls pos ncomp).map (·.1)).Nodup :=
  stepEntries_nodup ranks Ls hpos hn

/-- **C75**, failure case: two properties with the same name, such as a REAL and an INT property,
or the same property twice, cannot be written. -/
theorem C75_same_name_rejected (sch : Sched) (h : H5Part) {ranks : List IoRank}
    {Ls : List (List (List Nat))} (hok : ∀ r ∈ ranks, IoOk r) (hL : List.Forall₂ Writes ranks Ls)
    {pos : Nat} {ncomp : Nat → Nat} (hsame : SameProps ranks pos ncomp) (hpos : ncomp pos ≤ 3)
    (hs : ∀ r ∈ ranks, ∀ s ∈ pos :: h.reals ++ h.ints, (r.g.dat? s).isSome = true)
    (hc : ∀ s ∈ h.reals ++ h.ints, 0 < ncomp s)
    (hn : ¬ ((h.reals ++ h.ints).map h.names).Nodup)
    (hne : writtenOrder ranks Ls ≠ []) (stepIn : Int) :
    h.write sch ranks stepIn = none := by
  have e := C75_write sch h hok hL hsame hpos hs stepIn
  dsimp only at e
  rw [e]
  generalize (if stepIn < 0 then h.step else stepIn) = step
  by_cases h1 : step ∈ h.file.map (·.1)
  · rw [if_pos h1]
  · rw [if_neg h1, if_neg hne, if_neg (stepEntries_dup ranks Ls hc hn)]

/-- **C75**, failure case: a property that a rank does not have cannot be written. -/
theorem C75_missing_property_rejected (sch : Sched) (h : H5Part) {ranks : List IoRank}
    {r : IoRank} (hr : r ∈ ranks) {s : Nat} (hs : s ∈ h.reals ++ h.ints)
    (hd : r.g.dat? s = none) (stepIn : Int) : h.write sch ranks stepIn = none := by
  unfold H5Part.write
  dsimp only
  generalize (if stepIn ≥ 0 then stepIn else h.step) = step
  by_cases h1 : step ∈ h.file.map (·.1)
  · rw [if_pos h1]
  · rw [if_neg h1]
    unfold ioWriteInner
    rw [if_neg]
    · rfl
    · intro hall
      rw [List.all_eq_true] at hall
      have := hall r hr
      rw [List.all_eq_true] at this
      have := this s hs
      rw [hd] at this
      simp at this

/-- **C75** `read` on rank `q` of `size`: the rank gets the particles of its range of a balanced
partition of the written particles, with the values of the properties of its specification. -/
theorem C75_read {h : H5Part} {ranks : List IoRank} {Ls : List (List (List Nat))} {pos : Nat}
    {ncomp : Nat → Nat} {step : Int} {file : List (Int × StepData)}
    (hw : WrittenStep h ranks Ls pos ncomp step file) {size q a b : Nat} (hsize : 0 < size)
    (hq : q < size) (hd : getDecomp1d size (writtenOrder ranks Ls).length q = some (a, b))
    {spec : List ReadProp} (useXyz : Bool) (hnd : (spec.map (·.sym)).Nodup)
    (hspec : ∀ p ∈ spec, (p.ncomp ≤ ncomp (sourceSym pos useXyz p)) ∧
      (p.isReal = true ∧ p.positions = true ∧ useXyz = true ∨
        p.sym ∈ if p.isReal then h.reals else h.ints)) :
    ∃ ps, h5Read h.names file size q spec step useXyz = some ps ∧ SetShape ps ∧
      ps.npart = b - a ∧ setProps ps = spec.map (fun p => (p.sym, p.ncomp)) ∧
      ∀ p ∈ spec, ∀ (j : Nat), j < p.ncomp → ∀ (i : Nat) (r : IoRank) (c k : Nat), i < b - a →
        (writtenOrder ranks Ls)[a + i]? = some (r, c, k) →
        ∃ v, ps.at p.sym i j = some v ∧ r.g.mem ⟨sourceSym pos useXyz p, c, j, k⟩ = some v := by
  obtain ⟨ok, lists, same, dims, syms, names, nonempty, found⟩ := hw
  have hnames := C75_names_distinct (h := h) ranks Ls dims.2 names
  have hx := dset?_of_mem hnames (stepEntries_pos h ranks Ls (j := 0) (ncomp := ncomp) (pos := pos)
    (by omega))
  have hx0 : xyz 0 = ['x'] := rfl
  rw [hx0] at hx
  rw [getDecomp1d_eq hsize] at hd
  simp only [Option.some.injEq, Prod.mk.injEq] at hd
  obtain ⟨rfl, rfl⟩ := hd
  set N := (writtenOrder ranks Ls).length with hN
  have hNpos : 0 < N := List.length_pos_iff.2 nonempty
  have hcn : ∀ s j, (column ranks Ls s j).length = N := fun s j => length_column s j
  have hab : dstart size N q ≤ dstart size N (q + 1) := dstart_mono (by omega)
  have hbN : dstart size N (q + 1) ≤ N := by
    have := dstart_mono (n := size) (N := N) (show q + 1 ≤ size from hq)
    rwa [dstart_top N hsize] at this
  obtain ⟨ps, r1, r2, r3, r4, r5⟩ := readAll_spec (grp := stepEntries h ranks Ls pos ncomp) hab hbN
    (names := h.names) (useXyz := useXyz) hnd
    (fun p j => column ranks Ls (sourceSym pos useXyz p) j)
    (by
      intro p hp j hj
      obtain ⟨hle, hcase⟩ := hspec p hp
      have hj' : j < ncomp (sourceSym pos useXyz p) := by omega
      have hsome : ∀ s, s ∈ pos :: h.reals ++ h.ints → j < ncomp s →
          ∀ x ∈ column ranks Ls s j, x.isSome = true := by
        intro s hs hjs
        exact column_some ok lists same (fun r hr => syms r hr s hs) hjs
      by_cases hc : p.isReal = true ∧ p.positions = true ∧ useXyz = true
      · have hsrc : sourceSym pos useXyz p = pos := by unfold sourceSym; rw [if_pos hc]
        rw [hsrc] at hj' ⊢
        refine ⟨hcn _ _, hsome pos (by simp) hj', xyz j, ?_, ?_⟩
        · unfold readName
          rw [hc.1, hc.2.1, hc.2.2]
          exact posLabel_xyz dims.2 hj'
        · rw [hc.1]
          exact dset?_of_mem hnames (stepEntries_pos h ranks Ls hj')
      · have hsrc : sourceSym pos useXyz p = p.sym := by unfold sourceSym; rw [if_neg hc]
        rw [hsrc] at hj' ⊢
        have hmem := hcase.resolve_left hc
        refine ⟨hcn _ _, hsome p.sym (by
          split at hmem <;> simp [hmem]) hj', compName (h.names p.sym) j, ?_, ?_⟩
        · unfold readName
          rw [if_neg]
          simp only [Bool.and_eq_true]
          rintro ⟨⟨e1, e2⟩, e3⟩
          exact hc ⟨e1, e2, e3⟩
        · exact dset?_of_mem hnames (stepEntries_prop h ranks Ls hmem hj'))
  refine ⟨ps, ?_, r2, r3, r4, ?_⟩
  · unfold h5Read
    rw [found, Option.bind_some, hx, Option.bind_some]
    dsimp only
    rw [hcn, getDecomp1d_eq hsize, Option.bind_some]
    dsimp only
    rw [if_pos hNpos]
    exact r1
  · intro p hp j hj i r c k hi hat
    obtain ⟨v, e1, e2⟩ := r5 p hp j hj i hi
    refine ⟨v, e1, ?_⟩
    unfold column at e2
    rw [List.getElem?_map, hat] at e2
    exact Option.some.inj e2

/-- **C75**, round trip: a step that was written on any number of ranks is read on any number of
ranks, and each particle that was written arrives on exactly one of them, once, with its values.
-/
theorem C75_round_trip (sch : Sched) (h : H5Part) {ranks : List IoRank}
    {Ls : List (List (List Nat))} (hok : ∀ r ∈ ranks, IoOk r)
    (hL : List.Forall₂ Writes ranks Ls) {pos : Nat} {ncomp : Nat → Nat}
    (hsame : SameProps ranks pos ncomp) (hpos : 1 ≤ ncomp pos ∧ ncomp pos ≤ 3)
    (hs : ∀ r ∈ ranks, ∀ s ∈ pos :: h.reals ++ h.ints, (r.g.dat? s).isSome = true)
    (hn : ((h.reals ++ h.ints).map h.names).Nodup) (hne : writtenOrder ranks Ls ≠ [])
    {stepIn step : Int} (hst : step = if stepIn < 0 then h.step else stepIn)
    (hnew : step ∉ h.file.map (·.1)) {size : Nat} (hsize : 0 < size)
    {spec : List ReadProp} (useXyz : Bool) (hnd : (spec.map (·.sym)).Nodup)
    (hspec : ∀ p ∈ spec, (p.ncomp ≤ ncomp (sourceSym pos useXyz p)) ∧
      (p.isReal = true ∧ p.positions = true ∧ useXyz = true ∨
        p.sym ∈ if p.isReal then h.reals else h.ints)) :
    ∃ h', h.write sch ranks stepIn = some h' ∧
    ∃ pss : Nat → PartSet,
      (∀ q, q < size → h5Read h.names h'.file size q spec step useXyz = some (pss q)) ∧
      ((List.range size).map fun q => (pss q).npart).sum = (writtenOrder ranks Ls).length ∧
      ∀ (w : Nat) (r : IoRank) (c k : Nat), (writtenOrder ranks Ls)[w]? = some (r, c, k) →
        ∃ q i : Nat, q < size ∧ i < (pss q).npart ∧
          w = ((List.range q).map fun q' => (pss q').npart).sum + i ∧
          ∀ p ∈ spec, ∀ (j : Nat), j < p.ncomp → ∃ v, (pss q).at p.sym i j = some v ∧
            r.g.mem ⟨sourceSym pos useXyz p, c, j, k⟩ = some v := by
  have e := C75_write sch h hok hL hsame hpos.2 hs stepIn
  dsimp only at e
  rw [← hst, if_neg hnew, if_neg hne, if_pos (C75_names_distinct ranks Ls hpos.2 hn)] at e
  refine ⟨_, e, ?_⟩
  have hfound : ((h.file ++ [(step, stepEntries h ranks Ls pos ncomp)]).find?
      (fun x => x.1 == step)).map (·.2) = some (stepEntries h ranks Ls pos ncomp) := by
    rw [List.find?_append, List.find?_eq_none.2]
    · simp
    · intro x hx hbeq
      apply hnew
      rw [beq_iff_eq] at hbeq
      exact hbeq ▸ List.mem_map_of_mem hx
  have hw : WrittenStep h ranks Ls pos ncomp step
      (h.file ++ [(step, stepEntries h ranks Ls pos ncomp)]) :=
    ⟨hok, hL, hsame, hpos, hs, hn, hne, hfound⟩
  set N := (writtenOrder ranks Ls).length with hN
  have hread := fun (q : Nat) (hq : q < size) => C75_read hw hsize hq
    (getDecomp1d_eq (N := N) (i := q) hsize) useXyz hnd hspec
  choose f hf using hread
  refine ⟨fun q => if hq : q < size then f q hq else newPartSet 0 [], ?_, ?_⟩
  · intro q hq
    dsimp only
    rw [dif_pos hq]
    exact (hf q hq).1
  have hnp : ∀ q, q < size → (if hq : q < size then f q hq else newPartSet 0 []).npart =
      dstart size N (q + 1) - dstart size N q := by
    intro q hq
    rw [dif_pos hq]
    exact (hf q hq).2.2.1
  have hsum : ∀ m, m ≤ size → ((List.range m).map fun q =>
      (if hq : q < size then f q hq else newPartSet 0 []).npart).sum = dstart size N m := by
    intro m
    induction m with
    | zero => intro _; rw [dstart_zero]; rfl
    | succ m ih =>
      intro hm
      rw [List.range_succ, List.map_append, List.sum_append, ih (by omega)]
      simp only [List.map_cons, List.map_nil, List.sum_cons, List.sum_nil, Nat.add_zero]
      rw [hnp m (by omega)]
      have := dstart_mono (n := size) (N := N) (show m ≤ m + 1 by omega)
      omega
  refine ⟨by rw [hsum size (Nat.le_refl _), dstart_top N hsize], ?_⟩
  intro w r c k hwk
  have hwN : w < N := (List.getElem?_eq_some_iff.1 hwk).1
  obtain ⟨q, q1, q2, q3⟩ := dstart_exists (n := size) (N := N) (m := size) (w := w)
    (by rw [dstart_top N hsize]; exact hwN)
  refine ⟨q, w - dstart size N q, q1, by rw [hnp q q1]; omega, by rw [hsum q (by omega)]; omega, ?_⟩
  intro p hp j hj
  dsimp only
  rw [dif_pos q1]
  exact (hf q q1).2.2.2.2 p hp j hj (w - dstart size N q) r c k (by omega)
    (by rw [show dstart size N q + (w - dstart size N q) = w by omega]; exact hwk)

/-- **C75**, later writes: a call of `write` that succeeds changes nothing about the steps that
exist, whatever is written, on whatever ranks. -/
theorem C75_earlier_steps_kept {sch : Sched} {h h' : H5Part} {ranks : List IoRank} {stepIn : Int}
    (hw : h.write sch ranks stepIn = some h') {step : Int} (hin : step ∈ h.file.map (·.1))
    (size q : Nat) (spec : List ReadProp) (useXyz : Bool) :
    step ∈ h'.file.map (·.1) ∧
    h5Read h'.names h'.file size q spec step useXyz = h5Read h.names h.file size q spec step useXyz
    := by
  unfold H5Part.write at hw
  dsimp only at hw
  generalize hst : (if stepIn ≥ 0 then stepIn else h.step) = new at hw
  split at hw
  · simp at hw
  · obtain ⟨grp, h1, h2⟩ := Option.bind_eq_some_iff.1 hw
    obtain rfl := Option.some.inj h2
    dsimp only
    refine ⟨by rw [List.map_append]; exact List.mem_append_left _ hin, ?_⟩
    unfold h5Read
    have : (h.file ++ [(new, grp)]).find? (fun x => x.1 == step) =
        h.file.find? (fun x => x.1 == step) := by
      rw [List.find?_append]
      obtain ⟨x, hx, rfl⟩ := List.mem_map.1 hin
      cases hf : h.file.find? (fun y => y.1 == x.1) with
      | none =>
        exact absurd (List.find?_eq_none.1 hf x hx) (by simp)
      | some y => rfl
    rw [this]

/-- **C75**, histories: after any sequence of calls, every step that existed is read as before. -/
theorem C75_history {h h' : H5Part} {ws : List (Sched × List IoRank × Int)}
    (hw : h.writes ws = some h') {step : Int} (hin : step ∈ h.file.map (·.1))
    (size q : Nat) (spec : List ReadProp) (useXyz : Bool) :
    step ∈ h'.file.map (·.1) ∧
    h5Read h'.names h'.file size q spec step useXyz = h5Read h.names h.file size q spec step useXyz
    := by
  induction ws generalizing h with
  | nil =>
    obtain rfl := Option.some.inj hw
    exact ⟨hin, rfl⟩
  | cons x ws ih =>
    obtain ⟨h1, e1, e2⟩ := Option.bind_eq_some_iff.1 hw
    obtain ⟨a1, a2⟩ := C75_earlier_steps_kept e1 hin size q spec useXyz
    obtain ⟨b1, b2⟩ := ih e2 a1
    exact ⟨b1, b2.trans a2⟩

/-- **C75**, numbering: without explicit step numbers the steps are numbered from the counter
on. -/
theorem C75_step_numbers {h h' : H5Part} {ws : List (Sched × List IoRank × Int)}
    (hauto : ∀ x ∈ ws, x.2.2 < 0) (hw : h.writes ws = some h') :
    h'.step = h.step + ws.length ∧
    h'.file.map (·.1) = h.file.map (·.1) ++ (List.range ws.length).map fun i : Nat => h.step + (i : Int)
    := by
  induction ws generalizing h with
  | nil =>
    obtain rfl := Option.some.inj hw
    simp
  | cons x ws ih =>
    obtain ⟨h1, e1, e2⟩ := Option.bind_eq_some_iff.1 hw
    obtain ⟨b1, b2⟩ := ih (fun y hy => hauto y (List.mem_cons_of_mem _ hy)) e2
    have hx := hauto x List.mem_cons_self
    have : h1.step = h.step + 1 ∧ h1.file.map (·.1) = h.file.map (·.1) ++ [h.step] := by
      unfold H5Part.write at e1
      dsimp only at e1
      have hneg : ¬ x.2.2 ≥ 0 := by omega
      simp only [hneg, if_false] at e1
      split at e1
      · simp at e1
      · obtain ⟨grp, -, e⟩ := Option.bind_eq_some_iff.1 e1
        obtain rfl := Option.some.inj e
        simp
    refine ⟨?_, ?_⟩
    · rw [b1, this.1, List.length_cons]; push_cast; omega
    · rw [b2, this.1, this.2, List.length_cons, List.range_succ_eq_map, List.map_cons, List.map_map,
        List.append_assoc]
      congr 1
      simp only [List.singleton_append, Int.natCast_zero, Int.add_zero, List.cons.injEq, true_and]
      apply List.map_congr_left
      intro i _
      simp only [Function.comp_apply]
      push_cast; omega

/-- **C75**, failure case: a step at which no rank has a particle is written but cannot be read,
as it has no dataset `x`. -/
theorem C75_empty_step_unreadable (sch : Sched) (h : H5Part) {ranks : List IoRank}
    {Ls : List (List (List Nat))} (hok : ∀ r ∈ ranks, IoOk r) (hL : List.Forall₂ Writes ranks Ls)
    {pos : Nat} {ncomp : Nat → Nat} (hsame : SameProps ranks pos ncomp) (hpos : ncomp pos ≤ 3)
    (hs : ∀ r ∈ ranks, ∀ s ∈ pos :: h.reals ++ h.ints, (r.g.dat? s).isSome = true)
    (hempty : writtenOrder ranks Ls = []) {stepIn step : Int}
    (hst : step = if stepIn < 0 then h.step else stepIn) (hnew : step ∉ h.file.map (·.1)) :
    ∃ h', h.write sch ranks stepIn = some h' ∧ step ∈ h'.file.map (·.1) ∧
      ∀ (size q : Nat) (spec : List ReadProp) (useXyz : Bool),
        h5Read h'.names h'.file size q spec step useXyz = none := by
  have e := C75_write sch h hok hL hsame hpos hs stepIn
  dsimp only at e
  rw [← hst, if_neg hnew, if_pos hempty] at e
  refine ⟨_, e, by simp, ?_⟩
  intro size q spec useXyz
  unfold h5Read
  dsimp only
  have : (h.file ++ [(step, ([] : StepData))]).find? (fun x => x.1 == step) = some (step, []) := by
    rw [List.find?_append, List.find?_eq_none.2]
    · simp
    · intro x hx hbeq
      apply hnew
      rw [beq_iff_eq] at hbeq
      exact hbeq ▸ List.mem_map_of_mem hx
  rw [this]
  rfl

end NP
