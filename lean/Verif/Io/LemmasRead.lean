import Verif.Io.LemmasWrite
import Verif.Group.PropsSet

/-! Helper lemmas for H5Part: names, and what `read` returns. -/

set_option autoImplicit false

namespace NP

open Spec

/-! ## Names -/

theorem compName_inj {a b : List Char} {i j : Nat} (h : compName a i = compName b j) :
    a = b ∧ i = j := by
  unfold compName at h
  have hnot : ∀ n : Nat, ∀ x ∈ (Nat.toDigits 10 n).reverse, (fun c : Char => c != '_') x = true := by
    intro n x hx
    rw [List.mem_reverse] at hx
    simp only [bne_iff_ne, ne_eq]
    rintro rfl
    exact Nat.underscore_not_in_toDigits hx
  have hr := congrArg List.reverse h
  simp only [List.reverse_append, List.reverse_cons, List.append_assoc, List.singleton_append] at hr
  have h1 := congrArg (List.takeWhile fun c => c != '_') hr
  have h2 := congrArg (List.dropWhile fun c => c != '_') hr
  rw [List.takeWhile_append_of_pos (hnot i), List.takeWhile_append_of_pos (hnot j)] at h1
  rw [List.dropWhile_append_of_pos (hnot i), List.dropWhile_append_of_pos (hnot j)] at h2
  simp only [bne_self_eq_false, Bool.false_eq_true, not_false_eq_true, List.takeWhile_cons_of_neg,
    List.append_nil, List.dropWhile_cons_of_neg, List.cons.injEq, true_and] at h1 h2
  refine ⟨List.reverse_injective h2, ?_⟩
  have h3 := List.reverse_injective h1
  have := congrArg (fun l => Nat.ofDigitChars 10 l 0) h3
  simpa [Nat.ofDigitChars_toDigits] using this

theorem xyz_ne_compName (i : Nat) (a : List Char) (j : Nat) : xyz i ≠ compName a j := by
  intro h
  have h1 : '_' ∈ compName a j := by unfold compName; simp
  rw [← h] at h1
  unfold xyz at h1
  split at h1
  · simp at h1
  · split at h1 <;> simp at h1

theorem entries_names (ranks : List IoRank) (Ls : List (List (List Nat))) (b : Bool)
    (name : Nat → List Char) (s n : Nat) :
    (entries ranks Ls b name s n).map (·.1) = (List.range n).map name := by
  unfold entries; rw [List.map_map]; rfl

theorem stepEntries_names (h : H5Part) (ranks : List IoRank) (Ls : List (List (List Nat)))
    (pos : Nat) (ncomp : Nat → Nat) :
    (stepEntries h ranks Ls pos ncomp).map (·.1) =
      (List.range (ncomp pos)).map xyz ++
      (h.reals ++ h.ints).flatMap fun s => (List.range (ncomp s)).map (compName (h.names s)) := by
  unfold stepEntries
  rw [List.map_append, List.map_append, entries_names, List.map_flatMap, List.map_flatMap,
    List.flatMap_append, List.append_assoc]
  simp only [entries_names]

theorem stepEntries_nodup {h : H5Part} (ranks : List IoRank) (Ls : List (List (List Nat)))
    {pos : Nat} {ncomp : Nat → Nat} (hpos : ncomp pos ≤ 3)
    (hn : ((h.reals ++ h.ints).map h.names).Nodup) :
    ((stepEntries h ranks Ls pos ncomp).map (·.1)).Nodup := by
  rw [stepEntries_names, List.nodup_append]
  refine ⟨?_, ?_, ?_⟩
  · rw [List.nodup_map_iff_inj_on List.nodup_range]
    intro i hi j hj e
    have := List.mem_range.1 hi
    have := List.mem_range.1 hj
    have h1 : i = 0 ∨ i = 1 ∨ i = 2 := by omega
    have h2 : j = 0 ∨ j = 1 ∨ j = 2 := by omega
    rcases h1 with rfl | rfl | rfl <;> rcases h2 with rfl | rfl | rfl <;> first | rfl | simp [xyz] at e
  · rw [List.nodup_flatMap]
    refine ⟨?_, ?_⟩
    · intro s _
      rw [List.nodup_map_iff_inj_on List.nodup_range]
      intro i _ j _ e
      exact (compName_inj e).2
    · rw [List.Nodup, List.pairwise_map] at hn
      refine hn.imp ?_
      intro s s' hne x h1 h2
      obtain ⟨i, -, rfl⟩ := List.mem_map.1 h1
      obtain ⟨j, -, e⟩ := List.mem_map.1 h2
      exact hne (compName_inj e).1.symm
  · intro a ha b hb e
    obtain ⟨i, -, rfl⟩ := List.mem_map.1 ha
    obtain ⟨s, -, h1⟩ := List.mem_flatMap.1 hb
    obtain ⟨j, -, rfl⟩ := List.mem_map.1 h1
    exact xyz_ne_compName _ _ _ e

theorem stepEntries_dup {h : H5Part} (ranks : List IoRank) (Ls : List (List (List Nat)))
    {pos : Nat} {ncomp : Nat → Nat} (hc : ∀ s ∈ h.reals ++ h.ints, 0 < ncomp s)
    (hn : ¬ ((h.reals ++ h.ints).map h.names).Nodup) :
    ¬ ((stepEntries h ranks Ls pos ncomp).map (·.1)).Nodup := by
  rw [stepEntries_names, List.nodup_append]
  rintro ⟨-, h2, -⟩
  apply hn
  rw [List.nodup_flatMap] at h2
  rw [List.Nodup, List.pairwise_map]
  refine h2.2.imp_of_mem ?_
  intro s s' hs hs' hd e
  refine hd (a := compName (h.names s) 0) (List.mem_map.2 ⟨0, List.mem_range.2 (hc s hs), rfl⟩) ?_
  rw [e]
  exact List.mem_map.2 ⟨0, List.mem_range.2 (hc s' hs'), rfl⟩

theorem dset?_of_mem {grp : StepData} (hn : (grp.map (·.1)).Nodup) {e : List Char × DSet}
    (he : e ∈ grp) : dset? grp e.1 = some e.2 := by
  unfold dset?
  induction grp with
  | nil => simp at he
  | cons a grp ih =>
    rw [List.map_cons, List.nodup_cons] at hn
    rw [List.find?_cons]
    rcases List.mem_cons.1 he with rfl | he
    · simp
    · have : (a.1 == e.1) = false := by
        rw [beq_eq_false_iff_ne]
        intro h
        exact hn.1 (h ▸ List.mem_map_of_mem he)
      rw [this]
      exact ih hn.2 he

/-! ## Values -/

theorem mapM_id_some {α : Type} {l : List (Option α)} (h : ∀ x ∈ l, x.isSome = true) :
    ∃ l', l.mapM id = some l' ∧ l'.map some = l := by
  induction l with
  | nil => exact ⟨[], rfl, rfl⟩
  | cons a l ih =>
    obtain ⟨v, rfl⟩ := Option.isSome_iff_exists.1 (h a List.mem_cons_self)
    obtain ⟨l', h1, h2⟩ := ih fun x hx => h x (List.mem_cons_of_mem _ hx)
    refine ⟨v :: l', ?_, by rw [List.map_cons, h2]⟩
    rw [List.mapM_cons, h1]; rfl

theorem column_some {ranks : List IoRank} {Ls : List (List (List Nat))}
    (hok : ∀ r ∈ ranks, IoOk r) (hL : List.Forall₂ Writes ranks Ls)
    {pos : Nat} {ncomp : Nat → Nat} (hsame : SameProps ranks pos ncomp) {s : Nat}
    (hs : ∀ r ∈ ranks, (r.g.dat? s).isSome = true) {j : Nat} (hj : j < ncomp s) :
    ∀ x ∈ column ranks Ls s j, x.isSome = true := by
  intro x hx
  rw [column_eq] at hx
  obtain ⟨seg, h1, h2⟩ := List.mem_flatten.1 hx
  unfold colSegs at h1
  obtain ⟨⟨r, L⟩, h3, rfl⟩ := List.mem_map.1 h1
  obtain ⟨p, h4, rfl⟩ := List.mem_map.1 h2
  have hrL : Writes r L ∧ r ∈ ranks := by
    clear h1 h2 hx h4 hok hsame hs
    induction hL with
    | nil => simp at h3
    | cons hd _ ih =>
      rw [List.zip_cons_cons] at h3
      rcases List.mem_cons.1 h3 with e | h3
      · simp only [Prod.mk.injEq] at e
        obtain ⟨rfl, rfl⟩ := e
        exact ⟨hd, List.mem_cons_self⟩
      · exact ⟨(ih h3).1, List.mem_cons_of_mem _ (ih h3).2⟩
  obtain ⟨d, hd⟩ := Option.isSome_iff_exists.1 (hs r hrL.2)
  obtain ⟨d1, d2⟩ := dat?_spec hd
  subst d2
  exact io_mem (hok r hrL.2) hrL.1 d1 (by rw [(hsame r hrL.2).2 d d1]; exact hj) h4

theorem length_column {ranks : List IoRank} {Ls : List (List (List Nat))} (s j : Nat) :
    (column ranks Ls s j).length = (writtenOrder ranks Ls).length := by
  unfold column; rw [List.length_map]

/-! ## Reading one component -/

theorem readComp_spec {grp : StepData} {name : List Char} {isReal : Bool} {col : List (Option Int)}
    (hd : dset? grp name = some ⟨isReal, col⟩) (hcol : ∀ x ∈ col, x.isSome = true)
    {a b : Nat} (hab : a ≤ b) (hb : b ≤ col.length) {p : ReadProp} (hp : p.isReal = isReal)
    {cx : Nat} (hcx : cx < p.ncomp) {ps : PartSet} (hps : SetShape ps) (hn : ps.npart = b - a)
    (hmem : (p.sym, p.ncomp) ∈ setProps ps) :
    ∃ ps', readComp grp col.length a b name p cx ps = some ps' ∧ SetShape ps' ∧
      ps'.npart = ps.npart ∧ setProps ps' = setProps ps ∧
      (∀ i, i < ps.npart → ∃ v, ps'.at p.sym i cx = some v ∧ col[a + i]? = some (some v)) ∧
      ∀ (s' n' : Nat), (s', n') ∈ setProps ps → ∀ (i j : Nat), i < ps.npart → j < n' →
        ¬ (s' = p.sym ∧ j = cx) → ps'.at s' i j = ps.at s' i j := by
  have hsl := slice_eq_some hab hb
  obtain ⟨src, h1, h2⟩ := mapM_id_some (l := (col.drop a).take (b - a)) (by
    intro x hx
    exact hcol x (List.mem_of_mem_drop (List.mem_of_mem_take hx)))
  have hlen : src.length = ps.npart := by
    have := congrArg List.length h2
    rw [List.length_map, List.length_take, List.length_drop] at this
    omega
  obtain ⟨c1, c2⟩ := C74_set_component hps p.sym cx src
  obtain ⟨ps', e⟩ := Option.isSome_iff_exists.1
    (c1.2 ⟨⟨p.ncomp, hmem, by omega, by exact_mod_cast hcx⟩, hlen⟩)
  obtain ⟨d1, d2, d3, d4⟩ := c2 ps' e
  refine ⟨ps', ?_, d1, d2, d3, ?_, ?_⟩
  · unfold readComp
    rw [hd, Option.bind_some, if_pos ⟨hp.symm, rfl⟩, hsl, Option.bind_some, h1, Option.bind_some]
    unfold PartSet.setComp at e
    cases hq : ps.prop? p.sym with
    | none => rw [hq] at e; simp at e
    | some q =>
      rw [hq, Option.bind_some] at e
      split at e
      · rw [Int.toNat_natCast] at e
        exact e
      · simp at e
  · intro i hi
    rw [d4 p.sym p.ncomp hmem i cx hi hcx, if_pos ⟨rfl, rfl⟩]
    have hi' : i < src.length := by omega
    refine ⟨src[i], List.getElem?_eq_getElem hi', ?_⟩
    have := congrArg (fun l => l[i]?) h2
    rw [List.getElem?_map, List.getElem?_eq_getElem hi', List.getElem?_take_of_lt (by omega),
      List.getElem?_drop] at this
    exact this.symm
  · intro s' n' hs' i j hi hj hne
    rw [d4 s' n' hs' i j hi hj, if_neg]
    rintro ⟨e1, e2⟩
    exact hne ⟨e1, by exact_mod_cast e2⟩

/-! ## Reading all components -/

theorem readAll_spec {grp : StepData} {total a b : Nat} (hab : a ≤ b) (hb : b ≤ total)
    {names : Nat → List Char} {useXyz : Bool} {spec : List ReadProp}
    (hnd : (spec.map (·.sym)).Nodup)
    (src : ReadProp → Nat → List (Option Int))
    (hsrc : ∀ p ∈ spec, ∀ j, j < p.ncomp → (src p j).length = total ∧
      (∀ x ∈ src p j, x.isSome = true) ∧ ∃ n, readName names useXyz p j = some n ∧
        dset? grp n = some ⟨p.isReal, src p j⟩) :
    ∃ ps, runItems (fun p ps => forLoop 0 p.ncomp (fun cx ps =>
        (readName names useXyz p cx).bind fun n => readComp grp total a b n p cx ps) ps) spec
        (newPartSet (b - a) (spec.map fun p => (p.sym, p.ncomp))) = some ps ∧
      SetShape ps ∧ ps.npart = b - a ∧ setProps ps = spec.map (fun p => (p.sym, p.ncomp)) ∧
      ∀ p ∈ spec, ∀ j, j < p.ncomp → ∀ i, i < b - a →
        ∃ v, ps.at p.sym i j = some v ∧ (src p j)[a + i]? = some (some v) := by
  set comps : ReadProp → List (ReadProp × Nat) := fun p =>
    (List.range p.ncomp).map fun j => (p, j) with hcomps
  set step : ReadProp × Nat → PartSet → Option PartSet := fun x ps =>
    (readName names useXyz x.1 x.2).bind fun n => readComp grp total a b n x.1 x.2 ps with hstep
  have hflat : ∀ ps0, runItems (fun p ps => forLoop 0 p.ncomp (fun cx ps =>
      (readName names useXyz p cx).bind fun n => readComp grp total a b n p cx ps) ps) spec ps0 =
      runItems step (spec.flatMap comps) ps0 := by
    intro ps0
    rw [← runItems_flatMap]
    apply runItems_congr
    intro p _ ps
    unfold forLoop
    rw [Nat.sub_zero, ← List.range_eq_range']
    simp only [hcomps]
    generalize List.range p.ncomp = l
    induction l generalizing ps with
    | nil => rfl
    | cons j l ih =>
      rw [List.map_cons, runItems_cons, runItems_cons]
      simp only [hstep]
      congr 1
      funext q
      exact ih q
  rw [hflat]
  have hitem : ∀ x ∈ spec.flatMap comps, x.1 ∈ spec ∧ x.2 < x.1.ncomp := by
    intro x hx
    obtain ⟨p, h1, h2⟩ := List.mem_flatMap.1 hx
    obtain ⟨j, h3, rfl⟩ := List.mem_map.1 h2
    exact ⟨h1, List.mem_range.1 h3⟩
  have hinj : ∀ p ∈ spec, ∀ q ∈ spec, p.sym = q.sym → p = q := by
    intro p hp q hq e
    exact List.inj_on_of_nodup_map hnd hp hq e
  have main : ∀ (items : List (ReadProp × Nat)) (ps0 : PartSet),
      (∀ x ∈ items, x.1 ∈ spec ∧ x.2 < x.1.ncomp) →
      SetShape ps0 → ps0.npart = b - a → setProps ps0 = spec.map (fun p => (p.sym, p.ncomp)) →
      ∃ ps, runItems step items ps0 = some ps ∧ SetShape ps ∧ ps.npart = b - a ∧
        setProps ps = spec.map (fun p => (p.sym, p.ncomp)) ∧
        (∀ x ∈ items, ∀ i, i < b - a → ∃ v, ps.at x.1.sym i x.2 = some v ∧
          (src x.1 x.2)[a + i]? = some (some v)) ∧
        ∀ x : ReadProp × Nat, x.1 ∈ spec → x.2 < x.1.ncomp → x ∉ items → ∀ i : Nat, i < b - a →
          ps.at x.1.sym i x.2 = ps0.at x.1.sym i x.2 := by
    intro items
    induction items with
    | nil =>
      intro ps0 _ h1 h2 h3
      exact ⟨ps0, rfl, h1, h2, h3, by simp, fun _ _ _ _ _ _ => rfl⟩
    | cons x items ih =>
      intro ps0 hx h1 h2 h3
      obtain ⟨hx1, hx2⟩ := hx x List.mem_cons_self
      obtain ⟨s1, s2, n, s3, s4⟩ := hsrc x.1 hx1 x.2 hx2
      have hin : ∀ p ∈ spec, (p.sym, p.ncomp) ∈ setProps ps0 := by
        intro p hp; rw [h3]; exact List.mem_map_of_mem hp
      obtain ⟨ps1, r1, r2, r3, r4, r5, r6⟩ := readComp_spec s4 s2 hab (by omega) rfl hx2 h1 h2
        (hin x.1 hx1)
      rw [s1] at r1
      obtain ⟨ps, q1, q2, q3, q4, q5, q6⟩ := ih ps1 (fun y hy => hx y (List.mem_cons_of_mem _ hy))
        r2 (by omega) (by rw [r4, h3])
      refine ⟨ps, ?_, q2, q3, q4, ?_, ?_⟩
      · rw [runItems_cons]
        simp only [hstep]
        rw [s3, Option.bind_some, r1, Option.bind_some]
        exact q1
      · intro y hy i hi
        by_cases hyi : y ∈ items
        · exact q5 y hyi i hi
        · obtain rfl : y = x := by
            rcases List.mem_cons.1 hy with e | e
            · exact e
            · exact absurd e hyi
          rw [q6 y hx1 hx2 hyi i hi]
          exact r5 i (by omega)
      · intro y hy1 hy2 hyn i hi
        rw [List.mem_cons, not_or] at hyn
        rw [q6 y hy1 hy2 hyn.2 i hi]
        refine r6 y.1.sym y.1.ncomp (hin y.1 hy1) i y.2 (by omega) hy2 ?_
        rintro ⟨e1, e2⟩
        exact hyn.1 (Prod.ext (hinj _ hy1 _ hx1 e1) e2)
  obtain ⟨ps, h1, h2, h3, h4, h5, -⟩ := main (spec.flatMap comps)
    (newPartSet (b - a) (spec.map fun p => (p.sym, p.ncomp))) hitem
    (newPartSet_shape (by rw [List.map_map]; exact hnd)) rfl (newPartSet_setProps _ _)
  refine ⟨ps, h1, h2, h3, h4, ?_⟩
  intro p hp j hj i hi
  exact h5 (p, j) (List.mem_flatMap.2 ⟨p, hp, List.mem_map.2 ⟨j, List.mem_range.2 hj, rfl⟩⟩) i hi

/-! ## Datasets of a step -/

theorem stepEntries_pos (h : H5Part) (ranks : List IoRank) (Ls : List (List (List Nat)))
    {pos : Nat} {ncomp : Nat → Nat} {j : Nat} (hj : j < ncomp pos) :
    (xyz j, (⟨true, column ranks Ls pos j⟩ : DSet)) ∈ stepEntries h ranks Ls pos ncomp := by
  unfold stepEntries entries
  rw [List.mem_append, List.mem_append]
  exact Or.inl (Or.inl (List.mem_map.2 ⟨j, List.mem_range.2 hj, rfl⟩))

theorem stepEntries_prop (h : H5Part) (ranks : List IoRank) (Ls : List (List (List Nat)))
    {pos : Nat} {ncomp : Nat → Nat} {b : Bool} {s j : Nat}
    (hs : s ∈ if b then h.reals else h.ints) (hj : j < ncomp s) :
    (compName (h.names s) j, (⟨b, column ranks Ls s j⟩ : DSet)) ∈
      stepEntries h ranks Ls pos ncomp := by
  unfold stepEntries entries
  rw [List.mem_append, List.mem_append]
  cases b
  · exact Or.inr (List.mem_flatMap.2 ⟨s, hs, List.mem_map.2 ⟨j, List.mem_range.2 hj, rfl⟩⟩)
  · exact Or.inl (Or.inr (List.mem_flatMap.2 ⟨s, hs, List.mem_map.2 ⟨j, List.mem_range.2 hj, rfl⟩⟩))

end NP
