import Verif.Io.Lemmas
import Verif.Group.LemmasMem
import Verif.Group.LemmasSpec

/-! Helper lemmas for H5Part: the datasets that `write` makes. -/

set_option autoImplicit false

namespace NP

open Spec

/-! ## Lists -/

theorem mapM_forall₂' {α : Type 1} {β : Type} {f : α → Option β} {l : List α} {R : α → β → Prop}
    (h : ∀ a ∈ l, ∃ b, f a = some b ∧ R a b) :
    ∃ l', l.mapM f = some l' ∧ List.Forall₂ R l l' := by
  induction l with
  | nil => exact ⟨[], by simp, .nil⟩
  | cons a as ih =>
    obtain ⟨b, h1, h2⟩ := h a List.mem_cons_self
    obtain ⟨bs, h3, h4⟩ := ih (fun x hx => h x (List.mem_cons_of_mem a hx))
    exact ⟨b :: bs, by simp [List.mapM_cons, h1, h3], .cons h2 h4⟩

theorem forall₂_left' {α : Type 1} {β : Type} {R : α → β → Prop} {l : List α} {l' : List β}
    (h : List.Forall₂ R l l') {a : α} (ha : a ∈ l) : ∃ b ∈ l', R a b := by
  induction h with
  | nil => simp at ha
  | cons hd _ ih =>
    rcases List.mem_cons.1 ha with rfl | ha
    · exact ⟨_, List.mem_cons_self, hd⟩
    · obtain ⟨b, h1, h2⟩ := ih ha
      exact ⟨b, List.mem_cons_of_mem _ h1, h2⟩

theorem forall₂_right' {α : Type 1} {β : Type} {R : α → β → Prop} {l : List α} {l' : List β}
    (h : List.Forall₂ R l l') {b : β} (hb : b ∈ l') : ∃ a ∈ l, R a b := by
  induction h with
  | nil => simp at hb
  | cons hd _ ih =>
    rcases List.mem_cons.1 hb with rfl | hb
    · exact ⟨_, List.mem_cons_self, hd⟩
    · obtain ⟨a, h1, h2⟩ := ih hb
      exact ⟨a, List.mem_cons_of_mem _ h1, h2⟩

/-! ## Offsets -/

theorem ioTotal_eq (counts : List Nat) : ioTotal counts = counts.sum := by
  unfold ioTotal
  rw [List.take_of_length_le (by omega)]

theorem ioOffsets_getElem? {counts : List Nat} {r : Nat} (hr : r < counts.length) :
    (ioOffsets counts)[r]? = some (before counts r) := by
  unfold ioOffsets
  rw [List.getElem?_map, List.getElem?_range hr, Option.map_some, Option.some.injEq]
  have := before_succ (npart := counts) (c := r) (List.getElem?_eq_getElem hr)
  unfold before at this ⊢
  rw [this, List.getD_eq_getElem?_getD, List.getElem?_eq_getElem hr, Option.getD_some]
  omega

/-! ## Adding datasets -/

/-- Add datasets, if no name exists. -/
def addAll (grp es : StepData) : Option StepData :=
  if ((grp ++ es).map (·.1)).Nodup then some (grp ++ es) else none

theorem addAll_nil {grp : StepData} (h : (grp.map (·.1)).Nodup) : addAll grp [] = some grp := by
  unfold addAll; rw [List.append_nil, if_pos h]

theorem addAll_append (grp e1 e2 : StepData) :
    ((addAll grp e1).bind fun g => addAll g e2) = addAll grp (e1 ++ e2) := by
  unfold addAll
  by_cases h : ((grp ++ e1).map (·.1)).Nodup
  · rw [if_pos h, Option.bind_some, List.append_assoc]
  · rw [if_neg h, Option.bind_none, if_neg]
    intro h2
    apply h
    rw [← List.append_assoc, List.map_append] at h2
    exact (List.nodup_append.1 h2).1

theorem addAll_one {grp : StepData} (h : (grp.map (·.1)).Nodup) (e : List Char × DSet) :
    addAll grp [e] = if e.1 ∈ grp.map (·.1) then none else some (grp ++ [e]) := by
  unfold addAll
  by_cases h2 : e.1 ∈ grp.map (·.1)
  · rw [if_pos h2, if_neg]
    intro h3
    rw [List.map_append, List.nodup_append] at h3
    exact h3.2.2 _ h2 _ (by simp) rfl
  · rw [if_neg h2, if_pos]
    rw [List.map_append, List.nodup_append]
    refine ⟨h, by simp, ?_⟩
    rintro a ha b hb rfl
    simp only [List.map_cons, List.map_nil, List.mem_singleton] at hb
    exact h2 (hb ▸ ha)

theorem addAll_nodup {grp es g : StepData} (h : addAll grp es = some g) : (g.map (·.1)).Nodup := by
  unfold addAll at h
  split at h
  · rename_i h2; obtain rfl := Option.some.inj h; exact h2
  · simp at h

theorem runItems_addAll {ι : Type} {step : ι → StepData → Option StepData} {es : ι → StepData}
    {items : List ι} {grp : StepData} (hg : (grp.map (·.1)).Nodup)
    (hstep : ∀ i ∈ items, ∀ g : StepData, (g.map (·.1)).Nodup → step i g = addAll g (es i)) :
    runItems step items grp = addAll grp (items.flatMap es) := by
  induction items generalizing grp with
  | nil => rw [List.flatMap_nil, addAll_nil hg]; rfl
  | cons i items ih =>
    rw [runItems_cons, hstep i List.mem_cons_self grp hg, List.flatMap_cons, ← addAll_append]
    cases h : addAll grp (es i) with
    | none => rfl
    | some g =>
      rw [Option.bind_some, Option.bind_some]
      exact ih (addAll_nodup h) fun j hj => hstep j (List.mem_cons_of_mem _ hj)

/-! ## Columns of all ranks -/

/-- The column of each rank. -/
def colSegs (ranks : List IoRank) (Ls : List (List (List Nat))) (s j : Nat) :
    List (List (Option Int)) :=
  (ranks.zip Ls).map fun x => (inOrder x.2).map fun p => x.1.g.mem ⟨s, p.1, j, p.2⟩

theorem column_eq (ranks : List IoRank) (Ls : List (List (List Nat))) (s j : Nat) :
    column ranks Ls s j = (colSegs ranks Ls s j).flatten := by
  unfold column writtenOrder colSegs
  rw [List.map_flatMap, List.flatMap_def]
  congr 1
  apply List.map_congr_left
  intro x _
  rw [List.map_map]; rfl

theorem colSegs_lengths {ranks : List IoRank} {Ls : List (List (List Nat))}
    (hL : List.Forall₂ Writes ranks Ls) (s j : Nat) :
    (colSegs ranks Ls s j).map List.length = ranks.map IoRank.npart := by
  unfold colSegs
  induction hL with
  | nil => rfl
  | cons h _ ih =>
    rw [List.zip_cons_cons, List.map_cons, List.map_cons, List.map_cons, ih, List.length_map,
      io_npart h]

theorem length_writtenOrder {ranks : List IoRank} {Ls : List (List (List Nat))}
    (hL : List.Forall₂ Writes ranks Ls) :
    (writtenOrder ranks Ls).length = (ranks.map IoRank.npart).sum := by
  have h := congrArg List.length (column_eq ranks Ls 0 0)
  unfold column at h
  rw [List.length_map, List.length_flatten, colSegs_lengths hL] at h
  exact h

theorem ioWriteComp_spec (sch : Sched) {ranks : List IoRank} {Ls : List (List (List Nat))}
    (hL : List.Forall₂ Writes ranks Ls) {cols : List (Nat × List Int)} {s j : Nat}
    (hc : ∀ (i : Nat) (r : IoRank) (L : List (List Nat)), ranks[i]? = some r → Ls[i]? = some L →
      ∃ n buf src, cols[i]? = some (n, buf) ∧
        slice buf (r.npart * j) (r.npart * j + r.npart) = some src ∧
        src.map some = (inOrder L).map fun p => r.g.mem ⟨s, p.1, j, p.2⟩)
    (isReal : Bool) (name : List Char) {grp : StepData} (hg : (grp.map (·.1)).Nodup) :
    ioWriteComp sch cols (ranks.map IoRank.npart) (ioOffsets (ranks.map IoRank.npart))
      (ioTotal (ranks.map IoRank.npart)) isReal name j grp =
    addAll grp [(name, ⟨isReal, column ranks Ls s j⟩)] := by
  rw [addAll_one hg]
  unfold ioWriteComp
  dsimp only
  split
  · rfl
  · have hlen := hL.length_eq
    have hsl : (colSegs ranks Ls s j).length = ranks.length := by
      unfold colSegs; rw [List.length_map, List.length_zip]; omega
    rw [runItems_slabs (segs := colSegs ranks Ls s j)
      (by
        rw [hsl, List.length_map]
        exact sch.perm _)
      (by rw [List.length_replicate, ioTotal_eq, colSegs_lengths hL])
      (by
        intro i hi vals
        rw [hsl] at hi
        have hiL : i < Ls.length := by omega
        obtain ⟨n, buf, src, h1, h2, h3⟩ := hc i _ _ (List.getElem?_eq_getElem hi)
          (List.getElem?_eq_getElem hiL)
        unfold ioWriteSlab
        simp only [rd]
        rw [h1, Option.bind_some, List.getElem?_map, List.getElem?_eq_getElem hi, Option.map_some,
          Option.bind_some, ioOffsets_getElem? (by rw [List.length_map]; exact hi),
          Option.bind_some, h2, Option.bind_some, h3, colSegs_lengths hL]
        congr 1
        unfold colSegs
        rw [List.getElem?_map, List.zip_eq_zipWith, List.getElem?_zipWith,
          List.getElem?_eq_getElem hi, List.getElem?_eq_getElem hiL]
        rfl)]
    rw [Option.bind_some, column_eq]

theorem ioWriteDat_spec (sch : Sched) {ranks : List IoRank} {Ls : List (List (List Nat))}
    (hok : ∀ r ∈ ranks, IoOk r) (hL : List.Forall₂ Writes ranks Ls) (hne : ranks ≠ [])
    {pos : Nat} {ncomp : Nat → Nat} (hsame : SameProps ranks pos ncomp) {s : Nat}
    (hs : ∀ r ∈ ranks, (r.g.dat? s).isSome = true) (t : Nat) (isReal : Bool)
    {name : Nat → Option (List Char)} {nm : Nat → List Char}
    (hname : ∀ j, j < ncomp s → name j = some (nm j)) {grp : StepData}
    (hg : (grp.map (·.1)).Nodup) :
    ioWriteDat sch ranks (ranks.map IoRank.npart) (ioOffsets (ranks.map IoRank.npart))
      (ioTotal (ranks.map IoRank.npart)) t isReal name s grp =
    addAll grp (entries ranks Ls isReal nm s (ncomp s)) := by
  obtain ⟨cols, h1, h2⟩ := mapM_forall₂' (l := ranks) (f := fun r => ioColumns r t s)
    (R := fun (r : IoRank) (col : Nat × List Int) => col.1 = ncomp s ∧ ∀ L, Writes r L → ∀ j, j < ncomp s →
      ∃ src, slice col.2 (r.npart * j) (r.npart * j + r.npart) = some src ∧
        src.map some = (inOrder L).map fun p => r.g.mem ⟨s, p.1, j, p.2⟩)
    (by
      intro r hr
      obtain ⟨L, -, hw⟩ := forall₂_left' hL hr
      obtain ⟨d, hd⟩ := Option.isSome_iff_exists.1 (hs r hr)
      obtain ⟨d1, d2⟩ := dat?_spec hd
      subst d2
      have hn := (hsame r hr).2 d d1
      obtain ⟨buf, b1, b2⟩ := ioColumns_spec (hok r hr) hw t d1 hd
      refine ⟨_, b1, hn, ?_⟩
      intro L' hL' j hj
      obtain rfl := parentLists_unique hw hL'
      exact b2 j (by omega))
  have hcl : cols.length = ranks.length := h2.length_eq.symm
  have hr0 : 0 < ranks.length := List.length_pos_iff.2 hne
  have hcol : ∀ x ∈ cols, x.1 = ncomp s := by
    intro x hx
    obtain ⟨r, -, h, -⟩ := forall₂_right' h2 hx
    exact h
  unfold ioWriteDat
  rw [h1, Option.bind_some]
  simp only [rd]
  have hc0 : 0 < cols.length := by omega
  rw [List.getElem?_eq_getElem hc0, Option.bind_some, hcol _ (List.getElem_mem hc0)]
  rw [if_pos (by
    rw [List.all_eq_true]
    intro x hx
    simp [hcol x hx])]
  unfold forLoop
  rw [Nat.sub_zero, ← List.range_eq_range']
  rw [runItems_addAll (es := fun j => [(nm j, ⟨isReal, column ranks Ls s j⟩)]) hg]
  · unfold entries
    rw [List.map_eq_flatMap]
  · intro j hj g hgn
    have hj := List.mem_range.1 hj
    rw [hname j hj, Option.bind_some]
    refine ioWriteComp_spec sch hL ?_ isReal (nm j) hgn
    intro i r L hi hLi
    have hi' : i < ranks.length := (List.getElem?_eq_some_iff.1 hi).1
    have hcc : cols[i]? = some cols[i] := List.getElem?_eq_getElem (by omega)
    have hR := List.forall₂_iff_get.1 h2
    have hW := List.forall₂_iff_get.1 hL
    have hiL : i < Ls.length := (List.getElem?_eq_some_iff.1 hLi).1
    have e1 := hR.2 i hi' (by omega)
    have e2 := hW.2 i hi' hiL
    simp only [List.get_eq_getElem] at e1 e2
    rw [(List.getElem?_eq_some_iff.1 hi).2] at e1 e2
    rw [(List.getElem?_eq_some_iff.1 hLi).2] at e2
    obtain ⟨src, a1, a2⟩ := e1.2 L e2 j hj
    exact ⟨_, _, src, hcc, a1, a2⟩

theorem posLabel_xyz {j n : Nat} (hn : n ≤ 3) (hj : j < n) : posLabel j = some (xyz j) := by
  have : j = 0 ∨ j = 1 ∨ j = 2 := by omega
  rcases this with rfl | rfl | rfl <;> rfl

theorem ioWriteInner_spec (sch : Sched) (h : H5Part) {ranks : List IoRank}
    {Ls : List (List (List Nat))} (hok : ∀ r ∈ ranks, IoOk r) (hL : List.Forall₂ Writes ranks Ls)
    {pos : Nat} {ncomp : Nat → Nat} (hsame : SameProps ranks pos ncomp) (hpos : ncomp pos ≤ 3)
    (hs : ∀ r ∈ ranks, ∀ s ∈ pos :: h.reals ++ h.ints, (r.g.dat? s).isSome = true) :
    ioWriteInner sch h ranks =
      if writtenOrder ranks Ls = [] then some []
      else if ((stepEntries h ranks Ls pos ncomp).map (·.1)).Nodup then
        some (stepEntries h ranks Ls pos ncomp)
      else none := by
  unfold ioWriteInner
  rw [if_pos (by
    rw [List.all_eq_true]
    intro r hr
    rw [List.all_eq_true]
    intro s hs'
    exact hs r hr s (List.mem_cons_of_mem _ hs'))]
  dsimp only
  have hlen := length_writtenOrder hL
  by_cases h0 : writtenOrder ranks Ls = []
  · rw [if_pos h0, if_neg]
    rw [ioTotal_eq, ← hlen, h0]; simp
  · rw [if_neg h0, if_pos (by
      rw [ioTotal_eq, ← hlen]; exact List.length_pos_iff.2 h0)]
    have hne : ranks ≠ [] := by
      rintro rfl
      apply h0; rfl
    have hr0 : 0 < ranks.length := List.length_pos_iff.2 hne
    rw [List.getElem?_eq_getElem hr0, Option.bind_some, (hsame _ (List.getElem_mem hr0)).1]
    rw [ioWriteDat_spec sch hok hL hne hsame (fun r hr => hs r hr pos List.mem_cons_self) 0 true
      (fun j hj => posLabel_xyz hpos hj) (by simp)]
    have hstep : ∀ (f : Nat → Nat) (l : List Nat) (b : Bool),
        (∀ s ∈ l, s ∈ pos :: h.reals ++ h.ints) → ∀ g : StepData, (g.map (·.1)).Nodup →
        runItems (fun (ts : Nat × Nat) grp => ioWriteDat sch ranks (ranks.map IoRank.npart)
          (ioOffsets (ranks.map IoRank.npart)) (ioTotal (ranks.map IoRank.npart)) ts.1 b
          (fun cx => some (compName (h.names ts.2) cx)) ts.2 grp)
          (l.zipIdx.map fun x => (f x.2, x.1)) g =
        addAll g (l.flatMap fun s => entries ranks Ls b (compName (h.names s)) s (ncomp s)) := by
      intro f l b hl g hg
      rw [runItems_addAll (es := fun ts =>
        entries ranks Ls b (compName (h.names ts.2)) ts.2 (ncomp ts.2)) hg]
      · congr 1
        rw [List.flatMap_map]
        have e : l = l.zipIdx.map (fun x => x.1) := by rw [List.zipIdx_map_fst]
        conv_rhs => rw [e]
        rw [List.flatMap_map]
      · rintro ⟨t, s⟩ hts g hg
        obtain ⟨x, hx, hx2⟩ := List.mem_map.1 hts
        simp only [Prod.mk.injEq] at hx2
        obtain ⟨-, rfl⟩ := hx2
        have hmem : x.1 ∈ l := by
          have := List.mem_map_of_mem (f := fun x : Nat × Nat => x.1) hx
          rwa [List.zipIdx_map_fst] at this
        exact ioWriteDat_spec sch hok hL hne hsame (fun r hr => hs r hr _ (hl _ hmem)) t b
          (fun j _ => rfl) hg
    have e1 := hstep (fun n => n + 1) h.reals true (fun s hs' => by simp [hs'])
    have e2 := hstep (fun n => n + 1 + h.reals.length) h.ints false (fun s hs' => by simp [hs'])
    have hfin : ((stepEntries h ranks Ls pos ncomp).map (·.1)).Nodup →
        addAll [] (stepEntries h ranks Ls pos ncomp) = some (stepEntries h ranks Ls pos ncomp) := by
      intro hn; unfold addAll; rw [List.nil_append, if_pos hn]
    have key : addAll [] (stepEntries h ranks Ls pos ncomp) =
        if ((stepEntries h ranks Ls pos ncomp).map (·.1)).Nodup then
          some (stepEntries h ranks Ls pos ncomp) else none := by
      unfold addAll; rw [List.nil_append]
    rw [← key]
    unfold stepEntries
    rw [← addAll_append, ← addAll_append]
    cases c1 : addAll [] (entries ranks Ls true xyz pos (ncomp pos)) with
    | none => rfl
    | some g1 =>
      simp only [Option.bind_some]
      rw [e1 g1 (addAll_nodup c1)]
      cases c2 : addAll g1 (h.reals.flatMap fun s =>
          entries ranks Ls true (compName (h.names s)) s (ncomp s)) with
      | none => rfl
      | some g2 =>
        simp only [Option.bind_some]
        exact e2 g2 (addAll_nodup c2)

end NP
