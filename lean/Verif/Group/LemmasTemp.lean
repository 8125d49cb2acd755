import Verif.Group.SpecTemp
import Verif.Containers.Lemmas
import Verif.Common.KernelLemmas

/-! Lemmas about temporary particle groups. -/

set_option autoImplicit false

namespace NP

open Spec

theorem insertDat_perm (d : TDat) (l : List TDat) : (insertDat d l).Perm (d :: l) := by
  induction l with
  | nil => exact List.Perm.refl _
  | cons x l ih =>
    unfold insertDat
    split
    · exact List.Perm.refl _
    · exact (ih.cons x).trans (List.Perm.swap d x l)

theorem setKind_same {α : Type} (f : PropKind → α) (k : PropKind) (x : α) : setKind f k x k = x :=
  if_pos rfl

theorem setKind_other {α : Type} (f : PropKind → α) {k k' : PropKind} (h : k' ≠ k) (x : α) :
    setKind f k x k' = f k' := if_neg h

/-- The names of the properties of a group. -/
def TGroup.syms (g : TGroup) (k : PropKind) : List Nat := (g.dats k).map fun d => d.prop.sym

/-- The bookkeeping of a group is consistent; `P` are the names of the properties for positions and
for cells. -/
structure TBase (P : PropKind → Nat) (ncell : Nat) (g : TGroup) : Prop where
  nodup : ∀ k, (g.syms k).Nodup
  spec : ∀ k, (g.spec k).Perm ((g.dats k).map fun d => d.prop)
  vers : ∀ k s, (k, s) ∈ g.versions ↔ s ∈ g.syms k
  special : ∀ k, g.special k = if P k ∈ g.syms k then some (P k) else none
  pos : ∀ k, ∀ d ∈ g.dats k, d.prop.positions = true ↔ d.prop.sym = P k
  rows : ∀ k, ∀ d ∈ g.dats k, d.npart = g.npart
  len : g.npart.length = ncell

/-- The properties that cannot be removed are there; `N` are the numbers of components of the
properties for positions and for cells. -/
structure TOk (P N : PropKind → Nat) (ncell : Nat) (g : TGroup) : Prop where
  base : TBase P ncell g
  pin : ∀ k, compsOf g k (P k) = some (N k)
  rank : compsOf g .int tempRankSym = some 2

theorem find_eq_some {g : TGroup} {k : PropKind} (h : (g.syms k).Nodup) {s : Nat} {d : TDat} :
    g.find k s = some d ↔ d ∈ g.dats k ∧ d.prop.sym = s := by
  unfold TGroup.find
  constructor
  · intro h
    exact ⟨List.mem_of_find?_eq_some h, by simpa using List.find?_some h⟩
  · rintro ⟨h1, rfl⟩
    unfold TGroup.syms at h
    generalize g.dats k = l at h h1
    induction l with
    | nil => simp at h1
    | cons x l ih =>
      rw [List.map_cons, List.nodup_cons] at h
      rcases List.mem_cons.1 h1 with rfl | h1
      · simp
      · rw [List.find?_cons_of_neg]
        · exact ih h.2 h1
        · intro he
          refine h.1 (List.mem_map.2 ⟨d, h1, ?_⟩)
          simpa using (of_decide_eq_true he).symm

theorem find_eq_none {g : TGroup} {k : PropKind} {s : Nat} : g.find k s = none ↔ s ∉ g.syms k := by
  unfold TGroup.find TGroup.syms
  simp [List.find?_eq_none]

theorem comps_none {g : TGroup} {k : PropKind} {s : Nat} : compsOf g k s = none ↔ s ∉ g.syms k := by
  unfold compsOf
  rw [Option.map_eq_none_iff, find_eq_none]

theorem comps_some {g : TGroup} {k : PropKind} (h : (g.syms k).Nodup) {s n : Nat} :
    compsOf g k s = some n ↔ ∃ d ∈ g.dats k, d.prop.sym = s ∧ d.prop.ncomp = n := by
  unfold compsOf
  rw [Option.map_eq_some_iff]
  constructor
  · rintro ⟨d, h1, h2⟩
    obtain ⟨h3, h4⟩ := (find_eq_some h).1 h1
    exact ⟨d, h3, h4, h2⟩
  · rintro ⟨d, h1, h2, h3⟩
    exact ⟨d, (find_eq_some h).2 ⟨h1, h2⟩, h3⟩

/-- The components of two groups agree for one type if the dats have the same properties, in any
order. -/
theorem comps_ext {g g' : TGroup} {k k' : PropKind} (h : (g.syms k).Nodup) (h' : (g'.syms k').Nodup)
    {s s' : Nat}
    (hd : ∀ n, (∃ d ∈ g.dats k, d.prop.sym = s ∧ d.prop.ncomp = n) ↔
      ∃ d ∈ g'.dats k', d.prop.sym = s' ∧ d.prop.ncomp = n) : compsOf g k s = compsOf g' k' s' := by
  refine Option.ext fun n => ?_
  rw [comps_some h, comps_some h', hd]

theorem add_base {P : PropKind → Nat} {ncell : Nat} {g : TGroup} (h : TBase P ncell g)
    {k : PropKind} {p : TProp} (hp : compsOf g k p.sym = none → (p.positions = true ↔ p.sym = P k))
    (hc : ∀ n, compsOf g k p.sym = some n → n = p.ncomp) :
    ∃ g', g.add k p = some g' ∧ TBase P ncell g' ∧ g'.npart = g.npart ∧
      ∀ k' s, compsOf g' k' s = if k' = k ∧ s = p.sym then some p.ncomp else compsOf g k' s := by
  unfold TGroup.add
  cases hf : g.find k p.sym with
  | some d =>
    have h1 : compsOf g k p.sym = some d.prop.ncomp := by unfold compsOf; rw [hf]; rfl
    have h2 := hc _ h1
    refine ⟨g, if_pos h2, h, rfl, fun k' s => ?_⟩
    split
    · rename_i hs
      rw [hs.1, hs.2, h1, h2]
    · rfl
  | none =>
    have hn := find_eq_none.1 hf
    have hv : ¬ (k, p.sym) ∈ g.versions := fun hm => hn ((h.vers k p.sym).1 hm)
    dsimp only
    rw [if_neg hv]
    have hp := hp (comps_none.2 hn)
    have hperm := insertDat_perm ⟨p, g.npart⟩ (g.dats k)
    have hsyms : ∀ k' s, s ∈ (setKind g.dats k (insertDat ⟨p, g.npart⟩ (g.dats k)) k').map
        (fun d => d.prop.sym) ↔ (k' = k ∧ s = p.sym) ∨ s ∈ g.syms k' := by
      intro k' s
      unfold TGroup.syms
      by_cases hk : k' = k
      · subst hk
        rw [setKind_same, (hperm.map _).mem_iff, List.map_cons, List.mem_cons]
        simp
      · rw [setKind_other _ hk]; simp [hk]
    have hnd : ∀ k', ((setKind g.dats k (insertDat ⟨p, g.npart⟩ (g.dats k)) k').map
        (fun d => d.prop.sym)).Nodup := by
      intro k'
      by_cases hk : k' = k
      · subst hk
        rw [setKind_same, (hperm.map _).nodup_iff, List.map_cons, List.nodup_cons]
        exact ⟨hn, h.nodup k'⟩
      · rw [setKind_other _ hk]; exact h.nodup k'
    refine ⟨_, rfl, ⟨hnd, ?_, ?_, ?_, ?_, ?_, h.len⟩, rfl, ?_⟩
    · intro k'
      dsimp only
      by_cases hk : k' = k
      · subst hk
        rw [setKind_same, setKind_same]
        refine List.Perm.trans ?_ (hperm.map _).symm
        rw [List.map_cons]
        exact (List.perm_append_singleton _ _).trans ((h.spec k').cons _)
      · rw [setKind_other _ hk, setKind_other _ hk]; exact h.spec k'
    · intro k' s
      unfold TGroup.syms
      dsimp only
      rw [hsyms, List.mem_cons, h.vers]
      simp
    · intro k'
      unfold TGroup.syms
      dsimp only
      by_cases hpp : p.positions = true
      · rw [if_pos hpp]
        by_cases hk : k' = k
        · subst hk
          rw [setKind_same, if_pos ((hsyms k' _).2 (Or.inl ⟨rfl, (hp.1 hpp).symm⟩)), hp.1 hpp]
        · rw [setKind_other _ hk, h.special]
          refine if_congr ?_ rfl rfl
          rw [hsyms]
          exact (or_iff_right (fun hh : k' = k ∧ P k' = p.sym => hk hh.1)).symm
      · rw [if_neg hpp, h.special]
        have hne : ¬ (k' = k ∧ P k' = p.sym) := fun hh => hpp (hp.2 (by rw [← hh.2, hh.1]))
        refine if_congr ?_ rfl rfl
        rw [hsyms]
        exact (or_iff_right hne).symm
    · intro k' d hd
      dsimp only at hd
      by_cases hk : k' = k
      · subst hk
        rw [setKind_same, hperm.mem_iff, List.mem_cons] at hd
        rcases hd with rfl | hd
        · exact hp
        · exact h.pos k' d hd
      · rw [setKind_other _ hk] at hd; exact h.pos k' d hd
    · intro k' d hd
      dsimp only at hd ⊢
      by_cases hk : k' = k
      · subst hk
        rw [setKind_same, hperm.mem_iff, List.mem_cons] at hd
        rcases hd with rfl | hd
        · rfl
        · exact h.rows k' d hd
      · rw [setKind_other _ hk] at hd; exact h.rows k' d hd
    · intro k' s
      by_cases hs : k' = k ∧ s = p.sym
      · rw [if_pos hs]
        refine (comps_some (by exact hnd k')).2 ?_
        obtain ⟨rfl, rfl⟩ := hs
        refine ⟨⟨p, g.npart⟩, ?_, rfl, rfl⟩
        dsimp only
        rw [setKind_same, hperm.mem_iff]
        exact List.mem_cons_self
      · rw [if_neg hs]
        refine comps_ext (by exact hnd k') (h.nodup k') fun n => ?_
        dsimp only
        by_cases hk : k' = k
        · subst hk
          rw [setKind_same]
          simp only [hperm.mem_iff, List.mem_cons]
          constructor
          · rintro ⟨d, hd | hd, h1, h2⟩
            · rw [hd] at h1
              exact absurd ⟨rfl, h1.symm⟩ hs
            · exact ⟨d, hd, h1, h2⟩
          · rintro ⟨d, hd, h1, h2⟩
            exact ⟨d, Or.inr hd, h1, h2⟩
        · rw [setKind_other _ hk]

theorem tempSpecRemove_perm {l : List TProp} {p : TProp} (hp : p ∈ l)
    (hl : ∀ x ∈ l, x.sym = p.sym → x = p) : ∃ l', tempSpecRemove l p = some l' ∧ l.Perm (p :: l') := by
  induction l with
  | nil => simp at hp
  | cons x l ih =>
    unfold tempSpecRemove
    by_cases hx : x.sym = p.sym ∧ x.ncomp = p.ncomp
    · rw [if_pos hx]
      refine ⟨l, rfl, ?_⟩
      rw [hl x List.mem_cons_self hx.1]
    · rw [if_neg hx]
      have hpl : p ∈ l := by
        rcases List.mem_cons.1 hp with rfl | h
        · exact absurd ⟨rfl, rfl⟩ hx
        · exact h
      obtain ⟨l', h1, h2⟩ := ih hpl fun y hy => hl y (List.mem_cons_of_mem _ hy)
      rw [h1]
      exact ⟨x :: l', rfl, (h2.cons x).trans (List.Perm.swap p x l')⟩

theorem perm_filter_of_nodup {l : List TDat} (h : (l.map fun d => d.prop.sym).Nodup) {d : TDat}
    (hd : d ∈ l) : l.Perm (d :: l.filter fun x => !(x.prop.sym == d.prop.sym)) := by
  induction l with
  | nil => simp at hd
  | cons x l ih =>
    rw [List.map_cons, List.nodup_cons] at h
    rcases List.mem_cons.1 hd with rfl | hd
    · rw [List.filter_cons_of_neg (by simp), List.filter_eq_self.2]
      intro y hy
      have : y.prop.sym ≠ d.prop.sym := fun he => h.1 (he ▸ List.mem_map.2 ⟨y, hy, rfl⟩)
      simpa using this
    · have hne : x.prop.sym ≠ d.prop.sym := fun he => h.1 (he ▸ List.mem_map.2 ⟨d, hd, rfl⟩)
      rw [List.filter_cons_of_pos (by simpa using hne)]
      exact ((ih h.2 hd).cons x).trans (List.Perm.swap d x _)

theorem remove_base {P : PropKind → Nat} {ncell : Nat} {g : TGroup} (h : TBase P ncell g)
    {k : PropKind} {sym : Nat} (hin : sym ∈ g.syms k) (hP : P k ∈ g.syms k) (hne : sym ≠ P k)
    (hr : ¬ (k = .int ∧ sym = tempRankSym)) :
    ∃ g', g.remove k sym = some g' ∧ TBase P ncell g' ∧ g'.npart = g.npart ∧
      ∀ k' s, compsOf g' k' s = if k' = k ∧ s = sym then none else compsOf g k' s := by
  obtain ⟨d, hd, hds⟩ := List.mem_map.1 hin
  have hf := (find_eq_some (h.nodup k)).2 ⟨hd, hds⟩
  unfold TGroup.remove
  rw [hf, Option.bind_some, if_neg hr, h.special, if_pos hP, Option.bind_some, if_neg hne]
  have hperm := perm_filter_of_nodup (h.nodup k) hd
  rw [hds] at hperm
  obtain ⟨spec, h1, h2⟩ := tempSpecRemove_perm (l := g.spec k) (p := d.prop)
    ((h.spec k).mem_iff.2 (List.mem_map.2 ⟨d, hd, rfl⟩)) (by
      intro x hx hxs
      obtain ⟨d', hd', rfl⟩ := List.mem_map.1 ((h.spec k).mem_iff.1 hx)
      have e1 := (find_eq_some (h.nodup k)).2 ⟨hd', hxs⟩
      have e2 := (find_eq_some (h.nodup k)).2 ⟨hd, rfl⟩
      rw [e1] at e2
      rw [Option.some.inj e2])
  rw [h1, Option.bind_some]
  have hsub : ∀ k', ∀ d' ∈ setKind g.dats k ((g.dats k).filter fun d => !(d.prop.sym == sym)) k',
      d' ∈ g.dats k' ∧ ¬ (k' = k ∧ d'.prop.sym = sym) := by
    intro k' d' hd'
    by_cases hk : k' = k
    · subst hk
      rw [setKind_same, List.mem_filter] at hd'
      exact ⟨hd'.1, fun hh => by simp [hh.2] at hd'⟩
    · rw [setKind_other _ hk] at hd'; exact ⟨hd', fun hh => hk hh.1⟩
  have hsup : ∀ k', ∀ d' ∈ g.dats k', ¬ (k' = k ∧ d'.prop.sym = sym) →
      d' ∈ setKind g.dats k ((g.dats k).filter fun d => !(d.prop.sym == sym)) k' := by
    intro k' d' hd' hh
    by_cases hk : k' = k
    · subst hk
      rw [setKind_same, List.mem_filter]
      exact ⟨hd', by simpa using hh⟩
    · rw [setKind_other _ hk]; exact hd'
  have hsyms : ∀ k' s, s ∈ (setKind g.dats k ((g.dats k).filter fun d => !(d.prop.sym == sym)) k').map
      (fun d => d.prop.sym) ↔ s ∈ g.syms k' ∧ ¬ (k' = k ∧ s = sym) := by
    intro k' s
    rw [List.mem_map]
    constructor
    · rintro ⟨d', hd', rfl⟩
      obtain ⟨e1, e2⟩ := hsub k' d' hd'
      exact ⟨List.mem_map.2 ⟨d', e1, rfl⟩, e2⟩
    · rintro ⟨e1, e2⟩
      obtain ⟨d', hd', rfl⟩ := List.mem_map.1 e1
      exact ⟨d', hsup k' d' hd' e2, rfl⟩
  have hnd : ∀ k', ((setKind g.dats k ((g.dats k).filter fun d => !(d.prop.sym == sym)) k').map
      (fun d => d.prop.sym)).Nodup := by
    intro k'
    by_cases hk : k' = k
    · subst hk
      rw [setKind_same]
      exact (h.nodup k').sublist ((List.filter_sublist).map _)
    · rw [setKind_other _ hk]; exact h.nodup k'
  refine ⟨_, rfl, ⟨hnd, ?_, ?_, ?_, ?_, ?_, h.len⟩, rfl, ?_⟩
  · intro k'
    dsimp only
    by_cases hk : k' = k
    · subst hk
      rw [setKind_same, setKind_same]
      have e1 := h2.symm.trans ((h.spec k').trans (hperm.map fun d => d.prop))
      rw [List.map_cons] at e1
      exact e1.cons_inv
    · rw [setKind_other _ hk, setKind_other _ hk]; exact h.spec k'
  · intro k' s
    unfold TGroup.syms
    dsimp only
    rw [hsyms, List.mem_filter, h.vers]
    simp
  · intro k'
    unfold TGroup.syms
    dsimp only
    rw [h.special]
    have hne' : ¬ (k' = k ∧ P k' = sym) := fun hh => hne (by rw [← hh.2, hh.1])
    refine if_congr ?_ rfl rfl
    rw [hsyms]
    exact (and_iff_left hne').symm
  · intro k' d' hd'
    exact h.pos k' d' (hsub k' d' hd').1
  · intro k' d' hd'
    exact h.rows k' d' (hsub k' d' hd').1
  · intro k' s
    by_cases hs : k' = k ∧ s = sym
    · rw [if_pos hs, comps_none]
      unfold TGroup.syms
      dsimp only
      rw [hsyms]
      exact fun hh => hh.2 hs
    · rw [if_neg hs]
      refine comps_ext (by exact hnd k') (h.nodup k') fun n => ?_
      dsimp only
      constructor
      · rintro ⟨d', e1, e2, e3⟩
        exact ⟨d', (hsub k' d' e1).1, e2, e3⟩
      · rintro ⟨d', e1, e2, e3⟩
        exact ⟨d', hsup k' d' e1 (by rw [e2]; exact hs), e2, e3⟩

/-! ## Groups with all their fixed properties -/

/-- Fixed properties: those for positions, for cells and for ranks. -/
def Fixed (P : PropKind → Nat) (k : PropKind) (s : Nat) : Prop :=
  s = P k ∨ (k = .int ∧ s = tempRankSym)

theorem TOk.fixed {P N : PropKind → Nat} {ncell : Nat} {g g' : TGroup} (h : TOk P N ncell g)
    (h' : TOk P N ncell g') {k : PropKind} {s : Nat} (hs : Fixed P k s) :
    compsOf g k s = compsOf g' k s := by
  rcases hs with rfl | ⟨rfl, rfl⟩
  · rw [h.pin, h'.pin]
  · rw [h.rank, h'.rank]

theorem TOk.mem {P N : PropKind → Nat} {ncell : Nat} {g : TGroup} (h : TOk P N ncell g)
    {k : PropKind} {s : Nat} (hs : Fixed P k s) : s ∈ g.syms k := by
  by_contra hn
  have := comps_none.2 hn
  rcases hs with rfl | ⟨rfl, rfl⟩
  · rw [h.pin] at this; simp at this
  · rw [h.rank] at this; simp at this

/-- Changing the components of a property that is not fixed. -/
theorem TOk.of_base {P N : PropKind → Nat} {ncell : Nat} {g g' : TGroup} (h : TOk P N ncell g)
    (hb : TBase P ncell g') {k : PropKind} {s : Nat} {o : Option Nat}
    (hc : ∀ k' s', compsOf g' k' s' = if k' = k ∧ s' = s then o else compsOf g k' s')
    (hs : Fixed P k s → o = compsOf g k s) : TOk P N ncell g' := by
  have key : ∀ k' s', Fixed P k' s' → compsOf g' k' s' = compsOf g k' s' := by
    intro k' s' hf
    rw [hc]
    split
    · rename_i he
      rw [he.1, he.2] at hf ⊢
      exact hs hf
    · rfl
  exact ⟨hb, fun k => by rw [key k _ (Or.inl rfl), h.pin],
    by rw [key _ _ (Or.inr ⟨rfl, rfl⟩), h.rank]⟩

theorem TOk.add {P N : PropKind → Nat} {ncell : Nat} {g : TGroup} (h : TOk P N ncell g)
    {k : PropKind} {s n : Nat} (hc : ∀ m, compsOf g k s = some m → m = n) :
    ∃ g', g.add k ⟨s, n, false⟩ = some g' ∧ TOk P N ncell g' ∧ g'.npart = g.npart ∧
      ∀ k' s', compsOf g' k' s' = if k' = k ∧ s' = s then some n else compsOf g k' s' := by
  obtain ⟨g', h1, h2, h3, h4⟩ := add_base h.base (k := k) (p := ⟨s, n, false⟩) (by
    intro hn
    have hne : s ≠ P k := by
      intro he
      rw [he, h.pin] at hn
      simp at hn
    simpa using hne) hc
  refine ⟨g', h1, h.of_base h2 h4 ?_, h3, h4⟩
  intro hf
  obtain ⟨m, hm⟩ : ∃ m, compsOf g k s = some m := by
    rcases hf with rfl | ⟨rfl, rfl⟩
    · exact ⟨_, h.pin k⟩
    · exact ⟨_, h.rank⟩
  rw [hm, hc m hm]

theorem TOk.remove {P N : PropKind → Nat} {ncell : Nat} {g : TGroup} (h : TOk P N ncell g)
    {k : PropKind} {s : Nat} (hin : s ∈ g.syms k) (hf : ¬ Fixed P k s) :
    ∃ g', g.remove k s = some g' ∧ TOk P N ncell g' ∧ g'.npart = g.npart ∧
      ∀ k' s', compsOf g' k' s' = if k' = k ∧ s' = s then none else compsOf g k' s' := by
  obtain ⟨g', h1, h2, h3, h4⟩ := remove_base h.base hin (h.mem (Or.inl rfl)) (fun he => hf (Or.inl he))
    (fun he => hf (Or.inr he))
  exact ⟨g', h1, h.of_base h2 h4 fun hh => absurd hh hf, h3, h4⟩

theorem TOk.of_add {P N : PropKind → Nat} {ncell : Nat} {g g' : TGroup} (h : TOk P N ncell g)
    {k : PropKind} {s n : Nat} (e : g.add k ⟨s, n, false⟩ = some g') :
    TOk P N ncell g' ∧ g'.npart = g.npart := by
  obtain ⟨g'', h1, h2, h3, -⟩ := h.add (k := k) (s := s) (n := n) (by
    intro m hm
    unfold compsOf at hm
    unfold TGroup.add at e
    obtain ⟨d, hd, rfl⟩ := Option.map_eq_some_iff.1 hm
    rw [hd] at e
    dsimp only at e
    by_contra hne
    rw [if_neg hne] at e
    simp at e)
  rw [e] at h1
  obtain rfl := Option.some.inj h1
  exact ⟨h2, h3⟩

theorem TOk.of_remove {P N : PropKind → Nat} {ncell : Nat} {g g' : TGroup} (h : TOk P N ncell g)
    {k : PropKind} {s : Nat} (e : g.remove k s = some g') : TOk P N ncell g' ∧ g'.npart = g.npart := by
  have e' := e
  unfold TGroup.remove at e
  obtain ⟨d, hd, e⟩ := Option.bind_eq_some_iff.1 e
  have hin : s ∈ g.syms k := by
    by_contra hn
    rw [find_eq_none.2 hn] at hd
    simp at hd
  by_cases hr : k = .int ∧ s = tempRankSym
  · rw [if_pos hr] at e; simp at e
  rw [if_neg hr, h.base.special, if_pos (h.mem (Or.inl rfl)), Option.bind_some] at e
  by_cases hs : s = P k
  · rw [if_pos hs] at e; simp at e
  obtain ⟨g'', h1, h2, h3, -⟩ := h.remove hin (by rintro (hh | hh); exacts [hs hh, hr hh])
  rw [e'] at h1
  obtain rfl := Option.some.inj h1
  exact ⟨h2, h3⟩

/-- The number of rows of all dats is replaced. -/
theorem TOk.rows {P N : PropKind → Nat} {ncell : Nat} {g : TGroup} (h : TOk P N ncell g)
    {npart : List Nat} (hl : npart.length = ncell) :
    TOk P N ncell { g with
      npart := npart, dats := fun k => (g.dats k).map fun d => { d with npart := npart } } := by
  have hs : ∀ k, ((g.dats k).map fun d => ({ d with npart := npart } : TDat)).map
      (fun d => d.prop.sym) = g.syms k := by
    intro k
    rw [List.map_map]; rfl
  have hnd : ∀ k, (((g.dats k).map fun d => ({ d with npart := npart } : TDat)).map
      fun d => d.prop.sym).Nodup := fun k => by rw [hs]; exact h.base.nodup k
  have hc : ∀ k s, compsOf { g with
      npart := npart, dats := fun k => (g.dats k).map fun d => { d with npart := npart } } k s =
      compsOf g k s := by
    intro k s
    refine comps_ext (by exact hnd k) (h.base.nodup k) fun n => ?_
    simp
  refine ⟨⟨hnd, ?_, ?_, ?_, ?_, ?_, hl⟩, fun k => by rw [hc, h.pin], by rw [hc, h.rank]⟩
  · intro k
    dsimp only
    rw [List.map_map]
    exact h.base.spec k
  · intro k s
    unfold TGroup.syms
    dsimp only
    rw [hs, h.base.vers]
  · intro k
    unfold TGroup.syms
    dsimp only
    rw [hs, h.base.special]
  · intro k d hd
    obtain ⟨d', hd', rfl⟩ := List.mem_map.1 hd
    exact h.base.pos k d' hd'
  · intro k d hd
    obtain ⟨d', hd', rfl⟩ := List.mem_map.1 hd
    rfl

/-! ## The loops of `get` -/

theorem checkNew_spec {P N : PropKind → Nat} {ncell : Nat} {k : PropKind} (src : List TDat)
    (hnd : (src.map fun d => d.prop.sym).Nodup) {t : TGroup} (h : TOk P N ncell t)
    (hsrc : ∀ d ∈ src, Fixed P k d.prop.sym → compsOf t k d.prop.sym = some d.prop.ncomp) :
    ∃ t', checkNew k src t = some t' ∧ TOk P N ncell t' ∧ t'.npart = t.npart ∧
      (∀ d ∈ src, compsOf t' k d.prop.sym = some d.prop.ncomp) ∧
      ∀ k' s, ¬ (k' = k ∧ s ∈ src.map fun d => d.prop.sym) → compsOf t' k' s = compsOf t k' s := by
  induction src generalizing t with
  | nil => exact ⟨t, rfl, h, rfl, by simp, by simp⟩
  | cons d src ih =>
    rw [List.map_cons, List.nodup_cons] at hnd
    have hstep : ∃ t1, (match t.find k d.prop.sym with
        | some d' =>
          if d.prop.ncomp ≠ d'.prop.ncomp then
            (t.remove k d.prop.sym).bind fun t => t.add k ⟨d.prop.sym, d.prop.ncomp, false⟩
          else some t
        | none => t.add k ⟨d.prop.sym, d.prop.ncomp, false⟩) = some t1 ∧ TOk P N ncell t1 ∧
        t1.npart = t.npart ∧
        ∀ k' s, compsOf t1 k' s = if k' = k ∧ s = d.prop.sym then some d.prop.ncomp
          else compsOf t k' s := by
      cases hf : t.find k d.prop.sym with
      | some d' =>
        have hc : compsOf t k d.prop.sym = some d'.prop.ncomp := by unfold compsOf; rw [hf]; rfl
        dsimp only
        by_cases hn : d.prop.ncomp ≠ d'.prop.ncomp
        · rw [if_pos hn]
          have hin : d.prop.sym ∈ t.syms k := by
            by_contra hx
            rw [comps_none.2 hx] at hc
            simp at hc
          obtain ⟨t0, a1, a2, a3, a4⟩ := h.remove hin (by
            intro hx
            have := hsrc d List.mem_cons_self hx
            rw [hc] at this
            exact hn (Option.some.inj this).symm)
          obtain ⟨t1, b1, b2, b3, b4⟩ := a2.add (k := k) (s := d.prop.sym) (n := d.prop.ncomp) (by
            intro m hm
            rw [a4, if_pos ⟨rfl, rfl⟩] at hm
            simp at hm)
          rw [a1, Option.bind_some]
          refine ⟨t1, b1, b2, b3.trans a3, fun k' s => ?_⟩
          rw [b4, a4]
          split <;> rfl
        · rw [if_neg hn]
          refine ⟨t, rfl, h, rfl, fun k' s => ?_⟩
          split
          · rename_i he
            rw [he.1, he.2, hc]
            congr 1
            omega
          · rfl
      | none =>
        exact h.add (k := k) (s := d.prop.sym) (n := d.prop.ncomp) (by
          intro m hm
          rw [comps_none.2 (find_eq_none.1 hf)] at hm
          simp at hm)
    obtain ⟨t1, c1, c2, c3, c4⟩ := hstep
    obtain ⟨t2, d1, d2, d3, d4, d5⟩ := ih hnd.2 c2 (by
      intro x hx hfx
      rw [c4, if_neg]
      · exact hsrc x (List.mem_cons_of_mem _ hx) hfx
      · rintro ⟨-, he⟩
        exact hnd.1 (he ▸ List.mem_map.2 ⟨x, hx, rfl⟩))
    refine ⟨t2, ?_, d2, d3.trans c3, ?_, ?_⟩
    · unfold checkNew at d1 ⊢
      rw [runItems_cons]
      exact Option.bind_eq_some_iff.2 ⟨t1, c1, d1⟩
    · intro x hx
      rcases List.mem_cons.1 hx with rfl | hx
      · rw [d5 k x.prop.sym (fun hh => hnd.1 hh.2), c4, if_pos ⟨rfl, rfl⟩]
      · exact d4 x hx
    · intro k' s hs
      rw [d5 k' s (fun hh => hs ⟨hh.1, List.mem_cons_of_mem _ hh.2⟩), c4, if_neg]
      rintro ⟨rfl, rfl⟩
      exact hs ⟨rfl, List.mem_cons_self⟩

theorem checkOld_spec {P N : PropKind → Nat} {ncell : Nat} {k : PropKind} {source : TGroup}
    (hs : TOk P N ncell source) {t : TGroup} (h : TOk P N ncell t) :
    ∃ t', checkOld k source t = some t' ∧ TOk P N ncell t' ∧ t'.npart = t.npart ∧
      ∀ k' s, compsOf t' k' s = if k' = k ∧ s ∉ source.syms k then none else compsOf t k' s := by
  have key : ∀ (l : List TDat), (l.map fun d => d.prop.sym).Nodup → ∀ {t : TGroup}, TOk P N ncell t →
      (∀ d ∈ l, d.prop.sym ∈ t.syms k) →
      ∃ t', runItems (fun (d : TDat) (t : TGroup) =>
        if (source.find k d.prop.sym).isNone then t.remove k d.prop.sym else some t) l t = some t' ∧
        TOk P N ncell t' ∧ t'.npart = t.npart ∧
        ∀ k' s, compsOf t' k' s =
          if k' = k ∧ (s ∈ l.map fun d => d.prop.sym) ∧ s ∉ source.syms k then none
          else compsOf t k' s := by
    intro l
    induction l with
    | nil => intro _ t h _; exact ⟨t, rfl, h, rfl, by simp⟩
    | cons d l ih =>
      intro hnd t h hl
      rw [List.map_cons, List.nodup_cons] at hnd
      by_cases hd : d.prop.sym ∈ source.syms k
      · obtain ⟨t', a1, a2, a3, a4⟩ := ih hnd.2 h fun x hx => hl x (List.mem_cons_of_mem _ hx)
        refine ⟨t', ?_, a2, a3, fun k' s => ?_⟩
        · rw [runItems_cons, if_neg, Option.bind_some]
          · exact a1
          · rw [Option.isNone_iff_eq_none, find_eq_none]
            exact fun hh => hh hd
        · rw [a4]
          refine if_congr ?_ rfl rfl
          rw [List.map_cons, List.mem_cons]
          constructor
          · rintro ⟨e1, e2, e3⟩
            exact ⟨e1, Or.inr e2, e3⟩
          · rintro ⟨e1, rfl | e2, e3⟩
            · exact absurd hd e3
            · exact ⟨e1, e2, e3⟩
      · obtain ⟨t0, c1, c2, c3, c4⟩ := h.remove (hl d List.mem_cons_self)
          (fun hh => hd (hs.mem hh))
        obtain ⟨t', a1, a2, a3, a4⟩ := ih hnd.2 c2 (by
          intro x hx
          by_contra hh
          have h1 := comps_none.2 hh
          rw [c4, if_neg] at h1
          · exact comps_none.1 h1 (hl x (List.mem_cons_of_mem _ hx))
          · rintro ⟨-, he⟩
            exact hnd.1 (he ▸ List.mem_map.2 ⟨x, hx, rfl⟩))
        refine ⟨t', ?_, a2, a3.trans c3, fun k' s => ?_⟩
        · rw [runItems_cons, if_pos, c1, Option.bind_some]
          · exact a1
          · rw [Option.isNone_iff_eq_none, find_eq_none]
            exact hd
        · rw [a4, c4]
          by_cases h1 : k' = k ∧ s = d.prop.sym
          · rw [if_pos h1, ite_self, if_pos]
            exact ⟨h1.1, h1.2 ▸ List.mem_cons_self, h1.2 ▸ hd⟩
          · rw [if_neg h1]
            refine if_congr ?_ rfl rfl
            rw [List.map_cons, List.mem_cons]
            constructor
            · rintro ⟨e1, e2, e3⟩
              exact ⟨e1, Or.inr e2, e3⟩
            · rintro ⟨e1, e2 | e2, e3⟩
              · exact absurd ⟨e1, e2⟩ h1
              · exact ⟨e1, e2, e3⟩
  obtain ⟨t', a1, a2, a3, a4⟩ := key (t.dats k) (h.base.nodup k) h
    fun d hd => List.mem_map.2 ⟨d, hd, rfl⟩
  refine ⟨t', a1, a2, a3, fun k' s => ?_⟩
  rw [a4]
  by_cases h1 : k' = k ∧ s ∉ source.syms k
  · rw [if_pos h1]
    by_cases h2 : s ∈ t.syms k
    · rw [if_pos ⟨h1.1, h2, h1.2⟩]
    · rw [if_neg (fun hh => h2 hh.2.1), h1.1, comps_none.2 h2]
  · rw [if_neg h1, if_neg (fun hh => h1 ⟨hh.1, hh.2.2⟩)]

/-- All checks of `get`: the temporary group has the properties of the source. -/
theorem checks_spec {P N : PropKind → Nat} {ncell : Nat} {source t : TGroup}
    (hs : TOk P N ncell source) (h : TOk P N ncell t) :
    ∃ t', ((checkNew .real (source.dats .real) t).bind fun t =>
      (checkNew .int (source.dats .int) t).bind fun t =>
      (checkOld .real source t).bind fun t => checkOld .int source t) = some t' ∧
      TOk P N ncell t' ∧ t'.npart = t.npart ∧ ∀ k s, compsOf t' k s = compsOf source k s := by
  have hsome : ∀ k, ∀ d ∈ source.dats k, compsOf source k d.prop.sym = some d.prop.ncomp :=
    fun k d hd => (comps_some (hs.base.nodup k)).2 ⟨d, hd, rfl, rfl⟩
  have hfix : ∀ {t : TGroup}, TOk P N ncell t → ∀ k, ∀ d ∈ source.dats k, Fixed P k d.prop.sym →
      compsOf t k d.prop.sym = some d.prop.ncomp := by
    intro t ht k d hd hf
    rw [ht.fixed hs hf, hsome k d hd]
  obtain ⟨t1, a1, a2, a3, a4, a5⟩ := checkNew_spec (k := .real) (source.dats .real)
    (hs.base.nodup .real) h (hfix h .real)
  obtain ⟨t2, b1, b2, b3, b4, b5⟩ := checkNew_spec (k := .int) (source.dats .int)
    (hs.base.nodup .int) a2 (hfix a2 .int)
  obtain ⟨t3, c1, c2, c3, c4⟩ := checkOld_spec (k := .real) hs b2
  obtain ⟨t4, d1, d2, d3, d4⟩ := checkOld_spec (k := .int) hs c2
  refine ⟨t4, ?_, d2, by rw [d3, c3, b3, a3], ?_⟩
  · rw [a1, Option.bind_some, b1, Option.bind_some, c1, Option.bind_some, d1]
  · intro k s
    by_cases hin : s ∈ source.syms k
    · obtain ⟨d, hd, rfl⟩ := List.mem_map.1 hin
      rw [d4, if_neg (by rintro ⟨rfl, hh⟩; exact hh hin), c4,
        if_neg (by rintro ⟨rfl, hh⟩; exact hh hin), hsome k d hd]
      cases k with
      | int => exact b4 d hd
      | real => rw [b5 .real _ (by simp)]; exact a4 d hd
    · rw [comps_none.2 hin, d4, c4]
      cases k with
      | int => rw [if_pos ⟨rfl, hin⟩]
      | real => rw [if_neg (by simp), if_pos ⟨rfl, hin⟩]

/-! ## The constructor -/

theorem runAdd_base {P : PropKind → Nat} {ncell : Nat} {k : PropKind} (l : List TProp) {g g' : TGroup}
    (h : TBase P ncell g) (hp : ∀ p ∈ l, p.positions = true ↔ p.sym = P k)
    (e : runItems (fun p (g : TGroup) => g.add k p) l g = some g') :
    TBase P ncell g' ∧ g'.npart = g.npart ∧
      (∀ k' s n, compsOf g k' s = some n → compsOf g' k' s = some n) ∧
      ∀ p ∈ l, compsOf g' k p.sym = some p.ncomp := by
  induction l generalizing g with
  | nil => cases e; exact ⟨h, rfl, fun _ _ _ h => h, by simp⟩
  | cons p l ih =>
    rw [runItems_cons] at e
    obtain ⟨g1, e1, e2⟩ := Option.bind_eq_some_iff.1 e
    have hc : ∀ n, compsOf g k p.sym = some n → n = p.ncomp := by
      intro n hn
      unfold compsOf at hn
      unfold TGroup.add at e1
      obtain ⟨d, hd, rfl⟩ := Option.map_eq_some_iff.1 hn
      rw [hd] at e1
      dsimp only at e1
      by_contra hne
      rw [if_neg hne] at e1
      simp at e1
    obtain ⟨g1', a1, a2, a3, a4⟩ := add_base h (k := k) (p := p)
      (fun _ => hp p List.mem_cons_self) hc
    rw [e1] at a1
    obtain rfl := Option.some.inj a1
    obtain ⟨b1, b2, b3, b4⟩ := ih a2 (fun q hq => hp q (List.mem_cons_of_mem _ hq)) e2
    have hkeep : ∀ k' s n, compsOf g k' s = some n → compsOf g1 k' s = some n := by
      intro k' s n hn
      rw [a4]
      split
      · rename_i he
        rw [he.1, he.2] at hn
        rw [hc n hn]
      · exact hn
    refine ⟨b1, b2.trans a3, fun k' s n hn => b3 _ _ _ (hkeep _ _ _ hn), ?_⟩
    intro q hq
    rcases List.mem_cons.1 hq with rfl | hq
    · exact b3 _ _ _ (by rw [a4, if_pos ⟨rfl, rfl⟩])
    · exact b4 q hq

theorem runAdd_some {P : PropKind → Nat} {ncell : Nat} {k : PropKind} (l : List TProp) {g : TGroup}
    (h : TBase P ncell g) (hp : ∀ p ∈ l, p.positions = true ↔ p.sym = P k)
    (hnd : (l.map fun p => p.sym).Nodup)
    (hc : ∀ p ∈ l, ∀ n, compsOf g k p.sym = some n → n = p.ncomp) :
    ∃ g', runItems (fun p (g : TGroup) => g.add k p) l g = some g' ∧
      ∀ k' s, k' ≠ k → compsOf g' k' s = compsOf g k' s := by
  induction l generalizing g with
  | nil => exact ⟨g, rfl, fun _ _ _ => rfl⟩
  | cons p l ih =>
    rw [List.map_cons, List.nodup_cons] at hnd
    obtain ⟨g1, a1, a2, a3, a4⟩ := add_base h (k := k) (p := p)
      (fun _ => hp p List.mem_cons_self) (hc p List.mem_cons_self)
    obtain ⟨g2, b1, b2⟩ := ih a2 (fun q hq => hp q (List.mem_cons_of_mem _ hq)) hnd.2 (by
      intro q hq n hn
      rw [a4, if_neg] at hn
      · exact hc q (List.mem_cons_of_mem _ hq) n hn
      · rintro ⟨-, he⟩
        exact hnd.1 (he ▸ List.mem_map.2 ⟨q, hq, rfl⟩))
    refine ⟨g2, ?_, fun k' s hk => ?_⟩
    · rw [runItems_cons, a1, Option.bind_some, b1]
    · rw [b2 k' s hk, a4, if_neg fun hh => hk hh.1]

/-- A group with no properties. -/
theorem empty_base (P : PropKind → Nat) (ncell : Nat) :
    TBase P ncell ⟨fun _ => [], fun _ => [], fun _ => none, [], List.replicate ncell 0⟩ := by
  refine ⟨?_, ?_, ?_, ?_, ?_, ?_, by simp⟩ <;> intros <;> simp_all [TGroup.syms]

theorem empty_comps (ncell : Nat) (k : PropKind) (s : Nat) :
    compsOf ⟨fun _ => [], fun _ => [], fun _ => none, [], List.replicate ncell 0⟩ k s = none :=
  comps_none.2 (by simp [TGroup.syms])

/-- The group with only the property for ranks. -/
theorem rank_base {P : PropKind → Nat} (hP : P .int ≠ tempRankSym) (ncell : Nat) :
    ∃ g, (⟨fun _ => [], fun _ => [], fun _ => none, [], List.replicate ncell 0⟩ : TGroup).add .int
      ⟨tempRankSym, 2, false⟩ = some g ∧ TBase P ncell g ∧ g.npart = List.replicate ncell 0 ∧
      ∀ k s, compsOf g k s = if k = .int ∧ s = tempRankSym then some 2 else none := by
  obtain ⟨g, a1, a2, a3, a4⟩ := add_base (empty_base P ncell) (k := .int)
    (p := ⟨tempRankSym, 2, false⟩) (fun _ => by simpa using hP.symm)
    (fun n hn => by rw [empty_comps] at hn; simp at hn)
  refine ⟨g, a1, a2, a3, fun k s => ?_⟩
  rw [a4]
  simp only [empty_comps]

theorem construct_ok {P : PropKind → Nat} {ncell : Nat} {spec : PropKind → List TProp} {g : TGroup}
    (hs : SpecialOnce spec P) (e : TGroup.construct ncell spec = some g) :
    ∃ N, TOk P N ncell g ∧ g.npart = List.replicate ncell 0 := by
  obtain ⟨hP, hk⟩ := hs
  obtain ⟨g0, a1, a2, a3, a4⟩ := rank_base hP ncell
  unfold TGroup.construct at e
  simp only [a1, Option.bind_some] at e
  obtain ⟨g1, e1, e2⟩ := Option.bind_eq_some_iff.1 e
  obtain ⟨b1, b2, b3, b4⟩ := runAdd_base _ a2 (hk .real).2 e1
  obtain ⟨c1, c2, c3, c4⟩ := runAdd_base _ b1 (hk .int).2 e2
  obtain ⟨p, p1, p2⟩ := (hk .real).1
  obtain ⟨q, q1, q2⟩ := (hk .int).1
  refine ⟨fun k => match k with | .real => p.ncomp | .int => q.ncomp, ⟨c1, ?_, ?_⟩, by rw [c2, b2, a3]⟩
  · intro k
    cases k with
    | real => exact c3 _ _ _ (p2 ▸ b4 p p1)
    | int => exact q2 ▸ c4 q q1
  · exact c3 _ _ _ (b3 _ _ _ (by rw [a4, if_pos ⟨rfl, rfl⟩]))

/-- A temporary group that is constructed with the specification of the source. -/
theorem construct_of_source {P N : PropKind → Nat} {ncell : Nat} {source : TGroup}
    (hP : P .int ≠ tempRankSym) (h : TOk P N ncell source) :
    ∃ t, TGroup.construct ncell source.spec = some t ∧ TOk P N ncell t ∧
      t.npart = List.replicate ncell 0 := by
  obtain ⟨g0, a1, a2, a3, a4⟩ := rank_base hP ncell
  have hpos : ∀ k, ∀ p ∈ source.spec k, p.positions = true ↔ p.sym = P k := by
    intro k p hp
    obtain ⟨d, hd, rfl⟩ := List.mem_map.1 ((h.base.spec k).mem_iff.1 hp)
    exact h.base.pos k d hd
  have hcs : ∀ k, ∀ p ∈ source.spec k, compsOf source k p.sym = some p.ncomp := by
    intro k p hp
    obtain ⟨d, hd, rfl⟩ := List.mem_map.1 ((h.base.spec k).mem_iff.1 hp)
    exact (comps_some (h.base.nodup k)).2 ⟨d, hd, rfl, rfl⟩
  have hmem : ∀ k s n, compsOf source k s = some n → ∃ p ∈ source.spec k, p.sym = s ∧ p.ncomp = n := by
    intro k s n hc
    obtain ⟨d, hd, e1, e2⟩ := (comps_some (h.base.nodup k)).1 hc
    exact ⟨d.prop, (h.base.spec k).mem_iff.2 (List.mem_map.2 ⟨d, hd, rfl⟩), e1, e2⟩
  have hnd : ∀ k, ((source.spec k).map fun p => p.sym).Nodup := by
    intro k
    have h1 := (h.base.spec k).map fun p => p.sym
    rw [List.map_map] at h1
    exact h1.nodup_iff.2 (h.base.nodup k)
  obtain ⟨g1, e1, f1⟩ := runAdd_some (source.spec .real) a2 (hpos .real) (hnd .real) (by
    intro p hp n hn
    rw [a4, if_neg (by simp)] at hn
    simp at hn)
  obtain ⟨b1, b2, b3, b4⟩ := runAdd_base _ a2 (hpos .real) e1
  obtain ⟨g2, e2, f2⟩ := runAdd_some (source.spec .int) b1 (hpos .int) (hnd .int) (by
    intro p hp n hn
    rw [f1 .int _ (by simp), a4] at hn
    by_cases hr : p.sym = tempRankSym
    · rw [if_pos ⟨rfl, hr⟩] at hn
      have h1 := hcs .int p hp
      rw [hr, h.rank] at h1
      rw [← Option.some.inj hn, Option.some.inj h1]
    · rw [if_neg (fun hh => hr hh.2)] at hn
      simp at hn)
  obtain ⟨c1, c2, c3, c4⟩ := runAdd_base _ b1 (hpos .int) e2
  refine ⟨g2, ?_, ⟨c1, ?_, ?_⟩, by rw [c2, b2, a3]⟩
  · unfold TGroup.construct
    simp only [a1, Option.bind_some, e1, e2]
  · intro k
    obtain ⟨p, p1, p2, p3⟩ := hmem k _ _ (h.pin k)
    cases k with
    | real => exact c3 _ _ _ (p2 ▸ p3 ▸ b4 p p1)
    | int => exact p2 ▸ p3 ▸ c4 p p1
  · exact c3 _ _ _ (b3 _ _ _ (by rw [a4, if_pos ⟨rfl, rfl⟩]))

end NP
