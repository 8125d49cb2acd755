import Verif.Group.SpecPtrMap
import Verif.Petsc.LemmasCell

/-!
# Lemmas: the pointer map of a particle group
-/

set_option autoImplicit false

namespace NP

open Spec

theorem reallocNoCopy_ge {α : Type} (fresh : Fresh α) (b : List α) (n : Nat) :
    n ≤ (reallocNoCopy fresh b n).length := by
  unfold reallocNoCopy
  split
  · omega
  · split
    · rw [(fresh n).2]
    · omega

theorem compsBefore_succ {dats : OMap MapDat} {i : Nat} {s : Int} {d : MapDat} (h : dats[i]? = some (s, d)) :
    compsBefore dats (i + 1) = compsBefore dats i + d.ncomp := by
  unfold compsBefore
  rw [List.take_add_one, h]
  simp

theorem compsBefore_mono (dats : OMap MapDat) {i j : Nat} (h : i ≤ j) : compsBefore dats i ≤ compsBefore dats j := by
  obtain ⟨k, rfl⟩ : ∃ k, j = i + k := ⟨j - i, by omega⟩
  unfold compsBefore
  rw [List.take_add, List.map_append, List.sum_append]
  omega

theorem get_mid {α : Type} {items pre post : List α} {x : α} (h : items = pre ++ x :: post) :
    items[pre.length]? = some x := by
  subst h; simp

/-- State of the first loop after the first dats. -/
structure TableInv (dats : OMap MapDat) (n0 : List Nat) (n : Nat) (b : TableBufs) : Prop where
  index : b.index = n
  total : b.total = compsBefore dats n
  lptr : dats.length ≤ b.ptr.length
  lncomp : dats.length ≤ b.ncomp.length
  lexscan : dats.length ≤ b.exscan.length
  ptr : ∀ (i : Nat) (s : Int) (d : MapDat), i < n → dats[i]? = some (s, d) → b.ptr[i]? = some d.id
  ncomp : ∀ (i : Nat) (s : Int) (d : MapDat), i < n → dats[i]? = some (s, d) → b.ncomp[i]? = some d.ncomp
  exscan : ∀ i : Nat, i < n → b.exscan[i]? = some (compsBefore dats i)
  symOf : b.symOf = (dats.take n).map (·.1)
  indexOf : ∀ (s : Int) (i : Nat), omGet b.indexOf s = some i ↔ i < n ∧ ∃ d, dats[i]? = some (s, d)
  npart : b.npart = n0 ++ (dats.take n).map (·.2.id)

theorem okey_inj {α : Type} {m : OMap α} (hm : OMapOk m) {i j : Nat} {s : Int} {a b : α}
    (hi : m[i]? = some (s, a)) (hj : m[j]? = some (s, b)) : i = j := by
  unfold OMapOk at hm
  by_contra hne
  have hi' := List.getElem?_eq_some_iff.mp hi
  have hj' := List.getElem?_eq_some_iff.mp hj
  obtain ⟨li, ei⟩ := hi'
  obtain ⟨lj, ej⟩ := hj'
  rw [List.pairwise_iff_getElem] at hm
  rcases Nat.lt_or_gt_of_ne hne with h | h
  · have := hm i j (by simpa using li) (by simpa using lj) h
    simp [ei, ej] at this
  · have := hm j i (by simpa using lj) (by simpa using li) h
    simp [ei, ej] at this

theorem table_loop {dats : OMap MapDat} (hok : OMapOk dats) (n0 p nc es : List Nat)
    (hp : dats.length ≤ p.length) (hn : dats.length ≤ nc.length) (he : dats.length ≤ es.length) :
    ∃ b, runItems tableStep dats ⟨0, 0, p, nc, es, [], [], n0⟩ = some b ∧ TableInv dats n0 dats.length b := by
  refine runItems_invariant (P := fun pre b => TableInv dats n0 pre.length b) ?_ ?_
  · rintro pre ⟨s, d⟩ post b hpre inv
    have hx := get_mid hpre
    have hlt : pre.length < dats.length := (List.getElem?_eq_some_iff.mp hx).1
    have hi := inv.index
    unfold tableStep
    have h1 := inv.lptr
    have h2 := inv.lncomp
    have h3 := inv.lexscan
    rw [st_eq_some (by omega), Option.bind_some, st_eq_some (by omega), Option.bind_some,
      st_eq_some (by omega), Option.bind_some]
    refine ⟨_, rfl, ?_⟩
    rw [List.length_append, List.length_singleton]
    have hset : ∀ (l : List Nat) (v : Nat) (i : Nat), i < pre.length → (l.set pre.length v)[i]? = l[i]? :=
      fun l v i h => List.getElem?_set_ne (by omega)
    refine ⟨by dsimp only; omega, ?_, by simpa using h1, by simpa using h2, by simpa using h3, ?_, ?_, ?_, ?_, ?_, ?_⟩
    · dsimp only; rw [compsBefore_succ hx, inv.total]
    · intro i s' d' hlt' hi'
      dsimp only; rw [hi]
      by_cases hc : i = pre.length
      · subst hc; rw [hx] at hi'; simp only [Option.some.injEq, Prod.mk.injEq] at hi'
        rw [List.getElem?_set_self (by omega), hi'.2]
      · rw [hset _ _ _ (by omega)]; exact inv.ptr i s' d' (by omega) hi'
    · intro i s' d' hlt' hi'
      dsimp only; rw [hi]
      by_cases hc : i = pre.length
      · subst hc; rw [hx] at hi'; simp only [Option.some.injEq, Prod.mk.injEq] at hi'
        rw [List.getElem?_set_self (by omega), hi'.2]
      · rw [hset _ _ _ (by omega)]; exact inv.ncomp i s' d' (by omega) hi'
    · intro i hlt'
      dsimp only; rw [hi]
      by_cases hc : i = pre.length
      · subst hc; rw [List.getElem?_set_self (by omega), inv.total]
      · rw [hset _ _ _ (by omega)]; exact inv.exscan i (by omega)
    · dsimp only; rw [inv.symOf, List.take_add_one, hx]; simp
    · intro s' i
      dsimp only
      rw [omGet_put, hi]
      by_cases hs : s = s'
      · subst hs
        rw [if_pos rfl, Option.some.injEq]
        constructor
        · rintro rfl; exact ⟨by omega, d, hx⟩
        · rintro ⟨-, d', hd'⟩; exact (okey_inj hok hd' hx).symm
      · rw [if_neg hs, inv.indexOf]
        constructor
        · rintro ⟨h4, h5⟩; exact ⟨by omega, h5⟩
        · rintro ⟨h4, d', h5⟩
          refine ⟨?_, d', h5⟩
          by_contra hge
          have : i = pre.length := by omega
          subst this
          rw [hx] at h5
          simp only [Option.some.injEq, Prod.mk.injEq] at h5
          exact hs h5.1
    · dsimp only; rw [inv.npart, List.take_add_one, hx]; simp
  · refine ⟨rfl, rfl, hp, hn, he, ?_, ?_, ?_, rfl, ?_, by simp⟩
    · intro i _ _ h; simp at h
    · intro i _ _ h; simp at h
    · intro i h; simp at h
    · intro s i; simp [omGet_nil]

/-- State of the second loop after the first dats. -/
structure FlatInv (dats : OMap MapDat) (n : Nat) (s : Nat × Nat × List Nat × List Nat) : Prop where
  index : s.1 = compsBefore dats n
  dat : s.2.1 = n
  ld : compsBefore dats dats.length ≤ s.2.2.1.length
  lc : compsBefore dats dats.length ≤ s.2.2.2.length
  get : ∀ (i : Nat) (sym : Int) (d : MapDat), i < n → dats[i]? = some (sym, d) → ∀ j < d.ncomp,
    s.2.2.1[compsBefore dats i + j]? = some i ∧ s.2.2.2[compsBefore dats i + j]? = some j

theorem flat_loop {dats : OMap MapDat} (fd fc : List Nat)
    (hd : compsBefore dats dats.length ≤ fd.length) (hc : compsBefore dats dats.length ≤ fc.length) :
    ∃ s, runItems flatStep dats (0, 0, fd, fc) = some s ∧ FlatInv dats dats.length s := by
  refine runItems_invariant (P := fun pre s => FlatInv dats pre.length s) ?_ ?_
  · rintro pre ⟨sym, d⟩ post ⟨ix, dx, fd, fc⟩ hpre inv
    have hx := get_mid hpre
    have hlt : pre.length < dats.length := (List.getElem?_eq_some_iff.mp hx).1
    have hix := inv.index
    have hdx := inv.dat
    have hld := inv.ld
    have hlc := inv.lc
    dsimp only at hix hdx hld hlc
    subst hdx
    have hle : compsBefore dats pre.length + d.ncomp ≤ compsBefore dats dats.length := by
      rw [← compsBefore_succ hx]; exact compsBefore_mono dats (by omega)
    unfold flatStep
    dsimp only
    obtain ⟨t, ht, h1, h2, h3, h4, h5⟩ := forLoop_invariant (a := 0) (b := d.ncomp)
      (step := fun cx (t : Nat × List Nat × List Nat) =>
        (st t.2.1 t.1 pre.length).bind fun fd => (st t.2.2 t.1 cx).bind fun fc => some (t.1 + 1, fd, fc))
      (s := (ix, fd, fc))
      (fun cx t => t.1 = ix + cx ∧ t.2.1.length = fd.length ∧ t.2.2.length = fc.length ∧
        (∀ k : Nat, k < ix → t.2.1[k]? = fd[k]? ∧ t.2.2[k]? = fc[k]?) ∧
        ∀ j < cx, t.2.1[ix + j]? = some pre.length ∧ t.2.2[ix + j]? = some j) (Nat.zero_le _) (by
        rintro cx ⟨tx, t1, t2⟩ - hcx ⟨q1, q2, q3, q4, q5⟩
        dsimp only at q1 q2 q3 q4 q5 ⊢
        rw [st_eq_some (by omega), Option.bind_some, st_eq_some (by omega), Option.bind_some]
        refine ⟨_, rfl, by dsimp only; omega, by simpa using q2, by simpa using q3, ?_, ?_⟩
        · intro k hk
          dsimp only
          rw [List.getElem?_set_ne (by omega), List.getElem?_set_ne (by omega)]
          exact q4 k hk
        · intro j hj
          dsimp only
          by_cases hjc : j = cx
          · subst hjc
            rw [q1, List.getElem?_set_self (by omega), List.getElem?_set_self (by omega)]
            exact ⟨rfl, rfl⟩
          · rw [List.getElem?_set_ne (by omega), List.getElem?_set_ne (by omega)]
            exact q5 j (by omega)) ⟨by simp, rfl, rfl, fun _ _ => ⟨rfl, rfl⟩, by simp⟩
    rw [ht, Option.bind_some]
    refine ⟨_, rfl, ?_⟩
    rw [List.length_append, List.length_singleton]
    refine ⟨by dsimp only; rw [compsBefore_succ hx]; omega, rfl, by dsimp only; omega, by dsimp only; omega, ?_⟩
    intro i sym' d' hi hi' j hj
    dsimp only
    by_cases hc : i = pre.length
    · subst hc
      rw [hx] at hi'; simp only [Option.some.injEq, Prod.mk.injEq] at hi'
      rw [← hi'.2] at hj
      rw [← hix]
      exact h5 j hj
    · have hb : compsBefore dats i + j < ix := by
        have := compsBefore_succ hi'
        have := compsBefore_mono dats (show i + 1 ≤ pre.length by omega)
        omega
      obtain ⟨e1, e2⟩ := h4 _ hb
      rw [e1, e2]
      exact inv.get i sym' d' (by omega) hi' j hj
  · exact ⟨rfl, rfl, hd, hc, fun i _ _ h => by simp at h⟩

theorem buildTable_spec (env : MapEnv) {dats : OMap MapDat} (hok : OMapOk dats) (t : MapTable) (n0 : List Nat) :
    ∃ t', buildTable env dats t n0 = some (t', n0 ++ dats.map (·.2.id)) ∧ TableDescribes dats t' := by
  unfold buildTable
  dsimp only
  obtain ⟨b, hb, inv⟩ := table_loop hok n0 (reallocNoCopy env.fresh t.ptr dats.length)
    (reallocNoCopy env.fresh t.ncomp dats.length) (reallocNoCopy env.fresh t.exscan dats.length)
    (reallocNoCopy_ge _ _ _) (reallocNoCopy_ge _ _ _) (reallocNoCopy_ge _ _ _)
  rw [hb, Option.bind_some]
  have htot := inv.total
  obtain ⟨f, hf, finv⟩ := flat_loop (dats := dats) (reallocNoCopy env.fresh t.flatDat b.total)
    (reallocNoCopy env.fresh t.flatComp b.total) (by rw [← htot]; exact reallocNoCopy_ge _ _ _)
    (by rw [← htot]; exact reallocNoCopy_ge _ _ _)
  rw [hf, Option.bind_some]
  refine ⟨_, by rw [inv.npart, List.take_length], rfl, by dsimp only; rw [inv.symOf, List.take_length], htot, ?_, ?_⟩
  · intro s i
    dsimp only
    rw [inv.indexOf]
    constructor
    · exact fun h => h.2
    · rintro ⟨d, hd⟩; exact ⟨(List.getElem?_eq_some_iff.mp hd).1, d, hd⟩
  · intro i s d hd
    have hi := (List.getElem?_eq_some_iff.mp hd).1
    exact ⟨inv.ptr i s d hi hd, inv.ncomp i s d hi hd, inv.exscan i hi, finv.get i s d hi hd⟩

theorem writes_foldl (l : OMap MapDat) (wr : Nat → Nat) (k : Nat) :
    l.foldl (fun wr e => implGet e.2 wr) wr k = wr k + (l.map (·.2.id)).count k := by
  induction l generalizing wr with
  | nil => simp
  | cons e l ih =>
    rw [List.foldl_cons, ih, List.map_cons, List.count_cons]
    unfold implGet
    by_cases h : k = e.2.id
    · subst h; simp; omega
    · rw [if_neg h, if_neg (by simpa using fun h' => h h'.symm)]; omega

theorem wptr_loop (dats : OMap MapDat) (p : List Nat) (wr : Nat → Nat) (hp : dats.length ≤ p.length) :
    ∃ s, runItems wptrStep dats (0, p, wr) = some s ∧
      (∀ (i : Nat) (sym : Int) (d : MapDat), dats[i]? = some (sym, d) → s.2.1[i]? = some d.id) ∧
      ∀ k, s.2.2 k = wr k + (dats.map (·.2.id)).count k := by
  obtain ⟨s, h1, -, -, h2, h3⟩ := runItems_invariant (items := dats) (step := wptrStep) (s := (0, p, wr))
    (P := fun pre s => s.1 = pre.length ∧ dats.length ≤ s.2.1.length ∧
      (∀ (i : Nat) (sym : Int) (d : MapDat), i < pre.length → dats[i]? = some (sym, d) → s.2.1[i]? = some d.id) ∧
      ∀ k, s.2.2 k = wr k + (pre.map (·.2.id)).count k) (by
      rintro pre ⟨sym, d⟩ post ⟨ix, q, w⟩ hpre ⟨e1, e2, e3, e4⟩
      have hx := get_mid hpre
      have hlt : pre.length < dats.length := (List.getElem?_eq_some_iff.mp hx).1
      dsimp only at e1 e2 e3 e4
      subst e1
      unfold wptrStep
      dsimp only
      rw [st_eq_some (by omega), Option.bind_some]
      refine ⟨_, rfl, by simp, by simpa using e2, ?_, ?_⟩
      · intro i sym' d' hi hi'
        dsimp only
        rw [List.length_append, List.length_singleton] at hi
        by_cases hc : i = pre.length
        · subst hc; rw [hx] at hi'; simp only [Option.some.injEq, Prod.mk.injEq] at hi'
          rw [List.getElem?_set_self (by omega), hi'.2]
        · rw [List.getElem?_set_ne (by omega)]; exact e3 i sym' d' (by omega) hi'
      · intro k
        dsimp only
        unfold implGet
        rw [List.map_append, List.count_append, e4]
        by_cases h : k = d.id
        · subst h; simp; omega
        · have : List.count k (List.map (fun x : Int × MapDat => x.2.id) [(sym, d)]) = 0 := by
            simp [List.count_cons]; exact fun h' => h h'.symm
          rw [if_neg h, this]; omega)
    ⟨rfl, hp, fun i _ _ h => by simp at h, fun k => by simp⟩
  exact ⟨s, h1, fun i sym d hd => h2 i sym d (List.getElem?_eq_some_iff.mp hd).1 hd, h3⟩

end NP
