import Verif.Algo.SpecUnseen
import Verif.Containers.LemmasTree
import Verif.Sub.LemmasBuilt
import Verif.Group.LemmasCellMove
import Verif.Group.LemmasRemoveGroup
import Verif.Sub.Props

/-!
# Extraction of unseen values

Model: Algo/ModelUnseen.lean. Specification: Algo/SpecUnseen.lean.
-/

set_option autoImplicit false

namespace NP

open Spec

theorem mem_valueSetInsert {v y : Int} {l : List Int} : y ∈ valueSetInsert v l ↔ y = v ∨ y ∈ l := by
  induction l with
  | nil => simp [valueSetInsert]
  | cons x xs ih =>
    unfold valueSetInsert
    split
    · simp
    · split
      · rename_i h1 h2
        subst h2
        simp
      · simp only [List.mem_cons, ih]
        tauto

theorem sorted_valueSetInsert {v : Int} {l : List Int} (h : l.Pairwise (· < ·)) :
    (valueSetInsert v l).Pairwise (· < ·) := by
  induction l with
  | nil => simp [valueSetInsert]
  | cons x xs ih =>
    rw [List.pairwise_cons] at h
    unfold valueSetInsert
    split
    · rename_i hlt
      rw [List.pairwise_cons, List.pairwise_cons]
      refine ⟨?_, h⟩
      intro y hy
      rcases List.mem_cons.1 hy with rfl | hy
      · exact hlt
      · exact lt_trans hlt (h.1 y hy)
    · split
      · rw [List.pairwise_cons]; exact h
      · rename_i h1 h2
        rw [List.pairwise_cons]
        refine ⟨?_, ih h.2⟩
        intro y hy
        rcases mem_valueSetInsert.1 hy with rfl | hy
        · omega
        · exact h.1 y hy

theorem foldl_valueSetInsert (vs : List Int) (o : List Int) (ho : o.Pairwise (· < ·)) :
    (vs.foldl (fun o v => valueSetInsert v o) o).Pairwise (· < ·) ∧
      ∀ y, y ∈ vs.foldl (fun o v => valueSetInsert v o) o ↔ y ∈ vs ∨ y ∈ o := by
  induction vs generalizing o with
  | nil => exact ⟨ho, by simp⟩
  | cons v vs ih =>
    obtain ⟨h1, h2⟩ := ih (valueSetInsert v o) (sorted_valueSetInsert ho)
    refine ⟨h1, fun y => ?_⟩
    rw [List.foldl_cons, h2, mem_valueSetInsert, List.mem_cons]
    tauto

/-- Adding values to the tree. -/
theorem unseenAdd_spec {w : Nat} (hw : 0 < w) (vs : List Int) (gs : List (TreeNode Int))
    (hlen : gs.length = vs.length) (hg : ∀ g ∈ gs, NodeSized w g) (t : BlockedTree Int)
    (f : Int → Option Int) (h : TreeOk w t f) :
    ∃ t' f', unseenAdd w vs gs t = some t' ∧ TreeOk w t' f' ∧
      ∀ k, (f' k).isSome ↔ (f k).isSome ∨ k ∈ vs := by
  induction vs generalizing gs t f with
  | nil => exact ⟨t, f, by cases gs <;> rfl, h, by simp⟩
  | cons v vs ih =>
    cases gs with
    | nil => simp at hlen
    | cons g gs =>
      obtain ⟨t1, a1, a2⟩ := h.add hw g (hg g (by simp)) v v
      obtain ⟨t2, f2, b1, b2, b3⟩ := ih gs (by simpa using hlen) (fun g hg' => hg g (by simp [hg'])) t1 _ a2
      refine ⟨t2, f2, ?_, b2, ?_⟩
      · show (t.add w g v v).bind (fun t => unseenAdd w vs gs t) = some t2
        rw [a1]; exact b1
      · intro k
        rw [b3, List.mem_cons]
        by_cases hk : k = v
        · simp [hk]
        · simp [hk]

/-- One call. -/
theorem unseenExtract_spec {w : Nat} (hw : 0 < w) {x : UnseenCall} (hx : UnseenOk w x)
    {t : BlockedTree Int} {f : Int → Option Int} (ht : TreeOk w t f) :
    ∃ out t' f', unseenExtract w x t = some (out, t') ∧ TreeOk w t' f' ∧ out.Pairwise (· < ·) ∧
      (∀ v, v ∈ out ↔ HasValue x v ∧ f v = none) ∧ ∀ v, (f' v).isSome ↔ (f v).isSome ∨ HasValue x v := by
  obtain ⟨L, pl, sl⟩ := built_spec hx.built
  have pf := parent_facts pl
  have hlaunch : LaunchOk x.P (lens L) true (lens L).sum := by
    refine ⟨hx.localSize, hx.localSizeInt, hx.nbin, ?_, ?_⟩
    · intro n hn
      obtain ⟨row, hrow, rfl⟩ := List.mem_map.1 hn
      obtain ⟨c, hc, hce⟩ := List.getElem_of_mem hrow
      have hc' : c < x.npart.length := by rw [← sl.1]; exact hc
      obtain ⟨h1, h2⟩ := sl.2 c row x.npart[c] (by rw [List.getElem?_eq_getElem hc, hce])
        (List.getElem?_eq_getElem hc')
      exact Nat.lt_of_le_of_lt (row_length_le h1 h2) (hx.counts _ (List.getElem_mem _))
    · intro _ h0 n hn
      have := le_sum_of_mem hn
      omega
  obtain ⟨vis, v1, v2, v3⟩ := C07_each_particle_once hlaunch (cs := none) (ce := none) trivial
  replace v3 : ∀ c k, (c, k) ∈ vis ↔ IsParticle (lens L) c k := by
    intro c k
    rw [v3]
    simp only [CellRequested, true_and]
  have hpv : parentVisits x.P x.npart x.par = some vis := by
    unfold parentVisits
    rw [pf.counts, pf.total]
    exact v1
  have hperm := x.order.perm vis
  have hvl : vis.length ≤ (lens L).sum := visits_length_le v2 fun p hp => (v3 p.1 p.2).1 hp
  -- the value of a loop layer
  have hlay : ∀ c k, (c, k) ∈ vis → ∃ l, x.par.layerAt c k = some l ∧ InParent x.npart x.par c l := by
    intro c k hck
    obtain ⟨n, h1, h2⟩ := (v3 c k).1 hck
    rw [lens, List.getElem?_map, Option.map_eq_some_iff] at h1
    obtain ⟨row, h3, rfl⟩ := h1
    refine ⟨row[k], ?_, (inParent_iff pl c _).2 ⟨row, h3, List.getElem_mem _⟩⟩
    rw [pf.layer c row k h3 h2, List.getElem?_eq_getElem h2]
  have hlay' : ∀ c l, InParent x.npart x.par c l → ∃ k, (c, k) ∈ vis ∧ x.par.layerAt c k = some l := by
    intro c l hl
    obtain ⟨row, h1, h2⟩ := (inParent_iff pl c l).1 hl
    obtain ⟨k, hk, rfl⟩ := List.getElem_of_mem h2
    refine ⟨k, (v3 c k).2 ⟨row.length, ?_, hk⟩, ?_⟩
    · rw [lens, List.getElem?_map, h1]; rfl
    · rw [pf.layer c row k h1 hk, List.getElem?_eq_getElem hk]
  obtain ⟨⟨cnt, buf⟩, b1, b2, b3, b4⟩ := runItems_invariant
    (step := unseenStep w t x.par x.val) (items := x.order.order vis)
    (s := (0, (x.fresh (x.par.total x.npart + x.over)).1))
    (P := fun pre (s : Nat × List Int) => s.2.length = (lens L).sum + x.over ∧ s.1 ≤ pre.length ∧
      ∀ v, v ∈ s.2.take s.1 ↔ f v = none ∧ ∃ c k l, (c, k) ∈ pre ∧ x.par.layerAt c k = some l ∧
        x.val c l = v)
    (by
      rintro pre ⟨c, k⟩ post ⟨n, b⟩ he ⟨a1, a2, a3⟩
      dsimp only at a1 a2 a3
      have hin : (c, k) ∈ vis := hperm.mem_iff.1 (by rw [he]; simp)
      have hlen : pre.length < vis.length := by
        rw [← hperm.length_eq, he]
        simp
      obtain ⟨l, hl, -⟩ := hlay c k hin
      unfold unseenStep
      dsimp only
      rw [hl, Option.bind_some, ht.get hw, Option.bind_some]
      cases hf : f (x.val c l) with
      | some y =>
        refine ⟨_, rfl, a1, by rw [List.length_append]; exact Nat.le_add_right_of_le a2, ?_⟩
        intro v
        dsimp only
        rw [a3]
        constructor
        · rintro ⟨h1, c', k', l', h2, h3⟩
          exact ⟨h1, c', k', l', by simp [h2], h3⟩
        · rintro ⟨h1, c', k', l', h2, h3, h4⟩
          refine ⟨h1, c', k', l', ?_, h3, h4⟩
          rcases List.mem_append.1 h2 with h2 | h2
          · exact h2
          · exfalso
            rw [List.mem_singleton, Prod.mk.injEq] at h2
            rw [h2.1, h2.2, hl] at h3
            rw [← Option.some.inj h3, h2.1] at h4
            rw [h4, h1] at hf
            exact absurd hf (by simp)
      | none =>
        have hnb : n < b.length := by omega
        refine ⟨(n + 1, b.set n (x.val c l)), by rw [st_eq_some hnb]; rfl, by simp [a1],
          by simp; exact a2, ?_⟩
        intro v
        dsimp only
        have htake : (b.set n (x.val c l)).take (n + 1) = b.take n ++ [x.val c l] := by
          rw [List.take_succ_eq_append_getElem (by simp; exact hnb), List.take_set_of_le (Nat.le_refl _)]
          simp
        rw [htake, List.mem_append, a3, List.mem_singleton]
        constructor
        · rintro (⟨h1, c', k', l', h2, h3⟩ | rfl)
          · exact ⟨h1, c', k', l', by simp [h2], h3⟩
          · exact ⟨hf, c, k, l, by simp, hl, rfl⟩
        · rintro ⟨h1, c', k', l', h2, h3, h4⟩
          rcases List.mem_append.1 h2 with h2 | h2
          · exact Or.inl ⟨h1, c', k', l', h2, h3, h4⟩
          · rw [List.mem_singleton, Prod.mk.injEq] at h2
            rw [h2.1, h2.2, hl] at h3
            rw [← Option.some.inj h3, h2.1] at h4
            exact Or.inr h4.symm)
    ⟨by dsimp only; rw [(x.fresh _).2, pf.total], Nat.le_refl _, by simp⟩
  dsimp only at b2 b3 b4
  rw [hperm.length_eq] at b3
  have hslice : slice buf 0 cnt = some (buf.take cnt) := by
    rw [slice_eq_some (by omega) (by omega)]; simp
  obtain ⟨s1, s2⟩ := foldl_valueSetInsert (buf.take cnt) [] List.Pairwise.nil
  set out := (buf.take cnt).foldl (fun o v => valueSetInsert v o) [] with hout
  have hmem : ∀ v, v ∈ out ↔ HasValue x v ∧ f v = none := by
    intro v
    rw [s2, b4]
    simp only [List.not_mem_nil, or_false]
    constructor
    · rintro ⟨h1, c, k, l, h2, h3, h4⟩
      obtain ⟨l', h5, h6⟩ := hlay c k (hperm.mem_iff.1 h2)
      rw [h3] at h5
      obtain rfl := Option.some.inj h5
      exact ⟨⟨c, l, h6, h4⟩, h1⟩
    · rintro ⟨⟨c, l, h1, h2⟩, h3⟩
      obtain ⟨k, h4, h5⟩ := hlay' c l h1
      exact ⟨h3, c, k, l, hperm.mem_iff.2 h4, h5, h2⟩
  obtain ⟨t', f', t1, t2, t3⟩ := unseenAdd_spec hw out ((List.range out.length).map x.garbage) (by simp)
    (fun g hg => by
      obtain ⟨i, -, rfl⟩ := List.mem_map.1 hg
      exact hx.nodes i) t f ht
  refine ⟨out, t', f', ?_, t2, s1, hmem, ?_⟩
  · unfold unseenExtract
    rw [hpv, Option.bind_some, b1, Option.bind_some]
    dsimp only
    rw [hslice, Option.bind_some, ← hout, t1, Option.bind_some]
  · intro v
    rw [t3, hmem]
    cases f v with
    | none => simp
    | some y => simp

/-- Over any sequence of calls on a new extractor no call fails, and each call returns exactly the
values that its particles have and that the particles of no earlier call had, each once. -/
theorem C59_each_value_once {w : Nat} (hw : 0 < w) (calls : List UnseenCall)
    (hok : ∀ x ∈ calls, UnseenOk w x) :
    ∃ outs, unseenCalls w calls (BlockedTree.create Int) = some outs ∧ outs.length = calls.length ∧
      ∀ (i : Nat) (x : UnseenCall) (out : List Int), calls[i]? = some x → outs[i]? = some out →
        out.Nodup ∧ ∀ v, v ∈ out ↔ HasValue x v ∧
          ∀ (j : Nat) (y : UnseenCall), j < i → calls[j]? = some y → ¬ HasValue y v := by
  suffices h : ∀ (calls : List UnseenCall), (∀ x ∈ calls, UnseenOk w x) → ∀ (t : BlockedTree Int)
      (f : Int → Option Int), TreeOk w t f →
      ∃ outs, unseenCalls w calls t = some outs ∧ outs.length = calls.length ∧
        ∀ (i : Nat) (x : UnseenCall) (out : List Int), calls[i]? = some x → outs[i]? = some out →
          out.Nodup ∧ ∀ v, v ∈ out ↔ HasValue x v ∧ f v = none ∧
            ∀ (j : Nat) (y : UnseenCall), j < i → calls[j]? = some y → ¬ HasValue y v by
    obtain ⟨outs, h1, h2, h3⟩ := h calls hok _ _ (TreeOk.create w)
    refine ⟨outs, h1, h2, fun i x out hx hout => ?_⟩
    obtain ⟨h4, h5⟩ := h3 i x out hx hout
    refine ⟨h4, fun v => ?_⟩
    rw [h5]
    simp
  intro calls
  induction calls with
  | nil => intro _ t f _; exact ⟨[], rfl, rfl, by simp⟩
  | cons x xs ih =>
    intro hok t f ht
    obtain ⟨out, t', f', a1, a2, a3, a4, a5⟩ := unseenExtract_spec hw (hok x (by simp)) ht
    obtain ⟨outs, b1, b2, b3⟩ := ih (fun y hy => hok y (by simp [hy])) t' f' a2
    refine ⟨out :: outs, ?_, by simp [b2], ?_⟩
    · show ((unseenExtract w x t).bind fun r => (unseenCalls w xs r.2).bind fun outs =>
        some (r.1 :: outs)) = _
      rw [a1, Option.bind_some]
      dsimp only
      rw [b1, Option.bind_some]
    · intro i y o hy ho
      cases i with
      | zero =>
        obtain rfl := Option.some.inj hy
        obtain rfl := Option.some.inj ho
        refine ⟨a3.imp (fun h => ne_of_lt h), fun v => ?_⟩
        rw [a4]
        simp
      | succ i =>
        obtain ⟨c1, c2⟩ := b3 i y o hy ho
        refine ⟨c1, fun v => ?_⟩
        rw [c2]
        have hn : f' v = none ↔ f v = none ∧ ¬ HasValue x v := by
          have := a5 v
          cases h1 : f' v <;> cases h2 : f v <;> simp_all
        rw [hn]
        constructor
        · rintro ⟨h1, ⟨h2, h3⟩, h4⟩
          refine ⟨h1, h2, fun j z hj hz => ?_⟩
          cases j with
          | zero => obtain rfl := Option.some.inj hz; exact h3
          | succ j => exact h4 j z (by omega) hz
        · rintro ⟨h1, h2, h3⟩
          exact ⟨h1, ⟨h2, h3 0 x (by omega) rfl⟩, fun j z hj hz => h3 (j + 1) z (by omega) hz⟩

/-- No value is returned by two calls. -/
theorem C59_never_again {w : Nat} (hw : 0 < w) (calls : List UnseenCall)
    (hok : ∀ x ∈ calls, UnseenOk w x) {outs : List (List Int)}
    (h : unseenCalls w calls (BlockedTree.create Int) = some outs) {i j : Nat} {a b : List Int} {v : Int}
    (hi : outs[i]? = some a) (hj : outs[j]? = some b) (hva : v ∈ a) (hvb : v ∈ b) : i = j := by
  obtain ⟨outs', h1, h2, h3⟩ := C59_each_value_once hw calls hok
  obtain rfl := Option.some.inj (h1.symm.trans h)
  have li : i < calls.length := by rw [← h2]; exact (List.getElem?_eq_some_iff.1 hi).1
  have lj : j < calls.length := by rw [← h2]; exact (List.getElem?_eq_some_iff.1 hj).1
  obtain ⟨-, e1⟩ := h3 i _ a (List.getElem?_eq_getElem li) hi
  obtain ⟨-, e2⟩ := h3 j _ b (List.getElem?_eq_getElem lj) hj
  rcases Nat.lt_trichotomy i j with hlt | heq | hlt
  · exact absurd ((e1 v).1 hva).1 (((e2 v).1 hvb).2 i _ hlt (List.getElem?_eq_getElem li))
  · exact heq
  · exact absurd ((e2 v).1 hvb).1 (((e1 v).1 hva).2 j _ hlt (List.getElem?_eq_getElem lj))

/-! ## Examples -/

namespace Ex

/-- A call on a group or sub group with 3, 0 and 2 particles. -/
def unseenCall (par : Parent) (val : Nat → Nat → Int) : UnseenCall where
  P := ⟨1024, 4, 1⟩
  order := Sched.reversed
  fresh := fun n => ⟨List.replicate n 77, by simp⟩
  over := 1
  garbage := fun _ => ⟨99, some 3, some 5, [true, true, true, true], [9, 9, 9, 9]⟩
  npart := subCounts
  par := par
  val := val

theorem unseenCall_ok (par : Parent) (hp : Built subCounts par) (val : Nat → Nat → Int) :
    UnseenOk 4 (unseenCall par val) :=
  ⟨hp, by show 0 < 1; decide, by show 1 < 2 ^ 31; decide, by show 0 < 4; decide,
    by show ∀ n ∈ subCounts, n < 2 ^ 31; decide, fun _ => ⟨rfl, rfl⟩⟩

/-- The sub group with layers 2 and 0 of cell 0 and layer 0 of cell 2, then the whole group, then
the whole group with other values. -/
def unseenList : List UnseenCall :=
  [unseenCall (.sub subSel) (fun c l => c + 5 * l), unseenCall .whole (fun c l => c + 5 * l),
    unseenCall .whole (fun c l => (l : Int) - c)]

end Ex

example : ∃ outs, unseenCalls 4 Ex.unseenList (BlockedTree.create Int) = some outs ∧
    outs.length = Ex.unseenList.length ∧
    ∀ (i : Nat) (x : UnseenCall) (out : List Int), Ex.unseenList[i]? = some x →
      outs[i]? = some out → out.Nodup ∧ ∀ v, v ∈ out ↔ HasValue x v ∧
        ∀ (j : Nat) (y : UnseenCall), j < i → Ex.unseenList[j]? = some y → ¬ HasValue y v :=
  C59_each_value_once (by decide) _ (by
    intro x hx
    simp only [Ex.unseenList, List.mem_cons, List.not_mem_nil, or_false] at hx
    rcases hx with rfl | rfl | rfl
    · exact Ex.unseenCall_ok _ Ex.subSel_built _
    · exact Ex.unseenCall_ok _ .whole _
    · exact Ex.unseenCall_ok _ .whole _)

example : unseenCalls 4 Ex.unseenList (BlockedTree.create Int) = some [[0, 2, 10], [5, 7], [-2, -1, 1]] := by
  decide +kernel

end NP
