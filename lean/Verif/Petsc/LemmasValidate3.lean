import Verif.Petsc.LemmasValidate2
import Verif.Comm.LemmasExchange

/-! Lemmas for the validation of halos: all ranks together. -/

set_option autoImplicit false

namespace NP

theorem mapM_congr_val {α β : Type} {f g : α → Option β} {l : List α}
    (h : ∀ x ∈ l, f x = g x) : l.mapM f = l.mapM g := by
  induction l with
  | nil => rfl
  | cons a l ih =>
    rw [List.mapM_cons, List.mapM_cons, h a List.mem_cons_self,
      ih fun x hx => h x (List.mem_cons_of_mem _ hx)]

theorem valPoints_true {fatal : Bool} {ints : List (Option Int)} {reals : List (Option ℚ)}
    {H : List ValPoint × LidMap} {v : Bool} :
    forLoop 0 H.1.length (valPoint fatal ints reals H) v = some true ↔ v = true ∧
      ∀ (h : Nat) (x : ValPoint), H.1[h]? = some x →
        valPoint fatal ints reals H h true = some true := by
  rw [forLoop_true_iff (C := fun h => valPoint fatal ints reals H h true = some true) (by
    intro i hi v
    rw [valPoint_true, valPoint_true]
    simp)]
  refine and_congr_right fun _ => ?_
  constructor
  · intro h i x hx
    exact h i (List.getElem?_eq_some_iff.1 hx).1
  · intro h i hi
    exact h i _ (List.getElem?_eq_getElem hi)

theorem getElem?_ownedNat {R : ValRank} {ranks : List ValRank} {r : Nat} (hR : ranks[r]? = some R)
    (hnum : R.numbers.length = R.points.length) {p g : Nat}
    (h : R.numbers[p]? = some (g : Int)) : Spec.OwnedBy ranks g r p :=
  ⟨R, hR, h, by omega, by have := (List.getElem?_eq_some_iff.1 h).1; omega⟩

/-- What `validate_halos` computes when the cells have at most four vertices. -/
theorem validateHalos_of_limits {ranks : List ValRank} (hw : Spec.ValWf ranks)
    (hl : Spec.AtMostFour ranks) (fatal : Bool) :
    ∃ np ints reals, ValAll ranks np ints reals ∧ validateHalos fatal ranks =
      (List.range ranks.length).mapM fun r => (ranks[r]?).bind fun R =>
        match R.halo with
        | none => some true
        | some H => forLoop 0 H.1.length (valPoint fatal ints reals H) true := by
  have hg1 : ranks.mapM valMaxGlobal = some (ranks.map fun R => (valMaxGlobal R).getD 0) := by
    refine mapM_of_forall ?_
    intro R hR
    obtain ⟨m, hm, _⟩ := valMaxGlobal_ge (hw.numbered R hR)
    rw [hm]; rfl
  have hg3 : ∀ S ∈ ranks, ∀ m, valMaxGlobal S = some m →
      m ∈ ranks.map fun R => (valMaxGlobal R).getD 0 := by
    intro S hS m hm
    exact List.mem_map.2 ⟨S, hS, by rw [hm]; rfl⟩
  generalize (ranks.map fun R => (valMaxGlobal R).getD 0) = gs at hg1 hg3
  have hnp : ∀ (g s p : Nat), Spec.OwnedBy ranks g s p → g < (gs.foldl max 0).toNat + 1 := by
    rintro g s p ⟨S, hS, hn, -, -⟩
    obtain ⟨m, hm, hge⟩ := valMaxGlobal_ge (hw.numbered S (List.mem_of_getElem? hS))
    have h2 := (foldl_max_ge_int gs 0).2 _ (hg3 S (List.mem_of_getElem? hS) m hm)
    have h3 := hge p g hn
    omega
  obtain ⟨ss, hs1, hs2, hs3⟩ := mapM_range_exists (n := ranks.length)
    (f := fun r => (ranks[r]?).bind (valLocal fatal ((gs.foldl max 0).toNat + 1) r))
    (R := fun r s => ∀ R, ranks[r]? = some R → s.valid = true ∧
      ValTables R r ((gs.foldl max 0).toNat + 1) s) (by
      intro r hr
      have hR := List.getElem?_eq_getElem hr
      have hm := List.mem_of_getElem? hR
      have hnum := hw.numbered _ hm
      obtain ⟨s, k1, k2, k3⟩ := valLocal_tables (fatal := fatal) (rank := r)
        (np := (gs.foldl max 0).toNat + 1) hnum (hw.cones _ hm)
        (by
          intro p p' g h1 h2
          exact (hw.owner g r p r p' (getElem?_ownedNat hR hnum h1)
            (getElem?_ownedNat hR hnum h2)).2)
        (fun p g h => hnp g r p (getElem?_ownedNat hR hnum h))
        (fun p g x h hx => hl g r p _ x (getElem?_ownedNat hR hnum h) hR hx)
      refine ⟨s, ?_, ?_⟩
      · rw [hR, Option.bind_some, k1]
      · intro R hR'
        rw [hR] at hR'
        obtain rfl := Option.some.inj hR'
        exact ⟨k2, k3⟩)
  have hall := valAll_of_tables (np := (gs.foldl max 0).toNat + 1) (ss := ss) hw hs2 hnp hl (by
    intro r R s hR hs
    obtain ⟨s', h1, h2⟩ := hs3 r (List.getElem?_eq_some_iff.1 hR).1
    rw [hs] at h1
    obtain rfl := Option.some.inj h1
    exact (h2 R hR).2)
  refine ⟨_, _, _, hall, ?_⟩
  unfold validateHalos
  rw [hg1, Option.bind_some]
  simp only
  rw [hs1, Option.bind_some]
  refine mapM_congr_val ?_
  intro r hr
  have hr := List.mem_range.1 hr
  obtain ⟨s, h1, h2⟩ := hs3 r hr
  have hR := List.getElem?_eq_getElem hr
  rw [hR, Option.bind_some, h1, Option.bind_some, Option.bind_some, (h2 _ hR).1]
  rfl

theorem valCheck_fatal {v c b : Bool} (h : valCheck true v c = some b) : b = v := by
  revert h
  cases v <;> cases c <;> cases b <;> decide

theorem valWrite_fatal {rank : Nat} {R : ValRank} {p : Nat} {s s' : ValState}
    (h : valWrite true rank R p s = some s') : s'.valid = s.valid := by
  unfold valWrite at h
  simp only [Option.bind_eq_some_iff] at h
  obtain ⟨g, hg, h⟩ := h
  split at h
  · simp only [Option.bind_eq_some_iff, Option.some.injEq] at h
    obtain ⟨x, hx, _, _, _, _, v, hv1, _, _, _, _, v', hv2, _, _, rfl⟩ := h
    rw [valCheck_fatal hv2, valCheck_fatal hv1]
  · rw [Option.some.inj h]

theorem valPoint_fatal {ints : List (Option Int)} {reals : List (Option ℚ)}
    {H : List ValPoint × LidMap} {h : Nat} {v b : Bool}
    (hh : valPoint true ints reals H h v = some b) : b = v := by
  unfold valPoint at hh
  simp only [Option.bind_eq_some_iff] at hh
  obtain ⟨e, he, x, hx, a, ha, v1, hv1, a', hb, v2, hv2, v3, hv3, v4, hv4, v5, hv5, same, hsame,
    hv6⟩ := hh
  have h4 : v4 = v3 := by
    split at hv4
    · obtain ⟨r, hr, hc⟩ := Option.bind_eq_some_iff.1 hv4
      exact valCheck_fatal hc
    · exact (Option.some.inj hv4).symm
  have h3 : v3 = v2 := by
    refine forLoop_partial (fun _ w => w = v2) ?_ rfl hv3
    intro i w w' hi hw hp
    simp only [Option.bind_eq_some_iff] at hw
    obtain ⟨_, _, _, _, _, _, hc⟩ := hw
    rw [valCheck_fatal hc, hp]
  rw [valCheck_fatal hv6, valCheck_fatal hv5, h4, h3, valCheck_fatal hv2, valCheck_fatal hv1]

end NP
