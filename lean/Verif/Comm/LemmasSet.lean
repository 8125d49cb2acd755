import Verif.Comm.LemmasMpi
import Verif.Comm.SpecSet
import Verif.Basics.Props

/-!
# The tree of `set_reduce_union`
-/

set_option autoImplicit false

namespace NP

open Spec

theorem mem_rankSetInsert (x y : Int) (l : List Int) : y ∈ rankSetInsert x l ↔ y = x ∨ y ∈ l := by
  induction l with
  | nil => simp [rankSetInsert]
  | cons z l ih =>
    unfold rankSetInsert
    split
    · simp
    · split
      · rename_i h; subst h; simp
      · simp only [List.mem_cons, ih]
        tauto

theorem isSet_rankSetInsert {x : Int} {l : List Int} (h : IsSet l) : IsSet (rankSetInsert x l) := by
  induction l with
  | nil => simp [rankSetInsert, IsSet]
  | cons z l ih =>
    have h' := List.pairwise_cons.1 h
    unfold rankSetInsert
    split
    · rename_i hx
      refine List.pairwise_cons.2 ⟨?_, h⟩
      intro a ha
      rcases List.mem_cons.1 ha with rfl | ha
      · exact hx
      · have := h'.1 a ha; omega
    · split
      · exact h
      · refine List.pairwise_cons.2 ⟨?_, ih h'.2⟩
        intro a ha
        rcases (mem_rankSetInsert _ _ _).1 ha with rfl | ha
        · omega
        · exact h'.1 a ha

theorem mem_rankSetInsertAll {y : Int} {l s : List Int} :
    y ∈ rankSetInsertAll s l ↔ y ∈ s ∨ y ∈ l := by
  induction l generalizing s with
  | nil => simp [rankSetInsertAll]
  | cons x l ih =>
    have : rankSetInsertAll s (x :: l) = rankSetInsertAll (rankSetInsert x s) l := rfl
    rw [this, ih, mem_rankSetInsert, List.mem_cons]
    tauto

theorem isSet_rankSetInsertAll {l s : List Int} (h : IsSet s) : IsSet (rankSetInsertAll s l) := by
  induction l generalizing s with
  | nil => exact h
  | cons x l ih => exact ih (isSet_rankSetInsert h)

theorem isSet_ext {s t : List Int} (hs : IsSet s) (ht : IsSet t) (h : ∀ x, x ∈ s ↔ x ∈ t) :
    s = t := by
  induction s generalizing t with
  | nil =>
    cases t with
    | nil => rfl
    | cons y t => exact absurd ((h y).2 (by simp)) (by simp)
  | cons x s ih =>
    cases t with
    | nil => exact absurd ((h x).1 (by simp)) (by simp)
    | cons y t =>
      have hs' := List.pairwise_cons.1 hs
      have ht' := List.pairwise_cons.1 ht
      have e : x = y := by
        rcases List.mem_cons.1 ((h x).1 (by simp)) with e | e
        · exact e
        rcases List.mem_cons.1 ((h y).2 (by simp)) with e' | e'
        · exact e'.symm
        have := hs'.1 y e'
        have := ht'.1 x e
        omega
      subst e
      congr 1
      refine ih hs'.2 ht'.2 fun z => ?_
      constructor
      · intro hz
        rcases List.mem_cons.1 ((h z).1 (List.mem_cons_of_mem _ hz)) with e | e
        · have := hs'.1 z hz; omega
        · exact e
      · intro hz
        rcases List.mem_cons.1 ((h z).2 (List.mem_cons_of_mem _ hz)) with e | e
        · have := ht'.1 z hz; omega
        · exact e

theorem rankSetInsertAll_self {s : List Int} (h : IsSet s) : rankSetInsertAll [] s = s :=
  isSet_ext (isSet_rankSetInsertAll List.Pairwise.nil) h fun x => by
    rw [mem_rankSetInsertAll]; simp

variable {R : Type}

open Function in
/-- A matching pair of `set_send` and `set_recv`. -/
theorem direct_transfer {s : Net SetMsg R} {a b tag : Nat} {w : List Int} (hw : IsSet w)
    {ka : Proc SetMsg R} {kb : List Int → Proc SetMsg R}
    (ha : s.proc a = setSend w b tag ka) (hb : s.proc b = setRecv a tag kb)
    (hc : s.chan a b tag = []) :
    Direct s ⟨update (update s.proc a ka) b (kb w), s.chan⟩ := by
  have hab : a ≠ b := by
    rintro rfl
    rw [ha] at hb
    simp [setSend, setRecv] at hb
  unfold setSend at ha
  unfold setRecv at hb
  refine .meet (Net.Meet.mk a b tag _ _ _ ha hb hc) ?_
  by_cases h : w.length = 0
  · obtain rfl := List.eq_nil_of_length_eq_zero h
    simp only [List.length_nil, ne_eq, not_true_eq_false, if_false]
    exact .refl _
  · rw [if_pos h]
    dsimp only
    rw [if_pos h]
    refine .meet (Net.Meet.mk a b tag (.data w) ka _ ?_ (Function.update_self ..) hc) ?_
    · simp only [Function.update_of_ne hab, Function.update_self]
    · simp only [if_true, rankSetInsertAll_self hw]
      rw [Function.update_comm hab, Function.update_idem, Function.update_comm hab.symm,
        Function.update_idem]
      exact .refl _

theorem Direct.of_eq {M : Type} {s t t' : Net M R} (h : Direct s t) (e : t = t') : Direct s t' :=
  e ▸ h

/-- Ranks `s, …, s + n - 1` send to ranks `0, …, n - 1`. -/
theorem direct_round {f : Nat → Proc SetMsg R} {s n : Nat} (hn : n ≤ s) {w : Nat → List Int}
    (hw : ∀ r, IsSet (w r)) {k : Nat → Proc SetMsg R} {g : Nat → List Int → Proc SetMsg R}
    (hs : ∀ j < n, f (j + s) = setSend (w (j + s)) j 0 (k (j + s)))
    (hr : ∀ j < n, f j = setRecv (j + s) 0 (g j)) :
    Direct ⟨f, fun _ _ _ => []⟩
      ⟨fun r => if r < n then g r (w (r + s)) else if s ≤ r ∧ r < s + n then k r else f r,
        fun _ _ _ => []⟩ := by
  induction n with
  | zero =>
    have : (fun r => if r < 0 then g r (w (r + s)) else if s ≤ r ∧ r < s + 0 then k r else f r)
        = f := by
      funext r
      rw [if_neg (by omega), if_neg (by omega)]
    rw [this]
    exact .refl _
  | succ n ih =>
    refine (ih (by omega) (fun j h => hs j (by omega)) (fun j h => hr j (by omega))).trans ?_
    refine (direct_transfer (hw (n + s)) (a := n + s) (b := n) (tag := 0)
      (ka := k (n + s)) (kb := g n) ?_ ?_ ?_).of_eq ?_
    rotate_left 3
    · congr 1
      funext r
      dsimp only
      by_cases e : r = n
      · subst e
        rw [Function.update_self, if_pos (by omega)]
      · rw [Function.update_of_ne e]
        by_cases e' : r = n + s
        · subst e'
          rw [Function.update_self, if_neg (by omega), if_pos (by omega)]
        · rw [Function.update_of_ne e']
          by_cases h1 : r < n
          · rw [if_pos h1, if_pos (by omega)]
          · rw [if_neg h1, if_neg (show ¬ r < n + 1 by omega)]
            by_cases h2 : s ≤ r ∧ r < s + n
            · rw [if_pos h2, if_pos (by omega)]
            · rw [if_neg h2, if_neg (by omega)]
    · simp only
      rw [if_neg (by omega), if_neg (by omega)]
      exact hs n (by omega)
    · simp only
      rw [if_neg (by omega), if_neg (by omega)]
      exact hr n (by omega)
    · rfl

/-- The ranks of a communicator and no messages. -/
def ranks (size : Nat) (f : Nat → Proc SetMsg (List Int)) : Net SetMsg (List Int) :=
  ⟨fun r => if r < size then f r else .done [], fun _ _ _ => []⟩

theorem ranks_congr {size : Nat} {f g : Nat → Proc SetMsg (List Int)}
    (h : ∀ r < size, f r = g r) : ranks size f = ranks size g := by
  unfold ranks
  congr 1
  funext r
  split
  · exact h r (by assumption)
  · rfl

theorem direct_tree {size : Nat} {k : Nat → List Int → Proc SetMsg (List Int)} (p : Nat) :
    ∀ {w : Nat → List Int}, 2 ^ (p + 1) ≤ size → (∀ r, IsSet (w r)) →
    ∃ w' : Nat → List Int, (∀ r, IsSet (w' r)) ∧ (∀ x, x ∈ w' 0 ↔ ∃ r < 2 ^ (p + 1), x ∈ w r) ∧
      Direct (ranks size fun r => reduceTree (2 ^ p) r (w r) (k r))
        (ranks size fun r => k r (w' r)) := by
  have step : ∀ (p : Nat) (w : Nat → List Int), 2 ^ (p + 1) ≤ size → (∀ r, IsSet (w r)) →
      Direct (ranks size fun r => reduceTree (2 ^ p) r (w r) (k r))
        (ranks size fun r => reduceTree (2 ^ p / 2) r
          (if r < 2 ^ p then rankSetInsertAll (w r) (w (r + 2 ^ p)) else w r) (k r)) := by
    intro p w hp hw
    have hpos : 0 < 2 ^ p := Nat.two_pow_pos p
    have h2 : 2 ^ (p + 1) = 2 * 2 ^ p := by rw [Nat.pow_succ, Nat.mul_comm]
    unfold ranks
    refine (direct_round (s := 2 ^ p) (n := 2 ^ p) (Nat.le_refl _) (w := w) hw
      (f := fun r => if r < size then reduceTree (2 ^ p) r (w r) (k r) else .done [])
      (k := fun r => reduceTree (2 ^ p / 2) r (w r) (k r))
      (g := fun r t => reduceTree (2 ^ p / 2) r (rankSetInsertAll (w r) t) (k r)) ?_ ?_).of_eq ?_
    rotate_left 2
    · congr 1
      funext r
      dsimp only
      by_cases h1 : r < 2 ^ p
      · rw [if_pos h1, if_pos (by omega), if_pos h1]
      · rw [if_neg h1]
        by_cases h3 : 2 ^ p ≤ r ∧ r < 2 ^ p + 2 ^ p
        · rw [if_pos h3, if_pos (by omega), if_neg h1]
        · rw [if_neg h3]
          by_cases h4 : r < size
          · rw [if_pos h4, if_pos h4, if_neg h1, reduceTree, dif_pos hpos, if_neg h1,
              if_neg (by omega)]
          · rw [if_neg h4, if_neg h4]
    · intro j hj
      rw [if_pos (by omega), reduceTree, dif_pos hpos, if_neg (by omega), if_pos (by omega),
        Nat.add_sub_cancel]
    · intro j hj
      rw [if_pos (by omega), reduceTree, dif_pos hpos, if_pos hj]
  induction p with
  | zero =>
    intro w hp hw
    refine ⟨fun r => if r < 2 ^ 0 then rankSetInsertAll (w r) (w (r + 2 ^ 0)) else w r, ?_, ?_, ?_⟩
    · intro r
      dsimp only
      split
      · exact isSet_rankSetInsertAll (hw r)
      · exact hw r
    · intro x
      dsimp only
      rw [if_pos (by simp), mem_rankSetInsertAll]
      constructor
      · rintro (h | h)
        · exact ⟨0, by simp, h⟩
        · exact ⟨1, by simp, h⟩
      · rintro ⟨r, hr, h⟩
        have : r = 0 ∨ r = 1 := by simp at hr; omega
        rcases this with rfl | rfl
        · exact .inl h
        · exact .inr h
    · refine (step 0 w hp hw).of_eq (ranks_congr fun r _ => ?_)
      rw [show (2 : Nat) ^ 0 / 2 = 0 from rfl, reduceTree, dif_neg (by omega)]
  | succ p ih =>
    intro w hp hw
    have h2 : 2 ^ (p + 1 + 1) = 2 * 2 ^ (p + 1) := by rw [Nat.pow_succ, Nat.mul_comm]
    have h3 : 2 ^ (p + 1) / 2 = 2 ^ p := by
      rw [Nat.pow_succ, Nat.mul_div_cancel _ (by omega)]
    obtain ⟨w', a1, a2, a3⟩ := ih (w := fun r => if r < 2 ^ (p + 1) then
      rankSetInsertAll (w r) (w (r + 2 ^ (p + 1))) else w r) (by omega) (by
        intro r
        split
        · exact isSet_rankSetInsertAll (hw r)
        · exact hw r)
    refine ⟨w', a1, ?_, ?_⟩
    · intro x
      rw [a2]
      constructor
      · rintro ⟨r, hr, h⟩
        rw [if_pos hr, mem_rankSetInsertAll] at h
        rcases h with h | h
        · exact ⟨r, by omega, h⟩
        · exact ⟨r + 2 ^ (p + 1), by omega, h⟩
      · rintro ⟨r, hr, h⟩
        by_cases hl : r < 2 ^ (p + 1)
        · exact ⟨r, hl, by rw [if_pos hl, mem_rankSetInsertAll]; exact .inl h⟩
        · refine ⟨r - 2 ^ (p + 1), by omega, ?_⟩
          rw [if_pos (by omega), mem_rankSetInsertAll, Nat.sub_add_cancel (by omega)]
          exact .inr h
    · have := step (p + 1) w hp hw
      rw [h3] at this
      exact this.trans a3

/-- The last message, to the root. -/
theorem direct_root {size root : Nat} (hr : root < size) {w : Nat → List Int}
    (hw : ∀ r, IsSet (w r)) :
    Direct (ranks size fun r => reduceRoot root r (w r))
      (ranks size fun r => .done (if r = root then w 0 else [])) := by
  by_cases h0 : root = 0
  · subst h0
    refine (Direct.refl _).of_eq (ranks_congr fun r _ => ?_)
    unfold reduceRoot
    simp only [ne_eq, not_true_eq_false, if_false]
    split
    · rename_i h; subst h; rfl
    · rfl
  · refine (direct_transfer (s := ranks size fun r => reduceRoot root r (w r))
      (a := 0) (b := root) (tag := 0) (w := w 0) (hw 0) (ka := .done []) (kb := .done) ?_ ?_
      rfl).of_eq ?_
    rotate_left 2
    · simp only [ranks]
      congr 1
      funext r
      by_cases e : r = root
      · subst e
        rw [Function.update_self, if_pos hr, if_pos rfl]
      · rw [Function.update_of_ne e]
        by_cases e' : r = 0
        · subst e'
          rw [Function.update_self, if_pos (by omega), if_neg e]
        · rw [Function.update_of_ne e']
          split
          · unfold reduceRoot
            simp only [ne_eq, h0, not_false_eq_true, if_true, e', e, if_false]
          · rfl
    · simp only [ranks]
      rw [if_pos (by omega)]
      simp only [reduceRoot, ne_eq, h0, not_false_eq_true, if_true, Ne.symm h0, if_false]
    · simp only [ranks]
      rw [if_pos hr]
      simp only [reduceRoot, ne_eq, h0, not_false_eq_true, if_true, if_false]

/-- The run without buffers of `set_reduce_union`. -/
theorem direct_reduce {size root : Nat} (h0 : 0 < size) (h1 : size < 2 ^ 31) (hr : root < size)
    {input : Nat → List Int} : ∃ u, IsUnionOf size input u ∧
      Direct (reduceNet size root input)
        (ranks size fun r => .done (if r = root then u else [])) := by
  by_cases e : size = 1
  · subst e
    obtain rfl : root = 0 := by omega
    refine ⟨rankSetInsertAll [] (input 0), ⟨isSet_rankSetInsertAll List.Pairwise.nil, fun x => ?_⟩, ?_⟩
    · rw [mem_rankSetInsertAll]
      constructor
      · rintro (h | h)
        · cases h
        · exact ⟨0, by omega, h⟩
      · rintro ⟨r, hr, h⟩
        obtain rfl : r = 0 := by omega
        exact .inr h
    · refine (Direct.refl _).of_eq (ranks_congr fun r hh => ?_)
      obtain rfl : r = 0 := by omega
      rw [if_pos rfl, reduceProc, if_pos rfl]
  -- the tree, from any assignment of sets
  have tree : ∀ (q : Nat) (w : Nat → List Int), 2 ^ (q + 1) ≤ size → (∀ r, IsSet (w r)) →
      (∀ x, (∃ r < 2 ^ (q + 1), x ∈ w r) ↔ ∃ r < size, x ∈ input r) →
      ∃ u, IsUnionOf size input u ∧
        Direct (ranks size fun r => reduceTree (2 ^ q) r (w r) (reduceRoot root r))
          (ranks size fun r => .done (if r = root then u else [])) := by
    intro q w hq hw hu
    obtain ⟨w', a1, a2, a3⟩ := direct_tree (size := size) (k := reduceRoot root) q hq hw
    exact ⟨w' 0, ⟨a1 0, fun x => (a2 x).trans (hu x)⟩, a3.trans (direct_root hr a1)⟩
  have base : ∀ r, IsSet (rankSetInsertAll [] (input r)) :=
    fun r => isSet_rankSetInsertAll List.Pairwise.nil
  by_cases hp : isPowerOfTwo size = true
  · obtain ⟨k, hk⟩ := (C06_is_power_of_two size).1 hp
    obtain ⟨q, rfl⟩ : ∃ q, k = q + 1 := by
      cases k with
      | zero => exact absurd hk e
      | succ q => exact ⟨q, rfl⟩
    obtain ⟨u, b1, b2⟩ := tree q (fun r => rankSetInsertAll [] (input r)) (Nat.le_of_eq hk.symm) base
      (fun x => by rw [← hk]; simp [mem_rankSetInsertAll])
    refine ⟨u, b1, ?_⟩
    have hq : size / 2 = 2 ^ q := by rw [hk, Nat.pow_succ, Nat.mul_div_cancel _ (by omega)]
    have : reduceNet size root input = ranks size fun r =>
        reduceTree (2 ^ q) r (rankSetInsertAll [] (input r)) (reduceRoot root r) :=
      ranks_congr fun r _ => by rw [reduceProc, if_neg e, if_pos hp, hq]
    rw [this]
    exact b2
  · obtain ⟨R, hR, ⟨⟨k, hk⟩, hle⟩, hmax⟩ := C06_prev_power_of_two size h0 h1
    have hlt : size < 2 * R := by
      refine Nat.lt_of_not_le fun h => ?_
      have := hmax (2 * R) ⟨⟨k + 1, by rw [hk, Nat.pow_succ, Nat.mul_comm]⟩, h⟩
      have : 0 < R := by rw [hk]; exact Nat.two_pow_pos k
      omega
    have hne : R ≠ size := by
      rintro rfl
      exact hp ((C06_is_power_of_two R).2 ⟨k, hk⟩)
    obtain ⟨q, rfl⟩ : ∃ q, k = q + 1 := by
      cases k with
      | zero =>
        simp at hk
        omega
      | succ q => exact ⟨q, rfl⟩
    obtain ⟨u, b1, b2⟩ := tree q (fun r => if r < size - R then
        rankSetInsertAll (rankSetInsertAll [] (input r)) (rankSetInsertAll [] (input (r + R)))
        else rankSetInsertAll [] (input r)) (by omega)
      (fun r => by
        split
        · exact isSet_rankSetInsertAll (base r)
        · exact base r)
      (fun x => by
        rw [← hk]
        constructor
        · rintro ⟨r, hr, h⟩
          split at h
          · simp only [mem_rankSetInsertAll, List.not_mem_nil, false_or] at h
            rcases h with h | h
            · exact ⟨r, by omega, h⟩
            · exact ⟨r + R, by omega, h⟩
          · simp only [mem_rankSetInsertAll, List.not_mem_nil, false_or] at h
            exact ⟨r, by omega, h⟩
        · rintro ⟨r, hr, h⟩
          by_cases hl : r < R
          · refine ⟨r, hl, ?_⟩
            split <;> simp [mem_rankSetInsertAll, h]
          · refine ⟨r - R, by omega, ?_⟩
            rw [if_pos (by omega), Nat.sub_add_cancel (by omega)]
            simp [mem_rankSetInsertAll, h])
    refine ⟨u, b1, Direct.trans ?_ b2⟩
    have hq : R / 2 = 2 ^ q := by rw [hk, Nat.pow_succ, Nat.mul_div_cancel _ (by omega)]
    refine (direct_round (s := R) (n := size - R) (by omega)
      (w := fun r => rankSetInsertAll [] (input r)) base
      (f := fun r => if r < size then reduceProc size root r (input r) else .done [])
      (k := fun r => reduceTree (2 ^ q) r (rankSetInsertAll [] (input r)) (reduceRoot root r))
      (g := fun r t => reduceTree (2 ^ q) r (rankSetInsertAll (rankSetInsertAll [] (input r)) t)
        (reduceRoot root r)) ?_ ?_).of_eq ?_
    rotate_left 2
    · unfold ranks
      congr 1
      funext r
      dsimp only
      by_cases g1 : r < size - R
      · rw [if_pos g1, if_pos (by omega), if_pos g1]
      · rw [if_neg g1]
        by_cases g2 : R ≤ r ∧ r < R + (size - R)
        · rw [if_pos g2, if_pos (by omega), if_neg g1]
        · rw [if_neg g2]
          by_cases g3 : r < size
          · rw [if_pos g3, if_pos g3, reduceProc, if_neg e, if_neg hp, hR]
            simp only
            rw [if_neg g1, if_neg (by omega), if_neg g1, hq]
          · rw [if_neg g3, if_neg g3]
    · intro j hj
      rw [if_pos (by omega), reduceProc, if_neg e, if_neg hp, hR]
      simp only
      rw [if_neg (by omega), if_pos (by omega), Nat.add_sub_cancel, hq]
    · intro j hj
      rw [if_pos (by omega), reduceProc, if_neg e, if_neg hp, hR]
      simp only
      rw [if_pos hj, Nat.add_comm R j, hq]

end NP
