import Verif.Mesh.ModelUniform
import Verif.Mesh.PropsCart

/-!
# Lemmas on uniform positions in cells
-/

set_option autoImplicit false

namespace NP

theorem uniformWithinExtents_next (gen : Nat → ℚ) (n k : Nat) (exs : List ℚ) :
    (uniformWithinExtents gen n k exs).2 = k + exs.length * n := by
  induction exs generalizing k with
  | nil => simp [uniformWithinExtents]
  | cons e exs ih => simp only [uniformWithinExtents, ih, List.length_cons]; ring

theorem pointInCell_spec (gen : Nat → ℚ) (w : ℚ) {n index : Nat} (hi : index < n) (t more : List Int) (k : Nat) :
    ∃ p, pointInCell w index (t ++ more) (uniformWithinExtents gen n k (List.replicate t.length w)).1 = some p ∧
      p.length = t.length ∧
      ∀ (d : Nat) (c : Int), t[d]? = some c → p[d]? = some (c * w + w * gen (k + d * n + index)) := by
  induction t generalizing k with
  | nil => cases more <;> exact ⟨[], rfl, rfl, by simp⟩
  | cons c t ih =>
    obtain ⟨p, h1, h2, h3⟩ := ih (k + n)
    refine ⟨(0 + c * w + w * gen (k + index)) :: p, ?_, by simp [h2], ?_⟩
    · simp [List.replicate_succ, uniformWithinExtents, pointInCell, h1, hi]
    · intro d c' hd
      cases d with
      | zero =>
        simp only [List.getElem?_cons_zero, Option.some.injEq] at hd ⊢
        subst hd
        simp
      | succ d =>
        simp only [List.getElem?_cons_succ] at hd ⊢
        rw [h3 d c' hd, show k + n + d * n + index = k + (d + 1) * n + index by ring]

theorem placeInCell_spec {P : Nat → List ℚ → Prop} {w : ℚ} {id : Int} {cell : List Int} {cols : List (List ℚ)}
    (count index : Nat)
    (h : ∀ j, index ≤ j → j < index + count → ∃ p, pointInCell w j cell cols = some p ∧ P j p) :
    ∃ ps, placeInCell w id cell cols index count = some ps ∧ ps.length = count ∧
      ∀ (i : Nat) q, ps[i]? = some q → q.1 = id ∧ P (index + i) q.2 := by
  induction count generalizing index with
  | zero => exact ⟨[], rfl, rfl, by simp⟩
  | succ c ih =>
    obtain ⟨p, h1, h2⟩ := h index (le_refl _) (by omega)
    obtain ⟨ps, i1, i2, i3⟩ := ih (index + 1) (fun j h1 h2 => h j (by omega) (by omega))
    refine ⟨(id, p) :: ps, by simp [placeInCell, h1, i1], by simp [i2], ?_⟩
    intro i q hq
    cases i with
    | zero =>
      simp only [List.getElem?_cons_zero, Option.some.injEq] at hq
      subst hq
      exact ⟨rfl, h2⟩
    | succ i =>
      have := i3 i q (by simpa using hq)
      rwa [show index + 1 + i = index + (i + 1) by omega] at this

theorem placeInCells_spec (gen : Nat → ℚ) (w : ℚ) (ndim n : Nat) (single : Bool) (cells : List (List Int))
    (hc : ∀ c ∈ cells, ∃ t more, c = t ++ more ∧ t.length = ndim) (cx k : Nat) :
    ∃ blocks : List (List (Int × List ℚ)), placeInCells gen w ndim n single cx k cells = some blocks.flatten ∧
      blocks.length = cells.length ∧
      ∀ (j : Nat) blk, blocks[j]? = some blk → blk.length = n ∧ ∀ (i : Nat) q, blk[i]? = some q →
        q.1 = (if single then 0 else ((cx + j : Nat) : Int)) ∧
        ∀ t more, cells[j]? = some (t ++ more) → t.length = ndim → q.2.length = ndim ∧
          ∀ (d : Nat) (c : Int), t[d]? = some c → q.2[d]? = some (c * w + w * gen (k + (j * ndim + d) * n + i)) := by
  induction cells generalizing cx k with
  | nil => exact ⟨[], rfl, rfl, by simp⟩
  | cons c cells ih =>
    obtain ⟨t, more, rfl, ht⟩ := hc _ List.mem_cons_self
    obtain ⟨ps, p1, p2, p3⟩ := placeInCell_spec (id := if single then 0 else (cx : Int))
      (P := fun i p => p.length = t.length ∧
        ∀ (d : Nat) (c : Int), t[d]? = some c → p[d]? = some (c * w + w * gen (k + d * n + i))) (w := w) (cell := t ++ more)
      (cols := (uniformWithinExtents gen n k (List.replicate ndim w)).1) n 0
      (fun j _ hj => by
        rw [← ht]
        exact pointInCell_spec gen w (by omega) t more k)
    obtain ⟨blocks, b1, b2, b3⟩ := ih (fun c h => hc c (List.mem_cons_of_mem _ h)) (cx + 1)
      (uniformWithinExtents gen n k (List.replicate ndim w)).2
    rw [uniformWithinExtents_next, List.length_replicate] at b3
    refine ⟨ps :: blocks, by simp [placeInCells, p1, b1], by simp [b2], ?_⟩
    intro j blk hj
    cases j with
    | zero =>
      simp only [List.getElem?_cons_zero, Option.some.injEq] at hj
      subst hj
      refine ⟨p2, fun i q hq => ⟨by simpa using (p3 i q hq).1, fun t' more' e ht' => ?_⟩⟩
      simp only [List.getElem?_cons_zero, Option.some.injEq] at e
      have := (List.append_inj e (by rw [ht, ht'])).1
      rw [← this]
      obtain ⟨-, s1, s2⟩ := p3 i q hq
      refine ⟨by rw [s1, ht], fun d c hd => ?_⟩
      rw [s2 d c hd]
      simp
    | succ j =>
      simp only [List.getElem?_cons_succ] at hj
      obtain ⟨q1, q2⟩ := b3 j blk hj
      refine ⟨q1, fun i q hq => ?_⟩
      obtain ⟨r1, r2⟩ := q2 i q hq
      refine ⟨by rw [r1, show cx + 1 + j = cx + (j + 1) by omega], fun t' more' e ht' => ?_⟩
      obtain ⟨s1, s2⟩ := r2 t' more' (by simpa using e) ht'
      refine ⟨s1, fun d c hd => ?_⟩
      rw [s2 d c hd, show k + ndim * n + (j * ndim + d) * n + i = k + ((j + 1) * ndim + d) * n + i by ring]

theorem forall2_of_getElem? {α β : Type} {R : α → β → Prop} (l : List α) (m : List β) (hl : m.length = l.length)
    (h : ∀ (d : Nat) a, l[d]? = some a → ∃ b, m[d]? = some b ∧ R a b) : List.Forall₂ R l m := by
  induction l generalizing m with
  | nil => cases m with
    | nil => exact .nil
    | cons _ _ => simp at hl
  | cons a l ih =>
    cases m with
    | nil => simp at hl
    | cons b m =>
      obtain ⟨b', h1, h2⟩ := h 0 a rfl
      simp only [List.getElem?_cons_zero, Option.some.injEq] at h1
      subst h1
      exact .cons h2 (ih m (by simpa using hl) fun d a hd => by simpa using h (d + 1) a (by simpa using hd))

end NP
