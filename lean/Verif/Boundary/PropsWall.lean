import Verif.Boundary.LemmasWallExit

/-!
# C68: where a trajectory leaves a Cartesian mesh
-/

set_option autoImplicit false

namespace NP

open Spec

theorem not_inside_two {e0 e1 y0 y1 : ℚ} {p : List ℚ} (h0 : p[0]? = some y0) (h1 : p[1]? = some y1) :
    InsideDomain [e0, e1] p ↔ ¬ ((y0 ≤ 0 ∨ e0 ≤ y0) ∨ (y1 ≤ 0 ∨ e1 ≤ y1)) := by
  constructor
  · intro h
    obtain ⟨x, hx, a, b⟩ := h 0 e0 rfl
    obtain ⟨x', hx', a', b'⟩ := h 1 e1 rfl
    rw [h0] at hx; rw [h1] at hx'
    cases hx; cases hx'
    rintro ((h | h) | (h | h)) <;> linarith
  · intro h i e he
    push Not at h
    rcases wall_two he with ⟨rfl, rfl⟩ | ⟨rfl, rfl⟩
    · exact ⟨y0, h0, h.1⟩
    · exact ⟨y1, h1, h.2⟩

theorem not_inside_three {e0 e1 e2 y0 y1 y2 : ℚ} {p : List ℚ} (h0 : p[0]? = some y0)
    (h1 : p[1]? = some y1) (h2 : p[2]? = some y2) :
    InsideDomain [e0, e1, e2] p ↔
      ¬ ((y0 ≤ 0 ∨ e0 ≤ y0) ∨ (y1 ≤ 0 ∨ e1 ≤ y1) ∨ (y2 ≤ 0 ∨ e2 ≤ y2)) := by
  constructor
  · intro h
    obtain ⟨x, hx, a, b⟩ := h 0 e0 rfl
    obtain ⟨x', hx', a', b'⟩ := h 1 e1 rfl
    obtain ⟨x'', hx'', a'', b''⟩ := h 2 e2 rfl
    rw [h0] at hx; rw [h1] at hx'; rw [h2] at hx''
    cases hx; cases hx'; cases hx''
    rintro ((h | h) | (h | h) | (h | h)) <;> linarith
  · intro h i e he
    push Not at h
    rcases wall_three he with ⟨rfl, rfl⟩ | ⟨rfl, rfl⟩ | ⟨rfl, rfl⟩
    · exact ⟨y0, h0, h.1⟩
    · exact ⟨y1, h1, h.2.1⟩
    · exact ⟨y2, h2, h.2.2⟩

theorem comps_get {ext p : List ℚ} (h : HasComps ext p) {i : Nat} (hi : i < ext.length) :
    ∃ y, p[i]? = some y :=
  ⟨_, List.getElem?_eq_getElem (lt_of_lt_of_le hi h)⟩

/-- **C68 (who leaves).** A particle is taken as leaving exactly if its position is not strictly
inside of the domain, for meshes of two and three dimensions. -/
theorem C68_departs (ext p : List ℚ) (hdim : ext.length = 2 ∨ ext.length = 3)
    (hp : HasComps ext p) :
    ∃ b, wallDeparts ext p = some b ∧ (b = true ↔ ¬ InsideDomain ext p) := by
  match ext, hdim with
  | [e0, e1], _ =>
    obtain ⟨y0, h0⟩ := comps_get hp (i := 0) (by simp)
    obtain ⟨y1, h1⟩ := comps_get hp (i := 1) (by simp)
    refine ⟨_, by simp only [wallDeparts, rd, h0, h1, Option.bind_some]; rfl, ?_⟩
    rw [not_inside_two h0 h1, not_not]
    simp [or_assoc]
  | [e0, e1, e2], _ =>
    obtain ⟨y0, h0⟩ := comps_get hp (i := 0) (by simp)
    obtain ⟨y1, h1⟩ := comps_get hp (i := 1) (by simp)
    obtain ⟨y2, h2⟩ := comps_get hp (i := 2) (by simp)
    refine ⟨_, by simp only [wallDeparts, rd, h0, h1, h2, Option.bind_some]; rfl, ?_⟩
    rw [not_inside_three h0 h1 h2, not_not]
    simp [or_assoc]

/-- **C68 (the exit).** For every mesh of two or three dimensions, every tolerance smaller than the
extents, every previous position strictly inside of the domain and every position which is not, an
intersection is found: the point and the side reported are where the path leaves the domain. -/
theorem C68_exit (ext : List ℚ) (tol : ℚ) (pos prev : List ℚ)
    (hdim : ext.length = 2 ∨ ext.length = 3) (ht : 0 ≤ tol) (hext : ∀ e ∈ ext, tol < e)
    (hprev : InsideDomain ext prev) (hpos : HasComps ext pos) (hout : ¬ InsideDomain ext pos) :
    ∃ q, ∃ f : Nat, wallHit ext tol pos prev = some (true, q, (f : Int)) ∧
      LeavesAt ext tol prev pos f q := by
  match ext, hdim with
  | [e0, e1], _ =>
    obtain ⟨y0, h0⟩ := comps_get hpos (i := 0) (by simp)
    obtain ⟨y1, h1⟩ := comps_get hpos (i := 1) (by simp)
    obtain ⟨x0, g0, a0, b0⟩ := hprev 0 e0 rfl
    obtain ⟨x1, g1, a1, b1⟩ := hprev 1 e1 rfl
    rw [not_inside_two h0 h1, not_not] at hout
    exact wallHit2_exit ht (hext e0 (by simp)) (hext e1 (by simp)) h0 h1 g0 g1 a0 b0 a1 b1 hout
  | [e0, e1, e2], _ =>
    obtain ⟨y0, h0⟩ := comps_get hpos (i := 0) (by simp)
    obtain ⟨y1, h1⟩ := comps_get hpos (i := 1) (by simp)
    obtain ⟨y2, h2⟩ := comps_get hpos (i := 2) (by simp)
    obtain ⟨x0, g0, a0, b0⟩ := hprev 0 e0 rfl
    obtain ⟨x1, g1, a1, b1⟩ := hprev 1 e1 rfl
    obtain ⟨x2, g2, a2, b2⟩ := hprev 2 e2 rfl
    rw [not_inside_three h0 h1 h2, not_not] at hout
    exact wallHit3_exit ht (hext e0 (by simp)) (hext e1 (by simp)) (hext e2 (by simp)) h0 h1 h2 g0 g1
      g2 a0 b0 a1 b1 a2 b2 hout

/-- **C68 (with tolerance zero the point is determined).** There is at most one point at which a
path leaves the domain; so what is reported is that point. -/
theorem C68_point_unique (ext a b p p' : List ℚ) (f f' : Nat) (ha : HasComps ext a)
    (hb : HasComps ext b) (h : LeavesAt ext 0 a b f p) (h' : LeavesAt ext 0 a b f' p') : p = p' := by
  obtain ⟨s, d, up, w, h0, h1, hs, hw, hlen, hp, hz, -⟩ := h
  obtain ⟨s', d', up', w', h0', h1', hs', hw', hlen', hp', hz', -⟩ := h'
  have key : ∀ {s s' : ℚ} {d : Nat} {up : Bool} {w : ℚ} {p p' : List ℚ}, 0 ≤ s → s < s' →
      ext[d]? = some w → p[d]? = some (if up then w else 0) →
      (∀ (i : Nat) e x y z, ext[i]? = some e → a[i]? = some x → b[i]? = some y → p[i]? = some z →
        z = x + s * (y - x) ∧ -0 ≤ z ∧ z ≤ e + 0 ∧
        ∀ s', 0 ≤ s' → s' < s → -0 < x + s' * (y - x) ∧ x + s' * (y - x) < e + 0) →
      (∀ (i : Nat) e x y z, ext[i]? = some e → a[i]? = some x → b[i]? = some y → p'[i]? = some z →
        z = x + s' * (y - x) ∧ -0 ≤ z ∧ z ≤ e + 0 ∧
        ∀ s, 0 ≤ s → s < s' → -0 < x + s * (y - x) ∧ x + s * (y - x) < e + 0) →
      p'.length = ext.length → False := by
    intro s s' d up w p p' h0 hlt hw hp hz hz' hl
    have hd : d < ext.length := (List.getElem?_eq_some_iff.1 hw).1
    obtain ⟨x, hx⟩ := comps_get ha hd
    obtain ⟨y, hy⟩ := comps_get hb hd
    obtain ⟨z', hz1⟩ : ∃ z', p'[d]? = some z' := ⟨_, List.getElem?_eq_getElem (by omega)⟩
    have e1 := (hz d w x y _ hw hx hy hp).1
    have e2 := (hz' d w x y z' hw hx hy hz1).2.2.2 s h0 hlt
    rw [← e1] at e2
    cases up <;> simp at e2
  have hss : s = s' := by
    rcases lt_trichotomy s s' with hlt | heq | hlt
    · exact (key h0 hlt hw hp hz hz' hlen').elim
    · exact heq
    · exact (key h0' hlt hw' hp' hz' hz hlen).elim
  subst hss
  refine List.ext_getElem? fun i => ?_
  by_cases hi : i < ext.length
  · obtain ⟨x, hx⟩ := comps_get ha hi
    obtain ⟨y, hy⟩ := comps_get hb hi
    have g1 : p[i]? = some p[i] := List.getElem?_eq_getElem (by omega)
    have g2 : p'[i]? = some p'[i] := List.getElem?_eq_getElem (by omega)
    have e1 := (hz i _ x y _ (List.getElem?_eq_getElem hi) hx hy g1).1
    have e2 := (hz' i _ x y _ (List.getElem?_eq_getElem hi) hx hy g2).1
    rw [g1, g2, e1, e2]
  · rw [List.getElem?_eq_none (by omega), List.getElem?_eq_none (by omega)]

/-- **C68 (violation: a start on a wall).** A particle which starts on the upper wall and leaves
through the lower wall of the other dimension is reported at its start, on the side of the upper
wall, although its path goes on inside of the domain. -/
theorem C68_start_on_wall :
    wallHit [1, 1] (1/100) [-1/2, 3/4] [1/2, 1] = some (true, [1/2, 1], 2) ∧
      ¬ LeavesAt [1, 1] (1/100) [1/2, 1] [-1/2, 3/4] 2 [1/2, 1] ∧
      LeavesAt [1, 1] (1/100) [1/2, 1] [-1/2, 3/4] 3 [0, 7/8] := by
  refine ⟨by decide +kernel, ?_, ?_⟩
  · rintro ⟨s, d, up, w, h0, h1, hs, hw, -, -, hz, ha⟩
    cases hs
    cases hw
    have e := (hz 1 1 1 (3/4) 1 rfl rfl rfl rfl).1
    have := ha 1 (3/4) rfl rfl (s + 1) (by linarith)
    simp only [if_true] at this
    linarith
  · refine ⟨1/2, 0, false, 1, by norm_num, by norm_num, rfl, rfl, rfl, rfl, ?_, ?_⟩
    · intro i e x y z he hx hy hz
      rcases wall_two he with ⟨rfl, rfl⟩ | ⟨rfl, rfl⟩ <;> cases hx <;> cases hy <;> cases hz
      · refine ⟨by norm_num, by norm_num, by norm_num, fun s' h h' => ⟨by linarith, by linarith⟩⟩
      · refine ⟨by norm_num, by norm_num, by norm_num, fun s' h h' => ⟨by linarith, by linarith⟩⟩
    · intro x y hx hy s' hs'
      cases hx; cases hy
      simp only [Bool.false_eq_true, if_false]; linarith

/-- **C68 (violation: along a wall).** For a particle which moves along a wall no intersection is
found, although the particle counts as leaving: the check that follows throws. -/
theorem C68_along_wall :
    wallDeparts [1, 1] [3/4, 0] = some true ∧
      (wallHit [1, 1] 0 [3/4, 0] [1/2, 0]).map (·.1) = some false := by
  constructor <;> decide +kernel

/-! ## Examples -/

namespace Ex

/-- The hypotheses of `C68_exit` hold for a particle which leaves a box through a corner region. -/
example : ∃ q, ∃ f : Nat, wallHit [2, 3, 4] (1/100) [5, -1, 9/2] [1, 1, 1] = some (true, q, (f : Int)) ∧
    LeavesAt [2, 3, 4] (1/100) [1, 1, 1] [5, -1, 9/2] f q := by
  refine C68_exit [2, 3, 4] (1/100) [5, -1, 9/2] [1, 1, 1] (Or.inr rfl) (by norm_num) (by
    intro e he
    simp only [List.mem_cons, List.not_mem_nil, or_false] at he
    rcases he with rfl | rfl | rfl <;> norm_num) ?_
    (by simp [HasComps]) ?_
  · rw [not_inside_three rfl rfl rfl]; norm_num
  · rw [not_inside_three rfl rfl rfl]; norm_num

example : wallHit [2, 3, 4] (1/100) [5, -1, 9/2] [1, 1, 1] = some (true, [2, 1/2, 15/8], 1) := by
  decide +kernel

example : wallHit [2, 3] 0 [-1, 4] [1, 1] = some (true, [0, 5/2], 3) := by decide +kernel

/-- Two ways to leave which give the same point. -/
example : LeavesAt [1, 1] 0 [1/2, 1/2] [3/2, 3/2] 1 [1, 1] ∧
    LeavesAt [1, 1] 0 [1/2, 1/2] [3/2, 3/2] 2 [1, 1] := by
  constructor
  · refine ⟨1/2, 0, true, 1, by norm_num, by norm_num, rfl, rfl, rfl, rfl, ?_, ?_⟩
    · intro i e x y z he hx hy hz
      rcases wall_two he with ⟨rfl, rfl⟩ | ⟨rfl, rfl⟩ <;> cases hx <;> cases hy <;> cases hz <;>
        refine ⟨by norm_num, by norm_num, by norm_num, fun s' h h' => ⟨by linarith, by linarith⟩⟩
    · intro x y hx hy s' hs'
      cases hx; cases hy
      simp only [if_true]; linarith
  · refine ⟨1/2, 1, true, 1, by norm_num, by norm_num, rfl, rfl, rfl, rfl, ?_, ?_⟩
    · intro i e x y z he hx hy hz
      rcases wall_two he with ⟨rfl, rfl⟩ | ⟨rfl, rfl⟩ <;> cases hx <;> cases hy <;> cases hz <;>
        refine ⟨by norm_num, by norm_num, by norm_num, fun s' h h' => ⟨by linarith, by linarith⟩⟩
    · intro x y hx hy s' hs'
      cases hx; cases hy
      simp only [if_true]; linarith

end Ex

end NP
