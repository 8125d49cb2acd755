import Verif.Boundary.SpecAdvection
import Verif.Boundary.LemmasRows
import Verif.Comm.LemmasExchange
import Mathlib.Tactic.Linarith
import Mathlib.Tactic.Ring
import Mathlib.Tactic.FieldSimp

/-!
# Initialisation by advection

Model: Boundary/ModelAdvection.lean. Specification: Boundary/SpecAdvection.lean.
-/

set_option autoImplicit false

namespace NP

open Spec

/-- A loop over the whole group maps all rows. -/
theorem rowLoop_whole {ρ : Type _} {P : LoopParams} (order : Sched) {rows : List (List ρ)}
    (h1 : 0 < P.localSize) (h2 : P.localSize < 2 ^ 31) (h3 : 0 < P.nbin)
    (h4 : ∀ cell ∈ rows, cell.length < 2 ^ 31) (kernel : Nat → Nat → ρ → Option ρ) (g : ρ → ρ)
    (hg : ∀ c k, ∀ r ∈ rows.flatten, kernel c k r = some (g r)) :
    rowLoop P order (rows.map List.length) .whole kernel rows = some (rows.map (List.map g)) := by
  have hok : RowLoopOk P (rows.map List.length) .whole := ⟨.whole, h1, h2, h3, by
    intro n hn
    obtain ⟨cell, hc, rfl⟩ := List.mem_map.1 hn
    exact h4 cell hc⟩
  have hmem : ∀ c l r, rowAt rows c l = some r → r ∈ rows.flatten := by
    intro c l r h
    obtain ⟨cell, a1, a2⟩ := rowAt_some h
    exact List.mem_flatten.2 ⟨cell, List.mem_of_getElem? a1, List.mem_of_getElem? a2⟩
  obtain ⟨rows', b1, b2, b3, b4⟩ := rowLoop_spec hok order (kernel := kernel) (rows := rows) rfl
    (fun c k l r _ hr => ⟨_, hg c k r (hmem c l r hr)⟩)
  rw [b1]
  congr 1
  unfold Shape at b2
  have hlen : rows'.length = rows.length := by simpa using congrArg List.length b2
  apply List.ext_getElem (by simp [hlen])
  intro c h5 h6
  have h6' : c < rows.length := by omega
  have hcl : rows'[c].length = rows[c].length := by
    have := congrArg (fun x => x[c]?) b2
    simpa [h5, h6'] using this
  rw [List.getElem_map]
  apply List.ext_getElem (by simpa using hcl)
  intro l h7 h8
  rw [List.getElem_map]
  have hl : l < rows[c].length := by omega
  have hr : rowAt rows c l = some rows[c][l] := by
    unfold rowAt; rw [List.getElem?_eq_getElem h6']; exact List.getElem?_eq_getElem hl
  obtain ⟨r', e1, e2⟩ := b3 c l l _ ⟨rfl, rows[c].length, by
    show (rows.map List.length)[c]? = _
    rw [List.getElem?_map, List.getElem?_eq_getElem h6']; rfl, hl⟩ hr
  rw [hg c l _ (hmem c l _ hr)] at e2
  unfold rowAt at e1
  rw [List.getElem?_eq_getElem h5] at e1
  have e3 : rows'[c][l]? = some r' := e1
  rw [List.getElem?_eq_getElem h7] at e3
  rw [Option.some.inj e3, ← Option.some.inj e2]


theorem onRanks_map {f : Nat → List (List AdvRow) → Option (List (List AdvRow))} {w : AdvWorld}
    {g : Nat → AdvRow → AdvRow}
    (h : ∀ r rows, w[r]? = some rows → f r rows = some (rows.map (List.map (g r)))) :
    onRanks f w = some (w.zipIdx.map fun x => x.1.map (List.map (g x.2))) := by
  unfold onRanks
  apply mapM_of_forall
  rintro ⟨rows, r⟩ hx
  rw [List.mem_zipIdx_iff_getElem?] at hx
  exact h r rows hx

theorem allRows_zipIdx (w : AdvWorld) (g : Nat → AdvRow → AdvRow) :
    allRows (w.zipIdx.map fun x => x.1.map (List.map (g x.2))) =
      w.zipIdx.flatMap fun x => x.1.flatten.map (g x.2) := by
  unfold allRows
  rw [List.flatMap_map]
  congr 1
  funext x
  rw [List.map_flatten]

theorem flatMap_zipIdx_fst {α β : Type _} (w : List α) (g : α → List β) (n : Nat) :
    (w.zipIdx n).flatMap (fun x => g x.1) = w.flatMap g := by
  induction w generalizing n with
  | nil => rfl
  | cons x w ih => simp [ih]

theorem mem_allRows {w : AdvWorld} {r : Nat} {rows : List (List AdvRow)} (h : w[r]? = some rows)
    {x : AdvRow} (hx : x ∈ rows.flatten) : x ∈ allRows w :=
  List.mem_flatMap.2 ⟨rows, List.mem_of_getElem? h, hx⟩

theorem cell_le {w : AdvWorld} {r : Nat} {rows : List (List AdvRow)} (h : w[r]? = some rows)
    {cell : List AdvRow} (hc : cell ∈ rows) : cell.length ≤ (allRows w).length := by
  have h1 : List.Sublist cell rows.flatten := List.sublist_flatten_of_mem hc
  have h2 : List.Sublist rows.flatten (allRows w) := by
    unfold allRows
    rw [List.flatMap_def]
    exact List.sublist_flatten_of_mem (List.mem_map.2 ⟨rows, List.mem_of_getElem? h, rfl⟩)
  exact (h1.trans h2).length_le

theorem zip_rat {a b : List ℚ} (h : a.length = b.length) :
    ∃ z : List (ℚ × ℚ), a = z.map Prod.fst ∧ b = z.map Prod.snd :=
  ⟨a.zip b, (List.map_fst_zip (by omega)).symm, (List.map_snd_zip (by omega)).symm⟩

theorem zipWith_map_maps {α β γ δ : Type _} (f : β → γ → δ) (g : α → β) (h : α → γ) (z : List α) :
    List.zipWith f (z.map g) (z.map h) = z.map fun x => f (g x) (h x) := by
  induction z with
  | nil => rfl
  | cons x z ih => simp [ih]

/-- One step of the way. -/
theorem advPoint_step {s o : List ℚ} (h : s.length = o.length) (t inv : ℚ) :
    List.zipWith (fun p o => let offset := o - p; p + inv * offset) (advPoint s o t) o =
      advPoint s o (t + inv * (1 - t)) := by
  obtain ⟨z, rfl, rfl⟩ := zip_rat h
  unfold advPoint
  rw [zipWith_map_maps, zipWith_map_maps, zipWith_map_maps]
  apply List.map_congr_left
  intro x _
  ring

theorem advPoint_zero {s o : List ℚ} (h : s.length = o.length) : advPoint s o 0 = s := by
  obtain ⟨z, rfl, rfl⟩ := zip_rat h
  unfold advPoint
  rw [zipWith_map_maps]
  apply List.map_congr_left
  intro x _
  ring

theorem advPoint_one {s o : List ℚ} (h : s.length = o.length) : advPoint s o 1 = o := by
  obtain ⟨z, rfl, rfl⟩ := zip_rat h
  unfold advPoint
  rw [zipWith_map_maps]
  apply List.map_congr_left
  intro x _
  ring

theorem mem_allAt {point : Nat → List ℚ} {w : AdvWorld} {t : ℚ} {x : AdvRow} (h : x ∈ allAt point w t) :
    ∃ r rows y, w[r]? = some rows ∧ y ∈ rows.flatten ∧ x.orig = y.pos ∧
      x.pos = advPoint ((point r).take y.pos.length) y.pos t := by
  obtain ⟨⟨rows, r⟩, h1, h2⟩ := List.mem_flatMap.1 h
  obtain ⟨y, h3, rfl⟩ := List.mem_map.1 h2
  exact ⟨r, rows, y, (List.mem_zipIdx_iff_getElem?).1 h1, h3, rfl, rfl⟩

/-- The store on all ranks. -/
theorem advStore_all {e : AdvEnv} {w : AdvWorld} (h : AdvOk e w) :
    ∃ w', onRanks (fun r => advStore (e.P r) (e.order r 0) (e.point r)) w = some w' ∧
      allRows w' = allAt e.point w 0 := by
  refine ⟨_, onRanks_map (g := fun r x => { x with pos := (e.point r).take x.pos.length, orig := x.pos })
    ?_, ?_⟩
  · intro r rows hr
    unfold advStore
    apply rowLoop_whole _ (h.localSize r) (h.localSizeInt r) (h.nbin r)
      (fun cell hc => Nat.lt_of_le_of_lt (cell_le hr hc) h.count)
    intro c k x hx
    rw [slice_eq_some (Nat.zero_le _) (h.point r rows hr x hx), Option.bind_some]
    simp
  · rw [allRows_zipIdx w (fun r x => { x with pos := (e.point r).take x.pos.length, orig := x.pos })]
    unfold allAt
    apply List.flatMap_congr
    rintro ⟨rows, r⟩ hx
    rw [List.mem_zipIdx_iff_getElem?] at hx
    apply List.map_congr_left
    intro x hx'
    have hp := h.point r rows hx x hx'
    dsimp only
    rw [advPoint_zero (by simp; exact hp)]

/-- The loop of steps: after `k` of `n` steps each particle is at `k / n` of its way. -/
theorem advSteps_all {e : AdvEnv} {w w1 : AdvWorld} (h : AdvOk e w) {n k : Nat} (hk : k ≤ n)
    (h1 : allRows w1 = allAt e.point w 0) :
    ∃ w', advSteps e n k w1 = some w' ∧ (allRows w').Perm (allAt e.point w ((k : ℚ) / n)) := by
  have hlen : ∀ t, (allAt e.point w t).length = (allRows w).length := by
    intro t
    unfold allAt allRows
    rw [← flatMap_zipIdx_fst w List.flatten 0]
    simp only [List.length_flatMap, List.length_map]
  obtain ⟨w', a1, a2⟩ := forLoop_invariant (a := 0) (b := k) (s := w1)
    (step := fun stepx w => (onRanks (fun r => advStep (e.P r) (e.order r stepx) n stepx) w).bind
      (e.move stepx))
    (P := fun i v => (allRows v).Perm (allAt e.point w ((i : ℚ) / n))) (Nat.zero_le _)
    (by
      rintro i v - hi hv
      have hin : (i : ℚ) < n := by exact_mod_cast (by omega : i < n)
      have hn0 : (0 : ℚ) < n := lt_of_le_of_lt (by positivity) hin
      have hleft : (n : ℚ) - i ≠ 0 := ne_of_gt (sub_pos.2 hin)
      set g : AdvRow → AdvRow := fun x => { x with
        pos := List.zipWith (fun p o => let offset := o - p; p + 1 / ((n : ℚ) - i) * offset) x.pos x.orig } with hg
      have hmap : onRanks (fun r => advStep (e.P r) (e.order r i) n i) v =
          some (v.zipIdx.map fun x => x.1.map (List.map g)) := by
        apply onRanks_map (g := fun _ => g)
        intro r rows hr
        unfold advStep
        dsimp only
        rw [if_neg hleft]
        apply rowLoop_whole _ (h.localSize r) (h.localSizeInt r) (h.nbin r)
        · intro cell hc
          have := cell_le hr hc
          rw [hv.length_eq, hlen] at this
          exact Nat.lt_of_le_of_lt this h.count
        · intro c k x _
          rfl
      obtain ⟨v', m1, m2⟩ := h.moves i (v.zipIdx.map fun x => x.1.map (List.map g))
      refine ⟨v', by rw [hmap, Option.bind_some, m1], m2.trans ?_⟩
      rw [allRows_zipIdx v (fun _ => g)]
      have e1 : (v.zipIdx.flatMap fun x => x.1.flatten.map g) = (allRows v).map g := by
        rw [flatMap_zipIdx_fst v (fun y => y.flatten.map g)]
        unfold allRows
        rw [List.map_flatMap]
      rw [e1]
      refine (hv.map g).trans (List.Perm.of_eq ?_)
      unfold allAt
      rw [List.map_flatMap]
      apply List.flatMap_congr
      rintro ⟨rows, r⟩ hx
      rw [List.mem_zipIdx_iff_getElem?] at hx
      rw [List.map_map]
      apply List.map_congr_left
      intro x hx'
      have hp := h.point r rows hx x hx'
      simp only [Function.comp_apply, hg]
      have ht : (i : ℚ) / n + 1 / ((n : ℚ) - i) * (1 - (i : ℚ) / n) = ((i + 1 : Nat) : ℚ) / n := by
        push_cast
        field_simp
      rw [advPoint_step (by simp; exact hp), ht])
    (by
      rw [h1]
      simp)
  exact ⟨w', a1, a2⟩

/-- After the first `k` of `n` steps (and the moves between ranks) the particles are those of the
user, each at the part `k / n` of the straight way from the point of its rank to its position. -/
theorem C64_on_the_way {e : AdvEnv} {w : AdvWorld} (h : AdvOk e w) {n k : Nat} (hk : k ≤ n) :
    ∃ w1 w2, onRanks (fun r => advStore (e.P r) (e.order r 0) (e.point r)) w = some w1 ∧
      advSteps e n k w1 = some w2 ∧ (allRows w2).Perm (allAt e.point w ((k : ℚ) / n)) ∧
      0 ≤ (k : ℚ) / n ∧ (k : ℚ) / n ≤ 1 := by
  obtain ⟨w1, a1, a2⟩ := advStore_all h
  obtain ⟨w2, b1, b2⟩ := advSteps_all h hk a2
  refine ⟨w1, w2, a1, b1, b2, by positivity, ?_⟩
  apply div_le_one_of_le₀ _ (by positivity)
  exact_mod_cast hk

/-- For at least one step the initialisation does not fail and gives all particles, on whatever rank
and cell, the positions and properties they were created with. -/
theorem C64_reaches {e : AdvEnv} {w : AdvWorld} (h : AdvOk e w) {n : Nat} (hn : 1 ≤ n) :
    ∃ w', advInit e n w = some w' ∧ (allRows w').Perm (allRows w) := by
  obtain ⟨w1, a1, a2⟩ := advStore_all h
  obtain ⟨w2, b1, b2⟩ := advSteps_all h (Nat.le_refl n) a2
  have hn0 : (n : ℚ) ≠ 0 := by exact_mod_cast (by omega : n ≠ 0)
  rw [div_self hn0] at b2
  have hlen : (allAt e.point w 1).length = (allRows w).length := by
    unfold allAt allRows
    rw [← flatMap_zipIdx_fst w List.flatten 0]
    simp only [List.length_flatMap, List.length_map]
  have hpos : ∀ x ∈ allRows w2, x.pos = x.orig := by
    intro x hx
    obtain ⟨r, rows, y, c1, c2, c3, c4⟩ := mem_allAt (b2.mem_iff.1 hx)
    rw [c4, c3, advPoint_one (by simp; exact h.point r rows c1 y c2)]
  have hmap : onRanks (fun r => advRestore (e.P r) (e.order r n)) w2 =
      some (w2.zipIdx.map fun x => x.1.map (List.map fun y => { y with pos := y.orig, orig := [] })) := by
    apply onRanks_map (g := fun _ y => { y with pos := y.orig, orig := [] })
    intro r rows hr
    unfold advRestore
    rw [if_pos]
    · apply rowLoop_whole _ (h.localSize r) (h.localSizeInt r) (h.nbin r)
      · intro cell hc
        have := cell_le hr hc
        rw [b2.length_eq, hlen] at this
        exact Nat.lt_of_le_of_lt this h.count
      · intro c k x _
        rfl
    · rw [List.all_eq_true]
      intro x hx
      rw [hpos x (mem_allRows hr hx)]
      rw [List.all_eq_true]
      intro y hy
      have : List.zipWith advValid x.orig x.orig = x.orig.map fun o => advValid o o := by
        have := zipWith_map_maps advValid (fun z => z) (fun z => z) x.orig
        simpa using this
      rw [this] at hy
      obtain ⟨o, -, rfl⟩ := List.mem_map.1 hy
      simp [advValid]
  obtain ⟨w3, m1, m2⟩ := h.moves n (w2.zipIdx.map fun x => x.1.map
    (List.map fun y => { y with pos := y.orig, orig := [] }))
  refine ⟨w3, ?_, m2.trans ?_⟩
  · unfold advInit
    rw [a1, Option.bind_some, b1, Option.bind_some, hmap, Option.bind_some, m1]
  · rw [allRows_zipIdx w2 (fun _ y => { y with pos := y.orig, orig := [] })]
    generalize hg : (fun y : AdvRow => ({ y with pos := y.orig, orig := [] } : AdvRow)) = g
    have e1 : (w2.zipIdx.flatMap fun x => x.1.flatten.map g) = (allRows w2).map g := by
      rw [flatMap_zipIdx_fst w2 (fun z => z.flatten.map g)]
      unfold allRows
      rw [List.map_flatMap]
    rw [e1]
    refine (b2.map _).trans (List.Perm.of_eq ?_)
    unfold allAt
    rw [List.map_flatMap]
    have e2 : allRows w = w.zipIdx.flatMap fun x => x.1.flatten := (flatMap_zipIdx_fst w List.flatten 0).symm
    rw [e2]
    apply List.flatMap_congr
    rintro ⟨rows, r⟩ hx
    rw [List.mem_zipIdx_iff_getElem?] at hx
    rw [List.map_map]
    conv_rhs => rw [← List.map_id rows.flatten]
    apply List.map_congr_left
    intro x hx'
    have := h.fresh x (mem_allRows hx hx')
    cases x
    rw [← hg]
    simp only [Function.comp_apply, id]
    rw [← this]

/-! ## Examples -/

namespace Ex

/-- Two ranks; `hybrid_move` puts all particles in one cell of the second rank, reversed. -/
def advEnv : AdvEnv where
  P := fun _ => ⟨1024, 4, 1⟩
  order := fun _ _ => Sched.reversed
  point := fun r => [r, 1, 0]
  move := fun _ w => some [[], [(Spec.allRows w).reverse]]

def advWorld : AdvWorld :=
  [[[⟨[5, 6], [], 10⟩, ⟨[-1, 1 / 3], [], 11⟩], []], [[], [⟨[2, 9], [], 12⟩]]]

theorem adv_ok : AdvOk advEnv advWorld where
  localSize := fun _ => by show 0 < 1; decide
  localSizeInt := fun _ => by show 1 < 2 ^ 31; decide
  nbin := fun _ => by show 0 < 4; decide
  count := by decide
  moves := fun _ w => ⟨_, rfl, by simp [allRows]⟩
  point := by
    intro r rows h
    have hl : (advEnv.point r).length = 3 := rfl
    have := List.mem_of_getElem? h
    simp only [advWorld, List.mem_cons, List.not_mem_nil, or_false] at this
    rcases this with rfl | rfl <;> simp [hl]
  fresh := by decide

end Ex

example : ∃ w', advInit Ex.advEnv 7 Ex.advWorld = some w' ∧ (allRows w').Perm (allRows Ex.advWorld) :=
  C64_reaches Ex.adv_ok (by decide)

example : ∃ w1 w2, onRanks (fun r => advStore (Ex.advEnv.P r) (Ex.advEnv.order r 0) (Ex.advEnv.point r))
      Ex.advWorld = some w1 ∧ advSteps Ex.advEnv 7 3 w1 = some w2 ∧
      (allRows w2).Perm (allAt Ex.advEnv.point Ex.advWorld (((3 : Nat) : ℚ) / ((7 : Nat) : ℚ))) ∧
      0 ≤ ((3 : Nat) : ℚ) / ((7 : Nat) : ℚ) ∧ ((3 : Nat) : ℚ) / ((7 : Nat) : ℚ) ≤ 1 :=
  C64_on_the_way Ex.adv_ok (by decide)

/-- With no step the particles are far from their positions, and the call fails. -/
example : advInit Ex.advEnv 0 Ex.advWorld = none := by decide +kernel

end NP
