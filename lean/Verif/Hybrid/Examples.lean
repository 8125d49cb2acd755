import Verif.Hybrid.PropsCell
import Verif.Mesh.ExamplesCart
import Verif.Move.Examples

/-! # A simulation on four ranks -/

set_option autoImplicit false

namespace NP.Ex

open NP NP.Spec

/-- Positions are multiples of one tenth. -/
def tenth (v : Int) : ℚ := v / 10

/-- The group on rank `r`, with six particles at places all over the mesh. -/
def hybridGroup (r : Nat) : Group where
  ncell := 6
  dats := [⟨0, 2, [3, 2, 0, 0, 0, 1], [4, 4, 4, 4, 4, 4], [3, 2, 0, 0, 0, 1], [3, 2, 0, 0, 0, 1]⟩,
    ⟨1, 1, [3, 2, 0, 0, 0, 1], [4, 4, 4, 4, 4, 4], [3, 2, 0, 0, 0, 1], [3, 2, 0, 0, 0, 1]⟩,
    ⟨2, 2, [3, 2, 0, 0, 0, 1], [4, 4, 4, 4, 4, 4], [3, 2, 0, 0, 0, 1], [3, 2, 0, 0, 0, 1]⟩,
    ⟨3, 1, [3, 2, 0, 0, 0, 1], [4, 4, 4, 4, 4, 4], [3, 2, 0, 0, 0, 1], [3, 2, 0, 0, 0, 1]⟩]
  posSym := 0
  rankSym := 2
  cellSym := 1
  mem := fun k => if k.row < 4 then
      some (if k.sym = 0 then
          (if k.comp = 0 then ((7 * k.cell + 5 * k.row + 3 * r) % 21 : Nat)
            else ((11 * k.cell + 13 * k.row + 7 * r) % 31 : Nat))
        else if k.sym = 1 then (k.cell : Int) else (100 * r + 10 * k.cell + k.row : Nat))
    else none
  hNpart := [3, 2, 0, 0, 0, 1]
  dNpart := [3, 2, 0, 0, 0, 1]
  npartEs := [0, 3, 5, 5, 5, 5]
  npartLocal := 6
  hint := 0
  version := 4

theorem hybridGroup_consistent (r : Nat) : Consistent (hybridGroup r) where
  len := rfl
  device := rfl
  es_len := rfl
  es := by
    intro c hc
    match c, hc with
    | 0, _ => rfl | 1, _ => rfl | 2, _ => rfl | 3, _ => rfl | 4, _ => rfl | 5, _ => rfl
  total := rfl
  nodup := by simp [hybridGroup]
  dats := by
    have key : ∀ s n, DatOk (hybridGroup r) ⟨s, n, [3, 2, 0, 0, 0, 1], [4, 4, 4, 4, 4, 4],
        [3, 2, 0, 0, 0, 1], [3, 2, 0, 0, 0, 1]⟩ := by
      intro s n
      refine ⟨⟨rfl, rfl, ?_, ?_⟩, rfl, rfl, ?_, fun _ => rfl⟩
      · intro c r a h1 h2
        match c with
        | 0 => simp at h1 h2; omega
        | 1 => simp at h1 h2; omega
        | 2 => simp at h1 h2; omega
        | 3 => simp at h1 h2; omega
        | 4 => simp at h1 h2; omega
        | 5 => simp at h1 h2; omega
        | c + 6 => simp at h1
      · intro c a j k h1 _ h3
        have : a = 4 := by
          match c with
          | 0 => simp at h1; omega
          | 1 => simp at h1; omega
          | 2 => simp at h1; omega
          | 3 => simp at h1; omega
          | 4 => simp at h1; omega
          | 5 => simp at h1; omega
          | c + 6 => simp at h1
        subst this
        simp only [hybridGroup]
        rw [if_pos h3]; rfl
      · intro c n r h1 h2
        simp only [hybridGroup] at h1 h2
        rw [h1] at h2
        simp only [Option.some.injEq] at h2
        omega
    intro d hd
    simp only [hybridGroup, List.mem_cons, List.not_mem_nil, or_false] at hd
    rcases hd with rfl | rfl | rfl | rfl <;> exact key _ _
  pos := by simp [hybridGroup]
  rank := by simp [hybridGroup]
  cell := ⟨⟨1, 1, [3, 2, 0, 0, 0, 1], [4, 4, 4, 4, 4, 4], [3, 2, 0, 0, 0, 1],
    [3, 2, 0, 0, 0, 1]⟩, by simp [hybridGroup], rfl, by decide⟩

theorem hybridGroup_lt {r c k : Nat} (hc : c < (hybridGroup r).ncell)
    (hk : k < count (hybridGroup r) c) : k < 4 := by
  match c, hc with
  | 0, _ => simp [count, hybridGroup] at hk; omega
  | 1, _ => simp [count, hybridGroup] at hk; omega
  | 2, _ => simp [count, hybridGroup] at hk
  | 3, _ => simp [count, hybridGroup] at hk
  | 4, _ => simp [count, hybridGroup] at hk
  | 5, _ => simp [count, hybridGroup] at hk; omega

theorem hybridGroup_ok (r : Nat) : HybridGroupOk cartMesh 1 tenth (hybridGroup r) where
  consistent := hybridGroup_consistent r
  cells := by show 0 < 6; decide
  pos := ⟨⟨0, 2, [3, 2, 0, 0, 0, 1], [4, 4, 4, 4, 4, 4], [3, 2, 0, 0, 0, 1],
    [3, 2, 0, 0, 0, 1]⟩, by simp [hybridGroup], rfl, by decide⟩
  rank := ⟨⟨2, 2, [3, 2, 0, 0, 0, 1], [4, 4, 4, 4, 4, 4], [3, 2, 0, 0, 0, 1],
    [3, 2, 0, 0, 0, 1]⟩, by simp [hybridGroup], rfl, by decide⟩
  rank_pos := by show (2 : Nat) ≠ 0; decide
  rank_cell := by show (2 : Nat) ≠ 1; decide
  cell_pos := by show (1 : Nat) ≠ 0; decide
  ids := by
    intro c k hc hk
    have := hybridGroup_lt hc hk
    refine ⟨(c : Int), ?_, by omega⟩
    simp [cellId, hybridGroup, this]
  inside := by
    intro c k hc hk
    have := hybridGroup_lt hc hk
    refine ⟨[tenth ((7 * c + 5 * k + 3 * r) % 21 : Nat),
      tenth ((11 * c + 13 * k + 7 * r) % 31 : Nat)], ?_, ?_⟩
    · simp [position, cartMesh, List.range_succ, hybridGroup, this]
    · have h1 : (7 * c + 5 * k + 3 * r) % 21 < 21 := Nat.mod_lt _ (by decide)
      have h2 : (11 * c + 13 * k + 7 * r) % 31 < 31 := Nat.mod_lt _ (by decide)
      generalize (7 * c + 5 * k + 3 * r) % 21 = a at *
      generalize (11 * c + 13 * k + 7 * r) % 31 = b at *
      have h1 : (a : ℚ) ≤ 20 := by exact_mod_cast Nat.le_of_lt_succ h1
      have h2 : (b : ℚ) ≤ 30 := by exact_mod_cast Nat.le_of_lt_succ h2
      have h3 : (0 : ℚ) ≤ a := Nat.cast_nonneg _
      have h4 : (0 : ℚ) ≤ b := Nat.cast_nonneg _
      intro d n x hn hx
      match d with
      | 0 =>
        simp [cartMesh] at hn hx
        subst hn hx
        simp only [tenth]
        push_cast
        constructor <;> linarith
      | 1 =>
        simp [cartMesh] at hn hx
        subst hn hx
        simp only [tenth]
        push_cast
        constructor <;> linarith
      | d + 2 => simp [cartMesh] at hn

theorem hybrid_ok : HybridOk cartMesh 1 tenth hybridGroup where
  group := fun r _ => hybridGroup_ok r
  comps := fun _ _ _ _ => rfl
  names := fun _ _ _ _ => ⟨rfl, rfl, rfl⟩
  small := by decide

theorem hybrid_cells : ∀ r, r < cartMesh.comm.dims.prod →
    HasOwnedCells cartMesh r (hybridGroup r) := by
  intro r hr
  have hr : r < 4 := hr
  match r, hr with
  | 0, _ => exact ⟨_, _, rfl, rfl, by decide +kernel⟩
  | 1, _ => exact ⟨_, _, rfl, rfl, by decide +kernel⟩
  | 2, _ => exact ⟨_, _, rfl, rfl, by decide +kernel⟩
  | 3, _ => exact ⟨_, _, rfl, rfl, by decide +kernel⟩

def hybridEnv : HybridEnv where
  reset := Sched.reversed
  map1 := Sched.inOrder
  map2 := Sched.reversed
  look := Sched.reversed
  bin := Sched.inOrder
  write := Sched.reversed
  cells := fun n => ⟨List.replicate n (9, 9), by simp⟩
  indices := fun n => ⟨List.replicate n (-3), by simp⟩
  glob := env
  loc := env

theorem hybridEnv_ok : HybridEnvOk hybridEnv := ⟨env_ok, env_ok⟩

def hybridComm : HybridComm where
  order := Sched.reversed
  arrive1 := fun _ => Sched.reversed
  arrive2 := fun _ => Sched.inOrder
  arrive3 := fun r => if r = 1 then Sched.reversed else Sched.inOrder
  arrive4 := fun _ => Sched.reversed
  aware := false
  globMap := fun _ => List.replicate 4 7
  locMap := fun _ => List.replicate 4 8

/-- The map of owners that the constructors on two nodes, with two ranks each, make. -/
theorem hybrid_map : ∃ map, OwnerMap cartMesh map := by
  obtain ⟨claims, hc⟩ := (C39_hierarchy_owner cartMesh cartMesh_valid (fun _ => Sched.reversed)
    Sched.inOrder [[0, 2], [1, 3]] ⟨List.replicate 2 (List.replicate 24 5), fun _ => []⟩
    ⟨by decide, by decide, by decide⟩ (by
      intro r
      show r ∈ [0, 2, 1, 3] ↔ r < 4
      simp
      omega) (fun _ _ => rfl) rfl (by
      intro x hx
      rw [List.eq_of_mem_replicate hx]
      rfl)).1
  obtain ⟨w', map, -, -, h⟩ := C72_owner_map cartMesh cartMesh_valid (fun _ => Sched.reversed)
    Sched.inOrder [[0, 2], [1, 3]] ⟨List.replicate 2 (List.replicate 24 5), fun _ => []⟩
    ⟨by decide, by decide, by decide⟩ (by
      intro r
      show r ∈ [0, 2, 1, 3] ↔ r < 4
      simp
      omega) (fun _ _ => rfl) rfl (by
      intro x hx
      rw [List.eq_of_mem_replicate hx]
      rfl) claims hc
  exact ⟨map, h⟩

/-- `hybrid_move` of the groups above. -/
example : ∃ map w out, OwnerMap cartMesh map ∧
    hybridSetup cartMesh map Sched.reversed (fun _ => Sched.inOrder)
      (fun _ => List.replicate 4 6) = some w ∧
    hybridMove cartMesh 1 tenth map w 1 hybridComm (fun _ => hybridEnv) hybridGroup = some out ∧
    (∀ r, r < 4 → ∃ g', out[r]? = some g' ∧ OnOwner cartMesh 1 tenth r g') ∧
    (out.flatMap (allBut isRank)).length = 24 := by
  obtain ⟨map, hmap⟩ := hybrid_map
  obtain ⟨w, hw⟩ := C72_setup cartMesh cartMesh_valid map hmap Sched.reversed
    (fun _ => Sched.inOrder) (fun _ => List.replicate 4 6) (fun _ _ => by simp; rfl)
  obtain ⟨out, h1, h2, h3, h4, -⟩ := C72_hybrid_move cartMesh cartMesh_valid 1 (by norm_num) tenth map
    hmap Sched.reversed (fun _ => Sched.inOrder) (fun _ => List.replicate 4 6)
    (fun _ _ => by simp; rfl) w hw 1 hybridComm (fun _ _ => ⟨rfl, rfl⟩) (fun _ => hybridEnv)
    (fun _ _ => hybridEnv_ok) hybridGroup hybrid_ok
  refine ⟨map, w, out, hmap, hw, h1, ?_, ?_⟩
  · intro r hr
    obtain ⟨g', q1, -, -, q2⟩ := h3 r hr
    exact ⟨g', q1, q2⟩
  · rw [h4.length_eq]; rfl

/-- A whole step, and then another one. -/
example : ∃ map w out out', OwnerMap cartMesh map ∧
    hybridSetup cartMesh map Sched.reversed (fun _ => Sched.inOrder)
      (fun _ => List.replicate 4 6) = some w ∧
    ((hybridMove cartMesh 1 tenth map w 1 hybridComm (fun _ => hybridEnv) hybridGroup).bind
      (cellMoveAll cartMesh 1 tenth (fun _ => env.loop) (fun _ => Sched.reversed) (fun _ => env)
        (fun _ => env))) = some out ∧
    ((hybridMove cartMesh 1 tenth map w 1 hybridComm (fun _ => hybridEnv)
      (fun r => out.getD r (hybridGroup r))).bind
      (cellMoveAll cartMesh 1 tenth (fun _ => env.loop) (fun _ => Sched.reversed) (fun _ => env)
        (fun _ => env))) = some out' ∧
    (out'.flatMap (allBut isRankOrCellId)).length = 24 := by
  obtain ⟨map, hmap⟩ := hybrid_map
  obtain ⟨w, hw⟩ := C72_setup cartMesh cartMesh_valid map hmap Sched.reversed
    (fun _ => Sched.inOrder) (fun _ => List.replicate 4 6) (fun _ _ => by simp; rfl)
  have step := fun g hg hc => C72_step cartMesh cartMesh_valid 1 (by norm_num) tenth map
    hmap Sched.reversed (fun _ => Sched.inOrder) (fun _ => List.replicate 4 6)
    (fun _ _ => by simp; rfl) w hw 1 hybridComm (fun _ _ => ⟨rfl, rfl⟩) (fun _ => hybridEnv)
    (fun _ _ => hybridEnv_ok) (fun _ => Sched.reversed) (fun _ => env) (fun _ => env) (fun _ => env)
    (fun _ _ => ⟨env_ok, env_ok, env_ok⟩) g hg hc
  obtain ⟨out, h1, h2, h3, h4, h5⟩ := step hybridGroup hybrid_ok hybrid_cells
  obtain ⟨out', k1, -, -, k4, -⟩ := step _ h5 (by
    intro r hr
    obtain ⟨b, cells, q1, q2, q3⟩ := hybrid_cells r hr
    obtain ⟨g', q4, q5, -⟩ := h3 r hr
    refine ⟨b, cells, q1, q2, ?_⟩
    rw [List.getD_eq_getElem?_getD, q4]
    exact q5.ncell.trans q3)
  refine ⟨map, w, out, out', hmap, hw, h1, k1, ?_⟩
  have e1 : ((List.range cartMesh.comm.dims.prod).flatMap fun r =>
      allBut isRankOrCellId (out.getD r (hybridGroup r))) = out.flatMap (allBut isRankOrCellId) := by
    have : out = (List.range cartMesh.comm.dims.prod).map fun r => out.getD r (hybridGroup r) := by
      apply List.ext_getElem?
      intro r
      by_cases hr : r < cartMesh.comm.dims.prod
      · simp [hr, h2]
      · rw [List.getElem?_eq_none (by omega), List.getElem?_eq_none (by simp; omega)]
    conv_rhs => rw [this]
    rw [List.flatMap_map]
  rw [k4.length_eq, e1, h4.length_eq]
  rfl

end NP.Ex
