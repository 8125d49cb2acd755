import Verif.Boundary.PropsSurface

/-!
# C70: conservation, and the cases in which functions on a boundary go wrong
-/

set_option autoImplicit false

namespace NP

open Spec

variable {owned : List (List Int)} {before calls : List SurfCall} {mem : Nat → Fresh ℚ} {ops : List FuncOp}
  {ph : FuncPhase} {w : List SurfRank} {fs : List SurfFunc}

/-- The values of the particles of all ranks. -/
def Spec.partsTotal (parts : List (Option (List (Int × ℚ)))) : ℚ :=
  ((parts.flatMap fun ps => ps.getD []).map fun p => p.2).sum

theorem sum_single {L : List Int} (hnd : L.Nodup) {x : Int} (hx : x ∈ L) (v : ℚ) :
    (L.map fun face => if x = face then v else 0).sum = v := by
  induction L with
  | nil => cases hx
  | cons y L ih =>
    rw [List.nodup_cons] at hnd
    rw [List.map_cons, List.sum_cons]
    by_cases h : x = y
    · subst h
      rw [if_pos rfl]
      have : (L.map fun face => if x = face then v else 0) = L.map fun _ => 0 :=
        List.map_congr_left fun f hf => if_neg fun (he : x = f) => hnd.1 (he ▸ hf)
      rw [this]
      simp
    · rw [if_neg h, zero_add, ih hnd.2 (by rcases List.mem_cons.1 hx with hx | hx; exact absurd hx h; exact hx)]

theorem sum_faces {L : List Int} (hnd : L.Nodup) (ps : List (Int × ℚ)) (hps : ∀ p ∈ ps, p.1 ∈ L) :
    (L.map fun face => ((ps.filter fun p => p.1 = face).map fun p => p.2).sum).sum =
      (ps.map fun p => p.2).sum := by
  induction ps with
  | nil => simp
  | cons p ps ih =>
    have : ∀ face, (((p :: ps).filter fun p => p.1 = face).map fun p => p.2).sum =
        (if p.1 = face then p.2 else 0) + ((ps.filter fun p => p.1 = face).map fun p => p.2).sum := by
      intro face
      by_cases h : p.1 = face
      · rw [List.filter_cons_of_pos (by simpa using h), List.map_cons, List.sum_cons, if_pos h]
      · rw [List.filter_cons_of_neg (by simpa using h), if_neg h, zero_add]
    simp only [this]
    rw [List.sum_map_add, sum_single hnd (hps p (by simp)), ih fun q hq => hps q (by simp [hq]),
      List.map_cons, List.sum_cons]

/-- All values, from the value of each face. -/
theorem dofs_eq_map (ho : FacesOwned owned) {dofs : List (List ℚ)}
    (hd : dofs.map List.length = owned.map List.length) {val : Int → ℚ}
    (h : ∀ face ∈ owned.flatten, FaceDof owned dofs face (val face)) :
    dofs = owned.map fun faces => faces.map val := by
  apply List.ext_getElem?
  intro q
  have hq := congrArg (fun l => l[q]?) hd
  simp only [List.getElem?_map] at hq
  rw [List.getElem?_map]
  cases ho' : owned[q]? with
  | none =>
    rw [ho'] at hq
    cases hdq : dofs[q]? with
    | none => rfl
    | some d => rw [hdq] at hq; cases hq
  | some faces =>
    rw [ho'] at hq
    cases hdq : dofs[q]? with
    | none => rw [hdq] at hq; cases hq
    | some d =>
      rw [hdq] at hq
      have hl : d.length = faces.length := Option.some.inj hq
      rw [Option.map_some]
      congr 1
      apply List.ext_getElem?
      intro i
      rw [List.getElem?_map]
      by_cases hi : i < faces.length
      · have h1 : faces[i]? = some faces[i] := List.getElem?_eq_getElem hi
        have h2 : d[i]? = some (d[i]'(by omega)) := List.getElem?_eq_getElem (by omega)
        rw [h1, h2, Option.map_some]
        congr 1
        refine FaceDof.unique ho ⟨q, i, faces, d, ho', h1, hdq, h2⟩ (h faces[i] ?_)
        exact List.mem_flatten.2 ⟨faces, List.mem_of_getElem? ho', List.getElem_mem hi⟩
      · rw [List.getElem?_eq_none (by omega), List.getElem?_eq_none (by omega), Option.map_none]

/-- C70. After `function_project` the sum of the values of all faces is the scaled sum of the values of
all particles: nothing is lost and nothing is counted twice, whichever ranks particles and faces
are on. -/
theorem C70_conserved (ho : FacesOwned owned) (hb : ∀ c ∈ before, PairsOk owned c.pairs)
    (h : FuncHistory owned before ops calls ph) (hrun : funcRun owned before mem ops = some (w, fs))
    (e : FuncEnv) (inv : ℚ) {parts : List (Option (List (Int × ℚ)))} (hp : PartsOk owned calls parts) :
    ∃ fs', funcProject e inv parts w fs = some fs' ∧
      (fs'.map funcGet).flatten.sum = inv * partsTotal parts := by
  obtain ⟨fs', h1, h2, h3⟩ := C70_project ho hb h hrun e inv hp
  obtain ⟨W, F, g1, g2⟩ := funcHistory_inv (mem := mem) ho hb h
  refine ⟨fs', h1, ?_⟩
  rw [dofs_eq_map ho h2 h3, ← List.map_flatten, List.sum_map_mul_left]
  unfold partsTotal
  rw [← sum_faces ho]
  · rfl
  · intro p hpm
    obtain ⟨ps, hps, hpp⟩ := List.mem_flatMap.1 hpm
    obtain ⟨s, hs, hse⟩ := List.getElem_of_mem hps
    cases ps with
    | none => cases hpp
    | some ps =>
      obtain ⟨c, hc, prs, hprs, q, hq⟩ := hp.2 s ps (by rw [List.getElem?_eq_getElem hs, hse]) p hpp
      obtain ⟨faces, m1, m2⟩ := (g2.calls_ok c hc).2 prs (List.mem_of_getElem? hprs) _ hq
      exact List.mem_flatten.2 ⟨faces, List.mem_of_getElem? m1, m2⟩

/-- C70. The integral of the function, with faces of the size they have in two dimensions (`width`) and in
three (`width ^ 2`); the library scales with `1 / width` in both. In two dimensions it is the
sum of the values of the particles; in three it is too large or too small by the width of a cell. -/
theorem C70_integral (ho : FacesOwned owned) (hb : ∀ c ∈ before, PairsOk owned c.pairs)
    (h : FuncHistory owned before ops calls ph) (hrun : funcRun owned before mem ops = some (w, fs))
    (e : FuncEnv) {width : ℚ} (hw : width ≠ 0) {parts : List (Option (List (Int × ℚ)))}
    (hp : PartsOk owned calls parts) :
    ∃ fs', funcProject e (1 / width) parts w fs = some fs' ∧
      (fs'.map funcGet).flatten.sum * width = partsTotal parts ∧
      ((fs'.map funcGet).flatten.sum * width ^ 2 = partsTotal parts ↔ width = 1 ∨ partsTotal parts = 0) := by
  obtain ⟨fs', h1, h2⟩ := C70_conserved ho hb h hrun e (1 / width) hp
  have e1 : (fs'.map funcGet).flatten.sum * width = partsTotal parts := by
    rw [h2]; field_simp
  refine ⟨fs', h1, e1, ?_⟩
  rw [pow_two, ← mul_assoc, e1]
  constructor
  · intro hx
    by_cases hz : partsTotal parts = 0
    · exact Or.inr hz
    · left
      have : partsTotal parts * (width - 1) = 0 := by rw [mul_sub, hx]; simp
      rcases mul_eq_zero.1 this with hx | hx
      · exact absurd hx hz
      · exact sub_eq_zero.1 hx
  · rintro (hx | hx)
    · rw [hx, mul_one]
    · rw [hx, zero_mul]

/-- C70. `fill` is not described as collective. If it is called on one of several ranks after an
evaluation, the next evaluation does not complete. -/
theorem C70_fill_one_rank (ho : FacesOwned owned) (hb : ∀ c ∈ before, PairsOk owned c.pairs)
    (h : FuncHistory owned before ops calls .idle) (hrun : funcRun owned before mem ops = some (w, fs))
    (e e' : FuncEnv) (he : (e.aware || e.host) = true) {parts parts' : List (Option (List (Int × ℚ)))}
    (hp : PartsOk owned calls parts) {fs' : List SurfFunc} {outs : List (Option (List ℚ))}
    (hev : funcEvals e parts w fs = some (fs', outs)) {r s : Nat} (hr : r < owned.length)
    (hs : s < owned.length) (hne : r ≠ s) {f : SurfFunc} (hf : fs'[r]? = some f) (v : ℚ) :
    funcEvals e' parts' w (fs'.set r (funcFill v f)) = none := by
  obtain ⟨W, F, h1, h2⟩ := funcHistory_inv (mem := mem) ho hb h
  obtain ⟨rfl, rfl⟩ := tables_inj h1 hrun
  obtain ⟨F', outs', g1, g2, g3, -⟩ := funcEvals_spec ho h2 e he hp
  rw [g1] at hev
  obtain ⟨rfl, -⟩ := Prod.mk.inj (Option.some.inj hev)
  rw [get_table _ hr] at hf
  obtain rfl := Option.some.inj hf
  obtain ⟨iv, fv, vo⟩ := g2.versions
  have hset : ((List.range owned.length).map F').set r (funcFill v (F' r)) =
      (List.range owned.length).map fun i => if i = r then funcFill v (F' r) else F' i := by
    apply List.ext_getElem?
    intro i
    rw [List.getElem?_set]
    by_cases hi : i < owned.length
    · rw [get_table _ hi, get_table _ hi]
      by_cases hir : r = i
      · subst hir; simp [hr]
      · rw [if_neg hir, if_neg (Ne.symm hir)]
    · have hir : ¬ r = i := by omega
      rw [if_neg hir, List.getElem?_eq_none (by simp; omega), List.getElem?_eq_none (by simp; omega)]
  unfold funcEvals funcRefresh
  rw [hset, funcOnRanks_table (g := fun i => decide (i = r)) (fun i hi => by
    by_cases hir : i = r
    · rw [if_pos hir]
      have h0 : (funcFill v (F' r)).version < (W i).version := by
        rw [vo.rank i hi]
        exact vo.pos
      rw [decide_eq_true h0, decide_eq_true hir]
    · rw [if_neg hir, (g3 i hi).1]
      simp [hir]), Option.bind_some, if_neg, if_pos, Option.bind_none]
  · rw [List.any_eq_true]
    exact ⟨true, List.mem_map.2 ⟨r, List.mem_range.2 hr, by simp⟩, rfl⟩
  · rw [List.all_eq_true]
    intro hx
    have := hx false (List.mem_map.2 ⟨s, List.mem_range.2 hs, by simp [Ne.symm hne]⟩)
    cases this

namespace Ex

/-- Memory filled with a number. -/
def funcMem (x : ℚ) : Nat → Fresh ℚ := fun _ n => ⟨List.replicate n x, by simp⟩

def funcEnv : FuncEnv where
  mem := funcMem 77
  order := fun _ => .reversed
  exch := ⟨funcMem 99, funcMem 98, fun _ => .reversed, fun _ => .inOrder⟩
  debug := true
  aware := false
  host := true

theorem pairsOk_of (owned : List (List Int)) (pairs : List (List (Nat × Int)))
    (h : pairs.length = owned.length ∧ ∀ ps ∈ pairs, ∀ p ∈ ps, p.2 ∈ owned.getD p.1 []) :
    PairsOk owned pairs := by
  refine ⟨h.1, fun ps hps p hp => ?_⟩
  have := h.2 ps hps p hp
  rw [List.getD_eq_getElem?_getD] at this
  cases hx : owned[p.1]? with
  | none => rw [hx] at this; cases this
  | some l => rw [hx] at this; exact ⟨l, rfl, this⟩

theorem partsOk_of (owned : List (List Int)) (calls : List SurfCall)
    (parts : List (Option (List (Int × ℚ))))
    (h : parts.length = owned.length ∧ ∀ s < parts.length, ∀ p ∈ (parts.getD s none).getD [],
      ∃ c ∈ calls.map SurfCall.pairs, p.1 ∈ (c.getD s []).map Prod.snd) : PartsOk owned calls parts := by
  refine ⟨h.1, fun s ps hs p hp => ?_⟩
  have hlt := (List.getElem?_eq_some_iff.1 hs).1
  obtain ⟨c, hc, hm⟩ := h.2 s hlt p (by rw [List.getD_eq_getElem?_getD, hs]; exact hp)
  obtain ⟨c', hc', rfl⟩ := List.mem_map.1 hc
  obtain ⟨x, hx1, hx2⟩ := List.mem_map.1 hm
  rw [List.getD_eq_getElem?_getD] at hx1
  cases hq : c'.pairs[s]? with
  | none => rw [hq] at hx1; cases hx1
  | some l =>
    rw [hq] at hx1
    exact ⟨c', hc', l, hq, x.1, by rw [← hx2]; exact hx1⟩

/-- Particles on two of three ranks; rank 2 has no sub group. -/
def funcParts : List (Option (List (Int × ℚ))) :=
  [some [(30, 1), (20, 2), (30, 4)], some [(30, 8), (10, 16)], none]

/-- A projection, a new face for rank 0, an evaluation. -/
def funcOps : List FuncOp :=
  [.init funcEnv, .add funcEnv 2 funcParts, .final funcEnv,
    .extend ⟨surfMpi, surfMem, [[(0, 10)], [], []]⟩, .eval funcEnv [some [(10, 0)], none, none]]

def funcCalls : List SurfCall := surfCalls ++ [⟨surfMpi, surfMem, [[(0, 10)], [], []]⟩]

theorem funcOps_ok : FuncHistory surfOwned surfCalls funcOps funcCalls .idle := by
  refine .eval (ops := [.init funcEnv, .add funcEnv 2 funcParts, .final funcEnv,
    .extend ⟨surfMpi, surfMem, [[(0, 10)], [], []]⟩]) funcEnv _ ?_ (partsOk_of _ _ _ (by decide +kernel)) rfl
  refine .extend (ph := .idle) (ops := [.init funcEnv, .add funcEnv 2 funcParts, .final funcEnv]) _ ?_
    (pairsOk_of _ _ (by decide +kernel))
  refine .final (ops := [.init funcEnv, .add funcEnv 2 funcParts]) funcEnv ?_
  refine .add (ops := [.init funcEnv]) (ph := .ready) funcEnv 2 funcParts ?_ (fun hx => by cases hx)
    (partsOk_of _ _ _ (by decide +kernel))
  exact .init (ops := []) (ph := .idle) funcEnv .nil

-- The hypotheses of `C70_runs` are met, and what is computed.
example : ∃ w fs, funcRun surfOwned surfCalls (funcMem 5) funcOps = some (w, fs) ∧
    (fs.map funcGet).map List.length = surfOwned.map List.length :=
  C70_runs surfOwned_ok surfCalls_ok funcOps_ok

example : (funcRun surfOwned surfCalls (funcMem 5) funcOps).map (fun s => s.2.map funcGet) =
    some [[32, 0], [4], [26]] := by decide +kernel

/-- The state after the calls. -/
def funcState : List SurfRank × List SurfFunc :=
  (funcRun surfOwned surfCalls (funcMem 5) funcOps).getD ([], [])

theorem funcState_run : funcRun surfOwned surfCalls (funcMem 5) funcOps = some (funcState.1, funcState.2) := by
  obtain ⟨w, fs, h, -⟩ := C70_runs (mem := funcMem 5) surfOwned_ok surfCalls_ok funcOps_ok
  unfold funcState
  rw [h, Option.getD_some]

def funcParts2 : List (Option (List (Int × ℚ))) := [some [(10, 3)], some [(10, 5), (11, 7)], some []]

theorem funcParts2_ok : PartsOk surfOwned funcCalls funcParts2 := partsOk_of _ _ _ (by decide +kernel)

-- The hypotheses of `C70_project`, `C70_conserved`, `C70_integral`, `C70_evaluate` and
-- `C70_fill_one_rank` are met.
example : ∃ fs', funcProject funcEnv 2 funcParts2 funcState.1 funcState.2 = some fs' ∧
    FaceDof surfOwned (fs'.map funcGet) 10 (2 * faceTotal funcParts2 10) := by
  obtain ⟨fs', h1, -, h2⟩ := C70_project surfOwned_ok surfCalls_ok funcOps_ok funcState_run funcEnv 2 funcParts2_ok
  exact ⟨fs', h1, h2 10 (by decide)⟩

example : faceTotal funcParts2 10 = 8 := by decide +kernel

example : ∃ fs', funcProject funcEnv 2 funcParts2 funcState.1 funcState.2 = some fs' ∧
    (fs'.map funcGet).flatten.sum = 2 * 15 := by
  obtain ⟨fs', h1, h2⟩ := C70_conserved surfOwned_ok surfCalls_ok funcOps_ok funcState_run funcEnv 2 funcParts2_ok
  exact ⟨fs', h1, by rw [h2, show partsTotal funcParts2 = 15 by decide +kernel]⟩

example : ∃ fs', funcProject funcEnv (1 / (1 / 2)) funcParts2 funcState.1 funcState.2 = some fs' ∧
    (fs'.map funcGet).flatten.sum * (1 / 2) ^ 2 ≠ partsTotal funcParts2 := by
  obtain ⟨fs', h1, -, h2⟩ := C70_integral surfOwned_ok surfCalls_ok funcOps_ok funcState_run funcEnv
    (width := 1 / 2) (by decide +kernel) funcParts2_ok
  refine ⟨fs', h1, fun hx => ?_⟩
  rcases h2.1 hx with h | h
  · revert h; decide +kernel
  · revert h; decide +kernel

example : ∃ fs' outs, funcEvals funcEnv funcParts2 funcState.1 funcState.2 = some (fs', outs) ∧
    fs'.map funcGet = funcState.2.map funcGet := by
  obtain ⟨fs', outs, h1, h2, -⟩ := C70_evaluate surfOwned_ok surfCalls_ok funcOps_ok funcState_run funcEnv rfl
    funcParts2_ok
  exact ⟨fs', outs, h1, h2⟩

example : (funcEvals funcEnv funcParts2 funcState.1 funcState.2).map (fun r => r.2) =
    some [some [32], some [32, 0], some []] := by decide +kernel

example (fs' : List SurfFunc) (outs : List (Option (List ℚ)))
    (h : funcEvals funcEnv funcParts2 funcState.1 funcState.2 = some (fs', outs)) (f : SurfFunc)
    (hf : fs'[0]? = some f) : funcEvals funcEnv funcParts2 funcState.1 (fs'.set 0 (funcFill 3 f)) = none :=
  C70_fill_one_rank surfOwned_ok surfCalls_ok funcOps_ok funcState_run funcEnv funcEnv rfl funcParts2_ok h
    (s := 1) (by decide) (by decide) (by decide) hf 3

-- The hypotheses of `C70_contributions` are met: two contributions with an extension between them
-- that adds nothing.
example : ∃ w' fs', funcRun surfOwned surfCalls (funcMem 5) (funcOps ++ ([.init funcEnv] ++
      roundOps 2 [⟨[], funcEnv, funcParts⟩,
        ⟨[⟨surfMpi, surfMem, [[(0, 10)], [], []]⟩], funcEnv, funcParts2⟩] ++ [.final funcEnv])) =
      some (w', fs') ∧
    FaceDof surfOwned (fs'.map funcGet) 10 (2 * ([⟨[], funcEnv, funcParts⟩,
        ⟨[⟨surfMpi, surfMem, [[(0, 10)], [], []]⟩], funcEnv, funcParts2⟩].map
          fun r : FuncRound => faceTotal r.parts 10).sum) := by
  obtain ⟨w', fs', h1, -, h2⟩ := C70_contributions surfOwned_ok surfCalls_ok funcOps_ok funcState_run funcEnv funcEnv
    2 [⟨[], funcEnv, funcParts⟩, ⟨[⟨surfMpi, surfMem, [[(0, 10)], [], []]⟩], funcEnv, funcParts2⟩]
    ⟨fun c hc => (by cases hc), partsOk_of _ _ _ (by decide +kernel), fun c hc => (by
      rw [List.mem_singleton] at hc; subst hc; exact pairsOk_of _ _ (by decide +kernel)),
      partsOk_of _ _ _ (by decide +kernel), trivial⟩
    (fun s a f _ _ => Or.inr fun face hx => by
      obtain ⟨c, hc, hx⟩ := hx
      refine ⟨c, ?_, hx⟩
      rcases List.mem_append.1 hc with hc | hc
      · exact hc
      · exact List.mem_append_right _ hc)
  exact ⟨w', fs', h1, h2 10 (by decide)⟩

/-- One rank with two faces. -/
def staleOps : List FuncOp :=
  [.init funcEnv, .extend ⟨surfMpi, surfMem, [[(0, 10)]]⟩, .add funcEnv 1 [some [(10, 1)]], .final funcEnv]

theorem staleOps_ok : FuncHistory [[10, 11]] [] staleOps [⟨surfMpi, surfMem, [[(0, 10)]]⟩] .idle := by
  refine .final (ops := [.init funcEnv, .extend ⟨surfMpi, surfMem, [[(0, 10)]]⟩,
    .add funcEnv 1 [some [(10, 1)]]]) funcEnv ?_
  refine .add (ops := [.init funcEnv, .extend ⟨surfMpi, surfMem, [[(0, 10)]]⟩]) (ph := .extended) funcEnv 1 _ ?_
    (fun hx => by cases hx) (partsOk_of _ _ _ (by decide +kernel))
  exact .extend (ph := .ready) (ops := [.init funcEnv]) (calls := []) _
    (.init (ops := []) (ph := .idle) funcEnv .nil) (pairsOk_of _ _ (by decide +kernel))

end Ex

/-- C70. Why `C70_contributions` has its last hypothesis: one rank, on which a face is hit for the first
time between `function_project_initialise` and the contribution. The entry of that face in the
staging buffer was never set to zero, and its contents, here 5, end up in the function. -/
theorem C70_stale :
    FuncHistory [[10, 11]] [] Ex.staleOps [⟨Ex.surfMpi, Ex.surfMem, [[(0, 10)]]⟩] .idle ∧
    faceTotal [some [(10, 1)]] 10 = 1 ∧
    (funcRun [[10, 11]] [] (Ex.funcMem 5) Ex.staleOps).map (fun s => s.2.map funcGet) = some [[6, 0]] :=
  ⟨Ex.staleOps_ok, by decide +kernel, by decide +kernel⟩

/-- C70. Why a history has a contribution, possibly of a null sub group, between `post_integration` and
`function_project_finalise`: without it the staging buffer may be too small, and is read out of bounds. -/
theorem C70_final_short :
    PairsOk [[10, 11], [20]] [[], [(0, 10), (0, 11)]] ∧
    (funcRun [[10, 11], [20]] [] (Ex.funcMem 5) [.init Ex.funcEnv,
      .extend ⟨Ex.surfMpi, Ex.surfMem, [[], [(0, 10), (0, 11)]]⟩, .final Ex.funcEnv]).isNone = true ∧
    (funcRun [[10, 11], [20]] [] (Ex.funcMem 5) [.init Ex.funcEnv,
      .extend ⟨Ex.surfMpi, Ex.surfMem, [[], [(0, 10), (0, 11)]]⟩, .add Ex.funcEnv 1 [none, none],
      .final Ex.funcEnv]).isNone = false :=
  ⟨Ex.pairsOk_of _ _ (by decide +kernel), by decide +kernel, by decide +kernel⟩

end NP
