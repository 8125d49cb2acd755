import Verif.Boundary.PropsSurfaceCases
import Verif.Move.PropsLocal
import Verif.Common.Atomic

/-!
# C70: particles with face ids that were not announced
-/

set_option autoImplicit false

namespace NP

open Spec

variable {owned : List (List Int)} {before calls : List SurfCall} {mem : Nat → Fresh ℚ} {ops : List FuncOp}
  {ph : FuncPhase} {w : List SurfRank} {fs : List SurfFunc}

open Classical in
/-- The particles whose faces have been announced on their rank. -/
noncomputable def Spec.knownParts (calls : List SurfCall) (parts : List (Option (List (Int × ℚ)))) :
    List (Option (List (Int × ℚ))) :=
  parts.zipIdx.map fun x => x.1.map fun ps => ps.filter fun p => decide (Announced calls x.2 p.1)

/-- Particles with any face ids, on all ranks. With assertions in the kernels a face that was not
announced is accepted only on a rank where no face was announced. -/
def Spec.PartsAccepted (owned : List (List Int)) (calls : List SurfCall) (debug : Bool)
    (parts : List (Option (List (Int × ℚ)))) : Prop :=
  parts.length = owned.length ∧
    ∀ (s : Nat) ps, parts[s]? = some (some ps) → ∀ p ∈ ps,
      Announced calls s p.1 ∨ debug = false ∨ ∀ face, ¬ Announced calls s face

/-- Every order of one list is the order of some schedule. -/
theorem sched_exists {A : Type} {l0 l1 : List A} (h : l1.Perm l0) :
    ∃ o : Sched, o.order l0 = l1 := by
  classical
  refine ⟨⟨fun {ι} l => if hx : ∃ e : A = ι, e ▸ l0 = l then hx.1 ▸ l1 else l, ?_⟩, ?_⟩
  · intro ι l
    by_cases hx : ∃ e : A = ι, e ▸ l0 = l
    · rw [dif_pos hx]
      obtain ⟨rfl, rfl⟩ := hx
      exact h
    · rw [dif_neg hx]
  · dsimp only
    rw [dif_pos ⟨rfl, rfl⟩]

theorem knownParts_get {parts : List (Option (List (Int × ℚ)))} {s : Nat} :
    (knownParts calls parts)[s]? = (parts[s]?).map fun x => x.map fun ps =>
      ps.filter fun p => @decide (Announced calls s p.1) (Classical.propDecidable _) := by
  unfold knownParts
  rw [List.getElem?_map, List.getElem?_zipIdx]
  cases parts[s]? <;> simp

theorem knownParts_ok {debug : Bool} {parts : List (Option (List (Int × ℚ)))}
    (h : PartsAccepted owned calls debug parts) : PartsOk owned calls (knownParts calls parts) := by
  refine ⟨by simpa [knownParts] using h.1, ?_⟩
  intro s ps hs p hp
  rw [knownParts_get] at hs
  obtain ⟨x, hx, hxs⟩ := Option.map_eq_some_iff.1 hs
  obtain ⟨qs, rfl, rfl⟩ := Option.map_eq_some_iff.1 hxs
  simpa using (List.mem_filter.1 hp).2

theorem Numbered.none_of {a : SurfRank} {held : Int → Prop} (h : Numbered a held) {face : Int}
    (hf : ¬ held face) : surfSeqOf a face = none := by
  cases hs : surfSeqOf a face with
  | none => rfl
  | some i => exact absurd ((h.held_iff face).1 ⟨i, hs⟩) hf

theorem Numbered.num_zero {a : SurfRank} {held : Int → Prop} (h : Numbered a held) :
    surfNumGeoms a = 0 ↔ ∀ face, ¬ held face := by
  constructor
  · intro h0 face hf
    obtain ⟨i, hi⟩ := (h.held_iff face).2 hf
    have := h.lt hi
    omega
  · intro hn
    by_contra h0
    obtain ⟨face, hf⟩ := (h.lt_iff 0).2 (by omega)
    exact hn face ((h.held_iff face).1 ⟨0, (h.find face 0).2 hf⟩)

/-- A contribution of particles with any face ids is one of those with announced faces. -/
theorem funcAdds_known (ho : FacesOwned owned) {W : Nat → SurfRank} {F : Nat → SurfFunc}
    (h : FuncInv owned calls ph W F) {e : FuncEnv} {parts : List (Option (List (Int × ℚ)))}
    (hp : PartsAccepted owned calls e.debug parts) (inv : ℚ) :
    ∃ e' : FuncEnv, e'.mem = e.mem ∧ e'.exch = e.exch ∧ ∀ fs,
      funcAdds e inv parts ((List.range owned.length).map W) fs =
        funcAdds e' inv (knownParts calls parts) ((List.range owned.length).map W) fs := by
  classical
  have hO : ∀ r, ∃ o : Sched, ∀ ps, parts[r]? = some (some ps) →
      o.order (ps.filter fun p => decide (Announced calls r p.1)) =
        ((e.order r).order ps).filter fun p => decide (Announced calls r p.1) := by
    intro r
    rcases hx : parts[r]? with _ | _ | ps
    · exact ⟨Sched.inOrder, fun _ hq => by cases hq⟩
    · exact ⟨Sched.inOrder, fun _ hq => by cases hq⟩
    · obtain ⟨o, ho⟩ := sched_exists (((e.order r).perm ps).filter fun p => decide (Announced calls r p.1))
      refine ⟨o, fun qs hq => ?_⟩
      obtain rfl := Option.some.inj (Option.some.inj hq)
      exact ho
  choose O hO using hO
  refine ⟨{ e with order := O }, rfl, rfl, fun fs => ?_⟩
  unfold funcAdds funcOnRanks mapRanks
  refine mapM_congr_mem fun r hr => ?_
  rw [List.length_map, List.length_range, List.mem_range] at hr
  have hnum := h.numbered ho hr
  rw [show rd ((List.range owned.length).map W) r = some (W r) from rd_table W hr, Option.bind_some,
    Option.bind_some]
  dsimp only
  congr 1
  funext f
  simp only [rd]
  rw [knownParts_get]
  rcases hx : parts[r]? with _ | _ | ps
  · rfl
  · rfl
  · simp only [Option.map_some, Option.bind_some]
    unfold funcAdd
    dsimp only
    congr 1
    funext buf
    split
    · have e1 : (O r).order (ps.filter fun p => decide (Announced calls r p.1)) =
          ((e.order r).order ps).filter fun p => decide (Announced calls r p.1) := hO r ps hx
      have e2 : runItems (funcAddKernel e.debug inv (W r)) ((e.order r).order ps) buf =
          runItems (funcAddKernel e.debug inv (W r))
            (((e.order r).order ps).filter fun p => decide (Announced calls r p.1)) buf := by
        refine runItems_filter ?_ buf
        intro p hpm hk s
        have hk : ¬ Announced calls r p.1 := by simpa using hk
        have hpm : p ∈ ps := ((e.order r).perm ps).mem_iff.1 hpm
        unfold funcAddKernel
        by_cases h0 : surfNumGeoms (W r) = 0
        · rw [if_pos h0]
        · rw [if_neg h0, hnum.none_of hk]
          rcases hp.2 r ps hx p hpm with h1 | h1 | h1
          · exact absurd h1 hk
          · simp [h1]
          · exact absurd (hnum.num_zero.2 h1) h0
      rw [e2]
      have e3 : (ps.filter fun p => @decide (Announced calls r p.1) (Classical.propDecidable _)) =
          ps.filter fun p => decide (Announced calls r p.1) := by
        congr 1
      rw [e3, e1]
    · rfl

/-- **C70 (other particles, projection).** Particles with any face ids are projected, on all ranks: the
value of every face is the scaled sum of the values of those particles which hit it on a rank where the
face was announced. All other particles have no effect. -/
theorem C70_project_any (ho : FacesOwned owned) (hb : ∀ c ∈ before, PairsOk owned c.pairs)
    (h : FuncHistory owned before ops calls ph) (hrun : funcRun owned before mem ops = some (w, fs))
    (e : FuncEnv) (inv : ℚ) {parts : List (Option (List (Int × ℚ)))}
    (hp : PartsAccepted owned calls e.debug parts) :
    ∃ fs', funcProject e inv parts w fs = some fs' ∧
      (fs'.map funcGet).map List.length = owned.map List.length ∧
      ∀ face ∈ owned.flatten, FaceDof owned (fs'.map funcGet) face
        (inv * faceTotal (knownParts calls parts) face) := by
  obtain ⟨W, F, h1, h2⟩ := funcHistory_inv (mem := mem) ho hb h
  obtain ⟨rfl, rfl⟩ := tables_inj h1 hrun
  obtain ⟨e', m1, m2, m3⟩ := funcAdds_known ho h2 hp inv
  obtain ⟨fs', g1, g2, g3⟩ := C70_project ho hb h hrun e' inv (knownParts_ok hp)
  refine ⟨fs', ?_, g2, g3⟩
  rw [← g1]
  unfold funcProject
  have i1 : ∀ w fs, funcInits e w fs = funcInits e' w fs := by
    intro w fs; unfold funcInits; rw [m1]
  have i2 : ∀ w fs, funcFinals e w fs = funcFinals e' w fs := by
    intro w fs; unfold funcFinals; rw [m2]
  rw [i1]
  congr 1
  funext f1
  rw [m3]
  congr 1
  funext f2
  exact i2 _ _

/-- **C70 (other particles, evaluation).** Particles with any face ids: a particle whose face was
announced on its rank gets the value of the face, any other particle keeps its value. -/
theorem C70_evaluate_any (ho : FacesOwned owned) (hb : ∀ c ∈ before, PairsOk owned c.pairs)
    (h : FuncHistory owned before ops calls .idle) (hrun : funcRun owned before mem ops = some (w, fs))
    (e : FuncEnv) (he : (e.aware || e.host) = true) {parts : List (Option (List (Int × ℚ)))}
    (hp : PartsAccepted owned calls e.debug parts) :
    ∃ fs' outs, funcEvals e parts w fs = some (fs', outs) ∧ fs'.map funcGet = fs.map funcGet ∧
      outs.length = owned.length ∧ (∀ s : Nat, parts[s]? = some none → outs[s]? = some none) ∧
      ∀ (s : Nat) ps, parts[s]? = some (some ps) → ∃ vs, outs[s]? = some (some vs) ∧ vs.length = ps.length ∧
        ∀ (j : Nat) p, ps[j]? = some p → ∃ v, vs[j]? = some v ∧
          (Announced calls s p.1 → FaceDof owned (fs.map funcGet) p.1 v) ∧
          (¬ Announced calls s p.1 → v = p.2) := by
  obtain ⟨W, F, h1, h2⟩ := funcHistory_inv (mem := mem) ho hb h
  obtain ⟨rfl, rfl⟩ := tables_inj h1 hrun
  obtain ⟨F', r1, r2, r3⟩ := funcRefresh_spec ho h2 e he
  have hread : ∀ s < owned.length, ∀ ps, parts[s]? = some (some ps) → ∀ p ∈ ps, ∃ v,
      funcEvalKernel e.debug (W s) (F' s).stage p = some v ∧
      (Announced calls s p.1 → FaceDof owned (((List.range owned.length).map F).map funcGet) p.1 v) ∧
      (¬ Announced calls s p.1 → v = p.2) := by
    intro s hs ps hps p hpm
    have hnum := h2.numbered ho hs
    by_cases hann : Announced calls s p.1
    · obtain ⟨k, hk⟩ := (hnum.held_iff p.1).2 hann
      have hlt := hnum.lt hk
      obtain ⟨c, hc, prs, hprs, q, hq⟩ := hann
      obtain ⟨faces, m1, m2⟩ := (h2.calls_ok c hc).2 prs (List.mem_of_getElem? hprs) _ hq
      obtain ⟨i, hi, hie⟩ := List.getElem_of_mem m2
      have hi' : faces[i]? = some p.1 := by rw [List.getElem?_eq_getElem hi, hie]
      have hd : (F q).dofs.length = faces.length := h2.dofs q faces m1
      have hil : i < (F q).dofs.length := by omega
      refine ⟨(F q).dofs[i], ?_, fun _ => ?_, fun hx => absurd ⟨c, hc, prs, hprs, q, hq⟩ hx⟩
      · unfold funcEvalKernel
        rw [if_neg (by omega), hk]
        simp only [rd]
        rw [r3 s hs q i faces p.1 k m1 hi' hk, (r2 q (get_owned m1)).2.1, List.getElem?_eq_getElem hil]
      · exact ⟨q, i, faces, (F q).dofs, m1, hi', by rw [table_map, get_table _ (get_owned m1)]; rfl,
          List.getElem?_eq_getElem hil⟩
    · refine ⟨p.2, ?_, fun hx => absurd hx hann, fun _ => rfl⟩
      unfold funcEvalKernel
      by_cases h0 : surfNumGeoms (W s) = 0
      · rw [if_pos h0]
      · rw [if_neg h0, hnum.none_of hann]
        rcases hp.2 s ps hps p hpm with h1 | h1 | h1
        · exact absurd h1 hann
        · simp [h1]
        · exact absurd (hnum.num_zero.2 h1) h0
  have hloop : ∀ s < owned.length, ∃ o : Option (List ℚ),
      ((rd parts s).bind fun ps => funcEvalRank e.debug (W s) ps (F' s)) = some o ∧
      ((parts[s]? = some none → o = none) ∧
      ∀ ps, parts[s]? = some (some ps) → ∃ vs, o = some vs ∧ vs.length = ps.length ∧
        ∀ (j : Nat) p, ps[j]? = some p → ∃ v, vs[j]? = some v ∧
          (Announced calls s p.1 → FaceDof owned (((List.range owned.length).map F).map funcGet) p.1 v) ∧
          (¬ Announced calls s p.1 → v = p.2)) := by
    intro s hs
    obtain ⟨ps, hps⟩ : ∃ ps, parts[s]? = some ps := ⟨_, List.getElem?_eq_getElem (by rw [hp.1]; exact hs)⟩
    simp only [rd]
    rw [hps, Option.bind_some]
    cases ps with
    | none => exact ⟨none, rfl, fun _ => rfl, fun ps hx => by simp at hx⟩
    | some ps =>
      have hall := hread s hs ps hps
      choose! val hval using hall
      refine ⟨some (ps.map val), ?_, ⟨fun hx => by simp at hx, ?_⟩⟩
      · unfold funcEvalRank
        dsimp only
        rw [mapM_of_forall (g := val) (fun p hpm => (hval p hpm).1), Option.bind_some]
      · intro ps' hx
        obtain rfl := Option.some.inj (Option.some.inj hx)
        refine ⟨_, rfl, by simp, fun j p hj => ⟨val p, by rw [List.getElem?_map, hj, Option.map_some], ?_⟩⟩
        exact (hval p (List.mem_of_getElem? hj)).2
  obtain ⟨O, o1, o2⟩ := funcOnRanks_exists (W := W) (F := F')
    (op := fun r a f => (rd parts r).bind fun ps => funcEvalRank e.debug a ps f) hloop
  refine ⟨(List.range owned.length).map F', (List.range owned.length).map O, ?_, ?_, by simp, ?_, ?_⟩
  · unfold funcEvals
    rw [r1, Option.bind_some, o1, Option.bind_some]
  · rw [table_map, table_map]
    exact List.map_congr_left fun r hr => (r2 r (List.mem_range.1 hr)).2.1
  · intro s hs
    have hlt : s < owned.length := by rw [← hp.1]; exact (List.getElem?_eq_some_iff.1 hs).1
    rw [get_table O hlt, (o2 s hlt).1 hs]
  · intro s ps hs
    have hlt : s < owned.length := by rw [← hp.1]; exact (List.getElem?_eq_some_iff.1 hs).1
    obtain ⟨vs, g1, g2, g3⟩ := (o2 s hlt).2 ps hs
    exact ⟨vs, by rw [get_table O hlt, g1], g2, g3⟩

/-- **C70 (other particles, with assertions).** With assertions in the kernels, a particle whose face was
not announced on a rank where some face was announced makes projection and evaluation fail. -/
theorem C70_unknown_rejected (ho : FacesOwned owned) (hb : ∀ c ∈ before, PairsOk owned c.pairs)
    (h : FuncHistory owned before ops calls ph) (hrun : funcRun owned before mem ops = some (w, fs))
    (e : FuncEnv) (hd : e.debug = true) (inv : ℚ) {parts : List (Option (List (Int × ℚ)))}
    {s : Nat} (hs : s < owned.length) {ps : List (Int × ℚ)} (hps : parts[s]? = some (some ps))
    {p : Int × ℚ} (hp : p ∈ ps) (hun : ¬ Announced calls s p.1) {face : Int}
    (hf : Announced calls s face) :
    funcProject e inv parts w fs = none ∧ funcEvals e parts w fs = none := by
  obtain ⟨W, F, h1, h2⟩ := funcHistory_inv (mem := mem) ho hb h
  obtain ⟨rfl, rfl⟩ := tables_inj h1 hrun
  have hnum := h2.numbered ho hs
  have h0 : surfNumGeoms (W s) ≠ 0 := fun h0 => hnum.num_zero.1 h0 face hf
  have hnone := hnum.none_of hun
  constructor
  · obtain ⟨F1, i1, -, -⟩ := funcInits_spec h2 e
    unfold funcProject
    rw [i1, Option.bind_some]
    have : funcAdds e inv parts ((List.range owned.length).map W) ((List.range owned.length).map F1) =
        none := by
      unfold funcAdds funcOnRanks
      refine mapRanks_none hs ?_
      rw [rd_table F1 hs, Option.bind_some]
      simp only [rd]
      rw [hps, Option.bind_some]
      unfold funcAdd
      have hrn : ∀ buf, runItems (funcAddKernel e.debug inv (W s)) ((e.order s).order ps) buf = none := by
        intro buf
        obtain ⟨l1, l2, hl⟩ := List.append_of_mem (((e.order s).perm ps).mem_iff.2 hp)
        rw [hl, runItems_append]
        cases runItems (funcAddKernel e.debug inv (W s)) l1 buf with
        | none => rfl
        | some b =>
          rw [Option.bind_some, runItems_cons]
          have : funcAddKernel e.debug inv (W s) p b = none := by
            unfold funcAddKernel
            rw [if_neg h0, hnone]
            simp [hd]
          rw [this]
          rfl
      refine Option.bind_eq_none_iff.2 fun buf _ => ?_
      dsimp only
      split
      · rw [hrn]; rfl
      · rfl
    rw [this]
    rfl
  · unfold funcEvals
    have hev : ∀ fs', (funcOnRanks ((List.range owned.length).map W) fs' fun r a f =>
        (rd parts r).bind fun ps => funcEvalRank e.debug a ps f) = none := by
      intro fs'
      unfold funcOnRanks
      refine mapRanks_none hs ?_
      refine Option.bind_eq_none_iff.2 fun f _ => ?_
      simp only [rd]
      rw [hps, Option.bind_some]
      unfold funcEvalRank
      dsimp only
      have : ps.mapM (funcEvalKernel e.debug (W s) f.stage) = none := by
        refine mapM_eq_none ⟨p, hp, ?_⟩
        unfold funcEvalKernel
        rw [if_neg h0, hnone]
        simp [hd]
      rw [this]
      rfl
    refine Option.bind_eq_none_iff.2 fun fs' _ => ?_
    rw [hev]
    rfl

namespace Ex

theorem announced_iff {calls : List SurfCall} {s : Nat} {face : Int} : Announced calls s face ↔
    face ∈ (calls.map SurfCall.pairs).flatMap fun ps => (ps.getD s []).map Prod.snd := by
  constructor
  · rintro ⟨c, hc, ps, hps, q, hq⟩
    refine List.mem_flatMap.2 ⟨c.pairs, List.mem_map.2 ⟨c, hc, rfl⟩, List.mem_map.2 ⟨(q, face), ?_, rfl⟩⟩
    rw [List.getD_eq_getElem?_getD, hps]
    exact hq
  · intro h
    obtain ⟨x, hx, hm⟩ := List.mem_flatMap.1 h
    obtain ⟨c, hc, rfl⟩ := List.mem_map.1 hx
    obtain ⟨⟨q, f⟩, hq, rfl⟩ := List.mem_map.1 hm
    rw [List.getD_eq_getElem?_getD] at hq
    cases hp : c.pairs[s]? with
    | none => rw [hp] at hq; cases hq
    | some ps => rw [hp] at hq; exact ⟨c, hc, ps, hp, q, hq⟩

instance (calls : List SurfCall) (s : Nat) (face : Int) : Decidable (Announced calls s face) :=
  decidable_of_iff _ announced_iff.symm

/-- Kernels without assertions. -/
def funcRelease : FuncEnv := { funcEnv with debug := false }

/-- Face 99 is no face of the group; face 20 was announced on rank 0 only. -/
def funcParts3 : List (Option (List (Int × ℚ))) :=
  [some [(99, 5), (10, 3)], some [(20, 4), (10, 5)], none]

theorem funcParts3_ok : PartsAccepted surfOwned funcCalls false funcParts3 :=
  ⟨rfl, fun _ _ _ _ _ => .inr (.inl rfl)⟩

theorem funcParts3_known : knownParts funcCalls funcParts3 = [some [(10, 3)], some [(10, 5)], none] := by
  have h : ∀ s face, @decide (Announced funcCalls s face) (Classical.propDecidable _) =
      decide (Announced funcCalls s face) := fun s face => by congr
  unfold knownParts
  simp only [h]
  decide +kernel

-- The hypotheses of `C70_project_any` are met by particles on unknown faces.
example : ∃ fs', funcProject funcRelease 2 funcParts3 funcState.1 funcState.2 = some fs' ∧
    FaceDof surfOwned (fs'.map funcGet) 10 16 ∧ FaceDof surfOwned (fs'.map funcGet) 20 0 := by
  obtain ⟨fs', h1, -, h2⟩ := C70_project_any surfOwned_ok surfCalls_ok funcOps_ok funcState_run funcRelease 2
    funcParts3_ok
  have a := h2 10 (by decide)
  have b := h2 20 (by decide)
  rw [funcParts3_known] at a b
  exact ⟨fs', h1, by simpa [faceTotal] using (show (2 : ℚ) * faceTotal [some [(10, 3)], some [(10, 5)], none] 10 = 16 by
    decide +kernel) ▸ a, (show (2 : ℚ) * faceTotal [some [(10, 3)], some [(10, 5)], none] 20 = 0 by
    decide +kernel) ▸ b⟩

-- The hypotheses of `C70_evaluate_any` are met; a particle keeps its value.
example : ∃ fs' outs vs v, funcEvals funcRelease funcParts3 funcState.1 funcState.2 = some (fs', outs) ∧
    outs[0]? = some (some vs) ∧ vs[0]? = some v ∧ v = 5 := by
  obtain ⟨fs', outs, h1, -, -, -, h2⟩ := C70_evaluate_any surfOwned_ok surfCalls_ok funcOps_ok funcState_run
    funcRelease rfl funcParts3_ok
  obtain ⟨vs, h3, -, h4⟩ := h2 0 _ rfl
  obtain ⟨v, h5, -, h6⟩ := h4 0 _ rfl
  exact ⟨fs', outs, vs, v, h1, h3, h5, h6 (by decide +kernel)⟩

example : (funcEvals funcRelease funcParts3 funcState.1 funcState.2).map (fun r => r.2) =
    some [some [5, 32], some [4, 32], none] := by decide +kernel

-- With assertions, on a rank where no face was announced.
example : PartsAccepted surfOwned [⟨surfMpi, surfMem, [[(2, 30)], [], []]⟩] true
    [some [(30, 1)], some [(20, 4)], none] := by
  refine ⟨rfl, fun s ps hs p hp => ?_⟩
  match s, hs with
  | 0, hs =>
    obtain rfl := Option.some.inj (Option.some.inj hs)
    obtain rfl := List.mem_singleton.1 hp
    exact .inl (by decide +kernel)
  | 1, hs =>
    refine .inr (.inr fun face hf => ?_)
    have := announced_iff.1 hf
    simp at this
  | 2, hs => cases hs

-- The hypotheses of `C70_unknown_rejected` are met.
example : funcProject funcEnv 2 funcParts3 funcState.1 funcState.2 = none ∧
    funcEvals funcEnv funcParts3 funcState.1 funcState.2 = none :=
  C70_unknown_rejected surfOwned_ok surfCalls_ok funcOps_ok funcState_run funcEnv rfl 2 (s := 0) (by decide)
    (ps := [(99, 5), (10, 3)]) rfl (p := (99, 5)) (by decide) (by decide +kernel) (face := 10) (by decide +kernel)

end Ex

end NP
