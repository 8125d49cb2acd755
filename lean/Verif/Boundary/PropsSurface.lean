import Verif.Boundary.LemmasSurface3

/-!
# C70: projecting onto and evaluating functions on the faces of a boundary
-/

set_option autoImplicit false

namespace NP

open Spec

variable {owned : List (List Int)} {before calls : List SurfCall} {mem : Nat → Fresh ℚ} {ops : List FuncOp}
  {ph : FuncPhase} {w : List SurfRank} {fs : List SurfFunc}

theorem tables_inj {n : Nat} {W : Nat → SurfRank} {F : Nat → SurfFunc}
    {r : Option (List SurfRank × List SurfFunc)}
    (h1 : r = some ((List.range n).map W, (List.range n).map F)) (h2 : r = some (w, fs)) :
    w = (List.range n).map W ∧ fs = (List.range n).map F := by
  rw [h1] at h2
  have := Option.some.inj h2
  exact ⟨(congrArg Prod.fst this).symm, (congrArg Prod.snd this).symm⟩

/-- C70. Every history of calls completes on all ranks: no rank waits for another, nothing is read
or written outside of a buffer, no assertion fails. Afterwards there is one value per owned face. -/
theorem C70_runs (ho : FacesOwned owned) (hb : ∀ c ∈ before, PairsOk owned c.pairs)
    (h : FuncHistory owned before ops calls ph) :
    ∃ w fs, funcRun owned before mem ops = some (w, fs) ∧
      (fs.map funcGet).map List.length = owned.map List.length := by
  obtain ⟨W, F, h1, h2⟩ := funcHistory_inv (mem := mem) ho hb h
  refine ⟨_, _, h1, ?_⟩
  rw [table_map, table_map]
  apply List.ext_getElem?
  intro i
  by_cases hi : i < owned.length
  · rw [get_table _ hi, List.getElem?_map, List.getElem?_eq_getElem hi, Option.map_some]
    exact congrArg some (h2.dofs i _ (List.getElem?_eq_getElem hi))
  · rw [List.getElem?_eq_none (by simp; omega), List.getElem?_eq_none (by simp; omega)]

/-- C70. A projection, after any history, from any number of contributions with calls of
`post_integration` between them: the value of every face is the scaled sum of the values of all
particles, of all ranks and all contributions, which hit the face. On a rank where new faces are hit
during the projection the staging buffer must not be larger than the number of faces hit before
(see `C70_stale` for the reason). -/
theorem C70_contributions (ho : FacesOwned owned) (hb : ∀ c ∈ before, PairsOk owned c.pairs)
    (h : FuncHistory owned before ops calls ph) (hrun : funcRun owned before mem ops = some (w, fs))
    (e e' : FuncEnv) (inv : ℚ) (rounds : List FuncRound) (hr : RoundsOk owned calls rounds)
    (hnew : ∀ (s : Nat) a f, w[s]? = some a → fs[s]? = some f →
      f.stage.length ≤ surfNumGeoms a ∨
      ∀ face, Announced (calls ++ rounds.flatMap FuncRound.calls) s face → Announced calls s face) :
    ∃ w' fs', funcRun owned before mem (ops ++ ([.init e] ++ roundOps inv rounds ++ [.final e'])) =
        some (w', fs') ∧
      (fs'.map funcGet).map List.length = owned.map List.length ∧
      ∀ face ∈ owned.flatten, FaceDof owned (fs'.map funcGet) face
        (inv * (rounds.map fun r => faceTotal r.parts face).sum) := by
  obtain ⟨W, F, h1, h2⟩ := funcHistory_inv (mem := mem) ho hb h
  obtain ⟨rfl, rfl⟩ := tables_inj h1 hrun
  obtain ⟨F1, i1, i2, i3⟩ := funcInits_spec h2 e
  have hacc : Acc owned calls W W F1 (fun r => (F1 r).stage.length) (fun _ _ => 0) := by
    refine ⟨fun r hr face i hi => hi, fun r hr => le_refl _, fun r hr => le_refl _,
      fun r hr => le_max_left _ _, ?_, fun _ _ _ _ => rfl, ?_⟩
    · intro r hr k face hk hgood
      refine ⟨fun hlt => ?_, fun _ => rfl⟩
      rcases hgood with hg | hg
      · exact (i3 r hr).2.2 k hg
      · omega
    · intro r hr i hi
      rw [(i3 r hr).1] at hi ⊢
      rw [List.length_replicate] at hi
      rw [List.getElem?_replicate, if_pos hi]
  obtain ⟨W2, F2, a1, a2, a3⟩ := hacc.rounds ho inv rounds _ calls hr W F1 i2
  obtain ⟨F3, f1, f2, f3⟩ := funcFinals_spec ho a2 e'
  refine ⟨(List.range owned.length).map W2, (List.range owned.length).map F3, ?_, ?_, ?_⟩
  · rw [funcRun_append _ _ h1, List.append_assoc, runItems_append, runItems_one]
    show ((funcInits e _ _).bind fun fs => some (_, fs)).bind _ = _
    rw [i1, Option.bind_some, Option.bind_some, runItems_append, a1, Option.bind_some, runItems_one]
    show ((funcFinals e' _ _).bind fun fs => some (_, fs)) = _
    rw [f1, Option.bind_some]
  · rw [table_map, table_map]
    apply List.ext_getElem?
    intro i
    by_cases hi : i < owned.length
    · rw [get_table _ hi, List.getElem?_map, List.getElem?_eq_getElem hi, Option.map_some]
      exact congrArg some ((f2 i hi).2.2.trans (a2.dofs i _ (List.getElem?_eq_getElem hi)))
    · rw [List.getElem?_eq_none (by simp; omega), List.getElem?_eq_none (by simp; omega)]
  · intro face hface
    obtain ⟨faces, hf1, hf2⟩ := List.mem_flatten.1 hface
    obtain ⟨q, hq, hqe⟩ := List.getElem_of_mem hf1
    obtain ⟨i, hi, hie⟩ := List.getElem_of_mem hf2
    have hq' : owned[q]? = some faces := by rw [List.getElem?_eq_getElem hq, hqe]
    have hi' : faces[i]? = some face := by rw [List.getElem?_eq_getElem hi, hie]
    obtain ⟨old, new, g1, g2, holders, v, g3, g4, g5, g6⟩ := f3 q i faces face hq' hi'
    rw [a3.dofs q hq i (List.getElem?_eq_some_iff.1 g1).1] at g1
    obtain rfl := Option.some.inj g1
    refine ⟨q, i, faces, (F3 q).dofs, hq', hi', by rw [table_map, get_table _ hq]; rfl, ?_⟩
    rw [g2, g6, zero_add]
    congr 1
    -- the value held by a rank
    have hlt : ∀ s ∈ holders, s < owned.length := by
      intro s hs
      obtain ⟨a, b, k, e1, -⟩ := g5 s hs
      simpa using (List.getElem?_eq_some_iff.1 e1).1
    have hv : ∀ s ∈ holders, v s =
        (rounds.map fun d => rankTotal inv ((d.parts.getD s none).getD []) face).sum := by
      intro s hs
      obtain ⟨a, b, k, e1, e2, e3, e4⟩ := g5 s hs
      have hsl := hlt s hs
      rw [get_table _ hsl] at e1 e2
      obtain rfl := Option.some.inj e1
      obtain rfl := Option.some.inj e2
      rw [Nat.mul_one, Nat.add_zero] at e4
      have hgood : k < surfNumGeoms (W s) ∨ (F1 s).stage.length ≤ k := by
        rcases hnew s (W s) (F s) (get_table _ hsl) (get_table _ hsl) with hx | hx
        · rw [(i3 s hsl).2.1]
          omega
        · left
          obtain ⟨k0, hk0⟩ := ((h2.numbered ho hsl).held_iff face).2 (hx face ((g4 s).1 hs))
          have := a3.seq s hsl face k0 hk0
          rw [e3] at this
          obtain rfl := Option.some.inj this
          exact (h2.numbered ho hsl).lt hk0
      have := (a3.val s hsl k face (((a2.numbered ho hsl).find _ _).1 e3) hgood).1
        (List.getElem?_eq_some_iff.1 e4).1
      rw [e4] at this
      rw [Option.some.inj this, zero_add]
    rw [List.map_congr_left hv, sum_holders g3 hlt _ (fun s hs hns => by
      have := a3.unseen s hs face (fun hx => hns ((g4 s).2 hx))
      rwa [zero_add] at this)]
    -- exchange the two sums
    have hswap : ∀ (rs : List FuncRound), (∀ d ∈ rs, d.parts.length = owned.length) →
        ((List.range owned.length).map fun s =>
          (rs.map fun d => rankTotal inv ((d.parts.getD s none).getD []) face).sum).sum =
        inv * (rs.map fun r => faceTotal r.parts face).sum := by
      intro rs
      induction rs with
      | nil => intro _; simp
      | cons d rs ih =>
        intro hd
        simp only [List.map_cons, List.sum_cons]
        rw [List.sum_map_add, rankTotal_ranks inv (hd d (by simp)) face, ih fun x hx => hd x (by simp [hx]),
          mul_add]
    refine hswap rounds ?_
    have : ∀ (rs : List FuncRound) calls, RoundsOk owned calls rs → ∀ d ∈ rs, d.parts.length = owned.length := by
      intro rs
      induction rs with
      | nil => intro _ _ d hd; cases hd
      | cons x rs ih =>
        rintro cs ⟨-, hp, hrest⟩ d hd
        rcases List.mem_cons.1 hd with rfl | hd
        · exact hp.1
        · exact ih _ hrest d hd
    exact this rounds calls hr

/-- C70. `function_project`, after any history: the value of every face is the scaled sum of the values of all
particles, of all ranks, which hit the face. -/
theorem C70_project (ho : FacesOwned owned) (hb : ∀ c ∈ before, PairsOk owned c.pairs)
    (h : FuncHistory owned before ops calls ph) (hrun : funcRun owned before mem ops = some (w, fs))
    (e : FuncEnv) (inv : ℚ) {parts : List (Option (List (Int × ℚ)))} (hp : PartsOk owned calls parts) :
    ∃ fs', funcProject e inv parts w fs = some fs' ∧
      (fs'.map funcGet).map List.length = owned.map List.length ∧
      ∀ face ∈ owned.flatten, FaceDof owned (fs'.map funcGet) face (inv * faceTotal parts face) := by
  obtain ⟨w', fs', h1, h0, h2⟩ := C70_contributions ho hb h hrun e e inv [⟨[], e, parts⟩]
    ⟨fun c hc => (by cases hc), (by rw [List.append_nil]; exact hp), trivial⟩
    (fun s a f _ _ => Or.inr fun face hx => by simpa using hx)
  refine ⟨fs', ?_, h0, fun face hf => by simpa using h2 face hf⟩
  rw [funcRun_append _ _ hrun] at h1
  unfold funcProject
  change runItems funcStep [.init e, .add e inv parts, .final e] (w, fs) = _ at h1
  rw [runItems_cons] at h1
  change ((funcInits e w fs).bind fun fs => some (w, fs)).bind _ = _ at h1
  cases hi : funcInits e w fs with
  | none => rw [hi] at h1; cases h1
  | some f1 =>
    rw [hi, Option.bind_some, Option.bind_some, runItems_cons] at h1
    change ((funcAdds e inv parts w f1).bind fun fs => some (w, fs)).bind _ = _ at h1
    rw [Option.bind_some]
    cases ha : funcAdds e inv parts w f1 with
    | none => rw [ha] at h1; cases h1
    | some f2 =>
      rw [ha, Option.bind_some, Option.bind_some, runItems_one] at h1
      change ((funcFinals e w f2).bind fun fs => some (w, fs)) = _ at h1
      rw [Option.bind_some]
      cases hf : funcFinals e w f2 with
      | none => rw [hf] at h1; cases h1
      | some f3 =>
        rw [hf, Option.bind_some] at h1
        exact congrArg some (congrArg Prod.snd (Option.some.inj h1))

/-- C70. `function_evaluate`, after any history outside of a projection: every particle gets the value which the
owner of its face has now, whichever rank it is on and however often the exchange pattern or the
function have changed since the last evaluation. The function is not changed. -/
theorem C70_evaluate (ho : FacesOwned owned) (hb : ∀ c ∈ before, PairsOk owned c.pairs)
    (h : FuncHistory owned before ops calls .idle) (hrun : funcRun owned before mem ops = some (w, fs))
    (e : FuncEnv) (he : (e.aware || e.host) = true) {parts : List (Option (List (Int × ℚ)))}
    (hp : PartsOk owned calls parts) :
    ∃ fs' outs, funcEvals e parts w fs = some (fs', outs) ∧ fs'.map funcGet = fs.map funcGet ∧
      outs.length = owned.length ∧ (∀ s : Nat, parts[s]? = some none → outs[s]? = some none) ∧
      ∀ (s : Nat) ps, parts[s]? = some (some ps) → ∃ vs, outs[s]? = some (some vs) ∧ vs.length = ps.length ∧
        ∀ (j : Nat) p, ps[j]? = some p → ∃ v, vs[j]? = some v ∧ FaceDof owned (fs.map funcGet) p.1 v := by
  obtain ⟨W, F, h1, h2⟩ := funcHistory_inv (mem := mem) ho hb h
  obtain ⟨rfl, rfl⟩ := tables_inj h1 hrun
  obtain ⟨F', outs, g1, g2, g3, g4, g5, g6⟩ := funcEvals_spec ho h2 e he hp
  refine ⟨_, outs, g1, ?_, g4, g5, fun s ps hs => ?_⟩
  · rw [table_map, table_map]
    exact List.map_congr_left fun r hr => (g3 r (List.mem_range.1 hr)).2
  · obtain ⟨vs, k1, k2, k3⟩ := g6 s ps hs
    refine ⟨vs, k1, k2, fun j p hj => ?_⟩
    obtain ⟨v, l1, l2⟩ := k3 j p hj
    refine ⟨v, l1, ?_⟩
    obtain ⟨c, hc, prs, hprs, q, hq⟩ := hp.2 s ps hs p (List.mem_of_getElem? hj)
    obtain ⟨faces, m1, m2⟩ := (h2.calls_ok c hc).2 prs (List.mem_of_getElem? hprs) _ hq
    obtain ⟨i, hi, hie⟩ := List.getElem_of_mem m2
    have hi' : faces[i]? = some p.1 := by rw [List.getElem?_eq_getElem hi, hie]
    exact ⟨q, i, faces, (F q).dofs, m1, hi', by rw [table_map, get_table _ (get_owned m1)]; rfl,
      l2 q i faces m1 hi'⟩

/-- A face has at most one value. -/
theorem FaceDof.unique {dofs : List (List ℚ)} (ho : FacesOwned owned) {face : Int} {u v : ℚ}
    (hu : FaceDof owned dofs face u) (hv : FaceDof owned dofs face v) : u = v := by
  obtain ⟨q, i, faces, d, a1, a2, a3, a4⟩ := hu
  obtain ⟨q', i', faces', d', b1, b2, b3, b4⟩ := hv
  unfold FacesOwned at ho
  rw [List.nodup_flatten] at ho
  have hqq : q = q' := by
    by_contra hne
    rcases Nat.lt_or_gt_of_ne hne with hlt | hlt
    · have := List.pairwise_iff_getElem.1 ho.2 q q' (get_owned a1) (get_owned b1) hlt
      rw [(List.getElem?_eq_some_iff.1 a1).2, (List.getElem?_eq_some_iff.1 b1).2] at this
      exact this (List.mem_of_getElem? a2) (List.mem_of_getElem? b2)
    · have := List.pairwise_iff_getElem.1 ho.2 q' q (get_owned b1) (get_owned a1) hlt
      rw [(List.getElem?_eq_some_iff.1 a1).2, (List.getElem?_eq_some_iff.1 b1).2] at this
      exact this (List.mem_of_getElem? b2) (List.mem_of_getElem? a2)
  subst hqq
  rw [a1] at b1
  obtain rfl := Option.some.inj b1
  have hii : i = i' := (ho.1 faces (List.mem_of_getElem? a1)).getElem_inj_iff.1 (by
    rw [(List.getElem?_eq_some_iff.1 a2).2, (List.getElem?_eq_some_iff.1 b2).2])
  subst hii
  rw [a3] at b3
  obtain rfl := Option.some.inj b3
  rw [a4] at b4
  exact Option.some.inj b4

/-- C70. A face has exactly one value, so the statements about `FaceDof` determine what `get_dofs`
returns. -/
theorem C70_one_value (ho : FacesOwned owned) {dofs : List (List ℚ)}
    (hd : dofs.map List.length = owned.map List.length) {face : Int} (hf : face ∈ owned.flatten) :
    ∃ v, FaceDof owned dofs face v ∧ ∀ u, FaceDof owned dofs face u → u = v := by
  obtain ⟨faces, hf1, hf2⟩ := List.mem_flatten.1 hf
  obtain ⟨q, hq, hqe⟩ := List.getElem_of_mem hf1
  obtain ⟨i, hi, hie⟩ := List.getElem_of_mem hf2
  have hl : dofs.length = owned.length := by simpa using congrArg List.length hd
  have hx : (dofs[q]'(by omega)).length = faces.length := by
    have := congrArg (fun l => l[q]?) hd
    simp only [List.getElem?_map, List.getElem?_eq_getElem hq, Option.map_some,
      List.getElem?_eq_getElem (show q < dofs.length by omega), hqe] at this
    exact Option.some.inj this
  have hfd : FaceDof owned dofs face ((dofs[q]'(by omega))[i]'(by omega)) :=
    ⟨q, i, faces, dofs[q]'(by omega), by rw [List.getElem?_eq_getElem hq, hqe],
      by rw [List.getElem?_eq_getElem hi, hie], List.getElem?_eq_getElem _, List.getElem?_eq_getElem _⟩
  exact ⟨_, hfd, fun u hu => FaceDof.unique ho hu hfd⟩

end NP
