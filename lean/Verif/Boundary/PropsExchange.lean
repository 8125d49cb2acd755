import Verif.Boundary.LemmasExchange6

/-!
# C63: exchange of face data between the ranks that hold a face and its owner
-/

set_option autoImplicit false

namespace NP

variable {owned : List (List Int)} {calls : List SurfCall} {w : List SurfRank}

theorem Spec.Announced.lt {s : Nat} {face : Int} (hcalls : ∀ c ∈ calls, Spec.PairsOk owned c.pairs)
    (h : Spec.Announced calls s face) : s < owned.length := by
  obtain ⟨c, hc, ps, h1, -⟩ := h
  have := (List.getElem?_eq_some_iff.1 h1).1
  rwa [(hcalls c hc).1] at this

theorem SurfInv.outIds_nodup {H : Nat → Int → Prop} {R : Nat → Nat → List Int} {W : Nat → SurfRank}
    (ho : Spec.FacesOwned owned) (hI : SurfInv owned H R W) {r : Nat} (hr : r < owned.length)
    {l : List Nat} (hl : l.Nodup) (hlt : ∀ d ∈ l, d < owned.length) : (l.flatMap (R r)).Nodup := by
  have hc := hI.core r hr
  rw [List.nodup_flatMap]
  refine ⟨fun d hd => nodup_of_lt (hc.sorted d (hlt d hd)), ?_⟩
  refine List.Pairwise.imp_of_mem ?_ hl
  intro d d' hd hd' hne g hg hg'
  exact hne (surfOwn_unique ho d d' g ((hc.mem d (hlt d hd) g).1 hg).2
    ((hc.mem d' (hlt d' hd') g).1 hg').2)

theorem SurfInv.mem_outIds {H : Nat → Int → Prop} {R : Nat → Nat → List Int} {W : Nat → SurfRank}
    (hI : SurfInv owned H R W) {r : Nat} (hr : r < owned.length) (g : Int) :
    g ∈ (W r).dests.flatMap (R r) ↔ g ∈ (W r).seqGeom := by
  have hc := hI.core r hr
  have hs := hI.sync r hr
  rw [List.mem_flatMap, hc.seq]
  constructor
  · rintro ⟨d, hd, hg⟩
    exact ((hc.mem d ((hs.dests d).1 hd).1 g).1 hg).1
  · intro hg
    obtain ⟨q, hq, how⟩ := hI.holds r hr g hg
    have hm := (hc.mem q hq g).2 ⟨hg, how⟩
    exact ⟨q, (hs.dests q).2 ⟨hq, List.ne_nil_of_mem hm⟩, hm⟩

/-- C63. Extending the pattern with faces named together with their owner always succeeds,
and each rank numbers the faces it has announced: the two functions that convert between
faces and indices are inverse to each other, every announced face has an index, no other
face has one, and the indices are those below the number of faces. -/
theorem C63_numbering (ho : Spec.FacesOwned owned)
    (hcalls : ∀ c ∈ calls, Spec.PairsOk owned c.pairs) :
    ∃ w, surfRun owned calls = some w ∧ w.length = owned.length ∧
      ∀ (s : Nat) a, w[s]? = some a →
        (∀ face i, surfSeqOf a face = some i ↔ surfGeomOf a i = some face) ∧
        (∀ face, (∃ i, surfSeqOf a face = some i) ↔ Spec.Announced calls s face) ∧
        ∀ i, (∃ face, surfGeomOf a i = some face) ↔ i < surfNumGeoms a := by
  obtain ⟨W, R, h1, h2⟩ := surfRun_inv ho calls hcalls
  refine ⟨_, h1, by simp, fun s a ha => ?_⟩
  have hs : s < owned.length := by
    have := (List.getElem?_eq_some_iff.1 ha).1
    simpa using this
  rw [show ((List.range owned.length).map W)[s]? = some (W s) from rd_table W hs] at ha
  cases ha
  have hc := h2.core s hs
  refine ⟨hc.find, fun face => ?_, fun i => ?_⟩
  · rw [← hc.seq]
    constructor
    · rintro ⟨i, hi⟩
      exact List.mem_of_getElem? ((hc.find _ _).1 hi)
    · intro h
      exact ⟨_, find_idxOf hc.find h⟩
  · unfold surfGeomOf surfNumGeoms rd
    constructor
    · rintro ⟨f, hf⟩
      exact (List.getElem?_eq_some_iff.1 hf).1
    · intro h
      exact ⟨_, List.getElem?_eq_getElem h⟩

/-- C63. A further call keeps the index of every face already announced; it leaves all ranks
as they were if no rank announces anything new, and otherwise increments the version on all
ranks. -/
theorem C63_extension (ho : Spec.FacesOwned owned) {c : SurfCall}
    (hcalls : ∀ c ∈ calls, Spec.PairsOk owned c.pairs) (hc : Spec.PairsOk owned c.pairs)
    (hw : surfRun owned calls = some w) :
    ∃ w', surfRun owned (calls ++ [c]) = some w' ∧
      (∀ (s : Nat) a, w[s]? = some a → ∃ a', w'[s]? = some a' ∧
        ∀ face i, surfSeqOf a face = some i → surfSeqOf a' face = some i) ∧
      ((∀ s face, Spec.Announced [c] s face → Spec.Announced calls s face) → w' = w) ∧
      ((∃ s face, Spec.Announced [c] s face ∧ ¬ Spec.Announced calls s face) →
        ∀ (s : Nat) a a', w[s]? = some a → w'[s]? = some a' → a'.version = a.version + 1) := by
  obtain ⟨W, R, h1, h2⟩ := surfRun_inv ho calls hcalls
  obtain ⟨W', R', g1, g2, g3, g4, g5⟩ := surfExtend_inv ho h2 c.mpi c.mem hc
  rw [h1] at hw
  cases hw
  have hone : ∀ s face, Spec.Announced [c] s face ↔ surfPassed c.pairs s face := fun s face => by
    unfold Spec.Announced surfPassed
    simp
  have hlt : ∀ (V : Nat → SurfRank) (s : Nat) a, ((List.range owned.length).map V)[s]? = some a →
      s < owned.length ∧ a = V s := by
    intro V s a ha
    have hs : s < owned.length := by
      have := (List.getElem?_eq_some_iff.1 ha).1
      simpa using this
    rw [show ((List.range owned.length).map V)[s]? = some (V s) from rd_table V hs] at ha
    cases ha
    exact ⟨hs, rfl⟩
  refine ⟨(List.range owned.length).map W', ?_, ?_, ?_, ?_⟩
  · unfold surfRun at h1 ⊢
    rw [runItems_append, h1, Option.bind_some, runItems_cons, g1, Option.bind_some, runItems_nil]
  · intro s a ha
    obtain ⟨hs, rfl⟩ := hlt W s a ha
    refine ⟨W' s, rd_table W' hs, fun face i hi => ?_⟩
    unfold surfSeqOf at hi ⊢
    rw [(h2.core s hs).find] at hi
    rw [(g2.core s hs).find]
    obtain ⟨t, ht⟩ := g3 s hs
    rw [← ht, List.getElem?_append_left (List.getElem?_eq_some_iff.1 hi).1, hi]
  · intro hall
    refine List.map_congr_left fun r hr => ?_
    exact g4 (fun r _ g hg => hall r g ((hone r g).2 hg)) r (List.mem_range.1 hr)
  · rintro ⟨s, face, hs1, hs2⟩ r a a' ha ha'
    obtain ⟨hr, rfl⟩ := hlt W r a ha
    obtain ⟨-, rfl⟩ := hlt W' r a' ha'
    exact g5 r hr ⟨s, Spec.Announced.lt (owned := owned) (calls := [c])
      (fun c' hc' => by simp only [List.mem_singleton] at hc'; rw [hc']; exact hc) hs1, face,
      (hone _ _).1 hs1, hs2⟩

/-- C63. A call in which some rank announces a face together with a rank that does not own
it is not accepted. -/
theorem C63_rejects (ho : Spec.FacesOwned owned) {c : SurfCall}
    (hcalls : ∀ c ∈ calls, Spec.PairsOk owned c.pairs) (hlen : c.pairs.length = owned.length)
    (hbad : ¬ Spec.PairsOk owned c.pairs) : surfRun owned (calls ++ [c]) = none := by
  obtain ⟨W, R, h1, h2⟩ := surfRun_inv ho calls hcalls
  unfold surfRun at h1 ⊢
  rw [runItems_append, h1, Option.bind_some, runItems_cons,
    surfExtend_none h2 c.mpi c.mem hlen (by
      by_contra hcon
      push Not at hcon
      exact hbad ⟨hlen, fun ps hps p hp => hcon ps hps p hp⟩), Option.bind_none]

/-- C63. `exchange_from_device`: every owner's entry for a face becomes its old value plus
the values of all ranks that have announced the face, each exactly once; nothing else
changes. -/
theorem C63_forward {T : Type} [AddCommMonoid T] (ho : Spec.FacesOwned owned)
    (hcalls : ∀ c ∈ calls, Spec.PairsOk owned c.pairs) (hw : surfRun owned calls = some w)
    (env : SurfEnv T) (ncomp : Nat) {srcs dsts : List (List T)}
    (hsrc : Spec.Room (w.map surfNumGeoms) ncomp srcs)
    (hdst : Spec.Room (owned.map List.length) ncomp dsts) :
    ∃ out, surfForward env ncomp w srcs dsts = some out ∧ out.length = owned.length ∧
      ∀ (q : Nat) faces dst res, owned[q]? = some faces → dsts[q]? = some dst →
        out[q]? = some res → res.length = dst.length ∧
        (∀ (i : Nat) face, faces[i]? = some face → ∀ cx < ncomp, ∃ old new,
          dst[i * ncomp + cx]? = some old ∧ res[i * ncomp + cx]? = some new ∧
          Spec.Gathered calls w srcs ncomp face cx old new) ∧
        ∀ k, faces.length * ncomp ≤ k → res[k]? = dst[k]? := by
  obtain ⟨W, R, h1, hI⟩ := surfRun_inv ho calls hcalls
  rw [h1] at hw
  cases hw
  haveI : Inhabited T := ⟨0⟩
  set n := owned.length with hn
  have hsl : srcs.length = n := by have := hsrc.1; simpa using this
  have hdl : dsts.length = n := by have := hdst.1; simpa using this
  have hsget : ∀ r < n, srcs[r]? = some (srcs.getD r []) := fun r hr => by
    rw [List.getD_eq_getElem?_getD, List.getElem?_eq_getElem (by omega), Option.getD_some]
  have hdget : ∀ r < n, dsts[r]? = some (dsts.getD r []) := fun r hr => by
    rw [List.getD_eq_getElem?_getD, List.getElem?_eq_getElem (by omega), Option.getD_some]
  have hoget : ∀ r < n, owned[r]? = some (owned.getD r []) := fun r hr => by
    rw [List.getD_eq_getElem?_getD, List.getElem?_eq_getElem (by omega), Option.getD_some]
  have hsroom : ∀ r < n, (W r).seqGeom.length * ncomp ≤ (srcs.getD r []).length := fun r hr =>
    hsrc.2 r _ _ (by
      rw [List.getElem?_map, show ((List.range n).map W)[r]? = some (W r) from rd_table W hr]
      rfl) (hsget r hr)
  have hdroom : ∀ r < n, (owned.getD r []).length * ncomp ≤ (dsts.getD r []).length := fun r hr =>
    hdst.2 r _ _ (by rw [List.getElem?_map, hoget r hr, Option.map_some]) (hdget r hr)
  -- the values of rank `s` for a face
  let V := fun (s : Nat) (g : Int) (c : Nat) =>
    ((srcs.getD s [])[(W s).seqGeom.idxOf g * ncomp + c]?).getD default
  have hV : ∀ s < n, ∀ g ∈ (W s).seqGeom, ∀ c < ncomp,
      (srcs.getD s [])[(W s).seqGeom.idxOf g * ncomp + c]? = some (V s g c) := by
    intro s hs g hg c hc
    have := row_lt (n := ncomp) hc (List.idxOf_lt_length_of_mem hg)
    simp only [V]
    rw [List.getElem?_eq_getElem (by have := hsroom s hs; omega), Option.getD_some]
  let blk := fun s q => (R s q).flatMap fun g => (List.range ncomp).map (V s g)
  have hRseq : ∀ s < n, ∀ q < n, ∀ g ∈ R s q, g ∈ (W s).seqGeom := fun s hs q hq g hg =>
    ((hI.core s hs).seq g).2 (((hI.core s hs).mem q hq g).1 hg).1
  have hRface : ∀ s < n, ∀ q < n, ∀ g ∈ R s q, g ∈ owned.getD q [] := fun s hs q hq g hg =>
    (surfOwn_iff hq g).1 (((hI.core s hs).mem q hq g).1 hg).2
  unfold surfForward
  -- packing
  have e1 : (mapRanks ((List.range n).map W) fun r a => (rd srcs r).bind fun src =>
      surfPack (env.schedPack r) a ncomp src (env.memOut r (a.outCounts.sum * ncomp)).1) =
      some ((List.range n).map fun r => (W r).dests.flatMap (blk r)) := by
    refine mapRanks_table fun r hr => ?_
    have hs := hI.sync r hr
    have hc := hI.core r hr
    simp only [rd]
    rw [hsget r hr, Option.bind_some]
    have hout : (W r).outCounts.sum = (W r).outIds.length := by
      rw [hs.outCounts, hs.outIds, List.length_flatMap]
    have hrows : (W r).dests.flatMap (blk r) =
        (W r).outIds.flatMap fun g => (List.range ncomp).map (V r g) := by
      rw [hs.outIds, List.flatMap_assoc]
    have hmem : ∀ g, g ∈ (W r).outIds ↔ g ∈ (W r).seqGeom := fun g => by
      rw [hs.outIds]; exact hI.mem_outIds hr g
    have hnd : (W r).outIds.Nodup := by
      rw [hs.outIds]
      exact hI.outIds_nodup ho hr hs.destsNodup fun d hd => ((hs.dests d).1 hd).1
    rw [hrows, hout]
    have hml := (env.memOut r ((W r).outIds.length * ncomp)).2
    generalize (env.memOut r ((W r).outIds.length * ncomp)).1 = mem at hml
    unfold surfPack
    by_cases h0 : (W r).seqGeom.length ≠ 0
    · rw [if_pos h0]
      obtain ⟨out', a1, a2, a3, -⟩ := copyRows (N := (W r).seqGeom.length) (ncomp := ncomp)
        (env.schedPack r) id (fun i => (W r).outIds.idxOf ((W r).seqGeom.getD i 0)) (srcs.getD r []) mem
        (fun x out => (rd (W r).packIndex x.1).bind fun dst =>
          (rd (srcs.getD r []) (x.1 * ncomp + x.2)).bind fun v => st out (dst * ncomp + x.2) v)
        (by
          intro x o hx _
          simp only [rd, id]
          rw [hs.packIndex, List.getElem?_map, List.getElem?_eq_getElem hx, Option.map_some,
            Option.bind_some, List.getD_eq_getElem?_getD (l := (W r).seqGeom),
            List.getElem?_eq_getElem hx, Option.getD_some])
        (by
          intro i hi j hj hij
          simp only [List.getD_eq_getElem?_getD, List.getElem?_eq_getElem hi,
            List.getElem?_eq_getElem hj, Option.getD_some] at hij
          have := (List.idxOf_inj ((hmem _).2 (List.getElem_mem hi))).1 hij
          exact (List.Nodup.getElem_inj_iff hc.nodup).1 this)
        (by
          intro i hi c hc'
          have := row_lt hc' hi
          have := hsroom r hr
          simp only [id]; omega)
        (by
          intro i hi c hc'
          rw [hml]
          refine row_lt hc' (List.idxOf_lt_length_of_mem ?_)
          rw [List.getD_eq_getElem?_getD, List.getElem?_eq_getElem hi, Option.getD_some]
          exact (hmem _).2 (List.getElem_mem hi))
      rw [a1]
      congr 1
      refine eq_rows (by rw [a2, hml]) fun p g hg c hc' => ?_
      have hgs := (hmem g).1 (List.mem_of_getElem? hg)
      have hlt := List.idxOf_lt_length_of_mem hgs
      have := a3 ((W r).seqGeom.idxOf g) hlt c hc'
      rw [List.getD_eq_getElem?_getD, List.getElem?_eq_getElem hlt, Option.getD_some,
        List.getElem_idxOf] at this
      obtain ⟨hp, hpg⟩ := List.getElem?_eq_some_iff.1 hg
      rw [← hpg, List.Nodup.idxOf_getElem hnd, hpg] at this
      rw [this]
      exact hV r hr g hgs c hc'
    · rw [if_neg h0]
      congr 1
      have h0 : (W r).seqGeom = [] := List.length_eq_zero_iff.1 (by omega)
      have h00 : (W r).outIds = [] := by
        rw [List.eq_nil_iff_forall_not_mem]
        intro g hg
        have := (hmem g).1 hg
        rw [h0] at this
        cases this
      rw [h00] at hml ⊢
      exact List.length_eq_zero_iff.1 (by rw [hml]; simp)
  rw [e1, Option.bind_some]
  rw [mapRanks_table (W := W) (n := n)
    (f := fun r a => some (env.memIn r (a.inCounts.sum * ncomp)).1)
    (g := fun r => (env.memIn r ((W r).inCounts.sum * ncomp)).1) fun r _ => rfl, Option.bind_some]
  rw [surfExchange_eq (R := R) (fun r hr => (hI.sync r hr).dests) (fun r hr => (hI.sync r hr).sources)
    (fun r hr => (hI.sync r hr).outCounts) (fun r hr => (hI.sync r hr).inCounts)
    (fun s _ q _ => length_rows ncomp (R s q) (V s)) (fun r _ => (env.memIn r _).2), Option.bind_some]
  -- unpacking
  let Z := fun q => (W q).sources.flatMap fun s => (R s q).map fun g => (s, g)
  have hZmem : ∀ q < n, ∀ s g, (s, g) ∈ Z q ↔ s < n ∧ g ∈ R s q := by
    intro q hq s g
    simp only [Z, List.mem_flatMap, List.mem_map, Prod.mk.injEq]
    constructor
    · rintro ⟨s', h1, g', h2, rfl, rfl⟩
      exact ⟨(((hI.sync q hq).sources s').1 h1).1, h2⟩
    · rintro ⟨h1, h2⟩
      exact ⟨s, ((hI.sync q hq).sources s).2 ⟨h1, List.ne_nil_of_mem h2⟩, g, h2, rfl, rfl⟩
  have hZnd : ∀ q < n, (Z q).Nodup := by
    intro q hq
    simp only [Z]
    rw [List.nodup_flatMap]
    refine ⟨fun s hs => ?_, ?_⟩
    · refine (nodup_of_lt ((hI.core s (((hI.sync q hq).sources s).1 hs).1).sorted q hq)).map ?_
      intro a b hab
      exact (Prod.mk.inj hab).2
    · refine (hI.sync q hq).sourcesNodup.imp ?_
      intro s s' hne z hz hz'
      obtain ⟨g, -, rfl⟩ := List.mem_map.1 hz
      obtain ⟨g', -, h⟩ := List.mem_map.1 hz'
      exact hne (Prod.mk.inj h).1.symm
  have hin : ∀ q < n, (W q).inIds = (Z q).map Prod.snd := by
    intro q hq
    rw [(hI.sync q hq).inIds, List.map_flatMap]
    congr 1
    funext s
    rw [List.map_map]
    exact (List.map_id _).symm
  have hpacked : ∀ q, ((W q).sources.flatMap fun s => blk s q) =
      (Z q).flatMap fun z => (List.range ncomp).map (V z.1 z.2) := by
    intro q
    simp only [Z, blk]
    rw [List.flatMap_assoc]
    congr 1
    funext s
    rw [List.flatMap_map]
  have hfin := mapRanks_exists (n := n) (W := W)
    (f := fun r a => (rd ((List.range n).map fun q => (W q).sources.flatMap fun s => blk s q) r).bind
      fun packed => (rd dsts r).bind fun dst => surfUnpack (env.schedUnpack r) a ncomp packed dst)
    (P := fun q res => res.length = (dsts.getD q []).length ∧
      (∀ i, ∀ c < ncomp, res[i * ncomp + c]? = ((dsts.getD q [])[i * ncomp + c]?).map fun a =>
        a + (((Z q).filter fun z => (owned.getD q []).idxOf z.2 = i).map fun z => V z.1 z.2 c).sum) ∧
      ∀ k, (owned.getD q []).length * ncomp ≤ k → res[k]? = (dsts.getD q [])[k]?) (by
    intro q hq
    rw [rd_table (fun q => (W q).sources.flatMap fun s => blk s q) hq, Option.bind_some]
    simp only [rd]
    rw [hdget q hq, Option.bind_some, hpacked]
    unfold surfUnpack
    have hlen : (W q).inIds.length = (Z q).length := by rw [hin q hq, List.length_map]
    by_cases h0 : (W q).inIds.length ≠ 0
    · rw [if_pos h0, hlen]
      obtain ⟨res, a1, a2, a3, a4⟩ := addRows (ncomp := ncomp) (env.schedUnpack q) (Z q)
        (fun z => (owned.getD q []).idxOf z.2) (fun z c => V z.1 z.2 c) (dsts.getD q [])
        (fun x dst => (rd (W q).inIds x.1).bind fun gid => (surfFind (W q).ownedIndex gid).bind
          fun i => (rd ((Z q).flatMap fun z => (List.range ncomp).map (V z.1 z.2))
            (x.1 * ncomp + x.2)).bind fun v => (rd dst (ncomp * i + x.2)).bind fun current =>
              st dst (ncomp * i + x.2) (current + v))
        (by
          intro x o z hz hx2
          simp only [rd]
          rw [hin q hq, List.getElem?_map, hz, Option.map_some, Option.bind_some]
          obtain ⟨z1, z2⟩ := (hZmem q hq z.1 z.2).1 (List.mem_of_getElem? hz)
          rw [find_idxOf (hI.core q hq).index (hRface _ z1 q hq _ z2), Option.bind_some,
            getElem?_rows (f := fun z : Nat × Int => V z.1 z.2) hz hx2, Option.bind_some,
            Nat.mul_comm ncomp])
        (by
          rintro ⟨s, g⟩ hz c hc
          obtain ⟨z1, z2⟩ := (hZmem q hq s g).1 hz
          have := row_lt hc (List.idxOf_lt_length_of_mem (hRface _ z1 q hq _ z2))
          have := hdroom q hq
          dsimp only; omega)
      refine ⟨res, a1, a2, a3, fun k hk => a4 k ?_⟩
      rintro ⟨s, g⟩ hz c hc
      obtain ⟨z1, z2⟩ := (hZmem q hq s g).1 hz
      have := row_lt hc (List.idxOf_lt_length_of_mem (hRface _ z1 q hq _ z2))
      dsimp only; omega
    · rw [if_neg h0]
      have hZ0 : Z q = [] := List.length_eq_zero_iff.1 (by omega)
      refine ⟨_, rfl, rfl, fun i c _ => ?_, fun k _ => rfl⟩
      rw [hZ0]
      simp)
  obtain ⟨G, f1, f2⟩ := hfin
  refine ⟨_, f1, by simp, ?_⟩
  intro q faces dst res hq1 hq2 hq3
  have hq : q < n := by
    have := (List.getElem?_eq_some_iff.1 hq1).1; exact this
  rw [show ((List.range n).map G)[q]? = some (G q) from rd_table G hq] at hq3
  cases hq3
  rw [hdget q hq] at hq2
  cases hq2
  rw [hoget q hq] at hq1
  cases hq1
  obtain ⟨b1, b2, b3⟩ := f2 q hq
  refine ⟨b1, fun i face hface cx hcx => ?_, b3⟩
  have hfl := (List.getElem?_eq_some_iff.1 hface).1
  have hlt : i * ncomp + cx < (dsts.getD q []).length := by
    have := row_lt hcx hfl
    have := hdroom q hq; omega
  have hold : (dsts.getD q [])[i * ncomp + cx]? = some (dsts.getD q [])[i * ncomp + cx] :=
    List.getElem?_eq_getElem hlt
  refine ⟨_, _, hold, by rw [b2 i cx hcx, hold]; rfl, ?_⟩
  have hloc : ∀ z ∈ Z q, ((owned.getD q []).idxOf z.2 = i ↔ z.2 = face) := by
    rintro ⟨s, g⟩ hz
    obtain ⟨z1, z2⟩ := (hZmem q hq s g).1 hz
    have hg := hRface _ z1 q hq _ z2
    obtain ⟨_, hfe⟩ := List.getElem?_eq_some_iff.1 hface
    dsimp only
    constructor
    · intro h
      rw [← hfe]
      simp only [← h, List.getElem_idxOf]
    · intro h
      rw [h, ← hfe, List.Nodup.idxOf_getElem (surfOwn_nodup ho hq)]
  let F := (Z q).filter fun z => (owned.getD q []).idxOf z.2 = i
  have hF : ∀ z ∈ F, z.2 = face := by
    intro z hz
    obtain ⟨h1, h2⟩ := List.mem_filter.1 hz
    exact (hloc z h1).1 (by simpa using h2)
  have hholders : ∀ s, s ∈ F.map Prod.fst ↔ Spec.Announced calls s face := by
    intro s
    constructor
    · intro h
      obtain ⟨⟨s', g⟩, hz, rfl⟩ := List.mem_map.1 h
      have hg := hF _ hz
      dsimp only at hg
      subst hg
      obtain ⟨z1, z2⟩ := (hZmem q hq s' g).1 (List.mem_filter.1 hz).1
      exact (((hI.core _ z1).mem q hq _).1 z2).1
    · intro h
      have hs := h.lt hcalls
      have hm := ((hI.core s hs).mem q hq face).2
        ⟨h, (surfOwn_iff hq face).2 (List.mem_of_getElem? hface)⟩
      have hz := (hZmem q hq s face).2 ⟨hs, hm⟩
      exact List.mem_map.2 ⟨(s, face), List.mem_filter.2 ⟨hz, by
        simpa using (hloc _ hz).2 rfl⟩, rfl⟩
  refine ⟨F.map Prod.fst, fun s => V s face cx, ?_, hholders, ?_, ?_⟩
  · refine List.Nodup.map_on ?_ ((hZnd q hq).filter _)
    intro z hz z' hz' hzz
    exact Prod.ext hzz ((hF z hz).trans (hF z' hz').symm)
  · intro s hs
    have hH := (hholders s).1 hs
    have hs' := hH.lt hcalls
    have hseq := ((hI.core s hs').seq face).2 hH
    exact ⟨W s, _, _, rd_table W hs', hsget s hs', find_idxOf (hI.core s hs').find hseq,
      hV s hs' face hseq cx hcx⟩
  · rw [List.map_map]
    show _ + (F.map fun z => V z.1 z.2 cx).sum = _
    congr 2
    refine List.map_congr_left fun z hz => ?_
    simp only [Function.comp]
    rw [hF z hz]

/-- C63. `reverse_exchange_from_device`, when the kernel can read the buffer it is passed:
every rank's entry for a face it has announced becomes the owner's value for that face;
nothing else changes. -/
theorem C63_backward {T : Type} [Inhabited T] (ho : Spec.FacesOwned owned)
    (hcalls : ∀ c ∈ calls, Spec.PairsOk owned c.pairs) (hw : surfRun owned calls = some w)
    (env : SurfEnv T) (ncomp : Nat) {srcs dsts : List (List T)} {aware host : Bool}
    (hread : (aware || host) = true)
    (hsrc : Spec.Room (owned.map List.length) ncomp srcs)
    (hdst : Spec.Room (w.map surfNumGeoms) ncomp dsts) :
    ∃ out, surfBackward env aware host ncomp w srcs dsts = some out ∧ out.length = owned.length ∧
      ∀ (s : Nat) a dst res, w[s]? = some a → dsts[s]? = some dst → out[s]? = some res →
        res.length = dst.length ∧
        (∀ face (q : Nat) faces src (i k : Nat), Spec.Announced calls s face → owned[q]? = some faces →
          srcs[q]? = some src → faces[i]? = some face → surfSeqOf a face = some k →
          ∀ cx < ncomp, ∃ v, src[i * ncomp + cx]? = some v ∧ res[k * ncomp + cx]? = some v) ∧
        ∀ (k : Nat), surfNumGeoms a * ncomp ≤ k → res[k]? = dst[k]? := by
  obtain ⟨W, R, h1, hI⟩ := surfRun_inv ho calls hcalls
  rw [h1] at hw
  cases hw
  set n := owned.length with hn
  have hsl : srcs.length = n := by have := hsrc.1; simpa using this
  have hdl : dsts.length = n := by have := hdst.1; simpa using this
  have hsget : ∀ r < n, srcs[r]? = some (srcs.getD r []) := fun r hr => by
    rw [List.getD_eq_getElem?_getD, List.getElem?_eq_getElem (by omega), Option.getD_some]
  have hdget : ∀ r < n, dsts[r]? = some (dsts.getD r []) := fun r hr => by
    rw [List.getD_eq_getElem?_getD, List.getElem?_eq_getElem (by omega), Option.getD_some]
  have hoget : ∀ r < n, owned[r]? = some (owned.getD r []) := fun r hr => by
    rw [List.getD_eq_getElem?_getD, List.getElem?_eq_getElem (by omega), Option.getD_some]
  have hdroom : ∀ r < n, (W r).seqGeom.length * ncomp ≤ (dsts.getD r []).length := fun r hr =>
    hdst.2 r _ _ (by
      rw [List.getElem?_map, show ((List.range n).map W)[r]? = some (W r) from rd_table W hr]
      rfl) (hdget r hr)
  have hsroom : ∀ r < n, (owned.getD r []).length * ncomp ≤ (srcs.getD r []).length := fun r hr =>
    hsrc.2 r _ _ (by rw [List.getElem?_map, hoget r hr, Option.map_some]) (hsget r hr)
  -- the values of the owner `q` of a face
  let V := fun (q : Nat) (g : Int) (c : Nat) =>
    ((srcs.getD q [])[(owned.getD q []).idxOf g * ncomp + c]?).getD default
  have hV : ∀ q < n, ∀ g ∈ owned.getD q [], ∀ c < ncomp,
      (srcs.getD q [])[(owned.getD q []).idxOf g * ncomp + c]? = some (V q g c) := by
    intro q hq g hg c hc
    have := row_lt (n := ncomp) hc (List.idxOf_lt_length_of_mem hg)
    simp only [V]
    rw [List.getElem?_eq_getElem (by have := hsroom q hq; omega), Option.getD_some]
  let blk := fun q s => (R s q).flatMap fun g => (List.range ncomp).map (V q g)
  have hRseq : ∀ s < n, ∀ q < n, ∀ g ∈ R s q, g ∈ (W s).seqGeom := fun s hs q hq g hg =>
    ((hI.core s hs).seq g).2 (((hI.core s hs).mem q hq g).1 hg).1
  have hRface : ∀ s < n, ∀ q < n, ∀ g ∈ R s q, g ∈ owned.getD q [] := fun s hs q hq g hg =>
    (surfOwn_iff hq g).1 (((hI.core s hs).mem q hq g).1 hg).2
  have hrd : ∀ r < n, ∀ d, d ∈ (W r).revDests ↔ d < n ∧ R d r ≠ [] := fun r hr d => by
    rw [(hI.sync r hr).revDests.mem_iff, (hI.sync r hr).sources]
  have hrs : ∀ r < n, ∀ s, s ∈ (W r).revSources ↔ s < n ∧ R r s ≠ [] := fun r hr s => by
    rw [(hI.sync r hr).revSources.mem_iff, (hI.sync r hr).dests]
  unfold surfBackward
  -- packing
  have e1 : (mapRanks ((List.range n).map W) fun r a => (rd srcs r).bind fun src =>
      surfRevPack (env.schedPack r) a ncomp src
        (env.memOut r ((a.revPack.getD []).length * ncomp)).1) =
      some ((List.range n).map fun r => (W r).revDests.flatMap (blk r)) := by
    refine mapRanks_table fun r hr => ?_
    have hs := hI.sync r hr
    simp only [rd]
    rw [hsget r hr, Option.bind_some]
    let L := (W r).revDests.flatMap fun s => R s r
    have hpack : (W r).revPack.getD [] = L.map (owned.getD r []).idxOf := by
      rw [hs.revPack, List.map_flatMap]
    have hrows : (W r).revDests.flatMap (blk r) =
        L.flatMap fun g => (List.range ncomp).map (V r g) := by
      simp only [L, blk]
      rw [List.flatMap_assoc]
    have hL : ∀ g ∈ L, g ∈ owned.getD r [] := by
      intro g hg
      obtain ⟨s, h1, h2⟩ := List.mem_flatMap.1 hg
      exact hRface s ((hrd r hr s).1 h1).1 r hr g h2
    rw [hrows, hpack, List.length_map]
    have hml := (env.memOut r (L.length * ncomp)).2
    generalize (env.memOut r (L.length * ncomp)).1 = mem at hml
    unfold surfRevPack
    by_cases h0 : (W r).inIds.length ≠ 0
    · rw [if_pos h0]
      cases hp : (W r).revPack with
      | none =>
        have := hs.revPackSome hp
        rw [this] at h0
        exact absurd rfl h0
      | some pack =>
        rw [hp, Option.getD_some] at hpack
        rw [Option.bind_some]
        subst hpack
        obtain ⟨out', a1, a2, a3, -⟩ := copyRows (N := (L.map (owned.getD r []).idxOf).length)
          (ncomp := ncomp) (env.schedPack r) (fun i => (L.map (owned.getD r []).idxOf).getD i 0) id
          (srcs.getD r []) mem
          (fun x out => (rd (L.map (owned.getD r []).idxOf) x.1).bind fun i =>
            (rd (srcs.getD r []) (i * ncomp + x.2)).bind fun v => st out (x.1 * ncomp + x.2) v)
          (by
            intro x o hx _
            simp only [rd, id]
            rw [List.getElem?_eq_getElem hx, Option.bind_some,
              List.getD_eq_getElem?_getD (l := L.map (owned.getD r []).idxOf),
              List.getElem?_eq_getElem hx, Option.getD_some])
          (fun i _ j _ h => h)
          (by
            intro i hi c hc
            rw [List.getD_eq_getElem?_getD (l := L.map (owned.getD r []).idxOf),
              List.getElem?_eq_getElem hi, Option.getD_some, List.getElem_map]
            have := row_lt hc (List.idxOf_lt_length_of_mem (hL _ (List.getElem_mem
              (show i < L.length by simpa using hi))))
            have := hsroom r hr; omega)
          (by
            intro i hi c hc
            rw [hml]
            exact row_lt hc (by simpa using hi))
        rw [a1]
        congr 1
        refine eq_rows (by rw [a2, hml]) fun p g hg c hc => ?_
        have hp' := (List.getElem?_eq_some_iff.1 hg).1
        have := a3 p (by simpa using hp') c hc
        simp only [id] at this
        rw [this, List.getD_eq_getElem?_getD (l := L.map (owned.getD r []).idxOf),
          List.getElem?_map, hg, Option.map_some, Option.getD_some]
        exact hV r hr g (hL g (List.mem_of_getElem? hg)) c hc
    · rw [if_neg h0]
      congr 1
      have h0' : (W r).inIds = [] := List.length_eq_zero_iff.1 (by omega)
      have hL0 : L = [] := by
        rw [List.eq_nil_iff_forall_not_mem]
        intro g hg
        obtain ⟨s, h1, h2⟩ := List.mem_flatMap.1 hg
        have : g ∈ (W r).inIds := by
          rw [hs.inIds]
          exact List.mem_flatMap.2 ⟨s, hs.revDests.mem_iff.1 h1, h2⟩
        rw [h0'] at this
        cases this
      rw [hL0] at hml ⊢
      exact List.length_eq_zero_iff.1 (by rw [hml]; simp)
  rw [e1, Option.bind_some]
  rw [mapRanks_table (W := W) (n := n)
    (f := fun r a => some (env.memIn r ((a.revUnpack.getD []).length * ncomp)).1)
    (g := fun r => (env.memIn r (((W r).revUnpack.getD []).length * ncomp)).1) fun r _ => rfl,
    Option.bind_some]
  rw [surfRevExchange_eq (R := R) hrd hrs (fun r hr => (hI.sync r hr).revOutCounts)
    (fun r hr => (hI.sync r hr).revInCounts)
    (fun s _ q _ => length_rows ncomp (R q s) (V s))
    (fun r hr => by
      rw [(env.memIn r _).2, (hI.sync r hr).revUnpack, (hI.sync r hr).revInCounts, List.length_flatMap]
      simp), Option.bind_some]
  -- unpacking
  let Y := fun s => (W s).revSources.flatMap fun q => (R s q).map fun g => (q, g)
  have hYmem : ∀ s < n, ∀ q g, (q, g) ∈ Y s ↔ q < n ∧ g ∈ R s q := by
    intro s hs q g
    simp only [Y, List.mem_flatMap, List.mem_map, Prod.mk.injEq]
    constructor
    · rintro ⟨q', h1, g', h2, rfl, rfl⟩
      exact ⟨((hrs s hs q').1 h1).1, h2⟩
    · rintro ⟨h1, h2⟩
      exact ⟨q, (hrs s hs q).2 ⟨h1, List.ne_nil_of_mem h2⟩, g, h2, rfl, rfl⟩
  have hYsnd : ∀ s, (Y s).map Prod.snd = (W s).revSources.flatMap (R s) := by
    intro s
    simp only [Y]
    rw [List.map_flatMap]
    congr 1
    funext q
    rw [List.map_map]
    exact List.map_id _
  have hYnd : ∀ s < n, ((Y s).map Prod.snd).Nodup := by
    intro s hs
    rw [hYsnd]
    exact hI.outIds_nodup ho hs ((hI.sync s hs).revSources.nodup_iff.2 (hI.sync s hs).destsNodup)
      fun q hq => ((hrs s hs q).1 hq).1
  have hpacked : ∀ s, ((W s).revSources.flatMap fun q => blk q s) =
      (Y s).flatMap fun z => (List.range ncomp).map (V z.1 z.2) := by
    intro s
    simp only [Y, blk]
    rw [List.flatMap_assoc]
    congr 1
    funext q
    rw [List.flatMap_map]
  have hfin := mapRanks_exists (n := n) (W := W)
    (f := fun r a => (rd ((List.range n).map fun q => (W q).revSources.flatMap fun s => blk s q) r).bind
      fun packed => (rd dsts r).bind fun dst =>
        surfRevUnpack (env.schedUnpack r) (aware || host) a ncomp packed dst)
    (P := fun s res => res.length = (dsts.getD s []).length ∧
      (∀ q g, (q, g) ∈ Y s → ∀ c < ncomp,
        res[(W s).seqGeom.idxOf g * ncomp + c]? = some (V q g c)) ∧
      ∀ k, (W s).seqGeom.length * ncomp ≤ k → res[k]? = (dsts.getD s [])[k]?) (by
    intro s hs
    rw [rd_table (fun q => (W q).revSources.flatMap fun s => blk s q) hs, Option.bind_some]
    simp only [rd]
    rw [hdget s hs, Option.bind_some, hpacked, hread]
    unfold surfRevUnpack
    have hunp : (W s).revUnpack.getD [] = (Y s).map fun z => (W s).seqGeom.idxOf z.2 := by
      rw [(hI.sync s hs).revUnpack, show ((Y s).map fun z => (W s).seqGeom.idxOf z.2) =
        ((Y s).map Prod.snd).map (W s).seqGeom.idxOf by rw [List.map_map]; rfl, hYsnd,
        List.map_flatMap]
    have hYseq : ∀ z ∈ Y s, z.2 ∈ (W s).seqGeom := by
      rintro ⟨q, g⟩ hz
      obtain ⟨z1, z2⟩ := (hYmem s hs q g).1 hz
      exact hRseq s hs q z1 g z2
    by_cases h0 : (W s).seqGeom.length ≠ 0
    · rw [if_pos h0]
      cases hp : (W s).revUnpack with
      | none =>
        have := (hI.sync s hs).revUnpackSome hp
        rw [this] at h0
        exact absurd rfl h0
      | some unpack =>
        rw [hp, Option.getD_some] at hunp
        rw [Option.bind_some]
        have hul : unpack.length = (Y s).length := by rw [hunp, List.length_map]
        rw [hul]
        have hug : ∀ (i : Nat) z, (Y s)[i]? = some z → unpack[i]? = some ((W s).seqGeom.idxOf z.2) := by
          intro i z hz
          rw [hunp, List.getElem?_map, hz, Option.map_some]
        have hgd : ∀ (i : Nat) z, (Y s)[i]? = some z → unpack.getD i 0 = (W s).seqGeom.idxOf z.2 := by
          intro i z hz
          rw [List.getD_eq_getElem?_getD, hug i z hz, Option.getD_some]
        obtain ⟨res, a1, a2, a3, a4⟩ := copyRows (N := (Y s).length) (ncomp := ncomp)
          (env.schedUnpack s) id (fun i => unpack.getD i 0)
          ((Y s).flatMap fun z => (List.range ncomp).map (V z.1 z.2)) (dsts.getD s [])
          (fun x dst => (rd unpack x.1).bind fun i => if true then
            (rd ((Y s).flatMap fun z => (List.range ncomp).map (V z.1 z.2)) (x.1 * ncomp + x.2)).bind
              fun v => st dst (i * ncomp + x.2) v else none)
          (by
            intro x o hx _
            have hz : (Y s)[x.1]? = some (Y s)[x.1] := List.getElem?_eq_getElem hx
            simp only [rd, id]
            rw [hug _ _ hz, hgd _ _ hz, Option.bind_some, if_pos trivial])
          (by
            intro i hi j hj hij
            have hzi : (Y s)[i]? = some (Y s)[i] := List.getElem?_eq_getElem hi
            have hzj : (Y s)[j]? = some (Y s)[j] := List.getElem?_eq_getElem hj
            rw [hgd _ _ hzi, hgd _ _ hzj] at hij
            have := (List.idxOf_inj (hYseq _ (List.getElem_mem hi))).1 hij
            refine (List.Nodup.getElem_inj_iff (hYnd s hs) (hi := by simpa using hi)
              (hj := by simpa using hj)).1 ?_
            rw [List.getElem_map, List.getElem_map]
            exact this)
          (by
            intro i hi c hc
            rw [length_rows ncomp (Y s) fun z => V z.1 z.2]
            exact row_lt hc hi)
          (by
            intro i hi c hc
            have hzi : (Y s)[i]? = some (Y s)[i] := List.getElem?_eq_getElem hi
            rw [hgd _ _ hzi]
            have := row_lt hc (List.idxOf_lt_length_of_mem (hYseq _ (List.getElem_mem hi)))
            have := hdroom s hs; omega)
        refine ⟨res, a1, a2, ?_, fun k hk => a4 k ?_⟩
        · intro q g hz c hc
          obtain ⟨i, hi, hzi⟩ := List.mem_iff_getElem.1 hz
          have hzi : (Y s)[i]? = some (q, g) := by rw [List.getElem?_eq_getElem hi, hzi]
          have := a3 i hi c hc
          rw [hgd _ _ hzi] at this
          rw [this]
          exact getElem?_rows (f := fun z : Nat × Int => V z.1 z.2) hzi hc
        · intro i hi c hc
          have hzi : (Y s)[i]? = some (Y s)[i] := List.getElem?_eq_getElem hi
          rw [hgd _ _ hzi]
          have := row_lt hc (List.idxOf_lt_length_of_mem (hYseq _ (List.getElem_mem hi)))
          omega
    · rw [if_neg h0]
      have h0' : (W s).seqGeom = [] := List.length_eq_zero_iff.1 (by omega)
      refine ⟨_, rfl, rfl, fun q g hz => ?_, fun k _ => rfl⟩
      have := hYseq _ hz
      rw [h0'] at this
      cases this)
  obtain ⟨G, f1, f2⟩ := hfin
  refine ⟨_, f1, by simp, ?_⟩
  intro s a dst res hs1 hs2 hs3
  have hs : s < n := by
    have := (List.getElem?_eq_some_iff.1 hs1).1; simpa using this
  rw [show ((List.range n).map G)[s]? = some (G s) from rd_table G hs] at hs3
  cases hs3
  rw [hdget s hs] at hs2
  cases hs2
  rw [show ((List.range n).map W)[s]? = some (W s) from rd_table W hs] at hs1
  cases hs1
  obtain ⟨b1, b2, b3⟩ := f2 s hs
  refine ⟨b1, ?_, b3⟩
  intro face q faces src i k hH hq1 hq2 hi hk cx hcx
  have hq : q < n := (List.getElem?_eq_some_iff.1 hq1).1
  rw [hoget q hq] at hq1
  cases hq1
  rw [hsget q hq] at hq2
  cases hq2
  have hface := List.mem_of_getElem? hi
  have hm := ((hI.core s hs).mem q hq face).2 ⟨hH, (surfOwn_iff hq face).2 hface⟩
  have hii : (owned.getD q []).idxOf face = i := by
    obtain ⟨hlt, he⟩ := List.getElem?_eq_some_iff.1 hi
    rw [← he, List.Nodup.idxOf_getElem (surfOwn_nodup ho hq)]
  have hkk : (W s).seqGeom.idxOf face = k := by
    have := find_idxOf (hI.core s hs).find (((hI.core s hs).seq face).2 hH)
    unfold surfSeqOf at hk
    rw [this] at hk
    exact Option.some.inj hk
  refine ⟨V q face cx, ?_, ?_⟩
  · rw [← hii]; exact hV q hq face hface cx hcx
  · rw [← hkk]; exact b2 q face ((hYmem s hs q face).2 ⟨hq, hm⟩) cx hcx

/-- C63. When MPI cannot be given device memory and kernels cannot read host memory, sending data
back fails as soon as some rank has announced a face: the kernel is given host memory. -/
theorem C63_backward_host_memory {T : Type} (ho : Spec.FacesOwned owned)
    (hcalls : ∀ c ∈ calls, Spec.PairsOk owned c.pairs) (hw : surfRun owned calls = some w)
    (env : SurfEnv T) {ncomp s : Nat} {face : Int} (srcs dsts : List (List T))
    (hs : s < owned.length) (hface : Spec.Announced calls s face) (hc : 0 < ncomp) :
    surfBackward env false false ncomp w srcs dsts = none := by
  obtain ⟨W, R, h1, hI⟩ := surfRun_inv ho calls hcalls
  rw [h1] at hw
  cases hw
  unfold surfBackward
  cases (mapRanks ((List.range owned.length).map W) fun r a => (rd srcs r).bind fun src =>
      surfRevPack (env.schedPack r) a ncomp src
        (env.memOut r ((a.revPack.getD []).length * ncomp)).1) with
  | none => rfl
  | some sbufs =>
    rw [Option.bind_some]
    cases (mapRanks ((List.range owned.length).map W) fun r a =>
        some (env.memIn r ((a.revUnpack.getD []).length * ncomp)).1) with
    | none => rfl
    | some rbufs =>
      rw [Option.bind_some]
      cases surfRevExchange ncomp ((List.range owned.length).map W) sbufs rbufs with
      | none => rfl
      | some got =>
        rw [Option.bind_some]
        refine mapRanks_none hs ?_
        cases rd got s with
        | none => rfl
        | some packed =>
          rw [Option.bind_some]
          cases rd dsts s with
          | none => rfl
          | some dst =>
            rw [Option.bind_some]
            have hseq : face ∈ (W s).seqGeom := ((hI.core s hs).seq face).2 hface
            have hne : (W s).seqGeom ≠ [] := List.ne_nil_of_mem hseq
            obtain ⟨q, hq, hm⟩ : ∃ q, q < owned.length ∧ face ∈ R s q := by
              obtain ⟨c, hc1, ps, hps, q, hq⟩ := hface
              obtain ⟨faces, hf1, hf2⟩ := (hcalls c hc1).2 ps (List.mem_of_getElem? hps) _ hq
              have hq' : q < owned.length := (List.getElem?_eq_some_iff.1 hf1).1
              refine ⟨q, hq', ((hI.core s hs).mem q hq' face).2
                ⟨⟨c, hc1, ps, hps, q, hq⟩, (surfOwn_iff hq' face).2 ?_⟩⟩
              dsimp only at hf1
              rw [List.getD_eq_getElem?_getD, hf1]
              exact hf2
            unfold surfRevUnpack
            rw [if_pos (by simpa using hne)]
            cases hu : (W s).revUnpack with
            | none => exact absurd ((hI.sync s hs).revUnpackSome hu) hne
            | some unpack =>
              rw [Option.bind_some]
              have hun := (hI.sync s hs).revUnpack
              rw [hu, Option.getD_some] at hun
              have hmem : (W s).seqGeom.idxOf face ∈ unpack := by
                rw [hun]
                refine List.mem_flatMap.2 ⟨q, ?_, List.mem_map_of_mem hm⟩
                rw [(hI.sync s hs).revSources.mem_iff, (hI.sync s hs).dests]
                exact ⟨hq, List.ne_nil_of_mem hm⟩
              have hpos : 0 < unpack.length := List.length_pos_of_mem hmem
              have hit : (0, 0) ∈ surfItems (env.schedUnpack s) unpack.length ncomp :=
                mem_surfItems.2 ⟨hpos, hc⟩
              cases hitems : surfItems (env.schedUnpack s) unpack.length ncomp with
              | nil => rw [hitems] at hit; cases hit
              | cons x xs =>
                rw [runItems_cons]
                cases rd unpack x.1 <;> rfl

namespace Ex

/-- Three ranks own two, one and one faces. -/
def surfOwned : List (List Int) := [[10, 11], [20], [30]]

/-- MPI reports the neighbours in some order. -/
def surfMpi : SurfOrders :=
  ⟨fun _ => .inOrder, fun _ => .reversed, fun _ => .reversed, fun _ => .inOrder⟩

/-- Memory filled with a number that is not a face. -/
def surfMem : Nat → Fresh Int := fun _ n => ⟨List.replicate n (-7), by simp⟩

/-- First ranks 0 and 1 announce the face of rank 2 and other faces, then rank 1 announces
faces of rank 0, and last rank 0 repeats what it said before. -/
def surfCalls : List SurfCall :=
  [⟨surfMpi, surfMem, [[(2, 30), (1, 20)], [(2, 30)], [(0, 11)]]⟩,
    ⟨surfMpi, surfMem, [[], [(0, 11), (0, 10), (2, 30)], []]⟩,
    ⟨surfMpi, surfMem, [[(1, 20)], [], []]⟩]

def surfEnv : SurfEnv Int :=
  ⟨fun _ n => ⟨List.replicate n 99, by simp⟩, fun _ n => ⟨List.replicate n 98, by simp⟩,
    fun _ => .reversed, fun _ => .inOrder⟩

/-- The state after the calls. -/
def surfWorld : List SurfRank := (surfRun surfOwned surfCalls).getD []

theorem surfOwned_ok : Spec.FacesOwned surfOwned := by
  unfold Spec.FacesOwned
  decide

theorem surfCalls_ok : ∀ c ∈ surfCalls, Spec.PairsOk surfOwned c.pairs := by
  have h : ∀ c ∈ surfCalls.map SurfCall.pairs, c.length = surfOwned.length ∧
      ∀ ps ∈ c, ∀ p ∈ ps, p.2 ∈ surfOwned.getD p.1 [] := by decide
  intro c hc
  obtain ⟨h1, h2⟩ := h _ (List.mem_map_of_mem hc)
  refine ⟨h1, fun ps hps p hp => ?_⟩
  have := h2 ps hps p hp
  rw [List.getD_eq_getElem?_getD] at this
  cases hx : surfOwned[p.1]? with
  | none => rw [hx] at this; cases this
  | some l => rw [hx] at this; exact ⟨l, rfl, this⟩

theorem surfWorld_run : surfRun surfOwned surfCalls = some surfWorld := by
  obtain ⟨w, h, -⟩ := C63_numbering surfOwned_ok surfCalls_ok
  unfold surfWorld
  rw [h, Option.getD_some]

-- The numbering of the faces on each rank.
example : surfWorld.map SurfRank.seqGeom = [[30, 20], [30, 11, 10], [11]] := by decide +kernel
example : surfWorld.map SurfRank.version = [3, 3, 3] := by decide +kernel

-- The hypotheses of `C63_numbering`, `C63_extension` and `C63_rejects` are met.
example : ∃ w, surfRun surfOwned surfCalls = some w ∧ w.length = 3 := by
  obtain ⟨w, h1, h2, -⟩ := C63_numbering surfOwned_ok surfCalls_ok
  exact ⟨w, h1, h2⟩

example : surfRun surfOwned (surfCalls ++ [⟨surfMpi, surfMem, [[(1, 30)], [], []]⟩]) = none :=
  C63_rejects surfOwned_ok surfCalls_ok rfl fun h => by
    obtain ⟨faces, h1, h2⟩ := h.2 [(1, 30)] (by simp) (1, 30) (by simp)
    cases h1
    revert h2
    decide

example : ∃ w', surfRun surfOwned (surfCalls ++ [⟨surfMpi, surfMem, [[(0, 10)], [], []]⟩]) = some w' ∧
    ∀ (s : Nat) a a', surfWorld[s]? = some a → w'[s]? = some a' → a'.version = a.version + 1 := by
  obtain ⟨w', h1, -, -, h4⟩ := C63_extension (c := ⟨surfMpi, surfMem, [[(0, 10)], [], []]⟩)
    surfOwned_ok surfCalls_ok
    (by
      refine ⟨rfl, fun ps hps p hp => ?_⟩
      simp only [List.mem_cons, List.not_mem_nil, or_false] at hps
      rcases hps with rfl | rfl | rfl
      · simp only [List.mem_cons, List.not_mem_nil, or_false] at hp
        subst hp
        exact ⟨[10, 11], rfl, by simp⟩
      · cases hp
      · cases hp) surfWorld_run
  refine ⟨w', h1, h4 ⟨0, 10, ⟨_, List.mem_singleton.2 rfl, [(0, 10)], rfl, 0, by simp⟩, ?_⟩⟩
  rintro ⟨c, hc, ps, hps, q, hq⟩
  have : ∀ c ∈ surfCalls.map SurfCall.pairs, ∀ p ∈ c.getD 0 [], p.2 ≠ 10 := by decide
  refine this _ (List.mem_map_of_mem hc) (q, 10) ?_ rfl
  rw [List.getD_eq_getElem?_getD, hps]
  exact hq

theorem surfRoom {T : Type} {counts : List Nat} {ncomp : Nat} {bufs : List (List T)}
    (h : bufs.map List.length = counts.map (· * ncomp)) : Spec.Room counts ncomp bufs := by
  refine ⟨by simpa using congrArg List.length h, fun r c b hc hb => ?_⟩
  have := congrArg (fun l => l[r]?) h
  simp only [List.getElem?_map, hc, hb, Option.map_some, Option.some.injEq] at this
  exact Nat.le_of_eq this.symm

/-- Two values for each announced face on each rank. -/
def surfHeld : List (List Int) := [[1, 2, 3, 4], [5, 6, 7, 8, 9, 10], [11, 12]]

/-- Two values for each owned face on each rank. -/
def surfKept : List (List Int) := [[100, 200, 300, 400], [500, 600], [700, 800]]

theorem surfHeld_room : Spec.Room (surfWorld.map surfNumGeoms) 2 surfHeld :=
  surfRoom (by decide +kernel)

theorem surfKept_room : Spec.Room (surfOwned.map List.length) 2 surfKept :=
  surfRoom (by decide +kernel)

-- The hypotheses of `C63_forward` are met, and what is computed.
example : ∃ out, surfForward surfEnv 2 surfWorld surfHeld surfKept = some out ∧ out.length = 3 := by
  obtain ⟨out, h1, h2, -⟩ :=
    C63_forward surfOwned_ok surfCalls_ok surfWorld_run surfEnv 2 surfHeld_room surfKept_room
  exact ⟨out, h1, h2⟩

example : surfForward surfEnv 2 surfWorld surfHeld surfKept =
    some [[109, 210, 318, 420], [503, 604], [706, 808]] := by decide +kernel

-- The hypotheses of `C63_backward` are met, and what is computed.
example : ∃ out, surfBackward surfEnv true false 2 surfWorld surfKept surfHeld = some out ∧
    out.length = 3 := by
  obtain ⟨out, h1, h2, -⟩ := C63_backward surfOwned_ok surfCalls_ok surfWorld_run surfEnv 2
    (aware := true) (host := false) rfl surfKept_room surfHeld_room
  exact ⟨out, h1, h2⟩

example : surfBackward surfEnv true false 2 surfWorld surfKept surfHeld =
    some [[700, 800, 500, 600], [700, 800, 300, 400, 100, 200], [300, 400]] := by decide +kernel

-- The hypotheses of `C63_backward_host_memory` are met.
example : surfBackward surfEnv false false 2 surfWorld surfKept surfHeld = none :=
  C63_backward_host_memory (s := 0) (face := 30) surfOwned_ok surfCalls_ok surfWorld_run surfEnv
    surfKept surfHeld (by decide)
    ⟨_, List.mem_cons_self, [(2, 30), (1, 20)], rfl, 2, by simp⟩ (by decide)

end Ex

end NP
