import Verif.Boundary.LemmasExchange3

/-!
# Lemmas for the exchange of face data: `extend_exchange_pattern`
-/

set_option autoImplicit false

namespace NP

/-- `exchange_surface` delivers to each rank the blocks sent to it. -/
theorem surfExchange_eq {T : Type} {n ncomp : Nat} {W : Nat → SurfRank}
    {R : Nat → Nat → List Int} {blk : Nat → Nat → List T} {rb : Nat → List T}
    (hdest : ∀ r < n, ∀ d, d ∈ (W r).dests ↔ d < n ∧ R r d ≠ [])
    (hsrc : ∀ r < n, ∀ s, s ∈ (W r).sources ↔ s < n ∧ R s r ≠ [])
    (hout : ∀ r < n, (W r).outCounts = (W r).dests.map fun d => (R r d).length)
    (hin : ∀ r < n, (W r).inCounts = (W r).sources.map fun s => (R s r).length)
    (hblk : ∀ s < n, ∀ q < n, (blk s q).length = (R s q).length * ncomp)
    (hrb : ∀ r < n, (rb r).length = (W r).inCounts.sum * ncomp) :
    surfExchange ncomp ((List.range n).map W) ((List.range n).map fun r => (W r).dests.flatMap (blk r))
        ((List.range n).map rb) =
      some ((List.range n).map fun q => (W q).sources.flatMap fun s => blk s q) := by
  unfold surfExchange
  by_cases hn : ncomp < 1
  · have h0 : ncomp = 0 := by omega
    subst h0
    rw [if_pos hn]
    congr 1
    refine List.map_congr_left fun q hq => ?_
    have hq := List.mem_range.1 hq
    have e1 : rb q = [] := List.length_eq_zero_iff.1 (by rw [hrb q hq, Nat.mul_zero])
    have e2 : ((W q).sources.flatMap fun s => blk s q) = [] := by
      rw [List.flatMap_eq_nil_iff]
      intro s hs
      exact List.length_eq_zero_iff.1 (by rw [hblk s ((hsrc q hq s).1 hs).1 q hq, Nat.mul_zero])
    rw [e1, e2]
  rw [if_neg hn, mapRanks_table (g := fun r =>
    surfArgs ncomp (W r) ((W r).dests.flatMap (blk r)) (rb r)) fun r hr => by
      rw [rd_table (fun r => (W r).dests.flatMap (blk r)) hr, Option.bind_some, rd_table rb hr,
        Option.bind_some]]
  rw [Option.bind_some]
  have hsc : ∀ s < n, (W s).outCounts.map (· * ncomp) = (W s).dests.map fun d => (blk s d).length := by
    intro s hs
    rw [hout s hs, List.map_map]
    refine List.map_congr_left fun d hd => ?_
    rw [hblk s hs d ((hdest s hs d).1 hd).1]; rfl
  have hrc : ∀ q < n, (W q).inCounts.map (· * ncomp) = (W q).sources.map fun s => (blk s q).length := by
    intro q hq
    rw [hin q hq, List.map_map]
    refine List.map_congr_left fun s hs => ?_
    rw [hblk s ((hsrc q hq s).1 hs).1 q hq]; rfl
  exact neighborAlltoallwArgs_eq (K := fun r =>
    surfArgs ncomp (W r) ((W r).dests.flatMap (blk r)) (rb r)) (blk := blk)
    { sbuf := fun s _ => rfl
      sendcounts := hsc
      sdispls := fun s _ => rfl
      recvcounts := hrc
      rdispls := fun q _ => rfl
      rbuf := fun q hq => by
        show (rb q).length = ((W q).inCounts.map (· * ncomp)).sum
        rw [hrb q hq, List.sum_map_mul_right, List.map_id']
      edges := fun q hq s hs => by
        obtain ⟨h1, h2⟩ := (hsrc q hq s).1 hs
        exact ⟨h1, (hdest s h1 q).2 ⟨hq, h2⟩⟩ }

/-- `reverse_exchange_surface` delivers to each rank the blocks sent to it. -/
theorem surfRevExchange_eq {T : Type} {n ncomp : Nat} {W : Nat → SurfRank}
    {R : Nat → Nat → List Int} {blk : Nat → Nat → List T} {rb : Nat → List T}
    (hdest : ∀ r < n, ∀ d, d ∈ (W r).revDests ↔ d < n ∧ R d r ≠ [])
    (hsrc : ∀ r < n, ∀ s, s ∈ (W r).revSources ↔ s < n ∧ R r s ≠ [])
    (hout : ∀ r < n, (W r).revOutCounts = (W r).revDests.map fun d => (R d r).length)
    (hin : ∀ r < n, (W r).revInCounts = (W r).revSources.map fun s => (R r s).length)
    (hblk : ∀ s < n, ∀ q < n, (blk s q).length = (R q s).length * ncomp)
    (hrb : ∀ r < n, (rb r).length = (W r).revInCounts.sum * ncomp) :
    surfRevExchange ncomp ((List.range n).map W)
        ((List.range n).map fun r => (W r).revDests.flatMap (blk r)) ((List.range n).map rb) =
      some ((List.range n).map fun q => (W q).revSources.flatMap fun s => blk s q) :=
  surfExchange_eq (W := fun r => { W r with
      dests := (W r).revDests
      sources := (W r).revSources
      outCounts := (W r).revOutCounts
      inCounts := (W r).revInCounts }) (R := fun s q => R q s) (blk := blk) (rb := rb) hdest hsrc hout hin hblk hrb
    |> fun h => by
      unfold surfExchange at h
      unfold surfRevExchange
      by_cases hn : ncomp < 1
      · rw [if_pos hn] at h ⊢; exact h
      · rw [if_neg hn] at h ⊢
        rw [mapRanks_table (g := fun r =>
          surfRevArgs ncomp (W r) ((W r).revDests.flatMap (blk r)) (rb r)) fun r hr => by
            rw [rd_table (fun r => (W r).revDests.flatMap (blk r)) hr, Option.bind_some,
              rd_table rb hr, Option.bind_some]]
        rw [mapRanks_table (g := fun r =>
          surfRevArgs ncomp (W r) ((W r).revDests.flatMap (blk r)) (rb r)) fun r hr => by
            rw [rd_table (fun r => (W r).revDests.flatMap (blk r)) hr, Option.bind_some,
              rd_table rb hr, Option.bind_some]
            rfl] at h
        exact h

instance : Nonempty SurfRank := ⟨surfNew 0 []⟩

/-- The neighbours of rank `r`, the counts and the ids exchanged when rank `s` holds the
faces `R s q` of rank `q`. -/
def surfIds (mpi : SurfOrders) (n : Nat) (W : Nat → SurfRank) (R : Nat → Nat → List Int) (r : Nat) :
    SurfRank :=
  let out := (mpi.dests r).order (surfKeys (W r))
  let inn := (mpi.sources r).order (surfInEdges ((List.range n).map W) r)
  { W r with
    dests := out
    sources := inn
    revDests := (mpi.revDests r).order inn
    revSources := (mpi.revSources r).order out
    outCounts := out.map fun d => (R r d).length
    inCounts := inn.map fun s => (R s r).length
    outIds := out.flatMap (R r)
    inIds := inn.flatMap fun s => R s r }

/-- The first steps of rebuilding the pattern. -/
theorem surfRebuild_ids {n : Nat} {R : Nat → Nat → List Int} {W : Nat → SurfRank}
    (mpi : SurfOrders) (mem : Nat → Fresh Int)
    (hrecv : ∀ r < n, (W r).recvIds = (List.range n).map (R r)) :
    surfRebuild mpi mem ((List.range n).map W) =
      mapRanks ((List.range n).map (surfIds mpi n W R)) fun _ a =>
        (surfSendIds a).bind fun a => (surfPackIndex a).bind surfReverse := by
  -- topology
  let out := fun r => (mpi.dests r).order (surfKeys (W r))
  let inn := fun r => (mpi.sources r).order (surfInEdges ((List.range n).map W) r)
  have hout : ∀ r < n, ∀ d, d ∈ out r ↔ d < n ∧ R r d ≠ [] := fun r hr d => by
    rw [(((mpi.dests r).perm _).mem_iff), mem_surfKeys (hrecv r hr)]
  have hinn : ∀ r < n, ∀ s, s ∈ inn r ↔ s < n ∧ R s r ≠ [] := fun r hr s => by
    rw [(((mpi.sources r).perm _).mem_iff), mem_surfInEdges hrecv hr]
  let W1 := fun r => { W r with
    dests := out r, sources := inn r
    revDests := (mpi.revDests r).order (inn r), revSources := (mpi.revSources r).order (out r) }
  have e1 : surfTopology mpi ((List.range n).map W) = some ((List.range n).map W1) :=
    mapRanks_table fun r hr => rfl
  -- counts
  let W2 := fun r => { W1 r with outCounts := (out r).map fun d => (R r d).length }
  have e2 : (mapRanks ((List.range n).map W1) fun _ a => surfOutCounts a) =
      some ((List.range n).map W2) := mapRanks_table fun r hr => by
    unfold surfOutCounts
    rw [mapM_of_forall (g := fun d => (R r d).length) fun d hd => by
      show (rd (W r).recvIds d).map _ = _
      rw [hrecv r hr, rd_table _ ((hout r hr d).1 hd).1, Option.map_some]]
    rfl
  let W3 := fun r => { W2 r with inCounts := (inn r).map fun s => (R s r).length }
  have e3 : mapRanks ((List.range n).map W2) (surfInCounts ((List.range n).map W2)) =
      some ((List.range n).map W3) := mapRanks_table fun r hr => by
    unfold surfInCounts
    rw [mapM_of_forall (g := fun s => (R s r).length) fun s hs => by
      obtain ⟨h1, h2⟩ := (hinn r hr s).1 hs
      rw [rd_table W2 h1, Option.bind_some]
      have hd : r ∈ out s := (hout s h1 r).2 ⟨hr, h2⟩
      obtain ⟨i, hi⟩ := Option.isSome_iff_exists.1 (List.isSome_idxOf?.2 hd)
      obtain ⟨hilt, hig, -⟩ := List.idxOf?_eq_some_iff.1 hi
      rw [show (W2 s).dests.idxOf? r = some i from hi, Option.bind_some]
      show ((out s).map fun d => (R s d).length)[i]? = _
      rw [List.getElem?_map, List.getElem?_eq_getElem hilt, hig, Option.map_some]]
    rfl
  -- ids
  let W4 := fun r => { W3 r with outIds := (out r).flatMap (R r) }
  have e4 : (mapRanks ((List.range n).map W3) fun _ a => surfOutIds a) =
      some ((List.range n).map W4) := mapRanks_table fun r hr => by
    unfold surfOutIds
    rw [collectM_eq_flatMap (g := R r) fun d hd => by
      show rd (W r).recvIds d = _
      rw [hrecv r hr, rd_table _ ((hout r hr d).1 hd).1]]
    rw [Option.bind_some, if_pos (by
      show ((out r).flatMap (R r)).length = ((out r).map fun d => (R r d).length).sum
      rw [List.length_flatMap])]
  let W5 := fun r => { W4 r with inIds := (inn r).flatMap fun s => R s r }
  have e5 : surfInIds mem ((List.range n).map W4) = some ((List.range n).map W5) := by
    unfold surfInIds
    rw [mapRanks_table (W := W4) (f := fun _ a => some a.outIds) (n := n)
        (g := fun r => (out r).flatMap (R r)) fun r hr => rfl, Option.bind_some,
      mapRanks_table (W := W4) (f := fun r a => some (mem r a.inCounts.sum).1) (n := n)
        (g := fun r => (mem r (W4 r).inCounts.sum).1) fun r hr => rfl, Option.bind_some]
    have := surfExchange_eq (ncomp := 1) (n := n) (W := W4) (R := R) (blk := R)
      (rb := fun r => (mem r (W4 r).inCounts.sum).1) hout hinn (fun r _ => rfl) (fun r _ => rfl)
      (fun s _ q _ => by omega) (fun r hr => by rw [(mem r _).2, Nat.mul_one])
    rw [show ((List.range n).map fun r => (out r).flatMap (R r)) =
      (List.range n).map fun r => (W4 r).dests.flatMap (R r) from rfl, this, Option.bind_some]
    refine mapRanks_table fun r hr => ?_
    rw [rd_table (fun q => (W4 q).sources.flatMap fun s => R s q) hr, Option.bind_some]
  unfold surfRebuild
  rw [e1, Option.bind_some, e2, Option.bind_some, e3, Option.bind_some, e4, Option.bind_some, e5,
    Option.bind_some]
  rfl

/-- Rebuilding the pattern makes the communication data agree with the faces held. -/
theorem surfRebuild_sync {n : Nat} {Own : Nat → Int → Prop} {H : Nat → Int → Prop}
    {faces : Nat → List Int} {R S : Nat → Nat → List Int} {W : Nat → SurfRank}
    (mpi : SurfOrders) (mem : Nat → Fresh Int)
    (huniq : ∀ q q' g, Own q g → Own q' g → q = q') (hown : ∀ q < n, ∀ g, Own q g ↔ g ∈ faces q)
    (hH : ∀ s < n, ∀ g, H s g → ∃ q < n, Own q g)
    (hc : ∀ r < n, SurfCore n Own (H r) (faces r) (R r) (W r))
    (hsend : ∀ r < n, (W r).sendIds = (List.range n).map (S r))
    (hS : ∀ r < n, ∀ s < n, (S r s).Pairwise (· < ·))
    (hsub : ∀ r < n, ∀ s < n, ∀ g ∈ S r s, g ∈ R s r) :
    ∃ W', surfRebuild mpi mem ((List.range n).map W) = some ((List.range n).map W') ∧
      (∀ r < n, SurfCore n Own (H r) (faces r) (R r) (W' r)) ∧
      (∀ r < n, SurfSync n R (faces r) r (W' r)) ∧
      ∀ r < n, (W' r).version = (W r).version + 1 ∧ (W' r).seqGeom = (W r).seqGeom ∧
        (W' r).geomSeq = (W r).geomSeq := by
  have hmemR : ∀ s < n, ∀ q < n, ∀ g ∈ R s q, g ∈ faces q := fun s hs q hq g hg =>
    (hown q hq g).1 (((hc s hs).mem q hq g).1 hg).2
  have hrecv : ∀ r < n, (W r).recvIds = (List.range n).map (R r) := fun r hr => (hc r hr).recv
  rw [surfRebuild_ids mpi mem hrecv]
  let out := fun r => (mpi.dests r).order (surfKeys (W r))
  let inn := fun r => (mpi.sources r).order (surfInEdges ((List.range n).map W) r)
  have hout : ∀ r < n, ∀ d, d ∈ out r ↔ d < n ∧ R r d ≠ [] := fun r hr d => by
    rw [(((mpi.dests r).perm _).mem_iff), mem_surfKeys (hc r hr).recv]
  have hinn : ∀ r < n, ∀ s, s ∈ inn r ↔ s < n ∧ R s r ≠ [] := fun r hr s => by
    rw [(((mpi.sources r).perm _).mem_iff), mem_surfInEdges hrecv hr]
  have houtN : ∀ r, (out r).Nodup := fun r =>
    ((mpi.dests r).perm _).nodup_iff.2 (List.nodup_range.filter _)
  have hinnN : ∀ r, (inn r).Nodup := fun r =>
    ((mpi.sources r).perm _).nodup_iff.2 (List.nodup_range.filter _)
  let W5 := surfIds mpi n W R
  -- sets and indices
  have e6 := mapRanks_exists (n := n) (W := W5)
    (f := fun _ a => (surfSendIds a).bind fun a => (surfPackIndex a).bind surfReverse)
    (P := fun r b => SurfCore n Own (H r) (faces r) (R r) b ∧ SurfSync n R (faces r) r b ∧
      b.version = (W r).version + 1 ∧ b.seqGeom = (W r).seqGeom ∧ b.geomSeq = (W r).geomSeq) (by
    intro r hr
    have hcr := hc r hr
    obtain ⟨S', h1, h2, h3⟩ := surfSendIds_eq (a := W5 r) (S := S r) (B := fun s => R s r) (n := n)
      (hsend r hr) (hS r hr) (fun s hs => ((hinn r hr s).1 hs).1) rfl rfl (fun s hs g hg => by
        have hs' := ((hinn r hr s).1 hs).1
        show (surfFind (W r).ownedIndex g).isSome
        rw [find_idxOf hcr.index (hmemR s hs' r hr g hg)]
        rfl)
    have hS' : ∀ s < n, S' s = R s r := fun s hs => by
      refine List.Pairwise.eq_of_mem_iff (h2 s hs) ((hc s hs).sorted r hr) fun g => ?_
      rw [h3 s hs]
      constructor
      · rintro (h | h)
        · exact hsub r hr s hs g h
        · exact h.2
      · intro h
        exact Or.inr ⟨(hinn r hr s).2 ⟨hs, List.ne_nil_of_mem h⟩, h⟩
    have hS'' : (List.range n).map S' = (List.range n).map fun s => R s r :=
      List.map_congr_left fun s hs => hS' s (List.mem_range.1 hs)
    rw [hS''] at h1
    rw [h1, Option.bind_some]
    have hnd : ((out r).flatMap (R r)).Nodup := by
      rw [List.nodup_flatMap]
      refine ⟨fun d hd => nodup_of_lt (hcr.sorted d ((hout r hr d).1 hd).1), ?_⟩
      refine List.Pairwise.imp_of_mem ?_ (houtN r)
      intro d d' hd hd' hne g hg hg'
      exact hne (huniq d d' g ((hcr.mem d ((hout r hr d).1 hd).1 g).1 hg).2
        ((hcr.mem d' ((hout r hr d').1 hd').1 g).1 hg').2)
    have hiff : ∀ g, g ∈ (out r).flatMap (R r) ↔ g ∈ (W r).seqGeom := fun g => by
      rw [List.mem_flatMap, hcr.seq]
      constructor
      · rintro ⟨d, hd, hg⟩
        exact ((hcr.mem d ((hout r hr d).1 hd).1 g).1 hg).1
      · intro hg
        obtain ⟨q, hq, ho⟩ := hH r hr g hg
        have hm := (hcr.mem q hq g).2 ⟨hg, ho⟩
        exact ⟨q, (hout r hr q).2 ⟨hq, List.ne_nil_of_mem hm⟩, hm⟩
    rw [surfPackIndex_eq (a := { W5 r with sendIds := (List.range n).map fun s => R s r }) hnd hiff
      hcr.find hcr.nodup, Option.bind_some]
    have hrd : ∀ s, s ∈ (mpi.revDests r).order (inn r) ↔ s < n ∧ R s r ≠ [] := fun s => by
      rw [((mpi.revDests r).perm _).mem_iff, hinn r hr]
    have hrs : ∀ s, s ∈ (mpi.revSources r).order (out r) ↔ s < n ∧ R r s ≠ [] := fun s => by
      rw [((mpi.revSources r).perm _).mem_iff, hout r hr]
    rw [surfReverse_eq (a := { W5 r with
        sendIds := (List.range n).map fun s => R s r
        packIndex := (W5 r).seqGeom.map fun g => (W5 r).outIds.idxOf g }) (n := n) (S := fun s => R s r) (R := R r) (faces := faces r) rfl hcr.recv
      (fun d hd => (hrd d).1 hd) (fun s hs => (hrs s).1 hs)
      (fun d hd g hg => hmemR d ((hrd d).1 hd).1 r hr g hg)
      (fun s hs g hg => (hcr.seq g).2 ((hcr.mem s ((hrs s).1 hs).1 g).1 hg).1) hcr.index hcr.find
      (by
        show ((mpi.revSources r).order (out r)).length = ((out r).map _).length
        rw [((mpi.revSources r).perm _).length_eq, List.length_map])
      (by
        show ((mpi.revDests r).order (inn r)).length = ((inn r).map _).length
        rw [((mpi.revDests r).perm _).length_eq, List.length_map])]
    refine ⟨_, rfl, ⟨hcr.owned, hcr.index, hcr.recv, hcr.sorted, hcr.mem, hcr.nodup, hcr.seq,
      hcr.find⟩, ?_, rfl, rfl, rfl⟩
    exact {
      dests := hout r hr
      destsNodup := houtN r
      sources := hinn r hr
      sourcesNodup := hinnN r
      revDests := (mpi.revDests r).perm _
      revSources := (mpi.revSources r).perm _
      outCounts := rfl
      inCounts := rfl
      outIds := rfl
      inIds := rfl
      sendIds := rfl
      packIndex := rfl
      revPack := rfl
      revPackSome := fun h => by simp at h
      revUnpack := rfl
      revUnpackSome := fun h => by simp at h
      revOutCounts := rfl
      revInCounts := rfl })
  obtain ⟨W', g1, g2⟩ := e6
  refine ⟨W', g1, fun r hr => (g2 r hr).1, fun r hr => (g2 r hr).2.1, fun r hr => (g2 r hr).2.2⟩

end NP
