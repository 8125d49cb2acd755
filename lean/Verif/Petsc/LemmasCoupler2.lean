import Verif.Petsc.LemmasCoupler

/-!
# Lemmas for the mesh coupler: the state after the constructor
-/

set_option autoImplicit false

namespace NP

open Spec

theorem coupIndex_get {l : List Nat} (hnd : l.Nodup) {i d : Nat} (h : l[i]? = some d) :
    omGet (coupIndex l) (d : Int) = some i := by
  induction l using List.reverseRecOn generalizing i d with
  | nil => simp at h
  | append_singleton l x ih =>
    have hc : coupIndex (l ++ [x]) = omPut (coupIndex l) (x : Int) l.length := by
      unfold coupIndex
      rw [List.zipIdx_append, List.foldl_append]
      simp
    rw [hc, omGet_put]
    obtain ⟨h1, -, h2⟩ := List.nodup_append.1 hnd
    by_cases hi : i < l.length
    · rw [List.getElem?_append_left hi] at h
      have hne : d ≠ x := h2 d (List.mem_of_getElem? h) x (by simp)
      rw [if_neg (by omega)]
      exact ih h1 h
    · rw [List.getElem?_append_right (by omega)] at h
      have hlt := (List.getElem?_eq_some_iff.1 h).1
      simp only [List.length_singleton] at hlt
      have : i = l.length := by omega
      subst this
      simp only [Nat.sub_self, List.getElem?_cons_zero, Option.some.injEq] at h
      rw [if_pos (by omega)]

theorem coupBackA_fold {T : Type} {m : CoupMaps T} {D : List Nat} {X : Nat → List (Nat × CoupEntry T)}
    (hnd : D.Nodup) (hb : ∀ d ∈ D, omGet m.bwd (d : Int) = some ((X d).map fun p => p.2.bwd))
    (l : List Nat) (hl : ∀ d ∈ l, d ∈ D) (a : CoupRank T) (off : Nat)
    (h1 : a.sendF = D.map fun d => (X d).length) (h2 : a.sendDispF = exclusiveFrom 0 a.sendF)
    (h3 : a.cellsFA = D.flatMap fun d => (X d).map fun p => p.1) :
    l.foldlM (coupBackA m (coupIndex D)) (a, off) = some ({ a with
      cellsBA := a.cellsBA ++ l.flatMap fun d => (X d).map fun p => p.1
      weightsB := a.weightsB ++ l.flatMap fun d => (X d).map fun p => p.2.bwd
      recvDispB := a.recvDispB ++ exclusiveFrom off (l.map fun d => (X d).length)
      recvB := a.recvB ++ l.map fun d => (X d).length }, off + (l.map fun d => (X d).length).sum) := by
  induction l generalizing a off with
  | nil => simp [exclusiveFrom]
  | cons d l ih =>
    have hd := hl d (by simp)
    obtain ⟨i, hi⟩ := List.mem_iff_getElem?.1 hd
    have hil := (List.getElem?_eq_some_iff.1 hi).1
    have hs := slice_flatMap D (fun d => (X d).map fun p => p.1) i hi
    simp only [List.length_map] at hs
    rw [List.foldlM_cons]
    have hstep : coupBackA m (coupIndex D) (a, off) d = some ({ a with
        cellsBA := a.cellsBA ++ (X d).map fun p => p.1
        weightsB := a.weightsB ++ (X d).map fun p => p.2.bwd
        recvDispB := a.recvDispB ++ [off]
        recvB := a.recvB ++ [(X d).length] }, off + (X d).length) := by
      unfold coupBackA
      simp only [rd]
      rw [coupIndex_get hnd hi, Option.bind_some, h2, h1, List.getElem?_map, hi, Option.map_some,
        Option.bind_some, getElem?_exclusiveFrom _ _ _ (by simpa using hil), Option.bind_some,
        Nat.zero_add, h3, hs, Option.bind_some, hb d hd, Option.bind_some, if_pos (by simp)]
    rw [hstep]
    simp only [Option.bind_eq_bind, Option.bind_some]
    refine (ih (fun x hx => hl x (by simp [hx])) _ _ (by exact h1) (by exact h2) (by exact h3)).trans ?_
    simp [exclusiveFrom, Nat.add_assoc]

theorem coupBackB_fold {T : Type} {S : List Nat} {X : Nat → List (Nat × CoupEntry T)}
    (hnd : S.Nodup) (l : List Nat) (hl : ∀ d ∈ l, d ∈ S) (a : CoupRank T) (off : Nat)
    (h1 : a.recvF = S.map fun d => (X d).length) (h2 : a.recvDispF = exclusiveFrom 0 a.recvF)
    (h3 : a.globalsFB = S.flatMap fun d => (X d).map fun p => p.2.cell) :
    l.foldlM (coupBackB (coupIndex S)) (a, off) = some ({ a with
      globalsBB := a.globalsBB ++ l.flatMap fun d => (X d).map fun p => p.2.cell
      sendDispB := a.sendDispB ++ exclusiveFrom off (l.map fun d => (X d).length)
      sendB := a.sendB ++ l.map fun d => (X d).length }, off + (l.map fun d => (X d).length).sum) := by
  induction l generalizing a off with
  | nil => simp [exclusiveFrom]
  | cons d l ih =>
    have hd := hl d (by simp)
    obtain ⟨i, hi⟩ := List.mem_iff_getElem?.1 hd
    have hil := (List.getElem?_eq_some_iff.1 hi).1
    have hs := slice_flatMap S (fun d => (X d).map fun p => p.2.cell) i hi
    simp only [List.length_map] at hs
    rw [List.foldlM_cons]
    have hstep : coupBackB (coupIndex S) (a, off) d = some ({ a with
        globalsBB := a.globalsBB ++ (X d).map fun p => p.2.cell
        sendDispB := a.sendDispB ++ [off]
        sendB := a.sendB ++ [(X d).length] }, off + (X d).length) := by
      unfold coupBackB
      simp only [rd]
      rw [coupIndex_get hnd hi, Option.bind_some, h2, h1, List.getElem?_map, hi, Option.map_some,
        Option.bind_some, getElem?_exclusiveFrom _ _ _ (by simpa using hil), Option.bind_some,
        Nat.zero_add, h3, hs, Option.bind_some]
    rw [hstep]
    simp only [Option.bind_eq_bind, Option.bind_some]
    refine (ih (fun x hx => hl x (by simp [hx])) _ _ (by exact h1) (by exact h2) (by exact h3)).trans ?_
    simp [exclusiveFrom, Nat.add_assoc]

/-- The neighbours of every rank, in both directions, when rank `r` has the entries `X r d` for
cells of rank `d`. -/
structure CoupNet {T : Type} (n : Nat) (X : Nat → Nat → List (Nat × CoupEntry T))
    (D S RD RS : Nat → List Nat) : Prop where
  dests : ∀ r < n, ∀ d, d ∈ D r ↔ d < n ∧ X r d ≠ []
  sources : ∀ r < n, ∀ s, s ∈ S r ↔ s < n ∧ X s r ≠ []
  destsNodup : ∀ r < n, (D r).Nodup
  sourcesNodup : ∀ r < n, (S r).Nodup
  revDests : ∀ r < n, (RD r).Perm (S r)
  revSources : ∀ r < n, (RS r).Perm (D r)

/-- The state of a rank after the constructor, and with other staging vectors after transfers. -/
def coupClosed {T : Type} (X : Nat → Nat → List (Nat × CoupEntry T)) (D S RD RS : Nat → List Nat)
    (loc : Nat → Int → Nat) (countA countB : Nat → Nat) (send recv : Nat → List T) (r : Nat) :
    CoupRank T where
  countA := countA r
  countB := countB r
  dests := D r
  sources := S r
  revDests := RD r
  revSources := RS r
  sendF := (D r).map fun d => (X r d).length
  recvF := (S r).map fun s => (X s r).length
  sendDispF := exclusiveFrom 0 ((D r).map fun d => (X r d).length)
  recvDispF := exclusiveFrom 0 ((S r).map fun s => (X s r).length)
  cellsFA := (D r).flatMap fun d => (X r d).map fun p => p.1
  remote := (D r).flatMap fun d => (X r d).map fun p => p.2.cell
  weightsF := (D r).flatMap fun d => (X r d).map fun p => p.2.fwd
  globalsFB := (S r).flatMap fun s => (X s r).map fun p => p.2.cell
  cellsFB := ((S r).flatMap fun s => (X s r).map fun p => p.2.cell).map (loc r)
  sendB := (RD r).map fun s => (X s r).length
  recvB := (RS r).map fun d => (X r d).length
  sendDispB := exclusiveFrom 0 ((RD r).map fun s => (X s r).length)
  recvDispB := exclusiveFrom 0 ((RS r).map fun d => (X r d).length)
  cellsBA := (RS r).flatMap fun d => (X r d).map fun p => p.1
  weightsB := (RS r).flatMap fun d => (X r d).map fun p => p.2.bwd
  globalsBB := (RD r).flatMap fun s => (X s r).map fun p => p.2.cell
  cellsBB := ((RD r).flatMap fun s => (X s r).map fun p => p.2.cell).map (loc r)
  totalF := ((D r).map fun d => (X r d).length).sum
  totalB := ((RD r).map fun s => (X s r).length).sum
  base := max ((D r).map fun d => (X r d).length).sum ((RD r).map fun s => (X s r).length).sum
  room := max (D r).length (S r).length
  stageSend := send r
  stageRecv := recv r

/-- The entries of rank `s` for cells of rank `q`. -/
def coupX {T : Type} (cells : List (List Int)) (M : Nat → List (List (CoupEntry T))) (s q : Nat) :
    List (Nat × CoupEntry T) :=
  (coupFlat (M s)).filter fun p => coupOwner cells p.2.cell = q

/-- The position of a cell among the cells of a rank. -/
def coupLoc (G : Nat → List Int) (q : Nat) (g : Int) : Nat := (G q).idxOf g

theorem mem_coupFlat {T : Type} {map : List (List (CoupEntry T))} {p : Nat × CoupEntry T} :
    p ∈ coupFlat map ↔ ∃ es, map[p.1]? = some es ∧ p.2 ∈ es := by
  unfold coupFlat
  rw [List.mem_flatMap]
  constructor
  · rintro ⟨x, hx, hp⟩
    obtain ⟨e, he, rfl⟩ := List.mem_map.1 hp
    exact ⟨x.1, List.mem_zipIdx_iff_getElem?.1 hx, he⟩
  · rintro ⟨es, h1, h2⟩
    exact ⟨(es, p.1), List.mem_zipIdx_iff_getElem?.2 h1, List.mem_map.2 ⟨p.2, h2, rfl⟩⟩

instance {T : Type} : Nonempty (CoupMaps T) := ⟨CoupMaps.new⟩
instance : Nonempty Plex := ⟨⟨0, [], []⟩⟩

theorem couplerNew_eq {T : Type} [Zero T] (mpi : SurfOrders) {dms : List Plex}
    {cells : List (List Int)} {maps : List (List (List (CoupEntry T)))} (h : MeshB dms cells)
    (hm : MapsOk cells maps) {n : Nat} (hn : n = cells.length) {G : Nat → List Int}
    (hG : cells = (List.range n).map G) {M : Nat → List (List (CoupEntry T))}
    (hM : maps = (List.range n).map M) :
    ∃ D S RD RS, CoupNet n (coupX cells M) D S RD RS ∧
      couplerNew mpi dms maps = some ((List.range n).map
        (coupClosed (coupX cells M) D S RD RS (coupLoc G) (fun r => (M r).length)
          (fun r => (G r).length)
          (fun r => List.replicate (max ((D r).map fun d => (coupX cells M r d).length).sum
            ((RD r).map fun s => (coupX cells M s r).length).sum) 0)
          (fun r => List.replicate (max ((D r).map fun d => (coupX cells M r d).length).sum
            ((RD r).map fun s => (coupX cells M s r).length).sum) 0))) := by
  obtain ⟨first, count, hfit, hperm⟩ := h.consecutive
  have hlen : dms.length = n := by rw [hn]; exact h.parts.length_eq
  obtain ⟨P, hP⟩ := exists_table dms
  rw [hlen] at hP
  have hnd : cells.flatten.Nodup := by
    rw [hperm.nodup_iff]
    exact (List.nodup_range).map fun a b e => by omega
  have hGr : ∀ r < n, cells[r]? = some (G r) := fun r hr => by
    rw [hG, List.getElem?_map, List.getElem?_range hr, Option.map_some]
  have hMr : ∀ r < n, maps[r]? = some (M r) := fun r hr => by
    rw [hM, List.getElem?_map, List.getElem?_range hr, Option.map_some]
  have hpart : ∀ r < n, PartB (P r) (G r) := fun r hr => by
    have := (List.forall₂_iff_get.1 h.parts).2 r (by omega) (by omega)
    rw [List.get_eq_getElem, List.get_eq_getElem] at this
    rw [show P r = dms[r]'(by omega) by simp [hP], show G r = cells[r]'(by omega) by simp [hG]]
    exact this
  have howner : ∀ g, (∃ gs ∈ cells, g ∈ gs) → coupOwner cells g < n ∧ g ∈ G (coupOwner cells g) := by
    intro g hg
    obtain ⟨gs, h1, h2⟩ := coupOwner_spec hg
    have hlt : coupOwner cells g < n := by rw [hn]; exact (List.getElem?_eq_some_iff.1 h1).1
    rw [hGr _ hlt] at h1
    cases h1
    exact ⟨hlt, h2⟩
  have hnamed : ∀ r < n, ∀ p ∈ coupFlat (M r), ∃ gs ∈ cells, p.2.cell ∈ gs := by
    intro r hr p hp
    obtain ⟨es, h1, h2⟩ := mem_coupFlat.1 hp
    exact hm.2 (M r) (List.mem_of_getElem? (hMr r hr)) es (List.mem_of_getElem? h1) _ h2
  have hmaps : ∀ r < n, ∃ m, coupMaps first ((List.range count).map fun (i : Nat) =>
      (coupOwner cells (first + i) : Int)) (M r) = some m ∧
      MapsOf (coupOwner cells) (coupFlat (M r)) m := by
    intro r hr
    refine coupMaps_eq (M r) fun es hes e he => ?_
    obtain ⟨a, ha⟩ := List.mem_iff_getElem?.1 hes
    have hin := List.mem_flatten.2 (hnamed r hr (a, e) (mem_coupFlat.2 ⟨es, ha, he⟩))
    rw [hperm.mem_iff] at hin
    obtain ⟨i, hi, hie⟩ := List.mem_map.1 hin
    simp only at hie
    have hi := List.mem_range.1 hi
    refine ⟨by omega, ?_⟩
    rw [show (e.cell - first).toNat = i by omega, List.getElem?_map, List.getElem?_range hi,
      Option.map_some, hie]
  have hms : ∃ ms, maps.mapM (coupMaps first ((List.range count).map fun (i : Nat) =>
      (coupOwner cells (first + i) : Int))) = some ((List.range n).map ms) ∧
      ∀ r < n, MapsOf (coupOwner cells) (coupFlat (M r)) (ms r) := by
    obtain ⟨ms, h1⟩ := Classical.axiomOfChoice fun r : Nat =>
      show ∃ m, r < n → coupMaps first ((List.range count).map fun (i : Nat) =>
        (coupOwner cells (first + i) : Int)) (M r) = some m ∧
        MapsOf (coupOwner cells) (coupFlat (M r)) m by
      by_cases hr : r < n
      · obtain ⟨m, hm⟩ := hmaps r hr; exact ⟨m, fun _ => hm⟩
      · exact ⟨CoupMaps.new, fun h => absurd h hr⟩
    refine ⟨ms, ?_, fun r hr => (h1 r hr).2⟩
    rw [hM, List.mapM_map]
    exact mapM_of_forall fun r hr => (h1 r (List.mem_range.1 hr)).1
  obtain ⟨ms, hms1, hms2⟩ := hms
  have hXne : ∀ r < n, ∀ d, coupX cells M r d ≠ [] ↔ (d : Int) ∈ (ms r).ranks := by
    intro r hr d
    rw [(hms2 r hr).ranks]
    unfold coupX
    rw [Ne, List.filter_eq_nil_iff]
    push Not
    constructor
    · rintro ⟨p, hp, e⟩
      exact ⟨p, hp, by simpa using e⟩
    · rintro ⟨p, hp, e⟩
      exact ⟨p, hp, by simpa using e⟩
  have hranks : ∀ r < n, ∀ z ∈ (ms r).ranks, 0 ≤ z ∧ z.toNat < n := by
    intro r hr z hz
    obtain ⟨p, hp, rfl⟩ := ((hms2 r hr).ranks z).1 hz
    have := (howner _ (hnamed r hr p hp)).1
    omega
  have houts : ((List.range n).map ms).mapM (coupOut n) =
      some ((List.range n).map fun r => (ms r).ranks.map Int.toNat) := by
    rw [List.mapM_map]
    refine mapM_of_forall fun r hr => ?_
    have hr := List.mem_range.1 hr
    unfold coupOut
    exact mapM_of_forall fun z hz => if_pos (hranks r hr z hz)
  let outs : Nat → List Nat := fun r => (ms r).ranks.map Int.toNat
  have hout_mem : ∀ r < n, ∀ d, d ∈ outs r ↔ d < n ∧ coupX cells M r d ≠ [] := by
    intro r hr d
    rw [hXne r hr]
    constructor
    · intro hd
      obtain ⟨z, hz, rfl⟩ := List.mem_map.1 hd
      obtain ⟨h0, h1⟩ := hranks r hr z hz
      exact ⟨h1, by rw [Int.toNat_of_nonneg h0]; exact hz⟩
    · rintro ⟨h0, h1⟩
      exact List.mem_map.2 ⟨_, h1, by omega⟩
  have hout_nd : ∀ r < n, (outs r).Nodup := by
    intro r hr
    refine List.Nodup.map_on ?_ ((hms2 r hr).sorted.imp fun hab => by omega)
    intro x hx y hy e
    have := (hranks r hr x hx).1
    have := (hranks r hr y hy).1
    omega
  let inn : Nat → List Nat := fun q => coupIn ((List.range n).map outs) q
  have hin_mem : ∀ q < n, ∀ s, s ∈ inn q ↔ s < n ∧ coupX cells M s q ≠ [] := by
    intro q hq s
    show s ∈ coupIn _ q ↔ _
    unfold coupIn
    rw [List.mem_filter, List.length_map, List.length_range, List.mem_range]
    constructor
    · rintro ⟨h1, h2⟩
      rw [rd_table outs h1] at h2
      exact ⟨h1, ((hout_mem s h1 q).1 (by simpa using h2)).2⟩
    · rintro ⟨h1, h2⟩
      refine ⟨h1, ?_⟩
      rw [rd_table outs h1]
      simpa using (hout_mem s h1 q).2 ⟨hq, h2⟩
  have hin_nd : ∀ q, (inn q).Nodup := fun q => List.Nodup.filter _ List.nodup_range
  let D : Nat → List Nat := fun r => (mpi.dests r).order (outs r)
  let S : Nat → List Nat := fun r => (mpi.sources r).order (inn r)
  let RD : Nat → List Nat := fun r => (mpi.revDests r).order (S r)
  let RS : Nat → List Nat := fun r => (mpi.revSources r).order (D r)
  have hnet : CoupNet n (coupX cells M) D S RD RS := {
    dests := fun r hr d => by rw [((mpi.dests r).perm _).mem_iff, hout_mem r hr]
    sources := fun r hr s => by rw [((mpi.sources r).perm _).mem_iff, hin_mem r hr]
    destsNodup := fun r hr => ((mpi.dests r).perm _).nodup_iff.2 (hout_nd r hr)
    sourcesNodup := fun r hr => ((mpi.sources r).perm _).nodup_iff.2 (hin_nd r)
    revDests := fun r _ => (mpi.revDests r).perm _
    revSources := fun r _ => (mpi.revSources r).perm _ }
  refine ⟨D, S, RD, RS, hnet, ?_⟩
  have hget : ∀ r < n, ∀ d ∈ D r,
      omGet (ms r).cellsA (d : Int) = some ((coupX cells M r d).map fun p => p.1) ∧
      omGet (ms r).cellsB (d : Int) = some ((coupX cells M r d).map fun p => p.2.cell) ∧
      omGet (ms r).fwd (d : Int) = some ((coupX cells M r d).map fun p => p.2.fwd) ∧
      omGet (ms r).bwd (d : Int) = some ((coupX cells M r d).map fun p => p.2.bwd) := by
    intro r hr d hd
    have hne := ((hnet.dests r hr d).1 hd).2
    have hmr := hms2 r hr
    unfold coupX at hne ⊢
    refine ⟨?_, ?_, ?_, ?_⟩
    · rw [hmr.cellsA, if_neg hne]
    · rw [hmr.cellsB, if_neg hne]
    · rw [hmr.fwd, if_neg hne]
    · rw [hmr.bwd, if_neg hne]
  unfold couplerNew
  rw [coupOwners_eq h hfit hperm, Option.bind_some]
  simp only
  rw [hms1, Option.bind_some, hm.1, ← hn, houts, Option.bind_some, hM]
  -- the graph
  rw [mapRanks_table (g := fun r => { (CoupRank.new (M r).length : CoupRank T) with
      dests := D r, sources := S r, revDests := RD r, revSources := RS r }) fun r hr => by
    unfold coupGraph
    rw [show rd ((List.range n).map fun r => (ms r).ranks.map Int.toNat) r = some (outs r) from
      rd_table outs hr, Option.map_some], Option.bind_some]
  -- what is sent
  rw [mapRanks_table (g := fun r => { (CoupRank.new (M r).length : CoupRank T) with
      dests := D r, sources := S r, revDests := RD r, revSources := RS r
      sendF := (D r).map fun d => (coupX cells M r d).length
      sendDispF := exclusiveFrom 0 ((D r).map fun d => (coupX cells M r d).length)
      totalF := ((D r).map fun d => (coupX cells M r d).length).sum
      cellsFA := (D r).flatMap fun d => (coupX cells M r d).map fun p => p.1
      remote := (D r).flatMap fun d => (coupX cells M r d).map fun p => p.2.cell
      weightsF := (D r).flatMap fun d => (coupX cells M r d).map fun p => p.2.fwd })
    fun r hr => by
      rw [rd_table ms hr, Option.bind_some]
      unfold coupSend
      simp only
      rw [mapM_of_forall (g := fun d => (coupX cells M r d).length) fun d hd => by
          rw [(hget r hr d hd).2.1, Option.map_some, List.length_map], Option.bind_some,
        collectM_eq_flatMap (g := fun d => (coupX cells M r d).map fun p => p.1) fun d hd =>
          (hget r hr d hd).1, Option.bind_some,
        collectM_eq_flatMap (g := fun d => (coupX cells M r d).map fun p => p.2.cell) fun d hd =>
          (hget r hr d hd).2.1, Option.bind_some,
        collectM_eq_flatMap (g := fun d => (coupX cells M r d).map fun p => p.2.fwd) fun d hd =>
          (hget r hr d hd).2.2.1, Option.map_some], Option.bind_some]
  -- the counts received
  rw [mapRanks_table (g := fun r => { (CoupRank.new (M r).length : CoupRank T) with
      dests := D r, sources := S r, revDests := RD r, revSources := RS r
      sendF := (D r).map fun d => (coupX cells M r d).length
      sendDispF := exclusiveFrom 0 ((D r).map fun d => (coupX cells M r d).length)
      totalF := ((D r).map fun d => (coupX cells M r d).length).sum
      cellsFA := (D r).flatMap fun d => (coupX cells M r d).map fun p => p.1
      remote := (D r).flatMap fun d => (coupX cells M r d).map fun p => p.2.cell
      weightsF := (D r).flatMap fun d => (coupX cells M r d).map fun p => p.2.fwd
      recvF := (S r).map fun s => (coupX cells M s r).length
      recvDispF := exclusiveFrom 0 ((S r).map fun s => (coupX cells M s r).length) })
    fun r hr => by
      unfold coupRecv
      simp only
      rw [mapM_of_forall (g := fun s => (coupX cells M s r).length) fun s hs => by
        obtain ⟨h1, h2⟩ := (hnet.sources r hr s).1 hs
        rw [rd_table _ h1, Option.bind_some]
        simp only
        obtain ⟨i, hi⟩ := Option.isSome_iff_exists.1
          (List.isSome_idxOf?.2 ((hnet.dests s h1 r).2 ⟨hr, h2⟩))
        rw [hi, Option.bind_some]
        obtain ⟨hilt, hig, -⟩ := List.idxOf?_eq_some_iff.1 hi
        simp only [rd]
        rw [List.getElem?_map, List.getElem?_eq_getElem hilt, hig, Option.map_some],
        Option.map_some], Option.bind_some]
  -- the cells received
  rw [List.map_map]
  rw [neighborAlltoallwArgs_eq (blk := fun s q => (coupX cells M s q).map fun p => p.2.cell) (n := n)
    { sbuf := fun s _ => rfl
      sendcounts := fun s _ => by simp [coupCellArgs]
      sdispls := fun s _ => rfl
      recvcounts := fun q _ => by simp [coupCellArgs]
      rdispls := fun q _ => rfl
      rbuf := fun q _ => by simp [coupCellArgs]
      edges := fun q hq s hs => by
        obtain ⟨h1, h2⟩ := (hnet.sources q hq s).1 hs
        exact ⟨h1, (hnet.dests s h1 q).2 ⟨hq, h2⟩⟩ }, Option.bind_some]
  refine mapRanks_table fun r hr => ?_
  rw [rd_table _ hr, Option.bind_some, rd_table ms hr, Option.bind_some, hP, rd_table P hr,
    Option.bind_some]
  unfold coupBack
  simp only [Function.comp, coupCellArgs]
  rw [coupBackA_fold (X := coupX cells M r) (hnet.destsNodup r hr)
    (fun d hd => (hget r hr d hd).2.2.2) (RS r)
    (fun d hd => (hnet.revSources r hr).mem_iff.1 hd) _ 0 rfl rfl rfl, Option.bind_some]
  simp only
  rw [coupBackB_fold (X := fun s => coupX cells M s r) (hnet.sourcesNodup r hr) (RD r)
    (fun d hd => (hnet.revDests r hr).mem_iff.1 hd) _ 0 rfl rfl rfl, Option.map_some,
    Option.bind_some]
  unfold coupFinish
  simp only [CoupRank.new, List.nil_append, Nat.zero_add]
  have hloc : ∀ s < n, ∀ g ∈ ((coupX cells M s r).map fun p => p.2.cell),
      localOfGlobal (plexLocalMap (P r)) g = some (coupLoc G r g, plexLocalMap (P r)) := by
    intro s hs g hg
    obtain ⟨p, hp, rfl⟩ := List.mem_map.1 hg
    obtain ⟨hp1, hp2⟩ := List.mem_filter.1 hp
    obtain ⟨-, h2⟩ := howner _ (hnamed s hs p hp1)
    rw [of_decide_eq_true hp2] at h2
    refine partB_local (hpart r hr) ?_
    unfold coupLoc
    rw [List.getElem?_eq_getElem (List.idxOf_lt_length_iff.2 h2), List.getElem_idxOf]
  rw [coupLocal_eq (loc := coupLoc G r) _ fun g hg => by
    obtain ⟨s, hs, hg⟩ := List.mem_flatMap.1 hg
    exact hloc s ((hnet.sources r hr s).1 hs).1 g hg, Option.bind_some]
  simp only
  rw [coupLocal_eq (loc := coupLoc G r) _ fun g hg => by
    obtain ⟨s, hs, hg⟩ := List.mem_flatMap.1 hg
    exact hloc s ((hnet.sources r hr s).1 ((hnet.revDests r hr).mem_iff.1 hs)).1 g hg,
    Option.bind_some, if_pos (by simp [List.length_flatMap]), partB_cells (hpart r hr)]
  simp [coupClosed]

end NP
