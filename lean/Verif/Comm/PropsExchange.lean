import Verif.Comm.LemmasExchange

/-!
# C31: the neighbour exchange delivers edge `k` to edge `k`
-/

set_option autoImplicit false

namespace NP

open Spec

variable {α : Type}

/-- The sends of a rank, once all slices are in range. -/
theorem edgeSends_eq {outs : List Edge} {buf : List α}
    (h : ∀ e ∈ outs, e.displ + e.len ≤ buf.length) :
    edgeSends outs buf = some ((outs.zip (edgeTags (outs.map Edge.peer) fun _ => 0)).map fun et =>
      ⟨et.1.peer, et.2, (buf.drop et.1.displ).take et.1.len⟩) := by
  unfold edgeSends
  apply mapM_of_forall
  intro et het
  have := h et.1 (List.of_mem_zip het).1
  rw [slice_eq_some (by omega) this, Option.bind_some, Nat.add_sub_cancel_left]

theorem getElem?_zip_tags {l : List Edge} {i : Nat} {e : Edge} (h : l[i]? = some e) :
    (l.zip (edgeTags (l.map Edge.peer) fun _ => 0))[i]? =
      some (e, ((l.map Edge.peer).take i).count e.peer) := by
  rw [List.getElem?_zip_eq_some]
  refine ⟨h, ?_⟩
  have := getElem?_edgeTags (l.map Edge.peer) (fun _ => 0) i e.peer (by simp [h])
  simpa using this

/-- `NP_MPI_Neighbor_alltoallw`, on every rank `b` and for every order of arrival: every edge into
`b` is the edge `i` of some rank `a`, and the data which `a` sent on edge `i` is in the place
given by `b` for that edge. Nothing outside of these places is changed. -/
theorem C31_alltoallw {n : Nat} (arrive : Nat → Sched) {ins outs : Nat → List Edge}
    {sendbuf recvbuf : Nat → List α}
    (hg : GraphOk n (fun r => (outs r).map Edge.peer) (fun r => (ins r).map Edge.peer))
    (hsend : ∀ a, a < n → ∀ e ∈ outs a, e.displ + e.len ≤ (sendbuf a).length)
    (hrecv : ∀ b, b < n → ∀ f ∈ ins b, f.displ + f.len ≤ (recvbuf b).length)
    (hfit : ∀ (a i b j : Nat) (e f : Edge), a < n → b < n →
      SameEdge (fun r => (outs r).map Edge.peer) (fun r => (ins r).map Edge.peer) a i b j →
      (outs a)[i]? = some e → (ins b)[j]? = some f → e.len ≤ f.len)
    (hdisj : ∀ b, b < n → (ins b).Pairwise fun e f =>
      e.displ + e.len ≤ f.displ ∨ f.displ + f.len ≤ e.displ) :
    ∃ out, neighborAlltoallw n arrive ins outs sendbuf recvbuf = some out ∧ out.length = n ∧
      ∀ b, b < n → ∃ buf, out[b]? = some buf ∧ buf.length = (recvbuf b).length ∧
        (∀ (j : Nat) (f : Edge), (ins b)[j]? = some f → ∃ a i, a < n ∧
          SameEdge (fun r => (outs r).map Edge.peer) (fun r => (ins r).map Edge.peer) a i b j) ∧
        (∀ (a i j : Nat) (e f : Edge), a < n →
          SameEdge (fun r => (outs r).map Edge.peer) (fun r => (ins r).map Edge.peer) a i b j →
          (outs a)[i]? = some e → (ins b)[j]? = some f →
          ∀ k, k < e.len → buf[f.displ + k]? = (sendbuf a)[e.displ + k]?) ∧
        (∀ k, (∀ f ∈ ins b, ¬ (f.displ ≤ k ∧ k < f.displ + f.len)) →
          buf[k]? = (recvbuf b)[k]?) := by
  let sends : Nat → List (OutMsg (List α)) := fun r =>
    ((outs r).zip (edgeTags ((outs r).map Edge.peer) fun _ => 0)).map fun et =>
      ⟨et.1.peer, et.2, ((sendbuf r).drop et.1.displ).take et.1.len⟩
  have hkeys : ∀ s, (sends s).map (fun o => (o.dst, o.tag)) =
      ((outs s).map Edge.peer).zip (edgeTags ((outs s).map Edge.peer) fun _ => 0) := by
    intro s
    simp only [sends, List.map_map, Function.comp_def]
    rw [List.zip_map_left]
    rfl
  have hnd : ∀ s, s < n → ((sends s).map fun o => (o.dst, o.tag)).Nodup := by
    intro s _
    rw [hkeys]; exact nodup_zip_edgeTags _ _
  have hsendmem : ∀ s t r, (∃ o ∈ sends s, o.dst = r ∧ o.tag = t) ↔
      t < ((outs s).map Edge.peer).count r := by
    intro s t r
    have : (∃ o ∈ sends s, o.dst = r ∧ o.tag = t) ↔
        (r, t) ∈ (sends s).map fun o => (o.dst, o.tag) := by simp
    rw [this, hkeys, mem_zip_edgeTags]
    simp
  have hsends : (List.range n).mapM (fun r => edgeSends (outs r) (sendbuf r)) =
      some ((List.range n).map sends) :=
    mapM_of_forall fun r hr => edgeSends_eq (hsend r (List.mem_range.1 hr))
  have hsD : ∀ s, s < n → ((List.range n).map sends).getD s [] = sends s := by
    intro s hs
    simp [hs]
  have hex : ∀ b, b < n → ∃ got, exchange n arrive (fun r => edgeSlots (ins r)) sends b = some got ∧
      got.map (fun m => (m.src, m.tag)) =
        ((ins b).map Edge.peer).zip (edgeTags ((ins b).map Edge.peer) fun _ => 0) ∧
      got.Perm (inbox n sends b) := by
    intro b hb
    apply exchange_named hnd
    · unfold edgeSlots
      rw [List.zip_map_left, List.map_map]
      rfl
    · exact nodup_zip_edgeTags _ _
    · intro s t
      rw [mem_zip_edgeTags, hsendmem]
      simp only [Nat.zero_le, true_and, Nat.zero_add]
      by_cases hs : s < n
      · have := hg.count s b hs hb
        rw [this]; simp [hs]
      · have : ((ins b).map Edge.peer).count s = 0 := by
          rw [List.count_eq_zero]
          exact fun h => hs (hg.sources_lt b hb s h)
        rw [this]; simp [hs]
  choose! got hgot1 hgot2 hgot3 using hex
  have hinbox : ∀ b, inbox n (fun s => ((List.range n).map sends).getD s []) b = inbox n sends b := by
    intro b
    unfold inbox
    rw [List.flatMap_congr]
    intro s hs
    change List.filterMap _ (((List.range n).map sends).getD s []) = _
    rw [hsD s (List.mem_range.1 hs)]
  have hall : exchangeAll n arrive (fun r => edgeSlots (ins r))
      (fun s => ((List.range n).map sends).getD s []) = some ((List.range n).map got) := by
    apply exchangeAll_of
    · intro s hs o ho
      rw [hsD s hs] at ho
      obtain ⟨et, het, rfl⟩ := List.mem_map.1 ho
      exact hg.dests_lt s hs _ (List.mem_map.2 ⟨et.1, (List.of_mem_zip het).1, rfl⟩)
    · intro r hr
      rw [← hgot1 r hr]
      unfold exchange
      rw [hinbox]
  -- the message in slot `j`
  have hslot : ∀ b, b < n → ∀ (j : Nat) (f : Edge), (ins b)[j]? = some f → ∃ m a i e,
      (got b)[j]? = some m ∧ a < n ∧ (outs a)[i]? = some e ∧
      SameEdge (fun r => (outs r).map Edge.peer) (fun r => (ins r).map Edge.peer) a i b j ∧
      m.data = ((sendbuf a).drop e.displ).take e.len := by
    intro b hb j f hf
    have hlen : (got b).length = (ins b).length := by
      have := congrArg List.length (hgot2 b hb)
      simpa [length_edgeTags] using this
    have hj := (List.getElem?_eq_some_iff.1 hf).1
    obtain ⟨m, hm⟩ : ∃ m, (got b)[j]? = some m :=
      ⟨_, List.getElem?_eq_getElem (by rw [hlen]; exact hj)⟩
    have hk : (m.src, m.tag) = (f.peer, ((((ins b).map Edge.peer).take j).count f.peer)) := by
      have h1 : ((got b).map fun m => (m.src, m.tag))[j]? = some (m.src, m.tag) := by simp [hm]
      have h2 : (((ins b).map Edge.peer).zip (edgeTags ((ins b).map Edge.peer) fun _ => 0))[j]? =
          some (f.peer, (((ins b).map Edge.peer).take j).count f.peer) := by
        rw [List.zip_map_left, List.getElem?_map, getElem?_zip_tags hf]
        rfl
      rw [hgot2 b hb, h2] at h1
      exact (Option.some.inj h1).symm
    simp only [Prod.mk.injEq] at hk
    obtain ⟨hin1, hin2⟩ := mem_inbox.1 ((hgot3 b hb).subset (List.mem_of_getElem? hm))
    obtain ⟨et, het, he⟩ := List.mem_map.1 hin2
    obtain ⟨i, hi⟩ := List.mem_iff_getElem?.1 het
    have hi' : (outs m.src)[i]? = some et.1 := by
      rw [List.getElem?_zip_eq_some] at hi; exact hi.1
    rw [getElem?_zip_tags hi'] at hi
    have het2 := congrArg Prod.snd (Option.some.inj hi)
    simp only at het2
    simp only [OutMsg.mk.injEq] at he
    refine ⟨m, m.src, i, et.1, hm, hin1, hi', ⟨?_, ?_, ?_⟩, he.2.2.symm⟩
    · simp [hi', he.1]
    · simp [hf, hk.1]
    · simp only
      rw [hk.1, ← hk.2, ← he.2.1, ← het2, ← he.1]
      rw [hk.1]
  have hstore : ∀ b, b < n → ∃ buf, runItems edgeStore ((ins b).zip (got b)) (recvbuf b) = some buf ∧
      buf.length = (recvbuf b).length ∧
      (∀ em ∈ (ins b).zip (got b), ∀ k, k < em.2.data.length →
        buf[em.1.displ + k]? = em.2.data[k]?) ∧
      (∀ k, (∀ em ∈ (ins b).zip (got b), ¬ (em.1.displ ≤ k ∧ k < em.1.displ + em.1.len)) →
        buf[k]? = (recvbuf b)[k]?) := by
    intro b hb
    apply runItems_edgeStore
    · intro em hem
      refine ⟨?_, hrecv b hb _ (List.of_mem_zip hem).1⟩
      obtain ⟨j, hj⟩ := List.mem_iff_getElem?.1 hem
      rw [List.getElem?_zip_eq_some] at hj
      obtain ⟨m, a, i, e, h1, h2, h3, h4, h5⟩ := hslot b hb j em.1 hj.1
      rw [h1] at hj
      obtain rfl : m = em.2 := Option.some.inj hj.2
      have := hfit a i b j e em.1 h2 hb h4 h3 hj.1
      rw [h5, List.length_take]
      omega
    · rw [List.pairwise_iff_getElem]
      intro x y hx hy hxy
      have hx' : x < (ins b).length := by rw [List.length_zip] at hx; omega
      have hy' : y < (ins b).length := by rw [List.length_zip] at hy; omega
      have := List.pairwise_iff_getElem.1 (hdisj b hb) x y hx' hy' hxy
      simpa [List.getElem_zip] using this
  choose! buf hb1 hb2 hb3 hb4 using hstore
  refine ⟨(List.range n).map buf, ?_, by simp, ?_⟩
  · unfold neighborAlltoallw
    rw [hsends, Option.bind_some, hall, Option.bind_some]
    apply mapM_of_forall
    intro r hr
    have hr := List.mem_range.1 hr
    simp only [rd, List.getElem?_map, List.getElem?_range hr, Option.map_some, Option.bind_some]
    exact hb1 r hr
  · intro b hb
    refine ⟨buf b, by simp [hb], hb2 b hb, ?_, ?_, ?_⟩
    · intro j f hf
      obtain ⟨m, a, i, e, -, h2, -, h4, -⟩ := hslot b hb j f hf
      exact ⟨a, i, h2, h4⟩
    · intro a i j e f ha hse he hf k hk
      obtain ⟨m, a', i', e', h1, h2, h3, h4, h5⟩ := hslot b hb j f hf
      have haa : a = a' := Option.some.inj (hse.2.1.symm.trans h4.2.1)
      subst haa
      have hii : i = i' := edge_unique hse.1 h4.1 (hse.2.2.trans h4.2.2.symm)
      subst hii
      rw [he] at h3
      obtain rfl := Option.some.inj h3
      have hz : (f, m) ∈ (ins b).zip (got b) :=
        List.mem_of_getElem? (List.getElem?_zip_eq_some.2 ⟨hf, h1⟩)
      have hle := hsend a ha e (List.mem_of_getElem? he)
      rw [hb3 b hb _ hz k (by simp only [h5, List.length_take, List.length_drop]; omega)]
      simp only [h5]
      rw [List.getElem?_take_of_lt hk, List.getElem?_drop]
    · intro k hk
      exact hb4 b hb k fun em hem => hk em.1 (List.of_mem_zip hem).1

theorem map_peer_blockEdges (count : Nat) (peers : List Nat) :
    (blockEdges count peers).map Edge.peer = peers := by
  apply List.ext_getElem?
  intro i
  simp only [blockEdges, List.getElem?_map, List.getElem?_mapIdx, Option.map_map]
  cases peers[i]? <;> rfl

theorem getElem?_blockEdges {count : Nat} {peers : List Nat} {i : Nat} {e : Edge}
    (h : (blockEdges count peers)[i]? = some e) :
    i < peers.length ∧ e.displ = count * i ∧ e.len = count := by
  simp only [blockEdges, List.getElem?_mapIdx] at h
  cases hp : peers[i]? with
  | none => rw [hp] at h; cases h
  | some p =>
    rw [hp] at h
    obtain rfl := Option.some.inj h
    exact ⟨(List.getElem?_eq_some_iff.1 hp).1, rfl, rfl⟩

theorem block_le {count i m : Nat} (h : i < m) : count * i + count ≤ count * m := by
  rw [← Nat.mul_succ]; exact Nat.mul_le_mul_left _ h

/-- `NP_MPI_Neighbor_alltoall`: block `i` of the send buffer of `a`, which is for its edge `i` to
`b`, arrives in block `j` of the receive buffer of `b` if that is the same edge; every block of the
receive buffer is filled from one edge, and the rest is unchanged. -/
theorem C31_alltoall {n : Nat} (arrive : Nat → Sched) {sources destinations : Nat → List Nat}
    {sendcount recvcount : Nat → Nat} {sendbuf recvbuf : Nat → List α}
    (hg : GraphOk n destinations sources)
    (hcount : ∀ a b, a < n → b < n → b ∈ destinations a → sendcount a = recvcount b)
    (hsend : ∀ a, a < n → sendcount a * (destinations a).length ≤ (sendbuf a).length)
    (hrecv : ∀ b, b < n → recvcount b * (sources b).length ≤ (recvbuf b).length) :
    ∃ out, neighborAlltoall n arrive sources destinations sendcount recvcount sendbuf recvbuf =
        some out ∧ out.length = n ∧
      ∀ b, b < n → ∃ buf, out[b]? = some buf ∧ buf.length = (recvbuf b).length ∧
        (∀ j, j < (sources b).length → ∃ a i, a < n ∧ SameEdge destinations sources a i b j) ∧
        (∀ a i j, a < n → SameEdge destinations sources a i b j → ∀ k, k < recvcount b →
          buf[recvcount b * j + k]? = (sendbuf a)[sendcount a * i + k]?) ∧
        (∀ k, recvcount b * (sources b).length ≤ k → buf[k]? = (recvbuf b)[k]?) := by
  have hp : ∀ (f : Nat → Nat) (g : Nat → List Nat),
      (fun r => (blockEdges (f r) (g r)).map Edge.peer) = g :=
    fun f g => funext fun r => map_peer_blockEdges _ _
  have key := C31_alltoallw (n := n) arrive
    (ins := fun r => blockEdges (recvcount r) (sources r))
    (outs := fun r => blockEdges (sendcount r) (destinations r)) (sendbuf := sendbuf)
    (recvbuf := recvbuf) (by rw [hp, hp]; exact hg)
    (by
      intro a ha e he
      obtain ⟨i, hi⟩ := List.mem_iff_getElem?.1 he
      obtain ⟨h1, h2, h3⟩ := getElem?_blockEdges hi
      have := hsend a ha
      have := block_le (count := sendcount a) h1
      rw [h2, h3]; omega)
    (by
      intro b hb e he
      obtain ⟨i, hi⟩ := List.mem_iff_getElem?.1 he
      obtain ⟨h1, h2, h3⟩ := getElem?_blockEdges hi
      have := hrecv b hb
      have := block_le (count := recvcount b) h1
      rw [h2, h3]; omega)
    (by
      intro a i b j e f ha hb hse he hf
      rw [hp, hp] at hse
      have := hcount a b ha hb (List.mem_of_getElem? hse.1)
      exact Nat.le_of_eq (by
        rw [(getElem?_blockEdges he).2.2, (getElem?_blockEdges hf).2.2, this]))
    (by
      intro b hb
      rw [List.pairwise_iff_getElem]
      intro i j hi hj hij
      obtain ⟨-, h2, h3⟩ := getElem?_blockEdges (List.getElem?_eq_getElem hi)
      obtain ⟨-, h5, h6⟩ := getElem?_blockEdges (List.getElem?_eq_getElem hj)
      left
      rw [h2, h3, h5]
      exact block_le hij)
  obtain ⟨out, h1, h2, h3⟩ := key
  refine ⟨out, h1, h2, fun b hb => ?_⟩
  obtain ⟨buf, b1, b2, b3, b4, b5⟩ := h3 b hb
  rw [hp, hp] at b3 b4
  have hget : ∀ (count : Nat) (peers : List Nat) (i p : Nat), peers[i]? = some p →
      (blockEdges count peers)[i]? = some ⟨p, count * i, count⟩ := by
    intro count peers i p h
    simp [blockEdges, List.getElem?_mapIdx, h]
  refine ⟨buf, b1, b2, ?_, ?_, ?_⟩
  · intro j hj
    exact b3 j _ (hget _ _ j _ (List.getElem?_eq_getElem hj))
  · intro a i j ha hse k hk
    refine b4 a i j _ _ ha hse (hget _ _ i _ hse.1) (hget _ _ j _ hse.2.1) k ?_
    rw [hcount a b ha hb (List.mem_of_getElem? hse.1)]; exact hk
  · intro k hk
    apply b5
    intro f hf
    obtain ⟨j, hj⟩ := List.mem_iff_getElem?.1 hf
    obtain ⟨e1, e2, e3⟩ := getElem?_blockEdges hj
    have := block_le (count := recvcount b) e1
    rw [e2, e3]; omega

namespace Ex

/-- Three ranks, two edges from 0 to 1, one from 0 to itself, and a cycle. -/
def nbrDests : Nat → List Nat
  | 0 => [1, 0, 1]
  | 1 => [2]
  | 2 => [0]
  | _ => []

/-- The sources in another order. -/
def nbrSources : Nat → List Nat
  | 0 => [2, 0]
  | 1 => [0, 0]
  | 2 => [1]
  | _ => []

theorem nbr_ok : GraphOk 3 nbrDests nbrSources := by
  refine ⟨?_, ?_, ?_⟩
  · decide
  · decide
  · have : ∀ a, a < 3 → ∀ b, b < 3 → (nbrDests a).count b = (nbrSources b).count a := by decide
    exact fun a b ha hb => this a ha b hb

example : ∃ out, neighborAlltoall 3 (fun _ => .reversed) nbrSources nbrDests (fun _ => 2)
    (fun _ => 2) (fun r => [10 * r + 1, 10 * r + 2, 10 * r + 3, 10 * r + 4, 10 * r + 5, 10 * r + 6])
    (fun r => List.replicate (2 * (nbrSources r).length + 1) 0) = some out := by
  obtain ⟨out, h, -⟩ := C31_alltoall (fun _ => .reversed) nbr_ok
    (sendcount := fun _ => 2) (recvcount := fun _ => 2)
    (sendbuf := fun r => [10 * r + 1, 10 * r + 2, 10 * r + 3, 10 * r + 4, 10 * r + 5, 10 * r + 6])
    (recvbuf := fun r => List.replicate (2 * (nbrSources r).length + 1) 0)
    (fun _ _ _ _ _ => rfl) (by decide) (by decide)
  exact ⟨out, h⟩

example : neighborAlltoall 3 (fun _ => .reversed) nbrSources nbrDests (fun _ => 2)
    (fun _ => 2) (fun r => [10 * r + 1, 10 * r + 2, 10 * r + 3, 10 * r + 4, 10 * r + 5, 10 * r + 6])
    (fun r => List.replicate (2 * (nbrSources r).length + 1) 0) =
    some [[21, 22, 3, 4, 0], [1, 2, 5, 6, 0], [11, 12, 0]] := by decide

end Ex

end NP
