import Verif.Dsmc.LemmasPartition
import Verif.Sub.Props
import Verif.Comm.LemmasExchange

/-!
# Property C57: partition into collision cells
-/

set_option autoImplicit false

namespace NP

open Spec

theorem linearId_eq {p : CollPart} {s : Int} (h : s ∈ p.species) :
    p.linearId s = some (p.species.idxOf s) := if_pos h

theorem labels_of {npart : List Nat} {par : Parent} {ids : List Int} {ccCounts : List Nat}
    {sp cc : Nat → Nat → Int} {L : List (List Nat)} (hp : ParentLists npart par L)
    (hL : SoundListing npart L) (h : CollLabelsOk npart par ids ccCounts sp cc) :
    ∀ c row l, L[c]? = some row → l ∈ row → sp c l ∈ ids →
      0 ≤ cc c l ∧ cc c l < (ccCounts.take npart.length).foldl max 0 := by
  intro c row l hr hl hs
  obtain ⟨n, h1, h2, h3⟩ := h c l ((inParent_iff hp c l).2 ⟨row, hr, hl⟩) hs
  have hc : c < npart.length := by rw [← hL.1]; exact lt_of_row hr
  have := le_foldl_max0 (l := ccCounts.take npart.length) (c := c) (n := n)
    (by rw [List.getElem?_take_of_lt hc]; exact h1)
  exact ⟨h2, by omega⟩

/-- **C57** For every group and sub group, every order in which the particles are visited, every
previous content of the buffers, and every partition object however often it was constructed
before: `construct` succeeds, and for every registered species the entries found for each mesh
cell and collision cell are exactly the layers of the particles of the sub group in this cell
with this species and collision cell, each once. -/
theorem C57_entries {e : CollEnv} {npart : List Nat} (he : CollEnvOk e npart) {ids : List Int}
    (hids : ids ≠ []) {p : CollPart} (hr : PartitionReachable e.width npart.length ids p)
    {par : Parent} (hp : Built npart par) {ccCounts : List Nat}
    (hcc : npart.length ≤ ccCounts.length) {sp cc : Nat → Nat → Int}
    (hok : CollLabelsOk npart par ids ccCounts sp cc) :
    ∃ p', p.construct e npart par ccCounts sp cc = some p' ∧
      (∀ s ∉ ids, p'.linearIndex e.width s = some none ∧ p'.linearId s = none) ∧
      ∀ s ∈ ids, ∃ lin, p'.linearIndex e.width s = some (some lin) ∧ p'.linearId s = some lin ∧
        ∀ c n q, c < npart.length → ccCounts[c]? = some n → q < n →
          ∃ ls, CellEntries p' c q lin ls ∧ ListsLabelled npart par sp cc c s q ls := by
  obtain ⟨L, h1, h2⟩ := built_spec hp
  have hb := reach_base hr
  obtain ⟨p', a1, a2, a3⟩ := construct_spec he hids hb h1 h2 hcc (labels_of h1 h2 hok)
  have hb' := reach_base (.construct rfl hr a1)
  refine ⟨p', a1, ?_, ?_⟩
  · intro s hs
    have hs' : s ∉ p'.species := fun h => hs ((hb'.mem s).1 h)
    exact ⟨by rw [hb'.lookup hids, if_neg hs'], if_neg hs'⟩
  · intro s hs
    have hs' := (hb'.mem s).2 hs
    refine ⟨_, by rw [hb'.lookup hids, if_pos hs'], linearId_eq hs', ?_⟩
    intro c n q hc hn hq
    obtain ⟨row, hrow⟩ := exists_row (L := L) (c := c) (by rw [h2.1]; exact hc)
    have hle := le_foldl_max0 (l := ccCounts.take npart.length) (c := c) (n := n)
      (by rw [List.getElem?_take_of_lt hc]; exact hn)
    obtain ⟨ls, b1, b2⟩ := a3.entries s c q row hs' hrow (by rw [a3.maxCC]; omega)
    obtain ⟨hnd, -⟩ := h2.2 c row _ hrow (List.getElem?_eq_getElem hc)
    refine ⟨ls, b1, (b2.nodup_iff).2 (hnd.filter _), ?_⟩
    intro l
    rw [b2.mem_iff, List.mem_filter, inParent_iff h1]
    simp only [decide_eq_true_eq]
    constructor
    · rintro ⟨m1, m2⟩; exact ⟨⟨row, hrow, m1⟩, m2⟩
    · rintro ⟨⟨row', hr', m1⟩, m2⟩
      rw [hrow] at hr'
      obtain rfl := Option.some.inj hr'
      exact ⟨m1, m2⟩

/-- **C57** Making the partition object: any list of species, repeated or not, is accepted. -/
theorem C57_create {e : CollEnv} {npart : List Nat} (he : CollEnvOk e npart)
    (hc : 0 < npart.length) (ids : List Int) :
    ∃ p, collPartCreate e npart.length ids = some p ∧
      PartitionReachable e.width npart.length ids p ∧
      p.species.Nodup ∧ (∀ s, s ∈ p.species ↔ s ∈ ids) := by
  obtain ⟨t, h1, -⟩ := C47_map e.width he.width e.garbage he.garbage
    (rankSetInsertAll [] ids).zipIdx
  have h : collPartCreate e npart.length ids = some ⟨npart.length, rankSetInsertAll [] ids, t,
      List.replicate npart.length 0, 0, 0, [], []⟩ := by
    unfold collPartCreate
    rw [if_pos hc]
    dsimp only
    rw [h1]; rfl
  have hr : PartitionReachable e.width npart.length ids _ := .create rfl he.width he.garbage h
  exact ⟨_, h, hr, (reach_base hr).nodup, (reach_base hr).mem⟩

/-- **C57** The reported maximum occupancy is the largest number of particles of one species in
one collision cell. -/
theorem C57_max_occupancy {e : CollEnv} {npart : List Nat} (he : CollEnvOk e npart)
    {ids : List Int} (hids : ids ≠ []) {p : CollPart}
    (hr : PartitionReachable e.width npart.length ids p)
    {par : Parent} (hp : Built npart par) {ccCounts : List Nat}
    (hcc : npart.length ≤ ccCounts.length) {sp cc : Nat → Nat → Int}
    (hok : CollLabelsOk npart par ids ccCounts sp cc)
    (hone : ∃ (c n : Nat), c < npart.length ∧ ccCounts[c]? = some n ∧ 0 < n) :
    ∃ p', p.construct e npart par ccCounts sp cc = some p' ∧
      (∀ (s : Int) (c n q : Nat) (ls : List Nat), s ∈ ids → c < npart.length →
        ccCounts[c]? = some n → q < n →
        ListsLabelled npart par sp cc c s q ls → (ls.length : Int) ≤ p'.maxOcc) ∧
      ∃ (s : Int) (c q : Nat) (ls : List Nat), s ∈ ids ∧ c < npart.length ∧
        ListsLabelled npart par sp cc c s q ls ∧ p'.maxOcc = ls.length := by
  obtain ⟨L, h1, h2⟩ := built_spec hp
  have hb := reach_base hr
  obtain ⟨p', a1, a2, a3⟩ := construct_spec he hids hb h1 h2 hcc (labels_of h1 h2 hok)
  have hb' := reach_base (.construct rfl hr a1)
  obtain ⟨used, u1, u2, u3⟩ := a3.maxOcc
  obtain ⟨s0, hs0⟩ := List.exists_mem_of_ne_nil _ hids
  have hS : 0 < p'.numSpecies := List.length_pos_of_mem ((hb'.mem s0).2 hs0)
  have hpos : ∀ (c n : Nat), c < npart.length → ccCounts[c]? = some n → n ≤ p'.maxCC := by
    intro c n hc hn
    rw [a3.maxCC]
    exact le_foldl_max0 (l := ccCounts.take npart.length) (c := c) (n := n)
      (by rw [List.getElem?_take_of_lt hc]; exact hn)
  obtain ⟨c0, n0, hc0, hn0, hp0⟩ := hone
  have hne : used ≠ [] := by
    intro h
    rw [h, List.length_nil] at u2
    have h4 := hpos c0 n0 hc0 hn0
    have : 0 < p'.maxCC * npart.length * p'.numSpecies :=
      Nat.mul_pos (Nat.mul_pos (by omega) (by omega)) hS
    omega
  obtain ⟨m, m1, m2, m3⟩ := reduceMax_spec hne
  -- the entries of one collision cell
  have hcell : ∀ (s : Int) (c q : Nat), s ∈ p'.species → c < npart.length → q < p'.maxCC →
      ∃ ls, ListsLabelled npart par sp cc c s q ls ∧
        used[slotN p'.maxCC p'.numSpecies c q (p'.species.idxOf s)]? = some ls.length := by
    intro s c q hs hc hq
    obtain ⟨row, hrow⟩ := exists_row (L := L) (c := c) (by rw [h2.1]; exact hc)
    obtain ⟨ls, b1, b2⟩ := a3.entries s c q row hs hrow hq
    obtain ⟨hnd, -⟩ := h2.2 c row _ hrow (List.getElem?_eq_getElem hc)
    refine ⟨ls, ⟨(b2.nodup_iff).2 (hnd.filter _), ?_⟩, ?_⟩
    · intro l
      rw [b2.mem_iff, List.mem_filter, inParent_iff h1]
      simp only [decide_eq_true_eq]
      constructor
      · rintro ⟨m1, m2⟩; exact ⟨⟨row, hrow, m1⟩, m2⟩
      · rintro ⟨⟨row', hr', m1⟩, m2⟩
        rw [hrow] at hr'
        obtain rfl := Option.some.inj hr'
        exact ⟨m1, m2⟩
    · have h5 := u3 c q (p'.species.idxOf s) hc hq (List.idxOf_lt_length_of_mem hs)
      rw [b1.1] at h5
      obtain ⟨x, hx, hxe⟩ := Option.map_eq_some_iff.1 h5.symm
      have hxe' : x = ls.length := by exact_mod_cast hxe
      rw [hx, hxe']
  refine ⟨p', a1, ?_, ?_⟩
  · intro s c n q ls hs hc hn hq hls
    have hle := hpos c n hc hn
    obtain ⟨ls', l1, l2⟩ := hcell s c q ((hb'.mem s).2 hs) hc (by omega)
    have hperm : ls.Perm ls' := (List.perm_ext_iff_of_nodup hls.1 l1.1).2
      (fun l => (hls.2 l).trans (l1.2 l).symm)
    rw [u1, m2, hperm.length_eq]
    exact_mod_cast m3 _ (List.mem_of_getElem? l2)
  · obtain ⟨k, hk, hke⟩ := List.getElem_of_mem m1
    rw [u2] at hk
    -- decode the slot
    have hdec : ∃ c q lin, c < npart.length ∧ q < p'.maxCC ∧ lin < p'.numSpecies ∧
        k = slotN p'.maxCC p'.numSpecies c q lin := by
      have hM : 0 < p'.maxCC := by have := hpos c0 n0 hc0 hn0; omega
      refine ⟨k / p'.numSpecies / p'.maxCC, k / p'.numSpecies % p'.maxCC, k % p'.numSpecies, ?_,
        Nat.mod_lt _ hM, Nat.mod_lt _ hS, ?_⟩
      · rw [Nat.div_lt_iff_lt_mul hM, Nat.div_lt_iff_lt_mul hS, Nat.mul_comm npart.length]
        exact hk
      · unfold slotN
        rw [Nat.mul_comm (k / p'.numSpecies / p'.maxCC), Nat.div_add_mod, Nat.mul_comm,
          Nat.div_add_mod]
    obtain ⟨c, q, lin, d1, d2, d3, d4⟩ := hdec
    have hs : p'.species[lin] ∈ p'.species := List.getElem_mem d3
    obtain ⟨ls, l1, l2⟩ := hcell p'.species[lin] c q hs d1 d2
    refine ⟨p'.species[lin], c, q, ls, (hb'.mem _).1 hs, d1, l1, ?_⟩
    rw [u1, m2]
    have : p'.species.idxOf p'.species[lin] = lin := hb'.nodup.idxOf_getElem lin d3
    rw [this, ← d4, List.getElem?_eq_getElem (by rw [u2]; exact hk), hke] at l2
    exact_mod_cast Option.some.inj l2

/-- **C57** `get_max_num_pairs` returns, for each collision cell of each mesh cell, the number
of pairs that can be made from the particles of the two species in it, with or without
replacement. -/
theorem C57_max_num_pairs {e : CollEnv} {npart : List Nat} (he : CollEnvOk e npart)
    {ids : List Int} {p : CollPart} (hr : PartitionReachable e.width npart.length ids p)
    {par : Parent} (hp : Built npart par) {ccCounts : List Nat}
    (hcc : npart.length ≤ ccCounts.length) {sp cc : Nat → Nat → Int}
    (hok : CollLabelsOk npart par ids ccCounts sp cc) {a b : Int} (ha : a ∈ ids) (hb : b ∈ ids)
    (replacement : Bool) (fresh : Fresh Int) :
    ∃ p' R, p.construct e npart par ccCounts sp cc = some p' ∧
      p'.maxNumPairs e fresh a b replacement = some R ∧ R.length = npart.length ∧
      ∀ c n, c < npart.length → ccCounts[c]? = some n → ∃ row, R[c]? = some row ∧
        row.length = n ∧ ∀ (q : Nat) (lsA lsB : List Nat), q < n →
          ListsLabelled npart par sp cc c a q lsA → ListsLabelled npart par sp cc c b q lsB →
          row[q]? = some (pairsPossible replacement (a = b) lsA.length lsB.length) := by
  have hids : ids ≠ [] := List.ne_nil_of_mem ha
  obtain ⟨L, h1, h2⟩ := built_spec hp
  have hb0 := reach_base hr
  obtain ⟨p', a1, a2, a3⟩ := construct_spec he hids hb0 h1 h2 hcc (labels_of h1 h2 hok)
  have hb' := reach_base (.construct rfl hr a1)
  have hsa := (hb'.mem a).2 ha
  have hsb := (hb'.mem b).2 hb
  have hnum : ∀ (s : Int) (c q : Nat), s ∈ p'.species → c < npart.length → q < p'.maxCC →
      ∃ k : Nat, p'.numParticles c q (p'.species.idxOf s) = some (k : Int) ∧
        ∀ ls, ListsLabelled npart par sp cc c s q ls → ls.length = k := by
    intro s c q hs hc hq
    obtain ⟨row, hrow⟩ := exists_row (L := L) (c := c) (by rw [h2.1]; exact hc)
    obtain ⟨ls, b1, b2⟩ := a3.entries s c q row hs hrow hq
    obtain ⟨hnd, -⟩ := h2.2 c row _ hrow (List.getElem?_eq_getElem hc)
    refine ⟨ls.length, b1.1, ?_⟩
    intro ls' h'
    have hp2 : ls'.Perm (row.filter fun l => decide (sp c l = s ∧ cc c l = q)) := by
      refine (List.perm_ext_iff_of_nodup h'.1 (hnd.filter _)).2 ?_
      intro l
      rw [h'.2, List.mem_filter, inParent_iff h1]
      simp only [decide_eq_true_eq]
      constructor
      · rintro ⟨⟨row', hr', m1⟩, m2⟩
        rw [hrow] at hr'
        obtain rfl := Option.some.inj hr'
        exact ⟨m1, m2⟩
      · rintro ⟨m1, m2⟩; exact ⟨⟨row, hrow, m1⟩, m2⟩
    exact (hp2.trans b2.symm).length_eq
  choose! F hF hF2 using hnum
  set val : Nat × Nat → Int := fun it =>
    pairsPossible replacement (a = b) (F a it.1 it.2) (F b it.1 it.2) with hval
  have hbound : ∀ it : Nat × Nat, pairBound replacement (a = b) (F a it.1 it.2)
      (F (if a = b then a else b) it.1 it.2) = val it := by
    intro it
    simp only [hval]
    unfold pairBound pairsPossible
    cases replacement <;> by_cases hab : a = b <;> simp [hab]
  obtain ⟨m, g1, g2, g3, -⟩ := runItems_put
    (items := e.s3.order ((List.range p'.cellCount).flatMap fun c =>
      (List.range p'.maxCC).map fun q => (c, q)))
    (step := fun (it : Nat × Nat) (m : List Int) =>
      (p'.numParticles it.1 it.2 (p'.species.idxOf a)).bind fun na =>
      (if a = b then some na else p'.numParticles it.1 it.2 (p'.species.idxOf b)).bind fun nb =>
      st m (it.1 * p'.maxCC + it.2) (pairBound replacement (a = b) na nb))
    (m := (fresh (p'.maxCC * p'.cellCount + e.over)).1)
    (fun it => some (it.1 * p'.maxCC + it.2)) val
    (by
      intro it hi m _
      rw [(e.s3.perm _).mem_iff] at hi
      simp only [List.mem_flatMap, List.mem_map, List.mem_range] at hi
      obtain ⟨c, hc, q, hq, rfl⟩ := hi
      rw [hb'.cellCount] at hc
      beta_reduce
      rw [hF a c q hsa hc hq, Option.bind_some]
      by_cases hab : a = b
      · rw [if_pos hab, Option.bind_some]
        dsimp only
        rw [← hbound, if_pos hab]
      · rw [if_neg hab, hF b c q hsb hc hq, Option.bind_some]
        dsimp only
        rw [← hbound, if_neg hab])
    (by
      intro i hi j hj d hd hd'
      rw [(e.s3.perm _).mem_iff] at hi hj
      simp only [List.mem_flatMap, List.mem_map, List.mem_range] at hi hj
      obtain ⟨c, hc, q, hq, rfl⟩ := hi
      obtain ⟨c', hc', q', hq', rfl⟩ := hj
      obtain ⟨x1, x2⟩ := slot2_inj hq hq' ((Option.some.inj hd).trans (Option.some.inj hd').symm)
      exact congrArg val (Prod.ext x1 x2))
    (by
      intro i hi d hd
      rw [(e.s3.perm _).mem_iff] at hi
      simp only [List.mem_flatMap, List.mem_map, List.mem_range] at hi
      obtain ⟨c, hc, q, hq, rfl⟩ := hi
      rw [← Option.some.inj hd, (fresh _).2]
      have := slot2_lt hq hc
      dsimp only
      omega)
  rw [(fresh _).2] at g2
  have hcells : ∀ c, c < npart.length → ∃ n, p'.ccCounts[c]? = some n ∧ ccCounts[c]? = some n ∧
      n ≤ p'.maxCC ∧ c * p'.maxCC + p'.maxCC ≤ m.length := by
    intro c hc
    have hlt : c < ccCounts.length := by omega
    refine ⟨ccCounts[c], ?_, List.getElem?_eq_getElem hlt, ?_, ?_⟩
    · rw [a3.cells, List.getElem?_take_of_lt hc, List.getElem?_eq_getElem hlt]
    · rw [a3.maxCC]
      exact le_foldl_max0 (c := c)
        (by rw [List.getElem?_take_of_lt hc, List.getElem?_eq_getElem hlt])
    · rw [g2, hb'.cellCount]
      have h5 : (c + 1) * p'.maxCC ≤ npart.length * p'.maxCC := Nat.mul_le_mul_right _ (by omega)
      rw [Nat.add_mul, Nat.one_mul, Nat.mul_comm npart.length] at h5
      omega
  have hR : (List.range p'.cellCount).mapM (fun c => (rd p'.ccCounts c).bind fun n =>
      slice m (c * p'.maxCC) (c * p'.maxCC + n)) = some ((List.range npart.length).map fun c =>
        (m.drop (c * p'.maxCC)).take ((ccCounts[c]?).getD 0)) := by
    rw [hb'.cellCount]
    refine mapM_of_forall ?_
    intro c hc
    obtain ⟨n, n1, n2, n3, n4⟩ := hcells c (List.mem_range.1 hc)
    simp only [rd]
    rw [n1, Option.bind_some, slice_eq_some (by omega) (by omega), n2]
    simp
  refine ⟨p', (List.range npart.length).map fun c =>
    (m.drop (c * p'.maxCC)).take ((ccCounts[c]?).getD 0), a1, ?_, by simp, ?_⟩
  · unfold CollPart.maxNumPairs
    rw [linearId_eq hsa, Option.bind_some, linearId_eq hsb, Option.bind_some]
    refine (congrArg (fun x => Option.bind x _) g1).trans ?_
    rw [Option.bind_some]
    exact hR
  · intro c n hc hn
    obtain ⟨n', n1, n2, n3, n4⟩ := hcells c hc
    rw [n2] at hn
    obtain rfl := Option.some.inj hn
    refine ⟨(m.drop (c * p'.maxCC)).take n', ?_, ?_, ?_⟩
    · rw [List.getElem?_map, List.getElem?_range hc, Option.map_some, n2]
      rfl
    · simp; omega
    · intro q lsA lsB hq hA hB
      rw [List.getElem?_take_of_lt hq, List.getElem?_drop]
      have := g3 (c, q) (by
        rw [(e.s3.perm _).mem_iff]
        simp only [List.mem_flatMap, List.mem_map, List.mem_range]
        exact ⟨c, by rw [hb'.cellCount]; exact hc, q, by omega, rfl⟩) _ rfl
      rw [this]
      simp only [hval]
      rw [← hF2 a c q hsa hc (by omega) lsA hA, ← hF2 b c q hsb hc (by omega) lsB hB]

/-- **C57** `get_max_num_pairs` rejects a species that was not registered, and `construct` a list
of collision cell counts that is too short. -/
theorem C57_rejects {n ncell : Nat} {ids : List Int} {p : CollPart}
    (hr : PartitionReachable n ncell ids p) (e : CollEnv) :
    (∀ (a b : Int) (replacement : Bool) (fresh : Fresh Int), a ∉ ids ∨ b ∉ ids →
      p.maxNumPairs e fresh a b replacement = none) ∧
    ∀ (npart : List Nat) (par : Parent) (ccCounts : List Nat) (sp cc : Nat → Nat → Int),
      ccCounts.length < ncell → p.construct e npart par ccCounts sp cc = none := by
  have hb := reach_base hr
  have hno : ∀ s, s ∉ ids → p.linearId s = none := fun s hs => if_neg fun h => hs ((hb.mem s).1 h)
  refine ⟨?_, ?_⟩
  · rintro a b replacement fresh (h | h)
    · unfold CollPart.maxNumPairs
      rw [hno a h]; rfl
    · unfold CollPart.maxNumPairs
      rw [hno b h]
      cases p.linearId a <;> rfl
  · intro npart par ccCounts sp cc h
    unfold CollPart.construct
    rw [if_neg (by rw [hb.cellCount]; omega)]

/-! ## Concrete cases -/

namespace Ex

/-- Loops visit the particles in reverse order in the first loop, memory holds junk. -/
def collEnv : CollEnv where
  P := ⟨1024, 4, 1⟩
  s0 := Sched.reversed
  s1 := Sched.inOrder
  t0 := Sched.reversed
  t1 := Sched.reversed
  t2 := Sched.reversed
  s3 := Sched.reversed
  fresh := fun n => ⟨List.replicate n 99, by simp⟩
  over := 2
  scanLocal := 2
  units := 3
  width := 4
  garbage := fun _ => ⟨99, some 3, some 5, [true, true, true, true], [9, 9, 9, 9]⟩

theorem collEnv_ok (npart : List Nat) (h : ∀ n ∈ npart, n < 2 ^ 31) : CollEnvOk collEnv npart := by
  constructor <;> simp [collEnv]
  · exact h
  · exact ⟨rfl, rfl⟩

/-- Two cells with 5 and 2 particles. -/
def collCounts : List Nat := [5, 2]
/-- Species 7, -3, 7, 7, 8 (not registered) in cell 0 and -3, 7 in cell 1. -/
def collSp (c l : Nat) : Int := (([[7, -3, 7, 7, 8], [-3, 7]].getD c []).getD l 0)
/-- Collision cells. The particle of the species 8 has none. -/
def collCc (c l : Nat) : Int := (([[0, 1, 1, 0, -55], [0, 0]].getD c []).getD l 0)

theorem coll_labels : CollLabelsOk collCounts .whole [7, -3, 7] [2, 1] collSp collCc := by
  rintro c l ⟨n, hn, hl⟩ hs
  match c with
  | 0 =>
    simp [collCounts] at hn; subst hn
    match l with
    | 0 => decide
    | 1 => decide
    | 2 => decide
    | 3 => decide
    | 4 => revert hs; decide
    | l + 5 => omega
  | 1 =>
    simp [collCounts] at hn; subst hn
    match l with
    | 0 => decide
    | 1 => decide
    | l + 2 => omega
  | c + 2 => simp [collCounts] at hn

/-- The partition of the particles above. -/
def collResult : Option CollPart :=
  (collPartCreate collEnv 2 [7, -3, 7]).bind fun p =>
    p.construct collEnv collCounts .whole [2, 1] collSp collCc

-- The hypotheses of the theorems hold for this case.
example : ∃ p, collPartCreate collEnv 2 [7, -3, 7] = some p ∧
    ∃ p', p.construct collEnv collCounts .whole [2, 1] collSp collCc = some p' ∧
      ∀ s ∈ [7, -3, 7], ∃ lin, p'.linearIndex 4 s = some (some lin) ∧ p'.linearId s = some lin ∧
        ∀ c n q, c < 2 → [2, 1][c]? = some n → q < n →
          ∃ ls, CellEntries p' c q lin ls ∧ ListsLabelled collCounts .whole collSp collCc c s q ls := by
  have he := collEnv_ok collCounts (by decide)
  obtain ⟨p, h1, h2, -⟩ := C57_create he (by decide) [7, -3, 7]
  obtain ⟨p', a1, -, a2⟩ := C57_entries he (by decide) h2 .whole (by decide) coll_labels
  exact ⟨p, h1, p', a1, a2⟩

-- Species -3 has linear index 0, species 7 has linear index 1. Species 7 of collision cell 0 of
-- cell 0 are the layers 3 and 0.
example : (collResult.bind fun p => (p.numParticles 0 0 1).bind fun n =>
    ([0, 1].mapM (p.particleLayer 0 0 1)).map fun ls => (n, ls, p.maxOcc)) =
    some (2, [3, 0], 2) := by decide +kernel

example : (collResult.bind fun p => p.maxNumPairs collEnv (fun n => ⟨List.replicate n 5, by simp⟩)
    7 (-3) false) = some [[0, 1], [1]] ∧
    (collResult.bind fun p => p.maxNumPairs collEnv (fun n => ⟨List.replicate n 5, by simp⟩)
    7 7 false) = some [[1, 0], [0]] ∧
    (collResult.bind fun p => p.maxNumPairs collEnv (fun n => ⟨List.replicate n 5, by simp⟩)
    7 7 true) = some [[maxInt, 0], [0]] := by decide +kernel

end Ex

/-- **C57, limits of the property** The label of the collision cell is not checked: with a label
equal to the number of collision cells a particle of cell 0 is listed in cell 1. Two cells with
one particle each and one collision cell each; the particle of cell 0 has label 1. -/
theorem C57_labels_not_checked :
    ((collPartCreate Ex.collEnv 2 [7]).bind fun p =>
      (p.construct Ex.collEnv [1, 1] .whole [1, 1] (fun _ _ => 7)
        (fun c _ => if c = 0 then 1 else 0)).bind fun p' =>
      (p'.numParticles 0 0 0).bind fun n0 => (p'.numParticles 1 0 0).map fun n1 => (n0, n1)) =
    some (0, 2) := by decide +kernel

/-- **C57, limits of the property** A partition object made without species cannot be
constructed if there is a particle: the lookup starts at a null pointer. -/
theorem C57_no_species_fails :
    ((collPartCreate Ex.collEnv 1 []).bind fun p =>
      p.construct Ex.collEnv [1] .whole [1] (fun _ _ => 7) (fun _ _ => 0)).isNone = true ∧
    (collPartCreate Ex.collEnv 1 []).isSome = true := by decide +kernel

end NP
