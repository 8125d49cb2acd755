import Verif.Petsc.LemmasInterface2
import Mathlib.Algebra.Order.Floor.Ring

/-!
# Property C91: the halo of an unstructured mesh covers what a rank is responsible for
-/

set_option autoImplicit false

namespace NP

open Spec

section

variable {ki n : Nat} {g : MeshGeom} {cells : Nat → List DmCell}

/-- **C91** The construction succeeds on all ranks; in whatever order the claims take effect, each cell
of the hierarchy of which some bounding box covers at least a millionth is owned by the rank with the
largest share (in millionths, the highest rank among equals), no other cell has an owner, and the halo
of a rank consists of the cells of other ranks that have a part of an owned cell of the hierarchy which
the rank claims, or which is next to one that the rank owns. -/
theorem C91_setup (s0 : Nat → Sched) (s1 sc : Sched) (layout : NodeLayout) (w : ClaimState)
    (db : CellBuffer) (dp : PackedCell) (h : DmOk ki n g cells) (hw : ClaimReady layout n g w) :
    ∃ st, dmSetup s0 s1 sc layout w ki db dp n g cells = some st ∧
      (∀ c, 0 ≤ c → c < g.mh.ncellsGlobal → ∀ r : Nat, st.owner c = r ↔ IsDmOwner g n cells c r) ∧
      (∀ c, 0 ≤ c → c < g.mh.ncellsGlobal → (∀ r, r < n → ¬ Claims g (cells r) c) → st.owner c < 0) ∧
      st.halo.length = n ∧
      ∀ r, r < n → ∃ halo, st.halo[r]? = some halo ∧ ∀ p, p ∈ halo ↔ p.rank ≠ r ∧
        ∃ c o, IsDmOwner g n cells c o ∧
          (Claims g (cells r) c ∨ ∃ c0, IsDmOwner g n cells c0 r ∧ Adjacent g c0 c) ∧
          ∃ q, q < n ∧ ∃ e ∈ cells q, Touches g e c ∧ e.packed = p :=
  dmSetup_spec s0 s1 sc layout w db dp h hw

/-- **C91** A cell of the hierarchy of which a bounding box covers at least a millionth has exactly one
owner. -/
theorem C91_owner (h : DmOk ki n g cells) {r : Nat} (hr : r < n) {c : Int}
    (hc : Claims g (cells r) c) : ∃! o, IsDmOwner g n cells c o := by
  obtain ⟨L, hL, -⟩ := dm_locals h
  have hrange := claims_range h.geom hc
  obtain ⟨w', -, how, -⟩ := C34_owner (fun _ => Sched.inOrder) Sched.inOrder [List.range n]
    g.mh.ncellsGlobal.toNat (dmClaimList n L)
    ⟨[List.replicate g.mh.ncellsGlobal.toNat 0], fun _ => []⟩
    ⟨by simpa using List.nodup_range, by
      intro node hn
      rw [List.mem_singleton] at hn
      subst hn
      have := h.pos
      simp; omega, by simp⟩ (fun _ _ => rfl) rfl (by simp)
    (fun e he => dmClaims_valid h hL (by simp) he)
  obtain ⟨e, he, -, hec⟩ := dmClaim_exists hL hr hc
  obtain ⟨o, ho, -⟩ := how c hrange.1 (by omega) ⟨e, he, hec⟩
  refine ⟨o, (dm_isOwner hL (List.Perm.refl _) c o).1 ho, fun o' ho' => ?_⟩
  exact C34_owner_unique _ c o' o ((dm_isOwner hL (List.Perm.refl _) c o').2 ho') ho

/-- **C91** Every cell of another rank with a part of a cell of the hierarchy that the rank owns is in
the halo of the rank: what the rank is handed a particle for, it can locate it in. -/
theorem C91_touching (s0 : Nat → Sched) (s1 sc : Sched) (layout : NodeLayout) (w : ClaimState)
    (db : CellBuffer) (dp : PackedCell) (h : DmOk ki n g cells) (hw : ClaimReady layout n g w)
    {r q : Nat} (hq : q < n) (hqr : q ≠ r) {c : Int} (hc : IsDmOwner g n cells c r) {e : DmCell}
    (he : e ∈ cells q) (ht : Touches g e c) :
    ∃ st halo, dmSetup s0 s1 sc layout w ki db dp n g cells = some st ∧ st.halo[r]? = some halo ∧
      e.packed ∈ halo := by
  obtain ⟨st, h1, -, -, -, h2⟩ := dmSetup_spec s0 s1 sc layout w db dp h hw
  obtain ⟨halo, h3, h4⟩ := h2 r hc.1
  refine ⟨st, halo, h1, h3, (h4 _).2 ⟨?_, c, r, hc, Or.inl (dmOwner_claims hc), q, hq, e, he, ht, rfl⟩⟩
  rw [h.ranks q hq e he]
  omega

/-- **C91** The same for positions, the faces of the cells of the hierarchy included: if the rank owns
the cell of the hierarchy a position is in, each cell of another rank whose bounding box the position
is in is in the halo of the rank, as long as the cells of the hierarchy that the bounding box has a
part of have owners. -/
theorem C91_cover (s0 : Nat → Sched) (s1 sc : Sched) (layout : NodeLayout) (w : ClaimState)
    (db : CellBuffer) (dp : PackedCell) (h : DmOk ki n g cells) (hw : ClaimReady layout n g w)
    {r q : Nat} (hq : q < n) (hqr : q ≠ r) {c : Int} (hc : IsDmOwner g n cells c r) {e : DmCell}
    (he : e ∈ cells q) {x : List ℚ} (hx : InFineCell g x c) (hin : InBoxOf g.mh.dims.length x e)
    (hbox : CellBoxInside g e) (hown : ∀ c', Touches g e c' → ∃ o, IsDmOwner g n cells c' o) :
    ∃ st halo, dmSetup s0 s1 sc layout w ki db dp n g cells = some st ∧ st.halo[r]? = some halo ∧
      e.packed ∈ halo := by
  obtain ⟨st, h1, -, -, -, h2⟩ := dmSetup_spec s0 s1 sc layout w db dp h hw
  obtain ⟨halo, h3, h4⟩ := h2 r hc.1
  obtain ⟨c', hadj, ht⟩ := touches_adjacent h.geom hx hin hbox
  obtain ⟨o, ho⟩ := hown c' ht
  refine ⟨st, halo, h1, h3, (h4 _).2 ⟨?_, c', o, ho, Or.inr ⟨c, hc, hadj⟩, q, hq, e, he, ht, rfl⟩⟩
  rw [h.ranks q hq e he]
  omega

end

/-- **C91** The hierarchy covers the bounding box of the mesh: it starts at the lower corner and its
coarse cells reach in each dimension over the upper end, with no coarse cell to spare. They are cubes
with the smallest extent of the mesh as width, or with the largest if that is not twice as large. -/
theorem C91_hierarchy (order : Nat) (lo hi : List ℚ) (hne : lo ≠ []) (hl : lo.length = hi.length)
    (hpos : ∀ (d : Nat) (a b : ℚ), lo[d]? = some a → hi[d]? = some b → a < b) :
    ∃ g, dmHierarchy order lo hi = some g ∧ ValidGeom g ∧ g.mh.order = order ∧ g.origin = lo ∧
      g.mh.dims.length = lo.length ∧
      (∀ (d : Nat) (a b : ℚ) (m : Int), lo[d]? = some a → hi[d]? = some b → g.mh.dims[d]? = some m →
        b ≤ a + m * g.width ∧ a + (m - 1) * g.width < b) ∧
      (∃ (d d' : Nat) (a b a' b' : ℚ), lo[d]? = some a ∧ hi[d]? = some b ∧ lo[d']? = some a' ∧
        hi[d']? = some b' ∧
        (∀ (k : Nat) (x y : ℚ), lo[k]? = some x → hi[k]? = some y → b - a ≤ y - x ∧ y - x ≤ b' - a') ∧
        g.width = if 2 * (b - a) ≤ b' - a' then b - a else b' - a') := by
  have hex : ∀ x, x ∈ dmExtents lo hi ↔ ∃ (d : Nat) (a b : ℚ), lo[d]? = some a ∧ hi[d]? = some b ∧ x = b - a := by
    intro x
    unfold dmExtents
    rw [List.mem_iff_getElem?]
    constructor
    · rintro ⟨d, hd⟩
      rw [List.getElem?_zipWith] at hd
      cases ha : lo[d]? with
      | none => rw [ha] at hd; cases hd
      | some a =>
        cases hb : hi[d]? with
        | none => rw [ha, hb] at hd; cases hd
        | some b => rw [ha, hb] at hd; cases hd; exact ⟨d, a, b, ha, hb, rfl⟩
    · rintro ⟨d, a, b, ha, hb, rfl⟩
      exact ⟨d, by rw [List.getElem?_zipWith, ha, hb]⟩
  have hlen : (dmExtents lo hi).length = lo.length := by
    unfold dmExtents
    rw [List.length_zipWith]
    omega
  have hp : ∀ x ∈ dmExtents lo hi, 0 < x := by
    intro x hx
    obtain ⟨d, a, b, ha, hb, rfl⟩ := (hex x).1 hx
    have := hpos d a b ha hb
    linarith
  unfold dmHierarchy
  have hat : ∀ (d : Nat) (a b : ℚ), lo[d]? = some a → hi[d]? = some b →
      (dmExtents lo hi)[d]? = some (b - a) := by
    intro d a b ha hb
    unfold dmExtents
    rw [List.getElem?_zipWith, ha, hb]
  cases hE : dmExtents lo hi with
  | nil =>
    rw [hE] at hlen
    exact absurd (List.length_eq_zero_iff.1 hlen.symm) hne
  | cons e es =>
    rw [hE] at hex hlen hp hat
    obtain ⟨mn1, mn2⟩ := foldl_min_ext es e
    obtain ⟨mx1, mx2⟩ := foldl_max_ext es e
    simp only
    generalize es.foldl min e = mn at mn1 mn2 ⊢
    generalize es.foldl max e = mx at mx1 mx2 ⊢
    have hmn := hp mn mn1
    have hmx := hp mx mx1
    rw [if_pos hmn]
    have hdiv : (mx / mn ≥ 2) ↔ 2 * mn ≤ mx := by
      rw [ge_iff_le, le_div_iff₀ hmn]
    obtain ⟨size, hsize⟩ : ∃ s : ℚ, s = if mx / mn ≥ 2 then mn else mx := ⟨_, rfl⟩
    rw [← hsize]
    have hs : 0 < size := by rw [hsize]; split <;> assumption
    rw [show MeshHierarchy.create ((e :: es).map fun x => ⌈x / size⌉) order =
        some ⟨(e :: es).map fun x => ⌈x / size⌉, order⟩ from ?_]
    · have hvm : ValidMesh ⟨(e :: es).map fun x => ⌈x / size⌉, order⟩ := by
        refine ⟨by simp, ?_⟩
        intro d hd
        obtain ⟨x, hx, rfl⟩ := List.mem_map.1 hd
        exact Int.ceil_pos.2 (div_pos (hp x hx) hs)
      refine ⟨_, rfl, ⟨hvm, ?_, hs⟩, rfl, rfl, ?_, ?_, ?_⟩
      · show lo.length = ((e :: es).map fun x => ⌈x / size⌉).length
        rw [List.length_map, hlen]
      · show ((e :: es).map fun x => ⌈x / size⌉).length = lo.length
        rw [List.length_map, hlen]
      · intro d a b m ha hb hm
        have hm' : ((e :: es).map fun x => ⌈x / size⌉)[d]? = some m := hm
        rw [List.getElem?_map, hat d a b ha hb] at hm'
        have hmm : ⌈(b - a) / size⌉ = m := by simpa using hm'
        show b ≤ a + m * size ∧ a + (m - 1) * size < b
        have h1 := Int.le_ceil ((b - a) / size)
        have h2 := Int.ceil_lt_add_one ((b - a) / size)
        rw [hmm] at h1 h2
        rw [div_le_iff₀ hs] at h1
        have h3 : (m - 1 : ℚ) < (b - a) / size := by linarith
        rw [lt_div_iff₀ hs] at h3
        exact ⟨by linarith, by linarith⟩
      · obtain ⟨d, a, b, ha, hb, rfl⟩ := (hex mn).1 mn1
        obtain ⟨d', a', b', ha', hb', rfl⟩ := (hex mx).1 mx1
        refine ⟨d, d', a, b, a', b', ha, hb, ha', hb', ?_, ?_⟩
        · intro k x y hx hy
          have := (hex (y - x)).2 ⟨k, x, y, hx, hy, rfl⟩
          exact ⟨mn2 _ this, mx2 _ this⟩
        · show size = _
          rw [hsize]
          simp only [hdiv]
    · unfold MeshHierarchy.create
      rw [if_pos]
      · simp
      · refine ⟨by simp, ?_, by omega⟩
        intro d hd
        obtain ⟨x, hx, rfl⟩ := List.mem_map.1 hd
        exact Int.ceil_pos.2 (div_pos (hp x hx) hs)

/-- **C91** A bounding box that is not flat and in the bounding box of the mesh is in the hierarchy. -/
theorem C91_box_inside (order : Nat) (lo hi : List ℚ) (hne : lo ≠ []) (hl : lo.length = hi.length)
    (hpos : ∀ (d : Nat) (a b : ℚ), lo[d]? = some a → hi[d]? = some b → a < b) (e : DmCell)
    (he : ∀ (d : Nat) (a b : ℚ), lo[d]? = some a → hi[d]? = some b →
      ∃ x y, e.lower[d]? = some x ∧ e.upper[d]? = some y ∧ x < y ∧ a ≤ x ∧ y ≤ b) :
    ∃ g, dmHierarchy order lo hi = some g ∧ CellBoxInside g e := by
  obtain ⟨g, h1, h2, -, h3, h4, h5, -⟩ := C91_hierarchy order lo hi hne hl hpos
  refine ⟨g, h1, ?_⟩
  intro d o m ho hm
  rw [h3] at ho
  have hd : d < hi.length := by rw [← hl, ← h4]; exact (List.getElem?_eq_some_iff.1 hm).1
  obtain ⟨x, y, hx, hy, hxy, hox, hyb⟩ := he d o hi[d] ho (List.getElem?_eq_getElem hd)
  exact ⟨x, y, hx, hy, hxy, hox, hyb.trans (h5 d o hi[d] m ho (List.getElem?_eq_getElem hd) hm).1⟩

/-- **C91** If the mesh is flat there is no hierarchy. -/
theorem C91_flat (order : Nat) (lo hi : List ℚ) (d : Nat) (a b : ℚ) (ha : lo[d]? = some a)
    (hb : hi[d]? = some b) (hab : b ≤ a) : dmHierarchy order lo hi = none := by
  have hmem : b - a ∈ dmExtents lo hi := by
    rw [List.mem_iff_getElem?]
    exact ⟨d, by unfold dmExtents; rw [List.getElem?_zipWith, ha, hb]⟩
  unfold dmHierarchy
  cases hE : dmExtents lo hi with
  | nil => rfl
  | cons e es =>
    rw [hE] at hmem
    have := (foldl_min_ext es e).2 _ hmem
    simp only
    rw [if_neg]
    intro hh
    have : 0 < es.foldl min e := hh
    linarith

/-- **C91** The neighbours of a rank are the ranks of its halo cells, each once. -/
theorem C91_neighbours {gm : GMesh} {ndim ki ks fuel size : Nat} (hg : GMeshOk gm ndim ks) (hki : 0 < ki)
    (hks : 0 < ks) (fresh : Fresh Scal) (cells : List PackedCell)
    (hc : ∀ c ∈ cells, PackedOf ki ks fuel gm c)
    (hown : ∀ c ∈ cells, ∀ d ∈ cells, c.globalId = d.globalId → c.rank = d.rank ∧ c.localId = d.localId)
    (hr : ∀ c ∈ cells, 0 ≤ c.rank ∧ c.rank < size) :
    ∃ x lids out, dmFromCells ki ks fuel ndim fresh cells [] = some (x, lids) ∧
      dmNeighbours size lids = some out ∧ out.Pairwise (· < ·) ∧
      ∀ q, q ∈ out ↔ ∃ c ∈ cells, c.rank = q := by
  by_cases hne : cells = []
  · subst hne
    exact ⟨none, [], [], rfl, rfl, List.Pairwise.nil, by simp⟩
  · obtain ⟨ix, h, lids, loc, e1, hp, hcell, hother, hrange⟩ :=
      C84_halo hg hki hks fresh cells hc hown hne
    have hok : OMapOk lids := dmFromCells_ok (by simp [OMapOk]) e1
    have hval : ∀ x ∈ lids, (∃ c ∈ cells, x.2.1 = c.rank) ∨ x.2.1 = -1 := by
      intro x hx
      have hget := omGet_of_mem hok (k := x.1) (v := x.2) hx
      obtain ⟨h0, hlt⟩ := hrange _ _ hget
      obtain ⟨l, hl⟩ : ∃ l : Nat, x.1 = l := ⟨x.1.toNat, by omega⟩
      rw [hl] at hget hlt
      obtain ⟨cid, hcid, p, hcl, hloc⟩ := (hp.numbers l).1 (by omega)
      obtain ⟨c, hcc, rfl⟩ := List.mem_map.1 hcid
      by_cases hd : ∃ d ∈ cells, d.globalId = p
      · obtain ⟨d, hd, rfl⟩ := hd
        have := hcell d hd
        rw [hloc, hget] at this
        left
        exact ⟨d, hd, by rw [Option.some.inj this]⟩
      · have := hother c hcc p hcl fun d hd' e => hd ⟨d, hd', e⟩
        rw [hloc, hget] at this
        right
        rw [Option.some.inj this]
    obtain ⟨out, e2, hs, hm⟩ := dmNeighbours_spec (size := size) lids (by
      intro x hx
      rcases hval x hx with ⟨c, hcc, e⟩ | e
      · rw [e]; exact (hr c hcc).2
      · rw [e]; omega)
    refine ⟨_, lids, out, e1, e2, hs, fun q => ?_⟩
    rw [hm]
    constructor
    · rintro ⟨hq, x, hx, rfl⟩
      rcases hval x hx with ⟨c, hcc, e⟩ | e
      · exact ⟨c, hcc, e.symm⟩
      · omega
    · rintro ⟨c, hcc, rfl⟩
      exact ⟨by have := (hr c hcc).1; omega, _, omGet_mem (hcell c hcc), rfl⟩

/-! ## Cases -/

namespace Ex

/-- Two coarse cells side by side. -/
def dmGeom : MeshGeom := ⟨⟨[2, 1], 0⟩, [0, 0], 1⟩

theorem dmGeom_valid : ValidGeom dmGeom := ⟨⟨by decide, by decide⟩, rfl, by decide⟩

/-- One cell on each of two ranks; the bounding boxes overlap. -/
def dmCells (r : Nat) : List DmCell :=
  if r = 0 then [⟨[0, 0], [5 / 4, 1], ⟨0, 7, 0, 3, [1]⟩⟩]
  else if r = 1 then [⟨[3 / 4, 0], [2, 1], ⟨0, 8, 1, 3, [2]⟩⟩] else []

-- the hierarchy is the one that is made for this mesh
example : dmHierarchy 0 [0, 0] [2, 1] = some dmGeom := by
  unfold dmHierarchy dmExtents dmGeom MeshHierarchy.create
  norm_num

theorem dmCells_ok : DmOk 4 2 dmGeom dmCells := by
  have hall : ∀ (r : Nat), r < 2 → ∀ e ∈ dmCells r,
      (r = 0 ∧ e = ⟨[0, 0], [5 / 4, 1], ⟨0, 7, 0, 3, [1]⟩⟩) ∨
      (r = 1 ∧ e = ⟨[3 / 4, 0], [2, 1], ⟨0, 8, 1, 3, [2]⟩⟩) := by
    intro r hr e he
    have : r = 0 ∨ r = 1 := by omega
    rcases this with rfl | rfl
    · left
      simpa [dmCells] using he
    · right
      simpa [dmCells] using he
  refine ⟨by decide, dmGeom_valid, by decide, by decide, ?_, ?_, ?_, by decide +kernel⟩
  · intro r hr e he
    rcases hall r hr e he with ⟨-, rfl⟩ | ⟨-, rfl⟩ <;> exact ⟨by decide, by decide⟩
  · intro r hr e he
    rcases hall r hr e he with ⟨rfl, rfl⟩ | ⟨rfl, rfl⟩ <;> rfl
  · intro r hr e he
    rcases hall r hr e he with ⟨-, rfl⟩ | ⟨-, rfl⟩ <;>
      exact packed_good _ (by unfold FitsIn; decide) (by unfold FitsIn; decide)
        (by unfold FitsIn; decide) (by unfold FitsIn; decide) (by decide)

/-- The two ranks on two nodes. -/
example : ClaimReady [[1], [0]] 2 dmGeom ⟨[[5, 5], [0, 3]], fun _ => []⟩ := by
  refine ⟨⟨by decide, by decide, by decide⟩, ?_, fun _ _ => rfl, rfl, by decide⟩
  intro r
  simp only [List.flatten_cons, List.flatten_nil, List.append_nil, List.mem_append, List.mem_singleton]
  omega

/-- The cell with number `c` of a row of coarse cells. -/
theorem row_cell {m c : Int} (h0 : 0 ≤ c) (h1 : c < m) : IsCellAt ⟨[m, 1], 0⟩ [c, 0] c := by
  refine ⟨[c, 0], [0, 0], ?_, ?_, ?_, ?_⟩
  · unfold InRange; simp; omega
  · unfold InRange MeshHierarchy.ndim MeshHierarchy.ncellsDimFine
    simp [List.replicate_succ]
  · simp [MeshHierarchy.tupleToLinearGlobal, MeshHierarchy.tupleToLinearCoarse,
      MeshHierarchy.tupleToLinearFine, radixToLinear, MeshHierarchy.ndim, MeshHierarchy.ncellsFine,
      MeshHierarchy.ncellsDimFine, List.replicate_succ, runItems, rd]
  · simp [MeshHierarchy.ncellsDimFine]

/-- The shares in a row of coarse cells. -/
theorem row_share {m c : Int} (hm : 0 < m) (h0 : 0 ≤ c) (h1 : c < m) (a b s : ℚ) :
    Overlaps ⟨⟨[m, 1], 0⟩, [0, 0], 1⟩ [a, 0] [b, 1] c s ↔ 0 < s ∧ s = overlap a b c (c + 1) := by
  have hv : ValidMesh ⟨[m, 1], 0⟩ := ⟨by simp, by simp [hm]⟩
  have hc := row_cell h0 h1
  have hvol : ∀ t, IsCellAt ⟨[m, 1], 0⟩ t c → overlapVolume (fineWidth ⟨⟨[m, 1], 0⟩, [0, 0], 1⟩) [0, 0]
      [a, 0] [b, 1] t / fineWidth ⟨⟨[m, 1], 0⟩, [0, 0], 1⟩ ^ 2 = overlap a b c (c + 1) := by
    intro t ht
    rw [isCellAt_unique' hv ht hc]
    simp [overlapVolume, fineWidth, overlap]
  constructor
  · rintro ⟨t, ht, h2, h3⟩
    exact ⟨h2, h3.trans (hvol t ht)⟩
  · rintro ⟨h2, h3⟩
    exact ⟨_, hc, h2, h3.trans (hvol _ hc).symm⟩

/-- Rank 0 owns the first cell of the hierarchy. -/
theorem dmCells_owner : IsDmOwner dmGeom 2 dmCells 0 0 := by
  have hs := fun a b s => row_share (m := 2) (c := 0) (by decide) (by decide) (by decide) a b s
  refine ⟨by decide, ⟨[0, 0], [5 / 4, 1], ⟨0, 7, 0, 3, [1]⟩⟩, by simp [dmCells], 1,
    (hs 0 (5 / 4) 1).2 ⟨by norm_num, by norm_num [overlap]⟩, by norm_num, ?_⟩
  intro q hq e he s ho
  have : q = 0 ∨ q = 1 := by omega
  rcases this with rfl | rfl
  · have he' : e = ⟨[0, 0], [5 / 4, 1], ⟨0, 7, 0, 3, [1]⟩⟩ := by simpa [dmCells] using he
    subst he'
    obtain ⟨-, rfl⟩ := (hs 0 (5 / 4) s).1 ho
    norm_num [overlap]
  · have he' : e = ⟨[3 / 4, 0], [2, 1], ⟨0, 8, 1, 3, [2]⟩⟩ := by simpa [dmCells] using he
    subst he'
    obtain ⟨-, rfl⟩ := (hs (3 / 4) 2 s).1 ho
    norm_num [overlap]

-- the cell of rank 1 has a part of it, so it is in the halo of rank 0
example : Touches dmGeom ⟨[3 / 4, 0], [2, 1], ⟨0, 8, 1, 3, [2]⟩⟩ 0 :=
  ⟨1 / 4, (row_share (m := 2) (by decide) (by decide) (by decide) _ _ _).2
    ⟨by norm_num, by norm_num [overlap]⟩⟩

-- a position in the first cell of the hierarchy and in the box of the cell of rank 1
example : InFineCell dmGeom [3 / 4, 1] 0 ∧
    InBoxOf 2 [3 / 4, 1] ⟨[3 / 4, 0], [2, 1], ⟨0, 8, 1, 3, [2]⟩⟩ ∧
    CellBoxInside dmGeom ⟨[3 / 4, 0], [2, 1], ⟨0, 8, 1, 3, [2]⟩⟩ := by
  refine ⟨⟨[0, 0], row_cell (by decide) (by decide), ?_⟩, ?_, ?_⟩
  · intro d o i ho hi
    match d, ho, hi with
    | 0, ho, hi => cases ho; cases hi; exact ⟨3 / 4, rfl, by norm_num [fineWidth, dmGeom]⟩
    | 1, ho, hi => cases ho; cases hi; exact ⟨1, rfl, by norm_num [fineWidth, dmGeom]⟩
    | d + 2, ho, hi => simp [dmGeom] at ho
  · intro d hd
    match d, hd with
    | 0, _ => exact ⟨3 / 4, 3 / 4, 2, rfl, rfl, rfl, by norm_num⟩
    | 1, _ => exact ⟨1, 0, 1, rfl, rfl, rfl, by norm_num⟩
  · intro d o m ho hm
    match d, ho, hm with
    | 0, ho, hm => cases ho; cases hm; exact ⟨3 / 4, 2, rfl, rfl, by norm_num [dmGeom]⟩
    | 1, ho, hm => cases ho; cases hm; exact ⟨0, 1, rfl, rfl, by norm_num [dmGeom]⟩
    | d + 2, ho, hm => simp [dmGeom] at ho

/-- A mesh that is a little longer than two coarse cells, on one rank. -/
def sliverCells (r : Nat) : List DmCell :=
  if r = 0 then [⟨[0, 0], [20000001 / 10000000, 1], ⟨0, 7, 0, 3, [1]⟩⟩] else []

end Ex

/-- **C91** A position in the mesh need not be in an owned cell of the hierarchy: if the mesh is a
little longer than a whole number of coarse cells, of the last cell of the hierarchy less than a
millionth is covered, so nobody claims it, although there are positions in the mesh in it. -/
theorem C91_unowned :
    ∃ (g : MeshGeom) (x : List ℚ) (c : Int), dmHierarchy 0 [0, 0] [20000001 / 10000000, 1] = some g ∧
      DmOk 4 1 g Ex.sliverCells ∧
      InFineCell g x c ∧ (∃ e ∈ Ex.sliverCells 0, InBoxOf 2 x e ∧ Touches g e c) ∧
      (∀ c' y, IsCellAt g.mh y c' → InFineCell g x c' → c' = c) ∧
      ¬ ∃ r, IsDmOwner g 1 Ex.sliverCells c r := by
  have hv : ValidGeom ⟨⟨[3, 1], 0⟩, [0, 0], 1⟩ := ⟨⟨by decide, by decide⟩, rfl, by decide⟩
  refine ⟨⟨⟨[3, 1], 0⟩, [0, 0], 1⟩, [40000001 / 20000000, 1 / 2], 2, ?_, ?_, ?_, ?_, ?_, ?_⟩
  · have h3 : ⌈(20000001 / 10000000 : ℚ)⌉ = 3 := by
      rw [Int.ceil_eq_iff]; norm_num
    unfold dmHierarchy dmExtents MeshHierarchy.create
    norm_num [h3]
  · have hall : ∀ (r : Nat), r < 1 → ∀ e ∈ Ex.sliverCells r,
        r = 0 ∧ e = ⟨[0, 0], [20000001 / 10000000, 1], ⟨0, 7, 0, 3, [1]⟩⟩ := by
      intro r hr e he
      have : r = 0 := by omega
      subst this
      exact ⟨rfl, by simpa [Ex.sliverCells] using he⟩
    refine ⟨by decide, hv, by decide, by decide, ?_, ?_, ?_, by decide +kernel⟩
    · intro r hr e he
      obtain ⟨-, rfl⟩ := hall r hr e he
      exact ⟨by simp, by simp⟩
    · intro r hr e he
      obtain ⟨rfl, rfl⟩ := hall r hr e he
      rfl
    · intro r hr e he
      obtain ⟨-, rfl⟩ := hall r hr e he
      exact packed_good _ (by unfold FitsIn; decide) (by unfold FitsIn; decide)
        (by unfold FitsIn; decide) (by unfold FitsIn; decide) (by decide)
  · refine ⟨[2, 0], Ex.row_cell (by decide) (by decide), ?_⟩
    intro d o i ho hi
    match d, ho, hi with
    | 0, ho, hi => cases ho; cases hi; exact ⟨_, rfl, by norm_num [fineWidth]⟩
    | 1, ho, hi => cases ho; cases hi; exact ⟨_, rfl, by norm_num [fineWidth]⟩
    | d + 2, ho, hi => simp at ho
  · refine ⟨_, List.mem_singleton.2 rfl, ?_, ?_⟩
    · intro d hd
      match d, hd with
      | 0, _ => exact ⟨_, _, _, rfl, rfl, rfl, by norm_num⟩
      | 1, _ => exact ⟨_, _, _, rfl, rfl, rfl, by norm_num⟩
    · exact ⟨1 / 10000000, (Ex.row_share (by decide) (by decide) (by decide) _ _ _).2
        ⟨by norm_num, by norm_num [overlap]⟩⟩
  · rintro c' - - ⟨t, ht, hpos⟩
    have hl := isCellAt_length ht
    match t, hl, ht, hpos with
    | [i, j], _, ht, hpos =>
      obtain ⟨p, hp, h1, h2⟩ := hpos 0 0 i rfl rfl
      cases hp
      obtain ⟨p', hp', h3, h4⟩ := hpos 1 0 j rfl rfl
      cases hp'
      simp only [fineWidth, pow_zero, div_one, mul_one, zero_add] at h1 h2 h3 h4
      have hi : i = 2 := by
        have a1 : (i : ℚ) < 3 := by linarith
        have a2 : (1 : ℚ) < i := by linarith
        have a1' : i < 3 := by exact_mod_cast a1
        have a2' : 1 < i := by exact_mod_cast a2
        omega
      have hj : j = 0 := by
        have a1 : (j : ℚ) < 1 := by linarith
        have a2 : (-1 : ℚ) < j := by linarith
        have a1' : j < 1 := by exact_mod_cast a1
        have a2' : -1 < j := by exact_mod_cast a2
        omega
      subst hi hj
      exact isCellAt_unique hv.1 ht (Ex.row_cell (by decide) (by decide))
  · rintro ⟨r, hr, e, he, s, ho, hone, -⟩
    have : r = 0 := by omega
    subst this
    have he' : e = ⟨[0, 0], [20000001 / 10000000, 1], ⟨0, 7, 0, 3, [1]⟩⟩ := by
      simpa [Ex.sliverCells] using he
    subst he'
    obtain ⟨-, rfl⟩ := (Ex.row_share (by decide) (by decide) (by decide) _ _ _).1 ho
    norm_num [overlap] at hone

end NP
