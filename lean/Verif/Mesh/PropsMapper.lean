import Verif.Mesh.LemmasMapper
import Verif.Mesh.PropsCart

/-!
# C66 (neighbouring ranks), C41 (the local mapper)
-/

set_option autoImplicit false

namespace NP

/-- **C66** `get_local_communication_neighbours` on rank `r`: in ascending order the ranks which
own a cell within the stencil of the cells of rank `r`. -/
theorem C66_neighbours (m : CartMesh) (hv : Spec.ValidCartMesh m) (owner : Int → Option Int)
    (ho : ∀ t r c, Spec.IsMeshCell m t → m.owningRank t = some r → Spec.IsCellAt m.mh t c →
      owner c = some (r : Int))
    (r : Nat) (hr : r < m.comm.dims.prod) :
    ∃ l, m.neighbourRanks owner r = some l ∧ l.Pairwise (· < ·) ∧
      ∀ o : Int, o ∈ l ↔ ∃ t r', Spec.IsMeshCell m t ∧ Spec.InHalo m r t ∧
        m.owningRank t = some r' ∧ o = (r' : Int) := by
  obtain ⟨b, h1, h2, h3, h4, h5⟩ := box_spec hv hr
  have hb3 : b.length ≤ 3 := by rw [h2]; exact hv.ndim
  have hlen : b.length = m.cellCounts.length := by rw [h2]; simp [CartMesh.cellCounts]
  have hstep : ∀ s, InBox (b.map fun p => (p.1 - (m.stencil : Int), p.2 + (m.stencil : Int))) s →
      ∃ (t : List Int) (r' : Nat) (c : Int), wrapStencil m.stencil m.cellCounts (s ++ List.replicate (3 - b.length) 0) =
          some (t ++ List.replicate (3 - b.length) 0) ∧
        t = List.zipWith (fun c x => x % c) m.cellCounts s ∧
        m.mhIndex (t ++ List.replicate (3 - b.length) 0) = some c ∧ owner c = some (r' : Int) ∧
        Spec.IsMeshCell m t ∧ Spec.InHalo m r t ∧ m.owningRank t = some r' := by
    intro s hs
    obtain ⟨w1, w2, w3⟩ := wrapStencil_eq (u := List.replicate (3 - b.length) 0)
      (fun p hp => (h3 p hp).2) (cellCounts_pos hv.mesh) hlen hs
    have hmc : Spec.IsMeshCell m (List.zipWith (fun c x => x % c) m.cellCounts s) := w2
    obtain ⟨r', c, o1, -, o3, o4⟩ := owner_cell hv ho hmc (List.replicate (3 - b.length) 0)
    exact ⟨_, r', c, w1, rfl, o3, o4, hmc, (inHalo_iff hv hr h1 hmc).mpr w3, o1⟩
  have hrun := runItems_invariant
    (step := fun t s => (wrapStencil m.stencil m.cellCounts t).bind fun t' =>
      (m.mhIndex t').bind fun i => (owner i).bind fun o => some (intSetInsert o s))
    (items := (boxCells (b.map fun p => (p.1 - (m.stencil : Int), p.2 + (m.stencil : Int)))).map
      fun t => t ++ List.replicate (3 - b.length) 0)
    (s := []) (P := fun pre l => l.Pairwise (· < ·) ∧ ∀ o : Int, o ∈ l ↔ ∃ s t r',
      s ++ List.replicate (3 - b.length) 0 ∈ pre ∧ s.length = b.length ∧
      t = List.zipWith (fun c x => x % c) m.cellCounts s ∧
      Spec.IsMeshCell m t ∧ Spec.InHalo m r t ∧ m.owningRank t = some r' ∧ o = (r' : Int))
    (by
      rintro pre i post l hitems ⟨p1, p2⟩
      have hi : i ∈ (boxCells (b.map fun p => (p.1 - (m.stencil : Int),
          p.2 + (m.stencil : Int)))).map fun t => t ++ List.replicate (3 - b.length) 0 := by
        rw [hitems]; simp
      obtain ⟨s, hs, rfl⟩ := List.mem_map.mp hi
      rw [mem_boxCells] at hs
      have hsl : s.length = b.length := by have := hs.length_eq; simpa using this.symm
      obtain ⟨t, r', c, e1, e2, e3, e4, e5, e6, e7⟩ := hstep s hs
      refine ⟨intSetInsert (r' : Int) l, by
        rw [e1, Option.bind_some, e3, Option.bind_some, e4, Option.bind_some],
        intSetInsert_sorted p1, ?_⟩
      intro o
      rw [mem_intSetInsert, p2]
      constructor
      · rintro (rfl | ⟨s', t', r1, q1, q2⟩)
        · exact ⟨s, t, r', by simp, hsl, e2, e5, e6, e7, rfl⟩
        · exact ⟨s', t', r1, by simp [q1], q2⟩
      · rintro ⟨s', t', r1, q1, q2, q3, q4, q5, q6, q7⟩
        rw [List.mem_append, List.mem_singleton] at q1
        rcases q1 with q1 | q1
        · exact Or.inr ⟨s', t', r1, q1, q2, q3, q4, q5, q6, q7⟩
        · left
          have : s' = s := (List.append_inj q1 (by omega)).1
          subst this
          rw [q3, ← e2, e7] at q6
          rw [q7, Option.some.inj q6])
    ⟨List.Pairwise.nil, by simp⟩
  obtain ⟨l, r1, r2, r3⟩ := hrun
  refine ⟨l, ?_, r2, ?_⟩
  · unfold CartMesh.neighbourRanks
    rw [h1, Option.bind_some, loop3_stencilBox hb3, Option.bind_some]
    exact r1
  · intro o
    rw [r3]
    constructor
    · rintro ⟨s, t, r', -, -, -, x⟩; exact ⟨t, r', x⟩
    · rintro ⟨t, r', q1, q2, q3⟩
      obtain ⟨s, s1, s2⟩ := exists_wrap ((inHalo_iff hv hr h1 q1).mp q2)
      exact ⟨s, t, r', List.mem_map.mpr ⟨s, mem_boxCells.mpr s1, rfl⟩,
        by have := s1.length_eq; simpa using this.symm, s2.symm, q1, q2, q3⟩

theorem haloB_iff_get {w : Nat} {b : List (Int × Int)} {cs t : List Int}
    (h1 : cs.length = b.length) (h2 : t.length = b.length) :
    HaloB w b cs t ↔ ∀ (d : Nat) (p : Int × Int) (c a : Int), b[d]? = some p → cs[d]? = some c →
      t[d]? = some a → HaloDim w p c a := by
  induction b generalizing cs t with
  | nil =>
    have e1 : cs = [] := List.length_eq_zero_iff.mp h1
    have e2 : t = [] := List.length_eq_zero_iff.mp h2
    subst e1 e2
    simp [HaloB]
  | cons p b ih =>
    match cs, t, h1, h2 with
    | c :: cs, a :: t, h1, h2 =>
      rw [HaloB, ih (by simpa using h1) (by simpa using h2)]
      constructor
      · rintro ⟨g1, g2⟩ d p' c' a' k1 k2 k3
        cases d with
        | zero =>
          simp only [List.getElem?_cons_zero, Option.some.injEq] at k1 k2 k3
          subst k1 k2 k3
          exact g1
        | succ d =>
          simp only [List.getElem?_cons_succ] at k1 k2 k3
          exact g2 d p' c' a' k1 k2 k3
      · intro g
        exact ⟨g 0 p c a rfl rfl rfl, fun d p' c' a' k1 k2 k3 =>
          g (d + 1) p' c' a' (by simpa using k1) (by simpa using k2) (by simpa using k3)⟩

theorem lookupCoords_spec {ls : List (List Int)} {t u : List Int} (hl : t.length = ls.length)
    (h : ∀ (d : Nat) (l : List Int) (a : Int), ls[d]? = some l → t[d]? = some a →
      0 ≤ a ∧ a < (l.length : Int)) :
    ∃ xs, lookupCoords ls (t ++ u) = some (xs ++ u.map fun _ => 0) ∧ xs.length = ls.length ∧
      ∀ (d : Nat) (l : List Int) (a : Int), ls[d]? = some l → t[d]? = some a →
        xs[d]? = l[a.toNat]? := by
  induction ls generalizing t with
  | nil =>
    have : t = [] := List.length_eq_zero_iff.mp hl
    subst this
    exact ⟨[], by simp [lookupCoords], rfl, by simp⟩
  | cons l ls ih =>
    match t, hl with
    | a :: t, hl =>
      obtain ⟨xs, h1, h2, h3⟩ := ih (t := t) (by simpa using hl)
        (fun d l' a' k1 k2 => h (d + 1) l' a' (by simpa using k1) (by simpa using k2))
      have ha := h 0 l a rfl rfl
      have hlt : a.toNat < l.length := by omega
      refine ⟨l[a.toNat] :: xs, ?_, by simp [h2], ?_⟩
      · simp only [List.cons_append, lookupCoords, index, rd]
        rw [if_pos ha.1, Option.bind_some, List.getElem?_eq_getElem hlt, Option.bind_some, h1,
          Option.bind_some]
      · intro d l' a' k1 k2
        cases d with
        | zero =>
          simp only [List.getElem?_cons_zero, Option.some.injEq] at k1 k2
          subst k1 k2
          rw [List.getElem?_cons_zero, List.getElem?_eq_getElem hlt]
        | succ d =>
          simp only [List.getElem?_cons_succ] at k1 k2 ⊢
          exact h3 d l' a' k1 k2

/-- What the finished mapper on rank `r` does with a cell of the mesh. -/
def GoodMapper (m : CartMesh) (b : List (Int × Int)) (lm : LocalMapper) : Prop :=
  ∀ t r', Spec.IsMeshCell m t → m.owningRank t = some r' →
    (HaloB m.stencil b m.cellCounts t → ∃ lin : Nat,
      lookupCoords lm.lookups (t ++ List.replicate (3 - t.length) 0) =
        some (((m.comm.coordsOf r') ++ List.replicate (3 - t.length) 0).map fun (k : Nat) => (k : Int)) ∧
      lexRank (padDims m.comm.dims)
        (((m.comm.coordsOf r') ++ List.replicate (3 - t.length) 0).map fun (k : Nat) => (k : Int)) =
        some (lin : Int) ∧ lm.ranks[lin]? = some (r' : Int)) ∧
    (¬ HaloB m.stencil b m.cellCounts t → ∃ x0 x1 x2,
      lookupCoords lm.lookups (t ++ List.replicate (3 - t.length) 0) = some [x0, x1, x2] ∧
      ¬ (x0 ≥ 0 ∧ x1 ≥ 0 ∧ x2 ≥ 0))

theorem goodMapper {m : CartMesh} (hv : Spec.ValidCartMesh m) {owner : Int → Option Int}
    (ho : IsOwnerFn m owner) {r : Nat} (hr : r < m.comm.dims.prod) {b : List (Int × Int)}
    (hb : m.box r = some b) :
    ∃ lookups ranks, forAllM (axisLookup m owner b) (List.range m.ndim) = some lookups ∧
      rankMap m = some ranks ∧ GoodMapper m b ⟨lookups, ranks⟩ := by
  obtain ⟨b', h1, h2, h3, h4, h5⟩ := box_spec hv hr
  rw [hb] at h1
  obtain rfl := Option.some.inj h1
  have hcl : m.cellCounts.length = m.mh.dims.length := by simp [CartMesh.cellCounts]
  obtain ⟨lookups, l1, l2⟩ := forAllM_exists (f := axisLookup m owner b) (l := List.range m.ndim)
    (fun d l => axisLookup m owner b d = some l) (by
      intro d hd
      rw [List.mem_range] at hd
      have hd' : d < m.mh.dims.length := hd
      obtain ⟨l, x, -⟩ := axisLookup_spec hv ho (fun p hp => (h3 p hp).2)
        (List.getElem?_eq_getElem (l := m.comm.dims) (i := d) (by rw [grid_length hv]; exact hd'))
        (List.getElem?_eq_getElem (l := m.cellCounts) (i := d) (by rw [hcl]; exact hd'))
        (List.getElem?_eq_getElem (l := b) (i := d) (by rw [h2]; exact hd'))
      exact ⟨l, x, x⟩)
  obtain ⟨ranks, k1, k2, k3⟩ := rankMap_spec hv
  refine ⟨lookups, ranks, l1, k1, ?_⟩
  have hll : lookups.length = m.mh.dims.length := by
    rw [← l2.length_eq, List.length_range]; rfl
  intro t r' ht hr'
  have htl : t.length = m.mh.dims.length := by have := ht.length; simpa using this
  obtain ⟨g1, g2⟩ := coordsOf_owner hv ht hr'
  have hxl : (m.comm.coordsOf r').length = m.mh.dims.length := by
    rw [← g2.length_eq, grid_length hv]
  -- everything about one dimension
  have hdim : ∀ (d : Nat) (l : List Int) (a : Int), lookups[d]? = some l → t[d]? = some a →
      ∃ p c, b[d]? = some p ∧ m.cellCounts[d]? = some c ∧ 0 ≤ a ∧ a < c ∧ (l.length : Int) = c ∧
        (HaloDim m.stencil p c a → ∃ i : Nat, (m.comm.coordsOf r')[d]? = some i ∧
          l[a.toNat]? = some (i : Int)) ∧
        (¬ HaloDim m.stencil p c a → l[a.toNat]? = some (-1)) := by
    intro d l a hl ha
    have hd : d < m.mh.dims.length := by
      rw [← htl]; exact (List.getElem?_eq_some_iff.mp ha).1
    have hn := List.getElem?_eq_getElem (l := m.comm.dims) (i := d) (by rw [grid_length hv]; exact hd)
    have hc := List.getElem?_eq_getElem (l := m.cellCounts) (i := d) (by rw [hcl]; exact hd)
    have hp := List.getElem?_eq_getElem (l := b) (i := d) (by rw [h2]; exact hd)
    have hac := forall₂_get ht hc ha
    obtain ⟨l', x1, x2, x3⟩ := axisLookup_spec hv ho (fun p hp => (h3 p hp).2) hn hc hp
    have hld := forall₂_get l2 (List.getElem?_range (show d < m.ndim from hd)) hl
    rw [hld] at x1
    obtain rfl := Option.some.inj x1
    refine ⟨_, _, hp, hc, hac.1, hac.2, x2, ?_⟩
    have := x3 a.toNat (by omega)
    rw [Int.toNat_of_nonneg hac.1] at this
    refine ⟨fun hh => ?_, this.2⟩
    obtain ⟨i, i1, i2⟩ := this.1 hh
    refine ⟨i, ?_, i2⟩
    rw [← i1]
    exact owningCoords_get (u := []) (by rwa [List.append_nil]) (by rw [htl, grid_length hv]) d
      hn hc ha
  obtain ⟨xs, y1, y2, y3⟩ := lookupCoords_spec (ls := lookups) (t := t)
    (u := List.replicate (3 - t.length) 0) (by rw [htl, hll]) (by
      intro d l a hl ha
      obtain ⟨p, c, -, -, q1, q2, q3, -⟩ := hdim d l a hl ha
      exact ⟨q1, by omega⟩)
  have hfun : ∀ d, d < m.mh.dims.length → ∃ l a, lookups[d]? = some l ∧ t[d]? = some a := by
    intro d hd
    exact ⟨_, _, List.getElem?_eq_getElem (by rw [hll]; exact hd),
      List.getElem?_eq_getElem (by rw [htl]; exact hd)⟩
  have hcb : m.cellCounts.length = b.length := by rw [hcl, h2]
  have htb : t.length = b.length := by rw [htl, h2]
  constructor
  · intro hh
    rw [haloB_iff_get hcb htb] at hh
    have hxs : xs = (m.comm.coordsOf r').map fun (k : Nat) => (k : Int) := by
      apply List.ext_getElem?
      intro d
      by_cases hd : d < m.mh.dims.length
      · obtain ⟨l, a, hl, ha⟩ := hfun d hd
        obtain ⟨p, c, q1, q2, -, -, -, q3, -⟩ := hdim d l a hl ha
        obtain ⟨i, i1, i2⟩ := q3 (hh d p c a q1 q2 ha)
        rw [y3 d l a hl ha, i2, List.getElem?_map, i1]
        rfl
      · rw [List.getElem?_eq_none (by omega), List.getElem?_eq_none (by
          rw [List.length_map]; omega)]
    obtain ⟨lin, e1, e2⟩ := k3 (m.comm.coordsOf r') g2
    have hrr : m.comm.rankOf (m.comm.coordsOf r') = r' := by
      have hlt : r' < m.comm.dims.prod := by
        obtain ⟨r0, z1, z2⟩ := owningRank_spec hv ht []
        rw [List.append_nil, hr'] at z1
        rw [Option.some.inj z1]; exact z2
      exact (hv.comm.coords r' hlt).2
    rw [hrr] at e2
    refine ⟨lin, ?_, ?_, e2⟩
    · rw [y1, hxs]
      simp
    · rw [htl, ← hxl]
      exact e1
  · intro hh
    rw [haloB_iff_get hcb htb] at hh
    push Not at hh
    obtain ⟨d, p, c, a, q1, q2, q3, q4⟩ := hh
    have hd : d < m.mh.dims.length := by rw [← htl]; exact (List.getElem?_eq_some_iff.mp q3).1
    obtain ⟨l, a', hl, ha⟩ := hfun d hd
    rw [ha] at q3
    obtain rfl := Option.some.inj q3
    obtain ⟨p', c', z1, z2, -, -, -, -, z3⟩ := hdim d l a' hl ha
    rw [q1] at z1
    rw [q2] at z2
    obtain rfl := Option.some.inj z1
    obtain rfl := Option.some.inj z2
    have hxd := y3 d l a' hl ha
    rw [z3 q4] at hxd
    have hnd := hv.ndim
    have hlen3 : (xs ++ (List.replicate (3 - t.length) (0 : Int)).map fun _ => (0 : Int)).length = 3 := by
      simp only [List.length_append, List.length_map, List.length_replicate]
      omega
    have hxd' : (xs ++ (List.replicate (3 - t.length) (0 : Int)).map fun _ => (0 : Int))[d]? =
        some (-1) := by
      rw [List.getElem?_append_left (by omega)]
      exact hxd
    rw [y1]
    generalize (xs ++ (List.replicate (3 - t.length) (0 : Int)).map fun _ => (0 : Int)) = ys at *
    match ys, hlen3 with
    | [x0, x1, x2], _ =>
      refine ⟨x0, x1, x2, rfl, ?_⟩
      rintro ⟨w0, w1, w2⟩
      match d, hxd' with
      | 0, h => simp at h; omega
      | 1, h => simp at h; omega
      | 2, h => simp at h; omega
      | d + 3, h => simp at h

theorem mapperCells_spec {inv : ℚ} {ns : List Int} {p : List ℚ} (hpos : ∀ n ∈ ns, 0 < n)
    (hinv : 0 < inv) (hl : ns.length ≤ p.length) :
    ∃ t, mapperCells inv ns p = some t ∧ Spec.InRange ns t ∧
      ∀ (d : Nat) (n i : Int) (x : ℚ), ns[d]? = some n → t[d]? = some i → p[d]? = some x →
        (i = 0 ∨ (i : ℚ) ≤ x * inv) ∧ (i = n - 1 ∨ x * inv < i + 1) := by
  induction ns generalizing p with
  | nil => exact ⟨[], rfl, List.Forall₂.nil, by simp⟩
  | cons n ns ih =>
    match p, hl with
    | x :: p, hl =>
      obtain ⟨t, h1, h2, h3⟩ := ih (p := p) (fun q hq => hpos q (by simp [hq])) (by simpa using hl)
      have hn := hpos n (by simp)
      refine ⟨_, by simp only [mapperCells]; rw [h1, Option.bind_some], List.Forall₂.cons ?_ h2, ?_⟩
      · split_ifs <;> omega
      · intro d n' i y k1 k2 k3
        cases d with
        | succ d =>
          simp only [List.getElem?_cons_succ] at k1 k2 k3
          exact h3 d n' i y k1 k2 k3
        | zero =>
          simp only [List.getElem?_cons_zero, Option.some.injEq] at k1 k2 k3
          subst k1 k2 k3
          by_cases h0 : 0 ≤ x * inv
          · rw [truncZ_of_nonneg h0]
            have f1 := Int.floor_le (x * inv)
            have f2 := Int.lt_floor_add_one (x * inv)
            have f3 := Int.floor_nonneg.mpr h0
            split_ifs with c1 c2
            · refine ⟨Or.inr ?_, Or.inl rfl⟩
              have : ((n - 1 : Int) : ℚ) ≤ (⌊x * inv⌋ : ℚ) := by exact_mod_cast (by omega)
              linarith
            · omega
            · exact ⟨Or.inr f1, Or.inr f2⟩
          · have hneg : truncZ (x * inv) ≤ 0 := by
              unfold truncZ
              rw [if_neg h0]
              exact Int.ceil_le.mpr (by push_cast; linarith)
            have hz : (if truncZ (x * inv) ≥ n then n - 1 else if truncZ (x * inv) < 0 then 0
                else truncZ (x * inv)) = 0 := by split_ifs <;> omega
            rw [hz]
            exact ⟨Or.inl rfl, Or.inr (by push_cast; linarith)⟩

/-- **C41** The local mapper on rank `r`. The constructor completes: all the checks it makes
pass. A particle that has no rank yet (component 1 of its ranks is negative) gets the owner of
the cell it is in, if that cell is within the halo of this rank, and -1 otherwise; for a
position outside of the domain this is the nearest cell. No other particle is changed and
nothing else is written. -/
theorem C41_local_mapper (m : CartMesh) (hv : Spec.ValidCartMesh m) (owner : Int → Option Int)
    (ho : ∀ t r c, Spec.IsMeshCell m t → m.owningRank t = some r → Spec.IsCellAt m.mh t c →
      owner c = some (r : Int))
    (r : Nat) (hr : r < m.comm.dims.prod) (extent : ℚ) (he : 0 < extent)
    (neighbours : List Int) (hnb : m.neighbourRanks owner r = some neighbours) :
    ∃ lm, createLocalMapper m owner neighbours r = some lm ∧
      ∀ p : MapParticle, m.mh.dims.length ≤ p.pos.length →
        (0 ≤ p.rank1 → localMapStep m extent lm p = some p) ∧
        (p.rank1 < 0 → ∃ t r', Spec.NearestCell m extent t p.pos ∧ m.owningRank t = some r' ∧
          (Spec.InHalo m r t → localMapStep m extent lm p = some ⟨p.pos, p.rank0, (r' : Int)⟩) ∧
          (¬ Spec.InHalo m r t → localMapStep m extent lm p = some ⟨p.pos, p.rank0, -1⟩)) := by
  obtain ⟨b, h1, h2, h3, h4, h5⟩ := box_spec hv hr
  have hb3 : b.length ≤ 3 := by rw [h2]; exact hv.ndim
  have hlen : b.length = m.cellCounts.length := by rw [h2]; simp [CartMesh.cellCounts]
  obtain ⟨lookups, ranks, l1, l2, l3⟩ := goodMapper hv ho hr h1
  refine ⟨⟨lookups, ranks⟩, ?_, ?_⟩
  · unfold createLocalMapper
    rw [h1, Option.bind_some, l1, Option.bind_some, l2, Option.bind_some]
    simp only
    rw [loop3_stencilBox hb3, Option.bind_some]
    rw [forAllM_eq (g := fun _ => ())]
    · rfl
    · intro s' hs'
      obtain ⟨s, hs, rfl⟩ := List.mem_map.mp hs'
      rw [mem_boxCells] at hs
      obtain ⟨w1, w2, w3⟩ := wrapStencil_eq (u := List.replicate (3 - b.length) 0)
        (fun p hp => (h3 p hp).2) (cellCounts_pos hv.mesh) hlen hs
      have hmc : Spec.IsMeshCell m (List.zipWith (fun c x => x % c) m.cellCounts s) := w2
      generalize List.zipWith (fun c x => x % c) m.cellCounts s = t at *
      obtain ⟨r', c, o1, -, o3, o4⟩ := owner_cell hv ho hmc (List.replicate (3 - b.length) 0)
      have htl : t.length = b.length := by
        have := hmc.length
        rw [h2]; simpa using this
      obtain ⟨lin, e1, e2, e3⟩ := (l3 t r' hmc o1).1 w3
      rw [htl] at e1 e2
      obtain ⟨l, n1, -, n3⟩ := C66_neighbours m hv owner ho r hr
      rw [hnb] at n1
      obtain rfl := Option.some.inj n1
      have hin : (r' : Int) ∈ neighbours := (n3 _).mpr ⟨t, r', hmc, (inHalo_iff hv hr h1 hmc).mpr w3, o1, rfl⟩
      unfold selfTest
      rw [w1, Option.bind_some, o3, Option.bind_some, o4, Option.bind_some, e1, Option.bind_some,
        e2, Option.bind_some]
      simp only [index, rd]
      rw [if_pos (by omega), Option.bind_some, Int.toNat_natCast, e3, Option.bind_some,
        if_pos ⟨rfl, fun _ => hin⟩]
  · intro p hp
    have hinv : (0 : ℚ) < 2 ^ m.mh.order / extent := by positivity
    constructor
    · intro h0
      unfold localMapStep
      rw [if_neg (by omega)]
    · intro h0
      obtain ⟨t, t1, t2, t3⟩ := mapperCells_spec (p := p.pos) (cellCounts_pos hv.mesh) hinv
        (by rw [← hlen, h2]; exact hp)
      have hmc : Spec.IsMeshCell m t := t2
      obtain ⟨r', r1, -⟩ := owningRank_spec hv hmc []
      rw [List.append_nil] at r1
      have htl : t.length = m.mh.dims.length := by have := hmc.length; simpa using this
      refine ⟨t, r', ⟨hmc, by omega, ?_⟩, r1, ?_, ?_⟩
      · intro d n i x k1 k2 k3
        have hn : m.cellCounts[d]? = some (n * 2 ^ m.mh.order) := by
          simp [CartMesh.cellCounts, k1]
        obtain ⟨a1, a2⟩ := t3 d _ i x hn k2 k3
        have hcancel : extent / 2 ^ m.mh.order * (2 ^ m.mh.order / extent) = 1 := by field_simp
        refine ⟨a1.imp id fun a => ?_, a2.imp id fun a => ?_⟩
        · rw [mul_div_assoc', div_le_iff₀ (by positivity)]
          rw [mul_div_assoc', le_div_iff₀ he] at a
          exact a
        · rw [mul_div_assoc', lt_div_iff₀ (by positivity)]
          rw [mul_div_assoc', div_lt_iff₀ he] at a
          exact a
      · intro hh
        obtain ⟨lin, e1, e2, e3⟩ := (l3 t r' hmc r1).1 ((inHalo_iff hv hr h1 hmc).mp hh)
        unfold localMapStep
        rw [if_pos h0, t1, Option.bind_some, e1, Option.bind_some, e2, Option.bind_some]
        have hx : ((m.comm.coordsOf r') ++ List.replicate (3 - t.length) 0).length = 3 := by
          obtain ⟨-, g2⟩ := coordsOf_owner hv hmc r1
          have : (m.comm.coordsOf r').length = m.mh.dims.length := by
            rw [← g2.length_eq, grid_length hv]
          have := hv.ndim
          rw [List.length_append, List.length_replicate]
          omega
        generalize (m.comm.coordsOf r') ++ List.replicate (3 - t.length) 0 = ys at hx
        match ys, hx with
        | [x0, x1, x2], _ =>
          simp only [rd, List.map_cons, List.map_nil, List.getElem?_cons_zero,
            List.getElem?_cons_succ, Option.bind_some, index]
          rw [if_pos ⟨by omega, by omega, by omega⟩, if_pos (by omega), Option.bind_some,
            Int.toNat_natCast, e3, Option.bind_some]
      · intro hh
        obtain ⟨x0, x1, x2, e1, e2⟩ := (l3 t r' hmc r1).2
          (fun x => hh ((inHalo_iff hv hr h1 hmc).mpr x))
        have hpad : ∃ n0 n1 n2, padDims m.comm.dims = [n0, n1, n2] := by
          have hd3 : m.comm.dims.length ≤ 3 := by rw [grid_length hv]; exact hv.ndim
          unfold padDims
          generalize m.comm.dims = ds at hd3
          match ds, hd3 with
          | [], _ => exact ⟨_, _, _, rfl⟩
          | [_], _ => exact ⟨_, _, _, rfl⟩
          | [_, _], _ => exact ⟨_, _, _, rfl⟩
          | [_, _, _], _ => exact ⟨_, _, _, rfl⟩
        obtain ⟨n0, n1, n2, hpad⟩ := hpad
        unfold localMapStep
        rw [if_pos h0, t1, Option.bind_some, e1, Option.bind_some, hpad]
        simp only [lexRank, rd, List.getElem?_cons_zero, List.getElem?_cons_succ, Option.bind_some]
        rw [if_neg e2, Option.bind_some]

end NP
