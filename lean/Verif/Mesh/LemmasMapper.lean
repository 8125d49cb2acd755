import Verif.Mesh.LemmasCart
import Verif.Mesh.LemmasNeighbour

/-!
# Lemmas about the halo, the lookups and the table of ranks
-/

set_option autoImplicit false

namespace NP

/-- The cell index `a` is within `w` cells, periodically, of the range `p`. -/
def HaloDim (w : Nat) (p : Int × Int) (c a : Int) : Prop :=
  ∃ x, p.1 - w ≤ x ∧ x < p.2 + w ∧ x % c = a

/-- In every dimension. -/
def HaloB (w : Nat) : List (Int × Int) → List Int → List Int → Prop
  | p :: b, c :: cs, a :: t => HaloDim w p c a ∧ HaloB w b cs t
  | [], [], [] => True
  | _, _, _ => False

theorem wrapStencil_eq {w : Nat} {b : List (Int × Int)} {cs t u : List Int}
    (hb : ∀ p ∈ b, 0 ≤ p.1) (hc : ∀ c ∈ cs, 0 < c) (hl : b.length = cs.length)
    (ht : InBox (b.map fun p => (p.1 - (w : Int), p.2 + (w : Int))) t) :
    wrapStencil w cs (t ++ u) = some (List.zipWith (fun c x => x % c) cs t ++ u) ∧
    Spec.InRange cs (List.zipWith (fun c x => x % c) cs t) ∧
    HaloB w b cs (List.zipWith (fun c x => x % c) cs t) := by
  induction b generalizing cs t with
  | nil =>
    have : cs = [] := List.length_eq_zero_iff.mp hl.symm
    subst this
    cases ht
    exact ⟨rfl, List.Forall₂.nil, trivial⟩
  | cons p b ih =>
    match cs, hl with
    | c :: cs, hl =>
      rw [List.map_cons] at ht
      obtain ⟨x, xs, hx, hxs, rfl⟩ := List.forall₂_cons_left_iff.mp ht
      obtain ⟨h1, h2, h3⟩ := ih (cs := cs) (fun q hq => hb q (by simp [hq]))
        (fun q hq => hc q (by simp [hq])) (by simpa using hl) hxs
      have hp := hb p (by simp)
      have hcp := hc c (by simp)
      simp only at hx
      have hmod : (x + w * c).tmod (max c 1) = x % c := by
        rw [max_eq_left (by omega)]
        have hwc : (w : Int) * 1 ≤ w * c := mul_le_mul_of_nonneg_left (by omega) (by omega)
        rw [Int.tmod_eq_emod_of_nonneg (by omega), Int.add_mul_emod_self_right]
      refine ⟨?_, List.Forall₂.cons ⟨Int.emod_nonneg _ (by omega), Int.emod_lt_of_pos _ hcp⟩ h2,
        ⟨x, hx.1, hx.2, rfl⟩, h3⟩
      simp only [List.cons_append, wrapStencil, List.zipWith_cons_cons]
      rw [h1, Option.bind_some, hmod]

theorem exists_wrap {w : Nat} {b : List (Int × Int)} {cs t : List Int} (h : HaloB w b cs t) :
    ∃ s, InBox (b.map fun p => (p.1 - (w : Int), p.2 + (w : Int))) s ∧
      List.zipWith (fun c x => x % c) cs s = t := by
  induction b generalizing cs t with
  | nil =>
    match cs, t, h with
    | [], [], _ => exact ⟨[], List.Forall₂.nil, rfl⟩
  | cons p b ih =>
    match cs, t, h with
    | c :: cs, a :: t, h =>
      obtain ⟨⟨x, h1, h2, h3⟩, h4⟩ := h
      obtain ⟨s, hs1, hs2⟩ := ih h4
      exact ⟨x :: s, List.Forall₂.cons ⟨h1, h2⟩ hs1, by simp [h3, hs2]⟩

/-- The halo in terms of the box of the rank. -/
theorem inHalo_iff {m : CartMesh} (hv : Spec.ValidCartMesh m) {r : Nat}
    (hr : r < m.comm.dims.prod) {b : List (Int × Int)} (hb : m.box r = some b) {t : List Int}
    (ht : Spec.IsMeshCell m t) : Spec.InHalo m r t ↔ HaloB m.stencil b m.cellCounts t := by
  obtain ⟨b', h1, h2, h3, h4, h5⟩ := box_spec hv hr
  rw [hb] at h1
  obtain rfl := Option.some.inj h1
  have hb3 : b.length ≤ 3 := by rw [h2]; exact hv.ndim
  have howns : ∀ u, u.length = b.length → (Spec.Owns m r u ↔ InBox b u) := by
    intro u hu
    constructor
    · rintro ⟨b1, cells, o1, o2, o3⟩
      rw [hb] at o1
      obtain rfl := Option.some.inj o1
      rw [getOwnedCells_eq hb3] at o2
      obtain rfl := Option.some.inj o2
      exact (mem_ownedCells hu).mp o3
    · intro hu'
      exact ⟨b, _, hb, getOwnedCells_eq hb3, (mem_ownedCells hu).mpr hu'⟩
  have hcl : m.cellCounts.length = b.length := by rw [h2]; simp [CartMesh.cellCounts]
  have htl : t.length = b.length := by
    have := ht.length
    rw [h2]; simpa using this
  -- list induction
  have key : ∀ (b : List (Int × Int)) (cs t : List Int), Spec.InRange cs t →
      (∀ p ∈ b, p.1 < p.2) → cs.length = b.length → t.length = b.length →
      ((∃ u, InBox b u ∧ List.Forall₂ (fun (a : Int) (bn : Int × Int) =>
        ∃ o : Int, -m.stencil ≤ o ∧ o ≤ m.stencil ∧ (a - (bn.1 + o)) % bn.2 = 0) t (u.zip cs)) ↔
        HaloB m.stencil b cs t) := by
    intro b
    induction b with
    | nil =>
      intro cs t _ _ hc ht
      have e1 : cs = [] := List.length_eq_zero_iff.mp hc
      have e2 : t = [] := List.length_eq_zero_iff.mp ht
      subst e1 e2
      exact ⟨fun _ => trivial, fun _ => ⟨[], List.Forall₂.nil, List.Forall₂.nil⟩⟩
    | cons p b ih =>
      intro cs t hr hp hc ht
      match cs, t, hc, ht with
      | c :: cs, a :: t, hc, ht =>
        obtain ⟨ha, hr'⟩ := List.forall₂_cons.mp hr
        have ih' := ih cs t hr' (fun q hq => hp q (by simp [hq])) (by simpa using hc)
          (by simpa using ht)
        have hpp := hp p (by simp)
        have hcpos : 0 < c := by omega
        rw [HaloB, ← ih']
        constructor
        · rintro ⟨u, hu1, hu2⟩
          obtain ⟨x, xs, hx, hxs, rfl⟩ := List.forall₂_cons_left_iff.mp hu1
          rw [List.zip_cons_cons] at hu2
          obtain ⟨⟨o, o1, o2, o3⟩, hu3⟩ := List.forall₂_cons.mp hu2
          refine ⟨⟨x + o, by omega, by omega, ?_⟩, xs, hxs, hu3⟩
          simp only at o3
          have : (x + o) % c = a % c := (Int.emod_eq_emod_iff_emod_sub_eq_zero.mpr o3).symm
          rw [this, Int.emod_eq_of_lt ha.1 ha.2]
        · rintro ⟨⟨x, x1, x2, x3⟩, xs, hxs, hu3⟩
          refine ⟨max p.1 (min x (p.2 - 1)) :: xs, List.Forall₂.cons (by omega) hxs, ?_⟩
          rw [List.zip_cons_cons]
          refine List.Forall₂.cons ⟨x - max p.1 (min x (p.2 - 1)), by omega, by omega, ?_⟩ hu3
          simp only
          rw [show max p.1 (min x (p.2 - 1)) + (x - max p.1 (min x (p.2 - 1))) = x by ring]
          rw [← Int.emod_eq_emod_iff_emod_sub_eq_zero, x3, Int.emod_eq_of_lt ha.1 ha.2]
  rw [← key b m.cellCounts t ht (fun p hp => (h3 p hp).1) hcl htl]
  unfold Spec.InHalo
  constructor
  · rintro ⟨u, hu0, hu1, hu2⟩
    have hul : u.length = b.length := by
      have := hu0.length
      rw [h2]; simpa using this
    exact ⟨u, (howns u hul).mp hu1, hu2⟩
  · rintro ⟨u, hu1, hu2⟩
    exact ⟨u, h4 u hu1, (howns u hu1.length_eq.symm).mpr hu1, hu2⟩

/-- What the owner function returns. -/
def IsOwnerFn (m : CartMesh) (owner : Int → Option Int) : Prop :=
  ∀ t r c, Spec.IsMeshCell m t → m.owningRank t = some r → Spec.IsCellAt m.mh t c →
    owner c = some (r : Int)

theorem owner_cell {m : CartMesh} (hv : Spec.ValidCartMesh m) {owner : Int → Option Int}
    (ho : IsOwnerFn m owner) {t : List Int} (ht : Spec.IsMeshCell m t) (u : List Int) :
    ∃ r c, m.owningRank t = some r ∧ r < m.comm.dims.prod ∧ m.mhIndex (t ++ u) = some c ∧
      owner c = some (r : Int) := by
  obtain ⟨r, h1, h2⟩ := owningRank_spec hv ht []
  rw [List.append_nil] at h1
  obtain ⟨c, c1, c2, -⟩ := mhIndex_spec (u := u) hv.mesh ht
  exact ⟨r, c, h1, h2, c1, ho t r c ht h1 c2⟩

theorem cellCounts_pos {m : CartMesh} (hm : Spec.ValidMesh m.mh) : ∀ c ∈ m.cellCounts, 0 < c := by
  intro c hc
  obtain ⟨d, hd, rfl⟩ := List.mem_map.mp hc
  have := hm.2 d hd
  positivity

/-- The cells of the box with the stencil. -/
theorem loop3_stencilBox {w : Nat} {b : List (Int × Int)} (h : b.length ≤ 3) :
    loop3 (stencilBox w b) = some ((boxCells (b.map fun p => (p.1 - (w : Int), p.2 + (w : Int)))).map
      fun t => t ++ List.replicate (3 - b.length) 0) := by
  unfold stencilBox
  rw [loop3_padBox (by simpa using h), padBox, boxCells_append_unit, List.length_map]

/-! ## The coordinates of the owner -/

theorem owningCoords_get {ns : List Nat} {cs t u : List Int} {xs : List Nat}
    (h : owningCoords ns cs (t ++ u) = some xs) (hl : t.length = ns.length) (d : Nat) {n : Nat}
    {c a : Int} (hn : ns[d]? = some n) (hc : cs[d]? = some c) (ha : t[d]? = some a) :
    xs[d]? = getDecomp1dInverse n c.toNat a.toNat := by
  induction ns generalizing cs t xs d with
  | nil => simp at hn
  | cons n' ns ih =>
    match cs, t, hl, h with
    | c' :: cs, a' :: t, hl, h =>
      simp only [List.cons_append, owningCoords] at h
      split at h
      · obtain ⟨i, h1, h2⟩ := Option.bind_eq_some_iff.mp h
        obtain ⟨r, h3, h4⟩ := Option.bind_eq_some_iff.mp h2
        obtain rfl := Option.some.inj h4
        cases d with
        | zero =>
          simp only [List.getElem?_cons_zero, Option.some.injEq] at hn hc ha
          subst hn hc ha
          rw [List.getElem?_cons_zero, h1]
        | succ d =>
          simp only [List.getElem?_cons_succ] at hn hc ha
          rw [List.getElem?_cons_succ]
          exact ih h3 (by simpa using hl) d hn hc ha
      · cases h

theorem coordsOf_owner {m : CartMesh} (hv : Spec.ValidCartMesh m) {t : List Int} {r : Nat}
    (ht : Spec.IsMeshCell m t) (hr : m.owningRank t = some r) :
    owningCoords m.comm.dims m.cellCounts t = some (m.comm.coordsOf r) ∧
      Spec.InGrid m.comm.dims (m.comm.coordsOf r) := by
  obtain ⟨xs, h1, h2⟩ := owningCoords_spec (u := []) hv.grid ht
  rw [List.append_nil] at h1
  unfold CartMesh.owningRank at hr
  have h1' : owningCoords m.comm.dims m.cellCounts t = some xs := h1
  rw [h1', Option.bind_some, cartRank_eq h2] at hr
  obtain rfl := Option.some.inj hr
  rw [(hv.comm.rank xs h2).2]
  exact ⟨h1', h2⟩

/-! ## The lookup along one axis -/

theorem axisTuple_split {n d : Nat} (hn : n ≤ 3) (hd : d < n) (x : Int) :
    axisTuple d x = (List.replicate n 0).set d x ++ List.replicate (3 - n) 0 := by
  match n, d, hn, hd with
  | 1, 0, _, _ => rfl
  | 2, 0, _, _ => rfl
  | 2, 1, _, _ => rfl
  | 3, 0, _, _ => rfl
  | 3, 1, _, _ => rfl
  | 3, 2, _, _ => rfl

theorem inRange_axis {cs : List Int} (hpos : ∀ c ∈ cs, 0 < c) {d : Nat} {c x : Int}
    (hc : cs[d]? = some c) (hx : 0 ≤ x ∧ x < c) :
    Spec.InRange cs ((List.replicate cs.length 0).set d x) := by
  have hz : ∀ cs : List Int, (∀ c ∈ cs, 0 < c) → Spec.InRange cs (List.replicate cs.length 0) := by
    intro cs
    induction cs with
    | nil => intro _; exact List.Forall₂.nil
    | cons c cs ih =>
      intro h
      exact List.Forall₂.cons ⟨le_refl _, h c (by simp)⟩ (ih fun q hq => h q (by simp [hq]))
  induction cs generalizing d with
  | nil => simp at hc
  | cons c' cs ih =>
    rw [List.length_cons, List.replicate_succ]
    cases d with
    | zero =>
      simp only [List.getElem?_cons_zero, Option.some.injEq] at hc
      subst hc
      exact List.Forall₂.cons hx (hz cs fun q hq => hpos q (by simp [hq]))
    | succ d =>
      exact List.Forall₂.cons ⟨le_refl _, hpos c' (by simp)⟩
        (ih (fun q hq => hpos q (by simp [hq])) (by simpa using hc))

theorem axisLookup_spec {m : CartMesh} (hv : Spec.ValidCartMesh m) {owner : Int → Option Int}
    (ho : IsOwnerFn m owner) {b : List (Int × Int)} (hb : ∀ p ∈ b, 0 ≤ p.1)
    {d n : Nat} {c : Int} {p : Int × Int} (hn : m.comm.dims[d]? = some n)
    (hc : m.cellCounts[d]? = some c) (hp : b[d]? = some p) :
    ∃ l, axisLookup m owner b d = some l ∧ (l.length : Int) = c ∧
      ∀ k : Nat, (k : Int) < c →
        (HaloDim m.stencil p c k → ∃ i, getDecomp1dInverse n c.toNat k = some i ∧
          l[k]? = some (i : Int)) ∧
        (¬ HaloDim m.stencil p c k → l[k]? = some (-1)) := by
  have hcpos : 0 < c := cellCounts_pos hv.mesh c (List.mem_of_getElem? hc)
  have hp0 : 0 ≤ p.1 := hb p (List.mem_of_getElem? hp)
  have hd : d < m.mh.dims.length := by
    obtain ⟨h, -⟩ := List.getElem?_eq_some_iff.mp hc
    simpa [CartMesh.cellCounts] using h
  have hnpos : 0 < n := (forall₂_get hv.grid hn hc).1
  -- the coordinate for each cell index
  have hcoord : ∀ k : Nat, (k : Int) < c → ∃ i, getDecomp1dInverse n c.toNat k = some i := by
    intro k hk
    obtain ⟨i, h, -⟩ := getDecomp1dInverse_spec (n := n) (N := c.toNat) (w := k) hnpos (by omega)
    exact ⟨i, h⟩
  have hstep : ∀ cx ∈ intRange (p.1 - m.stencil) (p.2 + m.stencil), ∀ s : List Int,
      s.length = (List.replicate c.toNat (-1 : Int)).length →
      ∃ s', lookupAxisStep m owner d c cx s = some s' ∧ s'.length = s.length ∧
        (∀ k, (cx % c).toNat = k →
          s'[k]? = some (((getDecomp1dInverse n c.toNat k).getD 0 : Nat) : Int)) ∧
        (∀ k, ¬ (cx % c).toNat = k → s'[k]? = s[k]?) := by
    intro cx hcx s hs
    rw [mem_intRange] at hcx
    rw [List.length_replicate] at hs
    have hmod : (cx + m.stencil * c).tmod c = cx % c := by
      have hwc : (m.stencil : Int) * 1 ≤ m.stencil * c :=
        mul_le_mul_of_nonneg_left (by omega) (by omega)
      rw [Int.tmod_eq_emod_of_nonneg (by omega), Int.add_mul_emod_self_right]
    have hm0 := Int.emod_nonneg cx (show c ≠ 0 by omega)
    have hm1 := Int.emod_lt_of_pos cx hcpos
    have hcell : Spec.IsMeshCell m ((List.replicate m.cellCounts.length 0).set d (cx % c)) :=
      inRange_axis (cellCounts_pos hv.mesh) hc ⟨hm0, hm1⟩
    have hlen : m.cellCounts.length = m.mh.dims.length := by simp [CartMesh.cellCounts]
    obtain ⟨r', i, o1, o2, o3, o4⟩ := owner_cell hv ho hcell
      (List.replicate (3 - m.cellCounts.length) 0)
    obtain ⟨g1, g2⟩ := coordsOf_owner hv hcell o1
    obtain ⟨j, hj⟩ := hcoord (cx % c).toNat (by omega)
    have hget : (m.comm.coordsOf r')[d]? = some j := by
      rw [← hj]
      refine owningCoords_get (u := []) (by rwa [List.append_nil]) ?_ d hn hc ?_
      · rw [List.length_set, List.length_replicate, hlen, grid_length hv]
      · rw [List.getElem?_set_self (by simpa [hlen] using hd)]
    refine ⟨s.set (cx % c).toNat (j : Int), ?_, by simp, ?_, ?_⟩
    · unfold lookupAxisStep
      rw [if_neg (by omega)]
      simp only
      rw [hmod, axisTuple_split (n := m.cellCounts.length) (by rw [hlen]; exact hv.ndim)
        (by rw [hlen]; exact hd), o3, Option.bind_some, o4, Option.bind_some]
      simp only [index]
      rw [if_pos (by omega), Option.bind_some, Int.toNat_natCast, rd, hget, Option.bind_some,
        if_pos hm0, Option.bind_some, st_eq_some (by omega)]
    · rintro k rfl
      rw [List.getElem?_set_self (by omega), hj]
      rfl
    · intro k hk
      rw [List.getElem?_set_ne hk]
  obtain ⟨l, h1, h2, h3, h4⟩ := runItems_region (fun cx k => (cx % c).toNat = k)
    (fun _ k => (((getDecomp1dInverse n c.toNat k).getD 0 : Nat) : Int)) hstep
    (fun _ _ _ _ _ _ _ => rfl)
  refine ⟨l, ?_, ?_, ?_⟩
  · unfold axisLookup
    simp only [rd]
    rw [hc, Option.bind_some, hp, Option.bind_some]
    exact h1
  · rw [h2, List.length_replicate]; omega
  · intro k hk
    constructor
    · rintro ⟨x, x1, x2, x3⟩
      obtain ⟨i, hi⟩ := hcoord k hk
      refine ⟨i, hi, ?_⟩
      rw [h3 x (by rw [mem_intRange]; omega) k (by omega), hi]
      rfl
    · intro hne
      rw [h4 k, List.getElem?_replicate, if_pos (by omega)]
      intro cx hcx he
      rw [mem_intRange] at hcx
      have hm0 := Int.emod_nonneg cx (show c ≠ 0 by omega)
      exact hne ⟨cx, hcx.1, hcx.2, by omega⟩

/-! ## The table of ranks -/

theorem inGrid_append {ns ms xs : List Nat} :
    Spec.InGrid (ns ++ ms) xs ↔ ∃ ys zs, xs = ys ++ zs ∧ Spec.InGrid ns ys ∧ Spec.InGrid ms zs := by
  induction ns generalizing xs with
  | nil =>
    constructor
    · intro h; exact ⟨[], xs, rfl, List.Forall₂.nil, h⟩
    · rintro ⟨ys, zs, rfl, h1, h2⟩; cases h1; exact h2
  | cons n ns ih =>
    rw [List.cons_append]
    constructor
    · intro h
      obtain ⟨x, xs', hx, hxs, rfl⟩ := List.forall₂_cons_left_iff.mp h
      obtain ⟨ys, zs, rfl, h1, h2⟩ := ih.mp hxs
      exact ⟨x :: ys, zs, rfl, List.Forall₂.cons hx h1, h2⟩
    · rintro ⟨ys, zs, rfl, h1, h2⟩
      obtain ⟨y, ys', hy, hys, rfl⟩ := List.forall₂_cons_left_iff.mp h1
      exact List.Forall₂.cons hy (ih.mpr ⟨ys', zs, rfl, hys, h2⟩)

theorem inGrid_ones {k : Nat} {xs : List Nat} (h : Spec.InGrid (List.replicate k 1) xs) :
    xs = List.replicate k 0 := by
  induction k generalizing xs with
  | zero => cases h; rfl
  | succ k ih =>
    rw [List.replicate_succ] at h
    obtain ⟨x, xs', hx, hxs, rfl⟩ := List.forall₂_cons_left_iff.mp h
    rw [ih hxs, List.replicate_succ]
    congr
    omega

theorem inGrid_zeros (k : Nat) : Spec.InGrid (List.replicate k 1) (List.replicate k 0) := by
  induction k with
  | zero => exact List.Forall₂.nil
  | succ k ih => exact List.Forall₂.cons (by omega) ih

theorem lex_inj {n0 n1 x0 x1 x2 y0 y1 y2 : Nat} (hx0 : x0 < n0) (hx1 : x1 < n1) (hy0 : y0 < n0)
    (hy1 : y1 < n1) (h : x0 + x1 * n0 + x2 * n0 * n1 = y0 + y1 * n0 + y2 * n0 * n1) :
    x0 = y0 ∧ x1 = y1 ∧ x2 = y2 := by
  have h' : x0 + (x1 + x2 * n1) * n0 = y0 + (y1 + y2 * n1) * n0 := by nlinarith
  have e0 : x0 = y0 := by
    have := congrArg (· % n0) h'
    simpa [Nat.add_mul_mod_self_right, Nat.mod_eq_of_lt hx0, Nat.mod_eq_of_lt hy0] using this
  have e1 : x1 + x2 * n1 = y1 + y2 * n1 := by
    have := congrArg (· / n0) h'
    simpa [Nat.add_mul_div_right _ _ (show 0 < n0 by omega), Nat.div_eq_of_lt hx0,
      Nat.div_eq_of_lt hy0] using this
  refine ⟨e0, ?_, ?_⟩
  · have := congrArg (· % n1) e1
    simpa [Nat.add_mul_mod_self_right, Nat.mod_eq_of_lt hx1, Nat.mod_eq_of_lt hy1] using this
  · have := congrArg (· / n1) e1
    simpa [Nat.add_mul_div_right _ _ (show 0 < n1 by omega), Nat.div_eq_of_lt hx1,
      Nat.div_eq_of_lt hy1] using this

theorem lex_lt {n0 n1 n2 x0 x1 x2 : Nat} (hx0 : x0 < n0) (hx1 : x1 < n1) (hx2 : x2 < n2) :
    x0 + x1 * n0 + x2 * n0 * n1 < n0 * n1 * n2 := by
  have h1 : (x1 + 1) * n0 ≤ n1 * n0 := Nat.mul_le_mul_right _ hx1
  have h2 : (x2 + 1) * (n0 * n1) ≤ n2 * (n0 * n1) := Nat.mul_le_mul_right _ hx2
  nlinarith

theorem lex_surj {n0 n1 n2 k : Nat} (h : k < n0 * n1 * n2) :
    ∃ x0 x1 x2, x0 < n0 ∧ x1 < n1 ∧ x2 < n2 ∧ x0 + x1 * n0 + x2 * n0 * n1 = k := by
  have h0 : 0 < n0 := by
    rcases Nat.eq_zero_or_pos n0 with e | e
    · subst e; simp at h
    · exact e
  have h1 : 0 < n1 := by
    rcases Nat.eq_zero_or_pos n1 with e | e
    · subst e; simp at h
    · exact e
  refine ⟨k % n0, k / n0 % n1, k / n0 / n1, Nat.mod_lt _ h0, Nat.mod_lt _ h1, ?_, ?_⟩
  · rw [Nat.div_div_eq_div_mul, Nat.div_lt_iff_lt_mul (by positivity)]
    rw [Nat.mul_comm] at h; exact h
  · have a := Nat.mod_add_div k n0
    have b := Nat.mod_add_div (k / n0) n1
    generalize k / n0 / n1 = q2 at *
    generalize k / n0 % n1 = q1 at *
    generalize k / n0 = q at *
    subst b
    nlinarith

/-- The table of ranks: the entry at the position of the coordinates is their rank. -/
theorem rankMap_spec {m : CartMesh} (hv : Spec.ValidCartMesh m) :
    ∃ map, rankMap m = some map ∧ map.length = m.comm.dims.prod ∧
      ∀ xs, Spec.InGrid m.comm.dims xs → ∃ lin : Nat,
        lexRank (padDims m.comm.dims)
          ((xs ++ List.replicate (3 - xs.length) 0).map fun (k : Nat) => (k : Int)) =
            some (lin : Int) ∧
        map[lin]? = some (m.comm.rankOf xs : Int) := by
  have hdl : m.comm.dims.length = m.ndim := grid_length hv
  have hd3 : m.comm.dims.length ≤ 3 := by rw [hdl]; exact hv.ndim
  obtain ⟨n0, n1, n2, hpad⟩ : ∃ n0 n1 n2, padDims m.comm.dims = [n0, n1, n2] := by
    unfold padDims
    generalize m.comm.dims = ds at hd3
    match ds, hd3 with
    | [], _ => exact ⟨_, _, _, rfl⟩
    | [_], _ => exact ⟨_, _, _, rfl⟩
    | [_, _], _ => exact ⟨_, _, _, rfl⟩
    | [_, _, _], _ => exact ⟨_, _, _, rfl⟩
  have hsize : m.comm.dims.prod = n0 * n1 * n2 := by
    have : (padDims m.comm.dims).prod = m.comm.dims.prod := by simp [padDims]
    rw [← this, hpad]
    simp [Nat.mul_assoc]
  have hlex : ∀ x0 x1 x2 : Nat, lexRank [n0, n1, n2] ([x0, x1, x2].map fun (k : Nat) => (k : Int)) =
      some ((x0 + x1 * n0 + x2 * n0 * n1 : Nat) : Int) := by
    intro x0 x1 x2
    simp [lexRank, rd]
  set items := (List.range n0).flatMap fun d0 => (List.range n1).flatMap fun d1 =>
    (List.range n2).map fun d2 => [d0, d1, d2] with hitems
  have hmem : ∀ x, x ∈ items ↔ ∃ x0 x1 x2, x0 < n0 ∧ x1 < n1 ∧ x2 < n2 ∧ x = [x0, x1, x2] := by
    intro x
    simp only [hitems, List.mem_flatMap, List.mem_map, List.mem_range]
    constructor
    · rintro ⟨a, ha, b, hb, c, hc, rfl⟩; exact ⟨a, b, c, ha, hb, hc, rfl⟩
    · rintro ⟨a, b, c, ha, hb, hc, rfl⟩; exact ⟨a, ha, b, hb, c, hc, rfl⟩
  have htake : ∀ x0 x1 x2, x0 < n0 → x1 < n1 → x2 < n2 →
      Spec.InGrid m.comm.dims (([x0, x1, x2] : List Nat).take m.ndim) := by
    intro x0 x1 x2 h0 h1 h2
    have hg : Spec.InGrid (padDims m.comm.dims) [x0, x1, x2] := by
      rw [hpad]
      exact List.Forall₂.cons h0 (List.Forall₂.cons h1 (List.Forall₂.cons h2 List.Forall₂.nil))
    obtain ⟨ys, zs, he, hy, -⟩ := inGrid_append.mp hg
    rw [he, List.take_append_of_le_length (by rw [← hdl, hy.length_eq]), ← hdl, hy.length_eq,
      List.take_length]
    exact hy
  obtain ⟨map, h1, h2, h3, h4⟩ := runItems_region (items := items)
    (m := List.replicate m.comm.dims.prod (-1 : Int))
    (step := fun (x : List Nat) map => (m.comm.cartRank (x.take m.ndim)).bind fun impl =>
      (lexRank [n0, n1, n2] (x.map fun (k : Nat) => (k : Int))).bind fun lin =>
      if (0 ≤ lin ∧ lin < m.comm.dims.prod) ∧ impl < m.comm.dims.prod then
        (index lin).bind fun k => st map k (impl : Int)
      else none)
    (fun x k => lexRank [n0, n1, n2] (x.map fun (k : Nat) => (k : Int)) = some (k : Int))
    (fun x _ => (m.comm.rankOf (x.take m.ndim) : Int)) (by
      intro x hx s hs
      obtain ⟨x0, x1, x2, g0, g1, g2, rfl⟩ := (hmem x).mp hx
      have hg := htake x0 x1 x2 g0 g1 g2
      have hlt := lex_lt g0 g1 g2
      rw [← hsize] at hlt
      rw [List.length_replicate] at hs
      refine ⟨s.set (x0 + x1 * n0 + x2 * n0 * n1)
        (m.comm.rankOf (([x0, x1, x2] : List Nat).take m.ndim) : Int), ?_, by simp, ?_, ?_⟩
      · rw [cartRank_eq hg, Option.bind_some, hlex, Option.bind_some,
          if_pos ⟨⟨by omega, by omega⟩, (hv.comm.rank _ hg).1⟩]
        simp only [index]
        rw [if_pos (by omega), Option.bind_some, Int.toNat_natCast, st_eq_some (by omega)]
      · intro k hk
        rw [hlex] at hk
        have : x0 + x1 * n0 + x2 * n0 * n1 = k := by exact_mod_cast Option.some.inj hk
        subst this
        rw [List.getElem?_set_self (by omega)]
      · intro k hk
        rw [hlex] at hk
        rw [List.getElem?_set_ne]
        intro e
        exact hk (by rw [e])) (by
      intro x hx y hy k hk hk'
      obtain ⟨x0, x1, x2, g0, g1, g2, rfl⟩ := (hmem x).mp hx
      obtain ⟨y0, y1, y2, f0, f1, f2, rfl⟩ := (hmem y).mp hy
      rw [hlex] at hk hk'
      have e := (Option.some.inj hk).trans (Option.some.inj hk').symm
      have e' : x0 + x1 * n0 + x2 * n0 * n1 = y0 + y1 * n0 + y2 * n0 * n1 := by exact_mod_cast e
      obtain ⟨rfl, rfl, rfl⟩ := lex_inj g0 g1 f0 f1 e'
      rfl)
  rw [List.length_replicate] at h2
  have hall : map.all (fun v => decide (0 ≤ v)) = true := by
    rw [List.all_eq_true]
    intro v hv'
    obtain ⟨k, hk, rfl⟩ := List.getElem_of_mem hv'
    obtain ⟨x0, x1, x2, g0, g1, g2, he⟩ := lex_surj (n0 := n0) (n1 := n1) (n2 := n2) (k := k)
      (by rw [← hsize, ← h2]; exact hk)
    have := h3 [x0, x1, x2] ((hmem _).mpr ⟨x0, x1, x2, g0, g1, g2, rfl⟩) k (by rw [hlex, he])
    rw [List.getElem?_eq_getElem hk] at this
    rw [Option.some.inj this]
    simp
  refine ⟨map, ?_, h2, ?_⟩
  · unfold rankMap
    simp only [rd]
    rw [hpad]
    simp only [List.getElem?_cons_zero, List.getElem?_cons_succ, Option.bind_some]
    rw [← hitems, h1, Option.bind_some, if_pos hall]
  · intro xs hxs
    have hxl : xs.length = m.comm.dims.length := hxs.length_eq.symm
    have hg : Spec.InGrid (padDims m.comm.dims) (xs ++ List.replicate (3 - xs.length) 0) :=
      inGrid_append.mpr ⟨xs, _, rfl, hxs, by rw [hxl]; exact inGrid_zeros _⟩
    rw [hpad] at hg ⊢
    obtain ⟨x0, l0, g0, hg0, e0⟩ := List.forall₂_cons_left_iff.mp hg
    obtain ⟨x1, l1, g1, hg1, rfl⟩ := List.forall₂_cons_left_iff.mp hg0
    obtain ⟨x2, l2, g2, hg2, rfl⟩ := List.forall₂_cons_left_iff.mp hg1
    cases hg2
    rw [e0]
    refine ⟨x0 + x1 * n0 + x2 * n0 * n1, hlex _ _ _, ?_⟩
    have := h3 [x0, x1, x2] ((hmem _).mpr ⟨x0, x1, x2, g0, g1, g2, rfl⟩) _ (hlex _ _ _)
    rw [this, ← e0, ← hdl, ← hxl, List.take_left']
    rfl

end NP
