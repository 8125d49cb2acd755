import Verif.Hybrid.LemmasMoved
import Verif.Mesh.PropsCart
import Verif.Group.Props

/-! # Binning particles into the cells that a rank owns -/

set_option autoImplicit false

namespace NP

open Spec

/-! ## The cell of a position -/

/-- The truncated and clamped index is the cell in which, or next to which, the value is. -/
theorem clamp_trunc {z : ℚ} {k w : Int} (h0 : 0 ≤ k) (hw : k < w) (hlo : k = 0 ∨ (k : ℚ) ≤ z)
    (hhi : k = w - 1 ∨ z < k + 1) :
    (if (if truncZ z < 0 then 0 else truncZ z) ≥ w then w - 1
      else if truncZ z < 0 then 0 else truncZ z) = k := by
  by_cases hz : 0 ≤ z
  · have ht : truncZ z = ⌊z⌋ := truncZ_of_nonneg hz
    have hf : 0 ≤ ⌊z⌋ := Int.floor_nonneg.2 hz
    rw [ht]
    have h1 : k ≤ ⌊z⌋ := by
      rcases hlo with rfl | h
      · exact hf
      · exact Int.le_floor.2 h
    rcases hhi with h | h
    · split_ifs <;> omega
    · have h2 : ⌊z⌋ < k + 1 := Int.floor_lt.2 (by push_cast; exact h)
      split_ifs <;> omega
  · have ht : truncZ z ≤ 0 := by
      unfold truncZ
      rw [if_neg hz]
      exact Int.ceil_le.2 (by push_cast; linarith)
    have hk : k = 0 := by
      rcases hlo with h | h
      · exact h
      · have : (k : ℚ) < 0 := by linarith
        have : k < 0 := by exact_mod_cast this
        omega
    subst hk
    split_ifs <;> omega

theorem binDims_nearest {wf inv : ℚ} (hinv : wf * inv = 1) (hpos : 0 < inv) :
    ∀ (b : List (Int × Int)) (t : List Int) (p : List ℚ), InBox b t → t.length ≤ p.length →
      (∀ (d : Nat) (bb : Int × Int) (i : Int) (x : ℚ), b[d]? = some bb → t[d]? = some i → p[d]? = some x →
        (i = bb.1 ∨ i * wf ≤ x) ∧ (i = bb.2 - 1 ∨ x < (i + 1) * wf)) →
      binDims wf inv b p = some (List.zipWith (fun (bb : Int × Int) x => x - bb.1) b t) := by
  intro b
  induction b with
  | nil => intro t p hb _ _; cases hb; rfl
  | cons bb b ih =>
    intro t p hb hl h
    obtain ⟨i, ts, hi, hts, rfl⟩ := List.forall₂_cons_left_iff.mp hb
    obtain _ | ⟨x, xs⟩ := p
    · simp at hl
    simp only [binDims]
    rw [ih ts xs hts (by simpa using hl) (fun d bb' i' x' h1 h2 h3 =>
      h (d + 1) bb' i' x' (by simpa using h1) (by simpa using h2) (by simpa using h3)),
      Option.bind_some]
    obtain ⟨hlo, hhi⟩ := h 0 bb i x rfl rfl rfl
    have e1 : (x - bb.1 * wf) * inv = x * inv - bb.1 := by rw [sub_mul, mul_assoc, hinv, mul_one]
    rw [e1]
    have := clamp_trunc (z := x * inv - bb.1) (k := i - bb.1) (w := bb.2 - bb.1) (by omega) (by omega)
      (by
        rcases hlo with h | h
        · left; omega
        · right
          have l := mul_le_mul_of_nonneg_right h hpos.le
          rw [mul_assoc, hinv, mul_one] at l
          push_cast; linarith)
      (by
        rcases hhi with h | h
        · left; omega
        · right
          have l := mul_lt_mul_of_pos_right h hpos
          rw [mul_assoc, hinv, mul_one] at l
          push_cast; linarith)
    rw [this]
    rfl

theorem inBox_get {b : List (Int × Int)} {t : List Int} (h : InBox b t) {d : Nat} {bb : Int × Int}
    {i : Int} (hb : b[d]? = some bb) (ht : t[d]? = some i) : bb.1 ≤ i ∧ i < bb.2 := by
  have := List.forall₂_iff_get.1 h
  obtain ⟨h1, rfl⟩ := List.getElem?_eq_some_iff.1 hb
  obtain ⟨h2, rfl⟩ := List.getElem?_eq_some_iff.1 ht
  exact this.2 d h1 h2

theorem inBox_set {b : List (Int × Int)} {t : List Int} (h : InBox b t) {d : Nat} {bb : Int × Int}
    {i : Int} (hb : b[d]? = some bb) (h1 : bb.1 ≤ i) (h2 : i < bb.2) : InBox b (t.set d i) := by
  unfold InBox at *
  rw [List.forall₂_iff_get] at *
  refine ⟨by simpa using h.1, ?_⟩
  intro j hj1 hj2
  simp only [List.get_eq_getElem, List.getElem_set]
  by_cases hdj : d = j
  · subst hdj
    rw [if_pos rfl]
    obtain ⟨hd, rfl⟩ := List.getElem?_eq_some_iff.1 hb
    exact ⟨h1, h2⟩
  · rw [if_neg hdj]
    exact h.2 j hj1 (by simpa using hj2)

/-- The cell id which is written is the number of the cell which contains the position. -/
theorem cellBin_nearest {m : CartMesh} (hv : ValidCartMesh m) {extent : ℚ} (he : 0 < extent)
    {r : Nat} (hr : r < m.comm.dims.prod) {t : List Int} (ho : Owns m r t) {p : List ℚ}
    (hn : NearestCell m extent t p) :
    ∃ b cells i, m.box r = some b ∧ getOwnedCells b = some cells ∧
      m.cellBin extent b p = some i ∧ 0 ≤ i ∧ cells[i.toNat]? = some (pad3 t) := by
  obtain ⟨ht, hl, hnear⟩ := hn
  have hpow : (0 : ℚ) < 2 ^ m.mh.order := by positivity
  have hwf : (0 : ℚ) < extent / 2 ^ m.mh.order := by positivity
  have hinv : extent / 2 ^ m.mh.order * (2 ^ m.mh.order / extent) = 1 := by field_simp
  have hipos : 0 < 2 ^ m.mh.order / extent := by positivity
  let corner : List ℚ := t.map fun (i : Int) => (i : ℚ) * (extent / 2 ^ m.mh.order)
  have hcorner : InMeshCell m extent t corner := by
    unfold InMeshCell
    rw [List.forall₂_map_right_iff, List.forall₂_same]
    intro i _
    exact ⟨le_refl _, by nlinarith⟩
  obtain ⟨b, i, h1, h2, h3⟩ := C37_cell m hv extent he r hr t ht ho corner hcorner []
  rw [List.append_nil] at h2
  obtain ⟨b', cells, o1, o2, o3⟩ := ho
  rw [h1] at o1
  obtain rfl := Option.some.inj o1
  obtain ⟨b', q1, q2, q3, q4, -⟩ := box_spec hv hr
  rw [h1] at q1
  obtain rfl := Option.some.inj q1
  have htl := isMeshCell_length ht
  have hb3 : b.length ≤ 3 := by rw [q2]; exact hv.ndim
  have hcells := o2
  rw [getOwnedCells_eq hb3] at o2
  have o3' := o3
  rw [← Option.some.inj o2] at o3'
  have hbox : InBox b t := (mem_ownedCells (htl.trans q2.symm)).mp o3'
  rw [C39_local_index m hv r hr b cells h1 hcells] at h3
  by_cases h0 : 0 ≤ i
  · rw [if_pos h0] at h3
    refine ⟨b, cells, i, h1, hcells, ?_, h0, h3⟩
    rw [← h2]
    unfold CartMesh.cellBin
    have e1 := binDims_nearest hinv hipos b t p hbox hl (by
      intro d bb j x hb hj hx
      have hd : d < m.mh.dims.length := by
        rw [← q2]; exact (List.getElem?_eq_some_iff.1 hb).1
      obtain ⟨hlo, hhi⟩ := hnear d _ j x (List.getElem?_eq_getElem hd) hj hx
      have hbb := inBox_get hbox hb hj
      constructor
      · rcases hlo with h | h
        · left
          have := (q3 bb (List.mem_of_getElem? hb)).2
          omega
        · exact .inr h
      · rcases hhi with h | h
        · left
          have hset := q4 _ (inBox_set hbox hb (i := bb.2 - 1) (by omega) (by omega))
          have hdt : d < t.length := by omega
          have := (isMeshCell_get hset (List.getElem?_eq_getElem hd)
            (i := bb.2 - 1) (by simp [hdt])).2
          omega
        · exact .inr h)
    have e2 := binDims_nearest hinv hipos b t corner hbox (by simp [corner]) (by
      intro d bb j x hb hj hx
      simp only [corner, List.getElem?_map, hj, Option.map_some, Option.some.injEq] at hx
      subst hx
      exact ⟨.inr (le_refl _), .inr (by nlinarith)⟩)
    rw [e1, e2]
  · rw [if_neg h0] at h3; simp at h3

/-! ## The loop that writes the cell ids -/

/-- `g'` is `g` with the cell ids `F c k`. -/
structure CellIdsSet (g g' : Group) (F : Nat → Nat → Int) : Prop where
  eq : g' = { g with mem := g'.mem }
  ids : ∀ c k, c < g.ncell → k < count g c → g'.mem ⟨g.cellSym, c, 0, k⟩ = some (F c k)
  other : ∀ x : Key, ¬ (x.sym = g.cellSym ∧ x.comp = 0) → g'.mem x = g.mem x
  alloc : ∀ x : Key, (g.mem x).isSome = true → (g'.mem x).isSome = true

namespace CellIdsSet

variable {g g' : Group} {F : Nat → Nat → Int} (h : CellIdsSet g g' F)

include h

theorem ncell : g'.ncell = g.ncell := by rw [h.eq]
theorem count (c : Nat) : count g' c = count g c := by rw [h.eq]; rfl
theorem dats : g'.dats = g.dats := by rw [h.eq]
theorem rankSym : g'.rankSym = g.rankSym := by rw [h.eq]
theorem posSym : g'.posSym = g.posSym := by rw [h.eq]
theorem cellSym : g'.cellSym = g.cellSym := by rw [h.eq]
theorem hNpart : g'.hNpart = g.hNpart := by rw [h.eq]
theorem version : g'.version = g.version := by rw [h.eq]
theorem hint : g'.hint = g.hint := by rw [h.eq]

theorem shape : SameShape g g' :=
  ⟨h.ncell, by rw [h.dats], h.posSym, h.rankSym, h.cellSym, h.hint⟩

theorem consistent (hg : Consistent g) : Consistent g' := by
  have hm := h.alloc
  generalize hm' : g'.mem = mem at hm
  have he := h.eq
  rw [hm'] at he
  subst he
  refine ⟨hg.len, hg.device, hg.es_len, hg.es, hg.total, hg.nodup, ?_, hg.pos, hg.rank, hg.cell⟩
  intro d hd
  have h1 := hg.dats d hd
  exact ⟨h1.mem.congr_isSome hm, h1.host, h1.device, h1.rows, h1.exact⟩

theorem position (hne : g.cellSym ≠ g.posSym) (dec : Int → ℚ) (ndim c k : Nat) :
    position dec ndim g' c k = position dec ndim g c k := by
  unfold Spec.position
  refine mapM_congr_mem fun d _ => ?_
  rw [h.posSym, h.other _ (fun hc => hne hc.1.symm)]

theorem valuesBut (c k : Nat) :
    valuesBut (isCellId g') g' c k = valuesBut (isCellId g) g c k := by
  have : isCellId g' = isCellId g := by unfold isCellId; rw [h.cellSym]
  unfold Spec.valuesBut
  rw [this, h.dats]
  apply List.map_congr_left
  intro sj hsj
  rw [List.mem_filter] at hsj
  apply h.other
  rintro ⟨h1, h2⟩
  have h1 : sj.1 = g.cellSym := h1
  have h2 : sj.2 = 0 := h2
  simp [isCellId, h1, h2] at hsj

theorem allBut : allBut isCellId g' = allBut isCellId g := by
  unfold Spec.allBut
  rw [particlesOf_congr h.ncell h.hNpart]
  exact List.map_congr_left fun ck _ => h.valuesBut ck.1 ck.2

end CellIdsSet

theorem binCells_spec {m : CartMesh} {extent : ℚ} {dec : Int → ℚ} {r : Nat} {e : Env} (hE : EnvOk e)
    (order : Sched) {g : Group} (hg : Consistent g) (hs : SmallCounts g)
    (hne : g.cellSym ≠ g.posSym) {b : List (Int × Int)} (hb : m.box r = some b)
    {F : Nat → Nat → Int}
    (hF : ∀ c k, c < g.ncell → k < count g c → ∃ p, position dec m.mh.dims.length g c k = some p ∧
      m.cellBin extent b p = some (F c k)) :
    ∃ g', binCells m extent dec r e.loop order g = some g' ∧ CellIdsSet g g' F := by
  obtain ⟨d, hd, hdat, -⟩ := dat?_of_mem_syms hg.pos
  have hdn : d.hNpart = g.hNpart := (hg.dats d hd).host
  obtain ⟨vis, v1, v2, v3⟩ := C07_each_particle_once (launchOk_of hE hs) (cs := none) (ce := none)
    trivial
  have hmem : ∀ c k, (c, k) ∈ order.order vis ↔ c < g.ncell ∧ k < count g c := by
    intro c k
    rw [(order.perm vis).mem_iff, v3]
    constructor
    · rintro ⟨-, h⟩; exact (isParticle_iff_lt hg.len).1 h
    · intro h; exact ⟨trivial, (isParticle_iff_lt hg.len).2 h⟩
  obtain ⟨dc, hdc, hdc1, hdc2⟩ := hg.cell
  have hal : ∀ c k, c < g.ncell → k < count g c → (g.mem ⟨g.cellSym, c, 0, k⟩).isSome = true := by
    intro c k hc hk
    exact hg.datsOk.isSome (sj := (g.cellSym, 0)) (mem_flatComps.2 ⟨dc, hdc, hdc1, hdc2⟩)
      (get_getD hg.len hc) hk
  obtain ⟨mem', w1, w2, w3⟩ := runItems_mem (items := order.order vis) (m := g.mem)
    (step := fun it mem => ((List.range m.ndim).mapM fun j =>
      (mem ⟨g.posSym, it.1, j, it.2⟩).map dec).bind fun pos =>
      (m.cellBin extent b pos).bind fun i => mst mem ⟨g.cellSym, it.1, 0, it.2⟩ i)
    (fun it => some ⟨g.cellSym, it.1, 0, it.2⟩) (fun it => F it.1 it.2)
    (by
      rintro ⟨c, k⟩ hck m' hm'
      obtain ⟨hc, hk⟩ := (hmem c k).1 hck
      obtain ⟨p, p1, p2⟩ := hF c k hc hk
      have : ((List.range m.ndim).mapM fun j => (m' ⟨g.posSym, c, j, k⟩).map dec) = some p := by
        rw [← p1]
        unfold Spec.position
        refine mapM_congr_mem fun j _ => ?_
        rw [hm']
        rintro it - heq
        exact hne (Key.mk.inj (Option.some.inj heq)).1
      dsimp only
      rw [this, Option.bind_some, p2, Option.bind_some])
    (by
      rintro ⟨c, k⟩ - ⟨c', k'⟩ - x h1 h2
      have h2 := Option.some.inj h2
      rw [← Option.some.inj h1] at h2
      have := Key.mk.inj h2
      dsimp only at this ⊢
      rw [this.2.1, this.2.2.2])
    (by
      rintro ⟨c, k⟩ hck x hx
      obtain rfl := Option.some.inj hx
      obtain ⟨hc, hk⟩ := (hmem c k).1 hck
      exact hal c k hc hk)
  refine ⟨{ g with mem := mem' }, ?_, rfl, ?_, ?_, ?_⟩
  · unfold binCells
    rw [hb, Option.bind_some, hdat, Option.bind_some, hdn, v1, Option.bind_some, w1,
      Option.bind_some]
  · intro c k hc hk
    exact w2 (c, k) ((hmem c k).2 ⟨hc, hk⟩) _ rfl
  · intro x hx
    apply w3
    rintro it - heq
    obtain rfl := Option.some.inj heq
    exact hx ⟨rfl, rfl⟩
  · intro x hx
    by_cases hex : ∃ it ∈ order.order vis, (⟨g.cellSym, it.1, 0, it.2⟩ : Key) = x
    · obtain ⟨it, hit, rfl⟩ := hex
      show (mem' _).isSome = true
      rw [w2 it hit _ rfl]; rfl
    · show (mem' x).isSome = true
      rw [w3 x]
      · exact hx
      · intro it hit heq
        exact hex ⟨it, hit, Option.some.inj heq⟩

end NP
