import Verif.Mesh.SpecBox
import Verif.Mesh.LemmasMap
import Verif.Mesh.LemmasCart
import Mathlib.Tactic.Positivity
import Mathlib.Tactic.FieldSimp
import Mathlib.Tactic.Linarith

/-!
# C43: claims by bounding boxes
-/

set_option autoImplicit false

namespace NP

theorem overlap1d_eq {lo hi o w : ℚ} {c : Int} (hw : 0 < w) :
    overlap1d (lo - o) (hi - o) c w = Spec.overlap lo hi (o + c * w) (o + (c + 1) * w) := by
  unfold overlap1d Spec.overlap
  simp only
  have e : o + ((c : ℚ) + 1) * w = o + (c * w + w) := by ring
  rw [e]
  rcases le_total (c * w + w) (hi - o) with a | a <;>
  rcases le_total (c * w : ℚ) (lo - o) with b | b <;>
  [rw [min_eq_left a, max_eq_right b, min_eq_right (show o + (c * w + w) ≤ hi by linarith),
      max_eq_left (show o + c * w ≤ lo by linarith)];
   rw [min_eq_left a, max_eq_left b, min_eq_right (show o + (c * w + w) ≤ hi by linarith),
      max_eq_right (show lo ≤ o + c * w by linarith)];
   rw [min_eq_right a, max_eq_right b, min_eq_left (show hi ≤ o + (c * w + w) by linarith),
      max_eq_left (show o + c * w ≤ lo by linarith)];
   rw [min_eq_right a, max_eq_left b, min_eq_left (show hi ≤ o + (c * w + w) by linarith),
      max_eq_right (show lo ≤ o + c * w by linarith)]] <;>
  split_ifs <;> first
    | (exfalso; linarith)
    | (rw [max_eq_left (by linarith)]; done)
    | (rw [max_eq_right (by linarith)]; ring; done)

theorem boxDim_range {nf n : Int} {inv o lo hi : ℚ} (hnf : 0 < nf) (hn : 0 < n) :
    0 ≤ (boxDim nf inv n o lo hi).start ∧ (boxDim nf inv n o lo hi).stop ≤ n * nf := by
  have hp : 0 < nf * n := Int.mul_pos hnf hn
  have hc : n * nf = nf * n := mul_comm _ _
  unfold boxDim
  simp only
  constructor <;> split_ifs <;> omega

theorem boxDim_covers {nf n c : Int} {w o lo hi : ℚ} (hw : 0 < w) (h0 : 0 ≤ c) (hc : c < n * nf)
    (h : 0 < Spec.overlap lo hi (o + c * w) (o + (c + 1) * w)) :
    (boxDim nf (1 / w) n o lo hi).start ≤ c ∧ c < (boxDim nf (1 / w) n o lo hi).stop := by
  unfold Spec.overlap at h
  have h' : 0 < min hi (o + (c + 1) * w) - max lo (o + c * w) := by
    by_contra hh
    rw [max_eq_left (not_lt.mp hh)] at h
    exact lt_irrefl _ h
  have hlo : lo < o + (c + 1) * w := by
    have := le_max_left lo (o + c * w)
    have := min_le_right hi (o + (c + 1) * w)
    linarith
  have hhi : o + c * w < hi := by
    have := le_max_right lo (o + c * w)
    have := min_le_left hi (o + (c + 1) * w)
    linarith
  have hc' : n * nf = nf * n := mul_comm _ _
  have hl : truncZ ((lo - o) * (1 / w)) ≤ c := by
    unfold truncZ
    have hlt : (lo - o) * (1 / w) < c + 1 := by
      rw [mul_one_div, div_lt_iff₀ hw]; linarith
    split
    · have : ⌊(lo - o) * (1 / w)⌋ < c + 1 := by
        rw [Int.floor_lt]; push_cast; exact hlt
      omega
    · rename_i hneg
      have : ⌈(lo - o) * (1 / w)⌉ ≤ 0 := by
        rw [Int.ceil_le]; push_cast; linarith
      omega
  have hr : c < truncZ ((hi - o) * (1 / w) + 1) := by
    have hle : (c : ℚ) ≤ (hi - o) * (1 / w) := by
      rw [mul_one_div, le_div_iff₀ hw]; linarith
    have hc0 : (0 : ℚ) ≤ c := by exact_mod_cast h0
    rw [truncZ_of_nonneg (by linarith)]
    have : c + 1 ≤ ⌊(hi - o) * (1 / w) + 1⌋ := by
      rw [Int.le_floor]; push_cast; linarith
    omega
  unfold boxDim
  simp only
  constructor <;> split_ifs <;> omega

/-- The cells the loops visit, with the volume. -/
theorem boxVolumes_spec {nf : Int} {w : ℚ} (hnf : 0 < nf) (hw : 0 < w) :
    ∀ {ns : List Int} {os los his : List ℚ}, (∀ n ∈ ns, 0 < n) → os.length = ns.length →
      ns.length ≤ los.length → ns.length ≤ his.length →
      ∃ bs, boxDims nf (1 / w) ns os los his = some bs ∧
        ((boxVolumes w bs).map Prod.fst).Nodup ∧
        (∀ tv ∈ boxVolumes w bs, Spec.InRange (ns.map (· * nf)) tv.1 ∧
          tv.2 = Spec.overlapVolume w os los his tv.1) ∧
        (∀ t, Spec.InRange (ns.map (· * nf)) t → 0 < Spec.overlapVolume w os los his t →
          (t, Spec.overlapVolume w os los his t) ∈ boxVolumes w bs) := by
  intro ns
  have hnn : ∀ (os los his : List ℚ) (t : List Int), 0 ≤ Spec.overlapVolume w os los his t := by
    intro os los his t
    induction os generalizing los his t with
    | nil => simp [Spec.overlapVolume]
    | cons o os ih =>
      match los, his, t with
      | lo :: los, hi :: his, i :: t =>
        exact mul_nonneg (le_max_left _ _) (ih los his t)
      | [], _, _ => simp [Spec.overlapVolume]
      | _ :: _, [], _ => simp [Spec.overlapVolume]
      | _ :: _, _ :: _, [] => simp [Spec.overlapVolume]
  induction ns with
  | nil =>
    intro os los his _ ho _ _
    obtain rfl : os = [] := List.length_eq_zero_iff.mp ho
    refine ⟨[], rfl, by simp [boxVolumes], ?_, ?_⟩
    · intro tv htv
      simp only [boxVolumes, List.mem_singleton] at htv
      subst htv
      exact ⟨List.Forall₂.nil, by simp [Spec.overlapVolume]⟩
    · intro t ht _
      obtain rfl : t = [] := List.length_eq_zero_iff.mp (by rw [ht.length]; rfl)
      simp [boxVolumes, Spec.overlapVolume]
  | cons n ns ih =>
    intro os los his hpos ho hlo hhi
    match os, los, his, ho, hlo, hhi with
    | o :: os, lo :: los, hi :: his, ho, hlo, hhi =>
      obtain ⟨bs, h1, h2, h3, h4⟩ := ih (os := os) (los := los) (his := his)
        (fun m hm => hpos m (by simp [hm]))
        (by simpa using ho) (by simpa using hlo) (by simpa using hhi)
      have hn := hpos n (by simp)
      obtain ⟨r1, r2⟩ := boxDim_range (inv := 1 / w) (o := o) (lo := lo) (hi := hi) hnf hn
      refine ⟨boxDim nf (1 / w) n o lo hi :: bs, by rw [boxDims, h1]; rfl, ?_, ?_, ?_⟩
      · -- each tuple once
        rw [boxVolumes, List.map_flatMap, List.nodup_flatMap]
        rw [List.nodup_iff_pairwise_ne, List.pairwise_map] at h2
        refine ⟨?_, ?_⟩
        · rintro ⟨t, v⟩ _
          simp only [List.map_map]
          apply List.Nodup.map _ intRange_nodup
          intro a b hab
          simpa using hab
        · refine h2.imp ?_
          rintro ⟨t, v⟩ ⟨t', v'⟩ hne x hx hx'
          simp only [List.mem_map, List.map_map] at hx hx'
          obtain ⟨a, -, rfl⟩ := hx
          obtain ⟨b, -, hb⟩ := hx'
          simp only [Function.comp_apply, List.cons.injEq] at hb
          exact hne hb.2.symm
      · rintro tv htv
        rw [boxVolumes, List.mem_flatMap] at htv
        obtain ⟨⟨t, v⟩, ht, hm⟩ := htv
        obtain ⟨c, hc, rfl⟩ := List.mem_map.mp hm
        obtain ⟨q1, q2⟩ := h3 _ ht
        rw [mem_intRange] at hc
        refine ⟨List.Forall₂.cons (by beta_reduce; omega) q1, ?_⟩
        simp only at q2 ⊢
        rw [Spec.overlapVolume, ← q2]
        congr 1
        exact overlap1d_eq hw
      · intro t ht hv
        match t, ht, hv with
        | c :: t, ht, hv =>
          rw [List.map_cons] at ht
          obtain ⟨hc, ht'⟩ := List.forall₂_cons.mp ht
          rw [Spec.overlapVolume] at hv
          have hv1 : 0 < Spec.overlap lo hi (o + c * w) (o + (c + 1) * w) := by
            rcases (le_max_left (0 : ℚ) (min hi (o + (c + 1) * w) - max lo (o + c * w))).eq_or_lt
              with h | h
            · exfalso
              unfold Spec.overlap at hv
              rw [← h, zero_mul] at hv
              exact lt_irrefl _ hv
            · exact h
          have hv2 : 0 < Spec.overlapVolume w os los his t := by
            rcases (hnn os los his t).eq_or_lt with h | h
            · rw [← h, mul_zero] at hv
              exact absurd hv (lt_irrefl _)
            · exact h
          obtain ⟨b1, b2⟩ := boxDim_covers (nf := nf) (n := n) hw hc.1 hc.2 hv1
          rw [boxVolumes, List.mem_flatMap]
          refine ⟨_, h4 t ht' hv2, ?_⟩
          refine List.mem_map.mpr ⟨c, mem_intRange.mpr ⟨b1, b2⟩, ?_⟩
          simp only [Spec.overlapVolume, Prod.mk.injEq, true_and]
          congr 1
          exact overlap1d_eq hw

theorem boxCellIndex_spec {mh : MeshHierarchy} (hm : Spec.ValidMesh mh) {t : List Int}
    (ht : Spec.InRange (mh.dims.map (· * mh.ncellsDimFine)) t) :
    ∃ c, boxCellIndex mh t = some c ∧ Spec.IsCellAt mh t c := by
  obtain ⟨cs, fs, h1, h2, h3⟩ := exists_cart (ncellsDimFine_pos (mh := mh)) ht
  have hl : t.length = mh.dims.length := by have := ht.length; simpa using this
  have hcell : Spec.IsCellAt mh t _ := ⟨cs, fs, h1, h2, tupleToLinearGlobal_eq hm h1 h2, h3.symm⟩
  refine ⟨_, ?_, hcell⟩
  unfold boxCellIndex
  have := cartToTuple_append (u := []) hl
  rw [List.append_nil] at this
  rw [this, Option.bind_some, ← h3, (cart_split ncellsDimFine_pos h1 h2).1,
    (cart_split ncellsDimFine_pos h1 h2).2]
  exact tupleToLinearGlobal_eq hm h1 h2

theorem isCellAt_range {mh : MeshHierarchy} {t : List Int} {c : Int}
    (h : Spec.IsCellAt mh t c) : Spec.InRange (mh.dims.map (· * mh.ncellsDimFine)) t := by
  obtain ⟨cs, fs, h1, h2, -, rfl⟩ := h
  exact cart_inRange h1 h2

/-- **C43** `bounding_box_map` lists exactly the fine cells whose intersection with the box has a
positive volume, each once, with that volume. -/
theorem C43_map (g : MeshGeom) (hg : Spec.ValidGeom g) (lower upper : List ℚ)
    (hb : Spec.BoxFor g lower upper) :
    ∃ cells, boundingBoxMap g lower upper = some cells ∧ (cells.map Prod.fst).Nodup ∧
      ∀ c v, (c, v) ∈ cells ↔ 0 < v ∧ ∃ t, Spec.IsCellAt g.mh t c ∧
        v = Spec.overlapVolume (Spec.fineWidth g) g.origin lower upper t := by
  obtain ⟨hm, ho, hw⟩ := hg
  have hnf := ncellsDimFine_pos (mh := g.mh)
  have hnfq : (0 : ℚ) < (g.mh.ncellsDimFine : ℚ) := by exact_mod_cast hnf
  have hwf : 0 < g.widthFine := div_pos hw hnfq
  have hfw : Spec.fineWidth g = g.widthFine := by
    unfold Spec.fineWidth MeshGeom.widthFine MeshHierarchy.ncellsDimFine
    push_cast
    rfl
  have hinv : (g.mh.ncellsDimFine : ℚ) / g.width = 1 / g.widthFine := by
    unfold MeshGeom.widthFine
    rw [one_div_div]
  obtain ⟨bs, h1, h2, h3, h4⟩ := boxVolumes_spec hnf hwf hm.2 ho hb.1 hb.2
  rw [hfw]
  have hidx : ∀ tv ∈ boxVolumes g.widthFine bs, ∃ c, boxCellIndex g.mh tv.1 = some c ∧
      Spec.IsCellAt g.mh tv.1 c := fun tv htv => boxCellIndex_spec hm (h3 tv htv).1
  -- the result of the kernel for each cell
  have hcol : collectM (fun tv => if tv.2 > 0 then (boxCellIndex g.mh tv.1).bind fun i =>
      some [(i, tv.2)] else some []) (boxVolumes g.widthFine bs) =
      some ((boxVolumes g.widthFine bs).flatMap fun tv =>
        if tv.2 > 0 then [((boxCellIndex g.mh tv.1).getD 0, tv.2)] else []) := by
    apply collectM_eq_flatMap
    intro tv htv
    obtain ⟨c, hc, -⟩ := hidx tv htv
    split
    · rw [hc]; rfl
    · rfl
  refine ⟨(boxVolumes g.widthFine bs).flatMap fun tv =>
    if tv.2 > 0 then [((boxCellIndex g.mh tv.1).getD 0, tv.2)] else [], ?_, ?_, ?_⟩
  · unfold boundingBoxMap
    rw [hinv, h1, Option.bind_some, hcol]
  · rw [List.map_flatMap, List.nodup_flatMap]
    rw [List.nodup_iff_pairwise_ne, List.pairwise_map] at h2
    refine ⟨?_, ?_⟩
    · intro tv _
      split <;> simp
    · refine List.Pairwise.imp_of_mem ?_ h2
      intro tv tv' hm1 hm2 hne x hx hx'
      beta_reduce at hx hx'
      obtain ⟨c, hc, hat⟩ := hidx tv hm1
      obtain ⟨c', hc', hat'⟩ := hidx tv' hm2
      split at hx
      · split at hx'
        · rw [hc] at hx
          rw [hc'] at hx'
          simp only [List.map_cons, List.map_nil, List.mem_singleton, Option.getD_some] at hx hx'
          subst hx
          subst hx'
          exact hne (isCellAt_unique' hm hat hat')
        · simp at hx'
      · simp at hx
  · intro c v
    rw [List.mem_flatMap]
    constructor
    · rintro ⟨tv, htv, hmem⟩
      obtain ⟨c', hc', hat⟩ := hidx tv htv
      split at hmem
      · rename_i hpos
        rw [hc'] at hmem
        simp only [Option.getD_some, List.mem_singleton, Prod.mk.injEq] at hmem
        obtain ⟨rfl, rfl⟩ := hmem
        exact ⟨hpos, tv.1, hat, (h3 tv htv).2⟩
      · simp at hmem
    · rintro ⟨hpos, t, hat, rfl⟩
      have hmem := h4 t (isCellAt_range hat) hpos
      obtain ⟨c', hc', hat'⟩ := hidx _ hmem
      refine ⟨_, hmem, ?_⟩
      simp only
      rw [if_pos hpos, hc', Option.getD_some]
      simp only at hat'
      rw [isCellAt_unique hm hat hat']
      simp

/-! ## The claims for a sequence of elements -/

/-- The claims of one box on one cell. -/
theorem boxClaim_fold {e : Int} {inv : ℚ} {cells : List (Int × ℚ)}
    (hnd : (cells.map Prod.fst).Nodup) (s : LocalClaims) (c : Int) :
    let s' := cells.foldl (fun s cv => boxClaimStep e inv cv s) s
    (∀ v, (c, v) ∈ cells →
      s'.geoms c = some ((s.geoms c).getD [] ++ [e]) ∧
      (c ∈ s'.cells ↔ c ∈ s.cells ∨ 0 < truncZ (1000000 * (v * inv))) ∧
      s'.weights c = if 0 < truncZ (1000000 * (v * inv)) then
          some (if truncZ (1000000 * (v * inv)) > ((s.weights c).getD (0, 0)).1 then
            (truncZ (1000000 * (v * inv)), v * inv) else (s.weights c).getD (0, 0))
        else s.weights c) ∧
    (c ∉ cells.map Prod.fst → s'.geoms c = s.geoms c ∧ (c ∈ s'.cells ↔ c ∈ s.cells) ∧
      s'.weights c = s.weights c) := by
  induction cells generalizing s with
  | nil => exact ⟨by simp, by simp⟩
  | cons cv cells ih =>
    rw [List.map_cons, List.nodup_cons] at hnd
    obtain ⟨ih1, ih2⟩ := ih hnd.2 (boxClaimStep e inv cv s)
    simp only [List.foldl_cons]
    have hother : c ≠ cv.1 → (boxClaimStep e inv cv s).geoms c = s.geoms c ∧
        (c ∈ (boxClaimStep e inv cv s).cells ↔ c ∈ s.cells) ∧
        (boxClaimStep e inv cv s).weights c = s.weights c := by
      intro hne
      unfold boxClaimStep LocalClaims.claim
      simp only [if_neg hne]
      split
      · simp only [if_neg hne, mem_intSetInsert, or_iff_right hne, and_self]
      · simp
    constructor
    · intro v hv
      rcases List.mem_cons.mp hv with heq | hv
      · subst heq
        obtain ⟨j1, j2, j3⟩ := ih2 hnd.1
        refine ⟨?_, ?_, ?_⟩
        · rw [j1]
          unfold boxClaimStep LocalClaims.claim
          simp only [if_true]
          split <;> rfl
        · rw [j2]
          unfold boxClaimStep LocalClaims.claim
          simp only [gt_iff_lt]
          split
          · rename_i hp
            simp [mem_intSetInsert, hp]
          · rename_i hp
            simp [hp]
        · rw [j3]
          unfold boxClaimStep LocalClaims.claim
          simp only [gt_iff_lt]
          split
          · simp
          · rfl
      · have hne : c ≠ cv.1 := by
          rintro rfl
          exact hnd.1 (List.mem_map.mpr ⟨_, hv, rfl⟩)
        obtain ⟨o1, o2, o3⟩ := hother hne
        obtain ⟨j1, j2, j3⟩ := ih1 v hv
        rw [o1] at j1
        rw [o2] at j2
        rw [o3] at j3
        exact ⟨j1, j2, j3⟩
    · intro hc
      simp only [List.map_cons, List.mem_cons, not_or] at hc
      obtain ⟨o1, o2, o3⟩ := hother hc.1
      obtain ⟨j1, j2, j3⟩ := ih2 hc.2
      exact ⟨j1.trans o1, j2.trans o2, j3.trans o3⟩

/-- What has been collected after the elements `es`. -/
def Claimed (g : MeshGeom) (es : List (Int × List ℚ × List ℚ)) (s : LocalClaims) : Prop :=
  ∀ c : Int,
    (c ∈ s.cells ↔ ∃ e ∈ es, ∃ r, Spec.Overlaps g e.2.1 e.2.2 c r ∧ 1 ≤ 1000000 * r) ∧
    (c ∉ s.cells → s.weights c = none) ∧
    (c ∈ s.cells → ∃ e ∈ es, ∃ r, Spec.Overlaps g e.2.1 e.2.2 c r ∧
      s.weights c = some (⌊1000000 * r⌋, r) ∧
      ∀ e' ∈ es, ∀ r', Spec.Overlaps g e'.2.1 e'.2.2 c r' → ⌊1000000 * r'⌋ ≤ ⌊1000000 * r⌋) ∧
    open Classical in (s.geoms c).getD [] =
      (es.filter fun e => decide (∃ r, Spec.Overlaps g e.2.1 e.2.2 c r)).map Prod.fst

theorem overlaps_unique {g : MeshGeom} (hg : Spec.ValidGeom g) {lo hi : List ℚ} {c : Int}
    {r r' : ℚ} (h : Spec.Overlaps g lo hi c r) (h' : Spec.Overlaps g lo hi c r') : r = r' := by
  obtain ⟨t, a1, -, a2⟩ := h
  obtain ⟨t', b1, -, b2⟩ := h'
  obtain rfl := isCellAt_unique' hg.1 a1 b1
  rw [a2, b2]

theorem claimed_step {g : MeshGeom} (hg : Spec.ValidGeom g) {es : List (Int × List ℚ × List ℚ)}
    {s : LocalClaims} (hs : Claimed g es s) {e : Int} {lo hi : List ℚ}
    (hb : Spec.BoxFor g lo hi) :
    ∃ s', boundingBoxClaim g e lo hi s = some s' ∧ Claimed g (es ++ [(e, lo, hi)]) s' := by
  obtain ⟨cells, h1, h2, h3⟩ := C43_map g hg lo hi hb
  refine ⟨_, by unfold boundingBoxClaim; rw [h1, Option.bind_some], ?_⟩
  have hnf := ncellsDimFine_pos (mh := g.mh)
  have hnfq : (0 : ℚ) < (g.mh.ncellsDimFine : ℚ) := by exact_mod_cast hnf
  have hwf : 0 < g.widthFine := div_pos hg.2.2 hnfq
  have hfw : Spec.fineWidth g = g.widthFine := by
    unfold Spec.fineWidth MeshGeom.widthFine MeshHierarchy.ncellsDimFine
    push_cast
    rfl
  have hvol : 0 < g.widthFine ^ g.mh.dims.length := pow_pos hwf _
  have hov : ∀ c r, Spec.Overlaps g lo hi c r ↔
      ∃ v, (c, v) ∈ cells ∧ r = v * (1 / g.widthFine ^ g.mh.ndim) := by
    intro c r
    unfold Spec.Overlaps MeshHierarchy.ndim
    rw [hfw]
    constructor
    · rintro ⟨t, t1, t2, t3⟩
      refine ⟨_, (h3 c _).mpr ⟨?_, t, t1, rfl⟩, ?_⟩
      · rw [hfw]
        rw [t3] at t2
        exact (div_pos_iff_of_pos_right hvol).mp t2
      · rw [hfw, t3, mul_one_div]
    · rintro ⟨v, v1, rfl⟩
      obtain ⟨u1, t, t1, t2⟩ := (h3 c v).mp v1
      refine ⟨t, t1, mul_pos u1 (one_div_pos.mpr hvol), ?_⟩
      rw [t2, hfw, mul_one_div]
  have hpos : ∀ c r, Spec.Overlaps g lo hi c r → 0 < r := fun c r ⟨_, _, h, _⟩ => h
  intro c
  obtain ⟨a1, a2, a3, a4⟩ := hs c
  obtain ⟨f1, f2⟩ := boxClaim_fold (e := e) (inv := 1 / g.widthFine ^ g.mh.ndim) h2 s c
  by_cases hc : ∃ r, Spec.Overlaps g lo hi c r
  · obtain ⟨r, hr⟩ := hc
    have hr' := hr
    obtain ⟨v, hv, hrv⟩ := (hov c r).mp hr
    obtain ⟨j1, j2, j3⟩ := f1 v hv
    rw [← hrv] at j2 j3
    have hr0 := hpos c r hr
    have htr : truncZ (1000000 * r) = ⌊1000000 * r⌋ := truncZ_of_nonneg (by linarith)
    rw [htr] at j2 j3
    have hw1 : 0 < ⌊1000000 * r⌋ ↔ 1 ≤ 1000000 * r := by
      rw [Int.lt_iff_add_one_le, Int.le_floor]
      norm_num
    refine ⟨?_, ?_, ?_, ?_⟩
    · rw [j2, a1]
      constructor
      · rintro (⟨e', m, r', q⟩ | h)
        · exact ⟨e', by simp [m], r', q⟩
        · exact ⟨(e, lo, hi), by simp, r, hr, hw1.mp h⟩
      · rintro ⟨e', m, r', q1, q2⟩
        rcases List.mem_append.mp m with m | m
        · exact Or.inl ⟨e', m, r', q1, q2⟩
        · rw [List.mem_singleton] at m
          subst m
          rw [overlaps_unique hg q1 hr] at q2
          exact Or.inr (hw1.mpr q2)
    · intro hn
      rw [j2, not_or] at hn
      rw [j3, if_neg hn.2]
      exact a2 hn.1
    · intro hin
      by_cases hp : 0 < ⌊1000000 * r⌋
      · rw [if_pos hp] at j3
        by_cases hold : c ∈ s.cells
        · obtain ⟨e0, m0, r0, o1, o2, o3⟩ := a3 hold
          rw [o2] at j3
          simp only [Option.getD_some] at j3
          by_cases hgt : ⌊1000000 * r⌋ > ⌊1000000 * r0⌋
          · rw [if_pos hgt] at j3
            refine ⟨(e, lo, hi), by simp, r, hr, j3, ?_⟩
            intro e' m r' q
            rcases List.mem_append.mp m with m | m
            · have := o3 e' m r' q; omega
            · rw [List.mem_singleton] at m
              subst m
              rw [overlaps_unique hg q hr]
          · rw [if_neg hgt] at j3
            refine ⟨e0, by simp [m0], r0, o1, j3, ?_⟩
            intro e' m r' q
            rcases List.mem_append.mp m with m | m
            · exact o3 e' m r' q
            · rw [List.mem_singleton] at m
              subst m
              rw [overlaps_unique hg q hr]
              omega
        · rw [a2 hold] at j3
          simp only [Option.getD_none, gt_iff_lt] at j3
          rw [if_pos hp] at j3
          refine ⟨(e, lo, hi), by simp, r, hr, j3, ?_⟩
          intro e' m r' q
          rcases List.mem_append.mp m with m | m
          · have hno : ¬ (1 : ℚ) ≤ 1000000 * r' := fun h => hold (a1.mpr ⟨e', m, r', q, h⟩)
            have : ⌊1000000 * r'⌋ < 1 := by
              rw [Int.floor_lt]
              push_cast
              exact not_le.mp hno
            omega
          · rw [List.mem_singleton] at m
            subst m
            rw [overlaps_unique hg q hr]
      · rw [if_neg hp] at j3
        obtain ⟨e0, m0, r0, o1, o2, o3⟩ := a3 ((j2.mp hin).resolve_right hp)
        refine ⟨e0, by simp [m0], r0, o1, j3.trans o2, ?_⟩
        intro e' m r' q
        rcases List.mem_append.mp m with m | m
        · exact o3 e' m r' q
        · rw [List.mem_singleton] at m
          subst m
          rw [overlaps_unique hg q hr]
          obtain ⟨_, _, q0, _⟩ := o1
          have : 0 ≤ ⌊1000000 * r0⌋ := Int.floor_nonneg.mpr (by linarith)
          omega
    · rw [j1, Option.getD_some, a4, List.filter_append, List.map_append]
      congr 1
      rw [List.filter_cons_of_pos (by simpa using ⟨r, hr'⟩)]
      rfl
  · have hno : c ∉ cells.map Prod.fst := by
      intro hm
      obtain ⟨⟨c', v⟩, hm1, rfl⟩ := List.mem_map.mp hm
      exact hc ⟨_, (hov c' _).mpr ⟨v, hm1, rfl⟩⟩
    obtain ⟨j1, j2, j3⟩ := f2 hno
    have hmem : ∀ e' ∈ es ++ [(e, lo, hi)], ∀ r', Spec.Overlaps g e'.2.1 e'.2.2 c r' → e' ∈ es := by
      intro e' m r' q
      rcases List.mem_append.mp m with m | m
      · exact m
      · rw [List.mem_singleton] at m
        subst m
        exact absurd ⟨r', q⟩ hc
    refine ⟨?_, ?_, ?_, ?_⟩
    · rw [j2, a1]
      constructor
      · rintro ⟨e', m, r', q⟩
        exact ⟨e', by simp [m], r', q⟩
      · rintro ⟨e', m, r', q1, q2⟩
        exact ⟨e', hmem e' m r' q1, r', q1, q2⟩
    · intro h
      rw [j3]
      exact a2 (fun h' => h (j2.mpr h'))
    · intro h
      obtain ⟨e0, m0, r0, o1, o2, o3⟩ := a3 (j2.mp h)
      exact ⟨e0, by simp [m0], r0, o1, j3.trans o2, fun e' m r' q => o3 e' (hmem e' m r' q) r' q⟩
    · rw [j1, a4, List.filter_append, List.filter_cons_of_neg (by simpa using hc)]
      simp

/-- **C43** After the elements of a mesh have claimed cells by their bounding boxes:
a cell has been claimed if and only if some element overlaps at least a millionth of it; the
weight of the claim is the largest number of whole millionths over the elements; and the
elements listed for a cell are those whose boxes overlap it, in order. -/
theorem C43_claims (g : MeshGeom) (hg : Spec.ValidGeom g)
    (es : List (Int × List ℚ × List ℚ)) (hb : ∀ e ∈ es, Spec.BoxFor g e.2.1 e.2.2) :
    ∃ s, claimElements g es LocalClaims.empty = some s ∧ ∀ c : Int,
      (c ∈ s.cells ↔ ∃ e ∈ es, ∃ r, Spec.Overlaps g e.2.1 e.2.2 c r ∧ 1 ≤ 1000000 * r) ∧
      (c ∉ s.cells → s.weights c = none) ∧
      (c ∈ s.cells → ∃ e ∈ es, ∃ r, Spec.Overlaps g e.2.1 e.2.2 c r ∧
        s.weights c = some (⌊1000000 * r⌋, r) ∧
        ∀ e' ∈ es, ∀ r', Spec.Overlaps g e'.2.1 e'.2.2 c r' → ⌊1000000 * r'⌋ ≤ ⌊1000000 * r⌋) ∧
      open Classical in (s.geoms c).getD [] =
        (es.filter fun e => decide (∃ r, Spec.Overlaps g e.2.1 e.2.2 c r)).map Prod.fst := by
  have key : ∀ (es pre : List (Int × List ℚ × List ℚ)) (s : LocalClaims),
      (∀ e ∈ es, Spec.BoxFor g e.2.1 e.2.2) → Claimed g pre s →
      ∃ s', claimElements g es s = some s' ∧ Claimed g (pre ++ es) s' := by
    intro es
    induction es with
    | nil => intro pre s _ h; exact ⟨s, rfl, by simpa using h⟩
    | cons e es ih =>
      intro pre s hb h
      obtain ⟨e, lo, hi⟩ := e
      obtain ⟨s1, h1, h2⟩ := claimed_step hg h (e := e) (lo := lo) (hi := hi)
        (hb (e, lo, hi) (by simp))
      obtain ⟨s2, h3, h4⟩ := ih _ s1 (fun e he => hb e (by simp [he])) h2
      refine ⟨s2, ?_, by simpa using h4⟩
      rw [claimElements, h1, Option.bind_some, h3]
  obtain ⟨s, h1, h2⟩ := key es [] LocalClaims.empty hb (by
    intro c
    refine ⟨by simp [LocalClaims.empty], fun _ => rfl, by simp [LocalClaims.empty], ?_⟩
    simp [LocalClaims.empty])
  exact ⟨s, h1, h2⟩

namespace Ex

/-- Two by one coarse cells with two fine cells per dimension. -/
def boxGeom : MeshGeom := ⟨⟨[2, 1], 1⟩, [0, 0], 2⟩

example : Spec.ValidGeom boxGeom := ⟨⟨by decide, by decide⟩, rfl, by decide +kernel⟩

-- a box over parts of four fine cells
example : boundingBoxMap boxGeom [1/2, 1/2, 0] [3/2, 7/4, 0] =
    some [(0, 1/4), (1, 1/4), (2, 3/8), (3, 3/8)] := by decide +kernel

end Ex

end NP
