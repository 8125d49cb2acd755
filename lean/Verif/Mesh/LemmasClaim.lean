import Verif.Mesh.Lemmas
import Verif.Basics.Lemmas

/-!
# Lemmas for claiming cells
-/

set_option autoImplicit false

namespace NP

theorem forAllM_eq {ι β : Type} {f : ι → Option β} {g : ι → β} {l : List ι}
    (h : ∀ i ∈ l, f i = some (g i)) : forAllM f l = some (l.map g) := by
  induction l with
  | nil => rfl
  | cons i is ih =>
    simp only [forAllM, h i (by simp), ih (fun j hj => h j (by simp [hj])), Option.bind_some,
      List.map_cons]

theorem forAllM_exists {ι β : Type} {f : ι → Option β} {l : List ι} (P : ι → β → Prop)
    (h : ∀ i ∈ l, ∃ b, f i = some b ∧ P i b) :
    ∃ bs, forAllM f l = some bs ∧ List.Forall₂ P l bs := by
  induction l with
  | nil => exact ⟨[], rfl, List.Forall₂.nil⟩
  | cons i is ih =>
    obtain ⟨b, hb, hP⟩ := h i (by simp)
    obtain ⟨bs, h1, h2⟩ := ih (fun j hj => h j (by simp [hj]))
    exact ⟨b :: bs, by simp only [forAllM, hb, h1, Option.bind_some], List.Forall₂.cons hP h2⟩

theorem nodeOf_eq {layout : NodeLayout} {r : Nat} (h : r ∈ layout.flatten) :
    ∃ k, nodeOf layout r = some k ∧ k < layout.length := by
  obtain ⟨node, hn, hr⟩ := List.mem_flatten.mp h
  unfold nodeOf
  cases hf : layout.findIdx? fun node => decide (r ∈ node) with
  | none =>
    rw [List.findIdx?_eq_none_iff] at hf
    have := hf node hn
    simp [hr] at this
  | some k =>
    rw [List.findIdx?_eq_some_iff_getElem] at hf
    obtain ⟨hk, -⟩ := hf
    exact ⟨k, rfl, hk⟩

theorem claimInitNode_spec (s : Sched) {ncells size : Nat} (hs : 0 < size) {m : List Int}
    (hm : m.length = ncells) :
    claimInitNode s ncells size m = some (List.replicate ncells mhMask) := by
  unfold claimInitNode
  have h := runItems_region (items := s.order (List.range size)) (m := m)
    (step := fun r m => (getDecomp1d size ncells r).bind fun (lo, hi) =>
      stRange m lo (List.replicate (hi - lo) mhMask))
    (fun r k => dstart size ncells r ≤ k ∧ k < dstart size ncells (r + 1)) (fun _ _ => mhMask)
    (fun r hr s' hs' => by
      have hr' : r < size := by
        have := (s.perm (List.range size)).subset hr
        simpa using this
      have hle : dstart size ncells r ≤ dstart size ncells (r + 1) := dstart_mono (by omega)
      have htop : dstart size ncells (r + 1) ≤ ncells := by
        have := dstart_mono (n := size) (N := ncells) (i := r + 1) (j := size) (by omega)
        rwa [dstart_top ncells hs] at this
      obtain ⟨s2, hst⟩ : ∃ s2, stRange s' (dstart size ncells r) (List.replicate
          (dstart size ncells (r + 1) - dstart size ncells r) mhMask) = some s2 :=
        ⟨_, stRange_eq_some (by simp; omega)⟩
      refine ⟨s2, ?_, ?_, ?_, ?_⟩
      · rw [getDecomp1d_eq hs]
        exact hst
      · exact (length_of_stRange hst).1
      · intro k hk
        rw [getElem?_of_stRange hst k, if_pos (by simp only [List.length_replicate]; omega),
          List.getElem?_replicate, if_pos (by omega)]
      · intro k hk
        rw [getElem?_of_stRange hst k, if_neg (by simp only [List.length_replicate]; omega)])
    (fun _ _ _ _ _ _ _ => rfl)
  obtain ⟨m', h1, h2, h3, h4⟩ := h
  rw [h1]
  congr 1
  apply List.ext_getElem?
  intro k
  by_cases hk : k < ncells
  · obtain ⟨r, hr, ha, hb⟩ := dstart_exists (n := size) (N := ncells) (m := size) (w := k)
      (by rw [dstart_top ncells hs]; exact hk)
    rw [h3 r ((s.perm _).mem_iff.mpr (by simpa using hr)) k ⟨ha, hb⟩]
    simp [hk]
  · rw [List.getElem?_eq_none (by omega), List.getElem?_eq_none (by simp; omega)]

/-- `m` is the maximum of `m0` and of the values satisfying `P`. -/
structure IsMax (m0 : Int) (P : Int → Prop) (m : Int) : Prop where
  /-- It is one of them. -/
  mem : m = m0 ∨ P m
  /-- It is at least the start. -/
  base : m0 ≤ m
  /-- It is at least each value. -/
  ge : ∀ v, P v → v ≤ m

theorem IsMax.max {m0 m v : Int} {P Q : Int → Prop} (h : IsMax m0 P m)
    (hQ : ∀ u, Q u ↔ P u ∨ u = v) : IsMax m0 Q (max m v) := by
  refine ⟨?_, le_trans h.base (le_max_left _ _), ?_⟩
  · rcases le_total m v with hle | hle
    · rw [max_eq_right hle]; exact Or.inr ((hQ v).mpr (Or.inr rfl))
    · rw [max_eq_left hle]
      exact h.mem.imp id fun hp => (hQ m).mpr (Or.inl hp)
  · intro u hu
    rcases (hQ u).mp hu with hp | rfl
    · exact le_trans (h.ge u hp) (le_max_left _ _)
    · exact le_max_right _ _

theorem IsMax.congr {m0 m : Int} {P Q : Int → Prop} (h : IsMax m0 P m)
    (hQ : ∀ u, Q u ↔ P u) : IsMax m0 Q m :=
  ⟨h.mem.imp id (hQ m).mpr, h.base, fun v hv => h.ge v ((hQ v).mp hv)⟩

/-- What the windows hold after accumulating `ops` (node, cell, value) on windows whose
values are given by `base`. -/
def Accumulated (ncells nn : Nat) (base : Nat → Nat → Int) (ops : List (Nat × Nat × Int))
    (maps : List (List Int)) : Prop :=
  maps.length = nn ∧ ∀ k, k < nn → ∃ m, maps[k]? = some m ∧ m.length = ncells ∧
    ∀ c, c < ncells → ∃ v, m[c]? = some v ∧ IsMax (base k c) (fun u => (k, c, u) ∈ ops) v

theorem accumulateMax_spec {ncells nn : Nat} {base : Nat → Nat → Int}
    {ops : List (Nat × Nat × Int)} {maps : List (List Int)} (h : Accumulated ncells nn base ops maps)
    {k : Nat} {cell v : Int} (hk : k < nn) (h0 : 0 ≤ cell) (hc : cell < ncells) :
    ∃ maps', accumulateMax maps k cell v = some maps' ∧
      Accumulated ncells nn base (ops ++ [(k, cell.toNat, v)]) maps' := by
  obtain ⟨hl, hm⟩ := h
  obtain ⟨m, h1, h2, h3⟩ := hm k hk
  obtain ⟨old, h4, h5⟩ := h3 cell.toNat (by omega)
  refine ⟨maps.set k (m.set cell.toNat (max old v)), ?_, ?_, ?_⟩
  · unfold accumulateMax index
    simp only [rd]
    rw [h1, Option.bind_some, if_pos h0, Option.bind_some, h4, Option.bind_some]
  · simpa using hl
  · intro k' hk'
    by_cases hkk : k' = k
    · subst hkk
      refine ⟨m.set cell.toNat (max old v), by simp [hl, hk'], by simpa using h2, ?_⟩
      intro c hcc
      by_cases hcc' : c = cell.toNat
      · subst hcc'
        refine ⟨max old v, by simp [h2, hcc], h5.max ?_⟩
        intro u; simp
      · obtain ⟨w, hw1, hw2⟩ := h3 c hcc
        refine ⟨w, ?_, hw2.congr ?_⟩
        · rw [List.getElem?_set_ne (by omega)]; exact hw1
        · intro u; simp [hcc']
    · obtain ⟨m', ha, hb, hc'⟩ := hm k' hk'
      refine ⟨m', ?_, hb, ?_⟩
      · rw [List.getElem?_set_ne (by omega)]; exact ha
      · intro c hcc
        obtain ⟨w, hw1, hw2⟩ := hc' c hcc
        exact ⟨w, hw1, hw2.congr (by intro u; simp [hkk])⟩

/-- The largest of a non empty list. -/
theorem maxOf_spec {l : List Int} (h : l ≠ []) :
    ∃ v, maxOf l = some v ∧ v ∈ l ∧ ∀ u ∈ l, u ≤ v := by
  obtain _ | ⟨x, xs⟩ := l
  · exact absurd rfl h
  · refine ⟨xs.foldl max x, rfl, ?_, ?_⟩
    · clear h
      induction xs generalizing x with
      | nil => simp
      | cons y ys ih =>
        simp only [List.foldl_cons]
        rcases List.mem_cons.mp (ih (max x y)) with h | h
        · rw [h]
          rcases le_total x y with hle | hle
          · rw [max_eq_right hle]; simp
          · rw [max_eq_left hle]; simp
        · simp [h]
    · clear h
      induction xs generalizing x with
      | nil => simp
      | cons y ys ih =>
        simp only [List.foldl_cons]
        intro u hu
        have := ih (max x y)
        rcases List.mem_cons.mp hu with rfl | hu
        · exact le_trans (le_max_left u y) (this (max u y) (by simp))
        · rcases List.mem_cons.mp hu with rfl | hu
          · exact le_trans (le_max_right x u) (this (max x u) (by simp))
          · exact this u (by simp [hu])

/-- After the reduction all windows are the same and hold the maximum over the nodes. -/
theorem allReduceMaxMap_spec {ncells nn : Nat} (hnn : 0 < nn) {b : Nat → Int}
    {ops : List (Nat × Nat × Int)} {maps : List (List Int)}
    (h : Accumulated ncells nn (fun _ c => b c) ops maps)
    (hops : ∀ o ∈ ops, o.1 < nn) :
    ∃ row, allReduceMaxMap ncells maps = some (List.replicate nn row) ∧ row.length = ncells ∧
      ∀ c, c < ncells → ∃ v, row[c]? = some v ∧ IsMax (b c) (fun u => ∃ k, (k, c, u) ∈ ops) v := by
  obtain ⟨hl, hm⟩ := h
  have hcol : ∀ c ∈ List.range ncells, ∃ v,
      (forAllM (fun (m : List Int) => rd m c) maps).bind maxOf = some v ∧
        IsMax (b c) (fun u => ∃ k, (k, c, u) ∈ ops) v := by
    intro c hc
    rw [List.mem_range] at hc
    obtain ⟨vs, h1, h2⟩ := forAllM_exists (f := fun (m : List Int) => rd m c) (l := maps)
      (fun m v => m[c]? = some v) (by
        intro m hmm
        obtain ⟨k, hk, rfl⟩ := List.getElem_of_mem hmm
        obtain ⟨m, ha, hb, hc'⟩ := hm k (by omega)
        obtain ⟨v, hv, -⟩ := hc' c hc
        rw [List.getElem?_eq_getElem hk] at ha
        obtain rfl := Option.some.inj ha
        exact ⟨v, hv, hv⟩)
    have hvl := h2.length_eq
    obtain ⟨v, h3, h4, h5⟩ := maxOf_spec (l := vs) (by
      intro he; rw [he, List.length_nil] at hvl; omega)
    refine ⟨v, by rw [h1]; exact h3, ?_⟩
    -- each window has a value in `vs`
    have key : ∀ k, k < nn → ∃ u, vs[k]? = some u ∧ IsMax (b c) (fun u => (k, c, u) ∈ ops) u := by
      intro k hk
      obtain ⟨m, ha, hb, hc'⟩ := hm k hk
      obtain ⟨u, hu, hmax⟩ := hc' c hc
      have hkv : k < vs.length := by omega
      have hkm : k < maps.length := by omega
      have := h2.get hkm hkv
      simp only [List.get_eq_getElem] at this
      rw [List.getElem?_eq_getElem hkm] at ha
      obtain rfl := Option.some.inj ha
      rw [this] at hu
      obtain rfl := Option.some.inj hu
      exact ⟨_, List.getElem?_eq_getElem hkv, hmax⟩
    refine ⟨?_, ?_, ?_⟩
    · obtain ⟨k, hk, rfl⟩ := List.getElem_of_mem h4
      obtain ⟨u, hu, hmax⟩ := key k (by omega)
      rw [List.getElem?_eq_getElem hk] at hu
      obtain rfl := Option.some.inj hu
      exact hmax.mem.imp id fun hp => ⟨k, hp⟩
    · obtain ⟨u, hu, hmax⟩ := key 0 hnn
      exact le_trans hmax.base (h5 u (List.mem_of_getElem? hu))
    · rintro u ⟨k, hk⟩
      obtain ⟨w, hw, hmax⟩ := key k (hops _ hk)
      exact le_trans (hmax.ge u hk) (h5 w (List.mem_of_getElem? hw))
  obtain ⟨row, h1, h2⟩ := forAllM_exists _ hcol
  refine ⟨row, ?_, by have := h2.length_eq; simp at this; omega, ?_⟩
  · unfold allReduceMaxMap
    rw [h1, Option.bind_some]
    congr 1
    rw [List.map_const', hl]
  · intro c hc
    have hcr : c < row.length := by have := h2.length_eq; simp at this; omega
    have := h2.get (i := c) (by simpa using hc) hcr
    simp only [List.get_eq_getElem, List.getElem_range] at this
    exact ⟨_, List.getElem?_eq_getElem hcr, this⟩

theorem accumulated_replicate {ncells nn : Nat} {row : List Int} (h : row.length = ncells)
    (b : Nat → Int) (hb : ∀ c, c < ncells → row[c]? = some (b c)) :
    Accumulated ncells nn (fun _ c => b c) [] (List.replicate nn row) := by
  refine ⟨by simp, fun k hk => ⟨row, by simp [hk], h, fun c hc => ⟨b c, hb c hc, ?_⟩⟩⟩
  exact ⟨Or.inl rfl, le_refl _, by simp⟩

theorem binClaims_spec {row : List Int} {l : List (Int × Int)}
    (h : ∀ cl ∈ l, 0 ≤ cl.1 ∧ cl.1 < row.length) :
    ∃ b, binClaims row l = some b ∧
      ∀ cl, cl ∈ b ↔ cl ∈ l ∧ ∃ v, row[cl.1.toNat]? = some v ∧ v ≤ cl.2 := by
  induction l with
  | nil => exact ⟨[], rfl, by simp⟩
  | cons a l ih =>
    obtain ⟨b, h1, h2⟩ := ih (fun cl hcl => h cl (by simp [hcl]))
    obtain ⟨ha0, ha1⟩ := h a (by simp)
    have hlt : a.1.toNat < row.length := by omega
    unfold binClaims index
    rw [if_pos ha0]
    simp only [rd, Option.bind_some, h1]
    rw [List.getElem?_eq_getElem hlt, Option.bind_some]
    refine ⟨_, rfl, ?_⟩
    intro cl
    by_cases hle : row[a.1.toNat] ≤ a.2
    · rw [if_pos hle]
      simp only [List.mem_cons, h2]
      constructor
      · rintro (rfl | h)
        · exact ⟨Or.inl rfl, _, List.getElem?_eq_getElem hlt, hle⟩
        · exact ⟨Or.inr h.1, h.2⟩
      · rintro ⟨rfl | h, hv⟩
        · exact Or.inl rfl
        · exact Or.inr ⟨h, hv⟩
    · rw [if_neg hle]
      simp only [List.mem_cons, h2]
      constructor
      · exact fun h => ⟨Or.inr h.1, h.2⟩
      · rintro ⟨rfl | h, v, hv, hv2⟩
        · rw [List.getElem?_eq_getElem hlt] at hv
          obtain rfl := Option.some.inj hv
          exact absurd hv2 hle
        · exact ⟨h, v, hv, hv2⟩

end NP

namespace NP

/-- The accumulate operation that a claim stands for. -/
def claimOp (layout : NodeLayout) (e : Claim) : Nat × Nat × Int :=
  ((nodeOf layout e.rank).getD 0, e.cell.toNat, e.weight + mhMask)

theorem accumulated_init {layout : NodeLayout} {ncells : Nat} :
    Accumulated ncells layout.length (fun _ _ => mhMask) []
      (List.replicate layout.length (List.replicate ncells mhMask)) :=
  accumulated_replicate (by simp) (fun _ => mhMask) (by intro c hc; simp [hc])

theorem claimInitialise_spec {s : Nat → Sched} {layout : NodeLayout} {ncells : Nat}
    {w : ClaimState} (hv : Spec.ValidLayout layout)
    (hst : ∀ r ∈ layout.flatten, w.stackOf r = []) (hl : w.maps.length = layout.length)
    (hm : ∀ m ∈ w.maps, m.length = ncells) :
    claimInitialise s layout ncells w = some { w with
      maps := List.replicate layout.length (List.replicate ncells mhMask) } := by
  unfold claimInitialise
  rw [if_pos hst, forAllM_eq (g := fun _ => List.replicate ncells mhMask)]
  · simp only [Option.bind_some, List.map_const', List.length_range]
  · intro k hk
    rw [List.mem_range] at hk
    simp only [rd]
    rw [List.getElem?_eq_getElem hk, List.getElem?_eq_getElem (by omega : k < w.maps.length)]
    simp only [Option.bind_some]
    exact claimInitNode_spec _ (List.length_pos_of_ne_nil (hv.2.1 _ (List.getElem_mem hk)))
      (hm _ (List.getElem_mem _))

/-- The claims of all ranks: what the windows and the stacks hold afterwards. -/
theorem claims_spec {layout : NodeLayout} {ncells : Nat} {claims : List Claim}
    {w : ClaimState} (hc : ∀ e ∈ claims, Spec.ValidClaim layout ncells e)
    (hst : ∀ r ∈ layout.flatten, w.stackOf r = [])
    (hw : Accumulated ncells layout.length (fun _ _ => mhMask) [] w.maps) :
    ∃ w', runItems (claimCell layout) claims w = some w' ∧
      Accumulated ncells layout.length (fun _ _ => mhMask) (claims.map (claimOp layout)) w'.maps ∧
      (∀ r ∈ layout.flatten, ∀ cl, cl ∈ w'.stackOf r ↔
        ∃ e ∈ claims, e.rank = r ∧ cl = (e.cell, e.weight + mhMask)) := by
  refine runItems_invariant (items := claims)
    (P := fun pre (w : ClaimState) =>
      Accumulated ncells layout.length (fun _ _ => mhMask) (pre.map (claimOp layout)) w.maps ∧
      (∀ r ∈ layout.flatten, ∀ cl, cl ∈ w.stackOf r ↔
        ∃ e ∈ pre, e.rank = r ∧ cl = (e.cell, e.weight + mhMask))) ?_ ?_
  · rintro pre e post w' hcl ⟨h1, h2⟩
    obtain ⟨hr, h0, hlt, hw0, hw1⟩ := hc e (by rw [hcl]; simp)
    obtain ⟨k, hk, hk'⟩ := nodeOf_eq hr
    obtain ⟨maps', ha, hb⟩ := accumulateMax_spec h1 (v := e.weight + mhMask) hk' h0 hlt
    refine ⟨{
        maps := maps'
        stackOf := fun r =>
          if r = e.rank then (e.cell, e.weight + mhMask) :: w'.stackOf r else w'.stackOf r },
      ?_, ?_, ?_⟩
    · unfold claimCell
      rw [if_pos (by unfold mhMask; omega)]
      simp only [hk, Option.bind_some, ha]
    · simpa [claimOp, hk] using hb
    · intro r hr' cl
      simp only [List.mem_append, List.mem_singleton]
      by_cases hre : r = e.rank
      · subst hre
        simp only [if_true, List.mem_cons, h2 _ hr']
        constructor
        · rintro (rfl | ⟨e', h, h'⟩)
          · exact ⟨e, Or.inr rfl, rfl, rfl⟩
          · exact ⟨e', Or.inl h, h'⟩
        · rintro ⟨e', h | rfl, h', h''⟩
          · exact Or.inr ⟨e', h, h', h''⟩
          · exact Or.inl h''
      · simp only [if_neg hre, h2 r hr']
        constructor
        · rintro ⟨e', h, h'⟩
          exact ⟨e', Or.inl h, h'⟩
        · rintro ⟨e', h | rfl, h', h''⟩
          · exact ⟨e', h, h', h''⟩
          · exact absurd h'.symm hre
  · exact ⟨hw, by intro r hr cl; rw [hst r hr]; simp⟩

/-- The value that a cell has after `claim_finalise`. -/
def OwnerValue (claims : List Claim) (cell : Int) (v : Int) : Prop :=
  ((∀ e ∈ claims, e.cell ≠ cell) → v = mhMask) ∧
  ((∃ e ∈ claims, e.cell = cell) → ∃ r : Nat, v = (r : Int) ∧ Spec.IsOwner claims cell r)

theorem claimFinalise_spec {s : Sched} {layout : NodeLayout} {ncells : Nat}
    {claims : List Claim} {w : ClaimState} (hv : Spec.ValidLayout layout)
    (hc : ∀ e ∈ claims, Spec.ValidClaim layout ncells e)
    (hw : Accumulated ncells layout.length (fun _ _ => mhMask) (claims.map (claimOp layout)) w.maps)
    (hst : ∀ r ∈ layout.flatten, ∀ cl, cl ∈ w.stackOf r ↔
        ∃ e ∈ claims, e.rank = r ∧ cl = (e.cell, e.weight + mhMask)) :
    ∃ row, claimFinalise s layout ncells w = some {
        maps := List.replicate layout.length row
        stackOf := fun r => if r ∈ layout.flatten then [] else w.stackOf r } ∧
      row.length = ncells ∧
      ∀ c : Nat, c < ncells → ∃ v, row[c]? = some v ∧ OwnerValue claims c v := by
  have hnn : 0 < layout.length := List.length_pos_of_ne_nil hv.2.2
  have hnode : ∀ e ∈ claims, ∃ k, nodeOf layout e.rank = some k ∧ k < layout.length :=
    fun e he => nodeOf_eq (hc e he).1
  obtain ⟨row1, h1, h2, h3⟩ := allReduceMaxMap_spec hnn hw (by
    intro o ho
    obtain ⟨e, he, rfl⟩ := List.mem_map.mp ho
    obtain ⟨k, hk, hk'⟩ := hnode e he
    simpa [claimOp, hk] using hk')
  -- the maximum weight of the claims of each cell
  have hmax : ∀ c : Nat, c < ncells → ∃ v, row1[c]? = some v ∧
      IsMax mhMask (fun u => ∃ e ∈ claims, e.cell = c ∧ u = e.weight + mhMask) v := by
    intro c hcc
    obtain ⟨v, hv1, hv2⟩ := h3 c hcc
    refine ⟨v, hv1, hv2.congr ?_⟩
    intro u
    constructor
    · rintro ⟨e, he, hec, rfl⟩
      exact ⟨_, List.mem_map.mpr ⟨e, he, by simp [claimOp, hec]; rfl⟩⟩
    · rintro ⟨k, hk⟩
      obtain ⟨e, he, heq⟩ := List.mem_map.mp hk
      simp only [claimOp, Prod.mk.injEq] at heq
      have := (hc e he).2.1
      exact ⟨e, he, by omega, heq.2.2.symm⟩
  -- the claims that are kept
  obtain ⟨binned, h4, h5⟩ := forAllM_exists (l := layout.flatten)
    (f := fun r => (nodeOf layout r).bind fun k =>
      (rd (List.replicate layout.length row1) k).bind fun m =>
      (binClaims m (w.stackOf r)).bind fun b => some (b.map fun cl => (r, cl.1)))
    (fun r b => ∀ it : Nat × Int, it ∈ b ↔ it.1 = r ∧
      ∃ e ∈ claims, e.rank = r ∧ e.cell = it.2 ∧
        ∃ v, row1[e.cell.toNat]? = some v ∧ v ≤ e.weight + mhMask) (by
      intro r hr
      obtain ⟨k, hk, hk'⟩ := nodeOf_eq hr
      obtain ⟨b, hb1, hb2⟩ := binClaims_spec (row := row1) (l := w.stackOf r) (by
        intro cl hcl
        obtain ⟨e, he, -, rfl⟩ := (hst r hr cl).mp hcl
        have := hc e he
        exact ⟨this.2.1, by rw [h2]; exact this.2.2.1⟩)
      refine ⟨b.map fun cl => (r, cl.1), ?_, ?_⟩
      · simp only [hk, Option.bind_some, rd]
        rw [List.getElem?_replicate, if_pos hk', Option.bind_some, hb1]
        rfl
      · rintro ⟨r', cell⟩
        simp only [List.mem_map, hb2, hst r hr, Prod.mk.injEq]
        constructor
        · rintro ⟨cl, ⟨⟨e, he, her, rfl⟩, v, hv1, hv2⟩, rfl, rfl⟩
          exact ⟨rfl, e, he, her, rfl, v, hv1, hv2⟩
        · rintro ⟨rfl, e, he, her, rfl, v, hv1, hv2⟩
          exact ⟨(e.cell, e.weight + mhMask), ⟨⟨e, he, her, rfl⟩, v, hv1, hv2⟩, rfl, rfl⟩)
  have hbin : ∀ it : Nat × Int, it ∈ binned.flatten ↔ ∃ e ∈ claims, e.rank = it.1 ∧
      e.cell = it.2 ∧ ∃ v, row1[e.cell.toNat]? = some v ∧ v ≤ e.weight + mhMask := by
    intro it
    rw [List.mem_flatten]
    constructor
    · rintro ⟨b, hb, hit⟩
      obtain ⟨i, hi, rfl⟩ := List.getElem_of_mem hb
      have := h5.get (i := i) (by rw [h5.length_eq]; exact hi) hi
      simp only [List.get_eq_getElem] at this
      obtain ⟨he, e, he1, he2, he3⟩ := (this it).mp hit
      exact ⟨e, he1, by rw [he, he2], he3⟩
    · rintro ⟨e, he, her, hec⟩
      have hmem := (hc e he).1
      obtain ⟨i, hi, hie⟩ := List.getElem_of_mem hmem
      have hib : i < binned.length := by rw [← h5.length_eq]; exact hi
      have := h5.get (i := i) hi hib
      simp only [List.get_eq_getElem] at this
      exact ⟨binned[i], List.getElem_mem _, (this it).mpr
        ⟨by rw [hie, her], e, he, hie.symm, hec⟩⟩
  -- accumulating the ranks
  obtain ⟨b1, hb1⟩ : ∃ b1 : Nat → Int, ∀ c, c < ncells → row1[c]? = some (b1 c) := by
    refine ⟨fun c => (row1[c]?).getD 0, fun c hcc => ?_⟩
    have hlt : c < row1.length := by omega
    simp [List.getElem?_eq_getElem hlt]
  obtain ⟨maps2, h6, h7⟩ := runItems_invariant
    (step := fun (it : Nat × Int) maps => (nodeOf layout it.1).bind fun k =>
      accumulateMax maps k it.2 (it.1 : Int)) (items := s.order binned.flatten)
    (s := List.replicate layout.length row1)
    (P := fun pre maps => Accumulated ncells layout.length (fun _ c => b1 c)
      (pre.map fun it => ((nodeOf layout it.1).getD 0, it.2.toNat, (it.1 : Int))) maps) (by
      rintro pre it post maps hord hP
      have hit : it ∈ binned.flatten := (s.perm _).subset (by rw [hord]; simp)
      obtain ⟨e, he, her, hec, -⟩ := (hbin it).mp hit
      obtain ⟨k, hk, hk'⟩ := hnode e he
      rw [her] at hk
      have hval := hc e he
      obtain ⟨maps', ha, hb⟩ := accumulateMax_spec hP (cell := it.2) (v := (it.1 : Int)) hk'
        (by rw [← hec]; exact hval.2.1) (by rw [← hec]; exact hval.2.2.1)
      refine ⟨maps', ?_, ?_⟩
      · rw [hk]; exact ha
      · simpa [hk] using hb)
    (accumulated_replicate h2 b1 hb1)
  obtain ⟨row3, h8, h9, h10⟩ := allReduceMaxMap_spec hnn h7 (by
    intro o ho
    obtain ⟨it, hit, rfl⟩ := List.mem_map.mp ho
    obtain ⟨e, he, her, -⟩ := (hbin it).mp ((s.perm _).subset hit)
    obtain ⟨k, hk, hk'⟩ := hnode e he
    rw [her] at hk
    simpa [hk] using hk')
  refine ⟨row3, ?_, h9, ?_⟩
  · unfold claimFinalise
    rw [h1, Option.bind_some, h4, Option.bind_some, h6, Option.bind_some, h8, Option.bind_some]
  · intro c hcc
    obtain ⟨v, hv1, hv2⟩ := h10 c hcc
    obtain ⟨v1, hv3, hv4⟩ := hmax c hcc
    have hb1c : b1 c = v1 := by
      have := hb1 c hcc
      rw [hv3] at this
      exact (Option.some.inj this).symm
    have hv5 : IsMax v1 (fun u => ∃ e ∈ claims, e.cell = (c : Int) ∧ u = (e.rank : Int) ∧
        v1 ≤ e.weight + mhMask) v := by
      rw [hb1c] at hv2
      refine hv2.congr ?_
      intro u
      constructor
      · rintro ⟨e, he, hec, rfl, hle⟩
        refine ⟨(nodeOf layout e.rank).getD 0, List.mem_map.mpr ⟨(e.rank, e.cell), (s.perm _).mem_iff.mpr
          ((hbin _).mpr ⟨e, he, rfl, rfl, v1, ?_, hle⟩), ?_⟩⟩
        · rw [hec]; simpa using hv3
        · simp only [hec, Int.toNat_natCast]
      · rintro ⟨k, hk⟩
        obtain ⟨it, hit, heq⟩ := List.mem_map.mp hk
        simp only [Prod.mk.injEq] at heq
        obtain ⟨e, he, her, hec, v', hv', hle⟩ := (hbin it).mp ((s.perm _).subset hit)
        have hnn := (hc e he).2.1
        have hce : e.cell = (c : Int) := by rw [hec] at hnn ⊢; omega
        rw [hce, Int.toNat_natCast, hv3] at hv'
        obtain rfl := Option.some.inj hv'
        exact ⟨e, he, hce, by rw [← heq.2.2, her], hle⟩
    refine ⟨v, hv1, ?_, ?_⟩
    · intro hno
      have e1 : v1 = mhMask := hv4.mem.resolve_right (by
        rintro ⟨e, he, hec, -⟩; exact hno e he hec)
      have e2 : v = v1 := hv5.mem.resolve_right (by
        rintro ⟨e, he, hec, -⟩; exact hno e he hec)
      rw [e2, e1]
    · rintro ⟨e0, he0, hec0⟩
      have hgt := hv4.ge _ ⟨e0, he0, hec0, rfl⟩
      have hw0 := (hc e0 he0).2.2.2.1
      -- the maximal weight is one of the weights
      obtain ⟨e1, he1, hec1, hv1e⟩ := hv4.mem.resolve_left (by omega)
      have hw1 := (hc e1 he1).2.2.2.2
      have hrank1 := hv5.ge _ ⟨e1, he1, hec1, rfl, by omega⟩
      obtain ⟨e2, he2, hec2, hve2, hle2⟩ := hv5.mem.resolve_left (by
        unfold mhMask at hv1e; omega)
      refine ⟨e2.rank, hve2, e2, he2, rfl, hec2, ?_⟩
      intro e' he' hec'
      have h1' := hv4.ge _ ⟨e', he', hec', rfl⟩
      refine ⟨by omega, fun heq => ?_⟩
      have := hv5.ge _ ⟨e', he', hec', rfl, by rw [heq]; exact hle2⟩
      omega

end NP
