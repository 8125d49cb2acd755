import Verif.Mesh.LemmasMap

/-!
# C36 (global map), C65 (device mapper)
-/

set_option autoImplicit false

namespace NP

/-- **C36** A position inside the domain (ends included) is mapped, without error, to the
coarse and fine indices of the fine cell that contains it; the linear index of the cell is in
range; a position at the upper end of a dimension is in the last cell. -/
theorem C36_position_to_cell (g : MeshGeom) (hg : Spec.ValidGeom g) (p : List ℚ)
    (hp : Spec.InDomain g p) :
    ∃ t cell y, g.mapPosition p = some (t, false) ∧ g.mh.tupleToLinearGlobal t = some cell ∧
      0 ≤ cell ∧ cell < g.mh.ncellsGlobal ∧ Spec.IsCellAt g.mh y cell ∧
      Spec.CellContains g y p := by
  obtain ⟨t, cell, y, h1, -, h2, h3, h4, h5, h6⟩ := mapPosition_spec hg hp
  have := h2 []
  rw [List.append_nil] at this
  exact ⟨t, cell, y, h1, this, h3, h4, h5, h6⟩

/-- The cell that contains a position is unique. -/
theorem C36_cell_unique (g : MeshGeom) (hg : Spec.ValidGeom g) (p : List ℚ)
    (hp : Spec.InDomain g p) (y y' : List Int) (c c' : Int)
    (hy : Spec.IsCellAt g.mh y c) (hy' : Spec.IsCellAt g.mh y' c')
    (h : Spec.CellContains g y p) (h' : Spec.CellContains g y' p) : c = c' := by
  have hr := isCellAt_inRange hy
  have hr' := isCellAt_inRange hy'
  have hl : y.length = g.mh.dims.length := by have := hr.length; simpa using this
  have hl' : y'.length = g.mh.dims.length := by have := hr'.length; simpa using this
  have hyy : y = y' := by
    apply List.ext_getElem?
    intro d
    by_cases hd : d < g.mh.dims.length
    · have e0 := List.getElem?_eq_getElem hd
      have e1 := List.getElem?_eq_getElem (show d < g.origin.length by rw [hg.2.1]; exact hd)
      have e2 := List.getElem?_eq_getElem (show d < p.length by rw [hp.1]; exact hd)
      have e3 := List.getElem?_eq_getElem (show d < y.length by rw [hl]; exact hd)
      have e4 := List.getElem?_eq_getElem (show d < y'.length by rw [hl']; exact hd)
      have b1 := forall₂_get hr (by rw [List.getElem?_map, e0]; rfl) e3
      have b2 := forall₂_get hr' (by rw [List.getElem?_map, e0]; rfl) e4
      have c1 := h d _ _ _ _ e0 e1 e2 e3
      have c2 := h' d _ _ _ _ e0 e1 e2 e4
      rw [e3, e4]
      congr 1
      generalize y[d]'(by omega) = i at *
      generalize y'[d]'(by omega) = j at *
      generalize g.mh.dims[d] = n at *
      generalize p[d]'(by rw [hp.1]; exact hd) = x at *
      generalize g.origin[d]'(by rw [hg.2.1]; exact hd) = o at *
      have hw : 0 < Spec.fineWidth g := by unfold Spec.fineWidth; have := hg.2.2; positivity
      have hnf : g.mh.ncellsDimFine = 2 ^ g.mh.order := rfl
      rw [hnf] at b1 b2
      have hN : (n : ℚ) * g.width = ((n * 2 ^ g.mh.order : Int) : ℚ) * Spec.fineWidth g := by
        unfold Spec.fineWidth
        push_cast
        field_simp
      rw [hN] at c1 c2
      beta_reduce at b1 b2
      generalize n * 2 ^ g.mh.order = N at *
      have key : ∀ a b : Int, o + (a : ℚ) * Spec.fineWidth g < o + (b : ℚ) * Spec.fineWidth g →
          a < b := by
        intro a b hab
        have : (a : ℚ) * Spec.fineWidth g < (b : ℚ) * Spec.fineWidth g := by linarith
        exact_mod_cast lt_of_mul_lt_mul_right this hw.le
      rcases c1 with c1 | c1 <;> rcases c2 with c2 | c2
      · have k1 := key i (j + 1) (by push_cast; linarith [c1.1, c2.2])
        have k2 := key j (i + 1) (by push_cast; linarith [c1.2, c2.1])
        omega
      · have k1 := key N (i + 1) (by push_cast; linarith [c1.2, c2.1])
        omega
      · have k1 := key N (j + 1) (by push_cast; linarith [c2.2, c1.1])
        omega
      · omega
    · rw [List.getElem?_eq_none (by omega), List.getElem?_eq_none (by omega)]
  subst hyy
  exact isCellAt_unique hg.1 hy hy'

/-- **C36** `MeshHierarchyGlobalMap::execute`, for every order in which the three kernels run
and whatever their buffers held: if every particle without a rank in component 1 is inside
the domain then it gets, in component 0, the rank that owns the fine cell which contains it;
nothing else changes. `owner` is the completed map of owners. -/
theorem C36_execute (s0 s1 s2 : Sched) (f0 : Fresh (Nat × Nat)) (f1 : Fresh Int)
    (g : MeshGeom) (hg : Spec.ValidGeom g) (hd : g.mh.dims.length ≤ 3) (owner : List Int)
    (ho : (owner.length : Int) = g.mh.ncellsGlobal) (cells : List (List MapParticle))
    (hin : ∀ it p, rd2 cells it = some p → p.rank1 < 0 → Spec.InDomain g p.pos) :
    ∃ cells', globalMapExecute s0 s1 s2 f0 f1 g owner cells = some cells' ∧
      cells'.length = cells.length ∧
      (∀ it, rd2 cells it = none → rd2 cells' it = none) ∧
      (∀ it p, rd2 cells it = some p → ¬ p.rank1 < 0 → rd2 cells' it = some p) ∧
      (∀ it p, rd2 cells it = some p → p.rank1 < 0 →
        ∃ r y cell, rd2 cells' it = some { p with
            rank0 := r } ∧
          Spec.IsCellAt g.mh y cell ∧ Spec.CellContains g y p.pos ∧ 0 ≤ cell ∧
          owner[cell.toNat]? = some r) := by
  -- the items and those that are looked up
  have hmem : ∀ it, it ∈ s0.order (particleItems cells) ↔ ∃ p, rd2 cells it = some p := fun it =>
    ((s0.perm _).mem_iff).trans mem_particleItems
  have hnodup : (s0.order (particleItems cells)).Nodup :=
    (s0.perm _).nodup_iff.mpr particleItems_nodup
  have hlen : (particleItems cells).length = (s0.order (particleItems cells)).length :=
    (s0.perm _).length_eq.symm
  obtain ⟨nq, lookup, h1, h2, h3⟩ := lookup_spec (cells := cells)
    (items := s0.order (particleItems cells)) (arr := (f0 (particleItems cells).length).val)
    (fun it hit => (hmem it).mp hit) ((f0 _).property.trans hlen)
  generalize hF : (s0.order (particleItems cells)).filter (needsLookup cells) = F at h2 h3
  have hFmem : ∀ it, it ∈ F ↔ ∃ p, rd2 cells it = some p ∧ p.rank1 < 0 := by
    intro it
    rw [← hF, List.mem_filter, hmem]
    constructor
    · rintro ⟨⟨p, hp⟩, hn⟩
      exact ⟨p, hp, by simpa [needsLookup, hp] using hn⟩
    · rintro ⟨p, hp, hr⟩
      exact ⟨⟨p, hp⟩, by simp [needsLookup, hp, hr]⟩
  have hFnd : F.Nodup := by rw [← hF]; exact hnodup.filter _
  -- what is known of each query
  have hq : ∀ i, i < nq → ∃ it p t cell y, lookup[i]? = some it ∧ F[i]? = some it ∧
      rd2 cells it = some p ∧ p.rank1 < 0 ∧ g.mapPosition p.pos = some (t, false) ∧
      t.length = g.mh.ndim * 2 ∧ (∀ u, g.mh.tupleToLinearGlobal (t ++ u) = some cell) ∧
      0 ≤ cell ∧ cell < g.mh.ncellsGlobal ∧ Spec.IsCellAt g.mh y cell ∧
      Spec.CellContains g y p.pos := by
    intro i hi
    have hiF : i < F.length := by omega
    obtain ⟨p, hp, hr⟩ := (hFmem F[i]).mp (List.getElem_mem hiF)
    obtain ⟨t, cell, y, e1, e2, e3, e4, e5, e6, e7⟩ := mapPosition_spec hg (hin _ p hp hr)
    exact ⟨F[i], p, t, cell, y, by rw [h3 i hi, List.getElem?_eq_getElem hiF],
      List.getElem?_eq_getElem hiF, hp, hr, e1, e2, e3, e4, e5, e6, e7⟩
  choose! loc part tup cell y q1 q2 q3 q4 q5 q6 q7 q8 q9 q10 q11 using hq
  have hrange : ∀ s : Sched, ∀ i ∈ s.order (List.range nq), i < nq := fun s i hi => by
    have := (s.perm _).subset hi; simpa using this
  obtain ⟨indices, h4, h5, h6⟩ := mapKernel_spec (g := g) (cells := cells) (lookup := lookup)
    (items := s1.order (List.range nq)) (nq := nq) hd (hrange s1) (tup := tup)
    (fun i hi => q6 i hi) (fun i hi => ⟨loc i, part i hi, q1 i hi, q3 i hi, q5 i hi⟩)
    (arr := (f1 (nq * 6)).val) (f1 _).property
  -- the owners
  have hown : getOwners g.mh owner nq indices =
      some ((List.range nq).map fun i => (owner[(cell i).toNat]?).getD 0) := by
    unfold getOwners
    apply forAllM_eq
    intro i hi
    have hi' : i < nq := by simpa using hi
    obtain ⟨u, hu⟩ := h6 i ((s1.perm _).mem_iff.mpr hi)
    have hlt : (cell i).toNat < owner.length := by have := q9 i hi'; have := q8 i hi'; omega
    rw [hu, q7 i hi' u, Option.bind_some]
    unfold index
    rw [if_pos (q8 i hi'), Option.bind_some]
    simp only [rd]
    rw [List.getElem?_eq_getElem hlt]
    rfl
  obtain ⟨cells', h7, h8, h9, h10⟩ := writeRank_spec (cells := cells) (lookup := lookup)
    (ranks := (List.range nq).map fun i => (owner[(cell i).toNat]?).getD 0)
    (items := s2.order (List.range nq)) (nq := nq) (hrange s2)
    ((s2.perm _).nodup_iff.mpr List.nodup_range) (loc := loc) (fun i hi => q1 i hi)
    (fun i j hi hj he => by
      have a := q2 i hi
      have b := q2 j hj
      rw [he, ← b] at a
      exact (List.getElem?_inj (by omega : i < F.length) hFnd).mp a)
    (rk := fun i => (owner[(cell i).toNat]?).getD 0) (fun i hi => by simp [hi])
    (fun i hi => ⟨_, q3 i hi⟩)
  have hall : ∀ i, i < nq → i ∈ s2.order (List.range nq) := fun i hi =>
    (s2.perm _).mem_iff.mpr (by simpa using hi)
  refine ⟨cells', ?_, h8, ?_, ?_, ?_⟩
  · unfold globalMapExecute
    simp only
    rw [← hlen] at h1
    rw [h1, Option.bind_some]
    simp only
    rw [h4, Option.bind_some]
    simp only [Bool.false_eq_true, if_false]
    rw [hown, Option.bind_some]
    exact h7
  · intro it hnone
    rw [h10 it, hnone]
    intro i hi he
    have := q3 i (hrange s2 i hi)
    rw [he, hnone] at this
    cases this
  · intro it p hp hr
    rw [h10 it, hp]
    intro i hi he
    have h' := q3 i (hrange s2 i hi)
    rw [he, hp] at h'
    obtain rfl := Option.some.inj h'
    exact hr (q4 i (hrange s2 i hi))
  · intro it p hp hr
    obtain ⟨i, hi, hie⟩ := List.getElem_of_mem ((hFmem it).mpr ⟨p, hp, hr⟩)
    have hiq : i < nq := by omega
    have hloc : loc i = it := by
      have := q2 i hiq
      rw [List.getElem?_eq_getElem hi, hie] at this
      exact (Option.some.inj this).symm
    have hpart : part i hiq = p := by
      have := q3 i hiq
      rw [hloc, hp] at this
      exact (Option.some.inj this).symm
    have hlt : (cell i).toNat < owner.length := by have := q9 i hiq; have := q8 i hiq; omega
    refine ⟨(owner[(cell i).toNat]?).getD 0, y i, cell i, ?_, q10 i hiq, ?_, q8 i hiq, ?_⟩
    · have := h9 i (hall i hiq)
      rw [hloc, hp] at this
      exact this
    · have := q11 i hiq
      rw [hpart] at this
      exact this
    · rw [List.getElem?_eq_getElem hlt]
      rfl

/-- **C36** `reset_mpi_ranks` sets both components of every particle to -1 and changes
nothing else. -/
theorem C36_reset (s : Sched) (cells : List (List MapParticle)) :
    ∃ cells', resetMpiRanks s cells = some cells' ∧ cells'.length = cells.length ∧
      ∀ it, rd2 cells' it = (rd2 cells it).map fun p => ⟨p.pos, -1, -1⟩ := by
  obtain ⟨cells', h1, h2, h3, h4⟩ := runItems_invariant
    (step := fun it cells => (rd2 cells it).bind fun (p : MapParticle) => st2 cells it { p with
      rank0 := -1
      rank1 := -1 }) (items := s.order (particleItems cells)) (s := cells)
    (P := fun pre cells' => cells'.length = cells.length ∧
      (∀ it ∈ pre, rd2 cells' it = (rd2 cells it).map fun p => ⟨p.pos, -1, -1⟩) ∧
      ∀ it, it ∉ pre → rd2 cells' it = rd2 cells it) (by
      rintro pre it post cells1 heq ⟨h0, h1, h2⟩
      have hnd : (s.order (particleItems cells)).Nodup :=
        (s.perm _).nodup_iff.mpr particleItems_nodup
      have hnot : it ∉ pre := by
        intro hm
        rw [heq] at hnd
        exact (List.nodup_append.mp hnd).2.2 it hm it (by simp) rfl
      obtain ⟨p, hp⟩ := mem_particleItems.mp ((s.perm _).subset (by rw [heq]; simp :
        it ∈ s.order (particleItems cells)))
      have hp1 : rd2 cells1 it = some p := (h2 it hnot).trans hp
      obtain ⟨cells2, ha, hb, hc, hd⟩ := st2_spec (v := (⟨p.pos, -1, -1⟩ : MapParticle)) hp1
      refine ⟨cells2, by rw [hp1]; exact ha, hd.trans h0, ?_, ?_⟩
      · intro it' hit'
        rcases List.mem_append.mp hit' with hm | hm
        · rw [hc _ (by rintro rfl; exact hnot hm)]
          exact h1 it' hm
        · rw [List.mem_singleton] at hm
          subst hm
          rw [hb, hp]
          rfl
      · intro it' hit'
        rw [List.mem_append, List.mem_singleton, not_or] at hit'
        rw [hc _ hit'.2]
        exact h2 it' hit'.1)
    ⟨rfl, by simp, by simp⟩
  refine ⟨cells', h1, h2, fun it => ?_⟩
  by_cases hm : it ∈ s.order (particleItems cells)
  · exact h3 it hm
  · rw [h4 it hm]
    cases hr : rd2 cells it with
    | none => rfl
    | some p => exact absurd ((s.perm _).mem_iff.mpr (mem_particleItems.mpr ⟨p, hr⟩)) hm

/-- **C36** A position that is beyond the upper end of some dimension by more than the
relative tolerance sets the error flag, on which `execute` stops. -/
theorem C36_beyond_detected (g : MeshGeom) (hg : Spec.ValidGeom g) (p : List ℚ)
    (hp : p.length = g.mh.dims.length) (d : Nat) (n : Int) (o x : ℚ)
    (hn : g.mh.dims[d]? = some n) (ho : g.origin[d]? = some o) (hx : p[d]? = some x)
    (hbig : 1 / 10000000000 * (x - o) < x - o - n * g.width) :
    ∃ t, g.mapPosition p = some (t, true) := by
  obtain ⟨hm, hol, hw⟩ := hg
  have hdim : ∀ n : Int, n ∈ g.mh.dims → 0 < n := hm.2
  unfold MeshGeom.mapPosition
  generalize g.mh.ncellsDimFine = nf
  generalize g.width = w at *
  generalize g.mh.dims = ds at *
  generalize g.origin = os at *
  suffices h : ∃ cs fs, mapDims nf w ds os p = some (cs, fs, true) by
    obtain ⟨cs, fs, h⟩ := h
    exact ⟨cs ++ fs, by rw [h]; rfl⟩
  have htot : ∀ (ds : List Int) (os ps : List ℚ), os.length = ds.length → ps.length = ds.length →
      ∃ cs fs b, mapDims nf w ds os ps = some (cs, fs, b) := by
    intro ds
    induction ds with
    | nil => intro os ps _ _; exact ⟨[], [], false, by cases os <;> cases ps <;> rfl⟩
    | cons n ds ih =>
      intro os ps ho hp
      match os, ps, ho, hp with
      | o :: os, p :: ps, ho, hp =>
        obtain ⟨cs, fs, b, h⟩ := ih os ps (by simpa using ho) (by simpa using hp)
        refine ⟨(mapDim n nf w o p).coarse :: cs, (mapDim n nf w o p).fine :: fs,
          (mapDim n nf w o p).bad || b, ?_⟩
        unfold mapDims
        rw [h]
        rfl
  induction ds generalizing os p d with
  | nil => simp at hn
  | cons n' ds ih =>
    match os, p, hol, hp with
    | o' :: os, x' :: p, hol, hp =>
    cases d with
    | zero =>
      simp only [List.getElem?_cons_zero, Option.some.injEq] at hn ho hx
      subst hn ho hx
      obtain ⟨cs, fs, b, h⟩ := htot ds os p (by simpa using hol) (by simpa using hp)
      have hbad : (mapDim n' nf w o' x').bad = true := by
        have hnpos : (0 : ℚ) < n' := by exact_mod_cast hdim n' (by simp)
        have hext : 0 < (n' : ℚ) * w := by positivity
        have hpos : 0 < x' - o' := by
          by_contra hneg
          nlinarith
        have hgt : (n' : ℚ) * w < x' - o' := by nlinarith
        have hge : (n' : ℚ) ≤ (x' - o') * (1 / w) := by
          rw [mul_one_div, le_div_iff₀ hw]
          exact hgt.le
        have hc : truncZ ((x' - o') * (1 / w)) ≥ n' := by
          unfold truncZ
          rw [if_pos (by positivity)]
          exact Int.le_floor.mpr hge
        have htol : ¬ |x' - o' - n' * w| / |x' - o'| ≤ mapTol := by
          rw [abs_of_pos (by linarith : 0 < x' - o' - n' * w), abs_of_pos hpos,
            div_le_iff₀ hpos, not_le]
          exact hbig
        simp only [mapDim]
        rw [if_pos hc, if_neg htol]
        rfl
      refine ⟨(mapDim n' nf w o' x').coarse :: cs, (mapDim n' nf w o' x').fine :: fs, ?_⟩
      unfold mapDims
      rw [h]
      simp only [Option.bind_some, hbad, Bool.true_or]
    | succ d =>
      obtain ⟨cs, fs, h⟩ := ih p d (by simpa using hx) (by simpa using hp) (by simpa using hn)
        (fun m hm => hdim m (List.mem_cons_of_mem _ hm)) os (by simpa using ho)
        (by simpa using hol)
      refine ⟨(mapDim n' nf w o' x').coarse :: cs, (mapDim n' nf w o' x').fine :: fs, ?_⟩
      unfold mapDims
      rw [h]
      simp only [Option.bind_some, Bool.or_true]

/-- What C36 does not promise: a position below the origin is not rejected. Here, in two
dimensions with 2 by 2 cells of width one, the position (-1, 1) is given the cell of
(1, 0). -/
theorem C36_below_origin_not_rejected :
    (⟨⟨[2, 2], 0⟩, [0, 0], 1⟩ : MeshGeom).mapPosition [-1, 1] = some ([-1, 1, 0, 0], false) ∧
    (⟨[2, 2], 0⟩ : MeshHierarchy).tupleToLinearGlobal [-1, 1, 0, 0] =
      (⟨[2, 2], 0⟩ : MeshHierarchy).tupleToLinearGlobal [1, 0, 0, 0] := by
  refine ⟨?_, by decide⟩
  decide +kernel

namespace Ex

/-- A two dimensional mesh, 2 by 3 coarse cells of width 1/2 with 2 by 2 fine cells each. -/
def geom : MeshGeom := ⟨⟨[2, 3], 1⟩, [1, -1], 1 / 2⟩

example : Spec.ValidGeom geom := by
  refine ⟨⟨by decide, by decide⟩, by decide, ?_⟩
  show (0 : ℚ) < 1 / 2
  norm_num

example : geom.mapPosition [2, 0] = some ([1, 2, 1, 0], false) := by decide +kernel

example : Spec.InDomain geom [2, 0] := by
  refine ⟨rfl, ?_⟩
  intro d n o x hn ho hx
  match d, hn, ho, hx with
  | 0, hn, ho, hx =>
    simp [geom] at hn ho hx
    subst hn ho hx
    norm_num [geom]
  | 1, hn, ho, hx =>
    simp [geom] at hn ho hx
    subst hn ho hx
    norm_num [geom]
  | _ + 2, hn, _, _ => simp [geom] at hn

end Ex

/-- **C65** Converting between mesh hierarchy tuples and Cartesian tuples on the device:
the two functions are inverse to each other on in range tuples. -/
theorem C65_cart_tuples (mh : MeshHierarchy) :
    (∀ cs fs, Spec.InRange mh.dims cs →
      Spec.InRange (List.replicate mh.dims.length (2 ^ mh.order)) fs →
      ∃ x, mh.tupleToCart (cs ++ fs) = some x ∧ Spec.InRange (mh.dims.map (· * 2 ^ mh.order)) x ∧
        mh.cartToTuple x = some (cs ++ fs)) ∧
    (∀ x, Spec.InRange (mh.dims.map (· * 2 ^ mh.order)) x →
      ∃ cs fs, mh.cartToTuple x = some (cs ++ fs) ∧ Spec.InRange mh.dims cs ∧
        Spec.InRange (List.replicate mh.dims.length (2 ^ mh.order)) fs ∧
        mh.tupleToCart (cs ++ fs) = some x) := by
  have hnf := ncellsDimFine_pos (mh := mh)
  -- both functions in closed form
  have hto : ∀ cs fs : List Int, cs.length = mh.dims.length → fs.length = mh.dims.length →
      mh.tupleToCart (cs ++ fs) = some (cart mh.ncellsDimFine cs fs) := by
    intro cs fs hc hf
    unfold MeshHierarchy.tupleToCart
    rw [forAllM_eq (g := fun d => ((cart mh.ncellsDimFine cs fs)[d]?).getD 0)]
    · congr 1
      apply List.ext_getElem?
      intro d
      rw [List.getElem?_map]
      by_cases hd : d < mh.dims.length
      · have : d < (cart mh.ncellsDimFine cs fs).length := by
          simp [cart]; omega
        rw [List.getElem?_eq_getElem this]
        simp [MeshHierarchy.ndim, hd, List.getElem?_eq_getElem this]
      · have e1 : (cart mh.ncellsDimFine cs fs)[d]? = none :=
          List.getElem?_eq_none (by simp [cart]; omega)
        have e2 : (List.range mh.ndim)[d]? = none :=
          List.getElem?_eq_none (by simp [MeshHierarchy.ndim]; omega)
        rw [e1, e2]
        rfl
    · intro d hd
      have hd' : d < mh.dims.length := by simpa [MeshHierarchy.ndim] using hd
      have hcd : d < cs.length := by omega
      have hfd : d < fs.length := by omega
      simp only [rd]
      rw [show mh.ndim + d = cs.length + d by rw [hc]; rfl, List.getElem?_append_right (by omega),
        List.getElem?_append_left hcd, Nat.add_sub_cancel_left, List.getElem?_eq_getElem hcd,
        List.getElem?_eq_getElem hfd]
      have : (cart mh.ncellsDimFine cs fs)[d]? = some (cs[d] * mh.ncellsDimFine + fs[d]) := by
        unfold cart
        rw [List.getElem?_zipWith, List.getElem?_eq_getElem hcd, List.getElem?_eq_getElem hfd]
      rw [this]
      simp [add_comm]
  have hof : ∀ x : List Int, x.length = mh.dims.length → mh.cartToTuple x =
      some (x.map (·.tdiv mh.ncellsDimFine) ++ x.map (·.tmod mh.ncellsDimFine)) := by
    intro x hx
    have key : ∀ f : Int → Int, forAllM (fun d => (rd x d).bind fun c => some (f c))
        (List.range mh.ndim) = some (x.map f) := by
      intro f
      rw [forAllM_eq (g := fun d => f ((x[d]?).getD 0))]
      · congr 1
        apply List.ext_getElem?
        intro d
        by_cases hd : d < mh.dims.length
        · have : d < x.length := by omega
          simp [MeshHierarchy.ndim, hd, List.getElem?_eq_getElem this]
        · rw [List.getElem?_eq_none (by simp [MeshHierarchy.ndim]; omega),
            List.getElem?_eq_none (by simp; omega)]
      · intro d hd
        have hd' : d < x.length := by
          rw [hx]; simpa [MeshHierarchy.ndim] using hd
        simp [rd, List.getElem?_eq_getElem hd']
    unfold MeshHierarchy.cartToTuple
    rw [key (·.tdiv mh.ncellsDimFine), Option.bind_some, key (·.tmod mh.ncellsDimFine),
      Option.bind_some]
  -- taking a cell apart and putting it together
  have hsplit : ∀ cs fs : List Int, Spec.InRange mh.dims cs →
      Spec.InRange (List.replicate mh.dims.length mh.ncellsDimFine) fs →
      (cart mh.ncellsDimFine cs fs).map (·.tdiv mh.ncellsDimFine) = cs ∧
      (cart mh.ncellsDimFine cs fs).map (·.tmod mh.ncellsDimFine) = fs := by
    intro cs fs hc hf
    generalize mh.dims = ds at hc hf
    generalize mh.ncellsDimFine = nf at hf hnf
    induction ds generalizing cs fs with
    | nil => cases hc; cases hf; exact ⟨rfl, rfl⟩
    | cons n ds ih =>
      obtain ⟨c, cs, h1, h2, rfl⟩ := List.forall₂_cons_left_iff.mp hc
      rw [List.length_cons, List.replicate_succ] at hf
      obtain ⟨f, fs, h3, h4, rfl⟩ := List.forall₂_cons_left_iff.mp hf
      obtain ⟨i1, i2⟩ := ih cs fs h2 h4
      have hnn : 0 ≤ c * nf + f := by
        have : 0 ≤ c * nf := mul_nonneg h1.1 (by omega)
        omega
      simp only [cart, List.zipWith_cons_cons, List.map_cons, List.cons.injEq]
      refine ⟨⟨?_, i1⟩, ?_, i2⟩
      · rw [Int.tdiv_eq_ediv_of_nonneg hnn, add_comm, Int.add_mul_ediv_right _ _ (by omega),
          Int.ediv_eq_zero_of_lt h3.1 h3.2, zero_add]
      · rw [Int.tmod_eq_emod_of_nonneg hnn, add_comm, Int.add_mul_emod_self_right,
          Int.emod_eq_of_lt h3.1 h3.2]
  constructor
  · intro cs fs hc hf
    have hcl := hc.length
    have hfl : fs.length = mh.dims.length := by have := hf.length; simpa using this
    refine ⟨_, hto cs fs hcl hfl, cart_inRange hc hf, ?_⟩
    rw [hof _ (by simp [cart]; omega), (hsplit cs fs hc hf).1, (hsplit cs fs hc hf).2]
  · intro x hx
    obtain ⟨cs, fs, h1, h2, h3⟩ := exists_cart hnf hx
    have hxl : x.length = mh.dims.length := by have := hx.length; simpa using this
    have hfl : fs.length = mh.dims.length := by have := h2.length; simpa using this
    refine ⟨cs, fs, ?_, h1, h2, ?_⟩
    · rw [hof x hxl, ← h3, (hsplit cs fs h1 h2).1, (hsplit cs fs h1 h2).2]
    · rw [hto cs fs h1.length hfl, h3]

/-- **C65** The index without truncation is the index of the cell that contains the position,
for positions at or above the origin, and for positions below the origin that are not on a
cell boundary. -/
theorem C65_no_trunc_partial (nf : Int) (hnf : 0 < nf) (w o p : ℚ) (hw : 0 < w)
    (h : o ≤ p ∨ ∀ k : Int, p ≠ o + k * (w / nf)) :
    o + (cartIndexNoTrunc nf w o p : ℚ) * (w / nf) ≤ p ∧
    p < o + ((cartIndexNoTrunc nf w o p : ℚ) + 1) * (w / nf) := by
  have hnfq : (0 : ℚ) < nf := by exact_mod_cast hnf
  have hwf : 0 < w / nf := by positivity
  unfold cartIndexNoTrunc
  simp only
  by_cases hlt : p < o
  · rw [if_pos hlt]
    have hk := h.resolve_left (by linarith)
    have hq : 0 ≤ (o - p) * ((nf : ℚ) / w) := mul_nonneg (by linarith) (by positivity)
    have hmul : (o - p) * ((nf : ℚ) / w) * (w / nf) = o - p := by field_simp
    rw [truncZ_of_nonneg hq]
    have h1 := mul_le_mul_of_nonneg_right (Int.floor_le ((o - p) * ((nf : ℚ) / w))) hwf.le
    have h2 := mul_lt_mul_of_pos_right (Int.lt_floor_add_one ((o - p) * ((nf : ℚ) / w))) hwf
    have hne := hk (-⌊(o - p) * ((nf : ℚ) / w)⌋)
    rw [hmul] at h1 h2
    generalize ⌊(o - p) * ((nf : ℚ) / w)⌋ = k at *
    push_cast at *
    constructor
    · nlinarith
    · have : p ≠ o + -(k : ℚ) * (w / nf) := hne
      rcases lt_or_gt_of_ne this with hl | hl
      · calc p < o + -(k : ℚ) * (w / nf) := hl
          _ = o + (-(k + 1 : ℚ) + 1) * (w / nf) := by ring
      · exfalso; nlinarith
  · rw [if_neg hlt]
    have hq : 0 ≤ (p - o) * ((nf : ℚ) / w) := mul_nonneg (by linarith) (by positivity)
    have hmul : (p - o) * ((nf : ℚ) / w) * (w / nf) = p - o := by field_simp
    rw [truncZ_of_nonneg hq]
    have h1 := mul_le_mul_of_nonneg_right (Int.floor_le ((p - o) * ((nf : ℚ) / w))) hwf.le
    have h2 := mul_lt_mul_of_pos_right (Int.lt_floor_add_one ((p - o) * ((nf : ℚ) / w))) hwf
    rw [hmul] at h1 h2
    constructor <;> linarith

/-- **C65** On a cell boundary below the origin the result is one too small: the position
-1 with cells of width one is at the lower end of cell -1, the function returns -2. -/
theorem C65_no_trunc_off_by_one : cartIndexNoTrunc 1 1 0 (-1) = -2 := by decide +kernel

example : cartIndexNoTrunc 2 1 0 (-3 / 4) = -2 := by decide +kernel
example : (⟨[2, 3], 1⟩ : MeshHierarchy).tupleToCart [1, 2, 1, 0] = some [3, 4] := by decide

end NP
