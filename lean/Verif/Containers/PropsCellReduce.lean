import Verif.Containers.LemmasCellReduce

/-!
# Reduction access to a `CellDatConst`

Model: Containers/ModelCellReduce.lean. Specification: Containers/SpecCellReduce.lean.
-/

set_option autoImplicit false

namespace NP

open Spec

variable {T : Type}

theorem range_mul_flatMap (Q L : Nat) :
    List.range (Q * L) = (List.range Q).flatMap fun q => (List.range L).map fun w => q * L + w := by
  induction Q with
  | zero => simp
  | succ Q ih =>
    rw [Nat.succ_mul, List.range_add, ih, List.range_succ, List.flatMap_append]
    simp

/-- The work items of a block are those of its work groups. -/
theorem pairs_groups (G Q L : Nat) :
    pairs G (Q * L) = (pairs G Q).flatMap fun g => (List.range L).map fun w => (g.1, g.2 * L + w) := by
  unfold pairs
  rw [List.flatMap_assoc]
  congr 1
  funext i
  rw [range_mul_flatMap, List.map_flatMap, List.flatMap_map]
  congr 1
  funext q
  rw [List.map_map]
  rfl

theorem collectM_some {ι β : Type _} {f : ι → Option (List β)} {is : List ι} {l : List β}
    (h : collectM f is = some l) : (∀ i ∈ is, f i = some ((f i).getD [])) ∧ l = is.flatMap fun i => (f i).getD [] := by
  induction is generalizing l with
  | nil => obtain rfl := Option.some.inj h; simp
  | cons i is ih =>
    obtain ⟨y, h1, h⟩ := Option.bind_eq_some_iff.1 h
    obtain ⟨ys, h2, h⟩ := Option.bind_eq_some_iff.1 h
    obtain rfl := Option.some.inj h
    obtain ⟨i1, i2⟩ := ih h2
    refine ⟨?_, ?_⟩
    · intro j hj
      rcases List.mem_cons.1 hj with rfl | hj
      · rw [h1]; rfl
      · exact i1 j hj
    · rw [List.flatMap_cons, h1, ← i2]; rfl

theorem visit_cell {counts : List Nat} {b : LoopBlock} {g : Nat × Nat} {l : List (Nat × Nat)}
    (h : itemVisitStrided counts b g = some l) : ∀ v ∈ l, v.1 = g.1 + b.offsetCell := by
  intro v hv
  obtain ⟨i, -, y, h1, h2⟩ := mem_of_collectM h hv
  obtain ⟨ok, -, h3⟩ := Option.bind_eq_some_iff.1 h1
  obtain rfl := Option.some.inj h3
  split at h2
  · rw [List.mem_singleton] at h2; rw [h2]
  · simp at h2

/-- Partial results can be combined in place of their parts. -/
theorem Spec.Laws.foldl_partial {op : T → T → T} {e : T} (h : Laws op e) {ι : Type} (gs : List ι) (p : ι → Prop)
    [DecidablePred p] (xs : ι → List T) (a : T) :
    (gs.flatMap fun g => if p g then [(xs g).foldl op e] else []).foldl op a =
      (gs.flatMap fun g => if p g then xs g else []).foldl op a := by
  induction gs generalizing a with
  | nil => rfl
  | cons g gs ih =>
    rw [List.flatMap_cons, List.flatMap_cons, List.foldl_append, List.foldl_append, ih]
    congr 1
    split
    · rw [h.foldl_out (xs g) a]; rfl
    · rfl

theorem filterMap_range_single {β : Type} (n i : Nat) (hi : i < n) (f : Nat → β) (base k : Nat)
    (hk : base + i = k) :
    ((List.range n).map fun ex => (base + ex, f ex)).filterMap
      (fun u => if u.1 = k then some u.2 else none) = [f i] := by
  subst hk
  rw [List.filterMap_map]
  have h1 : (List.range n).filterMap ((fun u : Nat × β => if u.1 = base + i then some u.2 else none) ∘
      fun ex => (base + ex, f ex)) = (List.range n).filterMap fun ex => if ex = i then some (f i) else none := by
    apply List.filterMap_congr
    intro ex _
    simp only [Function.comp]
    by_cases h : ex = i
    · subst h; simp
    · rw [if_neg h, if_neg (by omega)]
  rw [h1]
  clear h1
  induction n with
  | zero => omega
  | succ n ih =>
    rw [List.range_succ, List.filterMap_append]
    by_cases h : i = n
    · subst h
      have : (List.range i).filterMap (fun ex => if ex = i then some (f i) else none) = [] := by
        rw [List.filterMap_eq_nil_iff]
        intro ex hex
        rw [List.mem_range] at hex
        rw [if_neg (by omega)]
      rw [this]
      simp
    · rw [ih (by omega)]
      simp [Ne.symm h]

/-- A particle loop with reduction access: in each requested cell each entry becomes the old value combined
with every value that the kernel calls for the particles of the group or sub group in the cell combine
into it; entries of other cells do not change. For all occupancies, power of two work group sizes,
strides, bins and orders of work items and atomic updates. -/
theorem C67_reduction {op : T → T → T} {e : T} (h : Laws op e) (env : CellReduceEnv T) {npart : List Nat}
    {par : Parent} (hl : RowLoopOk env.P npart par) (hp : IsPow2 env.P.localSize) (hs : 0 < env.stride)
    {calls : Nat → Nat → List (Nat × Nat × T)} {out : CellConst T} (ho : OutOk npart out)
    (hcalls : ∀ c l, InParent npart par c l → ∀ x ∈ calls c l, x.1 < out.nrow ∧ x.2.1 < out.ncol)
    {cs ce : Option Int} (hcell : CellArgsOk npart.length cs ce) :
    ∃ out', cellReduceLoop op e env npart par calls cs ce out = some out' ∧ OutOk npart out' ∧
      out'.nrow = out.nrow ∧ out'.ncol = out.ncol ∧
      ∀ (c r k : Nat) (x : T), r < out.nrow → k < out.ncol → entry out c r k = some x →
        (CellRequested cs ce c →
          ∃ y, entry out' c r k = some y ∧ CombinesCalls op npart par calls c r k x y) ∧
        (¬ CellRequested cs ce c → entry out' c r k = some x) := by
  obtain ⟨L, pl, sl⟩ := built_spec hl.built
  have pf := parent_facts pl
  have hlen : (lens L).length = npart.length := by rw [← sl.1]; simp [lens]
  have hrow : ∀ (c : Nat) (row : List Nat), L[c]? = some row →
      row.Nodup ∧ ∃ n, npart[c]? = some n ∧ row.length ≤ n := by
    intro c row hc
    have hcn : c < npart.length := by rw [← sl.1]; exact lt_of_row hc
    obtain ⟨h1, h2⟩ := sl.2 c row npart[c] hc (List.getElem?_eq_getElem hcn)
    exact ⟨h1, npart[c], List.getElem?_eq_getElem hcn, row_length_le h1 h2⟩
  have hcounts : ∀ n ∈ lens L, n < 2 ^ 31 := by
    intro n hn
    obtain ⟨c, hc⟩ := List.mem_iff_getElem?.1 hn
    unfold lens at hc
    rw [List.getElem?_map, Option.map_eq_some_iff] at hc
    obtain ⟨row, hc, rfl⟩ := hc
    obtain ⟨-, n, hn1, hn2⟩ := hrow c row hc
    have := hl.counts n (List.mem_of_getElem? hn1)
    omega
  have hlaunch : LaunchOk env.P (lens L) true (lens L).sum :=
    ⟨hl.localSize, hl.localSizeInt, hl.nbin, hcounts, fun _ hz n hn => by
      have := le_sum_of_mem hn
      omega⟩
  obtain ⟨vis, v1, v2, v3⟩ := C08_strided_each_particle_once hlaunch hs (cs := cs) (ce := ce)
    (by rw [hlen]; exact hcell)
  unfold submitVisitsReduction at v1
  obtain ⟨blocks, hblocks, v1⟩ := Option.bind_eq_some_iff.1 v1
  have hbs := submitBlocks_localSize hp hblocks
  -- the visits of each work item
  obtain ⟨w1, w2⟩ := collectM_some v1
  let vf := fun (b : LoopBlock) (g : Nat × Nat) (w : Nat) =>
    (itemVisitStrided (lens L) b (g.1, g.2 * b.localSize + w)).getD []
  let lay := fun v : Nat × Nat => (par.layerAt v.1 v.2).getD 0
  have hgroups : ∀ b ∈ blocks, b.globalLayers % b.localSize = 0 ∧ b.localSize ≠ 0 ∧
      redGroups b = some (pairs b.globalCells (b.globalLayers / b.localSize)) ∧
      (blockVisitsStrided (lens L) b).getD [] = (pairs b.globalCells (b.globalLayers / b.localSize)).flatMap
        (fun g => (List.range b.localSize).flatMap (vf b g)) ∧
      ∀ g ∈ pairs b.globalCells (b.globalLayers / b.localSize), ∀ w, w < b.localSize →
        itemVisitStrided (lens L) b (g.1, g.2 * b.localSize + w) = some (vf b g w) := by
    intro b hb
    have hvb := w1 b hb
    unfold blockVisitsStrided at hvb
    obtain ⟨its, hi, hvb'⟩ := Option.bind_eq_some_iff.1 hvb
    unfold blockItems at hi
    split at hi
    · exact absurd hi (by simp)
    · rename_i hcon
      rw [not_or, not_not] at hcon
      obtain rfl := Option.some.inj hi
      have hQ : b.globalLayers = b.globalLayers / b.localSize * b.localSize := by
        have := Nat.div_add_mod b.globalLayers b.localSize
        rw [hcon.2, Nat.mul_comm] at this
        omega
      have hdec : pairs b.globalCells b.globalLayers =
          (pairs b.globalCells (b.globalLayers / b.localSize)).flatMap fun g =>
            (List.range b.localSize).map fun w => (g.1, g.2 * b.localSize + w) := by
        conv_lhs => rw [hQ]
        exact pairs_groups _ _ _
      obtain ⟨u1, u2⟩ := collectM_some hvb'
      refine ⟨hcon.2, hcon.1, ?_, ?_, ?_⟩
      · unfold redGroups
        rw [if_neg (by rw [not_or, not_not]; exact hcon)]
      · show (blockVisitsStrided (lens L) b).getD [] = _
        unfold blockVisitsStrided
        rw [u2, hdec, List.flatMap_assoc]
        congr 1
        funext g
        rw [List.flatMap_map]
      · intro g hg w hw
        exact u1 _ (by
          rw [hdec, List.mem_flatMap]
          exact ⟨g, hg, List.mem_map.2 ⟨w, List.mem_range.2 hw, rfl⟩⟩)
  have hvis : vis = blocks.flatMap fun b => (pairs b.globalCells (b.globalLayers / b.localSize)).flatMap
      fun g => (List.range b.localSize).flatMap (vf b g) := by
    rw [w2]
    apply List.flatMap_congr
    intro b hb
    exact (hgroups b hb).2.2.2.1
  have hlayv : ∀ v ∈ vis, par.layerAt v.1 v.2 = some (lay v) ∧ InParent npart par v.1 (lay v) := by
    intro v hv
    obtain ⟨-, n, hn, hk⟩ := (v3 v.1 v.2).1 hv
    unfold lens at hn
    rw [List.getElem?_map, Option.map_eq_some_iff] at hn
    obtain ⟨row, hr, rfl⟩ := hn
    have h1 : par.layerAt v.1 v.2 = some row[v.2] := by
      rw [pf.layer v.1 row v.2 hr hk, List.getElem?_eq_getElem hk]
    have h2 : lay v = row[v.2] := by simp only [lay, h1]; rfl
    rw [h2, inParent_iff pl]
    exact ⟨h1, row, hr, List.getElem_mem hk⟩
  have hsub : ∀ b ∈ blocks, ∀ g ∈ pairs b.globalCells (b.globalLayers / b.localSize), ∀ w,
      w < b.localSize → ∀ v ∈ vf b g w, v ∈ vis := by
    intro b hb g hg w hw v hv
    rw [hvis, List.mem_flatMap]
    refine ⟨b, hb, ?_⟩
    rw [List.mem_flatMap]
    refine ⟨g, hg, ?_⟩
    rw [List.mem_flatMap]
    exact ⟨w, List.mem_range.2 hw, hv⟩
  have hlt : ∀ {r k : Nat}, r < out.nrow → k < out.ncol → out.nrow * k + r < out.nrow * out.ncol := by
    intro r k hr hk
    have := entry_lt (n := 1) (c := 0) Nat.one_pos hr hk
    simpa using this
  -- the updates
  let val := fun (b : LoopBlock) (g : Nat × Nat) (ex : Nat) =>
    ((List.range b.localSize).flatMap (vf b g)).flatMap fun v => compVals out.nrow (calls v.1 (lay v)) ex
  let upd := fun (b : LoopBlock) (g : Nat × Nat) => (List.range (out.nrow * out.ncol)).map fun ex =>
      ((g.1 + b.offsetCell) * (out.nrow * out.ncol) + ex, (val b g ex).foldl op e)
  have hupd : collectM (fun b => (redGroups b).bind
      (collectM (redGroup op e env (par.dCounts npart) par calls out.nrow out.ncol b))) blocks =
      some (blocks.flatMap fun b => (pairs b.globalCells (b.globalLayers / b.localSize)).flatMap (upd b)) := by
    apply collectM_eq_flatMap
    intro b hb
    obtain ⟨-, -, g3, -, g5⟩ := hgroups b hb
    rw [g3, Option.bind_some]
    apply collectM_eq_flatMap
    intro g hg
    rw [pf.dCounts]
    exact redGroup_spec h env (lens L) par calls out.nrow out.ncol b g (hbs b hb).1 (hbs b hb).2
      hl.localSizeInt (vf b g) lay (g5 g hg)
      (fun w hw v hv => (hlayv v (hsub b hb g hg w hw v hv)).1)
      (fun w hw v hv x hx => by
        have := hcalls _ _ (hlayv v (hsub b hb g hg w hw v hv)).2 x hx
        exact hlt this.1 this.2)
  set updates := blocks.flatMap fun b => (pairs b.globalCells (b.globalLayers / b.localSize)).flatMap (upd b)
    with hup
  -- which cells have updates
  have hgcell : ∀ b ∈ blocks, ∀ g ∈ pairs b.globalCells (b.globalLayers / b.localSize),
      g.1 + b.offsetCell < npart.length := by
    intro b hb g hg
    obtain ⟨q1, q2, -, -, q5⟩ := hgroups b hb
    have hz := q5 g hg 0 (Nat.pos_of_ne_zero q2)
    unfold itemVisitStrided at hz
    have hst : b.stride = env.stride := by
      obtain ⟨bs', a, b', e1, e2, -⟩ := submitBlocks_covers hlaunch hs (cs := cs) (ce := ce)
        (by rw [hlen]; exact hcell)
      rw [hblocks] at e1
      obtain rfl := Option.some.inj e1
      exact e2.stride_eq b hb
    have h0 := (collectM_some hz).1 0 (List.mem_range.2 (by omega))
    obtain ⟨ok, h1, -⟩ := Option.bind_eq_some_iff.1 h0
    unfold workItemRequired at h1
    obtain ⟨n, h2, -⟩ := Option.bind_eq_some_iff.1 h1
    rw [← hlen]
    exact (List.getElem?_eq_some_iff.1 h2).1
  have hidx : ∀ u ∈ env.atomics.order updates, u.1 < out.data.length := by
    intro u hu
    rw [(env.atomics.perm _).mem_iff, hup, List.mem_flatMap] at hu
    obtain ⟨b, hb, hu⟩ := hu
    rw [List.mem_flatMap] at hu
    obtain ⟨g, hg, hu⟩ := hu
    obtain ⟨ex, hex, rfl⟩ := List.mem_map.1 hu
    rw [List.mem_range] at hex
    have := hgcell b hb g hg
    dsimp only
    rw [ho.data, ho.cells]
    calc (g.1 + b.offsetCell) * (out.nrow * out.ncol) + ex
        < (g.1 + b.offsetCell) * (out.nrow * out.ncol) + out.nrow * out.ncol := by omega
      _ = (g.1 + b.offsetCell + 1) * (out.nrow * out.ncol) := by ring
      _ ≤ npart.length * (out.nrow * out.ncol) := Nat.mul_le_mul_right _ this
  obtain ⟨data, d1, d2, d3⟩ := runItems_accumulate op (fun u : Nat × T => u.1) (fun u => u.2)
    (env.atomics.order updates) out.data hidx
  refine ⟨{ out with data := data }, ?_, ⟨ho.cells, by show data.length = _; rw [d2, ho.data]⟩, rfl, rfl, ?_⟩
  · unfold cellReduceLoop
    rw [if_pos ((isPowerOfTwo_iff _).2 hp), pf.counts, pf.total, hblocks, Option.bind_some, hupd,
      Option.bind_some]
    have hra : (redAtomic op : Nat × T → List T → Option (List T)) =
        fun i m => (rd m i.1).bind fun current => st m i.1 (op current i.2) := rfl
    rw [hra, d1, Option.bind_some]
  · intro c r k x hr hk hx
    have hbd := hlt hr hk
    -- the value of the entry
    have hval : entry ({ out with data := data } : CellConst T) c r k =
        some (((vis.filter fun v => v.1 = c).flatMap fun v => valuesFor (calls v.1 (lay v)) r k).foldl op x) := by
      unfold entry at hx ⊢
      show data[_]? = _
      rw [d3, hx, Option.map_some]
      congr 1
      rw [h.foldl_perm ((env.atomics.perm updates).filterMap _)]
      -- updates of this entry
      have e1 : updates.filterMap (fun u => if u.1 = c * (out.nrow * out.ncol) + (out.nrow * k + r) then some u.2 else none) =
          (blocks.flatMap fun b => (pairs b.globalCells (b.globalLayers / b.localSize)).map fun g => (b, g)).flatMap
            fun bg => if bg.2.1 + bg.1.offsetCell = c then [(val bg.1 bg.2 (out.nrow * k + r)).foldl op e] else [] := by
        rw [hup, List.filterMap_flatMap, List.flatMap_assoc]
        congr 1
        funext b
        rw [List.filterMap_flatMap, List.flatMap_map]
        congr 1
        funext g
        dsimp only
        by_cases hgc : g.1 + b.offsetCell = c
        · rw [if_pos hgc]
          exact filterMap_range_single _ (out.nrow * k + r) hbd (fun ex => (val b g ex).foldl op e) _ _ (by rw [hgc])
        · rw [if_neg hgc, List.filterMap_eq_nil_iff]
          intro u hu
          obtain ⟨ex, hex, rfl⟩ := List.mem_map.1 hu
          rw [List.mem_range] at hex
          rw [if_neg]
          intro hc
          exact hgc (lane_inj hex hbd hc).1
      rw [e1, h.foldl_partial]
      congr 1
      rw [hvis, List.flatMap_assoc]
      -- sum over the visits of the cell
      have e2 : ∀ b ∈ blocks, (((pairs b.globalCells (b.globalLayers / b.localSize)).map fun g => (b, g)).flatMap
            fun bg => if bg.2.1 + bg.1.offsetCell = c then val bg.1 bg.2 (out.nrow * k + r) else []) =
          ((pairs b.globalCells (b.globalLayers / b.localSize)).flatMap fun g =>
            ((List.range b.localSize).flatMap (vf b g)).filter fun v => v.1 = c).flatMap
              fun v => valuesFor (calls v.1 (lay v)) r k := by
        intro b hb
        rw [List.flatMap_map, List.flatMap_assoc]
        apply List.flatMap_congr
        intro g hg
        dsimp only
        have hcellv : ∀ v ∈ (List.range b.localSize).flatMap (vf b g), v.1 = g.1 + b.offsetCell ∧ v ∈ vis := by
          intro v hv
          rw [List.mem_flatMap] at hv
          obtain ⟨w, hw, hv⟩ := hv
          rw [List.mem_range] at hw
          exact ⟨visit_cell ((hgroups b hb).2.2.2.2 g hg w hw) v hv, hsub b hb g hg w hw v hv⟩
        by_cases hgc : g.1 + b.offsetCell = c
        · rw [if_pos hgc, List.filter_eq_self.2 fun v hv => by simp [(hcellv v hv).1, hgc]]
          show (((List.range b.localSize).flatMap (vf b g)).flatMap fun v =>
            compVals out.nrow (calls v.1 (lay v)) (out.nrow * k + r)) = _
          apply List.flatMap_congr
          intro v hv
          unfold compVals valuesFor
          apply List.filterMap_congr
          intro y hy
          obtain ⟨y1, y2⟩ := hcalls _ _ (hlayv v (hcellv v hv).2).2 y hy
          by_cases hyy : y.1 = r ∧ y.2.1 = k
          · rw [if_pos hyy, if_pos (by rw [hyy.1, hyy.2])]
          · rw [if_neg hyy, if_neg]
            intro hc
            obtain ⟨-, e3, e4⟩ := entry_inj (c := 0) (c' := 0) y1 y2 hr hk (by rw [hc])
            exact hyy ⟨e3, e4⟩
        · rw [if_neg hgc]
          have : ((List.range b.localSize).flatMap (vf b g)).filter (fun v => v.1 = c) = [] := by
            rw [List.filter_eq_nil_iff]
            intro v hv
            simp [(hcellv v hv).1, hgc]
          rw [this]
          rfl
      rw [List.filter_flatMap, List.flatMap_assoc]
      rw [List.flatMap_congr e2]
      congr 1
      funext b
      rw [List.filter_flatMap]
    constructor
    · intro hreq
      refine ⟨_, hval, ?_⟩
      intro layers hnd hlm
      -- the visits of the cell enumerate the particles
      have e3 : ((vis.filter fun v => v.1 = c).flatMap fun v => valuesFor (calls v.1 (lay v)) r k) =
          ((vis.filter fun v => v.1 = c).map lay).flatMap fun l => valuesFor (calls c l) r k := by
        rw [List.flatMap_map]
        apply List.flatMap_congr
        intro v hv
        have := (List.mem_filter.1 hv).2
        rw [decide_eq_true_eq] at this
        rw [this]
      have hperm : ((vis.filter fun v => v.1 = c).map lay).Perm layers := by
        have hcase : ∀ v ∈ vis.filter (fun v => v.1 = c), v.1 = c ∧ v ∈ vis ∧ ∃ row : List Nat, L[c]? = some row ∧
            row[v.2]? = some (lay v) := by
          intro v hv
          obtain ⟨h1, h2⟩ := List.mem_filter.1 hv
          rw [decide_eq_true_eq] at h2
          obtain ⟨-, n, hn, hkn⟩ := (v3 v.1 v.2).1 h1
          unfold lens at hn
          rw [List.getElem?_map, Option.map_eq_some_iff] at hn
          obtain ⟨row, hrw, rfl⟩ := hn
          have h3 := pf.layer v.1 row v.2 hrw hkn
          rw [(hlayv v h1).1] at h3
          exact ⟨h2, h1, row, by rw [← h2]; exact hrw, h3.symm⟩
        rw [List.perm_ext_iff_of_nodup _ hnd]
        · intro l
          rw [hlm, List.mem_map]
          constructor
          · rintro ⟨v, hv, rfl⟩
            obtain ⟨h1, h2, -⟩ := hcase v hv
            rw [← h1]
            exact (hlayv v h2).2
          · intro hin
            obtain ⟨row, hrw, hlr⟩ := (inParent_iff pl c l).1 hin
            obtain ⟨j, hj⟩ := List.mem_iff_getElem?.1 hlr
            have hjl := (List.getElem?_eq_some_iff.1 hj).1
            have hmem : (c, j) ∈ vis := (v3 c j).2 ⟨hreq, row.length, lens_get hrw, hjl⟩
            refine ⟨(c, j), List.mem_filter.2 ⟨hmem, by simp⟩, ?_⟩
            have h3 := pf.layer c row j hrw hjl
            rw [hj] at h3
            show (par.layerAt c j).getD 0 = l
            rw [h3]; rfl
        · apply List.Nodup.map_on _ (v2.filter _)
          intro a ha b hb hab
          obtain ⟨a1, -, row, ar, al⟩ := hcase a ha
          obtain ⟨b1, -, row', br, bl⟩ := hcase b hb
          rw [ar] at br
          obtain rfl := Option.some.inj br
          rw [← hab] at bl
          have := (hrow c row ar).1
          have hj := (List.getElem?_inj (List.getElem?_eq_some_iff.1 al).1 this).1 (al.trans bl.symm)
          exact Prod.ext (a1.trans b1.symm) hj
      rw [e3]
      exact h.foldl_perm (hperm.flatMap_right _) x
    · intro hreq
      rw [hval]
      have : vis.filter (fun v => v.1 = c) = [] := by
        rw [List.filter_eq_nil_iff]
        intro v hv hc
        rw [decide_eq_true_eq] at hc
        exact hreq (hc ▸ ((v3 v.1 v.2).1 hv).1)
      rw [this]
      rfl

/-- Work group sizes that are not powers of two are rejected before any kernel runs. -/
theorem C67_rejects {op : T → T → T} {e : T} {env : CellReduceEnv T} {npart : List Nat} {par : Parent}
    {calls : Nat → Nat → List (Nat × Nat × T)} {cs ce : Option Int} {out : CellConst T}
    (h : ¬ IsPow2 env.P.localSize) : cellReduceLoop op e env npart par calls cs ce out = none := by
  unfold cellReduceLoop
  rw [if_neg (fun hc => h ((isPowerOfTwo_iff _).1 hc))]

namespace Ex

/-- Work groups of four, two particles per work item, memory with a stray value. -/
def redLoopEnv : CellReduceEnv Int :=
  ⟨⟨1024, 2, 4⟩, 2, fun _ _ n => ⟨List.replicate n 7, by simp⟩, fun _ _ => Sched.reversed,
    fun _ _ => Sched.reversed, fun _ _ _ _ => Sched.inOrder, Sched.reversed⟩

/-- Each particle combines twice into the second column and once into the first. -/
def redCalls (c l : Nat) : List (Nat × Nat × Int) := [(0, 1, 10), (0, 0, c), (0, 1, l)]

theorem redLoop_ok : RowLoopOk redLoopEnv.P subCounts (.sub subSel) :=
  ⟨subSel_built, by decide, by decide, by decide, by decide⟩

end Ex

example : ∃ out', cellReduceLoop (fun a b : Int => a + b) 0 Ex.redLoopEnv Ex.subCounts (.sub Ex.subSel)
    Ex.redCalls none none Ex.redOut = some out' ∧ OutOk Ex.subCounts out' := by
  obtain ⟨out', h1, h2, -⟩ := C67_reduction Ex.plus_laws Ex.redLoopEnv Ex.redLoop_ok ⟨2, rfl⟩ (by decide)
    (calls := Ex.redCalls) Ex.redOut_ok (by
      intro c l _ x hx
      simp only [Ex.redCalls, List.mem_cons, List.not_mem_nil, or_false] at hx
      rcases hx with rfl | rfl | rfl <;> exact ⟨by show 0 < 1; decide, by first | (show 1 < 2; decide) | (show 0 < 2; decide)⟩) (cs := none) (ce := none) trivial
  exact ⟨out', h1, h2⟩

/-- Two particles of cell 0 (layers 2 and 0) and one of cell 2 (layer 0). -/
example : (cellReduceLoop (fun a b : Int => a + b) 0 Ex.redLoopEnv Ex.subCounts (.sub Ex.subSel)
    Ex.redCalls none none Ex.redOut).map CellConst.data = some [100, 222, 300, 400, 502, 610] := by
  decide +kernel

example : (cellReduceLoop (fun a b : Int => a + b) 0 Ex.redLoopEnv Ex.subCounts .whole
    Ex.redCalls (some 2) none Ex.redOut).map CellConst.data = some [100, 200, 300, 400, 504, 621] := by
  decide +kernel

end NP
