import Verif.Group.LemmasProductAdd
import Verif.Group.Examples
import Verif.Containers.PropsCellReduce

/-!
# C20: products are added as described
-/

set_option autoImplicit false

namespace NP

open Spec

/-- **C20.** A product matrix, with or without parents, is added product by product: each
product whose cell exists becomes one particle in that cell, after the particles that were
there, with the values described by `productParticle`; products whose cell does not exist
(`-1`: no parent) are not added.

Partial: if the matrix has the cell id property, the INT properties before it must have one
component each; otherwise the code uses another column as the cells
(`C20_cell_from_wrong_column`). -/
theorem C20_products_partial (e : Env) {g : Group} (hg : Consistent g) {pm : ProdMatrix}
    (hm : MatrixOk pm) (hf : MatrixFits g pm) {par : Option Parents}
    (hpar : ∀ p, par = some p → ParentsOk g pm p)
    (hfirst : ∀ j, propertyIndex pm.int.spec.props g.cellSym = some j →
      ∀ k q, k < j → pm.int.spec.props[k]? = some q → q.2 = 1) :
    ∃ g', addProducts e g pm par = some g' ∧ Consistent g' ∧ SameShape g g' ∧
      g'.version = g.version + 1 ∧
      ∀ c, c < g.ncell → ∃ l, contents g' c = contents g c ++ l ∧
        l.Perm (((List.range pm.num).filter fun i => productCell g pm par i == some (c : Int)).map
          (productParticle g pm par)) := by
  have hn := hm.names
  rw [List.map_append, List.nodup_append] at hn
  by_cases h0 : pm.num = 0
  · exact addProducts_spec e hg hm hf hpar (cells := []) (by rw [h0]; rfl)
      (fun i hi => by omega) (fun h => absurd h0 h)
  have hsym := symIndex_eq pm.int.spec g.cellSym hn.2.1
  cases hj : propertyIndex pm.int.spec.props g.cellSym with
  | none =>
    rw [hj] at hsym
    cases par with
    | none =>
      refine addProducts_spec e hg hm hf hpar (cells := List.replicate pm.num 0)
        List.length_replicate (fun i hi => ?_) (fun _ => ?_)
      · unfold productCell
        rw [hj, List.getElem?_replicate, if_pos hi]
      · unfold productCells
        rw [hsym]
        rfl
    | some p =>
      have hl := (hpar p rfl).cells
      obtain ⟨cells, hsl⟩ : ∃ cells, slice p.cells 0 pm.num = some cells :=
        ⟨_, slice_eq_some (m := p.cells) (Nat.zero_le pm.num) hl⟩
      refine addProducts_spec e hg hm hf hpar (cells := cells)
        (by have := length_of_slice hsl; omega) (fun i hi => ?_) (fun _ => ?_)
      rotate_left
      · unfold productCells
        rw [hsym]
        exact hsl
      · unfold productCell
        rw [hj]
        have := getElem?_of_slice hsl i (by omega)
        rw [this, Nat.zero_add]
  | some j =>
    rw [hj] at hsym
    obtain ⟨n, hjn⟩ := propertyIndex_some hj
    obtain ⟨mem, calls, hI⟩ := hm.int
    have hs := prodRun_shape hI
    have hroom := prodRun_room hI (by dsimp only; omega)
    dsimp only at hs hroom
    have hn1 : 0 < n := by
      obtain ⟨d, hd, e1, e2⟩ := hf (g.cellSym, n)
        (List.mem_append_right _ (List.mem_of_getElem? hjn))
      obtain ⟨d', hd', e1', e2'⟩ := hg.cell
      have : d = d' := List.inj_on_of_nodup_map hg.nodup hd hd' (by rw [e1, e1'])
      subst this
      dsimp only at e2
      omega
    have hcol : prodCol pm.int.spec.props j 0 = j := by
      unfold prodCol
      rw [Nat.add_zero]
      have hjl := (List.getElem?_eq_some_iff.1 hjn).1
      have hall : (pm.int.spec.props.map Prod.snd).take j = List.replicate j 1 := by
        rw [List.eq_replicate_iff]
        refine ⟨by rw [List.length_take, List.length_map]; omega, fun b hb => ?_⟩
        obtain ⟨k, hk⟩ := List.mem_iff_getElem?.1 hb
        have hkj : k < j := by
          have := (List.getElem?_eq_some_iff.1 hk).1
          rw [List.length_take] at this
          omega
        rw [List.getElem?_take_of_lt hkj, List.getElem?_map] at hk
        obtain ⟨q, hq, rfl⟩ := Option.map_eq_some_iff.1 hk
        exact hfirst j hj k q hkj hq
      rw [hall, List.sum_replicate, smul_eq_mul, Nat.mul_one]
    have hlt := prodCol_lt (component := 0) hjn hn1
    rw [hcol] at hlt
    have hle : pm.num * j + pm.num ≤ pm.int.data.length := by
      refine le_trans ?_ hroom
      rw [← Nat.mul_succ]
      exact Nat.mul_le_mul_left _ hlt
    obtain ⟨cells, hsl⟩ : ∃ cells,
        slice pm.int.data (pm.num * j) (pm.num * j + pm.num) = some cells :=
      ⟨_, slice_eq_some (m := pm.int.data) (show pm.num * j ≤ pm.num * j + pm.num by omega) hle⟩
    refine addProducts_spec e hg hm hf hpar (cells := cells)
      (by have := length_of_slice hsl; omega) (fun i hi => ?_) (fun _ => ?_)
    rotate_left
    · unfold productCells
      rw [hsym]
      exact hsl
    · unfold productCell
      rw [hj]
      have := getElem?_of_slice hsl i (by omega)
      rw [this]
      dsimp only
      rw [hs.read (t := ⟨i, j, 0⟩) ⟨hi, _, hjn, hn1⟩]
      congr 1
      unfold prodPos
      dsimp only
      rw [hcol, Nat.mul_comm]

/-- **C20.** Descendant products without cell ids in the matrix: every product for which
`set_parent` was called becomes one particle in the cell of its parent, with the values of the
matrix for the properties of the matrix and those of the parent for its other properties;
products without a parent are not added. -/
theorem C20_descendants (e : Env) {g : Group} (hg : Consistent g) {pm : ProdMatrix}
    (hm : MatrixOk pm) (hf : MatrixFits g pm)
    (hcell : ∀ q ∈ pm.int.spec.props, q.1 ≠ g.cellSym)
    {d0 d : DescParents} {memC memL : Fresh Int} {parents : Nat} {calls : List ParentCall}
    (hcalls : ∀ x ∈ calls, x.sub < parents ∧ x.product < d0.perParent)
    (hd : (d0.reset memC memL parents).bind (runItems DescParents.call calls) = some d)
    (hnum : pm.num = parents * d0.perParent) (source : Option Group)
    (hsrc : ∀ gs, source = some gs → Consistent gs ∧ CommonComps g.dats gs.dats)
    (hex : ∀ x ∈ calls, x.cell < (source.getD g).ncell ∧ x.layer < count (source.getD g) x.cell) :
    ∃ g', addProducts e g pm (some (descSource d g source)) = some g' ∧ Consistent g' ∧
      SameShape g g' ∧ g'.version = g.version + 1 ∧
      ∀ c, c < g.ncell → ∃ l, contents g' c = contents g c ++ l ∧
        l.Perm (descendants g pm (source.getD g) calls parents d0.perParent c) := by
  have hidx : propertyIndex pm.int.spec.props g.cellSym = none := by
    unfold propertyIndex
    rw [List.findIdx?_eq_none_iff]
    intro q hq
    rw [beq_eq_false_iff_ne]
    exact hcell q hq
  obtain ⟨d', a1, a2, a3, a4⟩ := C19_parents d0 memC memL parents calls hcalls
  rw [hd] at a1
  cases a1
  -- rows of the matrix
  have hsplit : ∀ i, i < pm.num → ∃ sub product, sub < parents ∧ product < d0.perParent ∧
      i = descRow parents sub product := by
    intro i hi
    rw [hnum] at hi
    have hp : 0 < parents := by
      rcases Nat.eq_zero_or_pos parents with h | h
      · subst h; omega
      · exact h
    refine ⟨i % parents, i / parents, Nat.mod_lt _ hp, ?_, ?_⟩
    · rw [Nat.div_lt_iff_lt_mul hp, Nat.mul_comm]; exact hi
    · unfold descRow
      have := Nat.mod_add_div i parents
      rw [Nat.mul_comm] at this
      omega
  have hlenC : pm.num ≤ d.cells.length ∧ pm.num ≤ d.layers.length := by
    rcases Nat.eq_zero_or_pos pm.num with h | h
    · omega
    · obtain ⟨sub, product, b1, b2, b3⟩ := hsplit (pm.num - 1) (by omega)
      obtain ⟨c1, c2⟩ := a4 sub product b1 b2
      rw [← b3] at c1 c2
      have := (List.getElem?_eq_some_iff.1 c1).1
      have := (List.getElem?_eq_some_iff.1 c2).1
      omega
  have hmemcalls : ∀ sub product p, parentOf calls sub product = some p →
      ∃ x ∈ calls, p = (x.cell, x.layer) := by
    intro sub product p hp
    unfold parentOf at hp
    obtain ⟨x, hx, hxp⟩ := Option.map_eq_some_iff.1 hp
    exact ⟨x, (List.mem_filter.1 (List.mem_of_getLast? hx)).1, hxp.symm⟩
  have hpcell : ∀ i, productCell g pm (some (descSource d g source)) i = d.cells[i]? := by
    intro i
    unfold productCell
    rw [hidx]
    rfl
  have hpc2 : ∀ sub product (c : Nat), sub < parents → product < d0.perParent →
      (productCell g pm (some (descSource d g source)) (descRow parents sub product) =
        some (c : Int) ↔ ∃ k, parentOf calls sub product = some (c, k)) := by
    intro sub product c hs hp
    rw [hpcell, (a4 sub product hs hp).1]
    cases hpo : parentOf calls sub product with
    | none =>
      simp only [Option.elim_none, Option.some.injEq]
      constructor
      · intro h; omega
      · rintro ⟨k, hk⟩; cases hk
    | some p =>
      simp only [Option.elim_some, Option.some.injEq]
      constructor
      · intro h
        exact ⟨p.2, Prod.ext (by dsimp only; omega) rfl⟩
      · rintro ⟨k, hk⟩
        rw [hk]
  have hsm : sourceMem g (descSource d g source).src = (source.getD g).mem := by
    cases source <;> rfl
  have hparOk : ParentsOk g pm (descSource d g source) := by
    refine ⟨hlenC.1, hlenC.2, fun i c hi hc hcell => ?_⟩
    obtain ⟨sub, product, b1, b2, rfl⟩ := hsplit i hi
    obtain ⟨k, hk⟩ := (hpc2 sub product c b1 b2).1 hcell
    obtain ⟨x, hx, hxp⟩ := hmemcalls _ _ _ hk
    obtain ⟨e1, e2⟩ := hex x hx
    cases hxp
    obtain ⟨c1, c2⟩ := a4 sub product b1 b2
    rw [hk] at c1 c2
    refine ⟨x.cell, x.layer, c1, c2, fun sj hsj hmem => ?_, ?_⟩
    · rw [hsm]
      obtain ⟨ds, hds, hsym⟩ := List.mem_map.1 hmem
      change ds ∈ (source.getD g).dats at hds
      obtain ⟨dg, hdg, f1, f2⟩ := mem_flatComps.1 hsj
      have hcons : Consistent (source.getD g) ∧ dg.ncomp = ds.ncomp := by
        cases source with
        | none =>
          have : ds = dg := List.inj_on_of_nodup_map hg.nodup hds hdg (by rw [hsym, f1])
          subst this
          exact ⟨hg, rfl⟩
        | some gs =>
          obtain ⟨g1, g2⟩ := hsrc gs rfl
          exact ⟨g1, g2 dg hdg ds hds (by rw [f1, hsym])⟩
      have hok := hcons.1.dats ds hds
      have hcnt := get_getD hcons.1.len e1
      obtain ⟨r, hr⟩ := exists_at hok.mem.nrow_len e1
      obtain ⟨al, hal⟩ := exists_at hok.mem.alloc_len e1
      have h1 := hok.rows _ _ _ hcnt hr
      have h2 := hok.mem.le _ _ _ hr hal
      unfold count at e2
      have := hok.mem.alloc _ _ sj.2 x.layer hal (by omega) (by omega)
      rw [hsym] at this
      exact this
    · cases source with
      | none => exact ⟨e1, e2⟩
      | some gs => trivial
  obtain ⟨g', r1, r2, r3, r4, r5⟩ := C20_products_partial e hg hm hf
    (par := some (descSource d g source)) (fun p hp => by cases hp; exact hparOk)
    (fun j hj => by rw [hidx] at hj; cases hj)
  refine ⟨g', r1, r2, r3, r4, fun c hc => ?_⟩
  obtain ⟨l, s1, s2⟩ := r5 c hc
  refine ⟨l, s1, ?_⟩
  have hlist : ((List.range pm.num).filter fun i =>
      productCell g pm (some (descSource d g source)) i == some (c : Int)).map
        (productParticle g pm (some (descSource d g source))) =
      descendants g pm (source.getD g) calls parents d0.perParent c := by
    unfold descendants
    rw [hnum, Nat.mul_comm, range_mul_flatMap, List.filter_flatMap, List.map_flatMap]
    rw [List.flatMap_def, List.flatMap_def]
    congr 1
    apply List.map_congr_left
    intro product hp
    rw [List.mem_range] at hp
    rw [List.filter_map, List.map_map, ← List.filterMap_eq_map, ← List.filterMap_eq_filter,
      List.filterMap_filterMap]
    apply List.filterMap_congr
    intro sub hs
    rw [List.mem_range] at hs
    have hrow : product * parents + sub = descRow parents sub product := by
      unfold descRow; omega
    have hiff := hpc2 sub product c hs hp
    simp only [Function.comp_apply, Option.guard, hrow]
    cases hpo : parentOf calls sub product with
    | none =>
      have hne : ¬ (productCell g pm (some (descSource d g source)) (descRow parents sub product) =
          some (c : Int)) := by
        rw [hiff, hpo]
        rintro ⟨k, hk⟩; cases hk
      simp [hne]
    | some p =>
      by_cases hpcc : p.1 = c
      · have heq : productCell g pm (some (descSource d g source)) (descRow parents sub product) =
            some (c : Int) := hiff.2 ⟨p.2, by rw [hpo, ← hpcc]⟩
        simp only [heq, hpcc, beq_self_eq_true, if_true, Option.bind_some, hrow]
        congr 1
        unfold productParticle descendant
        apply List.map_congr_left
        intro sj _
        obtain ⟨c1, c2⟩ := a4 sub product hs hp
        rw [hpo] at c1 c2
        have hrow' : sub + product * parents = descRow parents sub product := rfl
        rw [hrow']
        cases propertyIndex pm.real.spec.props sj.1 with
        | some j => rfl
        | none =>
          cases propertyIndex pm.int.spec.props sj.1 with
          | some j => rfl
          | none =>
            dsimp only
            rw [hsm]
            show (if sj.1 ∈ (source.getD g).dats.map (·.sym) then
              (d.cells[descRow parents sub product]?).bind fun c =>
                (d.layers[descRow parents sub product]?).bind fun l =>
                  (source.getD g).mem ⟨sj.1, c.toNat, sj.2, l.toNat⟩ else some 0) = _
            rw [c1, c2, ← hpcc]
            rfl
      · have hne : ¬ (productCell g pm (some (descSource d g source))
            (descRow parents sub product) = some (c : Int)) := by
          rw [hiff, hpo]
          rintro ⟨k, hk⟩
          cases hk
          exact hpcc rfl
        simp [hne, hpcc]
  rw [hlist] at s2
  exact s2

/-- **C20.** A matrix with a property that the group does not have, or has with another number
of components, is rejected. -/
theorem C20_rejects (e : Env) (g : Group) (pm : ProdMatrix) (par : Option Parents)
    (h : ¬ MatrixFits g pm) : addProducts e g pm par = none := by
  unfold addProducts
  rw [if_pos (fun hc => h (fits_iff.1 hc))]

/-! ## Cases where the code does something else -/

namespace Ex

/-- No REAL properties; the ranks and the cell ids, in this order: product 0 names cell 1,
product 1 names cell 0. -/
def rankThenCell : ProdMatrix :=
  ⟨2, ⟨⟨[], []⟩, [], [99]⟩, ⟨⟨[(2, 2), (1, 1)], []⟩, [0, 2], [0, 0, 0, 0, 1, 0]⟩⟩

theorem rankThenCell_ok : MatrixOk rankThenCell where
  names := by decide
  real := ⟨junk, [.reset Sched.inOrder junk 2], rfl⟩
  int := ⟨junk, [.reset Sched.inOrder junk 2, .access (.write ⟨0, 1, 0⟩ 1)], rfl⟩

theorem fits_of {g : Group} {pm : ProdMatrix}
    (h : specContains g.dats pm.real.spec.props = true ∧
      specContains g.dats pm.int.spec.props = true) : MatrixFits g pm := fits_iff.1 h

/-- The cell ids only, both products name cell 1. -/
def cellOnly : ProdMatrix :=
  ⟨2, ⟨⟨[(0, 2)], []⟩, [0], [11, 12, 13, 14]⟩, ⟨⟨[(1, 1)], []⟩, [0], [1, 1]⟩⟩

theorem cellOnly_ok : MatrixOk cellOnly where
  names := by decide
  real := ⟨junk, [.reset Sched.inOrder junk 2, .access (.write ⟨0, 0, 0⟩ 11),
    .access (.write ⟨1, 0, 0⟩ 12), .access (.write ⟨0, 0, 1⟩ 13),
    .access (.write ⟨1, 0, 1⟩ 14)], rfl⟩
  int := ⟨junk, [.reset Sched.inOrder junk 2, .access (.write ⟨0, 0, 0⟩ 1),
    .access (.write ⟨1, 0, 0⟩ 1)], rfl⟩

/-- Positions only. -/
def positions : ProdMatrix :=
  ⟨6, ⟨⟨[(0, 2)], []⟩, [0], [11, 0, 0, 12, 0, 13, 0, 0, 0, 0, 0, 0]⟩, ⟨⟨[], []⟩, [], [99]⟩⟩

theorem positions_ok : MatrixOk positions where
  names := by decide
  real := ⟨junk, [.reset Sched.inOrder junk 6, .access (.write ⟨0, 0, 0⟩ 11),
    .access (.write ⟨3, 0, 0⟩ 12), .access (.write ⟨5, 0, 0⟩ 13)], rfl⟩
  int := ⟨junk, [.reset Sched.inOrder junk 6], rfl⟩

end Ex

/-- **C20 fails** if the matrix has an INT property with several components before the cell
ids: here the ranks come first, product 0 names cell 1, and it is added to cell 0. -/
theorem C20_cell_from_wrong_column :
    ∃ (e : Env) (g : Group) (pm : ProdMatrix), EnvOk e ∧ Consistent g ∧ MatrixOk pm ∧
      MatrixFits g pm ∧ productCell g pm none 0 = some 1 ∧ productCell g pm none 1 = some 0 ∧
      ∃ g', addProducts e g pm none = some g' ∧ count g' 0 = count g 0 + 2 ∧
        count g' 1 = count g 1 := by
  refine ⟨Ex.env, Ex.group Ex.home, Ex.rankThenCell, Ex.env_ok, Ex.group_ok _,
    Ex.rankThenCell_ok, Ex.fits_of (by decide), by decide, by decide, ?_⟩
  have h : (addProducts Ex.env (Ex.group Ex.home) Ex.rankThenCell none).map
      (fun g' => (count g' 0, count g' 1)) = some (5, 2) := by decide +kernel
  obtain ⟨g', h1, h2⟩ := Option.map_eq_some_iff.1 h
  rw [Prod.mk.injEq] at h2
  exact ⟨g', h1, h2.1, h2.2⟩

/-- **C20 fails** for descendant products with cell ids in the matrix: a product without a
parent is not left out, its parent's values are read from row `-1` of cell `-1`. -/
theorem C20_unset_parent_fails :
    ∃ (e : Env) (g : Group) (pm : ProdMatrix) (d0 d : DescParents) (mem : Fresh Int),
      EnvOk e ∧ Consistent g ∧ MatrixOk pm ∧ MatrixFits g pm ∧
      d0.reset mem mem 2 = some d ∧ pm.num = 2 * d0.perParent ∧
      addProducts e g pm (some (descSource d g none)) = none := by
  refine ⟨Ex.env, Ex.group Ex.home, Ex.cellOnly, ⟨1, 0, [], []⟩, _, Ex.junk, Ex.env_ok,
    Ex.group_ok _, Ex.cellOnly_ok, Ex.fits_of (by decide), rfl, rfl, ?_⟩
  rw [← Option.isNone_iff_eq_none]
  decide +kernel

/-! ## Examples -/

namespace Ex

/-- Cell ids in the matrix, no parents: both products go to cell 1. -/
example : (∀ j, propertyIndex cellOnly.int.spec.props (group home).cellSym = some j →
      ∀ k q, k < j → cellOnly.int.spec.props[k]? = some q → q.2 = 1) ∧
    MatrixFits (group home) cellOnly ∧
    (List.range 2).map (productParticle (group home) cellOnly none) =
      [[some 11, some 13, some 1, some 0, some 0], [some 12, some 14, some 1, some 0, some 0]] ∧
    (addProducts env (group home) cellOnly none).map (fun g => ((contents g 0).length,
      (contents g 1).drop 2)) =
      some (3, [[some 12, some 14, some 1, some 0, some 0],
        [some 11, some 13, some 1, some 0, some 0]]) := by
  refine ⟨?_, fits_of (by decide), by decide +kernel, by decide +kernel⟩
  intro j hj k q hk
  have : propertyIndex cellOnly.int.spec.props (group home).cellSym = some 0 := by decide
  rw [this] at hj
  cases hj
  omega

/-- Two products for each of three parents; parents are set for three of the six products. -/
def descCalls : List ParentCall := [⟨0, 0, 0, 2⟩, ⟨2, 1, 1, 0⟩, ⟨0, 1, 1, 1⟩]

example : (∀ q ∈ positions.int.spec.props, q.1 ≠ (group home).cellSym) ∧
    MatrixFits (group home) positions ∧
    (∀ x ∈ descCalls, x.sub < 3 ∧ x.product < 2) ∧
    (∀ x ∈ descCalls, x.cell < ((none : Option Group).getD (group home)).ncell ∧
      x.layer < count ((none : Option Group).getD (group home)) x.cell) ∧
    positions.num = 3 * 2 ∧
    ∃ d, ((⟨2, 0, [], []⟩ : DescParents).reset junk junk 3).bind
        (runItems DescParents.call descCalls) = some d ∧
      descendants (group home) positions (group home) descCalls 3 2 1 =
        [[some 12, some 0, some 1, some 2101, some 2111],
          [some 13, some 0, some 1, some 2100, some 2110]] ∧
      (addProducts env (group home) positions (some (descSource d (group home) none))).map
        (fun g => ((contents g 0).drop 3, (contents g 1).drop 2)) =
        some ([[some 11, some 0, some 0, some 2002, some 2012]],
          [[some 13, some 0, some 1, some 2100, some 2110],
          [some 12, some 0, some 1, some 2101, some 2111]]) := by
  refine ⟨by decide, fits_of (by decide), by decide, by decide, rfl,
    ⟨2, 3, [0, -1, -1, 1, -1, 1], [2, -1, -1, 1, -1, 0]⟩, by decide +kernel, by decide +kernel,
    by decide +kernel⟩

/-- The same with the parents in another group. -/
example : (∀ gs, some (group fun _ _ => 0) = some gs →
    Consistent gs ∧ CommonComps (group home).dats gs.dats) := by
  intro gs h
  cases h
  refine ⟨group_ok _, ?_⟩
  intro d hd d' hd' hs
  have : d = d' := List.inj_on_of_nodup_map (group_ok home).nodup hd hd' hs
  rw [this]

end Ex

end NP
