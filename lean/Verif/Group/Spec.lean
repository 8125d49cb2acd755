import Verif.Group.Model

/-!
# Specifications for the group storage area
-/

set_option autoImplicit false

namespace NP

/-- The device parameters are usable: positive local sizes and bin count. -/
structure EnvOk (e : Env) : Prop where
  scan_pos : 0 < e.scanLocalSize
  localSize_pos : 0 < e.loop.localSize
  localSize_int : e.loop.localSize < 2 ^ 31
  nbin_pos : 0 < e.loop.nbin

namespace Spec

/-- Number of particles in cell `c`. -/
def count (g : Group) (c : Nat) : Nat := g.hNpart.getD c 0

/-- All property values of the particle in row `k` of cell `c`: for each property of the
group, in order, the values of its components. -/
def particle (g : Group) (c k : Nat) : List (Option Int) :=
  (flatComps g.dats).map fun sj => g.mem ⟨sj.1, c, sj.2, k⟩

/-- The particles in cell `c`, in order of their rows. -/
def contents (g : Group) (c : Nat) : List (List (Option Int)) :=
  (List.range (count g c)).map (particle g c)

/-- The value of the cell id property of the particle in row `k` of cell `c`. -/
def cellId (g : Group) (c k : Nat) : Option Int := g.mem ⟨g.cellSym, c, 0, k⟩

/-- The storage of one dat: the used rows of each cell are allocated. -/
structure DatMem (ncell : Nat) (m : Mem) (d : Dat) : Prop where
  nrow_len : d.nrow.length = ncell
  alloc_len : d.alloc.length = ncell
  le : ∀ (c r a : Nat), d.nrow[c]? = some r → d.alloc[c]? = some a → r ≤ a
  alloc : ∀ (c a j k : Nat), d.alloc[c]? = some a → j < d.ncomp → k < a →
    (m ⟨d.sym, c, j, k⟩).isSome = true

/-- A dat agrees with its group: host and device counts are those of the group and there
is a row for every particle (exactly one if no number of particles per cell was hinted). -/
structure DatOk (g : Group) (d : Dat) : Prop where
  mem : DatMem g.ncell g.mem d
  host : d.hNpart = g.hNpart
  device : d.dNpart = g.hNpart
  rows : ∀ (c n r : Nat), g.hNpart[c]? = some n → d.nrow[c]? = some r → n ≤ r
  exact : g.hint = 0 → d.nrow = g.hNpart

/-- The bookkeeping of a group is consistent. -/
structure Consistent (g : Group) : Prop where
  len : g.hNpart.length = g.ncell
  device : g.dNpart = g.hNpart
  es_len : g.npartEs.length = g.ncell
  es : ∀ c, c < g.ncell → g.npartEs[c]? = some ((g.hNpart.take c).sum)
  total : g.npartLocal = g.hNpart.sum
  nodup : (g.dats.map (·.sym)).Nodup
  dats : ∀ d ∈ g.dats, DatOk g d
  pos : g.posSym ∈ g.dats.map (·.sym)
  rank : g.rankSym ∈ g.dats.map (·.sym)
  cell : ∃ d ∈ g.dats, d.sym = g.cellSym ∧ 0 < d.ncomp

/-- All particle counts are representable as `int`. -/
def SmallCounts (g : Group) : Prop := ∀ n ∈ g.hNpart, n < 2 ^ 31

/-- The particle in row `k` of cell `c` is one of the first `n` listed ones. -/
def Listed (n : Nat) (cells layers : List Int) (c k : Nat) : Prop :=
  ((c : Int), (k : Int)) ∈ (cells.zip layers).take n

instance (n : Nat) (cells layers : List Int) (c k : Nat) : Decidable (Listed n cells layers c k) :=
  inferInstanceAs (Decidable (_ ∈ _))

/-- Same properties, cells and names, so that particles of the two can be compared. -/
structure SameShape (g g' : Group) : Prop where
  ncell : g'.ncell = g.ncell
  comps : flatComps g'.dats = flatComps g.dats
  pos : g'.posSym = g.posSym
  rank : g'.rankSym = g.rankSym
  cell : g'.cellSym = g.cellSym
  hint : g'.hint = g.hint

end Spec

end NP
