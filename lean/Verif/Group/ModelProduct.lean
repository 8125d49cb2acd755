import Verif.Group.ModelRemove
import Verif.Group.ModelAdd

/-!
# Model: `ParticleSetDevice`, `ProductMatrix`, `DescendantProducts`

Models `include/neso_particles/containers/particle_set_device.hpp`,
`src/containers/particle_set_device.cpp`, `containers/product_matrix.hpp`,
`containers/descendant_products.{hpp,cpp}` and the functions of `ParticleGroup` that add
their contents to a group.

The code for REAL and for INT properties is the same, it is written once, for values of any
type.  `Sym<REAL>` and `Sym<INT>` are different types; here a property is named by a number
and REAL and INT properties have different numbers.  Sizes are natural numbers (the
assertions that they are not negative are not written out) and do not overflow.
-/

set_option autoImplicit false

namespace NP

variable {V : Type}

/-! ## Specification and storage -/

/-- The REAL (or INT) part of a `ParticleSetDeviceSpec`,
`containers/particle_set_device.hpp:258-285`: `syms_*` with `components_*`, and
`default_values_*`, latest entry first. -/
structure ProdSpec (V : Type) where
  props : List (Nat × Nat)
  defaults : List ((Nat × Nat) × V)

/-- `set_default_value`, `particle_set_device.cpp:33-41`. -/
def ProdSpec.setDefault (p : ProdSpec V) (sym comp : Nat) (v : V) : ProdSpec V :=
  { p with defaults := ((sym, comp), v) :: p.defaults }

/-- The value `reset` fills a column with, `particle_set_device.cpp:133-136`. -/
def ProdSpec.default [Zero V] (p : ProdSpec V) (sym comp : Nat) : V :=
  match p.defaults.lookup (sym, comp) with
  | some v => v
  | none => 0

/-- `map_sym_index_*` as filled by the constructor and `get_sym_index`,
`particle_set_device.cpp:15-26,43-59`: index of the last property of that name; `none` is
`-1`. -/
def ProdSpec.symIndex (p : ProdSpec V) (s : Nat) : Option Nat :=
  p.props.zipIdx.foldl (fun r x => if x.1.1 = s then some x.2 else r) none

/-- `get_num_components`, `particle_set_device.cpp:61-77`. -/
def ProdSpec.numComponents (p : ProdSpec V) (s : Nat) : Option Nat :=
  match p.symIndex s with
  | none => some 0
  | some i => (rd p.props i).map Prod.snd

/-- `num_components_*`, `particle_set_device.cpp:27-30`. -/
def ProdSpec.total (p : ProdSpec V) : Nat := (p.props.map Prod.snd).sum

/-- The REAL (or INT) storage of a `ParticleSetDevice`: offsets of the properties and the
device buffer. -/
structure ProdHalf (V : Type) where
  spec : ProdSpec V
  offsets : List Nat
  data : List V

/-- Constructor, `particle_set_device.cpp:79-108`. -/
def ProdHalf.new (mem : Fresh V) (p : ProdSpec V) : ProdHalf V :=
  ⟨p, exclusiveFrom 0 (p.props.map Prod.snd), (mem 1).1⟩

/-- `realloc_no_copy`, `device_buffers.hpp:72-91` without the optional argument. -/
def prodRealloc (mem : Fresh V) (size : Nat) (data : List V) : List V :=
  if size = 0 then data else if size > data.length then (mem size).1 else data

/-- Fill the column of one component with its default value,
`particle_set_device.cpp:132-142`. -/
def ProdHalf.fillColumn [Zero V] (h : ProdHalf V) (num : Nat) (x : Nat × Nat) (data : List V) :
    Option (List V) :=
  (rd h.spec.props x.1).bind fun p => (rd h.offsets x.1).bind fun off =>
    stRange data ((off + x.2) * num) (List.replicate num (h.spec.default p.1 x.2))

/-- The columns filled by `reset`: every component of every property. -/
def ProdSpec.columns (p : ProdSpec V) : List (Nat × Nat) :=
  p.props.zipIdx.flatMap fun x => (List.range x.1.2).map fun c => (x.2, c)

/-- `reset`, `particle_set_device.cpp:118-160`, one type; the fills are submitted without
waiting in between. -/
def ProdHalf.reset [Zero V] (s : Sched) (mem : Fresh V) (num : Nat) (h : ProdHalf V) :
    Option (ProdHalf V) :=
  if num > 0 then
    (runItems (h.fillColumn num) (s.order h.spec.columns)
      (prodRealloc mem (num * h.spec.total) h.data)).map fun d => { h with data := d }
  else some h

/-- Position of an entry in the buffer: `at_real`, `at_int`, `fetch_add_*`,
`product_matrix.hpp:61-83,103-127,153-175`, `particle_set_device.hpp:64-83,105-131,158-176`. -/
def ProdHalf.index (h : ProdHalf V) (num product property component : Nat) : Option Nat :=
  (rd h.offsets property).map fun off => (off + component) * num + product

/-- Read an entry. -/
def ProdHalf.read (h : ProdHalf V) (num product property component : Nat) : Option V :=
  (h.index num product property component).bind (rd h.data)

/-- Write an entry. -/
def ProdHalf.write (h : ProdHalf V) (num product property component : Nat) (v : V) :
    Option (ProdHalf V) :=
  (h.index num product property component).bind fun i =>
    (st h.data i v).map fun d => { h with data := d }

/-- `fetch_add_*`: add to an entry; the old value is returned first. -/
def ProdHalf.fetchAdd [Add V] (h : ProdHalf V) (num product property component : Nat) (v : V) :
    Option (V × ProdHalf V) :=
  (h.index num product property component).bind fun i => (rd h.data i).bind fun old =>
    (st h.data i (old + v)).map fun d => (old, { h with data := d })

/-- `ParticleSetDevice::get`, `particle_set_device.cpp:162-194`, one type: the values of
each property as stored by a `ParticleSet` (component after component). Without particles
the vectors of the set are empty. -/
def ProdHalf.get (num : Nat) (h : ProdHalf V) : Option (List (Nat × List V)) :=
  (List.range h.spec.props.length).mapM fun sx => (rd h.spec.props sx).bind fun p =>
    if num > 0 then (rd h.offsets sx).bind fun off =>
      (slice h.data (off * num) (off * num + num * p.2)).map fun l => (p.1, l)
    else some (p.1, [])

/-- One property in `ParticleSetDevice::set`, `particle_set_device.cpp:203-215`: values for
a property, with its number of components, as stored by a `ParticleSet`; `none`: the set does
not contain the property. -/
def ProdHalf.setProp (num : Nat) (h : ProdHalf V) (values : Nat → Option (Nat × List V)) (sx : Nat)
    (data : List V) : Option (List V) :=
  (rd h.spec.props sx).bind fun p => match values p.1 with
    | none => some data
    | some q => if p.2 = q.1 then (rd h.offsets sx).bind fun off =>
        (slice q.2 0 (num * p.2)).bind fun l => stRange data (off * num) l
      else none

/-- `ParticleSetDevice::set`, `particle_set_device.cpp:196-236`, one type, for a set with as
many particles. -/
def ProdHalf.set (s : Sched) (num : Nat) (h : ProdHalf V) (values : Nat → Option (Nat × List V)) :
    Option (ProdHalf V) :=
  if num > 0 then
    (runItems (h.setProp num values) (s.order (List.range h.spec.props.length)) h.data).map
      fun d => { h with data := d }
  else some h

/-! ## Descendant products -/

/-- The row of a product: `sub_index + product * num_parent_particles`,
`descendant_products.hpp:54-55,73-74,87-88`. -/
def descRow (parents sub product : Nat) : Nat := sub + product * parents

/-- `DescendantProducts` without the matrix: the number of parents and the cell and layer of
the parent of each product. -/
structure DescParents where
  perParent : Nat
  parents : Nat
  cells : List Int
  layers : List Int
deriving DecidableEq

/-- Number of products, `descendant_products.cpp:28`. -/
def DescParents.num (d : DescParents) : Nat := d.parents * d.perParent

/-- `DescendantProducts::reset`, `descendant_products.cpp:25-42`, the part that is not
`ProductMatrix::reset` with `parents * perParent` products. -/
def DescParents.reset (memC memL : Fresh Int) (parents : Nat) (d : DescParents) :
    Option DescParents :=
  let num := parents * d.perParent
  if num > 0 then
    (stRange (prodRealloc memC num d.cells) 0 (List.replicate num (-1))).bind fun c =>
      (stRange (prodRealloc memL num d.layers) 0 (List.replicate num (-1))).bind fun l =>
        some { d with parents := parents, cells := c, layers := l }
  else some { d with parents := parents }

/-- `set_parent` called for the particle with loop index `sub` in row `layer` of `cell`,
`descendant_products.hpp:84-91`. -/
def DescParents.setParent (d : DescParents) (sub product cell layer : Nat) : Option DescParents :=
  (st d.cells (descRow d.parents sub product) (cell : Int)).bind fun c =>
    (st d.layers (descRow d.parents sub product) (layer : Int)).bind fun l =>
      some { d with cells := c, layers := l }

/-! ## Adding products to a group -/

/-- A `ProductMatrix`. -/
structure ProdMatrix where
  num : Nat
  real : ProdHalf Int
  int : ProdHalf Int

/-- `ParticleSpec::contains`, `particle_spec.hpp:186-196`, for the properties of a group. -/
def specContains (dats : List Dat) (props : List (Nat × Nat)) : Bool :=
  props.all fun p => dats.any fun d => d.sym == p.1 && d.ncomp == p.2

/-- The storage and index for a property: the search is among the REAL properties for a REAL
dat and among the INT properties for an INT dat, which have different names. -/
def ProdMatrix.find (pm : ProdMatrix) (s : Nat) : Option (ProdHalf Int × Nat) :=
  match pm.real.spec.symIndex s with
  | some i => some (pm.real, i)
  | none => (pm.int.spec.symIndex s).map fun i => (pm.int, i)

/-- Cells of the products, `particle_group.cpp:313-333`.  The cells in the matrix are read
from column `cell_id_index`. -/
def productCells (g : Group) (pm : ProdMatrix) (parents : Option (List Int × List Int)) :
    Option (List Int) :=
  match pm.int.spec.symIndex g.cellSym with
  | none => match parents with
    | none => some (List.replicate pm.num 0)
    | some p => slice p.1 0 pm.num
  | some i => slice pm.int.data (pm.num * i) (pm.num * i + pm.num)

/-- Assertion of `lambda_copy`, `particle_group.cpp:357-361`, for a dat. -/
def productCompsOk (pm : ProdMatrix) (d : Dat) : Bool :=
  match pm.find d.sym with
  | none => true
  | some x => match x.1.spec.numComponents d.sym with
    | some n => d.ncomp == n
    | none => false

/-- The parents: their cells and layers, where their properties are stored and which
properties there are. -/
structure Parents where
  cells : List Int
  layers : List Int
  src : SrcMem
  dats : List Dat

/-- The kernels of `lambda_copy`, `lambda_parent_copy` and `zero_dat_properties`,
`particle_group.cpp:352-428`, `particle_group.hpp:212-231`, for one component and product. -/
def productDataStep (pm : ProdMatrix) (par : Option Parents) (cells layers : List Int)
    (it : (Nat × Nat) × Nat) (m : Mem) : Option Mem :=
  (rd cells it.2).bind fun cell => (rd layers it.2).bind fun layer =>
  match pm.find it.1.1 with
  | some x =>
    if layer > -1 then
      (index cell).bind fun c => (x.1.read pm.num it.2 x.2 it.1.2).bind fun v =>
        mst m ⟨it.1.1, c, it.1.2, layer.toNat⟩ v
    else some m
  | none =>
    match par with
    | none =>
      if layer > -1 then
        (index cell).bind fun c => mst m ⟨it.1.1, c, it.1.2, layer.toNat⟩ 0
      else some m
    | some p =>
      if (p.dats.find? (fun x => x.sym == it.1.1)).isSome then
        (rd p.cells it.2).bind fun cs => (rd p.layers it.2).bind fun ls =>
        if layer > -1 then
          (index cell).bind fun c => (index cs).bind fun cs => (index ls).bind fun ls =>
            (p.src.read m ⟨it.1.1, cs, it.1.2, ls⟩).bind fun v =>
              mst m ⟨it.1.1, c, it.1.2, layer.toNat⟩ v
        else some m
      else if layer > -1 then
        (index cell).bind fun c => mst m ⟨it.1.1, c, it.1.2, layer.toNat⟩ 0
      else some m

/-- `add_particles_local(ProductMatrix)` and `add_particles_local(DescendantProducts)`,
`particle_group.cpp:276-463`.  `par = none`: no parents.  The kernels for the properties are
submitted without waiting in between. -/
def addProducts (e : Env) (g : Group) (pm : ProdMatrix) (par : Option Parents) : Option Group :=
  if ¬ (specContains g.dats pm.real.spec.props ∧ specContains g.dats pm.int.spec.props) then none
  else if pm.num = 0 then some (invalidateVersion g) else
  (productCells g pm (par.map fun p => (p.cells, p.layers))).bind fun cells =>
  (getNewLayers (e.sched 0) g.ncell g.hNpart pm.num cells ((e.freshI 0 pm.num).1)).bind fun r =>
  (syncCounts { g with hNpart := r.1 }).bind fun g =>
  (reallocAllDats e g).bind fun g =>
  if ¬ g.dats.all (productCompsOk pm) then none else
  (runItems (productDataStep pm par cells r.2) ((e.sched 1).order (compItems g.dats pm.num))
    g.mem).bind fun m =>
  (updDats (setNpartHostDevice g.ncell g.hNpart g.dNpart) { g with mem := m }).bind fun g =>
    some (invalidateVersion g)

/-- The parents passed on by `add_particles_local(DescendantProducts, source_group)`,
`particle_group.cpp:446-457`; `source = none`: no source group was given. -/
def descSource (d : DescParents) (g : Group) (source : Option Group) : Parents :=
  ⟨d.cells, d.layers, match source with
    | none => .self
    | some gs => .other gs.mem, (source.getD g).dats⟩

end NP
