import Verif.Group.ModelProduct
import Verif.Group.SpecAdd

/-!
# What product matrices promise
-/

set_option autoImplicit false

namespace NP.Spec

variable {V : Type}

/-- An entry of a product matrix. -/
structure ProdEntry where
  product : Nat
  property : Nat
  component : Nat
deriving DecidableEq

/-- The entry exists in a matrix of `num` products with these properties. -/
def ProdEntry.In (props : List (Nat × Nat)) (num : Nat) (t : ProdEntry) : Prop :=
  t.product < num ∧ ∃ q, props[t.property]? = some q ∧ t.component < q.2

/-- What a kernel does to a matrix: write an entry or add to it. -/
inductive ProdAccess (V : Type) where
  | write (t : ProdEntry) (v : V)
  | add (t : ProdEntry) (v : V)

def ProdAccess.entry : ProdAccess V → ProdEntry
  | .write t _ => t
  | .add t _ => t

/-- The effect on the value of the entry. -/
def ProdAccess.effect [Add V] : ProdAccess V → V → V
  | .write _ v, _ => v
  | .add _ v, old => old + v

/-- The value of an entry after some accesses, in the order in which they take place: those
of other entries do not matter. -/
def entryAfter [Add V] (as : List (ProdAccess V)) (t : ProdEntry) (init : V) : V :=
  (as.filter fun a => a.entry = t).foldl (fun v a => a.effect v) init

/-- The value of an entry after `reset`. -/
def resetValue [Zero V] (p : ProdSpec V) (t : ProdEntry) : V :=
  match p.props[t.property]? with
  | some q => p.default q.1 t.component
  | none => 0

/-- What can happen to a product matrix. -/
inductive ProdCall (V : Type) where
  | setDefault (sym component : Nat) (v : V)
  | reset (sched : Sched) (mem : Fresh V) (num : Nat)
  | access (a : ProdAccess V)
  | set (sched : Sched) (values : Nat → Option (Nat × List V))

/-- A call of `set_parent` for product `product` of the particle with loop index `sub`, which
is in row `layer` of cell `cell`. -/
structure ParentCall where
  sub : Nat
  product : Nat
  cell : Nat
  layer : Nat

/-- The parent of a product after some calls: that of the last call for it. -/
def parentOf (calls : List ParentCall) (sub product : Nat) : Option (Nat × Nat) :=
  ((calls.filter fun x => x.sub = sub ∧ x.product = product).getLast?).map
    fun x => (x.cell, x.layer)

end NP.Spec

namespace NP

variable {V : Type}

/-- `set_parent` as a call. -/
def DescParents.call (x : Spec.ParentCall) (d : DescParents) : Option DescParents :=
  d.setParent x.sub x.product x.cell x.layer

/-- An access by a kernel. -/
def ProdHalf.access [Add V] (num : Nat) (a : Spec.ProdAccess V) (h : ProdHalf V) :
    Option (ProdHalf V) :=
  match a with
  | .write t v => h.write num t.product t.property t.component v
  | .add t v => (h.fetchAdd num t.product t.property t.component v).map Prod.snd

/-- The number of products and the storage after a call. -/
def prodCall [Zero V] [Add V] (c : Spec.ProdCall V) (s : Nat × ProdHalf V) :
    Option (Nat × ProdHalf V) :=
  match c with
  | .setDefault sym comp v => some (s.1, { s.2 with spec := s.2.spec.setDefault sym comp v })
  | .reset sched mem num => (s.2.reset sched mem num).map fun h => (num, h)
  | .access a => (s.2.access s.1 a).map fun h => (s.1, h)
  | .set sched values => (s.2.set sched s.1 values).map fun h => (s.1, h)

/-- A matrix with the given properties after a history of calls. -/
def prodRun [Zero V] [Add V] (mem : Fresh V) (props : List (Nat × Nat))
    (calls : List (Spec.ProdCall V)) : Option (Nat × ProdHalf V) :=
  runItems prodCall calls (0, ProdHalf.new mem ⟨props, []⟩)

end NP

namespace NP.Spec

/-- Index of the property named `s` in a specification. -/
def propertyIndex (props : List (Nat × Nat)) (s : Nat) : Option Nat :=
  props.findIdx? fun q => q.1 == s

/-- The cell of product `i`: its cell id if the matrix has that property, else the cell of its
parent, else cell 0 if there are no parents. -/
def productCell (g : Group) (pm : ProdMatrix) (par : Option Parents) (i : Nat) : Option Int :=
  match propertyIndex pm.int.spec.props g.cellSym with
  | some j => pm.int.read pm.num i j 0
  | none => match par with
    | none => some 0
    | some p => p.cells[i]?

/-- Product `i` as a particle of the group: the values in the matrix for the properties of the
matrix, the values of the parent for the other properties that the parent has, and zero for
the rest. -/
def productParticle (g : Group) (pm : ProdMatrix) (par : Option Parents) (i : Nat) :
    List (Option Int) :=
  (flatComps g.dats).map fun sj =>
    match propertyIndex pm.real.spec.props sj.1 with
    | some j => pm.real.read pm.num i j sj.2
    | none => match propertyIndex pm.int.spec.props sj.1 with
      | some j => pm.int.read pm.num i j sj.2
      | none => match par with
        | none => some 0
        | some p =>
          if sj.1 ∈ p.dats.map (·.sym) then
            (p.cells[i]?).bind fun c => (p.layers[i]?).bind fun l =>
              sourceMem g p.src ⟨sj.1, c.toNat, sj.2, l.toNat⟩
          else some 0

/-- The matrix is the result of some history of calls, and its properties have different
names. -/
structure MatrixOk (pm : ProdMatrix) : Prop where
  names : ((pm.real.spec.props ++ pm.int.spec.props).map Prod.fst).Nodup
  real : ∃ mem calls, prodRun mem pm.real.spec.props calls = some (pm.num, pm.real)
  int : ∃ mem calls, prodRun mem pm.int.spec.props calls = some (pm.num, pm.int)

/-- The group has every property of the matrix, with the same number of components. -/
def MatrixFits (g : Group) (pm : ProdMatrix) : Prop :=
  ∀ q ∈ pm.real.spec.props ++ pm.int.spec.props, ∃ d ∈ g.dats, d.sym = q.1 ∧ d.ncomp = q.2

/-- There is a parent for every product that is added: it has values for the properties that
are copied, and it is a particle of the group if no other group is given. -/
structure ParentsOk (g : Group) (pm : ProdMatrix) (p : Parents) : Prop where
  cells : pm.num ≤ p.cells.length
  layers : pm.num ≤ p.layers.length
  exist : ∀ i c, i < pm.num → c < g.ncell → productCell g pm (some p) i = some (c : Int) →
    ∃ cs ls : Nat, p.cells[i]? = some (cs : Int) ∧ p.layers[i]? = some (ls : Int) ∧
      (∀ sj ∈ flatComps g.dats, sj.1 ∈ p.dats.map (·.sym) →
        (sourceMem g p.src ⟨sj.1, cs, sj.2, ls⟩).isSome = true) ∧
      match p.src with
      | .self => cs < g.ncell ∧ ls < count g cs
      | .other _ => True

/-- Product `product` of the parent with loop index `sub`, which is the particle in row `k` of
cell `c` of group `gs`: the values in the matrix for the properties of the matrix, the values
of the parent for the other properties that the parent has, and zero for the rest. -/
def descendant (g : Group) (pm : ProdMatrix) (gs : Group) (parents sub product c k : Nat) :
    List (Option Int) :=
  (flatComps g.dats).map fun sj =>
    match propertyIndex pm.real.spec.props sj.1, propertyIndex pm.int.spec.props sj.1 with
    | some j, _ => pm.real.read pm.num (sub + product * parents) j sj.2
    | none, some j => pm.int.read pm.num (sub + product * parents) j sj.2
    | none, none => if sj.1 ∈ gs.dats.map (·.sym) then gs.mem ⟨sj.1, c, sj.2, k⟩ else some 0

/-- The descendants with a parent in cell `c`. -/
def descendants (g : Group) (pm : ProdMatrix) (gs : Group) (calls : List ParentCall)
    (parents perParent c : Nat) : List (List (Option Int)) :=
  (List.range perParent).flatMap fun product => (List.range parents).filterMap fun sub =>
    match parentOf calls sub product with
    | some p => if p.1 = c then some (descendant g pm gs parents sub product p.1 p.2) else none
    | none => none

end NP.Spec
