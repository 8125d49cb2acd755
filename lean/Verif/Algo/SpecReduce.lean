import Verif.Algo.ModelReduce
import Verif.Sub.SpecBuilt

/-! Specification of reductions per cell. -/

set_option autoImplicit false

namespace NP.Spec

/-- The operation is associative and commutative and `e` is neutral. -/
structure Laws {T : Type} (op : T → T → T) (e : T) : Prop where
  assoc : ∀ a b c, op (op a b) c = op a (op b c)
  comm : ∀ a b, op a b = op b a
  neutral : ∀ a, op a e = a

/-- The entry of a matrix of a cell: column major in the cell. -/
def entry {T : Type} (d : CellConst T) (c row col : Nat) : Option T :=
  d.data[c * (d.nrow * d.ncol) + (d.nrow * col + row)]?

/-- The value of a component of a particle. -/
def datAt {T : Type} (dat : List (List (List T))) (c comp layer : Nat) : Option T :=
  (dat[c]?).bind fun cell => (cell[comp]?).bind fun col => col[layer]?

/-- `new` is `old` combined with the component of each particle of the group or sub group that is in
the cell, each once, in whatever order they are listed. -/
def Combines {T : Type} (op : T → T → T) (npart : List Nat) (par : Parent) (dat : List (List (List T)))
    (c comp : Nat) (old new : T) : Prop :=
  ∀ layers : List Nat, layers.Nodup → (∀ l, l ∈ layers ↔ InParent npart par c l) →
    ∃ vs, layers.mapM (datAt dat c comp) = some vs ∧ new = vs.foldl op old

/-- The output has one matrix per cell. -/
structure OutOk {T : Type} (npart : List Nat) (out : CellConst T) : Prop where
  cells : out.ncells = npart.length
  data : out.data.length = out.ncells * (out.nrow * out.ncol)

/-- The particles have the component. -/
def HasComp {T : Type} (npart : List Nat) (dat : List (List (List T))) (comp : Nat) : Prop :=
  ∀ c n l, npart[c]? = some n → l < n → ∃ x, datAt dat c comp l = some x

end NP.Spec
