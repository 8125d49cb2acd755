import Verif.Petsc.ModelCoupler
import Mathlib.Algebra.BigOperators.Group.List.Basic

/-!
# What the transfer of cell values between two meshes promises
-/

set_option autoImplicit false

namespace NP.Spec

/-- The first points of the part of mesh B that a rank holds are the cells it owns, `gs` are their
global numbers, and different points have different global numbers. -/
structure PartB (dm : Plex) (gs : List Int) : Prop where
  numbered : dm.numbers.length = dm.points.length
  owned : ∀ (j : Nat) g, gs[j]? = some g →
    0 ≤ g ∧ dm.numbers[j]? = some g ∧ ∃ x, dm.points[j]? = some x ∧ x.height = 0
  others : ∀ (p : Nat) x g, gs.length ≤ p → dm.points[p]? = some x → dm.numbers[p]? = some g →
    x.height = 0 → g < 0
  distinct : (dm.numbers.map unsignedId).Nodup

/-- `cells` has the global numbers of the cells each rank owns: every rank has a cell, and the
numbers of all cells are consecutive and fit in an `int`. -/
structure MeshB (dms : List Plex) (cells : List (List Int)) : Prop where
  ranks : dms ≠ []
  parts : List.Forall₂ PartB dms cells
  nonempty : ∀ gs ∈ cells, gs ≠ []
  consecutive : ∃ (first : Int) (count : Nat), first + count ≤ 2147483648 ∧
    cells.flatten.Perm ((List.range count).map fun (i : Nat) => first + i)

/-- Each rank passes a coupling map, and its entries name cells of mesh B. -/
def MapsOk {T : Type} (cells : List (List Int)) (maps : List (List (List (CoupEntry T)))) : Prop :=
  maps.length = cells.length ∧
    ∀ map ∈ maps, ∀ es ∈ map, ∀ e ∈ es, ∃ gs ∈ cells, e.cell ∈ gs

/-- Each rank has a vector with room for `ncomp` values in each of its cells. -/
def Dofs {α T : Type} (cells : List (List α)) (ncomp : Nat) (dofs : List (List T)) : Prop :=
  List.Forall₂ (fun gs d => gs.length * ncomp ≤ d.length) cells dofs

/-- The vectors hold the field `x` on mesh B: value `c` of the cell with global number `g`, which
is cell `j` of rank `q`, is at position `j * ncomp + c` of the vector of rank `q`. -/
def FieldB {T : Type} (cells : List (List Int)) (ncomp : Nat) (dofs : List (List T))
    (x : Int → Nat → T) : Prop :=
  ∀ (q : Nat) gs, cells[q]? = some gs → ∃ d, dofs[q]? = some d ∧
    ∀ (j : Nat) g, gs[j]? = some g → ∀ c, c < ncomp → d[j * ncomp + c]? = some (x g c)

/-- The vectors hold the field `y` on mesh A: value `c` of cell `a` of rank `s` is at position
`a * ncomp + c` of the vector of rank `s`. -/
def FieldA {T : Type} (maps : List (List (List (CoupEntry T)))) (ncomp : Nat) (dofs : List (List T))
    (y : Nat → Nat → Nat → T) : Prop :=
  ∀ (s : Nat) map, maps[s]? = some map → ∃ d, dofs[s]? = some d ∧
    ∀ a, a < map.length → ∀ c, c < ncomp → d[a * ncomp + c]? = some (y s a c)

/-- Everything behind the values of the cells is zero, and the sizes are those of `old`. -/
def RestZero {α T : Type} [Zero T] (cells : List (List α)) (ncomp : Nat) (old new : List (List T)) :
    Prop :=
  new.map List.length = old.map List.length ∧
    ∀ (r : Nat) gs d, cells[r]? = some gs → new[r]? = some d →
      ∀ k v, gs.length * ncomp ≤ k → d[k]? = some v → v = 0

/-- The value of cell `g` of mesh B after a forward transfer: the sum over all cells `a` of all
ranks `s` and the entries for `a` that name `g` of the forward weight times the value of `a`. -/
def forwardSum {T : Type} [CommSemiring T] (maps : List (List (List (CoupEntry T))))
    (y : Nat → Nat → Nat → T) (g : Int) (c : Nat) : T :=
  (maps.zipIdx.map fun (map, s) => (map.zipIdx.map fun (es, a) =>
    ((es.filter fun e => e.cell = g).map fun e => e.fwd * y s a c).sum).sum).sum

/-- The value of a cell of mesh A with entries `es` after a backward transfer: the sum over the
entries of the backward weight times the value of the cell of mesh B it names. -/
def backwardSum {T : Type} [CommSemiring T] (es : List (CoupEntry T)) (x : Int → Nat → T) (c : Nat) :
    T :=
  (es.map fun e => e.bwd * x e.cell c).sum

/-- A call of a transfer is well formed: at least one component, and vectors with enough room. -/
def CoupCallOk {T : Type} (cells : List (List Int)) (maps : List (List (List (CoupEntry T)))) :
    CoupCall T → Prop
  | .forward ncomp dofsA dofsB => 0 < ncomp ∧ Dofs maps ncomp dofsA ∧ Dofs cells ncomp dofsB
  | .backward ncomp dofsB dofsA => 0 < ncomp ∧ Dofs maps ncomp dofsA ∧ Dofs cells ncomp dofsB

end NP.Spec
