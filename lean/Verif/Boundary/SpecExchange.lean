import Verif.Boundary.ModelExchange
import Mathlib.Algebra.BigOperators.Group.List.Basic

/-!
# What the exchange of face data promises
-/

set_option autoImplicit false

namespace NP.Spec

/-- The owners given to the constructor on each rank are meaningful: no face is listed
twice, neither on one rank nor on two. -/
def FacesOwned (owned : List (List Int)) : Prop :=
  owned.flatten.Nodup

/-- A call is well formed: there is a list of pairs for every rank and each pair names the
rank that owns the face. -/
def PairsOk (owned : List (List Int)) (pairs : List (List (Nat × Int))) : Prop :=
  pairs.length = owned.length ∧
    ∀ ps ∈ pairs, ∀ p ∈ ps, ∃ faces, owned[p.1]? = some faces ∧ p.2 ∈ faces

/-- Rank `s` has at some time announced that it holds data for the face. -/
def Announced (calls : List SurfCall) (s : Nat) (face : Int) : Prop :=
  ∃ c ∈ calls, ∃ ps, c.pairs[s]? = some ps ∧ ∃ q, (q, face) ∈ ps

/-- There is a buffer on every rank with room for `ncomp` values for each of the faces
counted by `counts`. -/
def Room {T : Type} (counts : List Nat) (ncomp : Nat) (bufs : List (List T)) : Prop :=
  bufs.length = counts.length ∧
    ∀ (r : Nat) c b, counts[r]? = some c → bufs[r]? = some b → c * ncomp ≤ b.length

/-- `v` is component `cx` of the data rank `s` has for the face in its buffer: the entry is
found with the index the interface reports for the face. -/
def HeldValue {T : Type} (w : List SurfRank) (bufs : List (List T)) (ncomp s : Nat) (face : Int)
    (cx : Nat) (v : T) : Prop :=
  ∃ a buf k, w[s]? = some a ∧ bufs[s]? = some buf ∧ surfSeqOf a face = some k ∧
    buf[k * ncomp + cx]? = some v

/-- `new` is `old` plus component `cx` of the data of every rank that holds the face, each
rank counted once. -/
def Gathered {T : Type} [AddCommMonoid T] (calls : List SurfCall) (w : List SurfRank)
    (bufs : List (List T)) (ncomp : Nat) (face : Int) (cx : Nat) (old new : T) : Prop :=
  ∃ (holders : List Nat) (v : Nat → T), holders.Nodup ∧ (∀ s, s ∈ holders ↔ Announced calls s face) ∧
    (∀ s ∈ holders, HeldValue w bufs ncomp s face cx (v s)) ∧
    new = old + (holders.map v).sum

end NP.Spec
