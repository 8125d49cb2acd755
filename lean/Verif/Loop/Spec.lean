/-!
# Specifications for the loop area

`npart` is the number of particles in each cell; a particle is addressed by its cell
and its row ("layer") in that cell.
-/

set_option autoImplicit false

namespace NP.Spec

/-- `(c, k)` addresses a particle: cell `c` exists and holds more than `k` particles. -/
def IsParticle (npart : List Nat) (c k : Nat) : Prop := ∃ n, npart[c]? = some n ∧ k < n

/-- The calls listed in `l` are exactly those described by `P`, each made once. -/
def VisitsExactlyOnce (l : List (Nat × Nat)) (P : Nat → Nat → Prop) : Prop :=
  l.Nodup ∧ ∀ c k, (c, k) ∈ l ↔ P c k

/-- The cells a loop is asked to visit: `execute()`, `execute(cell)`,
`execute(cell_start, cell_end)`. -/
def CellRequested : Option Int → Option Int → Nat → Prop
  | none, none, _ => True
  | some s, none, c => (c : Int) = s
  | some s, some e, c => s ≤ c ∧ (c : Int) < e
  | none, some _, _ => False

/-- The cell arguments are ones the API accepts for a mesh of `ncell` cells. -/
def CellArgsOk (ncell : Nat) : Option Int → Option Int → Prop
  | none, none => True
  | some s, none => 0 ≤ s ∧ s < ncell
  | some s, some e => 0 ≤ s ∧ s ≤ ncell ∧ 0 ≤ e ∧ e ≤ ncell
  | none, some _ => False

/-- Particles in order of cell, then row. -/
def Before (p q : Nat × Nat) : Prop := p.1 < q.1 ∨ p.1 = q.1 ∧ p.2 < q.2

/-- Number of times `e` occurs. -/
def occurs {α : Type} [DecidableEq α] (e : α) (l : List α) : Nat := (l.filter (· = e)).length

end NP.Spec
