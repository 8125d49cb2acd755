import Verif.Group.SpecAdd

/-!
# Specification: histories of calls on a particle group
-/

set_option autoImplicit false

namespace NP

namespace Spec

/-- The bookkeeping of the counts of a group: every property reports the same number of
particles in every cell, on the host and on the device, the total is the sum, and the
cached exclusive sum is the prefix sum.  Names are unique, and positions, ranks and cell
ids exist. -/
structure CountsOk (g : Group) : Prop where
  len : g.hNpart.length = g.ncell
  device : g.dNpart = g.hNpart
  es_len : g.npartEs.length = g.ncell
  es : ∀ c, c < g.ncell → g.npartEs[c]? = some ((g.hNpart.take c).sum)
  total : g.npartLocal = g.hNpart.sum
  host : ∀ d ∈ g.dats, d.hNpart = g.hNpart ∧ d.dNpart = g.hNpart
  nodup : (g.dats.map (·.sym)).Nodup
  pos : g.posSym ∈ g.dats.map (·.sym)
  rank : g.rankSym ∈ g.dats.map (·.sym)
  cell : g.cellSym ∈ g.dats.map (·.sym)

/-- Calls that change a group.  They are given with the arrays the code passes on. -/
inductive GroupCall where
  | addSet (ps : PSet)
  | addGroup (src : Group)
  | addSub (src : SrcMem) (srcDats : List Dat) (npart : Nat) (cells layers : List Int)
  | remove (npart : Nat) (cells layers : List Int)
  | removeHost (npart : Nat) (cells layers : List Int)
  | remover (sym : Nat) (key : Int)
  | cellMove
  | addDat (sym ncomp : Nat)
  | removeDat (sym : Nat)
  | clear

/-- The arguments name each particle of a list `sel` of (cell, row) pairs. -/
def Names (sel : List (Nat × Nat)) (npart : Nat) (cells layers : List Int) : Prop :=
  npart = sel.length ∧ cells = sel.map (fun p => (p.1 : Int)) ∧
    layers = sel.map (fun p => (p.2 : Int))

/-- The pairs are addresses of particles of the group. -/
def InGroup (g : Group) (sel : List (Nat × Nat)) : Prop :=
  ∀ p ∈ sel, p.1 < g.ncell ∧ p.2 < count g p.1

/-- Arguments that a call may be given: particle sets that fit, groups with the same cells,
particles that exist, properties that exist, and so on. -/
def Valid (g : Group) : GroupCall → Prop
  | .addSet ps => 0 < ps.npart → SetOk g ps
  | .addGroup src => Consistent src ∧ g.ncell = src.ncell ∧ CommonComps g.dats src.dats ∧
      SmallCounts src
  | .addSub src dats n cells layers => ∃ (from' : Group) (sel : List (Nat × Nat)),
      Names sel n cells layers ∧ dats = from'.dats ∧ InGroup from' sel ∧ Consistent from' ∧
      ((src = .self ∧ from' = g) ∨
        (src = .other from'.mem ∧ g.ncell = from'.ncell ∧ CommonComps g.dats from'.dats))
  | .remove n cells layers => SmallCounts g ∧ ∃ sel, Names sel n cells layers ∧ InGroup g sel ∧
      ∀ c k, c < g.ncell → k < count g c → (c, k) ∉ sel → ∃ v, cellId g c k = some v ∧ 0 ≤ v
  | .removeHost n cells layers => SmallCounts g ∧ n ≤ cells.length ∧ n ≤ layers.length ∧
      (∀ c k, c < g.ncell → Listed n cells layers c k → k < count g c) ∧
      ∀ c k, c < g.ncell → k < count g c → ¬ Listed n cells layers c k →
        ∃ v, cellId g c k = some v ∧ 0 ≤ v
  | .remover sym key => SmallCounts g ∧ (∃ d ∈ g.dats, d.sym = sym ∧ 0 < d.ncomp) ∧
      ∀ c k, c < g.ncell → k < count g c → g.mem ⟨sym, c, 0, k⟩ ≠ some key →
        ∃ v, cellId g c k = some v ∧ 0 ≤ v
  | .cellMove => g.hNpart.sum < 2 ^ 31 ∧ ∀ c k, c < g.ncell → k < count g c →
      ∃ v, cellId g c k = some v ∧ 0 ≤ v ∧ v < g.ncell
  | .addDat sym ncomp => (∀ d ∈ g.dats, d.sym = sym → d.ncomp = ncomp) ∧
      (g.hint = 0 ∨ ∀ n ∈ g.hNpart, n ≤ g.hint)
  | .removeDat sym => sym ∈ g.dats.map (·.sym) ∧ sym ≠ g.posSym ∧ sym ≠ g.rankSym ∧
      sym ≠ g.cellSym
  | .clear => True

end Spec

open Spec

/-- The model's function for a call. -/
def Group.call (e e' : Env) (g : Group) : GroupCall → Option Group
  | .addSet ps => addParticleSet e g ps
  | .addGroup src => NP.addGroup e g src
  | .addSub src dats n cells layers => addSubGroup e g src dats n cells layers
  | .remove n cells layers => removeParticles e g n cells layers
  | .removeHost n cells layers => removeParticlesHost e g n cells layers
  | .remover sym key => removerRemove e e' g sym key
  | .cellMove => NP.cellMove e e' g
  | .addDat sym ncomp => addParticleDat e g sym ncomp
  | .removeDat sym => removeParticleDat g sym
  | .clear => clearGroup e g

/-- Run a history; call number `i` makes the choices `env (2 * i)` and `env (2 * i + 1)`. -/
def Group.calls (env : Nat → Env) (i : Nat) (g : Group) : List GroupCall → Option Group
  | [] => some g
  | x :: xs => (g.call (env (2 * i)) (env (2 * i + 1)) x).bind fun g => g.calls env (i + 1) xs

/-- Every call of a history has valid arguments when it is made. -/
def Spec.ValidHistory (env : Nat → Env) (i : Nat) (g : Group) : List GroupCall → Prop
  | [] => True
  | x :: xs => Valid g x ∧ ∀ g', g.call (env (2 * i)) (env (2 * i + 1)) x = some g' →
      ValidHistory env (i + 1) g' xs

end NP
