import Mathlib.Logic.Function.Basic
import Mathlib.Data.List.Basic

/-!
# Ranks that exchange point to point messages

A meaning for `MPI_Send` and `MPI_Recv` with a given source and tag, by all ranks of a
communicator at once. Messages from one rank to another with one tag are received in the order
in which they were sent (the non-overtaking rule of MPI). A send may be buffered, so that the
sender goes on at once, or may wait until the receiver takes the message; which of the two
happens is chosen anew for each send.
-/

set_option autoImplicit false

namespace NP

/-- The program that a rank has yet to run. `fail` is a failed assertion or an MPI error. -/
inductive Proc (M R : Type) where
  | done (r : R)
  | fail
  | send (dst tag : Nat) (m : M) (k : Proc M R)
  | recv (src tag : Nat) (k : M → Proc M R)

/-- All ranks and the messages that were sent and not yet received. -/
structure Net (M R : Type) where
  proc : Nat → Proc M R
  /-- messages by source, destination and tag, oldest first -/
  chan : Nat → Nat → Nat → List M

variable {M R : Type}

/-- Replaces the messages of one source, destination and tag. -/
def setChan (c : Nat → Nat → Nat → List M) (src dst tag : Nat) (l : List M) :
    Nat → Nat → Nat → List M :=
  fun a b t => if a = src ∧ b = dst ∧ t = tag then l else c a b t

/-- Rank `a` sends a message that is buffered. -/
inductive Net.Buffer : Net M R → Net M R → Prop where
  | mk {s : Net M R} (a dst tag : Nat) (m : M) (k : Proc M R) (h : s.proc a = .send dst tag m k) :
      Net.Buffer s ⟨Function.update s.proc a k,
        setChan s.chan a dst tag (s.chan a dst tag ++ [m])⟩

/-- Rank `b` receives a message that was buffered. -/
inductive Net.Take : Net M R → Net M R → Prop where
  | mk {s : Net M R} (b src tag : Nat) (m : M) (ms : List M) (k : M → Proc M R)
      (h : s.proc b = .recv src tag k) (hc : s.chan src b tag = m :: ms) :
      Net.Take s ⟨Function.update s.proc b (k m), setChan s.chan src b tag ms⟩

/-- Rank `a` sends a message directly to rank `b`, which is waiting for it. -/
inductive Net.Meet : Net M R → Net M R → Prop where
  | mk {s : Net M R} (a b tag : Nat) (m : M) (k : Proc M R) (k' : M → Proc M R)
      (h : s.proc a = .send b tag m k) (h' : s.proc b = .recv a tag k')
      (hc : s.chan a b tag = []) :
      Net.Meet s ⟨Function.update (Function.update s.proc a k) b (k' m), s.chan⟩

/-- Anything that may happen. -/
def Net.Step (s t : Net M R) : Prop := Net.Buffer s t ∨ Net.Take s t ∨ Net.Meet s t

/-- A step that MPI guarantees to happen even if it never buffers a message. -/
def Net.Progress (s t : Net M R) : Prop := Net.Take s t ∨ Net.Meet s t

/-- `n` steps. -/
inductive Net.Run : Nat → Net M R → Net M R → Prop where
  | refl (s : Net M R) : Net.Run 0 s s
  | step {n : Nat} {s t u : Net M R} (h : Net.Step s t) (r : Net.Run n t u) : Net.Run (n + 1) s u

namespace Spec

/-- Whatever the order of the ranks and whichever messages are buffered, the ranks end in state
`f`: there is a bound on the number of steps, and a state other than `f` can always go on without
relying on buffers. -/
def EndsIn (s f : Net M R) : Prop :=
  (∃ N, ∀ n u, Net.Run n s u → n ≤ N ∧ (u = f ∨ ∃ v, Net.Progress u v)) ∧ ∀ v, ¬ Net.Step f v

end Spec

end NP
