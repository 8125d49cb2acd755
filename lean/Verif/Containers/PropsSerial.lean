import Verif.Containers.LemmasSerial

/-!
# Property C45: serialised containers
-/

set_option autoImplicit false

namespace NP

open Spec

/-- **C45** However a container is made from objects of a correctly implemented type, by
construction from vectors and appending, in any nesting: making it succeeds, and `get`
returns exactly the objects, in order. -/
theorem C45_round_trip {T : Type} (I : Serial T) (default : T) (e : SerialExpr T)
    (h : ∀ t ∈ e.objects, Serial.Good I t) :
    ∃ buffer, e.build I = some buffer ∧ serialGet I default buffer = some e.objects :=
  ⟨_, SerialExpr.build_eq I e h, serialGet_eq I default e.objects h⟩

/-- **C45** A cell buffer is a correctly implemented type (for cells of an `INT` and buffers
that fit into memory), hence containers of cell buffers round trip. -/
theorem C45_cell_buffer (default : CellBuffer) (e : SerialExpr CellBuffer)
    (h : ∀ m ∈ e.objects, (-2 ^ 63 ≤ m.cell ∧ m.cell < 2 ^ 63) ∧ m.buffer.length + 16 < sizeTMax) :
    ∃ buffer, e.build cellBufferSerial = some buffer ∧
      serialGet cellBufferSerial default buffer = some e.objects :=
  C45_round_trip cellBufferSerial default e fun m hm => cellBuffer_good m (h m hm).1 (h m hm).2

/-- **C45** Nesting: a container of objects put into a cell buffer, the cell buffer into a
container, and everything read back. -/
theorem C45_nested {T : Type} (I : Serial T) (default : T) (d : CellBuffer) (cell : Int)
    (e : SerialExpr T) (inner : List Byte) (h : ∀ t ∈ e.objects, Serial.Good I t)
    (hb : e.build I = some inner)
    (hc : -2 ^ 63 ≤ cell ∧ cell < 2 ^ 63) (hs : inner.length + 16 < sizeTMax) :
    ∃ outer m, serialCreate cellBufferSerial [⟨cell, inner⟩] = some outer ∧
      serialGet cellBufferSerial d outer = some [m] ∧ m.cell = cell ∧
      serialGet I default m.buffer = some e.objects := by
  have hg : ∀ m ∈ [(⟨cell, inner⟩ : CellBuffer)], Serial.Good cellBufferSerial m := by
    intro m hm
    rw [List.mem_singleton] at hm
    subst hm
    exact cellBuffer_good _ hc hs
  refine ⟨_, ⟨cell, inner⟩, serialCreate_eq _ _ hg, serialGet_eq _ d _ hg, rfl, ?_⟩
  rw [SerialExpr.build_eq I e h] at hb
  cases hb
  exact serialGet_eq I default e.objects h

/-- A user type for the examples: lists of bytes of variable length. -/
def Ex.rawSerial : Serial (List Byte) where
  numBytes t := t.length
  serialise t n := if t.length = n then some t else none
  deserialise bs n := if bs.length = n then some bs else none

-- A container with objects of different sizes (one of them empty).
example : (∀ t ∈ (SerialExpr.append (.ofList [[1, 2, 3], []]) (.append .empty (.ofList [[7]])) :
      SerialExpr (List Byte)).objects, Serial.Good Ex.rawSerial t) ∧
    (SerialExpr.append (.ofList [[1, 2, 3], []]) (.append .empty (.ofList [[7]])) :
      SerialExpr (List Byte)).build Ex.rawSerial =
    some [3, 0, 0, 0, 0, 0, 0, 0, 1, 2, 3, 0, 0, 0, 0, 0, 0, 0, 0, 1, 0, 0, 0, 0, 0, 0, 0, 7] := by
  refine ⟨?_, by decide⟩
  intro t ht
  simp only [SerialExpr.objects, List.nil_append, List.cons_append, List.mem_cons,
    List.not_mem_nil, or_false] at ht
  refine ⟨?_, t, by simp [Ex.rawSerial], rfl, by simp [Ex.rawSerial]⟩
  rcases ht with rfl | rfl | rfl <;> simp [Ex.rawSerial, sizeTMax]

end NP
