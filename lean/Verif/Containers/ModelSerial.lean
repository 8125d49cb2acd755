import Verif.Common.Kernel

/-!
# Model: serialised containers

Models `include/neso_particles/mesh_hierarchy_data/serial_container.hpp` and the cell
buffers of `mesh_hierarchy_container.hpp`.  Memory is a list of bytes; reads and writes
outside of an allocation are `none`.
-/

set_option autoImplicit false

namespace NP

/-- A byte. -/
abbrev Byte := Fin 256

/-- The bytes of an unsigned integer of `k` bytes, least significant byte first. -/
def encNat : Nat → Nat → List Byte
  | 0, _ => []
  | k + 1, n => (⟨n % 256, Nat.mod_lt _ (by decide)⟩ : Byte) :: encNat k (n / 256)

/-- The unsigned integer with these bytes. -/
def decNat : List Byte → Nat
  | [] => 0
  | b :: bs => b.val + 256 * decNat bs

/-- `sizeof(std::size_t)`. -/
def sizeofSize : Nat := 8

/-- `std::numeric_limits<std::size_t>::max()`. -/
def sizeTMax : Nat := 2 ^ 64 - 1

/-- The bytes of an `INT` (64 bits, two's complement). -/
def encInt (x : Int) : List Byte := encNat 8 (x % 2 ^ 64).toNat

/-- The `INT` with these bytes. -/
def decInt (bs : List Byte) : Int :=
  let n := decNat bs
  if n < 2 ^ 63 then n else n - 2 ^ 64

/-- `memcpy(buffer + pos, src, n)`. -/
def writeBytes (buffer : List Byte) (pos : Nat) (src : List Byte) : Option (List Byte) :=
  if pos + src.length ≤ buffer.length then
    some (buffer.take pos ++ src ++ buffer.drop (pos + src.length))
  else none

/-- `memcpy(dst, buffer + pos, n)`. -/
def readBytes (buffer : List Byte) (pos n : Nat) : Option (List Byte) :=
  if pos + n ≤ buffer.length then some ((buffer.drop pos).take n) else none

/-- `SerialInterface`, `mesh_hierarchy_data/serial_interface.hpp:12-39`: what a user type
implements.  `serialise t n` are the bytes written into space of size `n`, `deserialise`
reads them. -/
structure Serial (T : Type) where
  numBytes : T → Nat
  serialise : T → Nat → Option (List Byte)
  deserialise : List Byte → Nat → Option T

/-- The first loop of the constructor, `serial_container.hpp:46-53`: the sizes and the size
of the buffer. -/
def serialSizes {T : Type} (I : Serial T) : List T → List Nat × Nat
  | [] => ([], 0)
  | t :: ts =>
    let (sizes, offset) := serialSizes I ts
    (I.numBytes t :: sizes, I.numBytes t + sizeofSize + offset)

/-- The second loop of the constructor, `serial_container.hpp:57-64`: buffer and position. -/
def serialWrite {T : Type} (I : Serial T) (inputs : List T) (sizes : List Nat) (ix : Nat)
    (s : List Byte × Nat) : Option (List Byte × Nat) :=
  (sizes[ix]?).bind fun size => (inputs[ix]?).bind fun t =>
  (writeBytes s.1 s.2 (encNat sizeofSize size)).bind fun buf =>
  let pos := s.2 + sizeofSize
  (I.serialise t size).bind fun bytes =>
  (writeBytes buf pos bytes).bind fun buf => some (buf, pos + size)

/-- Constructor from objects, `serial_container.hpp:39-68`. -/
def serialCreate {T : Type} (I : Serial T) (inputs : List T) : Option (List Byte) :=
  let (sizes, offset) := serialSizes I inputs
  (forLoop 0 inputs.length (fun ix s => serialWrite I inputs sizes ix s)
    (List.replicate offset 0, 0)).bind fun (buf, pos) =>
  if pos = offset then some buf else none

/-- The counting loop of `get`, `serial_container.hpp:86-93`. The first number bounds the
number of iterations. -/
def serialCount (buffer : List Byte) : Nat → Nat → Nat → Option Nat
  | 0, _, _ => none
  | fuel + 1, pos, num =>
    if pos < buffer.length then
      (readBytes buffer pos sizeofSize).bind fun bs =>
      let size := decNat bs
      if size < sizeTMax then serialCount buffer fuel (pos + size + sizeofSize) (num + 1) else none
    else some num

/-- The second loop of `get`, `serial_container.hpp:98-105`: the objects that are written. -/
def serialRead {T : Type} (I : Serial T) (buffer : List Byte) : Nat → Nat → Option (List T)
  | 0, _ => none
  | fuel + 1, pos =>
    if pos < buffer.length then
      (readBytes buffer pos sizeofSize).bind fun bs =>
      let size := decNat bs
      (readBytes buffer (pos + sizeofSize) size).bind fun payload =>
      (I.deserialise payload size).bind fun t =>
      (serialRead I buffer fuel (pos + sizeofSize + size)).bind fun ts => some (t :: ts)
    else some []

/-- `SerialContainer::get`, `serial_container.hpp:75-106`. The objects are written into a
vector with the counted number of default objects. -/
def serialGet {T : Type} (I : Serial T) (default : T) (buffer : List Byte) : Option (List T) :=
  if buffer.length = 0 then some [] else
  (serialCount buffer (buffer.length + 1) 0 0).bind fun num =>
  (serialRead I buffer (buffer.length + 1) 0).bind fun ts =>
  if ts.length ≤ num then some (ts ++ List.replicate (num - ts.length) default) else none

/-- `SerialContainer::append`, `serial_container.hpp:114-118`. -/
def serialAppend (a b : List Byte) : List Byte := a ++ b

/-- `MHCellBuffer`, `mesh_hierarchy_container.hpp:59-65`. -/
structure CellBuffer where
  cell : Int
  buffer : List Byte
  deriving DecidableEq

/-- `MHCellBuffer::serialise`, `mesh_hierarchy_container.hpp:69-80`. -/
def CellBuffer.serialise (m : CellBuffer) (n : Nat) : Option (List Byte) :=
  let bufferSize := m.buffer.length
  let pos := 8 + sizeofSize
  if pos + bufferSize = n then some (encInt m.cell ++ encNat sizeofSize bufferSize ++ m.buffer)
  else none

/-- `MHCellBuffer::deserialise`, `mesh_hierarchy_container.hpp:81-95`. -/
def CellBuffer.deserialise (bytes : List Byte) (n : Nat) : Option CellBuffer :=
  (readBytes bytes 0 8).bind fun c => (readBytes bytes 8 sizeofSize).bind fun s =>
  let bufferSize := decNat s
  if bufferSize < sizeTMax then
    (readBytes bytes (8 + sizeofSize) bufferSize).bind fun buf =>
    if 8 + sizeofSize + bufferSize = n then some ⟨decInt c, buf⟩ else none
  else none

/-- `MHCellBuffer` as a serialisable type, `mesh_hierarchy_container.hpp:58-96`. -/
def cellBufferSerial : Serial CellBuffer where
  numBytes m := 8 + sizeofSize + m.buffer.length
  serialise := CellBuffer.serialise
  deserialise := CellBuffer.deserialise

end NP
