import Verif.Loop.LemmasLocalMem

/-!
# Property C101: local memory of particle loops
-/

set_option autoImplicit false

namespace NP

open Spec

/-- **C101** The work groups of a loop fit into the local memory of the device: with
what the loop itself needs per work group and per particle (`groupBytes`, `itemBytes`)
and the memory of all arguments.  They are never larger than requested and never empty;
if they are smaller than requested their size is a power of two, and twice as many
particles would not fit.  Loops that need no local memory get the requested size. -/
theorem C101_fits {localMem groupBytes itemBytes default n : Nat} {args : List LoopArg}
    (h : getLocalSizeArgs localMem groupBytes itemBytes default args = some n) :
    (itemBytes + bytesPerParticle args = 0 → n = default) ∧
    (0 < itemBytes + bytesPerParticle args →
      0 < n ∧ n ≤ default ∧ bytesPerGroup n args + n * itemBytes + groupBytes ≤ localMem ∧
      (n < default → (∃ k, n = 2 ^ k) ∧
        localMem < bytesPerGroup (2 * n) args + 2 * n * itemBytes + groupBytes)) := by
  unfold getLocalSizeArgs at h
  rw [foldl_bytes] at h
  obtain ⟨h1, h2⟩ := numLocal_spec h
  refine ⟨h1, fun hB => ?_⟩
  obtain ⟨a1, a2, a3, a4⟩ := h2 hB
  rw [bytesPerGroup_eq, bytesPerGroup_eq]
  rw [Nat.mul_add] at a3
  refine ⟨a1, a2, by omega, fun hlt => ?_⟩
  obtain ⟨b1, b2⟩ := a4 hlt
  rw [Nat.mul_add] at b2
  exact ⟨b1, by omega⟩

/-- **C101** A loop is not launched exactly if it needs local memory and the memory of a
single particle does not fit, or no particles are requested. -/
theorem C101_refused {localMem groupBytes itemBytes default : Nat} {args : List LoopArg} :
    getLocalSizeArgs localMem groupBytes itemBytes default args = none ↔
      0 < itemBytes + bytesPerParticle args ∧
      (default = 0 ∨ localMem < groupBytes + itemBytes + bytesPerParticle args) := by
  unfold getLocalSizeArgs
  rw [foldl_bytes, numLocal_none, Nat.add_assoc]

/-- **C101** The loop calls its kernel once for each particle in the requested cells,
also if local memory makes its work groups small. -/
theorem C101_each_particle_once {localMem groupBytes itemBytes default nbin n : Nat}
    {args : List LoopArg} {npartLb : List Nat} {hasGroup : Bool} {npartLocal : Nat}
    {cs ce : Option Int} (hn : getLocalSizeArgs localMem groupBytes itemBytes default args = some n)
    (hok : LaunchOk ⟨localMem, nbin, n⟩ npartLb hasGroup npartLocal)
    (hc : CellArgsOk npartLb.length cs ce) :
    ∃ calls, submitCalls localMem groupBytes itemBytes default nbin args npartLb hasGroup
        npartLocal cs ce = some (n, calls) ∧
      VisitsExactlyOnce (calls.map KernelCall.particle)
        (fun c k => CellRequested cs ce c ∧ IsParticle npartLb c k) := by
  obtain ⟨l, h1, h2⟩ := C07_each_particle_once hok hc
  obtain ⟨calls, h3⟩ := submitCalls_exists hn h1
  obtain ⟨-, h4, -⟩ := submitCalls_ok h3
  rw [h1] at h4
  obtain rfl := Option.some.inj h4
  exact ⟨calls, h3, h2⟩

/-- **C101** Local memory is private to a particle.  In whatever order the accesses of
all calls of the kernel reach the memory, and whatever the memory contains at first:
no access is outside of the memory that was set aside, and a kernel that reads an element
after having written to it reads what it wrote last for its own particle. -/
theorem C101_private {V : Type} {localMem groupBytes itemBytes default nbin n : Nat}
    {args : List LoopArg} {npartLb : List Nat} {hasGroup : Bool} {npartLocal : Nat}
    {cs ce : Option Int} {calls : List KernelCall}
    (h : submitCalls localMem groupBytes itemBytes default nbin args npartLb hasGroup
      npartLocal cs ce = some (n, calls))
    (hok : LaunchOk ⟨localMem, nbin, n⟩ npartLb hasGroup npartLocal)
    (hc : CellArgsOk npartLb.length cs ce)
    {accesses : List (KernelCall × LocalOp V)}
    (ha : ∀ x ∈ accesses, x.1 ∈ calls ∧ LocalOpAllowed args x.2) (m : LocalMem V) :
    ∃ vs, localRun args n accesses m = some vs ∧ vs.length = accesses.length ∧
      ∀ (j : Nat) c a i, accesses[j]? = some (c, .read a i) → ∀ v,
        lastWritten c.particle a i (accesses.take j).reverse = some v →
        vs[j]? = some (some v) := by
  obtain ⟨-, h1, bs, h2⟩ := submitCalls_ok h
  obtain ⟨l, h3, h4⟩ := C07_each_particle_once hok hc
  rw [h1] at h3
  obtain rfl := Option.some.inj h3
  obtain ⟨vs, v1, v2, v3⟩ := localRun_ok h2 h4.1 accesses [] m ha
    (by intro c _ a i arg e v _ _ _ hv; simp [lastWritten] at hv)
  exact ⟨vs, v1, v2, fun j c a i hj v hv => v3 j c a i hj v (by simpa using hv)⟩

/-! A device with 200 bytes of local memory, and a loop over two cells of three and five
particles with two arguments that take 24 bytes per particle. -/

example : getLocalSizeArgs 200 0 0 32 [.block 2 8, .other, .interlaced 2 4] = some 8 := by
  decide +kernel

example : getLocalSizeArgs 100 0 0 32 [.block 2 8, .other, .interlaced 2 4] = some 4 := by
  decide +kernel

example : getLocalSizeArgs 20 0 0 32 [.block 2 8, .other, .interlaced 2 4] = none := by
  decide +kernel

example : getLocalSizeArgs 20 0 0 32 [.other, .other] = some 32 := by decide +kernel

example : LaunchOk ⟨100, 4, 4⟩ [3, 5] true 8 :=
  ⟨by decide, by decide, by decide, by decide, by decide⟩

/-- Two work groups in the second cell: the last particle has the same local index as the
first one, in a work group of its own. -/
example : ∃ calls, submitCalls 100 0 0 32 4 [.block 2 8, .other, .interlaced 2 4] [3, 5] true 8
      none none = some (4, calls) ∧
    (⟨1, (0, 0), 0, 4, (1, 0)⟩ : KernelCall) ∈ calls ∧
    (⟨1, (0, 0), 1, 4, (1, 1)⟩ : KernelCall) ∈ calls ∧
    (⟨1, (0, 1), 0, 4, (1, 4)⟩ : KernelCall) ∈ calls := by
  refine ⟨_, rfl, ?_, ?_, ?_⟩ <;> decide +kernel

/-- Interleaved accesses of two particles of one work group: each reads its own value. -/
example : localRun [.block 2 8, .other, .interlaced 2 4] 4
    [(⟨1, (0, 0), 0, 4, (1, 0)⟩, LocalOp.write 2 1 "a"),
     (⟨1, (0, 0), 1, 4, (1, 1)⟩, LocalOp.write 2 1 "b"),
     (⟨1, (0, 0), 0, 4, (1, 0)⟩, LocalOp.read 2 1),
     (⟨1, (0, 0), 1, 4, (1, 1)⟩, LocalOp.read 2 1)] (fun _ _ _ _ => "?") =
    some [none, none, some "a", some "b"] := by decide +kernel

end NP
