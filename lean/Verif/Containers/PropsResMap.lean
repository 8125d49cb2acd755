import Verif.Containers.LemmasResMap

/-!
# C106: temporary resources shared by key are exclusive, of the right type, reused, and freed once
-/

set_option autoImplicit false

namespace NP
open NP.Spec

/-- **C106** After any history, `get_resource` gives a resource that nobody holds and that was not freed. It was
constructed for the same key and type, with the interface of the first request for this key (this request, if there was
none since the last `free`). From then on the caller holds it, and all other holders keep theirs. -/
theorem C106_get {s s' : ResMap} (h : ResReach s) {key ty iface r : Nat} (hg : s.get key ty iface = some (r, s')) :
    r ∉ s.held ∧ r ∉ s.freed ∧ s'.held = r :: s.held ∧ s'.freed = s.freed ∧ s'.held.Nodup ∧
    ∃ i, s'.info[r]? = some (key, ty, i) ∧ (key ∈ s.keys → i = (s.stacks key).iface) ∧ (key ∉ s.keys → i = iface) := by
  obtain ⟨g1, g2, g3, g4, g5, g6, -⟩ := resInv_get (resReach_inv h) hg
  refine ⟨g2, g3, g4, g5, ?_, g6⟩
  have := (resInv_facts g1).1
  exact (List.nodup_append.mp (List.nodup_append.mp this).1).1

/-- **C106** `get_resource` fails exactly if the key is in use with another type. -/
theorem C106_get_fails (s : ResMap) (key ty iface : Nat) :
    s.get key ty iface = none ↔ key ∈ s.keys ∧ (s.stacks key).ty ≠ ty := by
  unfold ResMap.get ResMap.ensure
  by_cases hk : key ∈ s.keys
  · simp only [if_pos hk]
    by_cases ht : (s.stacks key).ty = ty
    · rw [if_pos ht]
      split <;> simp [ht]
    · rw [if_neg ht]
      simp [hk, ht]
  · simp [hk, ResMap.put]

/-- **C106** A new resource is constructed only if all resources of the key that were not freed are held. -/
theorem C106_reuse {s s' : ResMap} (h : ResReach s) {key ty iface r : Nat} (hg : s.get key ty iface = some (r, s'))
    (hnew : s'.next ≠ s.next) :
    r = s.next ∧ s'.next = s.next + 1 ∧
    ∀ x t i, s.info[x]? = some (key, t, i) → x ∈ s.held ∨ x ∈ s.freed := by
  have hi := resReach_inv h
  obtain ⟨-, -, -, -, -, -, g7, g8⟩ := resInv_get hi hg
  have hr : ¬ r < s.next := fun hx => hnew (g7 hx).2.2
  obtain ⟨a1, a2, a3⟩ := g8 hr
  refine ⟨a1, a2, fun x t i hx => ?_⟩
  obtain ⟨hlt, -⟩ := List.getElem?_eq_some_iff.mp hx
  rw [hi.len] at hlt
  have hm := (resInv_facts hi).2 x |>.mpr hlt
  rcases List.mem_append.mp hm with hm | hm
  · exact List.mem_append.mp hm
  · obtain ⟨k, k1, k2⟩ := List.mem_flatMap.mp hm
    have := hi.inStack k k1 x k2
    rw [hx] at this
    simp only [Option.some.injEq, Prod.mk.injEq] at this
    obtain ⟨rfl, -, -⟩ := this
    rw [a3 k1] at k2
    cases k2

/-- **C106** A resource that is held can be given back with its key and type; then it is not held, and the next request for
the key gives it. -/
theorem C106_restore {s : ResMap} (h : ResReach s) {r key ty iface : Nat} (hr : r ∈ s.held)
    (hi : s.info[r]? = some (key, ty, iface)) :
    ∃ s', s.restore key ty r = some s' ∧ ResReach s' ∧ r ∉ s'.held ∧ s'.held = s.held.erase r ∧
      ∀ iface', ∃ s'', s'.get key ty iface' = some (r, s'') := by
  have hinv := resReach_inv h
  obtain ⟨s', h1, h2, h3, h4⟩ := resInv_restore hinv hr hi
  have hnd := (resInv_facts hinv).1
  have hh : s.held.Nodup := (List.nodup_append.mp (List.nodup_append.mp hnd).1).1
  refine ⟨s', h1, .restore h hi h1, by rw [h3]; exact hh.not_mem_erase, h3, fun iface' => ?_⟩
  unfold ResMap.restore at h1
  split at h1
  · rename_i hk
    simp only at h1
    split at h1
    · rename_i hty
      rw [Option.some.injEq] at h1
      subst h1
      simp [ResMap.get, ResMap.ensure, ResMap.put, hk, hty]
    · cases h1
  · cases h1

/-- **C106** `free` fails exactly if a resource is held, for any order of the entries. Otherwise every resource that was
ever constructed has then been freed exactly once, and no keys are left. -/
theorem C106_free {s : ResMap} (h : ResReach s) (order : List Nat) (ho : order.Perm s.keys) :
    (s.free order = none ↔ s.held ≠ []) ∧
    ∀ s', s.free order = some s' → s'.freed.Perm (List.range s.next) ∧ s'.keys = [] ∧ s'.held = [] := by
  obtain ⟨f1, f2⟩ := resInv_free (resReach_inv h) ho
  refine ⟨⟨fun hf hh => ?_, f1⟩, fun s' hf => ?_⟩
  · obtain ⟨t, t1, -⟩ := f2 hh
    rw [hf] at t1
    cases t1
  · by_cases hh : s.held = []
    · obtain ⟨t, t1, t2, t3, t4, t5, t6⟩ := f2 hh
      rw [hf, Option.some.injEq] at t1
      subst t1
      exact ⟨t4, t6, t3⟩
    · rw [f1 hh] at hf
      cases hf

namespace Ex

/-- Two requests with key 0, one with key 1, one restored. -/
def resHistory : Option ResMap := do
  let (_, s) ← ResMap.init.get 0 7 100
  let (r, s) ← s.get 0 7 101
  let (_, s) ← s.get 1 7 102
  s.restore 0 7 r

/-- A resource of key 0 restored with key 1, which holds resources of the same type. -/
def wrongKeyHistory : Option (Nat × ResMap) := do
  let (a, s) ← ResMap.init.get 0 7 100
  let (b, s) ← s.get 1 7 200
  let s ← s.restore 1 7 b
  let s ← s.restore 1 7 a
  s.get 1 7 200

end Ex

/-- The key is not checked: a resource of key 0, made by interface 100, that is restored with another key of the same type
is accepted and is then given to users of that key; and although all resources are restored afterwards, `free` fails. -/
theorem C106_wrong_key :
    (Ex.wrongKeyHistory.bind fun p => some (p.1, p.2.info[p.1]?)) = some (0, some (0, 7, 100)) ∧
    (Ex.wrongKeyHistory.bind fun p => (p.2.restore 1 7 p.1).bind fun s => some (s.held, (s.free [0, 1]).isNone)) =
      some ([], true) := by
  constructor <;> decide +kernel

namespace Ex

example : (resHistory.bind fun s => some (s.held, s.next, s.keys)) = some ([2, 0], 3, [1, 0]) := by decide +kernel

/-- The restored resource is given again, a request of another type for the key fails. -/
example : (resHistory.bind fun s => (s.get 0 7 5).map (·.1)) = some 1 ∧
    (resHistory.bind fun s => some (s.get 0 8 5).isNone) = some true := by decide +kernel

example : ∃ s, resHistory = some s ∧ ResReach s ∧ s.held ≠ [] := by
  refine ⟨_, rfl, ?_, by decide +kernel⟩
  exact .restore (key := 0) (ty := 7) (iface := 100) (r := 1)
    (.get (key := 1) (ty := 7) (iface := 102) (r := 2)
      (.get (key := 0) (ty := 7) (iface := 101) (r := 1)
        (.get (key := 0) (ty := 7) (iface := 100) (r := 0) .init rfl) rfl) rfl) rfl rfl

/-- All restored: everything is freed, in either order of the entries. -/
example : (resHistory.bind fun s => (s.restore 0 7 0).bind fun s => (s.restore 1 7 2).bind fun s =>
    (s.free [0, 1]).bind fun s => some s.freed) = some [0, 1, 2] ∧
    (resHistory.bind fun s => (s.restore 0 7 0).bind fun s => (s.restore 1 7 2).bind fun s =>
    (s.free [1, 0]).bind fun s => some s.freed) = some [2, 0, 1] := by decide +kernel

end Ex

end NP
