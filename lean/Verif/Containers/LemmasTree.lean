import Verif.Containers.SpecTree
import Verif.Common.KernelLemmas
import Mathlib.Tactic.Ring

/-!
# Lemmas: blocked binary tree
-/

set_option autoImplicit false

namespace NP

open Spec

variable {V : Type}

theorem getNodeKey_eq (w : Nat) (hw : 0 < w) (key : Int) : getNodeKey w key = key / w := by
  unfold getNodeKey
  by_cases h : key < 0
  · rw [if_pos h]
    rw [Int.tdiv_eq_ediv_of_nonneg (by omega)]
    have h1 := Int.emod_nonneg (-key - 1) (b := (w : Int)) (by omega)
    have h2 := Int.emod_lt_of_pos (-key - 1) (b := (w : Int)) (by omega)
    have h3 := Int.mul_ediv_add_emod (-key - 1) (w : Int)
    have h4 := Int.emod_nonneg key (b := (w : Int)) (by omega)
    have h5 := Int.emod_lt_of_pos key (b := (w : Int)) (by omega)
    have h6 := Int.mul_ediv_add_emod key (w : Int)
    generalize (-key - 1) / (w : Int) = a at *
    generalize key / (w : Int) = b at *
    have h7 : (w : Int) * (a + b + 1) = w * a + w * b + w := by ring
    have h8 : (w : Int) * (a + b + 1) < w * 1 := by omega
    have h9 : (w : Int) * (-1) < w * (a + b + 1) := by omega
    have h10 := Int.lt_of_mul_lt_mul_left h8 (by omega)
    have h11 := Int.lt_of_mul_lt_mul_left h9 (by omega)
    omega
  · rw [if_neg h, Int.tdiv_eq_ediv_of_nonneg (by omega)]

theorem getLeafKey_eq (w : Nat) (hw : 0 < w) (key : Int) : getLeafKey w key = key % w := by
  have hn := getNodeKey_eq w hw key
  have h6 := Int.mul_ediv_add_emod key (w : Int)
  rw [← hn] at h6
  unfold getNodeKey at h6
  unfold getLeafKey
  by_cases h : key < 0
  · rw [if_pos h] at h6
    rw [if_pos h]
    have h3 := Int.mul_tdiv_add_tmod (-key - 1) (w : Int)
    have h7 : (w : Int) * -(Int.tdiv (-key - 1) w + 1) = -(w * Int.tdiv (-key - 1) w) - w := by ring
    omega
  · rw [if_neg h] at h6
    rw [if_neg h]
    have h3 := Int.mul_tdiv_add_tmod key (w : Int)
    omega

/-- A search for `k` from a pointer: number of nodes visited and result. -/
inductive Search (heap : List (TreeNode V)) (k : Int) : Option Nat → Nat → Option Nat → Prop
  | null : Search heap k none 0 none
  | found {p : Nat} {n : TreeNode V} : heap[p]? = some n → n.key = k →
      Search heap k (some p) 1 (some p)
  | step {p : Nat} {n : TreeNode V} {c : Nat} {r : Option Nat} : heap[p]? = some n → n.key ≠ k →
      Search heap k (n.next p k) c r → Search heap k (some p) (c + 1) r

theorem Search.loop {heap : List (TreeNode V)} {k : Int} {ptr : Option Nat} {c : Nat}
    {r : Option Nat} (h : Search heap k ptr c r) : ∀ fuel, c + 2 ≤ fuel →
      ∃ b q, locationLoop heap k fuel false ptr = some (b, q) ∧
        (b = true → r = q ∧ q.isSome) ∧ (b = false → r = none) := by
  induction h with
  | null =>
    intro fuel hf
    obtain ⟨f, rfl⟩ : ∃ f, fuel = f + 1 := ⟨fuel - 1, by omega⟩
    exact ⟨false, none, by simp [locationLoop], by simp, by simp⟩
  | @found p n hp hk =>
    intro fuel hf
    obtain ⟨f, rfl⟩ : ∃ f, fuel = f + 2 := ⟨fuel - 2, by omega⟩
    exact ⟨true, some p, by simp [locationLoop, rd, hp, hk], by simp, by simp⟩
  | @step p n c r hp hk hs ih =>
    intro fuel hf
    obtain ⟨f, rfl⟩ : ∃ f, fuel = f + 1 := ⟨fuel - 1, by omega⟩
    obtain ⟨b, q, e, h1, h2⟩ := ih f (by omega)
    exact ⟨b, q, by simp [locationLoop, rd, hp, hk, e], h1, h2⟩

theorem Search.getLocation {heap : List (TreeNode V)} {k : Int} {root c : Nat}
    {r : Option Nat} (h : Search heap k (some root) c r) (hc : c ≤ heap.length) :
    NP.getLocation heap root k = some r := by
  obtain ⟨b, q, e, h1, h2⟩ := h.loop (heap.length + 2) (by omega)
  unfold NP.getLocation
  cases h with
  | @found _ n hp hk =>
    simp [rd, hp, hk, locationLoop]
  | @step _ n c r hp hk hs =>
    simp only [rd, hp, Option.bind_some, hk, decide_false, e]
    cases b with
    | true =>
      obtain ⟨rfl, hq⟩ := h1 rfl
      obtain ⟨q, rfl⟩ := Option.isSome_iff_exists.mp hq
      simp
    | false => rw [h2 rfl]; simp

/-- A search that finds nothing ends in `addLoop` at a node whose link is null. -/
theorem Search.addLoop {heap : List (TreeNode V)} {k : Int} {c : Nat} {ptr r : Option Nat}
    (h : Search heap k ptr c r) (hr : r = none) : ∀ p, ptr = some p → ∀ fuel, c ≤ fuel →
      ∃ q nq, NP.addLoop heap k fuel p = some q ∧ heap[q]? = some nq ∧ nq.key ≠ k ∧
        nq.next q k = none := by
  induction h with
  | null => intro p hp; cases hp
  | found => cases hr
  | @step p' n c r hp hk hs ih =>
    intro p e fuel hf
    cases e
    obtain ⟨f, rfl⟩ : ∃ f, fuel = f + 1 := ⟨fuel - 1, by omega⟩
    simp only [NP.addLoop, rd, hp, Option.bind_some]
    cases hn : n.next p' k with
    | none => exact ⟨p', n, rfl, hp, hk, hn⟩
    | some q => exact ih hr q hn f (by omega)

/-- A search is not changed by replacing other parts of the nodes. -/
theorem Search.congr {heap heap' : List (TreeNode V)} {k : Int}
    (hh : ∀ (p : Nat) (n : TreeNode V), heap[p]? = some n → ∃ n', heap'[p]? = some n' ∧ n'.key = n.key ∧
      n'.lhs = n.lhs ∧ n'.rhs = n.rhs) {ptr : Option Nat} {c : Nat} {r : Option Nat}
    (h : Search heap k ptr c r) : Search heap' k ptr c r := by
  induction h with
  | null => exact Search.null
  | @found p n hp hk =>
    obtain ⟨n', hp', e1, -, -⟩ := hh p n hp
    exact Search.found hp' (by rw [e1, hk])
  | @step p n c r hp hk hs ih =>
    obtain ⟨n', hp', e1, e2, e3⟩ := hh p n hp
    refine Search.step hp' (by rw [e1]; exact hk) ?_
    have : n'.next p k = n.next p k := by unfold TreeNode.next; rw [e1, e2, e3]
    rw [this]; exact ih

/-- `heap'` is `heap` with a new node for `knew`, and the null link of `q` on the side of
`knew` set to it. -/
structure Linked (heap heap' : List (TreeNode V)) (knew : Int) (q new : Nat) : Prop where
  other : ∀ (p : Nat) (n : TreeNode V), heap[p]? = some n → p ≠ q → heap'[p]? = some n
  link : ∃ nq nq' : TreeNode V, heap[q]? = some nq ∧ heap'[q]? = some nq' ∧ nq'.key = nq.key ∧
    nq.key ≠ knew ∧ nq.next q knew = none ∧ nq'.next q knew = some new ∧
    nq'.exist = nq.exist ∧ nq'.data = nq.data ∧
    (if knew < nq.key then nq'.rhs = nq.rhs else nq'.lhs = nq.lhs)
  node : ∃ nn : TreeNode V, heap'[new]? = some nn ∧ nn.key = knew ∧ nn.lhs = none ∧ nn.rhs = none

theorem Linked.other_key {heap heap' : List (TreeNode V)} {knew : Int} {q new : Nat}
    (L : Linked heap heap' knew q new) {k : Int} (hk : k ≠ knew) {ptr : Option Nat} {c : Nat}
    {r : Option Nat} (h : Search heap k ptr c r) :
    ∃ c', c' ≤ c + 1 ∧ Search heap' k ptr c' r := by
  obtain ⟨nq, nq', hq, hq', e1, e2, e3, e4, -, -, e5⟩ := L.link
  obtain ⟨nn, hn, f1, f2, f3⟩ := L.node
  induction h with
  | null => exact ⟨0, by omega, Search.null⟩
  | @found p n hp hkey =>
    by_cases hpq : p = q
    · subst hpq
      rw [hp] at hq; cases hq
      exact ⟨1, by omega, Search.found hq' (by rw [e1, hkey])⟩
    · exact ⟨1, by omega, Search.found (L.other p n hp hpq) hkey⟩
  | @step p n c r hp hkey hs ih =>
    obtain ⟨c', hc', hs'⟩ := ih
    by_cases hpq : p = q
    · subst hpq
      rw [hp] at hq; cases hq
      have hkey' : nq'.key ≠ k := by rw [e1]; exact hkey
      by_cases hside : (k < nq.key ↔ knew < nq.key)
      · -- the side of the new node
        have h1 : nq.next p k = nq.next p knew := by
          unfold TreeNode.next
          by_cases h : k < nq.key
          · rw [if_pos h, if_pos (hside.mp h)]
          · rw [if_neg h, if_neg (mt hside.mpr h), if_pos (by omega),
              if_pos (by have := mt hside.mpr h; omega)]
        have h2 : nq'.next p k = nq'.next p knew := by
          unfold TreeNode.next
          rw [e1]
          by_cases h : k < nq.key
          · rw [if_pos h, if_pos (hside.mp h)]
          · rw [if_neg h, if_neg (mt hside.mpr h), if_pos (by omega),
              if_pos (by have := mt hside.mpr h; omega)]
        rw [h1, e3] at hs
        cases hs
        refine ⟨2, by omega, Search.step hq' hkey' ?_⟩
        rw [h2, e4]
        refine Search.step (c := 0) hn (by rw [f1]; exact hk.symm) ?_
        have : nn.next new k = none := by
          unfold TreeNode.next
          rw [f1, f2, f3]
          by_cases h : k < knew
          · rw [if_pos h]
          · rw [if_neg h, if_pos (by omega)]
        rw [this]; exact Search.null
      · have : nq'.next p k = nq.next p k := by
          unfold TreeNode.next
          rw [e1]
          by_cases h : k < nq.key
          · rw [if_pos h, if_pos h]
            have : ¬ knew < nq.key := fun h' => hside ⟨fun _ => h', fun _ => h⟩
            rw [if_neg this] at e5; exact e5
          · rw [if_neg h, if_neg h]
            have : knew < nq.key := by
              by_contra h'; exact hside ⟨fun x => absurd x h, fun x => absurd x h'⟩
            rw [if_pos this] at e5
            rw [if_pos (by omega), if_pos (by omega)]; exact e5
        exact ⟨c' + 1, by omega, Search.step hq' hkey' (by rw [this]; exact hs')⟩
    · exact ⟨c' + 1, by omega, Search.step (L.other p n hp hpq) hkey hs'⟩

theorem Linked.new_key {heap heap' : List (TreeNode V)} {knew : Int} {q new : Nat}
    (L : Linked heap heap' knew q new) {ptr : Option Nat} {c : Nat} {r : Option Nat}
    (h : Search heap knew ptr c r) (hr : r = none) : ∀ p fuel, ptr = some p →
    NP.addLoop heap knew fuel p = some q → Search heap' knew ptr (c + 1) (some new) := by
  obtain ⟨nq, nq', hq, hq', e1, e2, e3, e4, -, -, e5⟩ := L.link
  obtain ⟨nn, hn, f1, f2, f3⟩ := L.node
  induction h with
  | null => intro p _ hp; cases hp
  | found => cases hr
  | @step p n c r hp hkey hs ih =>
    intro p0 fuel e hl
    cases e
    cases fuel with
    | zero => cases hl
    | succ f =>
      simp only [NP.addLoop, rd, hp, Option.bind_some] at hl
      cases hnx : n.next p knew with
      | none =>
        rw [hnx] at hl hs
        cases hl
        cases hs
        refine Search.step hq' (by rw [e1]; exact e2) ?_
        rw [e4]
        exact Search.found hn f1
      | some p1 =>
        rw [hnx] at hl
        have := ih hr p1 f hnx hl
        rw [hnx] at this
        by_cases hpq : p = q
        · subst hpq
          rw [hp] at hq; cases hq
          rw [hnx] at e3; cases e3
        · refine Search.step (L.other p n hp hpq) hkey ?_
          rw [hnx]; exact this

/-- Invariant of the tree; `f` is the map it stands for. -/
structure TreeOk (w : Nat) (t : BlockedTree V) (f : Int → Option V) : Prop where
  srch : ∀ k : Int, ∃ c r, c ≤ t.heap.length ∧ Search t.heap k t.root c r ∧
    ∀ p, r = some p ↔ (k, p) ∈ t.nodes
  node : ∀ (k : Int) (p : Nat), (k, p) ∈ t.nodes → ∃ n, t.heap[p]? = some n ∧ n.key = k ∧ NodeSized w n ∧
    ∀ l : Nat, l < w → match f (k * w + l) with
      | some v => n.exist[l]? = some true ∧ n.data[l]? = some v
      | none => n.exist[l]? = some false
  absent : ∀ key : Int, (∀ p, (key / w, p) ∉ t.nodes) → f key = none

theorem TreeOk.create (w : Nat) : TreeOk w (BlockedTree.create V) (fun _ => none) :=
  ⟨fun _ => ⟨0, none, Nat.le_refl _, Search.null, by simp [BlockedTree.create]⟩,
    fun _ _ h => by simp [BlockedTree.create] at h, fun _ _ => rfl⟩

theorem key_split (w : Nat) (hw : 0 < w) (key : Int) : ∃ l : Nat, l < w ∧
    key % (w : Int) = l ∧ key / (w : Int) * w + l = key := by
  have h4 := Int.emod_nonneg key (b := (w : Int)) (by omega)
  have h5 := Int.emod_lt_of_pos key (b := (w : Int)) (by omega)
  have h6 := Int.mul_ediv_add_emod key (w : Int)
  refine ⟨(key % (w : Int)).toNat, by omega, by omega, ?_⟩
  rw [mul_comm]; omega

theorem key_inj (w : Nat) (k k' : Int) (l l' : Nat) (hl : l < w) (hl' : l' < w)
    (h : k * w + l = k' * w + l') : k = k' ∧ l = l' := by
  have h1 : (k * w + l) / (w : Int) = k := by
    rw [add_comm, Int.add_mul_ediv_right _ _ (by omega), Int.ediv_eq_zero_of_lt (by omega) (by omega)]
    omega
  have h2 : (k' * w + l') / (w : Int) = k' := by
    rw [add_comm, Int.add_mul_ediv_right _ _ (by omega), Int.ediv_eq_zero_of_lt (by omega) (by omega)]
    omega
  have : k = k' := by rw [← h1, ← h2, h]
  subst this
  exact ⟨rfl, by omega⟩

theorem key_div (w : Nat) (k : Int) (l : Nat) (hl : l < w) : (k * w + l) / (w : Int) = k := by
  rw [add_comm, Int.add_mul_ediv_right _ _ (by omega), Int.ediv_eq_zero_of_lt (by omega) (by omega)]
  omega

theorem TreeOk.get {w : Nat} (hw : 0 < w) {t : BlockedTree V} {f : Int → Option V}
    (h : TreeOk w t f) (key : Int) : t.hostGet w key = some (f key) := by
  obtain ⟨l, hl, hlk, hsum⟩ := key_split w hw key
  obtain ⟨c, r, hc, hs, hr⟩ := h.srch (key / w)
  unfold BlockedTree.hostGet
  cases hroot : t.root with
  | none =>
    rw [hroot] at hs
    cases hs
    have := h.absent key (fun p hp => by have := (hr p).mpr hp; cases this)
    simp [this]
  | some root =>
    rw [hroot] at hs
    simp only [nodeGet, getNodeKey_eq w hw, getLeafKey_eq w hw, hs.getLocation hc, Option.bind_some]
    cases r with
    | none =>
      have := h.absent key (fun p hp => by have := (hr p).mpr hp; cases this)
      simp [this]
    | some p =>
      obtain ⟨n, hn, hk, hsz, hval⟩ := h.node _ p ((hr p).mp rfl)
      have hi : index (key % (w : Int)) = some l := by rw [hlk]; simp [index]
      have := hval l hl
      rw [hsum] at this
      simp only [rd, hn, Option.bind_some, hi]
      cases hf : f key with
      | none => rw [hf] at this; simp only at this; simp [this]
      | some v => rw [hf] at this; simp only at this; simp [this]

theorem reset_ok {w : Nat} {g : TreeNode V} (hg : NodeSized w g) :
    ∃ e, g.reset w = some { g with lhs := none, rhs := none, exist := e } ∧
      e = List.replicate w false := by
  have key := forLoop_invariant (P := fun i (e : List Bool) => e.length = w ∧
      ∀ j, j < i → e[j]? = some false) (step := fun ix e => st e ix false) (a := 0) (b := w)
      (s := g.exist) (Nat.zero_le w) ?_ ?_
  · obtain ⟨e, he, hl, hv⟩ := key
    refine ⟨e, by simp [TreeNode.reset, he], ?_⟩
    apply List.ext_getElem?
    intro i
    by_cases hi : i < w
    · rw [hv i hi]; simp [hi]
    · rw [List.getElem?_eq_none (by omega), List.getElem?_eq_none (by simp; omega)]
  · intro i e _ hi ⟨hl, hv⟩
    refine ⟨e.set i false, by simp [st, hl, hi], by simp [hl], ?_⟩
    intro j hj
    by_cases hji : j = i
    · subst hji; rw [List.getElem?_set_self (by omega)]
    · rw [List.getElem?_set_ne (by omega)]; exact hv j (by omega)
  · exact ⟨hg.1, fun j hj => absurd hj (by omega)⟩

/-- The node made by `add`. -/
theorem new_node_vals {w : Nat} {g : TreeNode V} (hg : NodeSized w g) (l0 : Nat) (hl0 : l0 < w)
    (v : V) (k : Int) (f : Int → Option V) (hf : ∀ l : Nat, l < w → f (k * w + l) = none) :
    ∀ l : Nat, l < w → match (if k * w + l = k * w + l0 then some v else f (k * w + l)) with
      | some u => ((List.replicate w false).set l0 true)[l]? = some true ∧
          (g.data.set l0 v)[l]? = some u
      | none => ((List.replicate w false).set l0 true)[l]? = some false := by
  intro l hl
  by_cases h : l = l0
  · subst h
    rw [if_pos rfl]
    simp only
    rw [List.getElem?_set_self (by simp; omega), List.getElem?_set_self (by rw [hg.2]; omega)]
    exact ⟨rfl, rfl⟩
  · rw [if_neg (by omega), hf l hl]
    simp only
    rw [List.getElem?_set_ne (by omega)]
    simp [hl]

theorem TreeOk.add {w : Nat} (hw : 0 < w) {t : BlockedTree V} {f : Int → Option V}
    (h : TreeOk w t f) (g : TreeNode V) (hg : NodeSized w g) (key : Int) (v : V) :
    ∃ t', t.add w g key v = some t' ∧ TreeOk w t' (fun k => if k = key then some v else f k) := by
  obtain ⟨l0, hl0, hlk, hsum⟩ := key_split w hw key
  obtain ⟨c, r, hc, hs, hr⟩ := h.srch (key / w)
  have hi : index (key % (w : Int)) = some l0 := by rw [hlk]; simp [index]
  unfold BlockedTree.add
  simp only [getNodeKey_eq w hw, getLeafKey_eq w hw]
  by_cases hin : t.nodes.any (fun p => p.1 = key / (w : Int)) = true
  · rw [if_pos hin]
    obtain ⟨⟨k0, p⟩, hmem, hk0⟩ := List.any_eq_true.mp hin
    simp only [decide_eq_true_eq] at hk0
    subst hk0
    have hrp := (hr p).mpr hmem
    subst hrp
    obtain ⟨root, hroot⟩ : ∃ root, t.root = some root := by
      cases hrt : t.root with
      | none => rw [hrt] at hs; cases hs
      | some x => exact ⟨x, rfl⟩
    rw [hroot] at hs ⊢
    obtain ⟨n, hn, hkey, hsz, hval⟩ := h.node _ p hmem
    have hp : p < t.heap.length := by
      by_contra hcon; rw [List.getElem?_eq_none (by omega)] at hn; cases hn
    have h1 : l0 < n.data.length := by rw [hsz.2]; exact hl0
    have h2 : l0 < n.exist.length := by rw [hsz.1]; exact hl0
    refine ⟨{ t with heap := t.heap.set p { n with
        data := n.data.set l0 v
        exist := n.exist.set l0 true } }, ?_, ?_⟩
    · simp only [Option.bind_some, nodeSet, getNodeKey_eq w hw, getLeafKey_eq w hw,
        hs.getLocation hc, rd, hn, hi, st, h1, h2, hp, if_true, hroot]
    · refine ⟨?_, ?_, ?_⟩
      · intro k
        obtain ⟨c', r', hc', hs', hr'⟩ := h.srch k
        refine ⟨c', r', by simpa using hc', ?_, hr'⟩
        refine Search.congr ?_ hs'
        intro q m hm
        by_cases hqp : q = p
        · subst hqp
          rw [hn] at hm; cases hm
          exact ⟨_, List.getElem?_set_self hp, rfl, rfl, rfl⟩
        · exact ⟨m, by rw [List.getElem?_set_ne (by omega)]; exact hm, rfl, rfl, rfl⟩
      · intro k q hkq
        by_cases hqp : q = p
        · subst hqp
          obtain ⟨n', hn', hkey', -, -⟩ := h.node k q hkq
          rw [hn] at hn'; cases hn'
          refine ⟨_, List.getElem?_set_self hp, hkey', ⟨by simp [hsz.1], by simp [hsz.2]⟩, ?_⟩
          intro l hl
          have hkk : k = key / w := by rw [← hkey', hkey]
          subst hkk
          by_cases hll : l = l0
          · subst hll
            simp only [hsum, if_true]
            exact ⟨List.getElem?_set_self h2, List.getElem?_set_self h1⟩
          · have hne : ¬ (key / (w : Int) * w + l = key) := by
              intro e; omega
            simp only [if_neg hne]
            rw [List.getElem?_set_ne (by omega), List.getElem?_set_ne (by omega)]
            exact hval l hl
        · obtain ⟨n', hn', hkey', hsz', hval'⟩ := h.node k q hkq
          refine ⟨n', by rw [List.getElem?_set_ne (by omega)]; exact hn', hkey', hsz', ?_⟩
          intro l hl
          have hne : ¬ (k * (w : Int) + l = key) := by
            intro e
            have := key_div w k l hl
            rw [e] at this
            subst this
            have := (hr q).mpr hkq
            cases this
            exact hqp rfl
          simp only [if_neg hne]
          exact hval' l hl
      · intro k hk
        have hne : k ≠ key := fun e => by subst e; exact hk p hmem
        simp only [if_neg hne]
        exact h.absent k hk
  · rw [if_neg hin]
    have hnot : ∀ p, (key / (w : Int), p) ∉ t.nodes := fun p hp =>
      hin (List.any_eq_true.mpr ⟨_, hp, by simp⟩)
    have hrn : r = none := by
      cases r with
      | none => rfl
      | some p => exact absurd ((hr p).mp rfl) (hnot p)
    subst hrn
    obtain ⟨e, hre, he⟩ := reset_ok hg
    subst he
    have hfn : ∀ l : Nat, l < w → f (key / (w : Int) * w + l) = none := fun l hl =>
      h.absent _ (by rw [key_div w _ l hl]; exact hnot)
    have hvals := new_node_vals hg l0 hl0 v (key / w) f hfn
    rw [hsum] at hvals
    have hgd : l0 < g.data.length := by rw [hg.2]; exact hl0
    have hndr : ∀ (n : TreeNode V), n = ⟨key / w, none, none,
        (List.replicate w false).set l0 true, g.data.set l0 v⟩ → NodeSized w n := by
      intro n hn; subst hn; exact ⟨by simp, by simp [hg.2]⟩
    simp only [hre, hi, Option.bind_some, st, List.length_replicate, hl0, hgd, if_true]
    generalize hnd : (⟨key / w, none, none, (List.replicate w false).set l0 true,
      g.data.set l0 v⟩ : TreeNode V) = nd
    have hsized := hndr nd hnd.symm
    cases hroot : t.root with
    | none =>
      rw [hroot] at hs
      -- no nodes before
      have hnil : t.nodes = [] := by
        rw [List.eq_nil_iff_forall_not_mem]
        intro ⟨k, p⟩ hkp
        obtain ⟨c', r', -, hs', hr'⟩ := h.srch k
        rw [hroot] at hs'
        cases hs'
        have := (hr' p).mpr hkp; cases this
      refine ⟨_, rfl, ?_, ?_, ?_⟩
      · intro k
        have hnew : (t.heap ++ [nd])[t.heap.length]? = some nd := by simp
        by_cases hk : k = key / w
        · refine ⟨1, some t.heap.length, by simp, Search.found hnew (by rw [← hnd, hk]), ?_⟩
          intro p; simp only [hnil, List.mem_cons, Option.some.injEq, Prod.mk.injEq, List.not_mem_nil, or_false]
          constructor
          · intro e; exact ⟨hk, e.symm⟩
          · intro e; exact e.2.symm
        · refine ⟨0 + 1, none, by simp, Search.step hnew (by rw [← hnd]; exact fun e => hk e.symm) ?_, ?_⟩
          · have : nd.next t.heap.length k = none := by
              unfold TreeNode.next; rw [← hnd]
              simp only
              by_cases h1 : k < key / w
              · rw [if_pos h1]
              · rw [if_neg h1, if_pos (by omega)]
            rw [this]; exact Search.null
          · intro p; simp only [hnil, List.mem_cons, Prod.mk.injEq, List.not_mem_nil, or_false]
            constructor
            · intro e; cases e
            · intro e; exact absurd e.1 hk
      · intro k p hkp
        simp only [hnil, List.mem_cons, Prod.mk.injEq, List.not_mem_nil, or_false] at hkp
        obtain ⟨rfl, rfl⟩ := hkp
        refine ⟨nd, by simp, by rw [← hnd], hsized, ?_⟩
        rw [← hnd]; exact hvals
      · intro k hk
        have hne : k ≠ key := fun e => by subst e; exact hk t.heap.length (by simp)
        simp only [if_neg hne]
        exact h.absent k (fun p hp => by rw [hnil] at hp; cases hp)
    | some root =>
      rw [hroot] at hs
      have ext : ∀ k ptr c r, Search t.heap k ptr c r → Search (t.heap ++ [nd]) k ptr c r := by
        intro k ptr c r hs
        refine Search.congr ?_ hs
        intro p n hn
        have hp : p < t.heap.length := by
          by_contra hcon; rw [List.getElem?_eq_none (by omega)] at hn; cases hn
        exact ⟨n, by rw [List.getElem?_append_left hp]; exact hn, rfl, rfl, rfl⟩
      have hs2 := ext _ _ _ _ hs
      have hnew : (t.heap ++ [nd])[t.heap.length]? = some nd := by simp
      have hndk : nd.key = key / w := by rw [← hnd]
      obtain ⟨q, nq, hq1, hq2', hq3, hq4⟩ := hs2.addLoop rfl root rfl
        ((t.heap ++ [nd]).length + 2) (by simp; omega)
      -- q is an old node
      have hql : q < t.heap.length := by
        by_contra hcon
        have hle : q < (t.heap ++ [nd]).length := by
          by_contra h'; rw [List.getElem?_eq_none (by omega)] at hq2'; cases hq2'
        have : q = t.heap.length := by simp at hle; omega
        subst this
        rw [hnew] at hq2'; cases hq2'
        exact hq3 hndk
      have hq2 : t.heap[q]? = some nq := by
        rw [← List.getElem?_append_left (l₂ := [nd]) hql]; exact hq2'
      obtain ⟨heap', hheap, L⟩ : ∃ heap', addNode (t.heap ++ [nd]) root t.heap.length = some heap' ∧
          Linked t.heap heap' (key / w) q t.heap.length ∧ heap'.length = t.heap.length + 1 ∧
          heap'[t.heap.length]? = some nd ∧
          (∀ p, p ≠ q → heap'[p]? = (t.heap ++ [nd])[p]?) := by
        have hqlen : q < (t.heap ++ [nd]).length := by simp; omega
        unfold addNode
        simp only [rd, hnew, Option.bind_some, hndk, hq1, hq2', st, if_pos hqlen]
        have gen : ∀ nq' : TreeNode V, nq'.key = nq.key → nq'.exist = nq.exist → nq'.data = nq.data →
            nq'.next q (key / w) = some t.heap.length →
            (if key / w < nq.key then nq'.rhs = nq.rhs else nq'.lhs = nq.lhs) →
            Linked t.heap ((t.heap ++ [nd]).set q nq') (key / w) q t.heap.length ∧
            ((t.heap ++ [nd]).set q nq').length = t.heap.length + 1 ∧
            ((t.heap ++ [nd]).set q nq')[t.heap.length]? = some nd ∧
            (∀ p, p ≠ q → ((t.heap ++ [nd]).set q nq')[p]? = (t.heap ++ [nd])[p]?) := by
          intro nq' k1 k2 k3 k4 k5
          have hoth : ∀ p, p ≠ q → ((t.heap ++ [nd]).set q nq')[p]? = (t.heap ++ [nd])[p]? :=
            fun p hp => List.getElem?_set_ne (by omega)
          have hn2 : ((t.heap ++ [nd]).set q nq')[t.heap.length]? = some nd := by
            rw [hoth _ (by omega)]; exact hnew
          refine ⟨⟨?_, ⟨nq, nq', hq2, List.getElem?_set_self hqlen, k1, hq3, hq4, k4, k2, k3, k5⟩,
            ⟨nd, hn2, hndk, by rw [← hnd], by rw [← hnd]⟩⟩, by simp, hn2, hoth⟩
          intro p n hn hpq
          have hp : p < t.heap.length := by
            by_contra hcon; rw [List.getElem?_eq_none (by omega)] at hn; cases hn
          rw [hoth p hpq, List.getElem?_append_left hp]; exact hn
        by_cases hside : key / (w : Int) < nq.key
        · rw [if_pos hside]
          refine ⟨_, rfl, gen _ rfl rfl rfl ?_ ?_⟩
          · unfold TreeNode.next; simp only; rw [if_pos hside]
          · rw [if_pos hside]
        · rw [if_neg hside]
          refine ⟨_, rfl, gen _ rfl rfl rfl ?_ ?_⟩
          · unfold TreeNode.next; simp only; rw [if_neg hside, if_pos (by omega)]
          · rw [if_neg hside]
      obtain ⟨L, hlen, hnn, hoth⟩ := L
      -- the loop in the heap with the new node is the loop in the old heap
      have hq1' : ∃ fuel, NP.addLoop t.heap (key / w) fuel root = some q := by
        obtain ⟨q', nq'', a1, a2, a3, a4⟩ := hs.addLoop rfl root rfl (t.heap.length + 1 + 2) (by omega)
        refine ⟨t.heap.length + 1 + 2, ?_⟩
        have mono : ∀ fuel p q', NP.addLoop t.heap (key / w) fuel p = some q' →
            NP.addLoop (t.heap ++ [nd]) (key / w) fuel p = some q' := by
          intro fuel
          induction fuel with
          | zero => intro p q' h; cases h
          | succ fu ih =>
            intro p q' h
            simp only [NP.addLoop, rd, Option.bind_eq_some_iff] at h ⊢
            obtain ⟨n, hn, h⟩ := h
            have hp : p < t.heap.length := by
              by_contra hcon; rw [List.getElem?_eq_none (by omega)] at hn; cases hn
            refine ⟨n, by rw [List.getElem?_append_left hp]; exact hn, ?_⟩
            cases hnx : n.next p (key / w) with
            | none => rw [hnx] at h; exact h
            | some x => rw [hnx] at h; exact ih x q' h
        have hm := mono _ _ _ a1
        have : (t.heap ++ [nd]).length + 2 = t.heap.length + 1 + 2 := by simp
        rw [this, hm] at hq1
        cases hq1; exact a1
      obtain ⟨fuel, hq1'⟩ := hq1'
      refine ⟨⟨heap', (key / w, t.heap.length) :: t.nodes, some root⟩, ?_, ?_, ?_, ?_⟩
      · simp only [hheap, Option.bind_some]
      · intro k
        by_cases hk : k = key / w
        · subst hk
          refine ⟨c + 1, some t.heap.length, by rw [hlen]; omega,
            L.new_key hs rfl root fuel rfl hq1', ?_⟩
          intro p
          simp only [List.mem_cons, Prod.mk.injEq, true_and, Option.some.injEq]
          constructor
          · intro e; exact Or.inl e.symm
          · rintro (e | e)
            · exact e.symm
            · exact absurd e (hnot p)
        · obtain ⟨c', r', hc', hs', hr'⟩ := h.srch k
          rw [hroot] at hs'
          obtain ⟨c'', hc'', hs''⟩ := L.other_key hk hs'
          refine ⟨c'', r', by rw [hlen]; omega, hs'', ?_⟩
          intro p
          rw [hr' p]
          simp [hk]
      · intro k p hkp
        rcases List.mem_cons.mp hkp with e | hkp
        · cases e
          refine ⟨nd, hnn, hndk, hsized, ?_⟩
          rw [← hnd]; exact hvals
        · have hkne : k ≠ key / w := fun e => by subst e; exact hnot p hkp
          obtain ⟨n, hn, hkey', hsz', hval'⟩ := h.node k p hkp
          have hfk : ∀ l : Nat, l < w → ¬ (k * (w : Int) + l = key) := by
            intro l hl e
            have := key_div w k l hl
            rw [e] at this
            exact hkne this.symm
          by_cases hpq : p = q
          · subst hpq
            obtain ⟨m, m', hm, hm', e1, -, -, -, e5, e6, -⟩ := L.link
            rw [hn] at hm; cases hm
            refine ⟨m', hm', by rw [e1, hkey'], ⟨by rw [e5]; exact hsz'.1, by rw [e6]; exact hsz'.2⟩, ?_⟩
            intro l hl
            simp only [if_neg (hfk l hl)]
            rw [e5, e6]; exact hval' l hl
          · refine ⟨n, L.other p n hn hpq, hkey', hsz', ?_⟩
            intro l hl
            simp only [if_neg (hfk l hl)]
            exact hval' l hl
      · intro k hk
        have hne : k ≠ key := fun e => by subst e; exact hk t.heap.length (by simp)
        simp only [if_neg hne]
        exact h.absent k (fun p hp => hk p (List.mem_cons_of_mem _ hp))

theorem TreeOk.congr {w : Nat} {t : BlockedTree V} {f g : Int → Option V} (h : TreeOk w t f)
    (e : ∀ k, f k = g k) : TreeOk w t g := by
  have : f = g := funext e
  rw [← this]; exact h

theorem TreeOk.adds {w : Nat} (hw : 0 < w) (garbage : Nat → TreeNode V)
    (hg : ∀ i, NodeSized w (garbage i)) (adds : List (Int × V)) :
    ∀ (i : Nat) (t : BlockedTree V) (f : Int → Option V), TreeOk w t f →
      ∃ t', treeAdds w garbage i t adds = some t' ∧
        TreeOk w t' (fun k => (lastAdded adds k).or (f k)) := by
  induction adds with
  | nil => intro i t f h; exact ⟨t, rfl, h.congr (fun k => by simp [lastAdded])⟩
  | cons p rest ih =>
    intro i t f h
    obtain ⟨k, v⟩ := p
    obtain ⟨t1, e1, h1⟩ := h.add hw (garbage i) (hg i) k v
    obtain ⟨t2, e2, h2⟩ := ih (i + 1) t1 _ h1
    refine ⟨t2, ?_, h2.congr fun j => ?_⟩
    · show (t.add w (garbage i) k v).bind (fun t => treeAdds w garbage (i + 1) t rest) = some t2
      rw [e1]; exact e2
    · simp only [lastAdded]
      cases lastAdded rest j with
      | some w => rfl
      | none =>
        by_cases hj : j = k
        · subst hj; simp
        · rw [if_neg hj, if_neg (fun e => hj e.symm)]

end NP
