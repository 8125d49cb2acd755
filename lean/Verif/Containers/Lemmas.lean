import Verif.Containers.Spec
import Verif.Common.KernelLemmas
import Mathlib.Tactic.Ring
import Mathlib.Tactic.Linarith

/-!
# Lemmas: lookup table, multi dimensional index, resource stack, buffers
-/

set_option autoImplicit false

namespace NP

open Spec

/-! ## Lookup table -/

/-- The table holds the map `f`. -/
structure TableOk {V : Type} (t : LookupTable V) (f : Int → Option V) : Prop where
  le : t.exist.length = t.size
  ln : t.entries.length = t.size
  out : ∀ k : Int, ¬ (0 ≤ k ∧ k < t.size) → f k = none
  yes : ∀ (k : Nat) (v : V), f k = some v → t.exist[k]? = some 1 ∧ t.entries[k]? = some v
  no : ∀ k : Nat, k < t.size → f k = none → t.exist[k]? = some 0

theorem TableOk.get {V : Type} {t : LookupTable V} {f : Int → Option V} (h : TableOk t f)
    (key : Int) : t.get key = some (f key) ∧ t.hostGet key = some (f key) := by
  unfold LookupTable.get LookupTable.hostGet
  by_cases hk : -1 < key ∧ key < t.size
  · obtain ⟨k, rfl⟩ : ∃ k : Nat, key = k := ⟨key.toNat, by omega⟩
    rw [if_pos hk, if_neg (by tauto)]
    have hi : index (k : Int) = some k := by simp [index]
    rw [hi]
    simp only [Option.bind_some, rd]
    cases hf : f k with
    | none => simp [h.no k (by omega) hf]
    | some v => simp [h.yes k v hf]
  · rw [if_neg hk, if_pos hk, h.out key (by omega)]
    exact ⟨rfl, rfl⟩

theorem TableOk.add {V : Type} {t : LookupTable V} {f : Int → Option V} (h : TableOk t f)
    (key : Int) (v : V) (hk : 0 ≤ key ∧ key < t.size) :
    ∃ t', t.add key v = some t' ∧ t'.size = t.size ∧
      TableOk t' (fun k => if k = key then some v else f k) := by
  obtain ⟨k, rfl⟩ : ∃ k : Nat, key = k := ⟨key.toNat, by omega⟩
  have hi : index (k : Int) = some k := by simp [index]
  have h1 : k < t.exist.length := by rw [h.le]; omega
  have h2 : k < t.entries.length := by rw [h.ln]; omega
  refine ⟨{ t with exist := t.exist.set k 1, entries := t.entries.set k v }, ?_, rfl, ?_⟩
  · unfold LookupTable.add
    rw [if_pos (by omega), hi]
    simp [st, h1, h2]
  · constructor
    · simp [h.le]
    · simp [h.ln]
    · intro j hj
      simp only at hj ⊢
      rw [if_neg (by omega)]
      exact h.out j hj
    · intro j w hw
      simp only at hw ⊢
      by_cases hj : j = k
      · subst hj
        rw [if_pos rfl] at hw
        rw [List.getElem?_set_self h1, List.getElem?_set_self h2]
        exact ⟨rfl, hw⟩
      · rw [if_neg (by omega)] at hw
        rw [List.getElem?_set_ne (by omega), List.getElem?_set_ne (by omega)]
        exact h.yes j w hw
    · intro j hj hn
      simp only at hn ⊢
      by_cases hjk : j = k
      · subst hjk; simp at hn
      · rw [if_neg (by omega)] at hn
        rw [List.getElem?_set_ne (by omega)]
        exact h.no j hj hn

theorem TableOk.create {V : Type} (fresh : Fresh V) (size : Nat) :
    TableOk (LookupTable.create fresh size) (fun _ => none) := by
  constructor
  · simp [LookupTable.create]
  · exact (fresh size).2
  · intro _ _; rfl
  · intro k v h; cases h
  · intro k hk _
    have hk' : k < size := hk
    simp [LookupTable.create, hk']

theorem TableOk.congr {V : Type} {t : LookupTable V} {f g : Int → Option V} (h : TableOk t f)
    (e : ∀ k, f k = g k) : TableOk t g := by
  have : f = g := funext e
  rw [← this]; exact h

theorem TableOk.addAll {V : Type} (adds : List (Int × V)) :
    ∀ (t : LookupTable V) (f : Int → Option V), TableOk t f →
      (∀ p ∈ adds, 0 ≤ p.1 ∧ p.1 < t.size) →
      ∃ t', Spec.addAll t adds = some t' ∧ t'.size = t.size ∧
        TableOk t' (fun k => (lastAdded adds k).or (f k)) := by
  induction adds with
  | nil => intro t f h _; exact ⟨t, rfl, rfl, h.congr (fun k => by simp [lastAdded])⟩
  | cons p rest ih =>
    intro t f h hr
    obtain ⟨k, v⟩ := p
    obtain ⟨t1, e1, hs, h1⟩ := h.add k v (hr (k, v) (by simp))
    obtain ⟨t2, e2, hs2, h2⟩ := ih t1 _ h1 (fun p hp => by
      rw [hs]; exact hr p (List.mem_cons_of_mem _ hp))
    refine ⟨t2, ?_, by rw [hs2, hs], h2.congr fun j => ?_⟩
    · show (t.add k v).bind (fun t => Spec.addAll t rest) = some t2
      rw [e1]; exact e2
    · simp only [lastAdded]
      cases lastAdded rest j with
      | some w => rfl
      | none =>
        by_cases hj : j = k
        · subst hj; simp
        · rw [if_neg hj, if_neg (fun e => hj e.symm)]

/-! ## ND index -/

/-- Product of the sizes. -/
def shapeProd : List Int → Int
  | [] => 1
  | s :: ss => s * shapeProd ss

theorem ndSize_eq (s : Int) (ss : List Int) : ndSize (s :: ss) = some (shapeProd (s :: ss)) := by
  have : ∀ (l : List Int) (a : Int), l.foldl (fun a b => a * b) a = a * shapeProd l := by
    intro l
    induction l with
    | nil => intro a; simp [shapeProd]
    | cons x l ih => intro a; simp only [List.foldl_cons, ih, shapeProd]; ring
  simp only [ndSize, this, shapeProd]

theorem InShape.prod_pos {shape idx : List Int} (h : InShape shape idx) : 0 < shapeProd shape := by
  induction h with
  | nil => simp [shapeProd]
  | cons h0 h1 _ ih => exact mul_pos (by omega) ih

theorem linearise_acc {shape idx : List Int} (h : InShape shape idx) :
    ∃ r, (∀ a, lineariseInner a shape idx = some (a * shapeProd shape + r)) ∧
      0 ≤ r ∧ r < shapeProd shape := by
  induction h with
  | nil => exact ⟨0, fun a => by simp [lineariseInner, shapeProd], by simp [shapeProd]⟩
  | @cons s i ss is h0 h1 hs ih =>
    obtain ⟨r, hr, hr0, hr1⟩ := ih
    have hp := InShape.prod_pos hs
    refine ⟨i * shapeProd ss + r, fun a => ?_, ?_, ?_⟩
    · simp only [lineariseInner, hr, shapeProd]
      congr 1; ring
    · have := mul_nonneg h0 hp.le; omega
    · have : (i + 1) * shapeProd ss ≤ s * shapeProd ss :=
        mul_le_mul_of_nonneg_right (by omega) hp.le
      simp only [shapeProd]
      linarith [add_mul i 1 (shapeProd ss)]

theorem linearise_lt {shape i j : List Int} (hi : InShape shape i) (hj : InShape shape j)
    (hlt : LexLt i j) : ∃ a b, lineariseInner 0 shape i = some a ∧
      lineariseInner 0 shape j = some b ∧ a < b := by
  induction hi generalizing j with
  | nil => cases hlt
  | @cons s i ss is h0 h1 hs ih =>
    cases hj with
    | @cons _ j _ js k0 k1 ks =>
    obtain ⟨r, hr, hr0, hr1⟩ := linearise_acc hs
    obtain ⟨q, hq, hq0, hq1⟩ := linearise_acc ks
    refine ⟨i * shapeProd ss + r, j * shapeProd ss + q, ?_, ?_, ?_⟩
    · simp only [lineariseInner, hr, zero_mul, zero_add]
    · simp only [lineariseInner, hq, zero_mul, zero_add]
    · cases hlt with
      | head h =>
        have hp := InShape.prod_pos hs
        have : (i + 1) * shapeProd ss ≤ j * shapeProd ss :=
          mul_le_mul_of_nonneg_right (by omega) hp.le
        linarith [add_mul i 1 (shapeProd ss)]
      | tail h =>
        obtain ⟨a, b, ha, hb, hab⟩ := ih ks h
        rw [hr] at ha; rw [hq] at hb
        cases ha; cases hb
        linarith

theorem lex_total {shape i j : List Int} (hi : InShape shape i) (hj : InShape shape j) :
    i = j ∨ LexLt i j ∨ LexLt j i := by
  induction hi generalizing j with
  | nil => cases hj; exact Or.inl rfl
  | @cons s i ss is h0 h1 hs ih =>
    cases hj with
    | @cons _ j _ js k0 k1 ks =>
    rcases lt_trichotomy i j with h | h | h
    · exact Or.inr (Or.inl (LexLt.head h))
    · subst h
      rcases ih ks with h | h | h
      · exact Or.inl (by rw [h])
      · exact Or.inr (Or.inl (LexLt.tail h))
      · exact Or.inr (Or.inr (LexLt.tail h))
    · exact Or.inr (Or.inr (LexLt.head h))

theorem linearise_surj : ∀ (shape : List Int), (∀ s ∈ shape, 0 < s) → ∀ n : Int, 0 ≤ n →
    n < shapeProd shape → ∃ idx, InShape shape idx ∧ lineariseInner 0 shape idx = some n := by
  intro shape
  induction shape with
  | nil =>
    intro _ n h0 h1
    simp [shapeProd] at h1
    exact ⟨[], InShape.nil, by simp [lineariseInner]; omega⟩
  | cons s ss ih =>
    intro hp n h0 h1
    have hpp : 0 < shapeProd ss := by
      have : ∀ l : List Int, (∀ s ∈ l, 0 < s) → 0 < shapeProd l := by
        intro l
        induction l with
        | nil => intro _; simp [shapeProd]
        | cons x l ih => intro h; exact mul_pos (h x (by simp)) (ih (fun y hy => h y (by simp [hy])))
      exact this ss (fun x hx => hp x (by simp [hx]))
    obtain ⟨idx, hin, hlin⟩ := ih (fun x hx => hp x (by simp [hx])) (n % shapeProd ss)
      (Int.emod_nonneg _ hpp.ne') (Int.emod_lt_of_pos _ hpp)
    refine ⟨n / shapeProd ss :: idx, InShape.cons (Int.ediv_nonneg h0 hpp.le) ?_ hin, ?_⟩
    · exact Int.ediv_lt_of_lt_mul hpp h1
    · obtain ⟨r, hr, _⟩ := linearise_acc hin
      rw [hr] at hlin
      simp only [zero_mul, zero_add, Option.some.injEq] at hlin
      simp only [lineariseInner, zero_mul, zero_add, hr, hlin, Option.some.injEq]
      rw [mul_comm]; exact Int.mul_ediv_add_emod n _

/-! ## Resource stack -/

/-- Invariant of a resource stack; `held` are the resources that were handed out. -/
structure StackOk (s : StackState) (held : List Nat) : Prop where
  ns : s.stack.Nodup
  nh : held.Nodup
  dj : ∀ r ∈ s.stack, r ∉ held
  mg : s.managed = s.stack.length + held.length
  rf : ∀ r ∈ s.refs, r ∈ held
  ls : ∀ r ∈ s.stack, r < s.next
  lh : ∀ r ∈ held, r < s.next
  cl : ∀ r ∈ s.stack, s.clean r = true
  cn : ∀ r, s.next ≤ r → s.clean r = true
  nf : s.freed.Nodup
  lf : ∀ r ∈ s.freed, r < s.next
  ds : ∀ r ∈ s.freed, r ∉ s.stack
  dh : ∀ r ∈ s.freed, r ∉ held

theorem StackOk.init : StackOk StackState.init [] := by
  constructor <;> simp [StackState.init]

/-- Held resources after one event. -/
def heldStep (held : List Nat) : StackEvent → List Nat
  | .got r => r :: held
  | .restored r => held.erase r
  | _ => held

theorem heldAfter_cons (held : List Nat) (e : StackEvent) (es : List StackEvent) :
    heldAfter held (e :: es) = heldAfter (heldStep held e) es := by
  cases e <;> rfl

theorem StackOk.get {s : StackState} {held : List Nat} (h : StackOk s held) :
    StackOk s.get.2 (s.get.1 :: held) ∧ s.get.1 ∉ held ∧ s.clean s.get.1 = true ∧
      s.get.1 ∉ s.freed := by
  unfold StackState.get
  cases hst : s.stack with
  | nil =>
    have hn : s.next ∉ held := fun hm => absurd (h.lh _ hm) (by omega)
    have hf : s.next ∉ s.freed := fun hm => absurd (h.lf _ hm) (by omega)
    refine ⟨?_, hn, h.cn _ (Nat.le_refl _), hf⟩
    constructor
    · simp
    · exact List.nodup_cons.mpr ⟨hn, h.nh⟩
    · simp
    · have := h.mg; simp [hst] at this ⊢; omega
    · intro r hr
      rcases List.mem_cons.mp hr with e | hr
      · simp [e]
      · exact List.mem_cons_of_mem _ (h.rf r hr)
    · simp [hst]
    · intro r hr
      rcases List.mem_cons.mp hr with e | hr
      · subst e; simp
      · have := h.lh r hr; show r < s.next + 1; omega
    · simp [hst]
    · intro r hr; exact h.cn r (by have : s.next + 1 ≤ r := hr; omega)
    · exact h.nf
    · intro r hr; have := h.lf r hr; show r < s.next + 1; omega
    · simp [hst]
    · intro r hr hm
      rcases List.mem_cons.mp hm with e | hm
      · subst e; exact hf hr
      · exact h.dh r hr hm
  | cons a rest =>
    have hns := h.ns
    rw [hst] at hns
    have ha : a ∈ s.stack := by simp [hst]
    have hrest : ∀ r ∈ rest, r ∈ s.stack := fun r hr => by simp [hst, hr]
    have hna := h.dj a ha
    refine ⟨?_, hna, h.cl a ha, fun hm => h.ds a hm ha⟩
    constructor
    · exact (List.nodup_cons.mp hns).2
    · exact List.nodup_cons.mpr ⟨hna, h.nh⟩
    · intro r hr hm
      rcases List.mem_cons.mp hm with e | hm
      · subst e; exact (List.nodup_cons.mp hns).1 hr
      · exact h.dj r (hrest r hr) hm
    · have := h.mg; simp [hst] at this ⊢; omega
    · intro r hr
      rcases List.mem_cons.mp hr with e | hr
      · simp [e]
      · exact List.mem_cons_of_mem _ (h.rf r hr)
    · intro r hr; exact h.ls r (hrest r hr)
    · intro r hr
      rcases List.mem_cons.mp hr with e | hr
      · subst e; exact h.ls _ ha
      · exact h.lh r hr
    · intro r hr; exact h.cl r (hrest r hr)
    · exact h.cn
    · exact h.nf
    · exact h.lf
    · intro r hr hm; exact h.ds r hr (hrest r hm)
    · intro r hr hm
      rcases List.mem_cons.mp hm with e | hm
      · subst e; exact h.ds _ hr ha
      · exact h.dh r hr hm

theorem StackOk.restore {s s' : StackState} {held : List Nat} (h : StackOk s held) (r : Nat)
    (e : s.restore r = some s') : StackOk s' (held.erase r) ∧ r ∉ s'.refs := by
  unfold StackState.restore at e
  by_cases hr : r ∈ s.refs
  · rw [if_pos hr] at e
    simp only at e
    by_cases hc : 1 + (s.refs.erase r).count r + s.stack.count r = 1
    · rw [if_pos hc] at e
      cases e
      have hheld := h.rf r hr
      have hns : r ∉ s.stack := fun hm => h.dj r hm hheld
      have hnr : r ∉ s.refs.erase r := by
        rw [← List.count_eq_zero]; omega
      refine ⟨?_, hnr⟩
      constructor
      · exact List.nodup_cons.mpr ⟨hns, h.ns⟩
      · exact h.nh.erase r
      · intro x hx hm
        rcases List.mem_cons.mp hx with e | hx
        · subst e; exact (h.nh.not_mem_erase) hm
        · exact h.dj x hx (List.mem_of_mem_erase hm)
      · have h1 := h.mg
        have h2 := List.length_erase_of_mem hheld
        have h3 : 0 < held.length := List.length_pos_of_mem hheld
        simp only [List.length_cons]; omega
      · intro x hx
        have hx' : x ∈ s.refs := List.mem_of_mem_erase hx
        have hne : x ≠ r := fun e => by subst e; exact hnr hx
        exact (List.mem_erase_of_ne hne).mpr (h.rf x hx')
      · intro x hx
        rcases List.mem_cons.mp hx with e | hx
        · subst e; exact h.lh _ hheld
        · exact h.ls x hx
      · intro x hx; exact h.lh x (List.mem_of_mem_erase hx)
      · intro x hx
        by_cases hxr : x = r
        · simp [hxr]
        · rcases List.mem_cons.mp hx with e | hx
          · exact absurd e hxr
          · simp [hxr, h.cl x hx]
      · intro x hx
        by_cases hxr : x = r
        · simp [hxr]
        · simp [hxr, h.cn x hx]
      · exact h.nf
      · exact h.lf
      · intro x hx hm
        rcases List.mem_cons.mp hm with e | hm
        · subst e; exact h.dh _ hx hheld
        · exact h.ds x hx hm
      · intro x hx hm; exact h.dh x hx (List.mem_of_mem_erase hm)
    · rw [if_neg hc] at e; cases e
  · rw [if_neg hr] at e; cases e

theorem StackOk.step {s s' : StackState} {held : List Nat} {c : StackCall} {ev : StackEvent}
    (h : StackOk s held) (e : stackCall s c = some (ev, s')) : StackOk s' (heldStep held ev) := by
  cases c with
  | get => cases e; exact h.get.1
  | restore r =>
    simp only [stackCall, Option.map_eq_some_iff] at e
    obtain ⟨t, ht, e⟩ := e
    cases e; exact (h.restore r ht).1
  | copy r =>
    simp only [stackCall, StackState.copyRef, Option.map_eq_some_iff] at e
    obtain ⟨t, ht, e⟩ := e
    by_cases hr : r ∈ s.refs
    · rw [if_pos hr] at ht; cases ht; cases e
      exact ⟨h.ns, h.nh, h.dj, h.mg, fun x hx => by
        rcases List.mem_cons.mp hx with e | hx
        · subst e; exact h.rf _ hr
        · exact h.rf x hx, h.ls, h.lh, h.cl, h.cn, h.nf, h.lf, h.ds, h.dh⟩
    · rw [if_neg hr] at ht; cases ht
  | drop r =>
    simp only [stackCall, StackState.dropRef, Option.map_eq_some_iff] at e
    obtain ⟨t, ht, e⟩ := e
    by_cases hr : r ∈ s.refs
    · rw [if_pos hr] at ht; cases ht; cases e
      exact ⟨h.ns, h.nh, h.dj, h.mg, fun x hx => h.rf x (List.mem_of_mem_erase hx),
        h.ls, h.lh, h.cl, h.cn, h.nf, h.lf, h.ds, h.dh⟩
    · rw [if_neg hr] at ht; cases ht
  | use r =>
    simp only [stackCall, StackState.useRef, Option.map_eq_some_iff] at e
    obtain ⟨t, ht, e⟩ := e
    by_cases hr : r ∈ s.refs
    · rw [if_pos hr] at ht; cases ht; cases e
      have hh := h.rf r hr
      refine ⟨h.ns, h.nh, h.dj, h.mg, h.rf, h.ls, h.lh, ?_, ?_, h.nf, h.lf, h.ds, h.dh⟩
      · intro x hx
        have hx' : x ∈ s.stack := hx
        have : x ≠ r := fun e => by subst e; exact h.dj x hx' hh
        simp [this, h.cl x hx']
      · intro x hx
        have hx' : s.next ≤ x := hx
        have : x ≠ r := fun e => by subst e; exact absurd (h.lh x hh) (by omega)
        simp [this, h.cn x hx']
    · rw [if_neg hr] at ht; cases ht
  | free =>
    simp only [stackCall, StackState.free, Option.map_eq_some_iff] at e
    obtain ⟨t, ht, e⟩ := e
    by_cases hl : s.stack.length = s.managed
    · rw [if_pos hl] at ht; cases ht; cases e
      have hz : held = [] := List.eq_nil_of_length_eq_zero (by have := h.mg; omega)
      subst hz
      constructor
      · simp
      · simp [heldStep]
      · simp
      · simp [heldStep]
      · exact h.rf
      · simp
      · simp [heldStep]
      · simp
      · exact h.cn
      · exact List.nodup_append.mpr ⟨h.nf, h.ns, fun r h1 q h2 e => h.ds r h1 (e ▸ h2)⟩
      · intro r hr
        rcases List.mem_append.mp hr with hr | hr
        · exact h.lf r hr
        · exact h.ls r hr
      · simp
      · simp [heldStep]
    · rw [if_neg hl] at ht; cases ht

theorem StackOk.calls (cs : List StackCall) : ∀ {s s' : StackState} {held : List Nat}
    {evs : List StackEvent}, StackOk s held → stackCalls s cs = some (evs, s') →
    StackOk s' (heldAfter held evs) := by
  induction cs with
  | nil => intro s s' held evs h e; cases e; exact h
  | cons c cs ih =>
    intro s s' held evs h e
    simp only [stackCalls, Option.bind_eq_some_iff] at e
    obtain ⟨⟨ev, s1⟩, e1, ⟨es, s2⟩, e2, e3⟩ := e
    cases e3
    rw [heldAfter_cons]
    exact ih (h.step e1) e2

/-! ## Buffers -/

theorem memcpyFront_ok {α : Type} (dst src : List α) (n : Nat) (hd : n ≤ dst.length)
    (hs : n ≤ src.length) : ∃ d, memcpyFront dst src n = some d ∧ d.length = dst.length ∧
      (∀ i, i < n → d[i]? = src[i]?) ∧ (∀ i, n ≤ i → d[i]? = dst[i]?) := by
  have key := forLoop_invariant
    (P := fun i (d : List α) => d.length = dst.length ∧ (∀ j, j < i → d[j]? = src[j]?) ∧
      (∀ j, i ≤ j → d[j]? = dst[j]?))
    (step := fun i d => (rd src i).bind fun v => st d i v) (a := 0) (b := n) (s := dst)
    (Nat.zero_le n) ?_ ?_
  · obtain ⟨d, e, h⟩ := key; exact ⟨d, e, h⟩
  · intro i d _ hi ⟨hl, h1, h2⟩
    have hi1 : i < src.length := by omega
    have hi2 : i < d.length := by omega
    refine ⟨d.set i src[i], ?_, ?_, ?_, ?_⟩
    · simp [rd, st, hi1, hi2]
    · simp [hl]
    · intro j hj
      by_cases hji : j = i
      · subst hji; rw [List.getElem?_set_self hi2]; simp [hi1]
      · rw [List.getElem?_set_ne (by omega)]; exact h1 j (by omega)
    · intro j hj
      rw [List.getElem?_set_ne (by omega)]; exact h2 j (by omega)
  · exact ⟨rfl, fun j hj => absurd hj (by omega), fun j _ => rfl⟩

theorem memcpyFront_overflow {α : Type} (dst src : List α) (n : Nat) (hn : dst.length < n) :
    memcpyFront dst src n = none := by
  cases e : memcpyFront dst src n with
  | none => rfl
  | some d =>
    exfalso
    have len : ∀ (k i : Nat) (d0 d1 : List α), d0.length = dst.length →
        runItems (fun i d => (rd src i).bind fun v => st d i v) (List.range' i k) d0 = some d1 →
        i ≤ dst.length → dst.length < i + k → False := by
      intro k
      induction k with
      | zero => intro i d0 d1 _ _ _ _; omega
      | succ k ih =>
        intro i d0 d1 hl hf hi hm
        rw [List.range'_succ, runItems] at hf
        simp only [Option.bind_eq_some_iff, rd, st] at hf
        obtain ⟨d2, ⟨v, hv, h2⟩, hf⟩ := hf
        by_cases hlt : i < d0.length
        · rw [if_pos hlt] at h2
          cases h2
          exact ih (i + 1) (d0.set i v) d1 (by simp [hl]) hf (by omega) (by omega)
        · rw [if_neg hlt] at h2; cases h2
    unfold memcpyFront forLoop at e
    exact len _ 0 dst d rfl e (Nat.zero_le _) (by omega)

end NP
