import Verif.Group.SpecCellDat
import Verif.Common.KernelLemmas
import Mathlib.Algebra.Order.Ring.Nat
import Mathlib.Tactic.Linarith

/-! # Lemmas: `CellDat` -/

set_option autoImplicit false

namespace NP

open Spec

variable {α : Type}

theorem memcpy_spec {src dst : List α} {so d n : Nat} (hs : so + n ≤ src.length)
    (hd : d + n ≤ dst.length) :
    ∃ dst', memcpy src so dst d n = some dst' ∧ dst'.length = dst.length ∧
      (∀ i, i < n → dst'[d + i]? = src[so + i]?) ∧
      (∀ k, k < d ∨ d + n ≤ k → dst'[k]? = dst[k]?) := by
  obtain ⟨s', h1, h2, h3, h4⟩ := forLoop_invariant (a := 0) (b := n)
    (step := fun i dst => (rd src (so + i)).bind fun v => st dst (d + i) v) (s := dst)
    (fun i s => s.length = dst.length ∧ (∀ j, j < i → s[d + j]? = src[so + j]?) ∧
      (∀ k, k < d ∨ d + i ≤ k → s[k]? = dst[k]?)) (Nat.zero_le _)
    (by
      rintro i s _ hi ⟨g1, g2, g3⟩
      obtain ⟨v, hv⟩ : ∃ v, src[so + i]? = some v := ⟨_, List.getElem?_eq_getElem (by omega)⟩
      refine ⟨s.set (d + i) v, ?_, by simp [g1], ?_, ?_⟩
      · simp only [rd, hv, Option.bind_some]
        rw [st_eq_some (by omega)]
      · intro j hj
        by_cases h : j = i
        · subst h; rw [List.getElem?_set_self (by omega), hv]
        · rw [List.getElem?_set_ne (by omega)]; exact g2 j (by omega)
      · intro k hk
        rw [List.getElem?_set_ne (by omega)]
        exact g3 k (by omega))
    ⟨rfl, fun j hj => by omega, fun _ _ => rfl⟩
  exact ⟨s', h1, h2, h3, h4⟩

/-- A position is in one column only. -/
theorem col_unique {B c c' r r' : Nat} (hr : r < B) (hr' : r' < B)
    (h : c * B + r = c' * B + r') : c = c' ∧ r = r' := by
  have hB : 0 < B := by omega
  have h1 : (c * B + r) / B = c := by
    rw [Nat.mul_comm, Nat.mul_add_div hB, Nat.div_eq_of_lt hr]; rfl
  have h2 : (c' * B + r') / B = c' := by
    rw [Nat.mul_comm, Nat.mul_add_div hB, Nat.div_eq_of_lt hr']; rfl
  have : c = c' := by rw [← h1, ← h2, h]
  subst this
  exact ⟨rfl, by omega⟩

theorem col_lt {c r n B : Nat} (hc : c < n) (hr : r < B) : c * B + r < n * B := by
  have : (c + 1) * B ≤ n * B := Nat.mul_le_mul_right _ hc
  rw [Nat.add_mul] at this
  omega

theorem col_le {c r n B : Nat} (hc : c < n) (hr : r ≤ B) : c * B + r ≤ n * B := by
  have : (c + 1) * B ≤ n * B := Nat.mul_le_mul_right _ hc
  rw [Nat.add_mul] at this
  omega

/-- Copy the first `n` rows of every column. -/
theorem copyCols_spec {src dst : List α} {ncol A B n : Nat} (hA : n ≤ A) (hB : n ≤ B)
    (hs : ncol * A ≤ src.length) (hd : dst.length = ncol * B) :
    ∃ dst', forLoop 0 ncol (fun colx buf => memcpy src (colx * A) buf (colx * B) n) dst =
        some dst' ∧ dst'.length = dst.length ∧
      (∀ c r, c < ncol → r < n → dst'[c * B + r]? = src[c * A + r]?) ∧
      (∀ c r, r < B → n ≤ r → dst'[c * B + r]? = dst[c * B + r]?) := by
  obtain ⟨s', h1, h2, h3, h4⟩ := forLoop_invariant (a := 0) (b := ncol)
    (step := fun colx buf => memcpy src (colx * A) buf (colx * B) n) (s := dst)
    (fun i s => s.length = dst.length ∧
      (∀ c r, c < i → r < n → s[c * B + r]? = src[c * A + r]?) ∧
      (∀ c r, r < B → n ≤ r → s[c * B + r]? = dst[c * B + r]?)) (Nat.zero_le _)
    (by
      rintro i s _ hi ⟨g1, g2, g3⟩
      obtain ⟨s', e1, e2, e3, e4⟩ := memcpy_spec (src := src) (dst := s) (so := i * A)
        (d := i * B) (n := n) (by have := col_le hi hA; omega)
        (by have := col_le hi hB; omega)
      refine ⟨s', e1, by rw [e2, g1], ?_, ?_⟩
      · intro c r hc hr
        by_cases h : c = i
        · subst h; exact e3 r hr
        · rw [e4 (c * B + r) (by
            left
            have := col_lt (c := c) (r := r) (n := i) (B := B) (by omega) (by omega)
            omega)]
          exact g2 c r (by omega) hr
      · intro c r hr hnr
        rw [e4 (c * B + r) (by
          by_contra hcon
          have := col_unique (c := c) (c' := i) (r := r) (r' := c * B + r - i * B) hr
            (by omega) (by omega)
          omega)]
        exact g3 c r hr hnr)
    ⟨rfl, fun _ _ h => by omega, fun _ _ _ _ => rfl⟩
  exact ⟨s', h1, h2, h3, h4⟩

/-- A cell with its storage. -/
structure FlatCell.Ok (ncol : Nat) (c : FlatCell α) : Prop where
  le : c.nrow ≤ c.alloc
  len : c.buf.length = ncol * c.alloc

theorem FlatCell.setNrow_spec (fresh : Fresh α) (over req : Nat) {ncol : Nat} {c : FlatCell α}
    (h : c.Ok ncol) :
    ∃ c', c.setNrow fresh ncol over req = some c' ∧ c'.Ok ncol ∧ c'.nrow = req ∧
      ∀ col r, col < ncol → r < c.nrow → r < req →
        c'.buf[col * c'.alloc + r]? = c.buf[col * c.alloc + r]? := by
  have hle := h.le
  unfold FlatCell.setNrow
  by_cases h1 : req = c.nrow
  · rw [if_pos h1]
    exact ⟨c, rfl, h, h1.symm, fun _ _ _ _ _ => rfl⟩
  rw [if_neg h1]
  by_cases h2 : req < c.nrow
  · rw [if_pos h2]
    exact ⟨_, rfl, ⟨by simp only; omega, h.len⟩, rfl, fun _ _ _ _ _ => rfl⟩
  rw [if_neg h2]
  by_cases h3 : req > c.alloc
  · rw [if_pos h3]
    dsimp only
    by_cases h4 : c.alloc > 0
    · simp only [h4, if_true]
      obtain ⟨b, e1, e2, e3, -⟩ := copyCols_spec (src := c.buf)
        (dst := (fresh (max req over * ncol)).1) (ncol := ncol) (A := c.alloc)
        (B := max req over) (n := c.nrow) h.le (by omega) (by rw [h.len])
        (by rw [(fresh _).2, Nat.mul_comm])
      rw [e1]
      refine ⟨_, rfl, ⟨by simp only; omega, ?_⟩, rfl, ?_⟩
      · simp only; rw [e2, (fresh _).2, Nat.mul_comm]
      · intro col r hc hr _; exact e3 col r hc hr
    · simp only [h4, if_false]
      obtain ⟨b, e1, e2⟩ := forLoop_invariant (a := 0) (b := ncol)
        (step := fun _ (buf : List α) => some buf) (s := (fresh (max req over * ncol)).1)
        (fun _ s => s = (fresh (max req over * ncol)).1) (Nat.zero_le _)
        (fun i s _ _ hs => ⟨s, rfl, hs⟩) rfl
      rw [e1]
      refine ⟨_, rfl, ⟨by simp only; omega, ?_⟩, rfl, ?_⟩
      · simp only; rw [e2, (fresh _).2, Nat.mul_comm]
      · intro col r _ hr _; omega
  · rw [if_neg h3]
    exact ⟨_, rfl, ⟨by simp only; omega, h.len⟩, rfl, fun _ _ _ _ _ => rfl⟩

/-! ## Extrema -/

theorem foldl_max_spec (l : List Nat) (x : Nat) :
    (∀ y ∈ x :: l, y ≤ l.foldl max x) ∧ l.foldl max x ∈ x :: l := by
  induction l generalizing x with
  | nil => simp
  | cons a l ih =>
    obtain ⟨h1, h2⟩ := ih (max x a)
    simp only [List.foldl_cons]
    refine ⟨?_, ?_⟩
    · intro y hy
      have h3 := h1 (max x a) (by simp)
      rcases List.mem_cons.1 hy with rfl | hy
      · omega
      · rcases List.mem_cons.1 hy with rfl | hy
        · omega
        · exact h1 y (by simp [hy])
    · rcases List.mem_cons.1 h2 with h | h
      · rw [h]
        rcases Nat.le_total x a with h | h
        · rw [Nat.max_eq_right h]; simp
        · rw [Nat.max_eq_left h]; simp
      · simp [h]

theorem foldl_min_spec (l : List Nat) (x : Nat) :
    (∀ y ∈ x :: l, l.foldl min x ≤ y) ∧ l.foldl min x ∈ x :: l := by
  induction l generalizing x with
  | nil => simp
  | cons a l ih =>
    obtain ⟨h1, h2⟩ := ih (min x a)
    simp only [List.foldl_cons]
    refine ⟨?_, ?_⟩
    · intro y hy
      have h3 := h1 (min x a) (by simp)
      rcases List.mem_cons.1 hy with rfl | hy
      · omega
      · rcases List.mem_cons.1 hy with rfl | hy
        · omega
        · exact h1 y (by simp [hy])
    · rcases List.mem_cons.1 h2 with h | h
      · rw [h]
        rcases Nat.le_total x a with h | h
        · rw [Nat.min_eq_left h]; simp
        · rw [Nat.min_eq_right h]; simp
      · simp [h]

theorem listMax_spec {l : List Nat} (h : l ≠ []) :
    ∃ x, listMax l = some x ∧ x ∈ l ∧ ∀ y ∈ l, y ≤ x := by
  cases l with
  | nil => exact absurd rfl h
  | cons a l => exact ⟨_, rfl, (foldl_max_spec l a).2, (foldl_max_spec l a).1⟩

theorem listMin_spec {l : List Nat} (h : l ≠ []) :
    ∃ x, listMin l = some x ∧ x ∈ l ∧ ∀ y ∈ l, x ≤ y := by
  cases l with
  | nil => exact absurd rfl h
  | cons a l => exact ⟨_, rfl, (foldl_min_spec l a).2, (foldl_min_spec l a).1⟩

/-! ## Histories -/

/-- The cached extrema are not set, or right; but the minimum may be the -1 of the
constructor as long as there are no rows. -/
def CacheOk (d : FlatDat α) : Prop :=
  d.nrowMax < 0 ∨
    ((∃ x ∈ d.cells, d.nrowMax = (x.nrow : Int)) ∧ (∀ x ∈ d.cells, (x.nrow : Int) ≤ d.nrowMax) ∧
      (((∃ x ∈ d.cells, d.nrowMin = (x.nrow : Int)) ∧
          ∀ x ∈ d.cells, d.nrowMin ≤ (x.nrow : Int)) ∨
        (d.nrowMin = -1 ∧ ∀ x ∈ d.cells, x.nrow = 0)))

/-- The model represents the abstract state. -/
structure Rep (ncells ncol : Nat) (d : FlatDat α) (a : AbsDat α) : Prop where
  ncol_eq : d.ncol = ncol
  len : d.cells.length = ncells
  ok : ∀ (c : Nat) (x : FlatCell α), d.cells[c]? = some x → x.Ok ncol ∧ x.nrow = a.nrow c
  val : ∀ (c : Nat) (x : FlatCell α), d.cells[c]? = some x → ∀ r j v, j < ncol →
    a.val c r j = some v → r < x.nrow ∧ x.buf[j * x.alloc + r]? = some v
  cache : 0 < ncells → CacheOk d

theorem Rep.cell {ncells ncol : Nat} {d : FlatDat α} {a : AbsDat α} (h : Rep ncells ncol d a)
    {c : Nat} (hc : c < ncells) : ∃ x, d.cells[c]? = some x :=
  ⟨_, List.getElem?_eq_getElem (by rw [h.len]; exact hc)⟩

theorem Rep.create (ncells ncol : Nat) :
    Rep ncells ncol (FlatDat.create ncells ncol : FlatDat α) AbsDat.init := by
  have hmem : ∀ (c : Nat) (x : FlatCell α),
      (FlatDat.create ncells ncol : FlatDat α).cells[c]? = some x → x = ⟨0, 0, []⟩ := by
    intro c x hx
    have := List.mem_of_getElem? hx
    simp only [FlatDat.create, List.mem_replicate] at this
    exact this.2
  refine ⟨rfl, by simp [FlatDat.create], ?_, ?_, ?_⟩
  · intro c x hx
    rw [hmem c x hx]
    exact ⟨⟨Nat.le_refl _, by simp⟩, rfl⟩
  · intro c x _ r j v _ hv
    simp [AbsDat.init] at hv
  · intro hn
    right
    have hall : ∀ x ∈ (FlatDat.create ncells ncol : FlatDat α).cells, x.nrow = 0 := by
      intro x hx
      simp only [FlatDat.create, List.mem_replicate] at hx
      rw [hx.2]
    refine ⟨⟨⟨0, 0, []⟩, ?_, rfl⟩, ?_, Or.inr ⟨rfl, hall⟩⟩
    · simp only [FlatDat.create, List.mem_replicate]; exact ⟨by omega, trivial⟩
    · intro x hx; rw [hall x hx]; simp [FlatDat.create]

/-- Replacing the buffer of a cell does not change the reported rows. -/
theorem CacheOk.set_buf {d : FlatDat α} (h : CacheOk d) {cell : Nat} {x : FlatCell α}
    (hx : d.cells[cell]? = some x) (b : List α) :
    CacheOk { d with cells := d.cells.set cell { x with buf := b } } := by
  have hlt := (List.getElem?_eq_some_iff.1 hx).1
  have hfwd : ∀ y ∈ d.cells, ∃ y' ∈ d.cells.set cell { x with buf := b }, y'.nrow = y.nrow := by
    intro y hy
    obtain ⟨i, hi⟩ := List.mem_iff_getElem?.1 hy
    by_cases h : i = cell
    · subst h
      rw [hx] at hi
      simp only [Option.some.injEq] at hi
      exact ⟨_, List.mem_iff_getElem?.2 ⟨i, List.getElem?_set_self hlt⟩, by rw [← hi]⟩
    · exact ⟨y, List.mem_iff_getElem?.2 ⟨i, by rw [List.getElem?_set_ne (by omega)]; exact hi⟩,
        rfl⟩
  have hbwd : ∀ y ∈ d.cells.set cell { x with buf := b }, ∃ y' ∈ d.cells, y'.nrow = y.nrow := by
    intro y hy
    rcases List.mem_or_eq_of_mem_set hy with h | h
    · exact ⟨y, h, rfl⟩
    · exact ⟨x, List.mem_of_getElem? hx, by rw [h]⟩
  unfold CacheOk at *
  simp only at *
  rcases h with h | ⟨⟨y, hy, h1⟩, h2, h3⟩
  · exact Or.inl h
  · right
    refine ⟨?_, ?_, ?_⟩
    · obtain ⟨y', hy', he⟩ := hfwd y hy
      exact ⟨y', hy', by rw [he]; exact h1⟩
    · intro z hz
      obtain ⟨z', hz', he⟩ := hbwd z hz
      rw [← he]; exact h2 z' hz'
    · rcases h3 with ⟨⟨w, hw, h4⟩, h5⟩ | ⟨h4, h5⟩
      · left
        obtain ⟨w', hw', he⟩ := hfwd w hw
        refine ⟨⟨w', hw', by rw [he]; exact h4⟩, ?_⟩
        intro z hz
        obtain ⟨z', hz', he⟩ := hbwd z hz
        rw [← he]; exact h5 z' hz'
      · right
        refine ⟨h4, ?_⟩
        intro z hz
        obtain ⟨z', hz', he⟩ := hbwd z hz
        rw [← he]; exact h5 z' hz'

theorem Rep.setNrow {ncells ncol : Nat} {d : FlatDat α} {a : AbsDat α} (h : Rep ncells ncol d a)
    (fresh : Fresh α) (over : Nat) {cell : Nat} (hc : cell < ncells) (req : Nat) :
    ∃ d', d.setNrow fresh over cell req = some d' ∧
      Rep ncells ncol d' (a.call (.setNrow cell req)) := by
  obtain ⟨x, hx⟩ := h.cell hc
  obtain ⟨hok, hn⟩ := h.ok cell x hx
  obtain ⟨x', e1, e2, e3, e4⟩ := FlatCell.setNrow_spec fresh over req hok
  have hlt := (List.getElem?_eq_some_iff.1 hx).1
  have hcell : ∀ (c : Nat) (y : FlatCell α), (d.cells.set cell x')[c]? = some y →
      (c = cell ∧ y = x') ∨ (c ≠ cell ∧ d.cells[c]? = some y) := by
    intro c y hy
    by_cases hcc : c = cell
    · subst hcc
      rw [List.getElem?_set_self hlt] at hy
      simp only [Option.some.injEq] at hy
      exact Or.inl ⟨rfl, hy.symm⟩
    · rw [List.getElem?_set_ne (by omega)] at hy
      exact Or.inr ⟨hcc, hy⟩
  unfold FlatDat.setNrow
  simp only [rd, hx, Option.bind_some]
  rw [h.ncol_eq, e1]
  refine ⟨_, rfl, rfl, by simp [h.len], ?_, ?_, ?_⟩
  · intro c y hy
    rcases hcell c y hy with ⟨rfl, rfl⟩ | ⟨hne, hy⟩
    · exact ⟨e2, by simp [AbsDat.call, AbsDat.resize, e3]⟩
    · have := h.ok c y hy
      exact ⟨this.1, by simp [AbsDat.call, AbsDat.resize, hne, this.2]⟩
  · intro c y hy r j v hj hv
    simp only [AbsDat.call, AbsDat.resize] at hv
    rcases hcell c y hy with ⟨rfl, rfl⟩ | ⟨hne, hy⟩
    · simp only [if_true] at hv
      by_cases hr : r < req
      · rw [if_pos hr] at hv
        obtain ⟨g1, g2⟩ := h.val c x hx r j v hj hv
        exact ⟨by rw [e3]; exact hr, by rw [e4 j r hj g1 hr]; exact g2⟩
      · rw [if_neg hr] at hv; simp at hv
    · simp only [if_neg hne] at hv
      by_cases hr : r < a.nrow c
      · rw [if_pos hr] at hv
        exact h.val c y hy r j v hj hv
      · rw [if_neg hr] at hv; simp at hv
  · intro hpos
    by_cases hreq : req = x.nrow
    · have : x' = x := by
        unfold FlatCell.setNrow at e1
        rw [if_pos hreq] at e1
        simpa using e1.symm
      subst this
      simp only [if_pos hreq]
      have hset : d.cells.set cell x' = d.cells := by
        apply List.ext_getElem?
        intro i
        by_cases hi : i = cell
        · subst hi; rw [List.getElem?_set_self hlt, hx]
        · rw [List.getElem?_set_ne (by omega)]
      rw [hset]
      exact h.cache hpos
    · simp only [if_neg hreq]
      exact Or.inl (show (-1 : Int) < 0 by decide)

theorem Rep.reduceNrow {ncells ncol : Nat} {d : FlatDat α} {a : AbsDat α}
    (h : Rep ncells ncol d a) {req : List Nat} (hl : req.length = ncells)
    (hle : ∀ c, c < ncells → req.getD c 0 ≤ a.nrow c) :
    ∃ d', d.reduceNrow req = some d' ∧ Rep ncells ncol d' (a.call (.reduceNrow req)) := by
  obtain ⟨cells', h1, h2, h3, -⟩ := forLoop_invariant (a := 0) (b := d.cells.length)
    (step := fun cx cells => (rd req cx).bind fun n => (rd cells cx).bind fun c =>
      st cells cx { c with nrow := n }) (s := d.cells)
    (fun i s => s.length = ncells ∧
      (∀ c, c < i → s[c]? = (d.cells[c]?).map fun x => { x with nrow := req.getD c 0 }) ∧
      (∀ c, i ≤ c → s[c]? = d.cells[c]?)) (Nat.zero_le _)
    (by
      rintro i s _ hi ⟨g1, g2, g3⟩
      have hi' : i < ncells := by rw [h.len] at hi; exact hi
      obtain ⟨x, hx⟩ := h.cell hi'
      have hr : req[i]? = some (req.getD i 0) := by simp [hl, hi']
      refine ⟨s.set i { x with nrow := req.getD i 0 }, ?_, by simp [g1], ?_, ?_⟩
      · simp only [rd, hr, Option.bind_some, g3 i (Nat.le_refl _), hx]
        rw [st_eq_some (by omega)]
      · intro c hc
        by_cases hci : c = i
        · subst hci; rw [List.getElem?_set_self (by omega), hx]; rfl
        · rw [List.getElem?_set_ne (by omega)]; exact g2 c (by omega)
      · intro c hc
        rw [List.getElem?_set_ne (by omega)]; exact g3 c (by omega))
    ⟨h.len, fun _ hc => by omega, fun _ _ => rfl⟩
  have hget : ∀ (c : Nat) (y : FlatCell α), cells'[c]? = some y → c < ncells ∧ ∃ x,
      d.cells[c]? = some x ∧ y = { x with nrow := req.getD c 0 } := by
    intro c y hy
    have hc := (List.getElem?_eq_some_iff.1 hy).1
    rw [h2] at hc
    obtain ⟨x, hx⟩ := h.cell hc
    rw [h3 c (by rw [h.len]; exact hc), hx] at hy
    simp only [Option.map_some, Option.some.injEq] at hy
    exact ⟨hc, x, hx, hy.symm⟩
  unfold FlatDat.reduceNrow
  rw [h1]
  refine ⟨_, rfl, h.ncol_eq, h2, ?_, ?_, fun _ => Or.inl (by simp)⟩
  · intro c y hy
    obtain ⟨hc, x, hx, rfl⟩ := hget c y hy
    obtain ⟨g1, g2⟩ := h.ok c x hx
    refine ⟨⟨?_, g1.len⟩, rfl⟩
    have := hle c hc
    have := g1.le
    simp only
    omega
  · intro c y hy r j v hj hv
    obtain ⟨hc, x, hx, rfl⟩ := hget c y hy
    simp only [AbsDat.call, AbsDat.resize] at hv
    by_cases hr : r < req.getD c 0
    · rw [if_pos hr] at hv
      exact ⟨hr, (h.val c x hx r j v hj hv).2⟩
    · rw [if_neg hr] at hv; simp at hv

theorem Rep.setValue {ncells ncol : Nat} {d : FlatDat α} {a : AbsDat α}
    (h : Rep ncells ncol d a) {cell row col : Nat} (hc : cell < ncells)
    (hr : row < a.nrow cell) (hj : col < ncol) (v : α) :
    ∃ d', d.setValue cell row col v = some d' ∧
      Rep ncells ncol d' (a.call (.setValue cell row col v)) := by
  obtain ⟨x, hx⟩ := h.cell hc
  obtain ⟨hok, hn⟩ := h.ok cell x hx
  have hlt := (List.getElem?_eq_some_iff.1 hx).1
  have hin : col * x.alloc + row < x.buf.length := by
    rw [hok.len]
    exact col_lt hj (by have := hok.le; omega)
  unfold FlatDat.setValue
  simp only [rd, hx, Option.bind_some]
  rw [st_eq_some hin]
  refine ⟨_, rfl, h.ncol_eq, by simp [h.len], ?_, ?_, fun hp => (h.cache hp).set_buf hx _⟩
  · intro c y hy
    by_cases hcc : c = cell
    · subst hcc
      rw [List.getElem?_set_self hlt] at hy
      simp only [Option.some.injEq] at hy
      subst hy
      exact ⟨⟨hok.le, by simp only [List.length_set]; exact hok.len⟩, hn⟩
    · rw [List.getElem?_set_ne (by omega)] at hy
      exact h.ok c y hy
  · intro c y hy r j w hj' hw
    simp only [AbsDat.call] at hw
    by_cases hcc : c = cell
    · subst hcc
      rw [List.getElem?_set_self hlt] at hy
      simp only [Option.some.injEq] at hy
      subst hy
      simp only
      by_cases hrj : r = row ∧ j = col
      · obtain ⟨rfl, rfl⟩ := hrj
        simp only [and_self, if_true, Option.some.injEq] at hw
        subst hw
        exact ⟨by omega, List.getElem?_set_self hin⟩
      · rw [if_neg (by rintro ⟨-, h1, h2⟩; exact hrj ⟨h1, h2⟩)] at hw
        obtain ⟨g1, g2⟩ := h.val c x hx r j w hj' hw
        refine ⟨g1, ?_⟩
        rw [List.getElem?_set_ne]
        · exact g2
        · intro heq
          have := col_unique (B := x.alloc) (by have := hok.le; omega) (by have := hok.le; omega)
            heq
          exact hrj ⟨this.2.symm, this.1.symm⟩
    · rw [List.getElem?_set_ne (by omega)] at hy
      rw [if_neg (by rintro ⟨h1, -⟩; exact hcc h1)] at hw
      exact h.val c y hy r j w hj' hw

theorem Rep.setCell {ncells ncol : Nat} {d : FlatDat α} {a : AbsDat α}
    (h : Rep ncells ncol d a) {cell : Nat} (hc : cell < ncells) {hd : HostCell α}
    (hr : a.nrow cell ≤ hd.nrow) (hj : ncol ≤ hd.ncol)
    (hl : hd.data.length = hd.nrow * hd.ncol) :
    ∃ d', d.setCell cell hd = some d' ∧ Rep ncells ncol d' (a.call (.setCell cell hd)) := by
  obtain ⟨x, hx⟩ := h.cell hc
  obtain ⟨hok, hn⟩ := h.ok cell x hx
  have hlt := (List.getElem?_eq_some_iff.1 hx).1
  have hbuf : ∃ buf, (if x.nrow > 0 then
      forLoop 0 d.ncol (fun colx buf => memcpy hd.data (colx * hd.nrow) buf (colx * x.alloc)
        x.nrow) x.buf else some x.buf) = some buf ∧ buf.length = x.buf.length ∧
      (∀ j r, j < ncol → r < x.nrow → buf[j * x.alloc + r]? = hd.data[j * hd.nrow + r]?) := by
    by_cases h0 : x.nrow > 0
    · rw [if_pos h0, h.ncol_eq]
      obtain ⟨b, e1, e2, e3, -⟩ := copyCols_spec (src := hd.data) (dst := x.buf) (ncol := ncol)
        (A := hd.nrow) (B := x.alloc) (n := x.nrow) (by omega) hok.le
        (by rw [hl, Nat.mul_comm]; exact Nat.mul_le_mul_left _ hj) hok.len
      exact ⟨b, e1, e2, e3⟩
    · rw [if_neg h0]
      exact ⟨_, rfl, rfl, fun _ _ _ hr => by omega⟩
  obtain ⟨buf, e1, e2, e3⟩ := hbuf
  unfold FlatDat.setCell
  simp only [rd, hx, Option.bind_some]
  rw [if_pos ⟨by omega, by rw [h.ncol_eq]; exact hj⟩, e1]
  refine ⟨_, rfl, h.ncol_eq, by simp [h.len], ?_, ?_, fun hp => (h.cache hp).set_buf hx _⟩
  · intro c y hy
    by_cases hcc : c = cell
    · subst hcc
      rw [List.getElem?_set_self hlt] at hy
      simp only [Option.some.injEq] at hy
      subst hy
      exact ⟨⟨hok.le, by simp only; rw [e2]; exact hok.len⟩, hn⟩
    · rw [List.getElem?_set_ne (by omega)] at hy
      exact h.ok c y hy
  · intro c y hy r j w hj' hw
    simp only [AbsDat.call] at hw
    by_cases hcc : c = cell
    · subst hcc
      rw [List.getElem?_set_self hlt] at hy
      simp only [Option.some.injEq] at hy
      subst hy
      simp only
      by_cases hrr : r < a.nrow c
      · simp only [true_and, hrr, if_true, HostCell.at, rd] at hw
        exact ⟨by omega, by rw [e3 j r hj' (by omega)]; exact hw⟩
      · rw [if_neg (by rintro ⟨-, h1⟩; exact hrr h1)] at hw
        have := (h.val c x hx r j w hj' hw).1
        omega
    · rw [List.getElem?_set_ne (by omega)] at hy
      rw [if_neg (by rintro ⟨h1, -⟩; exact hcc h1)] at hw
      exact h.val c y hy r j w hj' hw

/-- What `computeNrowMax` stores. -/
theorem computeNrowMax_spec {d : FlatDat α} (h : d.cells ≠ []) :
    ∃ mx mn : Nat, d.computeNrowMax = some { d with nrowMax := (mx : Int), nrowMin := (mn : Int) } ∧
      (∃ x ∈ d.cells, x.nrow = mx) ∧ (∀ x ∈ d.cells, x.nrow ≤ mx) ∧
      (∃ x ∈ d.cells, x.nrow = mn) ∧ (∀ x ∈ d.cells, mn ≤ x.nrow) := by
  have hne : d.cells.map (·.nrow) ≠ [] := by simpa using h
  obtain ⟨mx, a1, a2, a3⟩ := listMax_spec hne
  obtain ⟨mn, b1, b2, b3⟩ := listMin_spec hne
  refine ⟨mx, mn, ?_, by simpa using a2, ?_, by simpa using b2, ?_⟩
  · unfold FlatDat.computeNrowMax
    rw [a1, b1]; rfl
  · intro x hx; exact a3 _ (List.mem_map_of_mem hx)
  · intro x hx; exact b3 _ (List.mem_map_of_mem hx)

theorem Rep.cells_ne_nil {ncells ncol : Nat} {d : FlatDat α} {a : AbsDat α}
    (h : Rep ncells ncol d a) (hn : 0 < ncells) : d.cells ≠ [] := by
  intro h0
  have := h.len
  rw [h0] at this
  simp at this
  omega

theorem Rep.query {ncells ncol : Nat} {d : FlatDat α} {a : AbsDat α} (h : Rep ncells ncol d a)
    (hn : 0 < ncells) :
    ∃ d', (d.getNrowMax.bind fun r => some r.2) = some d' ∧
      Rep ncells ncol d' (a.call .query) := by
  unfold FlatDat.getNrowMax
  by_cases h0 : d.nrowMax < 0
  · rw [if_pos h0]
    obtain ⟨mx, mn, e1, ⟨x, hx, e2⟩, e3, ⟨y, hy, e4⟩, e5⟩ :=
      computeNrowMax_spec (h.cells_ne_nil hn)
    rw [e1]
    refine ⟨_, rfl, h.ncol_eq, h.len, h.ok, h.val, fun _ => Or.inr ⟨⟨x, hx, by simp [e2]⟩, ?_,
      Or.inl ⟨⟨y, hy, by simp [e4]⟩, ?_⟩⟩⟩
    · intro z hz; have := e3 z hz; simp only; omega
    · intro z hz; have := e5 z hz; simp only; omega
  · rw [if_neg h0]
    exact ⟨d, rfl, h⟩

theorem Rep.call {ncells ncol : Nat} {d : FlatDat α} {a : AbsDat α} (h : Rep ncells ncol d a)
    (fresh : Fresh α) (over : Nat) (x : CellCall α) (hx : CallOk ncells ncol a x) :
    ∃ d', d.call fresh over x = some d' ∧ Rep ncells ncol d' (a.call x) := by
  cases x with
  | setNrow cell req => exact h.setNrow fresh over hx req
  | reduceNrow req => exact h.reduceNrow hx.1 hx.2
  | setValue cell row col v => exact h.setValue hx.1 hx.2.1 hx.2.2 v
  | setCell cell hd => exact h.setCell hx.1 hx.2.1 hx.2.2.1 hx.2.2.2
  | query => exact h.query hx

theorem Rep.calls {ncells ncol : Nat} (fresh : Nat → Fresh α) (over : Nat → Nat)
    (xs : List (CellCall α)) {d : FlatDat α} {a : AbsDat α} (i : Nat) (h : Rep ncells ncol d a)
    (hx : CallsOk ncells ncol a xs) :
    ∃ d', d.calls fresh over i xs = some d' ∧ Rep ncells ncol d' (a.calls xs) := by
  induction xs generalizing d a i with
  | nil => exact ⟨d, rfl, h⟩
  | cons x xs ih =>
    obtain ⟨d1, e1, h1⟩ := h.call (fresh i) (over i) x hx.1
    obtain ⟨d2, e2, h2⟩ := ih (i + 1) h1 hx.2
    refine ⟨d2, ?_, h2⟩
    simp only [FlatDat.calls]
    rw [e1]; exact e2

/-- `get_cell` returns the rows of the cell. -/
theorem getCell_spec {ncells ncol : Nat} {d : FlatDat α} {a : AbsDat α} (h : Rep ncells ncol d a)
    (zero : α) {cell : Nat} (hc : cell < ncells) :
    ∃ hd, d.getCell zero cell = some hd ∧ hd.nrow = a.nrow cell ∧ hd.ncol = ncol ∧
      hd.data.length = a.nrow cell * ncol ∧
      ∀ r j, r < a.nrow cell → j < ncol → hd.at r j = d.getValue cell r j := by
  obtain ⟨x, hx⟩ := h.cell hc
  obtain ⟨hok, hn⟩ := h.ok cell x hx
  unfold FlatDat.getCell FlatDat.getValue
  simp only [rd, hx, Option.bind_some]
  by_cases h0 : x.nrow > 0
  · rw [if_pos h0, h.ncol_eq]
    obtain ⟨b, e1, e2, e3, -⟩ := copyCols_spec (src := x.buf)
      (dst := List.replicate (x.nrow * ncol) zero) (ncol := ncol)
      (A := x.alloc) (B := x.nrow) (n := x.nrow) hok.le (Nat.le_refl _) (by rw [hok.len])
      (by simp [Nat.mul_comm])
    rw [e1]
    refine ⟨_, rfl, hn, rfl, by simp only; rw [e2]; simp [hn], ?_⟩
    intro r j hr hj
    exact e3 j r hj (by omega)
  · rw [if_neg h0]
    refine ⟨_, rfl, hn, h.ncol_eq, by simp [hn, h.ncol_eq], ?_⟩
    intro r j hr; omega

end NP
