import Verif.Group.LemmasCellDat
import Verif.Group.LemmasPlan

/-!
# Property C17: `CellDat`
-/

set_option autoImplicit false

namespace NP

open Spec

variable {α : Type}

/-! ## C17 -/

/-- **C17** After every history of allowed calls (resizes, writes, queries), starting from
a new `CellDat` and whatever new memory contains: no call fails, every cell reports the
requested number of rows and has storage for them, every entry that was written since its
row appeared has the value last written to it. -/
theorem C17_history (ncells ncol : Nat) (calls : List (CellCall α))
    (hok : CallsOk ncells ncol AbsDat.init calls) (fresh : Nat → Fresh α) (over : Nat → Nat) :
    ∃ d : FlatDat α, (FlatDat.create ncells ncol).calls fresh over 0 calls = some d ∧
      (∀ c, c < ncells → ∃ x, d.cells[c]? = some x ∧
        x.nrow = ((AbsDat.init : AbsDat α).calls calls).nrow c ∧ x.nrow ≤ x.alloc ∧
        x.buf.length = ncol * x.alloc) ∧
      (∀ c r j v, c < ncells → j < ncol →
        ((AbsDat.init : AbsDat α).calls calls).val c r j = some v →
        d.getValue c r j = some v) := by
  obtain ⟨d, h1, h2⟩ := Rep.calls fresh over calls 0 (Rep.create ncells ncol) hok
  refine ⟨d, h1, ?_, ?_⟩
  · intro c hc
    obtain ⟨x, hx⟩ := h2.cell hc
    obtain ⟨h3, h4⟩ := h2.ok c x hx
    exact ⟨x, hx, h4, h3.le, h3.len⟩
  · intro c r j v hc hj hv
    obtain ⟨x, hx⟩ := h2.cell hc
    unfold FlatDat.getValue
    simp only [rd, hx, Option.bind_some]
    exact (h2.val c x hx r j v hj hv).2

/-- **C17** After every history of allowed calls `get_cell` returns the reported rows of
the cell, with the values `get_value` returns. -/
theorem C17_get_cell (ncells ncol : Nat) (calls : List (CellCall α))
    (hok : CallsOk ncells ncol AbsDat.init calls) (fresh : Nat → Fresh α) (over : Nat → Nat)
    (zero : α) {cell : Nat} (hc : cell < ncells) :
    ∃ (d : FlatDat α) (h : HostCell α),
      (FlatDat.create ncells ncol).calls fresh over 0 calls = some d ∧
      d.getCell zero cell = some h ∧
      h.nrow = ((AbsDat.init : AbsDat α).calls calls).nrow cell ∧ h.ncol = ncol ∧
      h.data.length = h.nrow * h.ncol ∧
      ∀ r j, r < h.nrow → j < ncol → h.at r j = d.getValue cell r j := by
  obtain ⟨d, h1, h2⟩ := Rep.calls fresh over calls 0 (Rep.create ncells ncol) hok
  obtain ⟨hd, h3, h4, h5, h6, h7⟩ := getCell_spec h2 zero hc
  exact ⟨d, hd, h1, h3, h4, h5, by rw [h4, h5]; exact h6, fun r j hr hj => h7 r j (by omega) hj⟩

/-- **C17** After every history of allowed calls `get_nrow_max` returns the largest number
of rows of a cell. -/
theorem C17_nrow_max (ncells ncol : Nat) (hn : 0 < ncells) (calls : List (CellCall α))
    (hok : CallsOk ncells ncol AbsDat.init calls) (fresh : Nat → Fresh α) (over : Nat → Nat) :
    ∃ (d d' : FlatDat α) (mx : Nat),
      (FlatDat.create ncells ncol).calls fresh over 0 calls = some d ∧
      d.getNrowMax = some ((mx : Int), d') ∧
      (∃ c, c < ncells ∧ ((AbsDat.init : AbsDat α).calls calls).nrow c = mx) ∧
      (∀ c, c < ncells → ((AbsDat.init : AbsDat α).calls calls).nrow c ≤ mx) := by
  obtain ⟨d, h1, h2⟩ := Rep.calls fresh over calls 0 (Rep.create ncells ncol) hok
  have hof : ∀ x ∈ d.cells, ∃ c, c < ncells ∧
      ((AbsDat.init : AbsDat α).calls calls).nrow c = x.nrow := by
    intro x hx
    obtain ⟨c, hc⟩ := List.mem_iff_getElem?.1 hx
    have := (List.getElem?_eq_some_iff.1 hc).1
    rw [h2.len] at this
    exact ⟨c, this, (h2.ok c x hc).2.symm⟩
  unfold FlatDat.getNrowMax
  by_cases h0 : d.nrowMax < 0
  · obtain ⟨mx, mn, e1, ⟨x, hx, e2⟩, e3, -, -⟩ := computeNrowMax_spec (h2.cells_ne_nil hn)
    refine ⟨d, _, mx, h1, by rw [if_pos h0, e1]; rfl, ?_, ?_⟩
    · obtain ⟨c, hc, h3⟩ := hof x hx
      exact ⟨c, hc, by rw [h3, e2]⟩
    · intro c hc
      obtain ⟨x, hx⟩ := h2.cell hc
      rw [← (h2.ok c x hx).2]
      exact e3 x (List.mem_of_getElem? hx)
  · rcases h2.cache hn with h | ⟨⟨x, hx, e1⟩, e2, -⟩
    · exact absurd h h0
    · refine ⟨d, d, x.nrow, h1, by rw [if_neg h0]; simp [e1], ?_, ?_⟩
      · exact hof x hx
      · intro c hc
        obtain ⟨y, hy⟩ := h2.cell hc
        rw [← (h2.ok c y hy).2]
        have := e2 y (List.mem_of_getElem? hy)
        omega

/-- **C17** After every history of allowed calls `get_nrow_min` returns the smallest
number of rows of a cell, or -1 in the case that all cells have zero rows.
Missing from the full property: it should be 0 and not -1 in that case, see
`C17_fresh_nrow_min`. -/
theorem C17_nrow_min_partial (ncells ncol : Nat) (hn : 0 < ncells) (calls : List (CellCall α))
    (hok : CallsOk ncells ncol AbsDat.init calls) (fresh : Nat → Fresh α) (over : Nat → Nat) :
    ∃ (d d' : FlatDat α) (mn : Int),
      (FlatDat.create ncells ncol).calls fresh over 0 calls = some d ∧
      d.getNrowMin = some (mn, d') ∧
      (((∃ c, c < ncells ∧ (((AbsDat.init : AbsDat α).calls calls).nrow c : Int) = mn) ∧
        (∀ c, c < ncells → mn ≤ ((AbsDat.init : AbsDat α).calls calls).nrow c)) ∨
       (mn = -1 ∧ ∀ c, c < ncells → ((AbsDat.init : AbsDat α).calls calls).nrow c = 0)) := by
  obtain ⟨d, h1, h2⟩ := Rep.calls fresh over calls 0 (Rep.create ncells ncol) hok
  have hof : ∀ x ∈ d.cells, ∃ c, c < ncells ∧
      ((AbsDat.init : AbsDat α).calls calls).nrow c = x.nrow := by
    intro x hx
    obtain ⟨c, hc⟩ := List.mem_iff_getElem?.1 hx
    have := (List.getElem?_eq_some_iff.1 hc).1
    rw [h2.len] at this
    exact ⟨c, this, (h2.ok c x hc).2.symm⟩
  unfold FlatDat.getNrowMin
  by_cases h0 : d.nrowMax < 0
  · obtain ⟨mx, mn, e1, -, -, ⟨x, hx, e2⟩, e3⟩ := computeNrowMax_spec (h2.cells_ne_nil hn)
    refine ⟨d, _, (mn : Int), h1, by rw [if_pos h0, e1]; rfl, Or.inl ⟨?_, ?_⟩⟩
    · obtain ⟨c, hc, h3⟩ := hof x hx
      exact ⟨c, hc, by rw [h3, e2]⟩
    · intro c hc
      obtain ⟨x, hx⟩ := h2.cell hc
      rw [← (h2.ok c x hx).2]
      have := e3 x (List.mem_of_getElem? hx)
      omega
  · rcases h2.cache hn with h | ⟨-, -, h⟩
    · exact absurd h h0
    · refine ⟨d, d, d.nrowMin, h1, by rw [if_neg h0]; rfl, ?_⟩
      rcases h with ⟨⟨x, hx, e1⟩, e2⟩ | ⟨e1, e2⟩
      · left
        refine ⟨?_, ?_⟩
        · obtain ⟨c, hc, h3⟩ := hof x hx
          exact ⟨c, hc, by rw [h3, e1]⟩
        · intro c hc
          obtain ⟨y, hy⟩ := h2.cell hc
          rw [← (h2.ok c y hy).2]
          exact e2 y (List.mem_of_getElem? hy)
      · right
        refine ⟨e1, ?_⟩
        intro c hc
        obtain ⟨y, hy⟩ := h2.cell hc
        rw [← (h2.ok c y hy).2]
        exact e2 y (List.mem_of_getElem? hy)

/-- The violation: a new `CellDat` with two cells of zero rows reports a minimum of -1. -/
theorem C17_fresh_nrow_min :
    ((FlatDat.create 2 3 : FlatDat Int).getNrowMin).map (·.1) = some (-1) := by decide

/-- A history: grow, write, grow beyond the allocation, shrink, grow again, write a cell. -/
def Ex.calls : List (CellCall Int) :=
  [.setNrow 1 2, .setValue 1 0 2 5, .setValue 1 1 0 6, .query, .setNrow 1 9, .setNrow 1 1,
   .setNrow 1 3, .setNrow 0 1, .setCell 0 ⟨2, 3, [1, 2, 3, 4, 5, 6]⟩, .reduceNrow [1, 2]]

/-- The history is allowed. -/
theorem Ex.calls_ok : CallsOk 2 3 AbsDat.init Ex.calls := by
  simp [Ex.calls, CallsOk, CallOk, AbsDat.call, AbsDat.resize, AbsDat.init]
  intro c hc
  match c, hc with
  | 0, _ => decide
  | 1, _ => decide

/-- What it leaves: the value in the row that was kept, nothing in the row that was lost
and appeared again. -/
example : ((AbsDat.init : AbsDat Int).calls Ex.calls).val 1 0 2 = some 5 ∧
    ((AbsDat.init : AbsDat Int).calls Ex.calls).val 1 1 0 = none ∧
    ((AbsDat.init : AbsDat Int).calls Ex.calls).val 0 0 1 = some 3 := by decide

/-! ### The addresses of the group model -/

/-- Cell `c` of the storage of dat `d` in the address model is the flat cell `f`. -/
structure CellRep (m : Mem) (d : Dat) (c : Nat) (f : FlatCell Int) : Prop where
  nrow : d.nrow[c]? = some f.nrow
  alloc : d.alloc[c]? = some f.alloc
  le : f.nrow ≤ f.alloc
  len : f.buf.length = d.ncomp * f.alloc
  val : ∀ j r, j < d.ncomp → r < f.alloc → m ⟨d.sym, c, j, r⟩ = f.buf[j * f.alloc + r]?

/-- **C17** `set_nrow` on flat buffers is `setNrow` of the address model used for particle
groups: if the storage agrees before, and new memory has the same contents, it agrees
afterwards. Other cells and properties are not touched. -/
theorem C17_address_model {e : Env} {m : Mem} {d : Dat} {c : Nat} {f : FlatCell Int}
    (h : CellRep m d c f) (req : Nat) (fresh : Fresh Int)
    (hf : ∀ j r, j < d.ncomp → r < max req (e.over c req) →
      (fresh (max req (e.over c req) * d.ncomp)).1[j * max req (e.over c req) + r]? =
        some (e.junk ⟨d.sym, c, j, r⟩)) :
    ∃ m' d' f', setNrow e c req (m, d) = some (m', d') ∧
      f.setNrow fresh d.ncomp (e.over c req) req = some f' ∧ CellRep m' d' c f' ∧
      ∀ k, ¬ (k.sym = d.sym ∧ k.cell = c) → m' k = m k := by
  have hlt := (List.getElem?_eq_some_iff.1 h.nrow).1
  have hlt' := (List.getElem?_eq_some_iff.1 h.alloc).1
  have hle := h.le
  unfold setNrow FlatCell.setNrow
  simp only [rd, h.nrow, h.alloc, Option.bind_some]
  by_cases h1 : req = f.nrow
  · rw [if_pos h1, if_pos h1]
    exact ⟨m, d, f, rfl, rfl, h, fun _ _ => rfl⟩
  rw [if_neg h1, if_neg h1]
  by_cases h2 : req < f.nrow
  · rw [if_pos h2, if_pos h2]
    refine ⟨_, _, _, rfl, rfl, ⟨?_, h.alloc, by simp only; omega, h.len, h.val⟩, fun _ _ => rfl⟩
    simp only; rw [List.getElem?_set_self hlt]
  rw [if_neg h2, if_neg h2]
  by_cases h3 : req > f.alloc
  · rw [if_pos h3, if_pos h3]
    generalize hna : max req (e.over c req) = na at *
    have hmax : req ≤ na := by omega
    have hrd : ∀ (b : List Int),
        (∀ j r, j < d.ncomp → r < f.nrow → b[j * na + r]? = f.buf[j * f.alloc + r]?) →
        (∀ j r, j < d.ncomp → r < na → f.nrow ≤ r →
          b[j * na + r]? = (fresh (na * d.ncomp)).1[j * na + r]?) →
        ∀ j r, j < d.ncomp → r < na →
          reallocMem e.junk m d.sym d.ncomp c na (if f.alloc > 0 then f.nrow else 0)
            ⟨d.sym, c, j, r⟩ = b[j * na + r]? := by
      intro b hb1 hb2 j r hj hr
      unfold reallocMem
      simp only [and_self, if_true, hj, hr]
      by_cases hk : r < f.nrow
      · rw [if_pos (show f.alloc > 0 by omega), if_pos hk, hb1 j r hj hk]
        exact h.val j r hj (by omega)
      · rw [if_neg (by split <;> omega), hb2 j r hj hr (by omega), hf j r hj hr]
    have hother : ∀ k : Key, ¬ (k.sym = d.sym ∧ k.cell = c) →
        reallocMem e.junk m d.sym d.ncomp c na (if f.alloc > 0 then f.nrow else 0) k = m k := by
      intro k hk
      unfold reallocMem
      rw [if_neg hk]
    by_cases h4 : f.alloc > 0
    · simp only [h4, if_true] at *
      obtain ⟨b, e1, e2, e3, e4⟩ := copyCols_spec (src := f.buf)
        (dst := (fresh (na * d.ncomp)).1) (ncol := d.ncomp) (A := f.alloc)
        (B := na) (n := f.nrow) h.le (by omega) (by rw [h.len])
        (by rw [(fresh _).2, Nat.mul_comm])
      rw [e1]
      refine ⟨_, _, _, rfl, rfl, ⟨?_, ?_, by simp only; omega, ?_, ?_⟩, hother⟩
      · simp only; rw [List.getElem?_set_self hlt]
      · simp only; rw [List.getElem?_set_self hlt']
      · simp only; rw [e2, (fresh _).2, Nat.mul_comm]
      · exact hrd b e3 (fun j r hj hr hn => e4 j r hr hn)
    · have h0 : f.nrow = 0 := by omega
      simp only [h4, if_false] at *
      obtain ⟨b, e1, e2⟩ := forLoop_invariant (a := 0) (b := d.ncomp)
        (step := fun _ (buf : List Int) => some buf) (s := (fresh (na * d.ncomp)).1)
        (fun _ s => s = (fresh (na * d.ncomp)).1) (Nat.zero_le _)
        (fun i s _ _ hs => ⟨s, rfl, hs⟩) rfl
      rw [e1]
      refine ⟨_, _, _, rfl, rfl, ⟨?_, ?_, by simp only; omega, ?_, ?_⟩, hother⟩
      · simp only; rw [List.getElem?_set_self hlt]
      · simp only; rw [List.getElem?_set_self hlt']
      · simp only; rw [e2, (fresh _).2, Nat.mul_comm]
      · exact hrd b (fun j r _ hr => by omega) (fun j r _ _ _ => by rw [e2])
  · rw [if_neg h3, if_neg h3]
    refine ⟨_, _, _, rfl, rfl, ⟨?_, h.alloc, by simp only; omega, h.len, h.val⟩, fun _ _ => rfl⟩
    simp only; rw [List.getElem?_set_self hlt]

/-- A cell with two rows and three allocated rows of two columns. -/
example : CellRep (fun k => if k.comp < 2 ∧ k.row < 3 then some (k.comp * 3 + k.row : Nat) else none)
    ⟨0, 2, [2], [3], [2], [2]⟩ 0 ⟨2, 3, [0, 1, 2, 3, 4, 5]⟩ :=
  ⟨rfl, rfl, by decide, rfl, by
    intro j r hj hr
    match j, r, hj, hr with
    | 0, 0, _, _ => rfl
    | 0, 1, _, _ => rfl
    | 0, 2, _, _ => rfl
    | 1, 0, _, _ => rfl
    | 1, 1, _, _ => rfl
    | 1, 2, _, _ => rfl⟩

/-! ### Fixed size -/

/-- The pointer of column `j` of cell `c`, as an offset. -/
def Spec.fixedPtr (ncol : Nat) (npart : List Nat) (c j : Nat) : Nat :=
  (npart.take c).sum * ncol + j * npart.getD c 0

theorem fixedHostPtrs_spec (ncol : Nat) (npart : List Nat) :
    ∃ ptrs, fixedHostPtrs ncol npart = some ptrs ∧ ptrs.length = npart.length * ncol ∧
      ∀ c j, c < npart.length → j < ncol →
        ptrs[c * ncol + j]? = some (fixedPtr ncol npart c j) := by
  obtain ⟨s, h1, h2, h3, h4⟩ := forLoop_invariant (a := 0) (b := npart.length)
    (step := fun cellx (s : List Nat × Nat) => (rd npart cellx).bind fun n =>
      forLoop 0 ncol (fun cx (s : List Nat × Nat) =>
        (st s.1 (cellx * ncol + cx) s.2).bind fun p => some (p, s.2 + n)) s)
    (s := (List.replicate (npart.length * ncol) 0, 0))
    (fun i s => s.1.length = npart.length * ncol ∧ s.2 = (npart.take i).sum * ncol ∧
      ∀ c j, c < i → j < ncol → s.1[c * ncol + j]? = some (fixedPtr ncol npart c j))
    (Nat.zero_le _)
    (by
      rintro i s _ hi ⟨g1, g2, g3⟩
      have hn : npart[i]? = some (npart.getD i 0) := by simp [hi]
      simp only [rd, hn, Option.bind_some]
      obtain ⟨s', q1, q2, q3, q4, q5⟩ := forLoop_invariant (a := 0) (b := ncol)
        (step := fun cx (s : List Nat × Nat) =>
          (st s.1 (i * ncol + cx) s.2).bind fun p => some (p, s.2 + npart.getD i 0)) (s := s)
        (fun j t => t.1.length = npart.length * ncol ∧
          t.2 = (npart.take i).sum * ncol + j * npart.getD i 0 ∧
          (∀ c j', c < i → j' < ncol → t.1[c * ncol + j']? = some (fixedPtr ncol npart c j')) ∧
          (∀ j', j' < j → t.1[i * ncol + j']? = some (fixedPtr ncol npart i j')))
        (Nat.zero_le _)
        (by
          rintro j t _ hj ⟨k1, k2, k3, k4⟩
          have hin : i * ncol + j < t.1.length := by rw [k1]; exact col_lt hi hj
          refine ⟨(t.1.set (i * ncol + j) t.2, t.2 + npart.getD i 0), ?_, ?_, ?_, ?_, ?_⟩
          · rw [st_eq_some hin]; rfl
          · simp [k1]
          · simp only [k2]; rw [Nat.add_mul]; omega
          · intro c j' hc hj'
            simp only
            rw [List.getElem?_set_ne (by
              have := col_lt (c := c) (r := j') (n := i) (B := ncol) hc hj'
              omega)]
            exact k3 c j' hc hj'
          · intro j' hj'
            simp only
            by_cases hjj : j' = j
            · subst hjj
              rw [List.getElem?_set_self hin, k2]; rfl
            · rw [List.getElem?_set_ne (by omega)]
              exact k4 j' (by omega))
        ⟨g1, by rw [g2]; omega, g3, fun _ hj => by omega⟩
      refine ⟨s', q1, q2, ?_, ?_⟩
      · rw [q3, List.take_add_one, hn, List.sum_append]
        simp only [Option.toList_some, List.sum_cons, List.sum_nil, Nat.add_zero]
        rw [Nat.add_mul, Nat.mul_comm ncol]
      · intro c j hc hj
        by_cases hci : c = i
        · subst hci; exact q5 j hj
        · exact q4 c j (by omega) hj)
    ⟨by simp, by simp, fun _ _ hc => by omega⟩
  refine ⟨s.1, ?_, h2, h4⟩
  unfold fixedHostPtrs
  rw [h1]; rfl

/-- **C17** Fixed size `CellDat`s (used for ephemeral properties): the pointers stored on
the host are those computed on the device. -/
theorem C17_fixed_host_device (ncol : Nat) (npart es : List Nat)
    (hes : ∀ c, c < npart.length → es[c]? = some ((npart.take c).sum)) :
    ∃ ptrs, fixedHostPtrs ncol npart = some ptrs ∧
      ∀ c j, c < npart.length → j < ncol → ∃ p, ptrs[c * ncol + j]? = some p ∧
        fixedDevicePtr ncol npart es c j = some p := by
  obtain ⟨ptrs, h1, -, h2⟩ := fixedHostPtrs_spec ncol npart
  refine ⟨ptrs, h1, fun c j hc hj => ⟨_, h2 c j hc hj, ?_⟩⟩
  have hn : npart[c]? = some (npart.getD c 0) := by simp [hc]
  unfold fixedDevicePtr
  simp only [rd, hn, hes c hc, Option.bind_some]
  rfl

/-- **C17** Fixed size `CellDat`s: every entry is inside the allocation, and different
entries have different addresses. -/
theorem C17_fixed_no_aliasing (ncol : Nat) (npart : List Nat) :
    (∀ c j r, c < npart.length → j < ncol → r < npart.getD c 0 →
      fixedPtr ncol npart c j + r < npart.sum * ncol) ∧
    (∀ c j r c' j' r', c < npart.length → j < ncol → r < npart.getD c 0 →
      c' < npart.length → j' < ncol → r' < npart.getD c' 0 →
      fixedPtr ncol npart c j + r = fixedPtr ncol npart c' j' + r' →
      c = c' ∧ j = j' ∧ r = r') := by
  have hub : ∀ c j r d, c < npart.length → j < ncol → r < npart.getD c 0 → c < d →
      fixedPtr ncol npart c j + r < (npart.take d).sum * ncol := by
    intro c j r d hc hj hr hd
    have hn : npart[c]? = some (npart.getD c 0) := by simp [hc]
    have h1 : before npart (c + 1) ≤ before npart d := before_mono hd
    rw [before_succ hn] at h1
    have h2 := Nat.mul_le_mul_right ncol h1
    have h3 : j * npart.getD c 0 + r < ncol * npart.getD c 0 := col_lt hj hr
    unfold before at h2
    rw [Nat.add_mul, Nat.mul_comm (npart.getD c 0)] at h2
    unfold fixedPtr
    omega
  refine ⟨?_, ?_⟩
  · intro c j r hc hj hr
    have := hub c j r npart.length hc hj hr hc
    rwa [List.take_length] at this
  · intro c j r c' j' r' hc hj hr hc' hj' hr' heq
    rcases Nat.lt_trichotomy c c' with h | h | h
    · have := hub c j r c' hc hj hr h
      unfold fixedPtr at heq this
      omega
    · subst h
      unfold fixedPtr at heq
      have := col_unique hr hr' (c := j) (c' := j') (by omega)
      exact ⟨rfl, this.1, this.2⟩
    · have := hub c' j' r' c hc' hj' hr' h
      unfold fixedPtr at heq this
      omega

example : fixedHostPtrs 2 [3, 0, 4] = some [0, 3, 6, 6, 6, 10] := by decide

end NP
