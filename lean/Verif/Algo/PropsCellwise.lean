import Verif.Algo.SpecCellwise
import Verif.Algo.PropsReduce
import Verif.Boundary.LemmasRows

/-!
# C83: counts per cell, loops over elements of CellDatConst and copies of particle data
-/

set_option autoImplicit false

namespace NP

open Spec

variable {T : Type}

/-! ## Numbers of particles -/

theorem countIn_built {npart : List Nat} {par : Parent} (hb : Built npart par) {c : Nat}
    (hc : c < npart.length) : ∃ n, (par.dCounts npart)[c]? = some n ∧ CountIn npart par c n := by
  obtain ⟨L, pl, sl⟩ := built_spec hb
  have pf := parent_facts pl
  have hcL : c < L.length := by rw [sl.1]; exact hc
  have h1 := List.getElem?_eq_getElem hcL
  refine ⟨L[c].length, by rw [pf.dCounts, lens_get h1], L[c],
    (sl.2 c _ _ h1 (List.getElem?_eq_getElem hc)).1, fun l => ?_, rfl⟩
  rw [inParent_iff pl c l]
  constructor
  · intro h; exact ⟨_, h1, h⟩
  · rintro ⟨row, h2, h3⟩
    rw [h1] at h2
    rw [Option.some.inj h2]
    exact h3

/-- `get_npart_cell` writes the number of particles of the group or sub group in each cell to the named
entry of the matrix of the cell, and nothing else. -/
theorem C83_npart_cell {npart : List Nat} {par : Parent} (hb : Built npart par) (order : Sched)
    {out : CellConst Int} (hn : out.ncells = npart.length) (hf : FullDat out) {row col : Nat}
    (hr : row < out.nrow) (hc : col < out.ncol) :
    ∃ out', npartCell order npart par out row col = some out' ∧ out'.ncells = out.ncells ∧
      out'.nrow = out.nrow ∧ out'.ncol = out.ncol ∧ FullDat out' ∧
      ∀ c r k, c < npart.length → r < out.nrow → k < out.ncol →
        (r = row ∧ k = col → ∃ n, CountIn npart par c n ∧ entry out' c r k = some (n : Int)) ∧
        (¬ (r = row ∧ k = col) → entry out' c r k = entry out c r k) := by
  have hcount : ∀ c, ∃ n, c < npart.length →
      (par.dCounts npart)[c]? = some n ∧ CountIn npart par c n := by
    intro c
    by_cases h : c < npart.length
    · obtain ⟨n, hn⟩ := countIn_built hb h
      exact ⟨n, fun _ => hn⟩
    · exact ⟨0, fun h' => absurd h' h⟩
  obtain ⟨cnt, hcnt⟩ := Classical.axiomOfChoice hcount
  have hp := order.perm (List.range npart.length)
  have hmem : ∀ c ∈ order.order (List.range npart.length), c < npart.length := fun c h =>
    List.mem_range.1 (hp.mem_iff.1 h)
  obtain ⟨data, a1, a2, a3, a4⟩ := runItems_put (items := order.order (List.range npart.length))
    (m := out.data)
    (step := npartStep (par.dCounts npart) (out.nrow * out.ncol) out.nrow row col)
    (fun c => some (c * (out.nrow * out.ncol) + (out.nrow * col + row))) (fun c => (cnt c : Int)) (by
      intro c hcm s _
      have h1 : ((c : Int) * ((out.nrow * out.ncol : Nat) : Int) + (out.nrow : Int) * (col : Int) + (row : Int)) =
          ((c * (out.nrow * out.ncol) + (out.nrow * col + row) : Nat) : Int) := by
        push_cast; ring
      unfold npartStep
      dsimp only
      rw [h1, if_pos (by omega), Int.toNat_natCast, rd, (hcnt c (hmem c hcm)).1, Option.bind_some]) (by
      intro x hx y hy i h1 h2
      have := (Option.some.inj h1).trans (Option.some.inj h2).symm
      rw [(entry_inj hr hc hr hc this).1]) (by
      intro x hx i h1
      rw [← Option.some.inj h1, hf, hn]
      exact entry_lt (hmem x hx) hr hc)
  refine ⟨{ out with data := data }, ?_, rfl, rfl, rfl, ?_, fun c r k hcn hr' hk' => ⟨?_, fun hne => ?_⟩⟩
  · unfold npartCell
    rw [if_pos hn, if_pos (by omega), if_pos (by omega), a1, Option.bind_some]
  · unfold FullDat at hf ⊢
    dsimp only
    rw [a2, hf]
  · rintro ⟨rfl, rfl⟩
    refine ⟨cnt c, (hcnt c hcn).2, ?_⟩
    exact a3 c (hp.mem_iff.2 (List.mem_range.2 hcn)) _ rfl
  · apply a4
    intro x hx h1
    have := Option.some.inj h1
    obtain ⟨-, e2, e3⟩ := entry_inj hr hc hr' hk' this
    exact hne ⟨e2.symm, e3.symm⟩

/-- A wrong number of cells, row or column is refused. -/
theorem C83_npart_rejects {npart : List Nat} {par : Parent} (order : Sched) {out : CellConst Int}
    {row col : Int} (h : out.ncells ≠ npart.length ∨ (out.nrow : Int) ≤ row ∨ (out.ncol : Int) ≤ col) :
    npartCell order npart par out row col = none := by
  unfold npartCell
  split
  · split
    · split
      · rcases h with h | h | h
        · exact absurd ‹_› h
        · omega
        · omega
      · rfl
    · rfl
  · rfl

/-- A row of -1 is not refused: the counts are written to the last row of the column before. -/
theorem C83_negative_row {npart : List Nat} {par : Parent} (order : Sched) {out : CellConst Int}
    (hr : 0 < out.nrow) {col : Nat} (h0 : 0 < col) (hc : col < out.ncol) :
    npartCell order npart par out (-1) col =
      npartCell order npart par out ((out.nrow : Int) - 1) ((col : Int) - 1) := by
  have hstep : npartStep (par.dCounts npart) (out.nrow * out.ncol) out.nrow (-1) col =
      npartStep (par.dCounts npart) (out.nrow * out.ncol) out.nrow ((out.nrow : Int) - 1)
        ((col : Int) - 1) := by
    funext c data
    unfold npartStep
    have : (c : Int) * ((out.nrow * out.ncol : Nat) : Int) + (out.nrow : Int) * (col : Int) + (-1) =
        (c : Int) * ((out.nrow * out.ncol : Nat) : Int) + (out.nrow : Int) * ((col : Int) - 1) +
          ((out.nrow : Int) - 1) := by ring
    dsimp only
    rw [this]
  unfold npartCell
  rw [hstep]
  split
  · rw [if_pos (by omega), if_pos (by omega), if_pos (by omega), if_pos (by omega)]
  · rfl

/-! ## Loops over elements -/

theorem mem_ewItems {ncells nrow ncol : Nat} {it : Nat × Nat × Nat} :
    it ∈ ewItems ncells nrow ncol ↔ it.1 < ncells ∧ it.2.1 < ncol ∧ it.2.2 < nrow := by
  unfold ewItems
  simp only [List.mem_flatMap, List.mem_range, List.mem_map]
  constructor
  · rintro ⟨c, hc, k, hk, r, hr, rfl⟩; exact ⟨hc, hk, hr⟩
  · rintro ⟨hc, hk, hr⟩; exact ⟨_, hc, _, hk, _, hr, rfl⟩

theorem ewCheck_some {out d : CellConst T} (h : Conforms out d) : ∃ b, ewCheck out d = some b := by
  obtain ⟨h1, h2⟩ := h
  unfold ewCheck
  dsimp only
  rw [if_pos h1]
  split
  · exact ⟨_, rfl⟩
  · rename_i hn
    have : d.nrow = out.nrow ∧ d.ncol = out.ncol := by
      rcases h2 with h2 | h2
      · by_contra hne
        apply hn
        have : ¬ (out.nrow = 1 ∧ out.ncol = 1) := by
          rintro ⟨e1, e2⟩
          exact hne ⟨by omega, by omega⟩
        simp only [Bool.and_eq_true, Bool.not_eq_true', beq_iff_eq]
        refine ⟨?_, h2⟩
        rw [Bool.and_eq_false_iff]
        by_cases e1 : out.nrow = 1
        · right; simpa using fun e2 => this ⟨e1, e2⟩
        · left; simpa using e1
      · exact h2
    rw [if_pos this.1, if_pos this.2]
    exact ⟨_, rfl⟩

theorem ewCheck_none {out d : CellConst T} (h : ¬ Conforms out d) : ewCheck out d = none := by
  unfold ewCheck
  dsimp only
  split
  · rename_i h1
    split
    · rename_i h2
      simp only [Bool.and_eq_true, beq_iff_eq] at h2
      exact absurd ⟨h1, Or.inl h2.2⟩ h
    · split
      · split
        · exact absurd ⟨h1, Or.inr ⟨‹_›, ‹_›⟩⟩ h
        · rfl
      · rfl
  · rfl

/-- An argument that is not broadcast has the shape of the result. -/
theorem ewCheck_shape {out d : CellConst T} {b : Bool} (h : ewCheck out d = some b) :
    (b = true ∧ d.nrow = 1 ∧ d.ncol = 1 ∧ ¬ (out.nrow = 1 ∧ out.ncol = 1)) ∨
      (b = false ∧ d.nrow = out.nrow ∧ d.ncol = out.ncol) := by
  unfold ewCheck at h
  dsimp only at h
  split at h
  · split at h
    · rename_i h2
      simp only [Bool.and_eq_true, beq_iff_eq, Bool.not_eq_true', Bool.and_eq_false_iff] at h2
      refine Or.inl ⟨(Option.some.inj h).symm, h2.2.1, h2.2.2, ?_⟩
      rintro ⟨e1, e2⟩
      rcases h2.1 with h3 | h3
      · rw [e1] at h3; exact absurd h3 (by decide)
      · rw [e2] at h3; exact absurd h3 (by decide)
    · split at h
      · split at h
        · exact Or.inr ⟨(Option.some.inj h).symm, ‹_›, ‹_›⟩
        · cases h
      · cases h
  · cases h

/-- The index which is read from an argument. -/
theorem ewIndex_entry {out d : CellConst T} {b bc : Bool} (h : ewCheck out d = some b)
    (hbc : b = true → bc = true) {c r k : Nat} (hr : r < out.nrow) (hk : k < out.ncol) :
    d.data[ewIndex bc (ewMask d) c (out.nrow * k + r + c * out.nrow * out.ncol)]? =
      broadcastEntry d c r k := by
  have hlin : out.nrow * k + r + c * out.nrow * out.ncol =
      c * (out.nrow * out.ncol) + (out.nrow * k + r) := by ring
  unfold ewIndex ewMask broadcastEntry entry
  rcases ewCheck_shape h with ⟨h1, h2, h3, h4⟩ | ⟨h1, h2, h3⟩
  · rw [hbc h1, if_pos rfl, h2, h3, if_pos (by simp), if_pos ⟨rfl, rfl⟩]
    simp
  · by_cases ho : d.nrow = 1 ∧ d.ncol = 1
    · rw [if_pos ho]
      have e1 : out.nrow = 1 := by omega
      have e2 : out.ncol = 1 := by omega
      have e3 : r = 0 := by omega
      have e4 : k = 0 := by omega
      rw [ho.1, ho.2, e1, e2, e3, e4]
      cases bc <;> simp
    · rw [if_neg ho, hlin, h2, h3]
      have : (out.nrow == 1 && out.ncol == 1) = false := by
        rw [Bool.and_eq_false_iff]
        by_cases e1 : out.nrow = 1
        · right; simpa using fun e2 => ho ⟨by omega, by omega⟩
        · left; simpa using e1
      rw [this]
      cases bc <;> simp

theorem broadcastEntry_some {out d : CellConst T} (h : Conforms out d) (hf : FullDat d) {c r k : Nat}
    (hc : c < out.ncells) (hr : r < out.nrow) (hk : k < out.ncol) :
    ∃ v, broadcastEntry d c r k = some v := by
  unfold broadcastEntry entry
  unfold FullDat at hf
  split
  · rename_i ho
    exact ⟨_, List.getElem?_eq_getElem (by
      rw [hf]; exact entry_lt (by rw [h.1]; exact hc) (by omega) (by omega))⟩
  · rename_i ho
    have := h.2.resolve_left ho
    exact ⟨_, List.getElem?_eq_getElem (by
      rw [hf]; exact entry_lt (by rw [h.1]; exact hc) (by omega) (by omega))⟩

theorem mapM_congr_some {ι β γ : Type} {f : ι → Option β} {g : γ → Option β} {l : List ι} {l' : List γ}
    (hlen : l.length = l'.length)
    (h : ∀ (i : Nat) (x : ι) (y : γ), l[i]? = some x → l'[i]? = some y → f x = g y) :
    l.mapM f = l'.mapM g := by
  induction l generalizing l' with
  | nil => cases l' with
    | nil => rfl
    | cons => simp at hlen
  | cons x l ih => cases l' with
    | nil => simp at hlen
    | cons y l' =>
      rw [List.mapM_cons, List.mapM_cons, h 0 x y rfl rfl,
        ih (by simpa using hlen) fun i a b h1 h2 => h (i + 1) a b h1 h2]

theorem mapM_some_of {ι β : Type} {f : ι → Option β} {l : List ι} (h : ∀ x ∈ l, ∃ y, f x = some y) :
    ∃ ys, l.mapM f = some ys ∧ ys.length = l.length ∧
      ∀ (i : Nat) (x : ι) (y : β), l[i]? = some x → ys[i]? = some y → f x = some y := by
  induction l with
  | nil => exact ⟨[], rfl, rfl, fun i x y h => by simp at h⟩
  | cons x l ih =>
    obtain ⟨y, hy⟩ := h x (by simp)
    obtain ⟨ys, h1, h2, h3⟩ := ih fun z hz => h z (by simp [hz])
    refine ⟨y :: ys, by rw [List.mapM_cons, hy, h1]; rfl, by simp [h2], fun i a b ha hb => ?_⟩
    cases i with
    | zero =>
      rw [List.getElem?_cons_zero] at ha hb
      rw [← Option.some.inj ha, ← Option.some.inj hb, hy]
    | succ i => exact h3 i a b (by simpa using ha) (by simpa using hb)

/-- A loop over elements: each element of the result is the kernel applied to the values of the
arguments at this element before the loop, in any order and also if the result is an argument. A
matrix with one entry counts as that value everywhere. Nothing else changes. -/
theorem C83_element_wise (kernel : List T → T) (order : Sched) {dats : List (CellConst T)} {res : Nat}
    {args : List Nat} {out : CellConst T} (hout : dats[res]? = some out)
    (hfull : ∀ d ∈ dats, FullDat d)
    (hargs : ∀ a ∈ args, ∃ d, dats[a]? = some d ∧ Conforms out d) :
    ∃ dats' out', elementWise kernel order dats res args = some dats' ∧
      dats'.length = dats.length ∧ (∀ i, i ≠ res → dats'[i]? = dats[i]?) ∧
      dats'[res]? = some out' ∧ out'.ncells = out.ncells ∧ out'.nrow = out.nrow ∧
      out'.ncol = out.ncol ∧ FullDat out' ∧
      ∀ c r k, c < out.ncells → r < out.nrow → k < out.ncol →
        ∃ vs, args.mapM (fun a => (dats[a]?).bind fun d => broadcastEntry d c r k) = some vs ∧
          entry out' c r k = some (kernel vs) := by
  obtain ⟨ds, d1, d2, d3⟩ := mapM_some_of (f := fun a => rd dats a) (l := args) fun a ha => by
    obtain ⟨d, h1, -⟩ := hargs a ha
    exact ⟨d, h1⟩
  have hds : ∀ (i : Nat) (d : CellConst T), ds[i]? = some d →
      ∃ a, args[i]? = some a ∧ dats[a]? = some d ∧ Conforms out d := by
    intro i d hi
    have hlt : i < args.length := by rw [← d2]; exact (List.getElem?_eq_some_iff.1 hi).1
    have ha := List.getElem?_eq_getElem hlt
    have hd : dats[args[i]]? = some d := d3 i _ d ha hi
    obtain ⟨d', h1, h2⟩ := hargs args[i] (List.getElem_mem _)
    rw [hd] at h1
    exact ⟨_, ha, hd, by rw [Option.some.inj h1]; exact h2⟩
  obtain ⟨flags, f1, f2, f3⟩ := mapM_some_of (f := ewCheck out) (l := ds) fun d hd => by
    obtain ⟨i, hi⟩ := List.getElem?_of_mem hd
    obtain ⟨a, -, -, h3⟩ := hds i d hi
    exact ewCheck_some h3
  let bc := flags.any id
  have hbc : ∀ (i : Nat) (d : CellConst T) (b : Bool), ds[i]? = some d → flags[i]? = some b →
      b = true → bc = true := by
    intro i d b _ hb htrue
    exact List.any_eq_true.2 ⟨b, List.mem_of_getElem? hb, htrue⟩
  have hfo : FullDat out := hfull out (List.mem_of_getElem? hout)
  -- what the kernel reads at an element
  have hval : ∀ it : Nat × Nat × Nat, ∃ vs, it.1 < out.ncells ∧ it.2.1 < out.ncol ∧ it.2.2 < out.nrow →
      args.mapM (fun a => (dats[a]?).bind fun d => broadcastEntry d it.1 it.2.2 it.2.1) = some vs := by
    intro it
    by_cases h : it.1 < out.ncells ∧ it.2.1 < out.ncol ∧ it.2.2 < out.nrow
    · obtain ⟨vs, h1, -⟩ := mapM_some_of
        (f := fun a => (dats[a]?).bind fun d => broadcastEntry d it.1 it.2.2 it.2.1) (l := args)
        fun a ha => by
          obtain ⟨d, h1, h2⟩ := hargs a ha
          obtain ⟨v, hv⟩ := broadcastEntry_some h2 (hfull d (List.mem_of_getElem? h1)) h.1 h.2.2 h.2.1
          exact ⟨v, by rw [h1, Option.bind_some, hv]⟩
      exact ⟨vs, fun _ => h1⟩
    · exact ⟨[], fun h' => absurd h' h⟩
  obtain ⟨vals, hvals⟩ := Classical.axiomOfChoice hval
  let lin : Nat × Nat × Nat → Nat := fun it => it.1 * (out.nrow * out.ncol) + (out.nrow * it.2.1 + it.2.2)
  have hp := order.perm (ewItems out.ncells out.nrow out.ncol)
  have hmem : ∀ it ∈ order.order (ewItems out.ncells out.nrow out.ncol),
      it.1 < out.ncells ∧ it.2.1 < out.ncol ∧ it.2.2 < out.nrow := fun it h =>
    mem_ewItems.1 (hp.mem_iff.1 h)
  obtain ⟨dats', r1, r2, r3, data, r4, r5, r6, -⟩ := runItems_invariant
    (step := ewStep kernel bc out.nrow out.ncol res (args.zip (ds.map ewMask)))
    (items := order.order (ewItems out.ncells out.nrow out.ncol)) (s := dats)
    (P := fun pre s => s.length = dats.length ∧ (∀ i, i ≠ res → s[i]? = dats[i]?) ∧
      ∃ data : List T, s[res]? = some { out with data := data } ∧ data.length = out.data.length ∧
        (∀ it ∈ pre, data[lin it]? = some (kernel (vals it))) ∧
        ∀ it : Nat × Nat × Nat, it.1 < out.ncells ∧ it.2.1 < out.ncol ∧ it.2.2 < out.nrow →
          it ∉ pre → data[lin it]? = out.data[lin it]?)
    (by
      rintro pre it post s he ⟨a1, a2, data, a3, a4, a5, a6⟩
      have hin := hmem it (by rw [he]; simp)
      have hlin : out.nrow * it.2.1 + it.2.2 + it.1 * out.nrow * out.ncol = lin it := by
        show _ = it.1 * (out.nrow * out.ncol) + (out.nrow * it.2.1 + it.2.2); ring
      have hlt : lin it < data.length := by
        rw [a4, hfo]; exact entry_lt hin.1 hin.2.2 hin.2.1
      have hnd : (order.order (ewItems out.ncells out.nrow out.ncol)).Nodup := by
        rw [hp.nodup_iff]
        unfold ewItems
        rw [List.nodup_flatMap]
        refine ⟨fun c _ => ?_, ?_⟩
        · rw [List.nodup_flatMap]
          refine ⟨fun k _ => List.nodup_range.map fun a b h => by simpa using h, ?_⟩
          refine List.nodup_range.imp ?_
          intro k k' hne x h1 h2
          obtain ⟨r, -, e1⟩ := List.mem_map.1 h1
          obtain ⟨r', -, e2⟩ := List.mem_map.1 h2
          rw [← e1] at e2
          simp only [Prod.mk.injEq] at e2
          exact hne e2.2.1.symm
        · refine List.nodup_range.imp ?_
          intro c c' hne x h1 h2
          obtain ⟨k, -, h1⟩ := List.mem_flatMap.1 h1
          obtain ⟨k', -, h2⟩ := List.mem_flatMap.1 h2
          obtain ⟨r, -, e1⟩ := List.mem_map.1 h1
          obtain ⟨r', -, e2⟩ := List.mem_map.1 h2
          rw [← e1] at e2
          simp only [Prod.mk.injEq] at e2
          exact hne e2.1.symm
      have hnot : it ∉ pre := by
        rw [he, List.nodup_append] at hnd
        intro hpre
        exact hnd.2.2 _ hpre _ (by simp) rfl
      have hread : (args.zip (ds.map ewMask)).mapM (fun a => (rd s a.1).bind fun d =>
          rd d.data (ewIndex bc a.2 it.1 (lin it))) = some (vals it) := by
        rw [← hvals it hin]
        apply mapM_congr_some (by rw [List.length_zip, List.length_map, d2, Nat.min_self])
        rintro i ⟨a, mask⟩ a' h1 h2
        rw [List.getElem?_zip_eq_some] at h1
        obtain ⟨h1, h3⟩ := h1
        rw [h2] at h1
        obtain rfl := Option.some.inj h1
        rw [List.getElem?_map, Option.map_eq_some_iff] at h3
        obtain ⟨d, h3, rfl⟩ := h3
        obtain ⟨a'', e1, e2, e3⟩ := hds i d h3
        rw [h2] at e1
        obtain rfl := Option.some.inj e1
        have hfl : i < flags.length := by
          rw [f2]; exact (List.getElem?_eq_some_iff.1 h3).1
        have hflag := List.getElem?_eq_getElem hfl
        have hix := ewIndex_entry (f3 i d _ h3 hflag) (hbc i d _ h3 hflag) (c := it.1) hin.2.2 hin.2.1
        rw [hlin] at hix
        simp only [rd]
        rw [e2, Option.bind_some, ← hix]
        by_cases hres : a' = res
        · -- the result is an argument: this element has not been written yet
          subst hres
          rw [hout] at e2
          obtain rfl := Option.some.inj e2
          rw [a3, Option.bind_some]
          have : ewIndex bc (ewMask out) it.1 (lin it) = lin it := by
            unfold ewIndex ewMask
            split
            · split
              · rename_i ho
                simp only [Bool.and_eq_true, beq_iff_eq] at ho
                have e4 : it.2.1 = 0 := by omega
                have e5 : it.2.2 = 0 := by omega
                show _ = it.1 * (out.nrow * out.ncol) + (out.nrow * it.2.1 + it.2.2)
                rw [e4, e5, ho.1, ho.2]
                simp
              · simp
            · rfl
          rw [this]
          exact a6 it hin hnot
        · rw [a2 a' hres, e2, Option.bind_some]
      have hresl : res < s.length := (List.getElem?_eq_some_iff.1 a3).1
      refine ⟨s.set res { out with data := data.set (lin it) (kernel (vals it)) }, ?_, ?_, ?_, ?_⟩
      · unfold ewStep
        dsimp only
        rw [hlin, hread, Option.bind_some, rd, a3, Option.bind_some]
        dsimp only
        rw [st_eq_some hlt, Option.bind_some, st_eq_some hresl]
      · rw [List.length_set, a1]
      · intro i hi
        rw [List.getElem?_set_ne (by omega), a2 i hi]
      · refine ⟨data.set (lin it) (kernel (vals it)), List.getElem?_set_self hresl,
          by rw [List.length_set, a4], fun it' h' => ?_, fun it' hin' h' => ?_⟩
        · rcases List.mem_append.1 h' with h' | h'
          · have hin' := hmem it' (by rw [he]; simp [h'])
            rw [List.getElem?_set_ne, a5 it' h']
            intro heq
            obtain ⟨e1, e2, e3⟩ := entry_inj hin.2.2 hin.2.1 hin'.2.2 hin'.2.1 heq
            exact hnot (by
              have : it = it' := Prod.ext e1 (Prod.ext e3 e2)
              rw [this]; exact h')
          · rw [List.mem_singleton.1 h', List.getElem?_set_self hlt]
        · rw [List.getElem?_set_ne, a6 it' hin' fun h => h' (by simp [h])]
          intro heq
          obtain ⟨e1, e2, e3⟩ := entry_inj hin.2.2 hin.2.1 hin'.2.2 hin'.2.1 heq
          have : it = it' := Prod.ext e1 (Prod.ext e3 e2)
          exact h' (by rw [this]; simp))
    ⟨rfl, fun _ _ => rfl, out.data, hout, rfl, by simp, fun _ _ _ => rfl⟩
  refine ⟨dats', { out with data := data }, ?_, r2, r3, r4, rfl, rfl, rfl, ?_, fun c r k hc hr hk =>
    ⟨vals (c, k, r), hvals (c, k, r) ⟨hc, hk, hr⟩, ?_⟩⟩
  · unfold elementWise
    rw [rd, hout, Option.bind_some, d1, Option.bind_some, f1, Option.bind_some]
    exact r1
  · unfold FullDat at hfo ⊢
    dsimp only
    rw [r5, hfo]
  · exact r6 (c, k, r) (hp.mem_iff.2 (mem_ewItems.2 ⟨hc, hk, hr⟩))

/-- A loop with an argument of another shape or number of cells is refused. -/
theorem C83_element_wise_rejects (kernel : List T → T) (order : Sched) {dats : List (CellConst T)}
    {res : Nat} {args : List Nat} {out d : CellConst T} {a : Nat} (hout : dats[res]? = some out)
    (ha : a ∈ args) (hd : dats[a]? = some d) (hn : ¬ Conforms out d) :
    elementWise kernel order dats res args = none := by
  unfold elementWise
  rw [rd, hout, Option.bind_some]
  cases hds : args.mapM (fun a => rd dats a) with
  | none => rfl
  | some ds =>
    have hmem : d ∈ ds := by
      clear hout
      induction args generalizing ds with
      | nil => cases ha
      | cons x l ih =>
        rw [List.mapM_cons] at hds
        obtain ⟨y, h1, h2⟩ := Option.bind_eq_some_iff.1 hds
        obtain ⟨ys, h3, h4⟩ := Option.bind_eq_some_iff.1 h2
        obtain rfl := Option.some.inj h4
        rcases List.mem_cons.1 ha with rfl | ha
        · have h1 : dats[a]? = some y := h1
          rw [hd] at h1
          rw [Option.some.inj h1]; simp
        · exact List.mem_cons_of_mem _ (ih ha _ h3)
    have : ds.mapM (ewCheck out) = none := by
      clear hds
      induction ds with
      | nil => cases hmem
      | cons x l ih =>
        rw [List.mapM_cons]
        rcases List.mem_cons.1 hmem with rfl | h
        · rw [ewCheck_none hn]; rfl
        · rw [ih h]
          cases ewCheck out x <;> rfl
    rw [Option.bind_some, this]
    rfl

/-! ## Copies between particle data -/

theorem copyComps_spec {ncomp : Nat} {src dst : List T} (hs : src.length = ncomp)
    (hd : dst.length = ncomp) : copyComps ncomp src dst = some src := by
  unfold copyComps
  obtain ⟨r, h1, h2, h3⟩ := forLoop_invariant (a := 0) (b := ncomp)
    (step := fun cx (dst : List T) => (rd src cx).bind fun v => st dst cx v) (s := dst)
    (P := fun i (d : List T) => d.length = ncomp ∧ ∀ j, j < i → d[j]? = src[j]?) (Nat.zero_le _)
    (by
      rintro i d - hi ⟨a1, a2⟩
      have hv := List.getElem?_eq_getElem (by omega : i < src.length)
      refine ⟨d.set i src[i], ?_, by rw [List.length_set, a1], fun j hj => ?_⟩
      · simp only [rd]
        rw [hv, Option.bind_some, st_eq_some (by omega)]
      · rcases Nat.lt_or_ge j i with h | h
        · rw [List.getElem?_set_ne (by omega), a2 j h]
        · have : j = i := by omega
          rw [this, List.getElem?_set_self (by omega), hv])
    ⟨hd, fun j hj => absurd hj (by omega)⟩
  rw [h1]
  congr 1
  apply List.ext_getElem?
  intro j
  by_cases hj : j < ncomp
  · exact h3 j hj
  · rw [List.getElem?_eq_none (by omega), List.getElem?_eq_none (by omega)]

/-- The loop over a sub group that writes an EphemeralDat: row `k` of a cell gets the properties of the
particle at loop layer `k`. -/
theorem toEphLoop_spec {P : LoopParams} {npart : List Nat} {par : Parent} (h : RowLoopOk P npart par)
    (order : Sched) {ncomp : Nat} {rows eph : List (List (List T))} (hs : Shape npart rows)
    (he : Shape (par.counts npart) eph) (hr : AllComps ncomp rows) (hec : AllComps ncomp eph) :
    ∃ eph', ((parentVisits P npart par).bind fun visits =>
        runItems (toEphStep par ncomp rows) (order.order visits) eph) = some eph' ∧
      Shape (par.counts npart) eph' ∧ AllComps ncomp eph' ∧
      ∀ c l k, LoopLayer npart par c l k → rowAt eph' c k = rowAt rows c l := by
  obtain ⟨vis, v1, v2, v3, v4, v5, v6, v7⟩ := rowVisits_spec h
  have hperm := order.perm vis
  obtain ⟨eph', b1, b2, b3, b4⟩ := runItems_invariant
    (step := toEphStep par ncomp rows) (items := order.order vis) (s := eph)
    (P := fun pre (s : List (List (List T))) => Shape (par.counts npart) s ∧ AllComps ncomp s ∧
      ∀ c k l, (c, k) ∈ pre → par.layerAt c k = some l → rowAt s c k = rowAt rows c l)
    (by
      rintro pre ⟨c, k⟩ post s hsplit ⟨a1, a2, a3⟩
      have hck : (c, k) ∈ vis := hperm.mem_iff.1 (by rw [hsplit]; simp)
      obtain ⟨l, hl, hlp⟩ := v4 c k hck
      obtain ⟨n, hn, hln⟩ := v6 c l hlp
      obtain ⟨m, hm, hkm⟩ := (v3 c k).1 hck
      obtain ⟨cell, hc, hcl⟩ := shape_row hs hn
      obtain ⟨ecell, hec', hecl⟩ := shape_row a1 hm
      have hsrc := List.getElem?_eq_getElem (by omega : l < cell.length)
      have hdst := List.getElem?_eq_getElem (by omega : k < ecell.length)
      have hat : rowAt rows c l = some (cell[l]'(by omega)) := by
        unfold rowAt; rw [hc]; exact hsrc
      have hat' : rowAt s c k = some (ecell[k]'(by omega)) := by
        unfold rowAt; rw [hec']; exact hdst
      have hcopy := copyComps_spec (hr c l _ hat) (a2 c k _ hat')
      refine ⟨s.set c (ecell.set k (cell[l]'(by omega))), ?_, shape_set a1 hec' (by simp), ?_, ?_⟩
      · unfold toEphStep
        simp only [rd]
        rw [hl, Option.bind_some, hc, Option.bind_some, hsrc, Option.bind_some, hec', Option.bind_some,
          hdst, Option.bind_some, hcopy, Option.bind_some, st_eq_some (by omega), Option.bind_some,
          st_eq_some (List.getElem?_eq_some_iff.1 hec').1]
      · intro c1 k1 r1 h1
        rw [rowAt_set hec' (by omega)] at h1
        split at h1
        · rw [← Option.some.inj h1]; exact hr c l _ hat
        · exact a2 c1 k1 r1 h1
      · intro c1 k1 l1 h1 h2
        rw [rowAt_set hec' (by omega)]
        split
        · rename_i heq
          rw [heq.1, heq.2, hl] at h2
          rw [heq.1, ← Option.some.inj h2, hat]
        · rename_i hne
          rcases List.mem_append.1 h1 with h1 | h1
          · exact a3 c1 k1 l1 h1 h2
          · rw [List.mem_singleton, Prod.mk.injEq] at h1
            exact absurd h1 hne)
    ⟨he, hec, by simp⟩
  refine ⟨eph', by rw [v1]; exact b1, b2, b3, fun c l k hk => ?_⟩
  exact b4 c k l (hperm.mem_iff.2 ((v3 c k).2 hk.2)) hk.1

/-- `copy_particle_dat_to_ephemeral_dat` and `copy_ephemeral_dat_to_particle_dat`: after a property was
copied to an EphemeralDat and that to another property, each particle of the sub group has in the
second property its values of the first, and the other particles keep theirs. -/
theorem C83_copies {P P' : LoopParams} {npart : List Nat} {par : Parent} (h : RowLoopOk P npart par)
    (h' : RowLoopOk P' npart par) (order order' : Sched) {ncomp : Nat} {src dst eph : List (List (List T))}
    (hs : Shape npart src) (hd : Shape npart dst) (he : Shape (par.counts npart) eph)
    (cs : AllComps ncomp src) (cd : AllComps ncomp dst) (ce : AllComps ncomp eph) :
    ∃ eph' dst', copyToEphemeral P order npart par ncomp ncomp (some src) (some eph) = some eph' ∧
      Shape (par.counts npart) eph' ∧
      (∀ c l k, LoopLayer npart par c l k → rowAt eph' c k = rowAt src c l) ∧
      copyFromEphemeral P' order' npart par ncomp ncomp (some eph') (some dst) = some dst' ∧
      Shape npart dst' ∧
      (∀ c l, InParent npart par c l → rowAt dst' c l = rowAt src c l) ∧
      ∀ c l, ¬ InParent npart par c l → rowAt dst' c l = rowAt dst c l := by
  obtain ⟨eph', e1, e2, e3, e4⟩ := toEphLoop_spec h order hs he cs ce
  have hsrc : ∀ c k l, LoopLayer npart par c l k → ∃ r, rowAt src c l = some r := by
    intro c k l hk
    obtain ⟨vis, v1, v2, v3, v4, v5, v6, v7⟩ := rowVisits_spec h
    obtain ⟨n, hn, hln⟩ := v6 c l ((exists_loopLayer h c l).2 ⟨k, hk⟩)
    obtain ⟨cell, hc, hcl⟩ := shape_row hs hn
    exact ⟨_, by unfold rowAt; rw [hc]; exact List.getElem?_eq_getElem (by omega)⟩
  have hker : ∀ c k l r, LoopLayer npart par c l k → rowAt dst c l = some r →
      ((rd eph' c).bind fun cell => (rd cell k).bind fun s => copyComps ncomp s r) = rowAt src c l := by
    intro c k l r hk hr
    obtain ⟨s, hsr⟩ := hsrc c k l hk
    have hek := e4 c l k hk
    rw [hsr] at hek
    obtain ⟨cell, hc, hck⟩ := rowAt_some hek
    simp only [rd]
    rw [hc, Option.bind_some, hck, Option.bind_some, copyComps_spec (cs c l s hsr) (cd c l r hr), hsr]
  obtain ⟨dst', d1, d2, d3, d4⟩ := rowLoop_spec h' order' hd (kernel := fun c k dst =>
      (rd eph' c).bind fun cell => (rd cell k).bind fun src => copyComps ncomp src dst) (by
    intro c k l r hk hr
    obtain ⟨s, hsr⟩ := hsrc c k l hk
    exact ⟨s, (hker c k l r hk hr).trans hsr⟩)
  refine ⟨eph', dst', ?_, e2, e4, ?_, d2, fun c l hl => ?_, d4⟩
  · unfold copyToEphemeral
    rw [Option.bind_some, Option.bind_some, if_pos rfl]
    exact e1
  · unfold copyFromEphemeral
    rw [Option.bind_some, Option.bind_some, if_pos rfl]
    exact d1
  · obtain ⟨k, hk⟩ := (exists_loopLayer h c l).1 hl
    obtain ⟨vis, v1, v2, v3, v4, v5, v6, v7⟩ := rowVisits_spec h
    obtain ⟨n, hn, hln⟩ := v6 c l hl
    obtain ⟨cell, hc, hcl⟩ := shape_row hd hn
    have hdr : rowAt dst c l = some (cell[l]'(by omega)) := by
      unfold rowAt; rw [hc]; exact List.getElem?_eq_getElem (by omega)
    obtain ⟨r', f1, f2⟩ := d3 c l k _ hk hdr
    rw [f1, ← f2]
    exact hker c k l _ hk hdr

/-- Copies between data with different numbers of components, or of data that does not exist, are
refused. -/
theorem C83_copies_reject {P : LoopParams} {npart : List Nat} {par : Parent} (order : Sched)
    {n m : Nat} {src dst : Option (List (List (List T)))} (h : n ≠ m ∨ src = none ∨ dst = none) :
    copyToEphemeral P order npart par n m src dst = none ∧
      copyFromEphemeral P order npart par n m src dst = none := by
  unfold copyToEphemeral copyFromEphemeral
  rcases h with h | h | h
  · constructor
    · cases dst <;> cases src <;> simp [h]
    · cases dst <;> cases src <;> simp [h]
  · subst h
    constructor
    · cases dst <;> rfl
    · rfl
  · subst h
    constructor
    · rfl
    · cases src <;> rfl

/-- `cellwise_broadcast` gives the component of each particle of the group or sub group the value of its
cell, and changes nothing else. -/
theorem C83_broadcast {P : LoopParams} {npart : List Nat} {par : Parent} (h : RowLoopOk P npart par)
    (order : Sched) {ncomp component : Nat} (hc : component < ncomp) {values : List T}
    {rows : List (List (List T))} (hs : Shape npart rows) (hr : AllComps ncomp rows)
    (hv : values.length = npart.length) :
    ∃ rows', cellwiseBroadcast P order npart par component values rows = some rows' ∧
      Shape npart rows' ∧
      (∀ c l r, InParent npart par c l → rowAt rows c l = some r → ∃ r', rowAt rows' c l = some r' ∧
        r'[component]? = values[c]? ∧ r'.length = r.length ∧
        ∀ j, j ≠ component → r'[j]? = r[j]?) ∧
      ∀ c l, ¬ InParent npart par c l → rowAt rows' c l = rowAt rows c l := by
  have hval : ∀ c l r, rowAt rows c l = some r → ∃ v, values[c]? = some v ∧
      ((rd values c).bind fun v => st r component v) = some (r.set component v) := by
    intro c l r hat
    obtain ⟨cell, h1, -⟩ := rowAt_some hat
    have hlt : c < values.length := by
      rw [hv, ← hs, List.length_map]
      exact (List.getElem?_eq_some_iff.1 h1).1
    have hg := List.getElem?_eq_getElem hlt
    refine ⟨values[c], hg, ?_⟩
    rw [rd, hg, Option.bind_some, st_eq_some (by rw [hr c l r hat]; exact hc)]
  obtain ⟨rows', d1, d2, d3, d4⟩ := rowLoop_spec h order hs
    (kernel := fun c _ r => (rd values c).bind fun v => st r component v) (by
      intro c k l r hk hat
      obtain ⟨v, -, h2⟩ := hval c l r hat
      exact ⟨_, h2⟩)
  refine ⟨rows', by unfold cellwiseBroadcast; rw [if_pos hv]; exact d1, d2, fun c l r hl hat => ?_, d4⟩
  obtain ⟨k, hk⟩ := (exists_loopLayer h c l).1 hl
  obtain ⟨r', f1, f2⟩ := d3 c l k r hk hat
  obtain ⟨v, g1, g2⟩ := hval c l r hat
  rw [g2] at f2
  obtain rfl := Option.some.inj f2
  refine ⟨_, f1, ?_, by rw [List.length_set], fun j hj => List.getElem?_set_ne (by omega)⟩
  rw [List.getElem?_set_self (by rw [hr c l r hat]; exact hc), g1]

/-- A list of values of the wrong length is refused. -/
theorem C83_broadcast_rejects {P : LoopParams} {npart : List Nat} {par : Parent} (order : Sched)
    {component : Nat} {values : List T} {rows : List (List (List T))}
    (hv : values.length ≠ npart.length) :
    cellwiseBroadcast P order npart par component values rows = none := by
  unfold cellwiseBroadcast
  rw [if_neg hv]

/-! ## Cases -/

namespace Ex

theorem cw_loop : RowLoopOk ⟨1024, 4, 1⟩ subCounts (.sub subSel) :=
  ⟨subSel_built, by decide, by decide, by decide, by decide⟩

/-- Two rows and two columns in three cells. -/
def cwOut : CellConst Int := ⟨3, 2, 2, [0, 1, 2, 3, 10, 11, 12, 13, 20, 21, 22, 23]⟩

/-- One value in each cell. -/
def cwOne : CellConst Int := ⟨3, 1, 1, [100, 200, 300]⟩

/-- Two components of five particles. -/
def cwRows : List (List (List Int)) := [[[1, 2], [3, 4], [5, 6]], [], [[7, 8], [9, 10]]]

/-- The rows of an EphemeralDat of the sub group. -/
def cwEph : List (List (List Int)) := [[[0, 0], [0, 0]], [], [[0, 0]]]

theorem cwRows_comps : AllComps 2 cwRows := by
  intro c l r h
  obtain ⟨cell, h1, h2⟩ := rowAt_some h
  have h3 : ∀ cell ∈ cwRows, ∀ r ∈ cell, r.length = 2 := by decide
  exact h3 cell (List.mem_of_getElem? h1) r (List.mem_of_getElem? h2)

theorem cwEph_comps : AllComps 2 cwEph := by
  intro c l r h
  obtain ⟨cell, h1, h2⟩ := rowAt_some h
  have h3 : ∀ cell ∈ cwEph, ∀ r ∈ cell, r.length = 2 := by decide
  exact h3 cell (List.mem_of_getElem? h1) r (List.mem_of_getElem? h2)

end Ex

example : ∃ out', npartCell Sched.reversed Ex.subCounts (.sub Ex.subSel) Ex.cwOut (1 : Nat) (0 : Nat) =
    some out' ∧ FullDat out' := by
  obtain ⟨out', h1, -, -, -, h2, -⟩ := C83_npart_cell Ex.subSel_built Sched.reversed (out := Ex.cwOut)
    (by decide) rfl (row := 1) (col := 0) (by decide) (by decide)
  exact ⟨out', h1, h2⟩

/-- The sub group has two particles in cell 0 and one in cell 2. -/
example : (npartCell Sched.reversed Ex.subCounts (.sub Ex.subSel) Ex.cwOut 1 0).map CellConst.data =
    some [0, 2, 2, 3, 10, 0, 12, 13, 20, 1, 22, 23] := by
  decide +kernel

/-- The column before is overwritten. -/
example : (npartCell Sched.reversed Ex.subCounts .whole Ex.cwOut (-1) 1).map CellConst.data =
    some [0, 3, 2, 3, 10, 0, 12, 13, 20, 2, 22, 23] := by
  decide +kernel

/-- The result is an argument and the other argument is broadcast. -/
example : (elementWise (fun l => l.sum) Sched.reversed [Ex.cwOut, Ex.cwOne] 0 [0, 1]).map
    (fun l => l.map CellConst.data) =
    some [[100, 101, 102, 103, 210, 211, 212, 213, 320, 321, 322, 323], [100, 200, 300]] := by
  decide +kernel

example : ∃ dats', elementWise (fun l : List Int => l.sum) Sched.reversed [Ex.cwOut, Ex.cwOne] 0 [0, 1] =
    some dats' ∧ dats'[1]? = some Ex.cwOne := by
  obtain ⟨dats', out', h1, -, h2, -⟩ := C83_element_wise (fun l : List Int => l.sum) Sched.reversed
    (dats := [Ex.cwOut, Ex.cwOne]) (res := 0) (args := [0, 1]) rfl (by
      intro d hd
      simp only [List.mem_cons, List.not_mem_nil, or_false] at hd
      rcases hd with rfl | rfl <;> rfl) (by
      intro a ha
      simp only [List.mem_cons, List.not_mem_nil, or_false] at ha
      rcases ha with rfl | rfl
      · exact ⟨_, rfl, by decide, by decide⟩
      · exact ⟨_, rfl, by decide, by decide⟩)
  exact ⟨dats', h1, h2 1 (by decide)⟩

/-- A matrix is not an argument if the result has one entry. -/
example : elementWise (fun l : List Int => l.sum) Sched.inOrder [Ex.cwOut, Ex.cwOne] 1 [0] = none :=
  C83_element_wise_rejects _ _ (a := 0) (out := Ex.cwOne) rfl (by decide) rfl
    (by rintro ⟨-, h | h⟩ <;> exact absurd h (by decide))

example : ∃ eph', copyToEphemeral ⟨1024, 4, 1⟩ Sched.reversed Ex.subCounts (.sub Ex.subSel) 2 2
    (some Ex.cwRows) (some Ex.cwEph) = some eph' := by
  obtain ⟨eph', -, h, -⟩ := C83_copies Ex.cw_loop Ex.cw_loop Sched.reversed Sched.inOrder
    (src := Ex.cwRows) (dst := Ex.cwRows) (eph := Ex.cwEph) rfl rfl rfl
    Ex.cwRows_comps Ex.cwRows_comps Ex.cwEph_comps
  exact ⟨eph', h⟩

/-- Layers 2 and 0 of cell 0 and layer 0 of cell 2. -/
example : copyToEphemeral ⟨1024, 4, 1⟩ Sched.reversed Ex.subCounts (.sub Ex.subSel) 2 2
    (some Ex.cwRows) (some Ex.cwEph) = some [[[5, 6], [1, 2]], [], [[7, 8]]] := by
  decide +kernel

example : ∃ rows', cellwiseBroadcast ⟨1024, 4, 1⟩ Sched.reversed Ex.subCounts (.sub Ex.subSel) 1
    [70, 80, 90] Ex.cwRows = some rows' := by
  obtain ⟨rows', h, -⟩ := C83_broadcast Ex.cw_loop Sched.reversed (component := 1) (ncomp := 2) (by decide)
    (values := [70, 80, 90]) (rows := Ex.cwRows) rfl Ex.cwRows_comps (by decide)
  exact ⟨rows', h⟩

example : cellwiseBroadcast ⟨1024, 4, 1⟩ Sched.reversed Ex.subCounts (.sub Ex.subSel) 1
    [70, 80, 90] Ex.cwRows = some [[[1, 70], [3, 4], [5, 70]], [], [[7, 90], [9, 10]]] := by
  decide +kernel

end NP
