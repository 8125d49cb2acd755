import Verif.Algo.SpecReduce
import Verif.Sub.LemmasBuilt
import Verif.Sub.Props
import Verif.Pair.LemmasLoop
import Verif.Comm.LemmasExchange
import Mathlib.Tactic.IntervalCases

/-!
# Reductions per cell

Model: Algo/ModelReduce.lean. Specification: Algo/SpecReduce.lean.
-/

set_option autoImplicit false

namespace NP

open Spec

variable {T : Type}

/-! ## Folds -/

theorem Spec.Laws.foldl_out {op : T → T → T} {e : T} (h : Laws op e) (l : List T) (a : T) :
    l.foldl op a = op a (l.foldl op e) := by
  induction l generalizing a with
  | nil => exact (h.neutral a).symm
  | cons x l ih =>
    rw [List.foldl_cons, List.foldl_cons, ih (op a x), ih (op e x), h.comm e x, h.neutral, h.assoc]

theorem Spec.Laws.foldl_append {op : T → T → T} {e : T} (h : Laws op e) (l l' : List T) :
    (l ++ l').foldl op e = op (l.foldl op e) (l'.foldl op e) := by
  rw [List.foldl_append, h.foldl_out l']

theorem Spec.Laws.foldl_perm {op : T → T → T} {e : T} (h : Laws op e) {l l' : List T} (hp : l.Perm l') (a : T) :
    l.foldl op a = l'.foldl op a := by
  induction hp generalizing a with
  | nil => rfl
  | cons x _ ih => exact ih _
  | swap x y l =>
    rw [List.foldl_cons, List.foldl_cons, List.foldl_cons, List.foldl_cons, h.assoc, h.assoc, h.comm y x]
  | trans _ _ ih1 ih2 => rw [ih1, ih2]

theorem Spec.Laws.foldl_flatMap {op : T → T → T} {e : T} (h : Laws op e) {ι : Type} (ws : List ι)
    (f : ι → List T) :
    (ws.flatMap f).foldl op e = (ws.map fun w => (f w).foldl op e).foldl op e := by
  induction ws with
  | nil => rfl
  | cons w ws ih =>
    rw [List.flatMap_cons, h.foldl_append, ih, List.map_cons, List.foldl_cons]
    rw [h.foldl_out _ (op e _), h.comm e, h.neutral]

/-- The values combined by a work group: all of them, once. -/
theorem reduceJoint_spec {op : T → T → T} {e : T} (h : Laws op e) (env : ReduceEnv)
    (hL : 0 < env.localSize) (n : Nat) (read : Nat → Option T) (x : Nat → T)
    (hr : ∀ i, i < n → read i = some (x i)) :
    reduceJoint op e env n read = some (((List.range n).map x).foldl op e) := by
  have hlane : ∀ w, reduceLane op e n env.localSize read w =
      some (((strided w n env.localSize).map x).foldl op e) := by
    intro w
    unfold reduceLane
    have hm : ∀ i ∈ strided w n env.localSize, i < n := fun i hi => ((mem_strided hL).1 hi).2.1
    generalize strided w n env.localSize = is at hm
    suffices hs : ∀ a, runItems (fun i v => (read i).bind fun x => some (op v x)) is a =
        some ((is.map x).foldl op a) from hs e
    induction is with
    | nil => intro a; rfl
    | cons i is ih =>
      intro a
      rw [runItems_cons, hr i (hm i (by simp)), Option.bind_some, Option.bind_some,
        ih fun j hj => hm j (by simp [hj])]
      rfl
  unfold reduceJoint
  rw [mapM_of_forall (g := fun w => ((strided w n env.localSize).map x).foldl op e) fun w _ => hlane w,
    Option.bind_some]
  congr 1
  rw [h.foldl_perm (env.combine.perm _), ← h.foldl_flatMap, ← List.map_flatMap]
  exact h.foldl_perm ((strided_lanes n _ hL).map x) e

/-- Work items that each update their own entry. -/
theorem runItems_update {ι α : Type} {step : ι → List α → Option (List α)} {loc : ι → Nat}
    {upd : ι → α → α} {items : List ι} {m : List α} (hnd : (items.map loc).Nodup)
    (hloc : ∀ i ∈ items, loc i < m.length)
    (hstep : ∀ i ∈ items, ∀ (s : List α) (x : α), s.length = m.length → s[loc i]? = some x →
      step i s = some (s.set (loc i) (upd i x))) :
    ∃ m', runItems step items m = some m' ∧ m'.length = m.length ∧
      (∀ i ∈ items, ∀ x, m[loc i]? = some x → m'[loc i]? = some (upd i x)) ∧
      ∀ k, k ∉ items.map loc → m'[k]? = m[k]? := by
  obtain ⟨m', a1, a2, a3, a4⟩ := runItems_invariant (step := step) (items := items) (s := m)
    (P := fun pre s => s.length = m.length ∧
      (∀ i ∈ pre, ∀ x, m[loc i]? = some x → s[loc i]? = some (upd i x)) ∧
      ∀ k, k ∉ pre.map loc → s[k]? = m[k]?)
    (by
      rintro pre i post s he ⟨b1, b2, b3⟩
      have hi : i ∈ items := by rw [he]; simp
      have hl := hloc i hi
      have hfree : loc i ∉ pre.map loc := by
        rw [he, List.map_append, List.map_cons, List.nodup_append] at hnd
        intro hc
        exact hnd.2.2 _ hc _ (by simp) rfl
      have hget : s[loc i]? = some m[loc i] := by rw [b3 _ hfree, List.getElem?_eq_getElem hl]
      refine ⟨_, hstep i hi s _ b1 hget, by simp [b1], ?_, ?_⟩
      · intro j hj x hx
        rcases List.mem_append.1 hj with kj | kj
        · have : loc j ≠ loc i := fun hc => hfree (hc ▸ List.mem_map.2 ⟨j, kj, rfl⟩)
          rw [List.getElem?_set_ne (Ne.symm this)]
          exact b2 j kj x hx
        · rw [List.mem_singleton] at kj
          subst kj
          rw [List.getElem?_set_self (by omega)]
          rw [List.getElem?_eq_getElem hl] at hx
          rw [Option.some.inj hx]
      · intro k hk
        rw [List.map_append, List.mem_append, not_or] at hk
        rw [List.getElem?_set_ne (by simpa [eq_comm] using hk.2)]
        exact b3 k hk.1)
    ⟨rfl, by simp, by simp⟩
  exact ⟨m', a1, a2, a3, a4⟩

/-- One work group on its entry. -/
theorem reduceStep_spec {op : T → T → T} {e : T} (h : Laws op e) (env : ReduceEnv)
    (hL : 0 < env.localSize) {npart : List Nat} {par : Parent} (hb : Built npart par)
    {dat : List (List (List T))} {comp : Nat} (hd : HasComp npart dat comp) {c : Nat}
    (hc : c < npart.length) :
    ∃ upd : T → T, (∀ x, Combines op npart par dat c comp x (upd x)) ∧
      ∀ (index : Nat) (s : List T) (x : T), s[index]? = some x →
        reduceStep op e env npart par dat c comp index s = some (s.set index (upd x)) := by
  obtain ⟨L, pl, sl⟩ := built_spec hb
  have pf := parent_facts pl
  obtain ⟨row, hrow⟩ := exists_row (L := L) (c := c) (by rw [sl.1]; exact hc)
  obtain ⟨hnd, hlt⟩ := sl.2 c row npart[c] hrow (List.getElem?_eq_getElem hc)
  have hdat : ∀ l ∈ row, ∃ x, datAt dat c comp l = some x := fun l hl =>
    hd c npart[c] l (List.getElem?_eq_getElem hc) (hlt l hl)
  have hvs : ∃ vs, row.mapM (datAt dat c comp) = some vs := by
    clear hrow hnd hlt
    induction row with
    | nil => exact ⟨[], rfl⟩
    | cons l row ih =>
      obtain ⟨x, hx⟩ := hdat l (by simp)
      obtain ⟨vs, hv⟩ := ih fun l hl => hdat l (by simp [hl])
      exact ⟨x :: vs, by rw [List.mapM_cons, hx, hv]; rfl⟩
  obtain ⟨vs, hvs⟩ := hvs
  have hvl : ∀ (ls : List Nat) (ws : List T), ls.mapM (datAt dat c comp) = some ws →
      ws.length = ls.length ∧ ∀ (i l : Nat), ls[i]? = some l → ws[i]? = datAt dat c comp l := by
    intro ls
    induction ls with
    | nil => intro ws hw; obtain rfl := Option.some.inj hw; simp
    | cons l ls ih =>
      intro ws hw
      rw [List.mapM_cons] at hw
      obtain ⟨x, h1, h2⟩ := Option.bind_eq_some_iff.1 hw
      obtain ⟨ws', h3, h4⟩ := Option.bind_eq_some_iff.1 h2
      obtain rfl := Option.some.inj h4
      obtain ⟨i1, i2⟩ := ih ws' h3
      refine ⟨by simp [i1], fun i l' hi => ?_⟩
      cases i with
      | zero => obtain rfl := Option.some.inj hi; simp [h1]
      | succ i => exact i2 i l' hi
  have hcount : (par.dCounts npart)[c]? = some row.length := by rw [pf.dCounts, lens_get hrow]
  refine ⟨fun x => vs.foldl op x, ?_, ?_⟩
  · intro x layers hln hlm
    have hperm : layers.Perm row := by
      rw [List.perm_ext_iff_of_nodup hln hnd]
      intro l
      rw [hlm, inParent_iff pl]
      constructor
      · rintro ⟨row', h1, h2⟩
        rw [hrow] at h1
        rw [Option.some.inj h1]
        exact h2
      · intro hl
        exact ⟨row, hrow, hl⟩
    have hpv : ∀ {a b : List Nat}, a.Perm b → ∀ ws, b.mapM (datAt dat c comp) = some ws →
        ∃ ws', a.mapM (datAt dat c comp) = some ws' ∧ ws'.Perm ws := by
      intro a b hab
      induction hab with
      | nil => intro ws hw; exact ⟨ws, hw, List.Perm.refl _⟩
      | cons y _ ih =>
        intro ws hw
        rw [List.mapM_cons] at hw
        obtain ⟨z, h1, h2⟩ := Option.bind_eq_some_iff.1 hw
        obtain ⟨ws', h3, h4⟩ := Option.bind_eq_some_iff.1 h2
        obtain rfl := Option.some.inj h4
        obtain ⟨ws'', h5, h6⟩ := ih ws' h3
        exact ⟨z :: ws'', by rw [List.mapM_cons, h1, h5]; rfl, h6.cons z⟩
      | swap y z l =>
        intro ws hw
        rw [List.mapM_cons, List.mapM_cons] at hw
        obtain ⟨u, h1, h2⟩ := Option.bind_eq_some_iff.1 hw
        obtain ⟨ws', h3, h4⟩ := Option.bind_eq_some_iff.1 h2
        obtain ⟨v, h5, h6⟩ := Option.bind_eq_some_iff.1 h3
        obtain ⟨ws'', h7, h8⟩ := Option.bind_eq_some_iff.1 h6
        obtain rfl := Option.some.inj h8
        obtain rfl := Option.some.inj h4
        exact ⟨v :: u :: ws'', by rw [List.mapM_cons, List.mapM_cons, h5, h1, h7]; rfl, List.Perm.swap _ _ _⟩
      | trans _ _ ih1 ih2 =>
        intro ws hw
        obtain ⟨ws', h1, h2⟩ := ih2 ws hw
        obtain ⟨ws'', h3, h4⟩ := ih1 ws' h1
        exact ⟨ws'', h3, h4.trans h2⟩
    obtain ⟨ws, w1, w2⟩ := hpv hperm vs hvs
    exact ⟨ws, w1, (h.foldl_perm w2 x).symm⟩
  · intro index s x hx
    unfold reduceStep
    simp only [rd]
    rw [hcount, Option.bind_some]
    by_cases hn : 0 < row.length
    · rw [if_pos hn]
      obtain ⟨v1, v2⟩ := hvl row vs hvs
      have hv0 : 0 < vs.length := by omega
      rw [reduceJoint_spec h env hL row.length _ (fun i => vs.getD i vs[0])
        (by
          intro i hi
          unfold reduceRead
          rw [pf.layer c row i hrow hi, List.getElem?_eq_getElem hi, Option.bind_some]
          have := v2 i row[i] (List.getElem?_eq_getElem hi)
          simp only [rd]
          unfold datAt at this
          rw [← this, List.getD_eq_getElem?_getD, List.getElem?_eq_getElem (by omega)]
          rfl), Option.bind_some, hx, Option.bind_some,
        st_eq_some (List.getElem?_eq_some_iff.1 hx).1]
      congr 2
      rw [← h.foldl_out]
      congr 1
      apply List.ext_getElem (by simp [v1])
      intro i h1 h2
      simp [h2]
    · rw [if_neg hn]
      have : vs = [] := by
        have := (hvl row vs hvs).1
        exact List.length_eq_zero_iff.1 (by omega)
      subst this
      congr 1
      obtain ⟨h1, h2⟩ := List.getElem?_eq_some_iff.1 hx
      rw [List.foldl_nil, ← h2, List.set_getElem_self]

theorem entry_lt {n nrow ncol c row col : Nat} (hc : c < n) (hr : row < nrow) (hcol : col < ncol) :
    c * (nrow * ncol) + (nrow * col + row) < n * (nrow * ncol) := by
  have h1 : nrow * col + row < nrow * ncol := by
    calc nrow * col + row < nrow * col + nrow := by omega
      _ = nrow * (col + 1) := by ring
      _ ≤ nrow * ncol := Nat.mul_le_mul_left _ hcol
  calc c * (nrow * ncol) + (nrow * col + row) < c * (nrow * ncol) + nrow * ncol := by omega
    _ = (c + 1) * (nrow * ncol) := by ring
    _ ≤ n * (nrow * ncol) := Nat.mul_le_mul_right _ hc

theorem entry_inj {nrow ncol c row col c' row' col' : Nat} (hr : row < nrow) (hcol : col < ncol)
    (hr' : row' < nrow) (hcol' : col' < ncol)
    (h : c * (nrow * ncol) + (nrow * col + row) = c' * (nrow * ncol) + (nrow * col' + row')) :
    c = c' ∧ row = row' ∧ col = col' := by
  have b : ∀ {k r : Nat}, r < nrow → k < ncol → nrow * k + r < nrow * ncol := by
    intro k r hr hk
    calc nrow * k + r < nrow * k + nrow := by omega
      _ = nrow * (k + 1) := by ring
      _ ≤ nrow * ncol := Nat.mul_le_mul_left _ hk
  have h1 := b hr hcol
  have h2 := b hr' hcol'
  have hc : c = c' := by
    have e1 : (c * (nrow * ncol) + (nrow * col + row)) / (nrow * ncol) = c := by
      rw [Nat.mul_comm, Nat.mul_add_div (by omega), Nat.div_eq_of_lt h1]; rfl
    have e2 : (c' * (nrow * ncol) + (nrow * col' + row')) / (nrow * ncol) = c' := by
      rw [Nat.mul_comm, Nat.mul_add_div (by omega), Nat.div_eq_of_lt h2]; rfl
    rw [← e1, ← e2, h]
  subst hc
  have h3 : nrow * col + row = nrow * col' + row' := by omega
  have hk : col = col' := by
    have e1 : (nrow * col + row) / nrow = col := by
      rw [Nat.mul_add_div (by omega), Nat.div_eq_of_lt hr]; rfl
    have e2 : (nrow * col' + row') / nrow = col' := by
      rw [Nat.mul_add_div (by omega), Nat.div_eq_of_lt hr']; rfl
    rw [← e1, ← e2, h3]
  subst hk
  exact ⟨rfl, by omega, rfl⟩

/-- Reduction of one component: in each cell the named entry becomes the old value combined with the
component of every particle of the group or sub group in the cell, once; all other entries are
unchanged. For every work group size, order of work groups and order of combination. -/
theorem C60_component {op : T → T → T} {e : T} (h : Laws op e) (env : ReduceEnv)
    (hL : 0 < env.localSize) {npart : List Nat} {par : Parent} (hb : Built npart par)
    {dat : List (List (List T))} {comp : Nat} (hd : HasComp npart dat comp) {out : CellConst T}
    (ho : OutOk npart out) {row col : Nat} (hr : row < out.nrow) (hc : col < out.ncol) :
    ∃ out', reduceComponent op e env npart par dat comp out row col = some out' ∧ OutOk npart out' ∧
      out'.nrow = out.nrow ∧ out'.ncol = out.ncol ∧
      ∀ (c r k : Nat) (x : T), r < out.nrow → k < out.ncol → entry out c r k = some x →
        (r = row ∧ k = col → ∃ y, entry out' c r k = some y ∧ Combines op npart par dat c comp x y) ∧
        (¬ (r = row ∧ k = col) → entry out' c r k = some x) := by
  have hstep : ∀ c, c < npart.length → ∃ upd : T → T, (∀ x, Combines op npart par dat c comp x (upd x)) ∧
      ∀ (index : Nat) (s : List T) (x : T), s[index]? = some x →
        reduceStep op e env npart par dat c comp index s = some (s.set index (upd x)) :=
    fun c hc => reduceStep_spec h env hL hb hd hc
  haveI : Nonempty (T → T) := ⟨id⟩
  choose! upd u1 u2 using hstep
  let loc := fun c => c * (out.nrow * out.ncol) + (out.nrow * col + row)
  have hperm := env.groups.perm (List.range npart.length)
  have hmem : ∀ c ∈ env.groups.order (List.range npart.length), c < npart.length := fun c hc =>
    List.mem_range.1 (hperm.mem_iff.1 hc)
  obtain ⟨m', a1, a2, a3, a4⟩ := runItems_update (m := out.data) (loc := loc) (upd := upd)
    (items := env.groups.order (List.range npart.length))
    (step := fun c => reduceStep op e env npart par dat c comp
      (c * out.stride + out.nrow * (col : Int).toNat + (row : Int).toNat))
    (by
      rw [(hperm.map loc).nodup_iff]
      apply List.Nodup.map_on _ List.nodup_range
      intro a _ b _ hab
      exact (entry_inj hr hc hr hc hab).1)
    (by
      intro c hcm
      rw [ho.data, ho.cells]
      exact entry_lt (hmem c hcm) hr hc)
    (by
      intro c hcm s x _ hx
      have e1 : c * out.stride + out.nrow * (col : Int).toNat + (row : Int).toNat = loc c := by
        show c * (out.nrow * out.ncol) + out.nrow * col + row = _
        simp only [loc]
        omega
      rw [e1]
      exact u2 c (hmem c hcm) _ s x hx)
  refine ⟨{ out with data := m' }, ?_, ⟨ho.cells, ?_⟩, rfl, rfl, ?_⟩
  · unfold reduceComponent
    rw [if_pos ho.cells.symm, if_pos ⟨by omega, by exact_mod_cast hr⟩, if_pos ⟨by omega, by exact_mod_cast hc⟩,
      a1, Option.bind_some]
  · show m'.length = _
    rw [a2, ho.data]
  · intro c r k x hr' hk' hx
    unfold entry at hx ⊢
    have hcn : c < npart.length := by
      have h1 := (List.getElem?_eq_some_iff.1 hx).1
      rw [ho.data, ho.cells] at h1
      by_contra hcon
      have : npart.length * (out.nrow * out.ncol) ≤ c * (out.nrow * out.ncol) := Nat.mul_le_mul_right _ (by omega)
      omega
    constructor
    · rintro ⟨rfl, rfl⟩
      exact ⟨_, a3 c (hperm.mem_iff.2 (List.mem_range.2 hcn)) x hx, u1 c hcn x⟩
    · intro hne
      show m'[_]? = _
      rw [a4, hx]
      intro hmm
      obtain ⟨c', -, hc'⟩ := List.mem_map.1 hmm
      obtain ⟨-, e2, e3⟩ := entry_inj hr hc hr' hk' hc'
      exact hne ⟨e2.symm, e3.symm⟩

/-- Rows and columns out of range and another number of cells are rejected. -/
theorem C60_rejects {op : T → T → T} {e : T} {env : ReduceEnv} {npart : List Nat} {par : Parent}
    {dat : List (List (List T))} {comp : Nat} {out : CellConst T} {row col : Int}
    (h : npart.length ≠ out.ncells ∨ row < 0 ∨ (out.nrow : Int) ≤ row ∨ col < 0 ∨ (out.ncol : Int) ≤ col) :
    reduceComponent op e env npart par dat comp out row col = none := by
  unfold reduceComponent
  split
  · split
    · split
      · omega
      · rfl
    · rfl
  · rfl

/-- The table of offsets. -/
theorem reduceOffsets_spec {ncomp nrow ncol : Nat} (h : nrow * ncol ≤ ncomp) :
    ∃ offs, reduceOffsets ncomp nrow ncol = some offs ∧ offs.length = ncomp ∧
      (∀ r k, r < nrow → k < ncol → offs[r * ncol + k]? = some (nrow * k + r)) ∧
      ∀ i, nrow * ncol ≤ i → i < ncomp → offs[i]? = some 0 := by
  have hidx : ∀ {r k : Nat}, r < nrow → k < ncol → r * ncol + k < nrow * ncol := by
    intro r k hr hk
    calc r * ncol + k < r * ncol + ncol := by omega
      _ = (r + 1) * ncol := by ring
      _ ≤ nrow * ncol := Nat.mul_le_mul_right _ hr
  obtain ⟨⟨b, ix⟩, a1, a2, a3, a4⟩ := forLoop_invariant (a := 0) (b := nrow)
    (s := (List.replicate ncomp 0, 0))
    (step := fun rx s => forLoop 0 ncol (fun cx (s : List Nat × Nat) =>
      (st s.1 s.2 (nrow * cx + rx)).bind fun b => some (b, s.2 + 1)) s)
    (P := fun rx (s : List Nat × Nat) => s.1.length = ncomp ∧ s.2 = rx * ncol ∧
      ((∀ r k, r < rx → k < ncol → s.1[r * ncol + k]? = some (nrow * k + r)) ∧
      ∀ i, rx * ncol ≤ i → i < ncomp → s.1[i]? = some 0)) (Nat.zero_le _)
    (by
      rintro rx ⟨s, ix⟩ - hrx ⟨h1, h2, h3, h4⟩
      dsimp only at h1 h2 h3 h4
      obtain ⟨⟨s', ix'⟩, c1, c2, c3, c4, c5, c6⟩ := forLoop_invariant (a := 0) (b := ncol) (s := (s, ix))
        (step := fun cx (s : List Nat × Nat) => (st s.1 s.2 (nrow * cx + rx)).bind fun b => some (b, s.2 + 1))
        (P := fun cx (s' : List Nat × Nat) => s'.1.length = ncomp ∧ s'.2 = rx * ncol + cx ∧
          ((∀ r k, r < rx → k < ncol → s'.1[r * ncol + k]? = some (nrow * k + r)) ∧
          (∀ k, k < cx → s'.1[rx * ncol + k]? = some (nrow * k + rx)) ∧
          ∀ i, rx * ncol + cx ≤ i → i < ncomp → s'.1[i]? = some 0)) (Nat.zero_le _)
        (by
          rintro cx ⟨t, iy⟩ - hcx ⟨d1, d2, d3, d4, d5⟩
          dsimp only at d1 d2 d3 d4 d5
          have hlt := hidx hrx hcx
          have hlt' : iy < t.length := by omega
          refine ⟨(t.set iy (nrow * cx + rx), iy + 1), by dsimp only; rw [st_eq_some hlt']; rfl, by simp [d1],
            by dsimp only; omega, ?_, ?_, ?_⟩
          · intro r k hr hk
            dsimp only
            have : r * ncol + k < rx * ncol := by
              calc r * ncol + k < r * ncol + ncol := by omega
                _ = (r + 1) * ncol := by ring
                _ ≤ rx * ncol := Nat.mul_le_mul_right _ hr
            rw [List.getElem?_set_ne (by omega)]
            exact d3 r k hr hk
          · intro k hk
            dsimp only
            by_cases hkc : k = cx
            · subst hkc
              rw [d2, List.getElem?_set_self (by omega)]
            · rw [List.getElem?_set_ne (by omega)]
              exact d4 k (by omega)
          · intro i hi hin
            dsimp only
            rw [List.getElem?_set_ne (by omega)]
            exact d5 i (by omega) hin)
        ⟨h1, by dsimp only; omega, h3, by simp, fun i hi => h4 i (by simpa using hi)⟩
      dsimp only at c2 c3 c4 c5 c6
      have hsucc : (rx + 1) * ncol = rx * ncol + ncol := by ring
      refine ⟨(s', ix'), c1, c2, by dsimp only; omega, ?_, ?_⟩
      · intro r k hr hk
        dsimp only
        by_cases hrr : r = rx
        · subst hrr; exact c5 k hk
        · exact c4 r k (by omega) hk
      · intro i hi hin
        exact c6 i (by omega) hin)
    ⟨by simp, by simp, by simp, by
      intro i _ hi
      simp [hi]⟩
  dsimp only at a2 a3 a4
  refine ⟨b, ?_, a2, a4.1, a4.2⟩
  unfold reduceOffsets
  rw [a1, Option.bind_some]

/-- Reduction of all components: in each cell the entry of row `r` and column `k` becomes the old value
combined with component `r * ncol + k` of every particle of the group or sub group in the cell, once.

Missing from the full property: properties with more components than the matrix has entries, which
the code accepts; see `C60_surplus_components`. -/
theorem C60_components_partial {op : T → T → T} {e : T} (h : Laws op e) (env : ReduceEnv)
    (hL : 0 < env.localSize) {npart : List Nat} {par : Parent} (hb : Built npart par)
    {dat : List (List (List T))} {out : CellConst T} (ho : OutOk npart out)
    (hd : ∀ comp, comp < out.nrow * out.ncol → HasComp npart dat comp) :
    ∃ out', reduceComponents op e env npart par dat (out.nrow * out.ncol) out = some out' ∧
      OutOk npart out' ∧ out'.nrow = out.nrow ∧ out'.ncol = out.ncol ∧
      ∀ (c r k : Nat) (x : T), r < out.nrow → k < out.ncol → entry out c r k = some x →
        ∃ y, entry out' c r k = some y ∧ Combines op npart par dat c (r * out.ncol + k) x y := by
  obtain ⟨offs, o1, o2, o3, -⟩ := reduceOffsets_spec (Nat.le_refl (out.nrow * out.ncol))
  set N := out.nrow * out.ncol with hN
  have hdiv : ∀ g, g < npart.length * N → 0 < N ∧ g / N < npart.length ∧ g - g / N * N < N ∧
      g - g / N * N = g % N := by
    intro g hg
    have hN0 : 0 < N := Nat.pos_of_ne_zero fun hz => by rw [hz] at hg; simp at hg
    have h1 := Nat.div_add_mod g N
    have h2 := Nat.mod_lt g hN0
    have h3 : g - g / N * N = g % N := by
      rw [Nat.mul_comm]; omega
    exact ⟨hN0, Nat.div_lt_of_lt_mul (by rw [Nat.mul_comm]; exact hg), by omega, h3⟩
  have hstep : ∀ g, g < npart.length * N → ∃ upd : T → T,
      (∀ x, Combines op npart par dat (g / N) (g % N) x (upd x)) ∧
      ∀ (index : Nat) (s : List T) (x : T), s[index]? = some x →
        reduceStep op e env npart par dat (g / N) (g % N) index s = some (s.set index (upd x)) := by
    intro g hg
    obtain ⟨d1, d2, d3, d4⟩ := hdiv g hg
    exact reduceStep_spec h env hL hb (hd _ (Nat.mod_lt _ d1)) d2
  haveI : Nonempty (T → T) := ⟨id⟩
  choose! upd u1 u2 using hstep
  -- the entry of component `i`
  have hoff : ∀ i, i < N → i % out.ncol < out.ncol ∧ i / out.ncol < out.nrow ∧
      offs[i]? = some (out.nrow * (i % out.ncol) + i / out.ncol) := by
    intro i hi
    have hc0 : 0 < out.ncol := Nat.pos_of_ne_zero fun hz => by rw [hN, hz] at hi; simp at hi
    have h1 := Nat.mod_lt i hc0
    have h2 : i / out.ncol < out.nrow := Nat.div_lt_of_lt_mul (by rw [Nat.mul_comm]; exact hi)
    refine ⟨h1, h2, ?_⟩
    rw [← o3 _ _ h2 h1]
    congr 1
    rw [Nat.mul_comm, Nat.div_add_mod]
  let loc := fun g => g / N * (out.nrow * out.ncol) +
    (out.nrow * (g % N % out.ncol) + g % N / out.ncol)
  have hperm := env.groups.perm (List.range (npart.length * N))
  have hmem : ∀ g ∈ env.groups.order (List.range (npart.length * N)), g < npart.length * N := fun c hc =>
    List.mem_range.1 (hperm.mem_iff.1 hc)
  obtain ⟨m', a1, a2, a3, a4⟩ := runItems_update (m := out.data) (loc := loc) (upd := upd)
    (items := env.groups.order (List.range (npart.length * N)))
    (step := fun g o =>
      let c := g / N
      let comp := g - c * N
      (rd offs comp).bind fun offset =>
      reduceStep op e env npart par dat c comp (c * out.stride + offset) o)
    (by
      rw [(hperm.map loc).nodup_iff]
      apply List.Nodup.map_on _ List.nodup_range
      intro a ha b hb' hab
      rw [List.mem_range] at ha hb'
      have hN0 := (hdiv a ha).1
      obtain ⟨p1, p2, -⟩ := hoff (a % N) (Nat.mod_lt _ hN0)
      obtain ⟨q1, q2, -⟩ := hoff (b % N) (Nat.mod_lt _ hN0)
      obtain ⟨e1, e2, e3⟩ := entry_inj p2 p1 q2 q1 hab
      have e4 : a % N = b % N := by
        rw [← Nat.div_add_mod (a % N) out.ncol, ← Nat.div_add_mod (b % N) out.ncol, e2, e3]
      rw [← Nat.div_add_mod a N, ← Nat.div_add_mod b N, e1, e4])
    (by
      intro g hg
      rw [ho.data, ho.cells]
      obtain ⟨d1, d2, -⟩ := hdiv g (hmem g hg)
      obtain ⟨p1, p2, -⟩ := hoff (g % N) (Nat.mod_lt _ d1)
      exact entry_lt d2 p2 p1)
    (by
      intro g hg s x _ hx
      obtain ⟨d1, d2, d3, d4⟩ := hdiv g (hmem g hg)
      obtain ⟨p1, p2, p3⟩ := hoff (g % N) (Nat.mod_lt _ d1)
      dsimp only
      rw [d4]
      simp only [rd]
      rw [p3, Option.bind_some]
      exact u2 g (hmem g hg) _ s x hx)
  refine ⟨{ out with data := m' }, ?_, ⟨ho.cells, ?_⟩, rfl, rfl, ?_⟩
  · unfold reduceComponents
    rw [if_pos ho.cells.symm, if_pos (Nat.le_refl _), o1, Option.bind_some, a1, Option.bind_some]
  · show m'.length = _
    rw [a2, ho.data]
  · intro c r k x hr' hk' hx
    unfold entry at hx ⊢
    have hcn : c < npart.length := by
      have h1 := (List.getElem?_eq_some_iff.1 hx).1
      rw [ho.data, ho.cells] at h1
      by_contra hcon
      have : npart.length * (out.nrow * out.ncol) ≤ c * (out.nrow * out.ncol) := Nat.mul_le_mul_right _ (by omega)
      omega
    have hi : r * out.ncol + k < N := by
      calc r * out.ncol + k < r * out.ncol + out.ncol := by omega
        _ = (r + 1) * out.ncol := by ring
        _ ≤ out.nrow * out.ncol := Nat.mul_le_mul_right _ hr'
    have hg : c * N + (r * out.ncol + k) < npart.length * N := by
      calc c * N + (r * out.ncol + k) < c * N + N := by omega
        _ = (c + 1) * N := by ring
        _ ≤ npart.length * N := Nat.mul_le_mul_right _ hcn
    have e1 : (c * N + (r * out.ncol + k)) / N = c := by
      rw [Nat.mul_comm, Nat.mul_add_div (by omega), Nat.div_eq_of_lt hi]; rfl
    have e2 : (c * N + (r * out.ncol + k)) % N = r * out.ncol + k := by
      rw [Nat.mul_comm, Nat.mul_add_mod, Nat.mod_eq_of_lt hi]
    have e3 : (r * out.ncol + k) % out.ncol = k := by
      rw [Nat.mul_comm, Nat.mul_add_mod, Nat.mod_eq_of_lt hk']
    have e4 : (r * out.ncol + k) / out.ncol = r := by
      rw [Nat.mul_comm, Nat.mul_add_div (by omega), Nat.div_eq_of_lt hk']; rfl
    have hloc : loc (c * N + (r * out.ncol + k)) = c * (out.nrow * out.ncol) + (out.nrow * k + r) := by
      simp only [loc]
      rw [e1, e2, e3, e4]
    have hy := a3 _ (hperm.mem_iff.2 (List.mem_range.2 hg)) x (by rw [hloc]; exact hx)
    rw [hloc] at hy
    have hu := u1 _ hg x
    rw [e1, e2] at hu
    exact ⟨_, hy, hu⟩

/-! ## Examples and the surplus components -/

namespace Ex

def redEnv (n : Nat) : ReduceEnv := ⟨n, Sched.reversed, Sched.reversed⟩

theorem plus_laws : Laws (fun a b : Int => a + b) 0 := ⟨Int.add_assoc, Int.add_comm, Int.add_zero⟩

/-- Three cells with 3, 0 and 2 particles and two components; memory for more particles. -/
def redDat : List (List (List Int)) :=
  [[[1, 2, 3, 99], [10, 20, 30, 99]], [[], []], [[4, 5], [40, 50]]]

def redOut : CellConst Int := ⟨3, 1, 2, [100, 200, 300, 400, 500, 600]⟩

theorem redOut_ok : OutOk subCounts redOut := ⟨rfl, rfl⟩

theorem redDat_comp {comp : Nat} (h : comp < 2) : HasComp subCounts redDat comp := by
  intro c n l hn hl
  have hc : c < 3 := (List.getElem?_eq_some_iff.1 hn).1
  interval_cases c
  · obtain rfl := Option.some.inj hn
    interval_cases comp <;> interval_cases l <;> exact ⟨_, rfl⟩
  · obtain rfl := Option.some.inj hn; omega
  · obtain rfl := Option.some.inj hn
    interval_cases comp <;> interval_cases l <;> exact ⟨_, rfl⟩

end Ex

example : ∃ out', reduceComponent (fun a b : Int => a + b) 0 (Ex.redEnv 2) Ex.subCounts (.sub Ex.subSel)
    Ex.redDat 1 Ex.redOut (0 : Nat) (1 : Nat) = some out' ∧ OutOk Ex.subCounts out' := by
  obtain ⟨out', h1, h2, -⟩ := C60_component Ex.plus_laws (Ex.redEnv 2) (by decide) Ex.subSel_built
    (Ex.redDat_comp (comp := 1) (by decide)) Ex.redOut_ok (row := 0) (col := 1) (by decide) (by decide)
  exact ⟨out', h1, h2⟩

/-- Layers 2 and 0 of cell 0 and layer 0 of cell 2. -/
example : (reduceComponent (fun a b : Int => a + b) 0 (Ex.redEnv 2) Ex.subCounts (.sub Ex.subSel)
    Ex.redDat 1 Ex.redOut 0 1).map CellConst.data = some [100, 240, 300, 400, 500, 640] := by
  decide +kernel

example : ∃ out', reduceComponents (fun a b : Int => a + b) 0 (Ex.redEnv 4) Ex.subCounts .whole
    Ex.redDat 2 Ex.redOut = some out' ∧ OutOk Ex.subCounts out' := by
  obtain ⟨out', h1, h2, -⟩ := C60_components_partial Ex.plus_laws (Ex.redEnv 4) (by decide)
    (Built.whole (npart := Ex.subCounts)) Ex.redOut_ok (fun comp hc => Ex.redDat_comp hc)
  exact ⟨out', h1, h2⟩

example : (reduceComponents (fun a b : Int => a + b) 0 (Ex.redEnv 4) Ex.subCounts .whole
    Ex.redDat 2 Ex.redOut).map CellConst.data = some [106, 260, 300, 400, 509, 690] := by
  decide +kernel

/-- A property with more components than the matrix has entries is accepted, and its surplus
components are combined into the first entry: here the matrix has one entry, which gets the sum of
both components of the particles. -/
theorem C60_surplus_components :
    ∃ out', reduceComponents (fun a b : Int => a + b) 0 (Ex.redEnv 4) Ex.subCounts .whole Ex.redDat 2
        ⟨3, 1, 1, [0, 0, 0]⟩ = some out' ∧ entry out' 0 0 0 = some (1 + 2 + 3 + (10 + 20 + 30)) ∧
      ¬ Combines (fun a b : Int => a + b) Ex.subCounts .whole Ex.redDat 0 0 0 (1 + 2 + 3 + (10 + 20 + 30)) := by
  refine ⟨⟨3, 1, 1, [66, 0, 99]⟩, by decide +kernel, by decide +kernel, ?_⟩
  intro hcon
  obtain ⟨vs, h1, h2⟩ := hcon [0, 1, 2] (by decide) (by
    intro l
    show l ∈ [0, 1, 2] ↔ ∃ n, Ex.subCounts[0]? = some n ∧ l < n
    simp [Ex.subCounts]
    omega)
  have h3 : ([0, 1, 2] : List Nat).mapM (datAt Ex.redDat 0 0) = some [1, 2, 3] := by decide +kernel
  rw [h3] at h1
  obtain rfl := Option.some.inj h1
  revert h2
  decide

end NP
