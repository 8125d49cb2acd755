import Verif.Petsc.LemmasCoupler2
import Mathlib.Algebra.BigOperators.Group.Finset.Basic
import Mathlib.Algebra.BigOperators.Intervals

/-!
# Lemmas for the mesh coupler: transfers
-/

set_option autoImplicit false

namespace NP

open Spec

/-! ## An exchange with buffers that are longer than needed -/

theorem forLoop_blocks_le {α T : Type} (l : List α) (f : α → List T)
    (step : Nat → List T → Option (List T)) (buf : List T)
    (hbuf : (l.map fun y => (f y).length).sum ≤ buf.length)
    (hstep : ∀ j x b, l[j]? = some x →
      step j b = stRange b ((l.map fun y => (f y).length).take j).sum (f x)) :
    ∃ rest, forLoop 0 l.length step buf = some (l.flatMap f ++ rest) := by
  obtain ⟨b, h1, h2, h3⟩ := forLoop_invariant (a := 0) (b := l.length) (step := step) (s := buf)
    (P := fun j b => b.length = buf.length ∧
      b.take ((l.map fun y => (f y).length).take j).sum = (l.take j).flatMap f) (Nat.zero_le _)
    (by
      rintro j b - hj ⟨hb, hp⟩
      have hx : l[j]? = some l[j] := List.getElem?_eq_getElem hj
      have hsum : ((l.map fun y => (f y).length).take (j + 1)).sum =
          ((l.map fun y => (f y).length).take j).sum + (f l[j]).length := by
        rw [List.take_add_one]; simp [hx]
      have hle : ((l.map fun y => (f y).length).take (j + 1)).sum ≤ buf.length := by
        refine Nat.le_trans ?_ hbuf
        conv_rhs => rw [← List.take_append_drop (j + 1) (l.map fun y => (f y).length)]
        rw [List.sum_append]; omega
      have hlen : ((l.take j).flatMap f).length = ((l.map fun y => (f y).length).take j).sum := by
        rw [List.length_flatMap, ← List.map_take]
      rw [hstep j _ b hx, stRange_eq_some (by omega)]
      refine ⟨_, rfl, ?_, ?_⟩
      · simp only [List.length_append, List.length_take, List.length_drop]
        omega
      · rw [hsum, List.take_append_of_le_length (by simp; omega), hp]
        rw [List.take_of_length_le (by simp [hlen])]
        rw [List.take_add_one (l := l), hx]
        rw [Option.toList_some, List.flatMap_append, List.flatMap_singleton])
    ⟨rfl, by simp⟩
  refine ⟨b.drop ((l.map fun y => (f y).length).take l.length).sum, ?_⟩
  rw [h1]
  congr 1
  rw [List.take_of_length_le (Nat.le_refl _)] at h3
  rw [← h3, List.take_append_drop]

theorem slice_append_left {α : Type} {l rest : List α} {a b : Nat} {x : List α}
    (h : slice l a b = some x) : slice (l ++ rest) a b = some x := by
  unfold slice at h ⊢
  split at h
  · next hc =>
    rw [if_pos ⟨hc.1, by rw [List.length_append]; omega⟩, ← h, List.drop_append_of_le_length (by omega),
      List.take_append_of_le_length (by rw [List.length_drop]; omega)]
  · cases h

/-- As `NbrOk`, but buffers may be longer than needed. -/
structure NbrOkLe {T : Type} (n : Nat) (K : Nat → NbrArgs T) (blk : Nat → Nat → List T) : Prop where
  sbuf : ∀ s < n, ∃ rest, (K s).sbuf = (K s).dests.flatMap (blk s) ++ rest
  sendcounts : ∀ s < n, (K s).sendcounts = (K s).dests.map fun d => (blk s d).length
  sdispls : ∀ s < n, (K s).sdispls = exclusiveFrom 0 (K s).sendcounts
  recvcounts : ∀ q < n, (K q).recvcounts = (K q).sources.map fun s => (blk s q).length
  rdispls : ∀ q < n, (K q).rdispls = exclusiveFrom 0 (K q).recvcounts
  rbuf : ∀ q < n, (K q).recvcounts.sum ≤ (K q).rbuf.length
  edges : ∀ q < n, ∀ s ∈ (K q).sources, s < n ∧ q ∈ (K s).dests

theorem neighborAlltoallwArgs_le {T : Type} {n : Nat} {K : Nat → NbrArgs T}
    {blk : Nat → Nat → List T} (h : NbrOkLe n K blk) :
    ∃ rest : Nat → List T, neighborAlltoallwArgs ((List.range n).map K) =
      some ((List.range n).map fun q => ((K q).sources.flatMap fun s => blk s q) ++ rest q) := by
  have key : ∀ q, ∃ rest, q < n → forLoop 0 (K q).sources.length
      (nbrBlock ((List.range n).map K) q (K q)) (K q).rbuf =
        some (((K q).sources.flatMap fun s => blk s q) ++ rest) := by
    intro q
    by_cases hq : q < n
    · obtain ⟨rest, hr⟩ := forLoop_blocks_le (K q).sources (fun s => blk s q)
        (nbrBlock ((List.range n).map K) q (K q)) (K q).rbuf
        (by have := h.rbuf q hq; rw [h.recvcounts q hq] at this; exact this) fun j s b hj => by
          have hjl : j < (K q).sources.length := (List.getElem?_eq_some_iff.1 hj).1
          obtain ⟨hs, hd⟩ := h.edges q hq s (List.mem_of_getElem? hj)
          unfold nbrBlock
          simp only [rd] at *
          rw [hj, Option.bind_some]
          rw [show ((List.range n).map K)[s]? = some (K s) from rd_table K hs, Option.bind_some]
          obtain ⟨i, hi⟩ := Option.isSome_iff_exists.1 (List.isSome_idxOf?.2 hd)
          rw [hi, Option.bind_some]
          obtain ⟨hilt, hig, -⟩ := List.idxOf?_eq_some_iff.1 hi
          replace hig : (K s).dests[i]? = some q := by
            rw [List.getElem?_eq_getElem hilt, hig]
          obtain ⟨rest, hrest⟩ := h.sbuf s hs
          rw [h.sdispls s hs, h.rdispls q hq, h.sendcounts s hs, h.recvcounts q hq]
          rw [List.getElem?_map, hig, Option.map_some, Option.bind_some,
            getElem?_exclusiveFrom _ _ _ (by simpa using hilt), Option.bind_some, List.getElem?_map, hj,
            Option.map_some, Option.bind_some, getElem?_exclusiveFrom _ _ _ (by simpa using hjl),
            Option.bind_some, if_pos rfl, Nat.zero_add, Nat.zero_add, hrest,
            slice_append_left (slice_flatMap _ (blk s) _ hig), Option.bind_some]
      exact ⟨rest, fun _ => hr⟩
    · exact ⟨[], fun h => absurd h hq⟩
  obtain ⟨rest, hrest⟩ := Classical.axiomOfChoice key
  refine ⟨rest, ?_⟩
  unfold neighborAlltoallwArgs
  exact mapRanks_table fun q hq => hrest q hq

theorem exclusiveFrom_mul (k : Nat) (l : List Nat) (a : Nat) :
    (exclusiveFrom a l).map (fun x => x * k) = exclusiveFrom (a * k) (l.map fun x => x * k) := by
  induction l generalizing a with
  | nil => rfl
  | cons x l ih => simp only [exclusiveFrom, List.map_cons]; rw [ih, Nat.add_mul]

/-! ## Packing -/

theorem coupItems_eq (n ncomp : Nat) : coupItems n ncomp = surfItems Sched.inOrder n ncomp := rfl

theorem writeRows {T β : Type} [Zero T] {ncomp : Nat} (Z : List β) (f : β → Nat → T) (out : List T)
    (step : Nat × Nat → List T → Option (List T))
    (hstep : ∀ x o z, Z[x.1]? = some z → x.2 < ncomp → step x o = st o (x.1 * ncomp + x.2) (f z x.2))
    (hlen : Z.length * ncomp ≤ out.length) :
    ∃ rest, runItems step (coupItems Z.length ncomp) out =
      some ((Z.flatMap fun z => (List.range ncomp).map (f z)) ++ rest) := by
  rw [coupItems_eq]
  obtain ⟨m', h1, h2, h3, -⟩ := runItems_put (step := step)
    (items := surfItems Sched.inOrder Z.length ncomp) (m := out)
    (fun x => some (x.1 * ncomp + x.2)) (fun x => ((Z[x.1]?).map fun z => f z x.2).getD 0)
    (fun x hx o _ => by
      obtain ⟨a1, a2⟩ := mem_surfItems.1 hx
      rw [hstep x o _ (List.getElem?_eq_getElem a1) a2, List.getElem?_eq_getElem a1]
      rfl)
    (fun x hx y hy k hk hk' => by
      obtain ⟨a1, a2⟩ := mem_surfItems.1 hx
      obtain ⟨b1, b2⟩ := mem_surfItems.1 hy
      obtain ⟨e1, e2⟩ := row_inj a2 b2 ((Option.some.inj hk).trans (Option.some.inj hk').symm)
      rw [e1, e2])
    (fun x hx k hk => by
      obtain ⟨a1, a2⟩ := mem_surfItems.1 hx
      rw [← Option.some.inj hk]
      exact Nat.lt_of_lt_of_le (row_lt a2 a1) hlen)
  refine ⟨m'.drop (Z.length * ncomp), ?_⟩
  rw [h1]
  congr 1
  rw [← eq_rows (m := m'.take (Z.length * ncomp)) (l := Z) (f := f) (ncomp := ncomp)
    (by rw [List.length_take]; omega) fun p x hx c hc => by
      have hp := (List.getElem?_eq_some_iff.1 hx).1
      rw [List.getElem?_take_of_lt (row_lt hc hp), h3 (p, c) (mem_surfItems.2 ⟨hp, hc⟩) _ rfl, hx]
      rfl]
  rw [List.take_append_drop]

theorem length_coupGrow {T : Type} [Zero T] (size : Nat) (v : List T) :
    size ≤ (coupGrow size v).length := by
  unfold coupGrow
  split
  · rw [List.length_append, List.length_replicate]; omega
  · omega

/-- The blocks of an exchange of rows. -/
def coupRows {T β : Type} (ncomp : Nat) (l : List β) (f : β → Nat → T) : List T :=
  l.flatMap fun z => (List.range ncomp).map (f z)

theorem length_coupRows {T β : Type} (ncomp : Nat) (l : List β) (f : β → Nat → T) :
    (coupRows ncomp l f).length = l.length * ncomp := length_rows ncomp l f

/-- The exchange of a transfer when rank `s` has packed the rows `blk s q` for rank `q`. -/
theorem coupExchange_eq {T β : Type} {n ncomp : Nat} {W : Nat → CoupRank T}
    {args : CoupRank T → Option (NbrArgs T)} {D S : Nat → List Nat} {Y : Nat → Nat → List β}
    {f : Nat → β → Nat → T}
    (hargs : ∀ r < n, args (W r) = some {
      dests := D r, sources := S r
      sendcounts := ((D r).map fun d => (Y r d).length).map fun x => x * ncomp
      sdispls := (exclusiveFrom 0 ((D r).map fun d => (Y r d).length)).map fun x => x * ncomp
      recvcounts := ((S r).map fun s => (Y s r).length).map fun x => x * ncomp
      rdispls := (exclusiveFrom 0 ((S r).map fun s => (Y s r).length)).map fun x => x * ncomp
      sbuf := (W r).stageSend, rbuf := (W r).stageRecv })
    (hsend : ∀ r < n, ∃ rest, (W r).stageSend =
      ((D r).flatMap fun d => coupRows ncomp (Y r d) (f r)) ++ rest)
    (hrecv : ∀ r < n, ((S r).map fun s => (Y s r).length).sum * ncomp ≤ (W r).stageRecv.length)
    (hedges : ∀ q < n, ∀ s ∈ S q, s < n ∧ q ∈ D s) :
    ∃ rest : Nat → List T, coupExchange args ((List.range n).map W) =
      some ((List.range n).map fun r => { W r with
        stageRecv := ((S r).flatMap fun s => coupRows ncomp (Y s r) (f s)) ++ rest r }) := by
  unfold coupExchange
  let K : Nat → NbrArgs T := fun r => {
      dests := D r, sources := S r
      sendcounts := ((D r).map fun d => (Y r d).length).map fun x => x * ncomp
      sdispls := (exclusiveFrom 0 ((D r).map fun d => (Y r d).length)).map fun x => x * ncomp
      recvcounts := ((S r).map fun s => (Y s r).length).map fun x => x * ncomp
      rdispls := (exclusiveFrom 0 ((S r).map fun s => (Y s r).length)).map fun x => x * ncomp
      sbuf := (W r).stageSend, rbuf := (W r).stageRecv }
  rw [mapRanks_table (g := K) hargs, Option.bind_some]
  obtain ⟨rest, hrest⟩ := neighborAlltoallwArgs_le (n := n) (K := K)
    (blk := fun s q => coupRows ncomp (Y s q) (f s))
    { sbuf := hsend
      sendcounts := fun s _ => by
        show ((D s).map fun d => (Y s d).length).map (fun x => x * ncomp) = _
        rw [List.map_map]
        exact List.map_congr_left fun d _ => (length_coupRows _ _ _).symm
      sdispls := fun s _ => by
        show (exclusiveFrom 0 ((D s).map fun d => (Y s d).length)).map (fun x => x * ncomp) = _
        rw [exclusiveFrom_mul, Nat.zero_mul]
      recvcounts := fun q _ => by
        show ((S q).map fun s => (Y s q).length).map (fun x => x * ncomp) = _
        rw [List.map_map]
        exact List.map_congr_left fun d _ => (length_coupRows _ _ _).symm
      rdispls := fun q _ => by
        show (exclusiveFrom 0 ((S q).map fun d => (Y d q).length)).map (fun x => x * ncomp) = _
        rw [exclusiveFrom_mul, Nat.zero_mul]
      rbuf := fun q hq => by
        show (((S q).map fun s => (Y s q).length).map fun x => x * ncomp).sum ≤ _
        rw [List.sum_map_mul_right, List.map_id']
        exact hrecv q hq
      edges := hedges }
  refine ⟨rest, ?_⟩
  rw [hrest, Option.bind_some]
  refine mapRanks_table fun r hr => ?_
  rw [rd_table _ hr, Option.map_some]

theorem flatMap_flatMap_map {α β γ δ : Type} (l : List α) (X : α → List β) (h : α → β → γ)
    (F : γ → List δ) :
    (l.flatMap fun a => (X a).map (h a)).flatMap F = l.flatMap fun a => (X a).flatMap fun b => F (h a b) := by
  induction l with
  | nil => rfl
  | cons a l ih => simp only [List.flatMap_cons, List.flatMap_append, List.flatMap_map, ih]

theorem flatMap_map_map {α β γ δ : Type} (l : List α) (X : α → List β) (h : α → β → γ)
    (F : γ → δ) :
    (l.flatMap fun a => (X a).map (h a)).map F = l.flatMap fun a => (X a).map fun b => F (h a b) := by
  induction l with
  | nil => rfl
  | cons a l ih => simp only [List.flatMap_cons, List.map_append, List.map_map, ih]; rfl

theorem length_flatMap_map {α β γ : Type} (l : List α) (X : α → List β) (h : α → β → γ) :
    (l.flatMap fun a => (X a).map (h a)).length = (l.map fun a => (X a).length).sum := by
  rw [List.length_flatMap]; simp

/-! ## Transfers -/

theorem coupScale_eq {room ncomp : Nat} {v : List Nat} (h : v.length ≤ room) :
    coupScale room ncomp v = some (v.map fun x => x * ncomp) := if_pos h

theorem coupArgsF_closed {T : Type} {X : Nat → Nat → List (Nat × CoupEntry T)}
    {D S RD RS : Nat → List Nat} {loc : Nat → Int → Nat} {cA cB : Nat → Nat} {send recv : Nat → List T}
    (ncomp r : Nat) :
    coupArgsF ncomp (coupClosed X D S RD RS loc cA cB send recv r) = some {
      dests := D r, sources := S r
      sendcounts := ((D r).map fun d => (X r d).length).map fun x => x * ncomp
      sdispls := (exclusiveFrom 0 ((D r).map fun d => (X r d).length)).map fun x => x * ncomp
      recvcounts := ((S r).map fun s => (X s r).length).map fun x => x * ncomp
      rdispls := (exclusiveFrom 0 ((S r).map fun s => (X s r).length)).map fun x => x * ncomp
      sbuf := send r, rbuf := recv r } := by
  unfold coupArgsF coupClosed
  simp only
  rw [coupScale_eq (by simp), coupScale_eq (by simp [length_exclusiveFrom]), coupScale_eq (by simp),
    coupScale_eq (by simp [length_exclusiveFrom])]
  rfl

theorem coupArgsB_closed {T : Type} {n : Nat} {X : Nat → Nat → List (Nat × CoupEntry T)}
    {D S RD RS : Nat → List Nat} (hnet : CoupNet n X D S RD RS)
    {loc : Nat → Int → Nat} {cA cB : Nat → Nat} {send recv : Nat → List T}
    (ncomp : Nat) {r : Nat} (hr : r < n) :
    coupArgsB ncomp (coupClosed X D S RD RS loc cA cB send recv r) = some {
      dests := RD r, sources := RS r
      sendcounts := ((RD r).map fun s => (X s r).length).map fun x => x * ncomp
      sdispls := (exclusiveFrom 0 ((RD r).map fun s => (X s r).length)).map fun x => x * ncomp
      recvcounts := ((RS r).map fun d => (X r d).length).map fun x => x * ncomp
      rdispls := (exclusiveFrom 0 ((RS r).map fun d => (X r d).length)).map fun x => x * ncomp
      sbuf := send r, rbuf := recv r } := by
  have h1 := (hnet.revDests r hr).length_eq
  have h2 := (hnet.revSources r hr).length_eq
  unfold coupArgsB coupClosed
  simp only
  rw [coupScale_eq (by simp [h1]), coupScale_eq (by simp [length_exclusiveFrom, h1]),
    coupScale_eq (by simp [h2]), coupScale_eq (by simp [length_exclusiveFrom, h2])]
  rfl

theorem sum_perm_length {T : Type} {l l' : List Nat} (h : l.Perm l') (X : Nat → List T) :
    (l.map fun d => (X d).length).sum = (l'.map fun d => (X d).length).sum :=
  (h.map _).sum_eq

theorem filter_flatMap_map {α β γ : Type} (l : List α) (X : α → List β) (h : α → β → γ) (p : γ → Bool) :
    (l.flatMap fun a => (X a).map (h a)).filter p =
      l.flatMap fun a => ((X a).filter fun b => p (h a b)).map (h a) := by
  induction l with
  | nil => rfl
  | cons a l ih => simp only [List.flatMap_cons, List.filter_append, ih, List.filter_map]; rfl

theorem sum_flatMap_map {T α β γ : Type} [AddCommMonoid T] (l : List α) (X : α → List β) (h : α → β → γ)
    (F : γ → T) :
    ((l.flatMap fun a => (X a).map (h a)).map F).sum =
      (l.map fun a => ((X a).map fun b => F (h a b)).sum).sum := by
  induction l with
  | nil => rfl
  | cons a l ih =>
    simp only [List.flatMap_cons, List.map_append, List.sum_append, List.map_cons, List.sum_cons, ih,
      List.map_map]
    rfl

theorem getElem?_map_zero {T : Type} [Zero T] (d : List T) (k : Nat) :
    (d.map fun _ => (0 : T))[k]? = if k < d.length then some 0 else none := by
  rw [List.getElem?_map]
  by_cases h : k < d.length
  · rw [List.getElem?_eq_getElem h, if_pos h]; rfl
  · rw [List.getElem?_eq_none (by omega), if_neg h]; rfl

/-- A forward transfer from any state a coupler can be in. -/
theorem couplerForward_closed {T : Type} [CommSemiring T] {n ncomp : Nat}
    {X : Nat → Nat → List (Nat × CoupEntry T)}
    {D S RD RS : Nat → List Nat} (hnet : CoupNet n X D S RD RS)
    {loc : Nat → Int → Nat} {cA cB : Nat → Nat} (send recv : Nat → List T) {dA dB : Nat → List T}
    (hnc : 0 < ncomp) (hA : ∀ r < n, cA r * ncomp ≤ (dA r).length)
    (hB : ∀ r < n, cB r * ncomp ≤ (dB r).length)
    (hXa : ∀ s < n, ∀ q < n, ∀ p ∈ X s q, p.1 < cA s)
    (hXb : ∀ s < n, ∀ q < n, ∀ p ∈ X s q, loc q p.2.cell < cB q) :
    ∃ send' recv' out, couplerForward ncomp
        ((List.range n).map (coupClosed X D S RD RS loc cA cB send recv))
        ((List.range n).map dA) ((List.range n).map dB) =
      some ((List.range n).map (coupClosed X D S RD RS loc cA cB send' recv'), (List.range n).map out) ∧
      ∀ q < n, (out q).length = (dB q).length ∧
        (∀ i, i < cB q → ∀ c < ncomp, (out q)[i * ncomp + c]? = some ((S q).map fun s =>
          (((X s q).filter fun p => loc q p.2.cell = i).map fun p =>
            ((dA s)[p.1 * ncomp + c]?).getD 0 * p.2.fwd).sum).sum) ∧
        ∀ k v, cB q * ncomp ≤ k → (out q)[k]? = some v → v = 0 := by
  have hDn : ∀ s < n, ∀ d ∈ D s, d < n := fun s hs d hd => ((hnet.dests s hs d).1 hd).1
  have hSn : ∀ q < n, ∀ s ∈ S q, s < n := fun q hq s hs => ((hnet.sources q hq s).1 hs).1
  let f : Nat → Nat × CoupEntry T → Nat → T := fun s p c => ((dA s)[p.1 * ncomp + c]?).getD 0 * p.2.fwd
  let grow : (Nat → List T) → Nat → List T := fun v r => coupGrow (ncomp * max
    ((D r).map fun d => (X r d).length).sum ((RD r).map fun s => (X s r).length).sum) (v r)
  -- packing
  have hpack : ∀ r, ∃ b, r < n → (coupPackA ncomp (dA r)
      (coupClosed X D S RD RS loc cA cB (grow send) (grow recv) r) =
        some { coupClosed X D S RD RS loc cA cB (grow send) (grow recv) r with stageSend := b }) ∧
      ∃ rest, b = ((D r).flatMap fun d => coupRows ncomp (X r d) (f r)) ++ rest := by
    intro r
    by_cases hr : r < n
    · obtain ⟨rest, hrest⟩ := writeRows ((D r).flatMap fun d => (X r d).map fun p => p) (f r)
        (grow send r) (fun x out =>
          (rd ((D r).flatMap fun d => (X r d).map fun p => p.1) x.1).bind fun i =>
          (rd ((D r).flatMap fun d => (X r d).map fun p => p.2.fwd) x.1).bind fun weight =>
          (rd (dA r) (i * ncomp + x.2)).bind fun v => st out (x.1 * ncomp + x.2) (v * weight))
        (fun x o z hz hx => by
          have e1 : ((D r).flatMap fun d => (X r d).map fun p => p.1) =
              ((D r).flatMap fun d => (X r d).map fun p => p).map fun p => p.1 := by
            rw [flatMap_map_map]
          have e2 : ((D r).flatMap fun d => (X r d).map fun p => p.2.fwd) =
              ((D r).flatMap fun d => (X r d).map fun p => p).map fun p => p.2.fwd := by
            rw [flatMap_map_map]
          have hz1 : z.1 < cA r := by
            obtain ⟨d, hd, hz⟩ := List.mem_flatMap.1 (List.mem_of_getElem? hz)
            exact hXa r hr d (hDn r hr d hd) z (by simpa using hz)
          have hlt : z.1 * ncomp + x.2 < (dA r).length :=
            Nat.lt_of_lt_of_le (row_lt hx hz1) (hA r hr)
          simp only [rd, e1, e2, List.getElem?_map, hz, Option.map_some, Option.bind_some, f]
          rw [List.getElem?_eq_getElem hlt]
          rfl)
        (by
          rw [length_flatMap_map]
          refine Nat.le_trans ?_ (length_coupGrow _ _)
          rw [Nat.mul_comm]
          exact Nat.mul_le_mul_left _ (Nat.le_max_left _ _))
      refine ⟨_, fun _ => ⟨?_, rest, rfl⟩⟩
      unfold coupPackA
      have hl : ((D r).flatMap fun d => (X r d).map fun p => p.1).length =
          ((D r).flatMap fun d => (X r d).map fun p => p).length := by
        rw [length_flatMap_map, length_flatMap_map]
      simp only [coupClosed]
      rw [hl, hrest, Option.map_some, flatMap_flatMap_map]
      rfl
    · exact ⟨[], fun h => absurd h hr⟩
  obtain ⟨sb, hsb⟩ := Classical.axiomOfChoice hpack
  have hstep1 : (mapRanks ((List.range n).map (coupClosed X D S RD RS loc cA cB send recv)) fun r a =>
      (rd ((List.range n).map dA) r).bind fun dA => (rd ((List.range n).map dB) r).bind fun dB =>
      (coupPrepare ncomp a).bind fun a =>
      if coupSizes ncomp a dA dB then coupPackA ncomp dA a else none) =
      some ((List.range n).map (coupClosed X D S RD RS loc cA cB sb (grow recv))) := by
    refine mapRanks_table fun r hr => ?_
    rw [rd_table _ hr, Option.bind_some, rd_table _ hr, Option.bind_some]
    unfold coupPrepare
    rw [if_pos hnc, Option.bind_some, if_pos ⟨hA r hr, hB r hr⟩]
    exact (hsb r hr).1
  -- exchange
  obtain ⟨rest, hrest⟩ := coupExchange_eq (n := n) (ncomp := ncomp)
    (W := coupClosed X D S RD RS loc cA cB sb (grow recv)) (args := coupArgsF ncomp)
    (D := D) (S := S) (Y := X) (f := f)
    (fun r _ => coupArgsF_closed ncomp r) (fun r hr => (hsb r hr).2)
    (fun r hr => by
      refine Nat.le_trans ?_ (length_coupGrow _ _)
      rw [Nat.mul_comm, ← sum_perm_length (hnet.revDests r hr)]
      exact Nat.mul_le_mul_left _ (Nat.le_max_right _ _))
    (fun q hq s hs => by
      obtain ⟨h1, h2⟩ := (hnet.sources q hq s).1 hs
      exact ⟨h1, (hnet.dests s h1 q).2 ⟨hq, h2⟩⟩)
  let rb : Nat → List T := fun r => ((S r).flatMap fun s => coupRows ncomp (X s r) (f s)) ++ rest r
  -- adding
  have hadd : ∀ q, ∃ out, q < n → coupAddB ncomp (coupClosed X D S RD RS loc cA cB sb rb q) (dB q) =
      some out ∧ out.length = (dB q).length ∧
      (∀ i, i < cB q → ∀ c < ncomp, out[i * ncomp + c]? = some ((S q).map fun s =>
        (((X s q).filter fun p => loc q p.2.cell = i).map fun p =>
          ((dA s)[p.1 * ncomp + c]?).getD 0 * p.2.fwd).sum).sum) ∧
      ∀ k v, cB q * ncomp ≤ k → out[k]? = some v → v = 0 := by
    intro q
    by_cases hq : q < n
    · let Z := (S q).flatMap fun s => (X s q).map fun p => (s, p)
      have hZm : ∀ z ∈ Z, z.1 < n ∧ z.2 ∈ X z.1 q := by
        intro z hz
        obtain ⟨s, hs, hz⟩ := List.mem_flatMap.1 hz
        obtain ⟨p, hp, rfl⟩ := List.mem_map.1 hz
        exact ⟨hSn q hq s hs, hp⟩
      obtain ⟨out, h1, h2, h3, h4⟩ := addRows (ncomp := ncomp) Sched.inOrder Z
        (fun z => loc q z.2.2.cell) (fun z c => f z.1 z.2 c) ((dB q).map fun _ => (0 : T))
        (fun x out =>
          (rd (((S q).flatMap fun s => (X s q).map fun p => p.2.cell).map (loc q)) x.1).bind fun i =>
          (rd (rb q) (x.1 * ncomp + x.2)).bind fun v =>
          (rd out (i * ncomp + x.2)).bind fun old => st out (i * ncomp + x.2) (old + v))
        (fun x o z hz hx => by
          have e1 : (((S q).flatMap fun s => (X s q).map fun p => p.2.cell).map (loc q)) =
              Z.map fun z => loc q z.2.2.cell := by
            simp only [Z]
            rw [flatMap_map_map, flatMap_map_map]
          have e2 : rb q = (Z.flatMap fun z => (List.range ncomp).map fun c => f z.1 z.2 c) ++ rest q := by
            simp only [rb, Z]
            rw [flatMap_flatMap_map]
            rfl
          have hzl := (List.getElem?_eq_some_iff.1 hz).1
          have e3 : (rb q)[x.1 * ncomp + x.2]? = some (f z.1 z.2 x.2) := by
            rw [e2, List.getElem?_append_left (by rw [length_rows]; exact row_lt hx hzl)]
            exact getElem?_rows (f := fun z c => f z.1 z.2 c) hz hx
          simp only [rd] at *
          rw [e1, List.getElem?_map, hz, Option.map_some, Option.bind_some, e3, Option.bind_some])
        (fun z hz c hc => by
          rw [List.length_map]
          obtain ⟨a1, a2⟩ := hZm z hz
          exact Nat.lt_of_lt_of_le (row_lt hc (hXb _ a1 q hq _ a2)) (hB q hq))
      refine ⟨out, fun _ => ⟨?_, by rw [h2, List.length_map], fun i hi c hc => ?_, fun k v hk hv => ?_⟩⟩
      · have hl : (((S q).flatMap fun s => (X s q).map fun p => p.2.cell).map (loc q)).length =
            Z.length := by
          simp only [Z]
          rw [List.length_map, length_flatMap_map, length_flatMap_map]
        unfold coupAddB
        simp only [coupClosed]
        rw [hl]
        exact h1
      · rw [h3 i c hc, getElem?_map_zero, if_pos (Nat.lt_of_lt_of_le (row_lt hc hi) (hB q hq)),
          Option.map_some, zero_add]
        congr 1
        simp only [Z]
        rw [filter_flatMap_map, sum_flatMap_map]
      · rw [h4 k fun z hz c hc => by
          obtain ⟨a1, a2⟩ := hZm z hz
          have := row_lt hc (hXb _ a1 q hq _ a2)
          omega, getElem?_map_zero] at hv
        split at hv
        · exact (Option.some.inj hv).symm
        · cases hv
    · exact ⟨[], fun h => absurd h hq⟩
  obtain ⟨out, hout⟩ := Classical.axiomOfChoice hadd
  refine ⟨sb, rb, out, ?_, fun q hq => (hout q hq).2⟩
  unfold couplerForward
  rw [hstep1, Option.bind_some, hrest, Option.bind_some]
  rw [mapRanks_table (g := out) fun r hr => by
    rw [rd_table _ hr, Option.bind_some]
    exact (hout r hr).1, Option.map_some]
  rfl

/-- A backward transfer from any state a coupler can be in. -/
theorem couplerBackward_closed {T : Type} [CommSemiring T] {n ncomp : Nat}
    {X : Nat → Nat → List (Nat × CoupEntry T)}
    {D S RD RS : Nat → List Nat} (hnet : CoupNet n X D S RD RS)
    {loc : Nat → Int → Nat} {cA cB : Nat → Nat} (send recv : Nat → List T) {dA dB : Nat → List T}
    (hnc : 0 < ncomp) (hA : ∀ r < n, cA r * ncomp ≤ (dA r).length)
    (hB : ∀ r < n, cB r * ncomp ≤ (dB r).length)
    (hXa : ∀ s < n, ∀ q < n, ∀ p ∈ X s q, p.1 < cA s)
    (hXb : ∀ s < n, ∀ q < n, ∀ p ∈ X s q, loc q p.2.cell < cB q) :
    ∃ send' recv' out, couplerBackward ncomp
        ((List.range n).map (coupClosed X D S RD RS loc cA cB send recv))
        ((List.range n).map dB) ((List.range n).map dA) =
      some ((List.range n).map (coupClosed X D S RD RS loc cA cB send' recv'), (List.range n).map out) ∧
      ∀ r < n, (out r).length = (dA r).length ∧
        (∀ i, i < cA r → ∀ c < ncomp, (out r)[i * ncomp + c]? = some ((RS r).map fun d =>
          (((X r d).filter fun p => p.1 = i).map fun p =>
            ((dB d)[loc d p.2.cell * ncomp + c]?).getD 0 * p.2.bwd).sum).sum) ∧
        ∀ k v, cA r * ncomp ≤ k → (out r)[k]? = some v → v = 0 := by
  have hRD : ∀ q < n, ∀ s ∈ RD q, s < n ∧ X s q ≠ [] := fun q hq s hs =>
    (hnet.sources q hq s).1 ((hnet.revDests q hq).mem_iff.1 hs)
  have hRS : ∀ r < n, ∀ d ∈ RS r, d < n ∧ X r d ≠ [] := fun r hr d hd =>
    (hnet.dests r hr d).1 ((hnet.revSources r hr).mem_iff.1 hd)
  let f : Nat → Nat × CoupEntry T → Nat → T := fun d p c => ((dB d)[loc d p.2.cell * ncomp + c]?).getD 0
  let grow : (Nat → List T) → Nat → List T := fun v r => coupGrow (ncomp * max
    ((D r).map fun d => (X r d).length).sum ((RD r).map fun s => (X s r).length).sum) (v r)
  -- packing
  have hpack : ∀ r, ∃ b, r < n → (coupPackB ncomp (dB r)
      (coupClosed X D S RD RS loc cA cB (grow send) (grow recv) r) =
        some { coupClosed X D S RD RS loc cA cB (grow send) (grow recv) r with stageSend := b }) ∧
      ∃ rest, b = ((RD r).flatMap fun s => coupRows ncomp (X s r) (f r)) ++ rest := by
    intro r
    by_cases hr : r < n
    · obtain ⟨rest, hrest⟩ := writeRows ((RD r).flatMap fun s => (X s r).map fun p => p) (f r)
        (grow send r) (fun x out =>
          (rd (((RD r).flatMap fun s => (X s r).map fun p => p.2.cell).map (loc r)) x.1).bind fun i =>
          (rd (dB r) (i * ncomp + x.2)).bind fun v => st out (x.1 * ncomp + x.2) v)
        (fun x o z hz hx => by
          have e1 : (((RD r).flatMap fun s => (X s r).map fun p => p.2.cell).map (loc r)) =
              ((RD r).flatMap fun s => (X s r).map fun p => p).map fun p => loc r p.2.cell := by
            rw [flatMap_map_map, flatMap_map_map]
          have hz1 : loc r z.2.cell < cB r := by
            obtain ⟨s, hs, hz⟩ := List.mem_flatMap.1 (List.mem_of_getElem? hz)
            exact hXb s (hRD r hr s hs).1 r hr z (by simpa using hz)
          have hlt : loc r z.2.cell * ncomp + x.2 < (dB r).length :=
            Nat.lt_of_lt_of_le (row_lt hx hz1) (hB r hr)
          simp only [rd, e1, List.getElem?_map, hz, Option.map_some, Option.bind_some, f]
          rw [List.getElem?_eq_getElem hlt]
          rfl)
        (by
          rw [length_flatMap_map]
          refine Nat.le_trans ?_ (length_coupGrow _ _)
          rw [Nat.mul_comm]
          exact Nat.mul_le_mul_left _ (Nat.le_max_right _ _))
      refine ⟨_, fun _ => ⟨?_, rest, rfl⟩⟩
      unfold coupPackB
      have hl : (((RD r).flatMap fun s => (X s r).map fun p => p.2.cell).map (loc r)).length =
          ((RD r).flatMap fun s => (X s r).map fun p => p).length := by
        rw [List.length_map, length_flatMap_map, length_flatMap_map]
      simp only [coupClosed]
      rw [hl, hrest, Option.map_some, flatMap_flatMap_map]
      rfl
    · exact ⟨[], fun h => absurd h hr⟩
  obtain ⟨sb, hsb⟩ := Classical.axiomOfChoice hpack
  have hstep1 : (mapRanks ((List.range n).map (coupClosed X D S RD RS loc cA cB send recv)) fun r a =>
      (rd ((List.range n).map dA) r).bind fun dA => (rd ((List.range n).map dB) r).bind fun dB =>
      (coupPrepare ncomp a).bind fun a =>
      if coupSizes ncomp a dA dB then coupPackB ncomp dB a else none) =
      some ((List.range n).map (coupClosed X D S RD RS loc cA cB sb (grow recv))) := by
    refine mapRanks_table fun r hr => ?_
    rw [rd_table _ hr, Option.bind_some, rd_table _ hr, Option.bind_some]
    unfold coupPrepare
    rw [if_pos hnc, Option.bind_some, if_pos ⟨hA r hr, hB r hr⟩]
    exact (hsb r hr).1
  -- exchange
  obtain ⟨rest, hrest⟩ := coupExchange_eq (n := n) (ncomp := ncomp)
    (W := coupClosed X D S RD RS loc cA cB sb (grow recv)) (args := coupArgsB ncomp)
    (D := RD) (S := RS) (Y := fun s q => X q s) (f := f)
    (fun r hr => coupArgsB_closed hnet ncomp hr) (fun r hr => (hsb r hr).2)
    (fun r hr => by
      refine Nat.le_trans ?_ (length_coupGrow _ _)
      rw [Nat.mul_comm, sum_perm_length (hnet.revSources r hr)]
      exact Nat.mul_le_mul_left _ (Nat.le_max_left _ _))
    (fun q hq s hs => by
      obtain ⟨h1, h2⟩ := hRS q hq s hs
      exact ⟨h1, (hnet.revDests s h1).mem_iff.2 ((hnet.sources s h1 q).2 ⟨hq, h2⟩)⟩)
  let rb : Nat → List T := fun r => ((RS r).flatMap fun d => coupRows ncomp (X r d) (f d)) ++ rest r
  -- adding
  have hadd : ∀ r, ∃ out, r < n → coupAddA ncomp (coupClosed X D S RD RS loc cA cB sb rb r) (dA r) =
      some out ∧ out.length = (dA r).length ∧
      (∀ i, i < cA r → ∀ c < ncomp, out[i * ncomp + c]? = some ((RS r).map fun d =>
        (((X r d).filter fun p => p.1 = i).map fun p =>
          ((dB d)[loc d p.2.cell * ncomp + c]?).getD 0 * p.2.bwd).sum).sum) ∧
      ∀ k v, cA r * ncomp ≤ k → out[k]? = some v → v = 0 := by
    intro r
    by_cases hr : r < n
    · let Z := (RS r).flatMap fun d => (X r d).map fun p => (d, p)
      have hZm : ∀ z ∈ Z, z.1 < n ∧ z.2 ∈ X r z.1 := by
        intro z hz
        obtain ⟨s, hs, hz⟩ := List.mem_flatMap.1 hz
        obtain ⟨p, hp, rfl⟩ := List.mem_map.1 hz
        exact ⟨(hRS r hr s hs).1, hp⟩
      obtain ⟨out, h1, h2, h3, h4⟩ := addRows (ncomp := ncomp) Sched.inOrder Z
        (fun z => z.2.1) (fun z c => f z.1 z.2 c * z.2.2.bwd) ((dA r).map fun _ => (0 : T))
        (fun x out =>
          (rd ((RS r).flatMap fun d => (X r d).map fun p => p.1) x.1).bind fun i =>
          (rd ((RS r).flatMap fun d => (X r d).map fun p => p.2.bwd) x.1).bind fun weight =>
          (rd (rb r) (x.1 * ncomp + x.2)).bind fun v =>
          (rd out (i * ncomp + x.2)).bind fun old => st out (i * ncomp + x.2) (old + v * weight))
        (fun x o z hz hx => by
          have e1 : ((RS r).flatMap fun d => (X r d).map fun p => p.1) = Z.map fun z => z.2.1 := by
            simp only [Z]
            rw [flatMap_map_map]
          have e1' : ((RS r).flatMap fun d => (X r d).map fun p => p.2.bwd) =
              Z.map fun z => z.2.2.bwd := by
            simp only [Z]
            rw [flatMap_map_map]
          have e2 : rb r = (Z.flatMap fun z => (List.range ncomp).map fun c => f z.1 z.2 c) ++ rest r := by
            simp only [rb, Z]
            rw [flatMap_flatMap_map]
            rfl
          have hzl := (List.getElem?_eq_some_iff.1 hz).1
          have e3 : (rb r)[x.1 * ncomp + x.2]? = some (f z.1 z.2 x.2) := by
            rw [e2, List.getElem?_append_left (by rw [length_rows]; exact row_lt hx hzl)]
            exact getElem?_rows (f := fun z c => f z.1 z.2 c) hz hx
          simp only [rd] at *
          rw [e1, e1', List.getElem?_map, List.getElem?_map, hz, Option.map_some, Option.map_some,
            Option.bind_some, Option.bind_some, e3, Option.bind_some])
        (fun z hz c hc => by
          rw [List.length_map]
          obtain ⟨a1, a2⟩ := hZm z hz
          exact Nat.lt_of_lt_of_le (row_lt hc (hXa r hr _ a1 _ a2)) (hA r hr))
      refine ⟨out, fun _ => ⟨?_, by rw [h2, List.length_map], fun i hi c hc => ?_, fun k v hk hv => ?_⟩⟩
      · have hl : ((RS r).flatMap fun d => (X r d).map fun p => p.1).length = Z.length := by
          simp only [Z]
          rw [length_flatMap_map, length_flatMap_map]
        unfold coupAddA
        simp only [coupClosed]
        rw [hl]
        exact h1
      · rw [h3 i c hc, getElem?_map_zero, if_pos (Nat.lt_of_lt_of_le (row_lt hc hi) (hA r hr)),
          Option.map_some, zero_add]
        congr 1
        simp only [Z]
        rw [filter_flatMap_map, sum_flatMap_map]
      · rw [h4 k fun z hz c hc => by
          obtain ⟨a1, a2⟩ := hZm z hz
          have := row_lt hc (hXa r hr _ a1 _ a2)
          omega, getElem?_map_zero] at hv
        split at hv
        · exact (Option.some.inj hv).symm
        · cases hv
    · exact ⟨[], fun h => absurd h hr⟩
  obtain ⟨out, hout⟩ := Classical.axiomOfChoice hadd
  refine ⟨sb, rb, out, ?_, fun q hq => (hout q hq).2⟩
  unfold couplerBackward
  rw [hstep1, Option.bind_some, hrest, Option.bind_some]
  rw [mapRanks_table (g := out) fun r hr => by
    rw [rd_table _ hr, Option.bind_some]
    exact (hout r hr).1, Option.map_some]
  rfl

end NP
