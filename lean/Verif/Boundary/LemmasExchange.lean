import Verif.Boundary.SpecExchange
import Verif.Comm.LemmasExchange
import Verif.Mesh.LemmasNeighbour
import Verif.Mesh.LemmasCart
import Verif.Containers.LemmasCellReduce
import Verif.Basics.Lemmas

/-!
# Lemmas for the exchange of face data: collectives
-/

set_option autoImplicit false

namespace NP

theorem rd_table {A : Type} {n r : Nat} (W : Nat → A) (h : r < n) :
    rd ((List.range n).map W) r = some (W r) := by
  simp [rd, h]

theorem mapRanks_table {A B : Type} {n : Nat} {W : Nat → A} {f : Nat → A → Option B} {g : Nat → B}
    (h : ∀ r < n, f r (W r) = some (g r)) :
    mapRanks ((List.range n).map W) f = some ((List.range n).map g) := by
  unfold mapRanks
  rw [List.length_map, List.length_range]
  refine mapM_of_forall fun r hr => ?_
  rw [rd_table W (List.mem_range.1 hr), Option.bind_some, h r (List.mem_range.1 hr)]

theorem mapRanks_none {A B : Type} {n r : Nat} {W : Nat → A} {f : Nat → A → Option B} (hr : r < n)
    (h : f r (W r) = none) : mapRanks ((List.range n).map W) f = none := by
  unfold mapRanks
  rw [List.length_map, List.length_range]
  cases hm : (List.range n).mapM fun r => (rd ((List.range n).map W) r).bind (f r) with
  | none => rfl
  | some l =>
    exfalso
    have : ∀ (xs : List Nat) (ys : List B) (F : Nat → Option B), xs.mapM F = some ys →
        ∀ x ∈ xs, F x ≠ none := by
      intro xs
      induction xs with
      | nil => intro ys F _ x hx; cases hx
      | cons a xs ih =>
        intro ys F hF x hx
        rw [List.mapM_cons] at hF
        cases ha : F a with
        | none => rw [ha] at hF; simp at hF
        | some b =>
          rw [ha] at hF
          simp only [Option.bind_eq_bind, Option.bind_some] at hF
          cases hrest : xs.mapM F with
          | none => rw [hrest] at hF; simp at hF
          | some bs =>
            rcases List.mem_cons.1 hx with rfl | hx
            · rw [ha]; simp
            · exact ih bs F hrest x hx
    refine this _ _ _ hm r (List.mem_range.2 hr) ?_
    rw [rd_table W hr, Option.bind_some, h]

theorem slice_flatMap {α β : Type} (l : List α) (f : α → List β) (i : Nat) {x : α} (h : l[i]? = some x) :
    slice (l.flatMap f) ((l.map fun y => (f y).length).take i).sum
      (((l.map fun y => (f y).length).take i).sum + (f x).length) = some (f x) := by
  induction l generalizing i with
  | nil => simp at h
  | cons a l ih =>
    cases i with
    | zero =>
      simp only [List.getElem?_cons_zero, Option.some.injEq] at h
      subst h
      rw [List.flatMap_cons, slice_eq_some (by simp) (by simp)]
      simp
    | succ i =>
      simp only [List.getElem?_cons_succ] at h
      have := ih i h
      unfold slice at this ⊢
      simp only [List.map_cons, List.take_succ_cons, List.sum_cons, List.flatMap_cons,
        List.length_append] at this ⊢
      by_cases hc : ((l.map fun y => (f y).length).take i).sum ≤
          ((l.map fun y => (f y).length).take i).sum + (f x).length ∧
          ((l.map fun y => (f y).length).take i).sum + (f x).length ≤ (l.flatMap f).length
      · rw [if_pos hc] at this
        rw [if_pos (by omega), List.drop_append,
          List.drop_eq_nil_of_le (by omega), List.nil_append]
        rw [← this]
        generalize ((l.map fun y => (f y).length).take i).sum = t
        rw [show (f a).length + t + (f x).length - ((f a).length + t) = t + (f x).length - t by omega,
          show (f a).length + t - (f a).length = t by omega]
      · rw [if_neg hc] at this
        cases this

/-- Storing consecutive blocks at their offsets writes their concatenation. -/
theorem forLoop_blocks {α T : Type} (l : List α) (f : α → List T) (step : Nat → List T → Option (List T))
    (buf : List T) (hbuf : buf.length = (l.map fun y => (f y).length).sum)
    (hstep : ∀ j x b, l[j]? = some x →
      step j b = stRange b ((l.map fun y => (f y).length).take j).sum (f x)) :
    forLoop 0 l.length step buf = some (l.flatMap f) := by
  have hflat : (l.flatMap f).length = (l.map fun y => (f y).length).sum := by
    rw [List.length_flatMap]
  obtain ⟨b, h1, h2, h3⟩ := forLoop_invariant (a := 0) (b := l.length) (step := step) (s := buf)
    (P := fun j b => b.length = buf.length ∧
      b.take ((l.map fun y => (f y).length).take j).sum = (l.take j).flatMap f) (Nat.zero_le _)
    (by
      rintro j b - hj ⟨hb, hp⟩
      have hx : l[j]? = some l[j] := List.getElem?_eq_getElem hj
      have hsum : ((l.map fun y => (f y).length).take (j + 1)).sum =
          ((l.map fun y => (f y).length).take j).sum + (f l[j]).length := by
        rw [List.take_add_one]; simp [hx]
      have hle : ((l.map fun y => (f y).length).take (j + 1)).sum ≤ buf.length := by
        rw [hbuf]
        conv_rhs => rw [← List.take_append_drop (j + 1) (l.map fun y => (f y).length)]
        rw [List.sum_append]; omega
      have hlen : ((l.take j).flatMap f).length = ((l.map fun y => (f y).length).take j).sum := by
        rw [List.length_flatMap, ← List.map_take]
      rw [hstep j _ b hx, stRange_eq_some (by omega)]
      refine ⟨_, rfl, ?_, ?_⟩
      · simp only [List.length_append, List.length_take, List.length_drop]
        omega
      · rw [hsum, List.take_append_of_le_length (by simp; omega), hp]
        rw [List.take_of_length_le (by simp [hlen])]
        rw [List.take_add_one (l := l), hx]
        rw [Option.toList_some, List.flatMap_append, List.flatMap_singleton])
    ⟨rfl, by simp⟩
  rw [h1]
  congr 1
  rw [List.take_of_length_le (Nat.le_refl _)] at h3
  rw [← h3, List.take_of_length_le (by
    rw [List.take_of_length_le (by simp)]; omega)]

/-- The arguments of a neighbourhood exchange describe the blocks `blk s q` that each rank
`s` sends to each of its destinations `q`. -/
structure NbrOk {T : Type} (n : Nat) (K : Nat → NbrArgs T) (blk : Nat → Nat → List T) : Prop where
  sbuf : ∀ s < n, (K s).sbuf = (K s).dests.flatMap (blk s)
  sendcounts : ∀ s < n, (K s).sendcounts = (K s).dests.map fun d => (blk s d).length
  sdispls : ∀ s < n, (K s).sdispls = exclusiveFrom 0 (K s).sendcounts
  recvcounts : ∀ q < n, (K q).recvcounts = (K q).sources.map fun s => (blk s q).length
  rdispls : ∀ q < n, (K q).rdispls = exclusiveFrom 0 (K q).recvcounts
  rbuf : ∀ q < n, (K q).rbuf.length = (K q).recvcounts.sum
  edges : ∀ q < n, ∀ s ∈ (K q).sources, s < n ∧ q ∈ (K s).dests

theorem neighborAlltoallwArgs_eq {T : Type} {n : Nat} {K : Nat → NbrArgs T} {blk : Nat → Nat → List T}
    (h : NbrOk n K blk) :
    neighborAlltoallwArgs ((List.range n).map K) =
      some ((List.range n).map fun q => (K q).sources.flatMap fun s => blk s q) := by
  unfold neighborAlltoallwArgs
  refine mapRanks_table fun q hq => ?_
  refine forLoop_blocks (K q).sources (fun s => blk s q) _ _
    (by rw [h.rbuf q hq, h.recvcounts q hq]) fun j s b hj => ?_
  have hjl : j < (K q).sources.length := (List.getElem?_eq_some_iff.1 hj).1
  obtain ⟨hs, hd⟩ := h.edges q hq s (List.mem_of_getElem? hj)
  unfold nbrBlock
  simp only [rd] at *
  rw [hj, Option.bind_some]
  rw [show ((List.range n).map K)[s]? = some (K s) from rd_table K hs, Option.bind_some]
  obtain ⟨i, hi⟩ := Option.isSome_iff_exists.1 (List.isSome_idxOf?.2 hd)
  rw [hi, Option.bind_some]
  obtain ⟨hilt, hig, -⟩ := List.idxOf?_eq_some_iff.1 hi
  replace hig : (K s).dests[i]? = some q := by
    rw [List.getElem?_eq_getElem hilt, hig]
  rw [h.sdispls s hs, h.rdispls q hq, h.sendcounts s hs, h.recvcounts q hq]
  rw [List.getElem?_map, hig, Option.map_some, Option.bind_some,
    getElem?_exclusiveFrom _ _ _ (by simpa using hilt), Option.bind_some, List.getElem?_map, hj,
    Option.map_some, Option.bind_some, getElem?_exclusiveFrom _ _ _ (by simpa using hjl),
    Option.bind_some, if_pos rfl, Nat.zero_add, Nat.zero_add, h.sbuf s hs,
    slice_flatMap _ (blk s) _ hig, Option.bind_some]

end NP
