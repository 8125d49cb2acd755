import Verif.Move.LemmasPackSpec
import Verif.Group.LemmasCellMove

/-! # What is unpacked -/

set_option autoImplicit false

namespace NP

open Spec

/-! ## The receive buffer -/

/-- Offsets of consecutive messages. -/
def recvOffsets (W : Nat) : Nat → List Nat → List Nat
  | _, [] => []
  | k, n :: ns => (k * W) :: recvOffsets W (k + n) ns

theorem unpackReset_foldl (W : Nat) (nparts : List Nat) : ∀ (acc : List Nat) (k : Nat),
    nparts.foldl (fun s n => (s.1 ++ [s.2 * W], s.2 + n)) (acc, k) =
      (acc ++ recvOffsets W k nparts, k + nparts.sum) := by
  induction nparts with
  | nil => intro acc k; simp [recvOffsets]
  | cons n ns ih =>
    intro acc k
    rw [List.foldl_cons, ih, List.sum_cons]
    simp [recvOffsets, Nat.add_assoc]

theorem unpackReset_eq (W : Nat) (nparts : List Nat) :
    unpackReset W nparts = (recvOffsets W 0 nparts, nparts.sum) := by
  unfold unpackReset
  rw [unpackReset_foldl]
  simp

theorem recv_stores (W : Nat) (nparts : List Nat) : ∀ (k : Nat) (msgs : List (List Int))
    (pre rest : List Int), msgs.map List.length = nparts.map (· * W) → pre.length = k * W →
    rest.length = nparts.sum * W →
    runItems (fun (om : Nat × List Int) buf => stRange buf om.1 om.2)
      ((recvOffsets W k nparts).zip msgs) (pre ++ rest) = some (pre ++ msgs.flatten) := by
  induction nparts with
  | nil =>
    intro k msgs pre rest h1 h2 h3
    have hm : msgs = [] := by simpa using h1
    have hr : rest = [] := by simpa using h3
    subst hm; subst hr
    rfl
  | cons n ns ih =>
    intro k msgs pre rest h1 h2 h3
    cases msgs with
    | nil => simp at h1
    | cons m ms =>
      simp only [List.map_cons, List.cons.injEq] at h1
      rw [List.sum_cons, Nat.add_mul] at h3
      rw [recvOffsets, List.zip_cons_cons, runItems_cons, stRange_eq_some (by
        dsimp only
        rw [List.length_append]; omega), Option.bind_some]
      have := ih (k + n) ms (pre ++ m) (rest.drop m.length) h1.2
        (by rw [List.length_append, Nat.add_mul]; omega) (by rw [List.length_drop]; omega)
      rw [List.flatten_cons, ← List.append_assoc, ← this]
      congr 1
      dsimp only
      rw [← h2, List.take_left, List.drop_append, List.drop_eq_nil_of_le (by omega),
        Nat.add_sub_cancel_left, List.nil_append]

/-- The received messages are behind each other in the buffer. -/
theorem recvBuffer_spec (e : Env) {W : Nat} {nparts : List Nat} {msgs : List (List Int)}
    (h : msgs.map List.length = nparts.map (· * W)) :
    recvBuffer e W nparts.sum (recvOffsets W 0 nparts) msgs = some msgs.flatten := by
  unfold recvBuffer
  have := recv_stores W nparts 0 msgs [] (e.freshI 37 (nparts.sum * W)).1 h (by simp)
    (e.freshI 37 _).2
  simpa using this

/-! ## New rows in cell 0 -/

theorem unpackRealloc_spec {e : Env} {ncell n : Nat} {N : List Nat} {m : Mem} {d : Dat}
    (h : DatMem ncell m d) (hc : 0 < ncell) (hN : N.length = ncell) (hh : d.hNpart = N)
    (hd : d.dNpart = N) :
    ∃ m' d', unpackRealloc e n (m, d) = some (m', d') ∧ DatMem ncell m' d' ∧
      d'.nrow = d.nrow.set 0 n ∧ d'.sym = d.sym ∧ d'.ncomp = d.ncomp ∧
      d'.hNpart = N.set 0 n ∧ d'.dNpart = N.set 0 n ∧
      (∀ k, ¬ (k.sym = d.sym ∧ k.cell = 0) → m' k = m k) ∧
      (∀ k r, k.sym = d.sym → k.cell = 0 → k.comp < d.ncomp → d.nrow[0]? = some r → k.row < r →
        k.row < n → m' k = m k) := by
  obtain ⟨m', d', a1, a2, a3, a4, a5, a6, a7, a8, a9⟩ := setNrow_spec (e := e) (req := n) h hc
  unfold unpackRealloc
  rw [a1]
  simp only [Option.bind_some]
  rw [a6, a7, hh, hd, st_eq_some (by omega)]
  simp only [Option.bind_some]
  exact ⟨m', _, rfl, ⟨a2.nrow_len, a2.alloc_len, a2.le, a2.alloc⟩, a3, a4, a5, rfl, rfl, a8, a9⟩

/-- What `mapDats (unpackRealloc ..)` does to one dat. -/
structure Grown (n : Nat) (N : List Nat) (d d' : Dat) : Prop where
  sym : d'.sym = d.sym
  ncomp : d'.ncomp = d.ncomp
  host : d'.hNpart = N.set 0 n
  device : d'.dNpart = N.set 0 n
  nrow : d'.nrow = d.nrow.set 0 n

theorem mapDats_unpackRealloc {e : Env} {ncell n : Nat} {N : List Nat} {m : Mem} {dats : List Dat}
    (h : ∀ d ∈ dats, DatMem ncell m d) (hnd : (dats.map (·.sym)).Nodup) (hc : 0 < ncell)
    (hN : N.length = ncell) (hh : ∀ d ∈ dats, d.hNpart = N) (hd : ∀ d ∈ dats, d.dNpart = N) :
    ∃ m' dats', mapDats (unpackRealloc e n) dats m = some (m', dats') ∧
      List.Forall₂ (Grown n N) dats dats' ∧
      (∀ d ∈ dats', DatMem ncell m' d) ∧
      (∀ k, k.sym ∉ dats.map (·.sym) ∨ k.cell ≠ 0 → m' k = m k) ∧
      (∀ d ∈ dats, ∀ k r, k.sym = d.sym → k.cell = 0 → k.comp < d.ncomp → d.nrow[0]? = some r →
        k.row < r → k.row < n → m' k = m k) := by
  induction dats generalizing m with
  | nil => exact ⟨m, [], rfl, .nil, by simp, by simp, by simp⟩
  | cons d ds ih =>
    rw [List.map_cons, List.nodup_cons] at hnd
    obtain ⟨m1, d1, a1, a2, a3, a4, a5, a6, a7, a8, a9⟩ := unpackRealloc_spec (e := e) (n := n)
      (h d List.mem_cons_self) hc hN (hh d List.mem_cons_self) (hd d List.mem_cons_self)
    have hsym : ∀ d' ∈ ds, d'.sym ≠ d.sym := by
      intro d' hd' he
      exact hnd.1 (he ▸ List.mem_map_of_mem hd')
    obtain ⟨m2, ds2, b1, b2, b3, b4, b5⟩ := ih (m := m1)
      (fun d' hd' => (h d' (List.mem_cons_of_mem d hd')).congr
        (fun k hk => a8 k (fun hx => hsym d' hd' (hk.symm.trans hx.1)))) hnd.2
      (fun d' hd' => hh d' (List.mem_cons_of_mem d hd'))
      (fun d' hd' => hd d' (List.mem_cons_of_mem d hd'))
    refine ⟨m2, d1 :: ds2, ?_, .cons ⟨a4, a5, a6, a7, a3⟩ b2, ?_, ?_, ?_⟩
    · simp only [mapDats, a1, Option.bind_some, b1]
    · intro d' hd'
      rcases List.mem_cons.1 hd' with rfl | hd'
      · refine a2.congr (fun k hk => b4 k (Or.inl ?_))
        rw [hk, a4]; exact hnd.1
      · exact b3 d' hd'
    · intro k hk
      rw [List.map_cons, List.mem_cons] at hk
      rw [b4 k (hk.imp (fun hx hy => hx (Or.inr hy)) id),
        a8 k (fun hx => hk.elim (fun hy => hy (Or.inl hx.1)) (fun hy => hy hx.2))]
    · intro d' hd' k r hs hcell hcomp hr hrow hlt
      rcases List.mem_cons.1 hd' with rfl | hd'
      · rw [b4 k (Or.inl (by rw [hs]; exact hnd.1))]
        exact a9 k r hs hcell hcomp hr hrow hlt
      · rw [b5 d' hd' k r hs hcell hcomp hr hrow hlt]
        exact a8 k (fun hx => hsym d' hd' (hs.symm.trans hx.1))

/-- `unpack` adds the particles of the buffer to cell 0. -/
theorem unpack_spec {e : Env} {g : Group} {N : List Nat} (hd : DatsOk g.ncell N g.mem g.dats)
    (hrank : g.rankSym ∈ g.dats.map (·.sym)) (hc : 0 < g.ncell) {ws : List (List Int)}
    (hws : ∀ w ∈ ws, w.length = numWords g.dats) (nReal : Nat) :
    ∃ m' dats', unpack e g nReal ws.length ws.flatten = some { g with mem := m', dats := dats' } ∧
      SameSyms g.dats dats' ∧ DatsOk g.ncell (N.set 0 (N.getD 0 0 + ws.length)) m' dats' ∧
      (∀ d' ∈ dats', ∃ d ∈ g.dats, d'.nrow = d.nrow.set 0 (N.getD 0 0 + ws.length)) ∧
      (∀ sj ∈ flatComps g.dats, ∀ c n k : Nat, N[c]? = some n → k < n →
        m' ⟨sj.1, c, sj.2, k⟩ = g.mem ⟨sj.1, c, sj.2, k⟩) ∧
      ∀ (i : Nat) (w : List Int), ws[i]? = some w →
        ((flatComps g.dats).map fun sj => m' ⟨sj.1, 0, sj.2, N.getD 0 0 + i⟩) = w.map some := by
  obtain ⟨rank, hr1, hr2, -⟩ := dat?_of_mem_syms hrank
  have hN0 : N[0]? = some (N.getD 0 0) := get_getD hd.len hc
  generalize hn0 : N.getD 0 0 = n0 at hN0
  obtain ⟨m1, dats1, b1, b2, b3, b4, b5⟩ := mapDats_unpackRealloc (e := e) (n := n0 + ws.length)
    hd.mem hd.nodup hc hd.len hd.host hd.device
  have hsame : SameSyms g.dats dats1 := b2.imp fun d d' h => ⟨h.sym, h.ncomp⟩
  have hfc := flatComps_congr hsame
  have hnw : numWords dats1 = numWords g.dats := by
    rw [← length_flatComps, hfc, length_flatComps]
  have hd1 : ∀ m2 : Mem, (∀ k, (m1 k).isSome = true → (m2 k).isSome = true) →
      DatsOk g.ncell (N.set 0 (n0 + ws.length)) m2 dats1 := by
    intro m2 hm2
    refine ⟨by rw [List.length_set]; exact hd.len, by rw [syms_congr hsame]; exact hd.nodup,
      fun d hd' => (b3 d hd').congr_isSome hm2, ?_, ?_, ?_⟩
    · intro d' hd'
      obtain ⟨d, -, hg⟩ := forall₂_mem_right b2 hd'
      exact hg.host
    · intro d' hd'
      obtain ⟨d, -, hg⟩ := forall₂_mem_right b2 hd'
      exact hg.device
    · intro d' hd' c n r hn hr
      obtain ⟨d, hdm, hg⟩ := forall₂_mem_right b2 hd'
      rw [hg.nrow, List.getElem?_set] at hr
      rw [List.getElem?_set] at hn
      by_cases h0 : 0 = c
      · subst h0
        rw [if_pos rfl] at hn hr
        rw [if_pos (by rw [hd.len]; exact hc), Option.some.injEq] at hn
        rw [if_pos (by rw [(hd.mem d hdm).nrow_len]; exact hc), Option.some.injEq] at hr
        omega
      · rw [if_neg h0] at hn hr
        exact hd.rows d hdm c n r hn hr
  have hold : ∀ sj ∈ flatComps g.dats, ∀ c n k : Nat, N[c]? = some n → k < n →
      m1 ⟨sj.1, c, sj.2, k⟩ = g.mem ⟨sj.1, c, sj.2, k⟩ := by
    intro sj hsj c n k hn hk
    by_cases h0 : c = 0
    · subst h0
      rw [hN0, Option.some.injEq] at hn
      obtain ⟨d, hdm, e1, e2⟩ := mem_flatComps.1 hsj
      obtain ⟨r, hr⟩ := exists_at (hd.mem d hdm).nrow_len hc
      have := hd.rows d hdm 0 n0 r hN0 hr
      exact b5 d hdm ⟨sj.1, 0, sj.2, k⟩ r e1.symm rfl e2 hr (by dsimp only; omega)
        (by dsimp only; omega)
    · exact b4 _ (Or.inr h0)
  have hnrow : ∀ d' ∈ dats1, ∃ d ∈ g.dats, d'.nrow = d.nrow.set 0 (n0 + ws.length) := by
    intro d' hd'
    obtain ⟨d, hdm, hg⟩ := forall₂_mem_right b2 hd'
    exact ⟨d, hdm, hg.nrow⟩
  unfold unpack
  rw [hr2]
  simp only [Option.bind_some, rd]
  rw [hd.host rank hr1, hN0]
  simp only [Option.bind_some]
  rw [b1]
  simp only [Option.bind_some]
  by_cases h0 : ws.length ≤ 0
  · rw [if_pos h0]
    refine ⟨m1, dats1, rfl, hsame, hd1 m1 (fun _ h => h), hnrow, hold, ?_⟩
    intro i w hw
    have := (List.getElem?_eq_some_iff.1 hw).1
    omega
  · rw [if_neg h0]
    have hit : ∀ it ∈ (e.sched 34).order (packItems dats1 nReal ws.length),
        ∃ (sj : Nat × Nat) (w : List Int) (v : Int),
          (flatComps g.dats)[(packSide dats1 nReal it.1).2 + it.2.2]? = some sj ∧
          ws[it.2.1]? = some w ∧ w[(packSide dats1 nReal it.1).2 + it.2.2]? = some v ∧
          ∀ m, unpackStep dats1 nReal n0 ws.flatten it m =
            mst m ⟨sj.1, 0, sj.2, n0 + it.2.1⟩ v := by
      intro it hi
      rw [((e.sched 34).perm _).mem_iff, mem_packItems] at hi
      obtain ⟨hi1, hi2⟩ := hi
      obtain ⟨sj, w1, w2, w3⟩ := side_word hi2
      rw [hfc] at w1
      rw [hnw] at w3
      have hw : ws[it.2.1]? = some ws[it.2.1] := List.getElem?_eq_getElem hi1
      have hwl := hws _ (List.mem_of_getElem? hw)
      obtain ⟨v, hv⟩ : ∃ v, (ws[it.2.1])[(packSide dats1 nReal it.1).2 + it.2.2]? = some v :=
        ⟨_, List.getElem?_eq_getElem (by rw [hwl]; exact w3)⟩
      refine ⟨sj, ws[it.2.1], v, w1, hw, hv, ?_⟩
      intro m
      unfold unpackStep
      simp only [rd, w2, Option.bind_some]
      rw [hnw, Nat.mul_comm, getElem?_flatten_uniform hws w3, hw, Option.bind_some, hv]
      rfl
    choose! fsj fw fv f1 f2 f3 f4 using hit
    have hwr : ∀ it ∈ (e.sched 34).order (packItems dats1 nReal ws.length),
        (m1 ⟨(fsj it).1, 0, (fsj it).2, n0 + it.2.1⟩).isSome = true := by
      intro it hi
      have h1 := (f1 it hi)
      rw [← hfc] at h1
      refine (hd1 m1 (fun _ h => h)).isSome (List.mem_of_getElem? h1)
        (n := n0 + ws.length) ?_ ?_
      · rw [List.getElem?_set_self (by rw [hd.len]; exact hc)]
      · have := (List.getElem?_eq_some_iff.1 (f2 it hi)).1
        omega
    obtain ⟨m2, q1, q2, q3⟩ := runItems_mem
      (step := unpackStep dats1 nReal n0 ws.flatten)
      (items := (e.sched 34).order (packItems dats1 nReal ws.length)) (m := m1)
      (fun it => some ⟨(fsj it).1, 0, (fsj it).2, n0 + it.2.1⟩) fv
      (fun it hi m' _ => f4 it hi m')
      (by
        intro i hi j hj k h1 h2
        have he := h1.trans h2.symm
        simp only [Option.some.injEq, Key.mk.injEq, true_and] at he
        obtain ⟨e1, e2, e3⟩ := he
        have hij : i.2.1 = j.2.1 := by omega
        have hQ : (packSide dats1 nReal i.1).2 + i.2.2 = (packSide dats1 nReal j.1).2 + j.2.2 := by
          have hlt := (List.getElem?_eq_some_iff.1 (f1 i hi)).1
          refine (List.getElem?_inj hlt (flatComps_nodup hd.nodup)).1 ?_
          rw [f1 i hi, f1 j hj]
          exact congrArg some (Prod.ext e1 e2)
        have hw : fw i = fw j := by
          have a := f2 i hi
          rw [hij, f2 j hj, Option.some.injEq] at a
          exact a.symm
        have a := f3 i hi
        rw [hQ, hw, f3 j hj, Option.some.injEq] at a
        exact a.symm)
      (by
        intro i hi k hk
        simp only [Option.some.injEq] at hk
        subst hk
        exact hwr i hi)
    have hsome : ∀ k, (m1 k).isSome = true → (m2 k).isSome = true := by
      intro k hk
      by_cases hx : ∃ it ∈ (e.sched 34).order (packItems dats1 nReal ws.length),
          (some ⟨(fsj it).1, 0, (fsj it).2, n0 + it.2.1⟩ : Option Key) = some k
      · obtain ⟨it, hi, he⟩ := hx
        rw [q2 it hi k he]; rfl
      · rw [q3 k (fun it hi he => hx ⟨it, hi, he⟩)]; exact hk
    rw [q1]
    simp only [Option.bind_some]
    refine ⟨m2, dats1, rfl, hsame, hd1 m2 hsome, hnrow, ?_, ?_⟩
    · intro sj hsj c n k hn hk
      rw [← hold sj hsj c n k hn hk]
      apply q3
      intro it _ he
      simp only [Option.some.injEq, Key.mk.injEq] at he
      obtain ⟨-, e2, -, e4⟩ := he
      rw [← e2, hN0, Option.some.injEq] at hn
      omega
    · intro i w hw
      have hi : i < ws.length := (List.getElem?_eq_some_iff.1 hw).1
      apply List.ext_getElem?
      intro Q
      have hwl : w.length = numWords g.dats := hws w (List.mem_of_getElem? hw)
      rw [List.getElem?_map, List.getElem?_map]
      by_cases hQ : Q < numWords g.dats
      · obtain ⟨b, q, c1, c2⟩ := side_surj (dats := dats1) nReal (by rw [hnw]; exact hQ)
        have hin : (b, i, q) ∈ (e.sched 34).order (packItems dats1 nReal ws.length) := by
          rw [((e.sched 34).perm _).mem_iff, mem_packItems]
          exact ⟨hi, c1⟩
        have d1 := f1 _ hin
        have d2 := f2 _ hin
        have d3 := f3 _ hin
        have d4 := q2 _ hin _ rfl
        dsimp only at d1 d2 d3 d4
        rw [c2] at d1 d3
        rw [hw, Option.some.injEq] at d2
        rw [d1, d2, d3, Option.map_some, Option.map_some]
        exact congrArg some d4
      · rw [List.getElem?_eq_none (by rw [length_flatComps]; omega),
          List.getElem?_eq_none (by omega)]
        rfl

end NP
