import Verif.Petsc.LemmasCoupler3

/-!
# C87: transfer of cell values between two meshes
-/

set_option autoImplicit false

namespace NP

open Spec

/-! ## Sums -/

theorem sum_ranks {T : Type} [AddCommMonoid T] {n : Nat} {l : List Nat} (φ : Nat → T) (hnd : l.Nodup)
    (h1 : ∀ s ∈ l, s < n) (h2 : ∀ s < n, s ∉ l → φ s = 0) :
    (l.map φ).sum = ((List.range n).map φ).sum := by
  rw [← List.sum_toFinset φ hnd, ← List.sum_toFinset φ List.nodup_range]
  refine Finset.sum_subset (fun s hs => ?_) fun s hs hn => ?_
  · rw [List.mem_toFinset] at hs ⊢
    exact List.mem_range.2 (h1 s hs)
  · rw [List.mem_toFinset] at hs hn
    exact h2 s (List.mem_range.1 hs) hn

theorem sum_range_ite {T : Type} [AddCommMonoid T] {n k : Nat} (hk : k < n) (v : T) :
    ((List.range n).map fun d => if k = d then v else 0).sum = v := by
  rw [← List.sum_toFinset _ List.nodup_range, Finset.sum_ite_eq]
  rw [if_pos (by simpa using hk)]

theorem sum_map_add {T β : Type} [AddCommMonoid T] (l : List β) (f g : β → T) :
    (l.map fun x => f x + g x).sum = (l.map f).sum + (l.map g).sum := List.sum_map_add

theorem sum_partition {T β : Type} [AddCommMonoid T] {n : Nat} (L : List β) (k : β → Nat) (F : β → T)
    (h : ∀ x ∈ L, k x < n) :
    ((List.range n).map fun d => ((L.filter fun x => k x = d).map F).sum).sum = (L.map F).sum := by
  induction L with
  | nil => simp
  | cons x L ih =>
    have : (fun d => (((x :: L).filter fun x => k x = d).map F).sum) =
        fun d => (if k x = d then F x else 0) + ((L.filter fun x => k x = d).map F).sum := by
      funext d
      rw [List.filter_cons]
      by_cases e : k x = d
      · simp [e]
      · simp [e]
    rw [this, sum_map_add, sum_range_ite (h x (by simp)), ih fun y hy => h y (by simp [hy]),
      List.map_cons, List.sum_cons]

theorem zipIdx_table {A : Type} (n : Nat) (M : Nat → A) :
    ((List.range n).map M).zipIdx = (List.range n).map fun s => (M s, s) := by
  apply List.ext_getElem? fun k => ?_
  rw [List.getElem?_zipIdx, List.getElem?_map, List.getElem?_map]
  by_cases hk : k < n
  · rw [List.getElem?_range hk]; simp
  · rw [List.getElem?_eq_none (by simpa using hk)]; rfl

theorem coupFlat_sum {T V : Type} [AddCommMonoid V] (map : List (List (CoupEntry T)))
    (p : Nat × CoupEntry T → Bool) (F : Nat × CoupEntry T → V) :
    (((coupFlat map).filter p).map F).sum = (map.zipIdx.map fun (es, a) =>
      ((es.filter fun e => p (a, e)).map fun e => F (a, e)).sum).sum := by
  unfold coupFlat
  rw [filter_flatMap_map, sum_flatMap_map]

theorem coupFlat_cell {T : Type} {map : List (List (CoupEntry T))} {a : Nat} {es : List (CoupEntry T)}
    (h : map[a]? = some es) :
    ((coupFlat map).filter fun p => p.1 = a) = es.map fun e => (a, e) := by
  have key : ∀ (map : List (List (CoupEntry T))) (k i : Nat), map[i]? = some es →
      (((map.zipIdx k).flatMap fun p => p.1.map fun e => (p.2, e)).filter fun p => p.1 = k + i) =
        es.map fun e => (k + i, e) := by
    intro map
    induction map with
    | nil => intro k i h; simp at h
    | cons x map ih =>
      intro k i h
      rw [List.zipIdx_cons, List.flatMap_cons, List.filter_append]
      cases i with
      | zero =>
        simp only [List.getElem?_cons_zero, Option.some.injEq] at h
        subst h
        rw [List.filter_eq_self.2, List.filter_eq_nil_iff.2, List.append_nil]
        · rfl
        · intro p hp
          obtain ⟨y, hy, hp⟩ := List.mem_flatMap.1 hp
          obtain ⟨e, -, rfl⟩ := List.mem_map.1 hp
          have := (List.mem_zipIdx hy).1
          simp only [decide_eq_true_eq]
          omega
        · intro p hp
          obtain ⟨e, -, rfl⟩ := List.mem_map.1 hp
          simp
      | succ i =>
        simp only [List.getElem?_cons_succ] at h
        rw [List.filter_eq_nil_iff.2, List.nil_append]
        · have := ih (k + 1) i h
          rw [show k + 1 + i = k + (i + 1) by omega] at this
          exact this
        · intro p hp
          obtain ⟨e, -, rfl⟩ := List.mem_map.1 hp
          simp
  simpa [coupFlat] using key map 0 a h

/-! ## The states of a coupler -/

/-- The couplers of all ranks are in a state reached after construction. -/
def CoupState {T : Type} (cells : List (List Int)) (maps : List (List (List (CoupEntry T))))
    (w : List (CoupRank T)) : Prop :=
  ∃ (M : Nat → List (List (CoupEntry T))) (G : Nat → List Int) (D S RD RS : Nat → List Nat)
    (send recv : Nat → List T),
    cells = (List.range cells.length).map G ∧ maps = (List.range cells.length).map M ∧
    CoupNet cells.length (coupX cells M) D S RD RS ∧
    w = (List.range cells.length).map (coupClosed (coupX cells M) D S RD RS (coupLoc G)
      (fun r => (M r).length) (fun r => (G r).length) send recv)

theorem meshB_nodup {dms : List Plex} {cells : List (List Int)} (h : MeshB dms cells) :
    cells.flatten.Nodup := by
  obtain ⟨first, count, -, hperm⟩ := h.consecutive
  rw [hperm.nodup_iff]
  exact (List.nodup_range).map fun a b e => by omega

theorem coupState_new {T : Type} [Zero T] (mpi : SurfOrders) {dms : List Plex}
    {cells : List (List Int)} {maps : List (List (List (CoupEntry T)))} (h : MeshB dms cells)
    (hm : MapsOk cells maps) : ∃ w, couplerNew mpi dms maps = some w ∧ CoupState cells maps w := by
  obtain ⟨G, hG⟩ := exists_table cells
  obtain ⟨M, hM⟩ := exists_table maps
  rw [hm.1] at hM
  obtain ⟨D, S, RD, RS, hnet, hw⟩ := couplerNew_eq mpi h hm rfl hG hM
  exact ⟨_, hw, M, G, D, S, RD, RS, _, _, hG, hM, hnet, rfl⟩

theorem table_get {A : Type} {l : List A} {n : Nat} {W : Nat → A} (h : l = (List.range n).map W) {r : Nat}
    (hr : r < n) : l[r]? = some (W r) := by
  rw [h, List.getElem?_map, List.getElem?_range hr, Option.map_some]

theorem dofs_table {α T : Type} {cells : List (List α)} {ncomp : Nat} {dofs : List (List T)}
    {G : Nat → List α} {n : Nat} (hG : cells = (List.range n).map G) (h : Dofs cells ncomp dofs) :
    ∃ d : Nat → List T, dofs = (List.range n).map d ∧ ∀ r < n, (G r).length * ncomp ≤ (d r).length := by
  have hcl : cells.length = n := by rw [hG]; simp
  have hl : dofs.length = n := by
    rw [← h.length_eq]; exact hcl
  obtain ⟨d, hd⟩ := exists_table dofs
  rw [hl] at hd
  refine ⟨d, hd, fun r hr => ?_⟩
  have := (List.forall₂_iff_get.1 h).2 r (by omega) (by omega)
  rw [List.get_eq_getElem, List.get_eq_getElem] at this
  rw [show d r = dofs[r]'(by omega) by simp [hd], show G r = cells[r]'(by omega) by simp [hG]]
  exact this

theorem coupX_spec {T : Type} {cells : List (List Int)} {maps : List (List (List (CoupEntry T)))}
    (hm : MapsOk cells maps) {M : Nat → List (List (CoupEntry T))} {G : Nat → List Int}
    (hG : cells = (List.range cells.length).map G) (hM : maps = (List.range cells.length).map M)
    {s : Nat} (hs : s < cells.length) :
    (∀ p ∈ coupFlat (M s), coupOwner cells p.2.cell < cells.length ∧
      p.2.cell ∈ G (coupOwner cells p.2.cell)) ∧
    ∀ q, ∀ p ∈ coupX cells M s q, p.1 < (M s).length ∧ p.2.cell ∈ G q ∧
      coupLoc G q p.2.cell < (G q).length := by
  have h1 : ∀ p ∈ coupFlat (M s), coupOwner cells p.2.cell < cells.length ∧
      p.2.cell ∈ G (coupOwner cells p.2.cell) := by
    intro p hp
    obtain ⟨es, a1, a2⟩ := mem_coupFlat.1 hp
    obtain ⟨gs, b1, b2⟩ := coupOwner_spec (hm.2 (M s) (List.mem_of_getElem? (table_get hM hs)) es
      (List.mem_of_getElem? a1) _ a2)
    have hlt := (List.getElem?_eq_some_iff.1 b1).1
    rw [table_get hG hlt] at b1
    cases b1
    exact ⟨hlt, b2⟩
  refine ⟨h1, fun q p hp => ?_⟩
  obtain ⟨hp1, hp2⟩ := List.mem_filter.1 hp
  obtain ⟨-, b2⟩ := h1 p hp1
  rw [of_decide_eq_true hp2] at b2
  obtain ⟨es, a1, -⟩ := mem_coupFlat.1 hp1
  exact ⟨(List.getElem?_eq_some_iff.1 a1).1, b2, List.idxOf_lt_length_iff.2 b2⟩

theorem forward_state {T : Type} [CommSemiring T] {cells : List (List Int)}
    {maps : List (List (List (CoupEntry T)))} (hnd : cells.flatten.Nodup)
    (hm : MapsOk cells maps) {w : List (CoupRank T)} (hw : CoupState cells maps w) {ncomp : Nat}
    (hnc : 0 < ncomp) {dofsA dofsB : List (List T)} (hA : Dofs maps ncomp dofsA)
    (hB : Dofs cells ncomp dofsB) :
    ∃ w' out, couplerForward ncomp w dofsA dofsB = some (w', out) ∧ CoupState cells maps w' ∧
      RestZero cells ncomp dofsB out ∧
      ∀ y, FieldA maps ncomp dofsA y → FieldB cells ncomp out (forwardSum maps y) := by
  obtain ⟨M, G, D, S, RD, RS, send, recv, hG, hM, hnet, rfl⟩ := hw
  obtain ⟨dA, hdA, hA⟩ := dofs_table hM hA
  obtain ⟨dB, hdB, hB⟩ := dofs_table hG hB
  obtain ⟨send', recv', out, h1, h2⟩ := couplerForward_closed hnet send recv (dA := dA) (dB := dB)
    (loc := coupLoc G) (cA := fun r => (M r).length) (cB := fun r => (G r).length) hnc hA hB
    (fun s hs q _ p hp => ((coupX_spec hm hG hM hs).2 q p hp).1)
    (fun s hs q _ p hp => ((coupX_spec hm hG hM hs).2 q p hp).2.2)
  rw [← hdA, ← hdB] at h1
  refine ⟨_, _, h1, ⟨M, G, D, S, RD, RS, send', recv', hG, hM, hnet, rfl⟩, ⟨?_, ?_⟩, ?_⟩
  · rw [hdB, List.map_map, List.map_map]
    exact List.map_congr_left fun q hq => (h2 q (List.mem_range.1 hq)).1
  · intro r gs d hr hd k v hk hv
    have hlt : r < cells.length := (List.getElem?_eq_some_iff.1 hr).1
    rw [table_get hG hlt] at hr
    cases hr
    rw [table_get rfl hlt] at hd
    cases hd
    exact (h2 r hlt).2.2 k v hk hv
  · intro y hy q gs hq
    have hlt : q < cells.length := (List.getElem?_eq_some_iff.1 hq).1
    refine ⟨out q, table_get rfl hlt, fun j g hj c hc => ?_⟩
    have hq' := hq
    rw [table_get hG hlt] at hq
    cases hq
    have hjl := (List.getElem?_eq_some_iff.1 hj).1
    have hgm : g ∈ G q := List.mem_of_getElem? hj
    have hown : coupOwner cells g = q := coupOwner_eq hnd hq' hgm
    have hGnd : (G q).Nodup := (List.nodup_flatten.1 hnd).1 _ (List.mem_of_getElem? hq')
    have hlocg : coupLoc G q g = j := by
      unfold coupLoc
      obtain ⟨hjl, hje⟩ := List.getElem?_eq_some_iff.1 hj
      rw [← hje]
      exact List.Nodup.idxOf_getElem hGnd j hjl
    rw [(h2 q hlt).2.1 j hjl c hc]
    congr 1
    have hterm : ∀ s, s < cells.length → (((coupX cells M s q).filter fun p =>
        coupLoc G q p.2.cell = j).map fun p => ((dA s)[p.1 * ncomp + c]?).getD 0 * p.2.fwd).sum =
        ((M s).zipIdx.map fun (es, a) =>
          ((es.filter fun e => e.cell = g).map fun e => e.fwd * y s a c).sum).sum := by
      intro s hs
      have hfil : ((coupX cells M s q).filter fun p => decide (coupLoc G q p.2.cell = j)) =
          (coupFlat (M s)).filter fun p => p.2.cell = g := by
        unfold coupX
        rw [List.filter_filter]
        refine List.filter_congr fun p hp => ?_
        obtain ⟨b1, b2⟩ := (coupX_spec hm hG hM hs).1 p hp
        by_cases e : p.2.cell = g
        · rw [e]; simp [hown, hlocg]
        · simp only [e, decide_false, Bool.and_eq_false_iff, decide_eq_false_iff_not]
          by_contra hc
          push Not at hc
          obtain ⟨c1, c2⟩ := hc
          rw [c2] at b2
          apply e
          unfold coupLoc at c1
          have hh : (G q)[(G q).idxOf p.2.cell]? = some p.2.cell := by
            rw [List.getElem?_eq_getElem (List.idxOf_lt_length_iff.2 b2), List.getElem_idxOf]
          rw [c1, hj] at hh
          exact (Option.some.inj hh).symm
      rw [hfil, coupFlat_sum]
      congr 1
      refine List.map_congr_left fun x hx => ?_
      obtain ⟨d, hd, hyv⟩ := hy s (M s) (table_get hM hs)
      rw [table_get hdA hs] at hd
      cases hd
      have hxl := (List.getElem?_eq_some_iff.1 (List.mem_zipIdx_iff_getElem?.1 hx)).1
      simp only
      congr 1
      refine List.map_congr_left fun e _ => ?_
      rw [hyv x.2 hxl c hc, Option.getD_some, mul_comm]
    rw [sum_ranks (n := cells.length) _ (hnet.sourcesNodup q hlt)
      (fun s hs => ((hnet.sources q hlt s).1 hs).1) fun s hs hn => by
        have : coupX cells M s q = [] := by
          by_contra hne
          exact hn ((hnet.sources q hlt s).2 ⟨hs, hne⟩)
        rw [this]; rfl]
    unfold forwardSum
    conv_rhs => rw [hM]
    rw [zipIdx_table, List.map_map]
    congr 1
    exact List.map_congr_left fun s hs => hterm s (List.mem_range.1 hs)

theorem backward_state {T : Type} [CommSemiring T] {cells : List (List Int)}
    {maps : List (List (List (CoupEntry T)))}
    (hm : MapsOk cells maps) {w : List (CoupRank T)} (hw : CoupState cells maps w) {ncomp : Nat}
    (hnc : 0 < ncomp) {dofsA dofsB : List (List T)} (hA : Dofs maps ncomp dofsA)
    (hB : Dofs cells ncomp dofsB) :
    ∃ w' out, couplerBackward ncomp w dofsB dofsA = some (w', out) ∧ CoupState cells maps w' ∧
      RestZero maps ncomp dofsA out ∧
      ∀ x, FieldB cells ncomp dofsB x → FieldA maps ncomp out fun s a c =>
        ((maps[s]?.bind fun map => map[a]?).map fun es => backwardSum es x c).getD 0 := by
  obtain ⟨M, G, D, S, RD, RS, send, recv, hG, hM, hnet, rfl⟩ := hw
  obtain ⟨dA, hdA, hA⟩ := dofs_table hM hA
  obtain ⟨dB, hdB, hB⟩ := dofs_table hG hB
  obtain ⟨send', recv', out, h1, h2⟩ := couplerBackward_closed hnet send recv (dA := dA) (dB := dB)
    (loc := coupLoc G) (cA := fun r => (M r).length) (cB := fun r => (G r).length) hnc hA hB
    (fun s hs q _ p hp => ((coupX_spec hm hG hM hs).2 q p hp).1)
    (fun s hs q _ p hp => ((coupX_spec hm hG hM hs).2 q p hp).2.2)
  rw [← hdA, ← hdB] at h1
  refine ⟨_, _, h1, ⟨M, G, D, S, RD, RS, send', recv', hG, hM, hnet, rfl⟩, ⟨?_, ?_⟩, ?_⟩
  · rw [hdA, List.map_map, List.map_map]
    exact List.map_congr_left fun q hq => (h2 q (List.mem_range.1 hq)).1
  · intro r gs d hr hd k v hk hv
    have hlt : r < cells.length := by
      rw [← hm.1]; exact (List.getElem?_eq_some_iff.1 hr).1
    rw [table_get hM hlt] at hr
    cases hr
    rw [table_get rfl hlt] at hd
    cases hd
    exact (h2 r hlt).2.2 k v hk hv
  · intro x hx s map hs
    have hlt : s < cells.length := by
      rw [← hm.1]; exact (List.getElem?_eq_some_iff.1 hs).1
    refine ⟨out s, table_get rfl hlt, fun a ha c hc => ?_⟩
    simp only
    rw [hs, Option.bind_some, List.getElem?_eq_getElem ha, Option.map_some, Option.getD_some]
    rw [table_get hM hlt] at hs
    cases hs
    rw [(h2 s hlt).2.1 a ha c hc]
    congr 1
    have hval : ∀ d, d < cells.length → ∀ p ∈ coupX cells M s d,
        ((dB d)[coupLoc G d p.2.cell * ncomp + c]?).getD 0 = x p.2.cell c := by
      intro d hd p hp
      obtain ⟨-, b1, b2⟩ := (coupX_spec hm hG hM hlt).2 d p hp
      obtain ⟨v, hv, hxv⟩ := hx d (G d) (table_get hG hd)
      rw [table_get hdB hd] at hv
      cases hv
      rw [hxv (coupLoc G d p.2.cell) p.2.cell (by
        unfold coupLoc at b2 ⊢
        rw [List.getElem?_eq_getElem b2, List.getElem_idxOf]) c hc]
      rfl
    rw [sum_ranks (n := cells.length) _
      (((hnet.revSources s hlt).nodup_iff).2 (hnet.destsNodup s hlt))
      (fun d hd => ((hnet.dests s hlt d).1 ((hnet.revSources s hlt).mem_iff.1 hd)).1) fun d hd hn => by
        have : coupX cells M s d = [] := by
          by_contra hne
          exact hn ((hnet.revSources s hlt).mem_iff.2 ((hnet.dests s hlt d).2 ⟨hd, hne⟩))
        rw [this]; rfl]
    have hrow : (List.range cells.length).map (fun d => (((coupX cells M s d).filter fun p =>
        p.1 = a).map fun p => ((dB d)[coupLoc G d p.2.cell * ncomp + c]?).getD 0 * p.2.bwd).sum) =
        (List.range cells.length).map fun d => ((((coupFlat (M s)).filter fun p => p.1 = a).filter
          fun p => coupOwner cells p.2.cell = d).map fun p => p.2.bwd * x p.2.cell c).sum := by
      refine List.map_congr_left fun d hd => ?_
      have hd := List.mem_range.1 hd
      have e : ((coupX cells M s d).filter fun p => decide (p.1 = a)) =
          (((coupFlat (M s)).filter fun p => p.1 = a).filter fun p => coupOwner cells p.2.cell = d) := by
        unfold coupX
        rw [List.filter_filter, List.filter_filter]
        exact List.filter_congr fun p _ => Bool.and_comm _ _
      rw [← e]
      congr 1
      refine List.map_congr_left fun p hp => ?_
      rw [hval d hd p (List.mem_filter.1 hp).1, mul_comm]
    rw [hrow, sum_partition (k := fun p : Nat × CoupEntry T => coupOwner cells p.2.cell) _ _ (by
      intro p hp
      exact ((coupX_spec hm hG hM hlt).1 p (List.mem_filter.1 hp).1).1),
      coupFlat_cell (List.getElem?_eq_getElem ha), List.map_map]
    rfl

theorem calls_state {T : Type} [CommSemiring T] {cells : List (List Int)}
    {maps : List (List (List (CoupEntry T)))} (hnd : cells.flatten.Nodup) (hm : MapsOk cells maps)
    (calls : List (CoupCall T)) (hc : ∀ c ∈ calls, CoupCallOk cells maps c) {w : List (CoupRank T)}
    (hw : CoupState cells maps w) :
    ∃ w', calls.foldlM couplerCall w = some w' ∧ CoupState cells maps w' := by
  induction calls generalizing w with
  | nil => exact ⟨w, rfl, hw⟩
  | cons c calls ih =>
    have h1 : ∃ w1, couplerCall w c = some w1 ∧ CoupState cells maps w1 := by
      cases c with
      | forward ncomp dofsA dofsB =>
        obtain ⟨a1, a2, a3⟩ := hc _ (List.mem_cons_self)
        obtain ⟨w', out, e, hs, -⟩ := forward_state hnd hm hw a1 a2 a3
        exact ⟨w', by simp only [couplerCall]; rw [e]; rfl, hs⟩
      | backward ncomp dofsB dofsA =>
        obtain ⟨a1, a2, a3⟩ := hc _ (List.mem_cons_self)
        obtain ⟨w', out, e, hs, -⟩ := backward_state hm hw a1 a2 a3
        exact ⟨w', by simp only [couplerCall]; rw [e]; rfl, hs⟩
    obtain ⟨w1, e1, hs1⟩ := h1
    obtain ⟨w2, e2, hs2⟩ := ih (fun c hcc => hc c (by simp [hcc])) hs1
    exact ⟨w2, by rw [List.foldlM_cons, e1]; exact e2, hs2⟩

/-! ## The property -/

/-- **C87** Constructing the coupler succeeds for every mesh B whose cells are numbered
consecutively and every coupling map that names its cells, and then every sequence of transfers
with enough room succeeds. -/
theorem C87_runs {T : Type} [CommSemiring T] (mpi : SurfOrders) {dms : List Plex}
    {cells : List (List Int)} {maps : List (List (List (CoupEntry T)))} (h : MeshB dms cells)
    (hm : MapsOk cells maps) (calls : List (CoupCall T)) (hc : ∀ c ∈ calls, CoupCallOk cells maps c) :
    ∃ w0 w, couplerNew mpi dms maps = some w0 ∧ calls.foldlM couplerCall w0 = some w := by
  obtain ⟨w0, e0, hs0⟩ := coupState_new mpi h hm
  obtain ⟨w, e, -⟩ := calls_state (meshB_nodup h) hm calls hc hs0
  exact ⟨w0, w, e0, e⟩

/-- **C87** After a forward transfer each cell of B, on the rank that owns it, has the sum over all
cells of A on all ranks of the weight times the value; whatever transfers were made before, in
whichever order MPI lists the neighbours. -/
theorem C87_forward {T : Type} [CommSemiring T] (mpi : SurfOrders) {dms : List Plex}
    {cells : List (List Int)} {maps : List (List (List (CoupEntry T)))} (h : MeshB dms cells)
    (hm : MapsOk cells maps) {w0 w : List (CoupRank T)} (hw0 : couplerNew mpi dms maps = some w0)
    {calls : List (CoupCall T)} (hc : ∀ c ∈ calls, CoupCallOk cells maps c)
    (hw : calls.foldlM couplerCall w0 = some w) {ncomp : Nat} (hnc : 0 < ncomp)
    {dofsA dofsB : List (List T)} (hA : Dofs maps ncomp dofsA) (hB : Dofs cells ncomp dofsB) :
    ∃ w' out, couplerForward ncomp w dofsA dofsB = some (w', out) ∧
      RestZero cells ncomp dofsB out ∧
      ∀ y, FieldA maps ncomp dofsA y → FieldB cells ncomp out (forwardSum maps y) := by
  obtain ⟨w0', e0, hs0⟩ := coupState_new mpi h hm
  rw [hw0] at e0
  cases e0
  obtain ⟨w', e, hs⟩ := calls_state (meshB_nodup h) hm calls hc hs0
  rw [hw] at e
  cases e
  obtain ⟨w', out, e, -, h1, h2⟩ := forward_state (meshB_nodup h) hm hs hnc hA hB
  exact ⟨w', out, e, h1, h2⟩

/-- **C87** After a backward transfer each cell of A has the sum over its entries of the weight
times the value of the cell of B the entry names. -/
theorem C87_backward {T : Type} [CommSemiring T] (mpi : SurfOrders) {dms : List Plex}
    {cells : List (List Int)} {maps : List (List (List (CoupEntry T)))} (h : MeshB dms cells)
    (hm : MapsOk cells maps) {w0 w : List (CoupRank T)} (hw0 : couplerNew mpi dms maps = some w0)
    {calls : List (CoupCall T)} (hc : ∀ c ∈ calls, CoupCallOk cells maps c)
    (hw : calls.foldlM couplerCall w0 = some w) {ncomp : Nat} (hnc : 0 < ncomp)
    {dofsA dofsB : List (List T)} (hA : Dofs maps ncomp dofsA) (hB : Dofs cells ncomp dofsB) :
    ∃ w' out, couplerBackward ncomp w dofsB dofsA = some (w', out) ∧
      RestZero maps ncomp dofsA out ∧
      ∀ x, FieldB cells ncomp dofsB x → ∀ (s : Nat) map, maps[s]? = some map →
        ∃ d, out[s]? = some d ∧ ∀ (a : Nat) es, map[a]? = some es → ∀ c, c < ncomp →
          d[a * ncomp + c]? = some (backwardSum es x c) := by
  obtain ⟨w0', e0, hs0⟩ := coupState_new mpi h hm
  rw [hw0] at e0
  cases e0
  obtain ⟨w', e, hs⟩ := calls_state (meshB_nodup h) hm calls hc hs0
  rw [hw] at e
  cases e
  obtain ⟨w', out, e, -, h1, h2⟩ := backward_state hm hs hnc hA hB
  refine ⟨w', out, e, h1, fun x hx s map hmap => ?_⟩
  obtain ⟨d, hd, hv⟩ := h2 x hx s map hmap
  refine ⟨d, hd, fun a es ha c hc => ?_⟩
  rw [hv a (List.getElem?_eq_some_iff.1 ha).1 c hc]
  simp only
  rw [hmap, Option.bind_some, ha]
  rfl

/-! ## Conservation -/

theorem sum_swap {T A B : Type} [AddCommMonoid T] (l : List A) (m : List B) (f : A → B → T) :
    (l.map fun x => (m.map fun y => f x y).sum).sum = (m.map fun y => (l.map fun x => f x y).sum).sum := by
  induction l with
  | nil => simp
  | cons x l ih =>
    simp only [List.map_cons, List.sum_cons]
    rw [ih, ← sum_map_add]

theorem sum_by_cell {T : Type} [CommSemiring T] {all : List Int} (hnd : all.Nodup)
    (es : List (CoupEntry T)) (F : Int → CoupEntry T → T) (h : ∀ e ∈ es, e.cell ∈ all) :
    (all.map fun g => ((es.filter fun e => e.cell = g).map (F g)).sum).sum =
      (es.map fun e => F e.cell e).sum := by
  induction es with
  | nil => simp
  | cons e es ih =>
    have : (fun g => (((e :: es).filter fun e => e.cell = g).map (F g)).sum) =
        fun g => (if e.cell = g then F e.cell e else 0) + ((es.filter fun e => e.cell = g).map (F g)).sum := by
      funext g
      rw [List.filter_cons]
      by_cases he : e.cell = g
      · simp [he]
      · simp [he]
    rw [this, sum_map_add, ih fun e he => h e (by simp [he]), List.map_cons, List.sum_cons]
    congr 1
    rw [← List.sum_toFinset _ hnd, Finset.sum_ite_eq, if_pos (by simpa using h e (by simp))]

theorem sum_forward {T : Type} [CommSemiring T] {cells : List (List Int)}
    {maps : List (List (List (CoupEntry T)))} (hnd : cells.flatten.Nodup) (hm : MapsOk cells maps)
    (y : Nat → Nat → Nat → T) (z : Int → T) (c : Nat) :
    (cells.flatten.map fun g => forwardSum maps y g c * z g).sum =
      (maps.zipIdx.map fun (map, s) => (map.zipIdx.map fun (es, a) =>
        (es.map fun e => e.fwd * y s a c * z e.cell).sum).sum).sum := by
  have e1 : (fun g => forwardSum maps y g c * z g) = fun g => (maps.zipIdx.map fun x =>
      (x.1.zipIdx.map fun u => ((u.1.filter fun e => e.cell = g).map fun e =>
        e.fwd * y x.2 u.2 c * z g).sum).sum).sum := by
    funext g
    unfold forwardSum
    rw [← List.sum_map_mul_right]
    congr 1
    refine List.map_congr_left fun x _ => ?_
    simp only
    rw [← List.sum_map_mul_right]
    congr 1
    refine List.map_congr_left fun u _ => ?_
    rw [← List.sum_map_mul_right]
  rw [e1, sum_swap]
  congr 1
  refine List.map_congr_left fun x hx => ?_
  rw [sum_swap]
  congr 1
  refine List.map_congr_left fun u hu => ?_
  rw [sum_by_cell hnd u.1 (fun g e => e.fwd * y x.2 u.2 c * z g) fun e he => ?_]
  obtain ⟨gs, h1, h2⟩ := hm.2 x.1 (List.mem_of_getElem? (List.mem_zipIdx_iff_getElem?.1 hx)) u.1
    (List.mem_of_getElem? (List.mem_zipIdx_iff_getElem?.1 hu)) e he
  exact List.mem_flatten.2 ⟨gs, h1, h2⟩

/-- **C87** If the forward weights of each cell of A add up to one, the total over mesh B after a
forward transfer is the total over mesh A. -/
theorem C87_conserved {T : Type} [CommSemiring T] (mpi : SurfOrders) {dms : List Plex}
    {cells : List (List Int)} {maps : List (List (List (CoupEntry T)))} (h : MeshB dms cells)
    (hm : MapsOk cells maps) (hone : ∀ map ∈ maps, ∀ es ∈ map, (es.map fun e => e.fwd).sum = 1)
    {w0 w : List (CoupRank T)} (hw0 : couplerNew mpi dms maps = some w0)
    {calls : List (CoupCall T)} (hc : ∀ c ∈ calls, CoupCallOk cells maps c)
    (hw : calls.foldlM couplerCall w0 = some w) {ncomp : Nat} (hnc : 0 < ncomp)
    {dofsA dofsB : List (List T)} (hA : Dofs maps ncomp dofsA) (hB : Dofs cells ncomp dofsB)
    {y : Nat → Nat → Nat → T} (hy : FieldA maps ncomp dofsA y) :
    ∃ w' out x, couplerForward ncomp w dofsA dofsB = some (w', out) ∧ FieldB cells ncomp out x ∧
      ∀ c, (cells.flatten.map fun g => x g c).sum =
        (maps.zipIdx.map fun (map, s) => ((List.range map.length).map fun a => y s a c).sum).sum := by
  obtain ⟨w', out, h1, -, h2⟩ := C87_forward mpi h hm hw0 hc hw hnc hA hB
  refine ⟨w', out, _, h1, h2 y hy, fun c => ?_⟩
  have := sum_forward (meshB_nodup h) hm y (fun _ => 1) c
  simp only [mul_one] at this
  rw [this]
  congr 1
  refine List.map_congr_left fun x hx => ?_
  have hxm := List.mem_of_getElem? (List.mem_zipIdx_iff_getElem?.1 hx)
  have e2 : (List.range x.1.length).map (fun a => y x.2 a c) = x.1.zipIdx.map fun u => y x.2 u.2 c := by
    apply List.ext_getElem? fun k => ?_
    rw [List.getElem?_map, List.getElem?_map, List.getElem?_zipIdx]
    by_cases hk : k < x.1.length
    · rw [List.getElem?_range hk, List.getElem?_eq_getElem hk]; simp
    · rw [List.getElem?_eq_none (by simpa using hk), List.getElem?_eq_none (by simpa using hk)]; rfl
  simp only
  rw [e2]
  congr 1
  refine List.map_congr_left fun u hu => ?_
  rw [List.sum_map_mul_right, hone x.1 hxm u.1 (List.mem_of_getElem? (List.mem_zipIdx_iff_getElem?.1 hu)),
    one_mul]

/-- **C87** If the two weights of each entry agree, the backward transfer is the transpose of the
forward transfer: with `x` and `y` the fields before and `x'` and `y'` after the transfers, the
product of `x'` and `x` over mesh B is that of `y` and `y'` over mesh A. -/
theorem C87_transpose {T : Type} [CommSemiring T] (mpi : SurfOrders) {dms : List Plex}
    {cells : List (List Int)} {maps : List (List (List (CoupEntry T)))} (h : MeshB dms cells)
    (hm : MapsOk cells maps) (heq : ∀ map ∈ maps, ∀ es ∈ map, ∀ e ∈ es, e.fwd = e.bwd)
    {w0 w : List (CoupRank T)} (hw0 : couplerNew mpi dms maps = some w0)
    {calls : List (CoupCall T)} (hc : ∀ c ∈ calls, CoupCallOk cells maps c)
    (hw : calls.foldlM couplerCall w0 = some w) {ncomp : Nat} (hnc : 0 < ncomp)
    {dofsA dofsB : List (List T)} (hA : Dofs maps ncomp dofsA) (hB : Dofs cells ncomp dofsB)
    {y : Nat → Nat → Nat → T} (hy : FieldA maps ncomp dofsA y)
    {x : Int → Nat → T} (hx : FieldB cells ncomp dofsB x) :
    ∃ w1 w2 outA outB x' y', couplerForward ncomp w dofsA dofsB = some (w1, outB) ∧
      couplerBackward ncomp w dofsB dofsA = some (w2, outA) ∧
      FieldB cells ncomp outB x' ∧ FieldA maps ncomp outA y' ∧
      ∀ c, (cells.flatten.map fun g => x' g c * x g c).sum =
        (maps.zipIdx.map fun (map, s) =>
          ((List.range map.length).map fun a => y s a c * y' s a c).sum).sum := by
  obtain ⟨w1, outB, h1, -, h2⟩ := C87_forward mpi h hm hw0 hc hw hnc hA hB
  obtain ⟨w2, outA, h3, -, h4⟩ := C87_backward mpi h hm hw0 hc hw hnc hA hB
  refine ⟨w1, w2, outA, outB, _, fun s a c =>
    ((maps[s]?.bind fun map => map[a]?).map fun es => backwardSum es x c).getD 0, h1, h3, h2 y hy, ?_,
    fun c => ?_⟩
  · intro s map hs
    obtain ⟨d, hd, hv⟩ := h4 x hx s map hs
    refine ⟨d, hd, fun a ha c hc => ?_⟩
    simp only
    rw [hv a map[a] (List.getElem?_eq_getElem ha) c hc, hs, Option.bind_some,
      List.getElem?_eq_getElem ha]
    rfl
  · rw [sum_forward (meshB_nodup h) hm y (fun g => x g c) c]
    congr 1
    refine List.map_congr_left fun t ht => ?_
    have htm := List.mem_zipIdx_iff_getElem?.1 ht
    have e2 : (List.range t.1.length).map (fun a => y t.2 a c *
        ((maps[t.2]?.bind fun map => map[a]?).map fun es => backwardSum es x c).getD 0) =
        t.1.zipIdx.map fun u => y t.2 u.2 c * backwardSum u.1 x c := by
      apply List.ext_getElem? fun k => ?_
      rw [List.getElem?_map, List.getElem?_map, List.getElem?_zipIdx, htm]
      by_cases hk : k < t.1.length
      · rw [List.getElem?_range hk, List.getElem?_eq_getElem hk]
        simp [List.getElem?_eq_getElem hk]
      · rw [List.getElem?_eq_none (by simpa using hk), List.getElem?_eq_none (by simpa using hk)]; rfl
    simp only
    rw [e2]
    congr 1
    refine List.map_congr_left fun u hu => ?_
    unfold backwardSum
    rw [← List.sum_map_mul_left]
    congr 1
    refine List.map_congr_left fun e he => ?_
    rw [heq t.1 (List.mem_of_getElem? htm) u.1
      (List.mem_of_getElem? (List.mem_zipIdx_iff_getElem?.1 hu)) e he, mul_comm e.bwd, mul_assoc]

/-! ## What is rejected -/

theorem foldlM_fails {σ β : Type} {f : σ → β → Option σ} {l : List β} {x : β} (hx : x ∈ l)
    (h : ∀ s, f s x = none) (s : σ) : l.foldlM f s = none := by
  induction l generalizing s with
  | nil => simp at hx
  | cons y l ih =>
    rw [List.foldlM_cons]
    rcases List.mem_cons.1 hx with rfl | hx
    · rw [h s]; rfl
    · cases f s y with
      | none => rfl
      | some s' => exact ih hx s'

theorem mapM_fails {A B : Type} {f : A → Option B} {l : List A} {x : A} (hx : x ∈ l)
    (h : f x = none) : l.mapM f = none := by
  induction l with
  | nil => simp at hx
  | cons y l ih =>
    rw [List.mapM_cons]
    rcases List.mem_cons.1 hx with rfl | hx
    · rw [h]; rfl
    · rw [ih hx]
      cases f y <;> rfl

/-- **C87** A coupling map with an entry that names no cell of mesh B is not accepted. -/
theorem C87_bad_cell {T : Type} [Zero T] (mpi : SurfOrders) {dms : List Plex}
    {cells : List (List Int)} {maps : List (List (List (CoupEntry T)))} (h : MeshB dms cells)
    {map : List (List (CoupEntry T))} {es : List (CoupEntry T)} {e : CoupEntry T} (h1 : map ∈ maps)
    (h2 : es ∈ map) (h3 : e ∈ es) (hbad : ∀ gs ∈ cells, e.cell ∉ gs) :
    couplerNew mpi dms maps = none := by
  obtain ⟨first, count, hfit, hperm⟩ := h.consecutive
  have hout : ¬ (first ≤ e.cell ∧ e.cell < first + count) := by
    rintro ⟨a, b⟩
    have : e.cell ∈ cells.flatten := by
      rw [hperm.mem_iff, List.mem_map]
      exact ⟨(e.cell - first).toNat, List.mem_range.2 (by omega), by omega⟩
    obtain ⟨gs, c1, c2⟩ := List.mem_flatten.1 this
    exact hbad gs c1 c2
  unfold couplerNew
  rw [coupOwners_eq h hfit hperm, Option.bind_some, mapM_fails h1]
  · rfl
  · unfold coupMaps
    rw [foldlM_fails h2]
    · rfl
    · intro s
      rw [foldlM_fails h3]
      · rfl
      · intro m
        unfold coupEntry
        by_cases hi : 0 ≤ e.cell - first
        · simp only [rd]
          rw [if_pos hi, List.getElem?_eq_none (by simp; omega)]
          rfl
        · simp only
          rw [if_neg hi]

/-- **C87** Transfers with no component, and transfers with a vector too short on some rank, are
not accepted. -/
theorem C87_rejected {T : Type} [CommSemiring T] (mpi : SurfOrders) {dms : List Plex}
    {cells : List (List Int)} {maps : List (List (List (CoupEntry T)))} (h : MeshB dms cells)
    (hm : MapsOk cells maps) {w0 w : List (CoupRank T)} (hw0 : couplerNew mpi dms maps = some w0)
    {calls : List (CoupCall T)} (hc : ∀ c ∈ calls, CoupCallOk cells maps c)
    (hw : calls.foldlM couplerCall w0 = some w) {ncomp : Nat} {dofsA dofsB : List (List T)}
    {r : Nat} {gs : List Int} {map : List (List (CoupEntry T))} {dA dB : List T}
    (hr : cells[r]? = some gs) (hmap : maps[r]? = some map) (hdA : dofsA[r]? = some dA)
    (hdB : dofsB[r]? = some dB)
    (hbad : ncomp = 0 ∨ dA.length < map.length * ncomp ∨ dB.length < gs.length * ncomp) :
    couplerForward ncomp w dofsA dofsB = none ∧ couplerBackward ncomp w dofsB dofsA = none := by
  obtain ⟨w0', e0, hs0⟩ := coupState_new mpi h hm
  rw [hw0] at e0
  cases e0
  obtain ⟨w', e, hs⟩ := calls_state (meshB_nodup h) hm calls hc hs0
  rw [hw] at e
  cases e
  obtain ⟨M, G, D, S, RD, RS, send, recv, hG, hM, hnet, rfl⟩ := hs
  have hlt : r < cells.length := (List.getElem?_eq_some_iff.1 hr).1
  rw [table_get hG hlt] at hr
  cases hr
  rw [table_get hM hlt] at hmap
  cases hmap
  have hstep : ∀ k : CoupRank T → Option (CoupRank T), ((coupPrepare ncomp (coupClosed (coupX cells M)
      D S RD RS (coupLoc G) (fun r => (M r).length) (fun r => (G r).length) send recv r)).bind fun a =>
      if coupSizes ncomp a dA dB then k a else none) = none := by
    intro k
    unfold coupPrepare
    by_cases hnc : 0 < ncomp
    · rw [if_pos hnc, Option.bind_some, if_neg]
      rintro ⟨c1, c2⟩
      simp only [coupClosed] at c1 c2
      omega
    · rw [if_neg hnc]; rfl
  constructor
  · unfold couplerForward
    rw [mapRanks_none hlt]
    · rfl
    · simp only [rd]
      rw [hdA, hdB, Option.bind_some, Option.bind_some]
      exact hstep _
  · unfold couplerBackward
    rw [mapRanks_none hlt]
    · rfl
    · simp only [rd]
      rw [hdA, hdB, Option.bind_some, Option.bind_some]
      exact hstep _

/-- **C87** The position of the values of a cell is taken from the point of the mesh, not from the
number of the cell among the cells of the rank: on a rank with a copy of another rank's cell in
front of its own cell the constructor accepts the mesh and the transfers, with vectors of the size
the checks ask for, leave the vectors. -/
theorem C87_point_index : ∃ (dms : List Plex) (maps : List (List (List (CoupEntry Nat)))) (mpi : SurfOrders) (w : List (CoupRank Nat)),
    (dms.mapM fun dm => (plexCells dm).mapM (plexGlobal dm)) = some [[0], [1]] ∧ MapsOk [[0], [1]] maps ∧
    couplerNew mpi dms maps = some w ∧
    couplerForward 1 w [[3], []] [[0], [0]] = none ∧ couplerBackward 1 w [[0], [7]] [[3], []] = none := by
  refine ⟨[⟨1, [⟨0, [], [], []⟩], [0]⟩, ⟨1, [⟨0, [], [], []⟩, ⟨0, [], [], []⟩], [-1, 1]⟩],
    [[[⟨1, 2, 2⟩]], []], ⟨fun _ => Sched.inOrder, fun _ => Sched.inOrder, fun _ => Sched.inOrder, fun _ => Sched.inOrder⟩, _,
    by decide +kernel, ?_, rfl, by decide +kernel, by decide +kernel⟩
  exact ⟨rfl, by decide⟩

end NP

namespace NP.Ex

open Spec

/-- Rank 0 owns the cells 5 and 7 and has a copy of cell 6; rank 1 owns cell 6 and has a copy of
cell 5; both have a vertex. -/
def coupDms : List Plex :=
  [⟨1, [⟨0, [3], [0], []⟩, ⟨0, [3], [0], []⟩, ⟨0, [3], [0], []⟩, ⟨1, [], [], [[1]]⟩], [5, 7, -7, 9]⟩,
   ⟨1, [⟨0, [2], [0], []⟩, ⟨0, [2], [0], []⟩, ⟨1, [], [], [[1]]⟩], [6, -6, -10]⟩]

def coupCellsEx : List (List Int) := [[5, 7], [6]]

def coupMapsEx : List (List (List (CoupEntry Nat))) :=
  [[[⟨5, 1, 1⟩, ⟨6, 2, 3⟩], []], [[⟨7, 3, 1⟩, ⟨5, 4, 1⟩, ⟨5, 1, 1⟩]]]

theorem partB_of {dm : Plex} {gs : List Int} (h1 : dm.numbers.length = dm.points.length)
    (h2 : ∀ j < gs.length, ∃ g, gs[j]? = some g ∧ 0 ≤ g ∧ dm.numbers[j]? = some g ∧
      (dm.points[j]?).map PlexPoint.height = some 0)
    (h3 : ∀ p < dm.points.length, gs.length ≤ p → (dm.points[p]?).map PlexPoint.height = some 0 →
      ∃ g, dm.numbers[p]? = some g ∧ g < 0)
    (h4 : (dm.numbers.map unsignedId).Nodup) : PartB dm gs where
  numbered := h1
  owned := by
    intro j g hj
    obtain ⟨g', a1, a2, a3, a4⟩ := h2 j (List.getElem?_eq_some_iff.1 hj).1
    rw [hj] at a1
    cases a1
    exact ⟨a2, a3, by
      obtain ⟨x, hx, e⟩ := Option.map_eq_some_iff.1 a4
      exact ⟨x, hx, e⟩⟩
  others := by
    intro p x g hp hx hg h0
    obtain ⟨g', a1, a2⟩ := h3 p (List.getElem?_eq_some_iff.1 hx).1 hp (by rw [hx, Option.map_some, h0])
    rw [hg] at a1
    cases a1
    exact a2
  distinct := h4

theorem coupMeshEx : MeshB coupDms coupCellsEx where
  ranks := by simp [coupDms]
  parts := by
    refine .cons (partB_of (by decide) ?_ ?_ (by decide)) (.cons (partB_of (by decide) ?_ ?_ (by decide)) .nil)
    · intro j hj
      match j, hj with
      | 0, _ => exact ⟨5, by decide⟩
      | 1, _ => exact ⟨7, by decide⟩
    · intro p hp
      match p, hp with
      | 0, _ => intro h; simp at h
      | 1, _ => intro h; simp at h
      | 2, _ => exact fun _ _ => ⟨-7, by decide⟩
      | 3, _ => exact fun _ h => absurd h (by decide)
    · intro j hj
      match j, hj with
      | 0, _ => exact ⟨6, by decide⟩
    · intro p hp
      match p, hp with
      | 0, _ => intro h; simp at h
      | 1, _ => exact fun _ _ => ⟨-6, by decide⟩
      | 2, _ => exact fun _ h => absurd h (by decide)
  nonempty := by decide
  consecutive := ⟨5, 3, by decide, by decide⟩

theorem coupMapsOkEx : MapsOk coupCellsEx coupMapsEx := ⟨rfl, by decide⟩

theorem coupCallEx : CoupCallOk coupCellsEx coupMapsEx (.backward 1 [[1, 2], [3]] [[4, 5], [6]]) :=
  ⟨by decide, .cons (by decide) (.cons (by decide) .nil), .cons (by decide) (.cons (by decide) .nil)⟩

/-- The hypotheses of C87_runs, C87_forward and C87_backward are met, two components, after another
transfer with one component. -/
example (mpi : SurfOrders) : ∃ w0 w w' out, couplerNew mpi coupDms coupMapsEx = some w0 ∧
    couplerCall w0 (.backward 1 [[1, 2], [3]] [[4, 5], [6]]) = some w ∧
    couplerForward 2 w [[1, 2, 3, 4], [5, 6]] [[0, 0, 0, 0, 9], [8, 8]] = some (w', out) ∧
    RestZero coupCellsEx 2 [[0, 0, 0, 0, 9], [8, 8]] out := by
  have hc : ∀ c ∈ [CoupCall.backward 1 [[1, 2], [3]] [[4, 5], [6]]], CoupCallOk coupCellsEx coupMapsEx c := by
    intro c hc
    rw [List.mem_singleton.1 hc]
    exact coupCallEx
  obtain ⟨w0, w, h1, h2⟩ := C87_runs mpi coupMeshEx coupMapsOkEx _ hc
  obtain ⟨w', out, h3, h4, -⟩ := C87_forward mpi coupMeshEx coupMapsOkEx h1 hc h2
    (ncomp := 2) (dofsA := [[1, 2, 3, 4], [5, 6]]) (dofsB := [[0, 0, 0, 0, 9], [8, 8]]) (by decide)
    (.cons (by decide) (.cons (by decide) .nil)) (.cons (by decide) (.cons (by decide) .nil))
  refine ⟨w0, w, w', out, h1, ?_, h3, h4⟩
  simpa using h2

/-- The values: cell 5 has `1*1 + (4+1)*5`, cell 7 has `3*5`, cell 6 has `2*1`. -/
example : ((couplerNew ⟨fun _ => Sched.inOrder, fun _ => Sched.inOrder, fun _ => Sched.inOrder, fun _ => Sched.inOrder⟩
    coupDms coupMapsEx).bind fun w =>
    (couplerForward 2 w [[1, 2, 3, 4], [5, 6]] [[0, 0, 0, 0, 9], [8, 8]]).map (·.2)) =
    some [[26, 32, 15, 18, 0], [2, 4]] := by decide +kernel

example : ((couplerNew ⟨fun _ => Sched.inOrder, fun _ => Sched.inOrder, fun _ => Sched.inOrder, fun _ => Sched.inOrder⟩
    coupDms coupMapsEx).bind fun w =>
    (couplerBackward 1 w [[1, 2], [3]] [[7, 7], [7]]).map (·.2)) =
    some [[10, 0], [4]] := by decide +kernel

/-- A coupling map for C87_conserved and C87_transpose. -/
example : MapsOk coupCellsEx [[[⟨5, 1, 1⟩, ⟨6, 0, 0⟩], [⟨7, 1, 1⟩]], [[⟨6, (1 : Nat), 1⟩]]] ∧
    (∀ map ∈ [[[(⟨5, 1, 1⟩ : CoupEntry Nat), ⟨6, 0, 0⟩], [⟨7, 1, 1⟩]], [[⟨6, 1, 1⟩]]], ∀ es ∈ map,
      (es.map fun e => e.fwd).sum = 1 ∧ ∀ e ∈ es, e.fwd = e.bwd) := ⟨⟨rfl, by decide⟩, by decide⟩

/-- A map that names cell 8. -/
example (mpi : SurfOrders) : couplerNew mpi coupDms [[[⟨5, 1, 1⟩]], [[(⟨8, 1, 1⟩ : CoupEntry Nat)]]] = none :=
  C87_bad_cell mpi coupMeshEx (map := [[⟨8, 1, 1⟩]]) (es := [⟨8, 1, 1⟩]) (e := ⟨8, 1, 1⟩) (by simp) (by simp)
    (by simp) (by decide)

end NP.Ex
