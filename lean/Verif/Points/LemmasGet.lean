import Verif.Points.LemmasExch

/-! # `get`, `set` and `interpolate` -/

set_option autoImplicit false

namespace NP

variable {α : Type}

/-- A loop that stores blocks of `k` values. -/
theorem runItems_block {ι : Type} [Inhabited α] {step : ι → List α → Option (List α)}
    {items : List ι} {m : List α} (k : Nat) (dst : ι → Option Nat) (v : ι → List α)
    (hstep : ∀ i ∈ items, ∀ s : List α, s.length = m.length →
      step i s = match dst i with | none => some s | some d => stRange s (d * k) (v i))
    (hv : ∀ i ∈ items, ∀ d, dst i = some d → (v i).length = k)
    (hagree : ∀ i ∈ items, ∀ j ∈ items, ∀ d, dst i = some d → dst j = some d → v i = v j)
    (hin : ∀ i ∈ items, ∀ d, dst i = some d → d * k + k ≤ m.length) :
    ∃ m', runItems step items m = some m' ∧ m'.length = m.length ∧
      (∀ i ∈ items, ∀ d, dst i = some d → ∀ c, c < k → m'[d * k + c]? = (v i)[c]?) ∧
      ∀ d c, c < k → (∀ i ∈ items, dst i ≠ some d) → m'[d * k + c]? = m[d * k + c]? := by
  have hdiv : ∀ d c, c < k → (d * k + c) / k = d := by
    intro d c hc
    rw [Nat.mul_comm, Nat.mul_add_div (by omega), Nat.div_eq_of_lt hc, Nat.add_zero]
  obtain ⟨m', h1, h2, h3, h4⟩ := runItems_region (step := step) (items := items) (m := m)
    (region := fun i x => ∃ d, dst i = some d ∧ d * k ≤ x ∧ x < d * k + k)
    (val := fun i x => (v i).getD (x % k) default) (by
      intro i hi s hs
      rw [hstep i hi s hs]
      cases hd : dst i with
      | none => exact ⟨s, rfl, rfl, fun x ⟨d, h, _⟩ => by simp at h, fun x _ => rfl⟩
      | some d =>
        have hvl := hv i hi d hd
        have := hin i hi d hd
        have e := stRange_eq_some (m := s) (vs := v i) (a := d * k) (by omega)
        refine ⟨_, e, (length_of_stRange e).1, ?_, ?_⟩
        · rintro x ⟨d', h, h5, h6⟩
          obtain rfl := Option.some.inj h
          have hx : x % k = x - d * k := by
            obtain ⟨c, rfl⟩ := Nat.exists_eq_add_of_le h5
            rw [Nat.mul_comm, Nat.mul_add_mod, Nat.mod_eq_of_lt (by omega)]
            omega
          rw [getElem?_of_stRange e, if_pos (by omega), hx, List.getD_eq_getElem?_getD,
            List.getElem?_eq_getElem (by omega : x - d * k < (v i).length)]
          rfl
        · intro x hx
          rw [getElem?_of_stRange e, if_neg (fun h => hx ⟨d, rfl, by omega, by omega⟩)]) (by
      rintro i hi j hj x ⟨d, a1, a2, a3⟩ ⟨d', b1, b2, b3⟩
      have hd : d = d' := by
        rw [← hdiv d (x - d * k) (by omega), ← hdiv d' (x - d' * k) (by omega)]
        congr 1; omega
      subst hd
      rw [hagree i hi j hj d a1 b1])
  refine ⟨m', h1, h2, ?_, ?_⟩
  · intro i hi d hd c hc
    rw [h3 i hi (d * k + c) ⟨d, hd, by omega, by omega⟩, Nat.mul_comm, Nat.mul_add_mod,
      Nat.mod_eq_of_lt hc, List.getD_eq_getElem?_getD,
      List.getElem?_eq_getElem (by rw [hv i hi d hd]; exact hc)]
    rfl
  · intro d c hc hn
    refine h4 _ ?_
    rintro i hi ⟨d', h5, h6, h7⟩
    have e1 := hdiv d' (d * k + c - d' * k) (by omega)
    have e2 := hdiv d c hc
    rw [show d' * k + (d * k + c - d' * k) = d * k + c by omega, e2] at e1
    exact hn i hi (by rw [h5, e1])

/-- The points of all ranks after the moves. -/
structure Placed (n : Nat) (npoint : Nat → Nat) (pts : Nat → List (QPoint α)) : Prop where
  lt : ∀ b, b < n → ∀ p ∈ pts b, p.rank < n
  idx : ∀ b, b < n → ∀ p ∈ pts b, p.index < npoint p.rank
  uniq : ∀ (b b' i i' : Nat) (p p' : QPoint α), b < n → b' < n → (pts b)[i]? = some p →
    (pts b')[i']? = some p' → p.rank = p'.rank → p.index = p'.index → b = b' ∧ i = i'

/-- `get` up to the exchange. -/
theorem qpGetLocal_ok [Inhabited α] {n : Nat} (e : QpEnv α) {npoint : Nat → Nat}
    {pts : Nat → List (QPoint α)} (hp : Placed n npoint pts) {a ncomp : Nat} (han : a < n)
    {q : QpRank α} (hnp : q.npoint = npoint a) (hpt : q.pts = pts a)
    (hh : HeldOk n a (pts a) q.held) {vals : List (List α)} (hv : vals.length = (pts a).length)
    (hrow : ∀ row ∈ vals, ncomp ≤ row.length) :
    ∃ output send, qpGetLocal e a ncomp q vals = some (output, send) ∧
      output.length = npoint a * ncomp ∧ send.length = q.held.nremote * ncomp ∧
      ∀ (i w : Nat) (p : QPoint α) (row : List α), (pts a)[i]? = some p → vals[i]? = some row →
        q.held.write[i]? = some w → ∀ c, c < ncomp →
        (p.rank = a → output[w * ncomp + c]? = row[c]?) ∧
        (p.rank ≠ a → send[w * ncomp + c]? = row[c]?) := by
  have hperm := e.s0.perm (List.range (pts a).length)
  obtain ⟨items, hit⟩ : ∃ items, items = e.s0.order (List.range (pts a).length) := ⟨_, rfl⟩
  rw [← hit] at hperm
  have hat : ∀ i ∈ items, ∃ p w row, (pts a)[i]? = some p ∧ q.held.write[i]? = some w ∧
      vals[i]? = some row := by
    intro i hi
    have hi := List.mem_range.1 (hperm.mem_iff.1 hi)
    exact ⟨_, _, _, List.getElem?_eq_getElem hi,
      List.getElem?_eq_getElem (by rw [hh.wlen]; exact hi),
      List.getElem?_eq_getElem (by rw [hv]; exact hi)⟩
  let V : Nat → List α := fun i => (vals.getD i []).take ncomp
  have hVr : ∀ (i : Nat) row, vals[i]? = some row → V i = row.take ncomp := by
    intro i row h
    simp only [V, List.getD_eq_getElem?_getD, h, Option.getD_some]
  have hVl : ∀ i ∈ items, (V i).length = ncomp := by
    intro i hi
    obtain ⟨p, w, row, -, -, h⟩ := hat i hi
    rw [hVr i row h, List.length_take, Nat.min_eq_left (hrow row (List.mem_of_getElem? h))]
  let dl : Nat → Option Nat := fun i => ((pts a)[i]?).bind fun p =>
    if p.rank = a then q.held.write[i]? else none
  let dr : Nat → Option Nat := fun i => ((pts a)[i]?).bind fun p =>
    if p.rank = a then none else q.held.write[i]?
  have hdl : ∀ i d, dl i = some d → ∃ p, (pts a)[i]? = some p ∧ p.rank = a ∧ d = p.index := by
    intro i d h
    obtain ⟨p, h1, h2⟩ := Option.bind_eq_some_iff.1 h
    by_cases hr : p.rank = a
    · rw [if_pos hr, hh.loc i p h1 hr] at h2
      exact ⟨p, h1, hr, (Option.some.inj h2).symm⟩
    · rw [if_neg hr] at h2; cases h2
  have hdr : ∀ i d, dr i = some d → ∃ p, (pts a)[i]? = some p ∧ p.rank ≠ a ∧
      q.held.write[i]? = some d := by
    intro i d h
    obtain ⟨p, h1, h2⟩ := Option.bind_eq_some_iff.1 h
    by_cases hr : p.rank = a
    · rw [if_pos hr] at h2; cases h2
    · rw [if_neg hr] at h2
      exact ⟨p, h1, hr, h2⟩
  obtain ⟨ll, hll⟩ : ∃ ll, ll = (e.loc (max (q.npoint * ncomp) 1)).1 := ⟨_, rfl⟩
  obtain ⟨lr, hlr⟩ : ∃ lr, lr = (e.rem (max (q.held.nremote * ncomp) 1)).1 := ⟨_, rfl⟩
  have hlll : ll.length = max (npoint a * ncomp) 1 := by
    rw [hll, (e.loc _).2, hnp]
  have hlrl : lr.length = max (q.held.nremote * ncomp) 1 := by rw [hlr, (e.rem _).2]
  obtain ⟨L, a1, a2, a3, -⟩ := runItems_block (items := items) (m := ll) ncomp dl V
    (step := fun i s => match dl i with | none => some s | some d => stRange s (d * ncomp) (V i))
    (fun i _ s _ => rfl) (fun i hi _ _ => hVl i hi) (by
      intro i hi j hj d h1 h2
      obtain ⟨p, p1, p2, p3⟩ := hdl i d h1
      obtain ⟨p', p4, p5, p6⟩ := hdl j d h2
      rw [(hp.uniq a a i j p p' han han p1 p4 (by rw [p2, p5]) (by rw [← p3, ← p6])).2]) (by
      intro i hi d h1
      obtain ⟨p, p1, p2, p3⟩ := hdl i d h1
      have := hp.idx a han p (List.mem_of_getElem? p1)
      rw [p2, ← p3] at this
      have := Nat.mul_le_mul_right ncomp (Nat.succ_le_of_lt this)
      rw [Nat.succ_mul] at this
      rw [hlll]
      omega)
  obtain ⟨R, b1, b2, b3, -⟩ := runItems_block (items := items) (m := lr) ncomp dr V
    (step := fun i s => match dr i with | none => some s | some d => stRange s (d * ncomp) (V i))
    (fun i _ s _ => rfl) (fun i hi _ _ => hVl i hi) (by
      intro i hi j hj d h1 h2
      obtain ⟨p, p1, p2, p3⟩ := hdr i d h1
      obtain ⟨p', p4, p5, p6⟩ := hdr j d h2
      rw [hh.inj i j p p' d p1 p4 p2 p5 p3 p6]) (by
      intro i hi d h1
      obtain ⟨p, p1, p2, p3⟩ := hdr i d h1
      obtain ⟨j, k, c, c1, c2, c3, c4⟩ := hh.rem i p p1 p2
      rw [p3] at c4
      have := segment_lt c2 c3
      rw [← Option.some.inj c4, hh.sum] at this
      have := Nat.mul_le_mul_right ncomp (Nat.succ_le_of_lt this)
      rw [Nat.succ_mul] at this
      rw [hlrl]
      omega)
  have hrun := runItems_prod (step := qpGetStep a ncomp q vals) (items := items) (by
      intro i hi s t
      obtain ⟨p, w, row, h1, h2, h3⟩ := hat i hi
      have hsl : slice row 0 ncomp = some (V i) := by
        rw [slice_eq_some (by omega) (hrow row (List.mem_of_getElem? h3)), hVr i row h3]
        simp
      unfold qpGetStep
      simp only [rd, hpt, h1, h2, h3, hsl, Option.bind_some, dl, dr]
      by_cases hr : p.rank = a
      · simp only [if_pos hr]
        cases stRange s (w * ncomp) (V i) <;> rfl
      · simp only [if_neg hr, Option.bind_some]) a1 b1
  have hLs : slice L 0 (npoint a * ncomp) = some (L.take (npoint a * ncomp)) := by
    rw [slice_eq_some (by omega) (by omega)]; simp
  have hRs : slice R 0 (q.held.nremote * ncomp) = some (R.take (q.held.nremote * ncomp)) := by
    rw [slice_eq_some (by omega) (by omega)]; simp
  refine ⟨L.take (npoint a * ncomp), R.take (q.held.nremote * ncomp), ?_, ?_, ?_, ?_⟩
  · unfold qpGetLocal
    rw [hpt, ← hit, ← hll, ← hlr, hrun, Option.bind_some, hnp, hLs, Option.bind_some, hRs]
    rfl
  · rw [List.length_take]; omega
  · rw [List.length_take]; omega
  · intro i w p row h1 h2 h3 c hc
    have hi : i ∈ items := hperm.mem_iff.2 (List.mem_range.2 (List.getElem?_eq_some_iff.1 h1).1)
    have hrc : (V i)[c]? = row[c]? := by rw [hVr i row h2, List.getElem?_take_of_lt hc]
    constructor
    · intro hr
      have hd : dl i = some w := by simp only [dl, h1, Option.bind_some, if_pos hr, h3]
      obtain ⟨p', p1, p2, p3⟩ := hdl i w hd
      have := hp.idx a han p' (List.mem_of_getElem? p1)
      rw [p2, ← p3] at this
      have := Nat.mul_le_mul_right ncomp (Nat.succ_le_of_lt this)
      rw [Nat.succ_mul] at this
      rw [List.getElem?_take_of_lt (by omega), a3 i hi w hd c hc, hrc]
    · intro hr
      have hd : dr i = some w := by simp only [dr, h1, Option.bind_some, if_neg hr, h3]
      obtain ⟨j, k, c', c1, c2, c3, c4⟩ := hh.rem i p h1 hr
      rw [h3] at c4
      have := segment_lt c2 c3
      rw [← Option.some.inj c4, hh.sum] at this
      have := Nat.mul_le_mul_right ncomp (Nat.succ_le_of_lt this)
      rw [Nat.succ_mul] at this
      rw [List.getElem?_take_of_lt (by omega), b3 i hi w hd c hc, hrc]

/-- The place at the rank that added a point for a point which another rank holds. -/
theorem place_of_remote {n : Nat} {npoint : Nat → Nat} {pts : Nat → List (QPoint α)}
    {q : Nat → QpRank α} (hq : FinOk n npoint pts q) {a b i : Nat} {p : QPoint α} (han : a < n)
    (hbn : b < n) (hp : (pts b)[i]? = some p) (hr : p.rank = a) (hab : a ≠ b) :
    ∃ ix : Nat, (q a).ownIdx[ix]? = some p.index := by
  have hrb : p.rank ≠ b := by rw [hr]; exact hab
  obtain ⟨j, k, c, h1, h2, h3, h4⟩ := (hq.held b hbn).rem i p hp hrb
  rw [hr] at h1
  obtain ⟨o, ho⟩ := List.mem_iff_getElem?.1
    ((hq.omem a han b).2 ⟨hbn, List.mem_of_getElem? h1⟩)
  refine ⟨((q a).ownCounts.take o).sum + k, ?_⟩
  rw [hq.xidx a o j b c k han ho h1 h2 h3, (hq.held b hbn).idx i p _ hp hrb h4]

/-- Which point a place is for. -/
theorem remote_of_place {n : Nat} {npoint : Nat → Nat} {pts : Nat → List (QPoint α)}
    {q : Nat → QpRank α} (hq : FinOk n npoint pts q) {a ix : Nat} (han : a < n)
    (hix : ix < (q a).ownIdx.length) :
    ∃ (b i o j k c : Nat) (p : QPoint α), b < n ∧ b ≠ a ∧ (pts b)[i]? = some p ∧ p.rank = a ∧
      (q a).ownIdx[ix]? = some p.index ∧ (q a).owners[o]? = some b ∧
      (q b).held.ranks[j]? = some a ∧ (q b).held.counts[j]? = some c ∧ k < c ∧
      ix = ((q a).ownCounts.take o).sum + k ∧
      (q b).held.write[i]? = some (((q b).held.counts.take j).sum + k) := by
  rw [hq.xlen a han] at hix
  obtain ⟨o, c, k, h1, h2, h3⟩ := segment_exists hix
  have ho : o < (q a).owners.length := by
    rw [← hq.olen a han]; exact (List.getElem?_eq_some_iff.1 h1).1
  have hob := List.getElem?_eq_getElem ho
  generalize (q a).owners[o] = b at hob
  obtain ⟨hbn, hmem⟩ := (hq.omem a han b).1 (List.mem_of_getElem? hob)
  obtain ⟨j, hj⟩ := List.mem_iff_getElem?.1 hmem
  have hcj := hq.ocnt a o j b han hob hj
  rw [h1] at hcj
  obtain ⟨i, p, p1, p2, p3⟩ := (hq.held b hbn).surj j k c a hj hcj.symm h2
  have hab : a ≠ b := (((hq.held b hbn).mem a).1 hmem).1
  refine ⟨b, i, o, j, k, c, p, hbn, fun h => hab h.symm, p1, p2, ?_, hob, hj, hcj.symm, h2, h3, p3⟩
  rw [h3, hq.xidx a o j b c k han hob hj hcj.symm h2]
  exact (hq.held b hbn).idx i p _ p1 (by rw [p2]; exact hab) p3

theorem qpGet_ok [Inhabited α] {n : Nat} (e : Nat → QpEnv α) (arrive : Nat → Sched)
    {npoint : Nat → Nat} {pts : Nat → List (QPoint α)} (hp : Placed n npoint pts)
    {q : Nat → QpRank α} (hq : FinOk n npoint pts q) {ncomp : Nat} (hk : 0 < ncomp ∧ ncomp < 1000)
    (hone : ncomp = 1 ∨ ∀ b, b < n → ∀ p ∈ pts b, p.rank = b)
    {vals : Nat → List (List α)} (hv : ∀ b, b < n → (vals b).length = (pts b).length)
    (hrow : ∀ b, b < n → ∀ row ∈ vals b, ncomp ≤ row.length) :
    ∃ out : Nat → List α, qpGet n e arrive ncomp q vals = some ((List.range n).map out) ∧
      ∀ a, a < n → (out a).length = npoint a * ncomp ∧
        ∀ (b i : Nat) (p : QPoint α) (row : List α), b < n → (pts b)[i]? = some p → p.rank = a →
          (vals b)[i]? = some row → ∀ c, c < ncomp →
          (out a)[p.index * ncomp + c]? = row[c]? := by
  have hloc : ∀ a, ∃ x : List α × List α, a < n →
      qpGetLocal (e a) a ncomp (q a) (vals a) = some x ∧
      x.1.length = npoint a * ncomp ∧ x.2.length = (q a).held.nremote * ncomp ∧
      ∀ (i w : Nat) (p : QPoint α) (row : List α), (pts a)[i]? = some p →
        (vals a)[i]? = some row → (q a).held.write[i]? = some w → ∀ c, c < ncomp →
        (p.rank = a → x.1[w * ncomp + c]? = row[c]?) ∧
        (p.rank ≠ a → x.2[w * ncomp + c]? = row[c]?) := by
    intro a
    by_cases han : a < n
    · obtain ⟨o, s, h⟩ := qpGetLocal_ok (e a) hp han (hq.np a han) (hq.same a han) (hq.held a han)
        (hv a han) (hrow a han)
      exact ⟨(o, s), fun _ => h⟩
    · exact ⟨([], []), fun h => absurd h han⟩
  obtain ⟨x, hx⟩ := Classical.axiomOfChoice hloc
  have hgd : ∀ r, r < n → ((List.range n).map x).getD r ([], []) = x r := by
    intro r hrn
    simp [List.getD_eq_getElem?_getD, List.getElem?_range hrn]
  have hzero : (∀ b, b < n → ∀ p ∈ pts b, p.rank = b) → ∀ a, a < n → (q a).ownCounts = [] := by
    intro hall a han
    rw [← List.length_eq_zero_iff, hq.olen a han, List.length_eq_zero_iff,
      List.eq_nil_iff_forall_not_mem]
    intro b hb
    obtain ⟨hbn, hmem⟩ := (hq.omem a han b).1 hb
    obtain ⟨h1, p, h2, h3⟩ := ((hq.held b hbn).mem a).1 hmem
    exact h1 (by rw [← h3, hall b hbn p h2])
  obtain ⟨recv, r1, r2⟩ := qpExchange_spec (n := n) arrive (ncomp := ncomp)
    (ranks := fun r => (q r).held.ranks) (counts := fun r => (q r).held.counts)
    (owners := fun r => (q r).owners) (ownCounts := fun r => (q r).ownCounts)
    (send := fun r => (((List.range n).map x).getD r ([], [])).2)
    (recv := fun r => ((e r).recv (q r).ownCounts.sum).1)
    (fun s hs => (hq.held s hs).lt) (fun s hs => (hq.held s hs).nodup)
    (fun s hs => (hq.held s hs).clen) hq.ond hq.omem hq.olen
    (fun r i j s hr => hq.ocnt r i j s hr)
    (fun r hr => by rw [hgd r hr, (hx r hr).2.2.1, (hq.held r hr).sum])
    (fun r hr => by
      rw [((e r).recv _).2]
      rcases hone with rfl | h
      · rw [Nat.mul_one]
      · rw [hzero h r hr]; simp)
  have hsc : ∀ a, ∃ o : List α, a < n → qpScatter ncomp (q a).ownIdx (recv a) (x a).1 = some o ∧
      o.length = npoint a * ncomp ∧
        ∀ (b i : Nat) (p : QPoint α) (row : List α), b < n → (pts b)[i]? = some p → p.rank = a →
          (vals b)[i]? = some row → ∀ c, c < ncomp → o[p.index * ncomp + c]? = row[c]? := by
    intro a
    by_cases han : a < n
    swap
    · exact ⟨[], fun h => absurd h han⟩
    -- the values at each place
    have hplace : ∀ ix, ix < (q a).ownIdx.length → ∃ (b i : Nat) (p : QPoint α) (row : List α),
        b < n ∧ b ≠ a ∧ (pts b)[i]? = some p ∧ p.rank = a ∧ (q a).ownIdx[ix]? = some p.index ∧
        (vals b)[i]? = some row ∧
        slice (recv a) (ix * ncomp) (ix * ncomp + ncomp) = some (row.take ncomp) := by
      intro ix hix
      obtain ⟨b, i, o, j, k, c, p, h1, h2, h3, h4, h5, h6, h7, h8, h9, h10, h11⟩ :=
        remote_of_place hq han hix
      have hil : i < (vals b).length := by
        rw [hv b h1]; exact (List.getElem?_eq_some_iff.1 h3).1
      have hri := List.getElem?_eq_getElem hil
      refine ⟨b, i, p, _, h1, h2, h3, h4, h5, hri, ?_⟩
      have hlen := (r2 a han).1
      rw [((e a).recv _).2] at hlen
      have hone' : ncomp = 1 := by
        rcases hone with h | h
        · exact h
        · exact absurd (by rw [← h4, h b h1 p (List.mem_of_getElem? h3)]) h2
      have hixl := hq.xlen a han
      have hend : ix * ncomp + ncomp ≤ (recv a).length := by
        rw [hlen, hone']; omega
      rw [slice_eq_some (by omega) hend, Nat.add_sub_cancel_left]
      congr 1
      apply List.ext_getElem?
      intro t
      by_cases ht : t < ncomp
      · rw [List.getElem?_take_of_lt ht, List.getElem?_take_of_lt ht, List.getElem?_drop]
        have hkc : k * ncomp + t < c * ncomp := by
          have := Nat.mul_le_mul_right ncomp (Nat.succ_le_of_lt h9)
          rw [Nat.succ_mul] at this
          omega
        have hh := (r2 a han).2 o j b c (k * ncomp + t) h6 h7 h8 hkc
        rw [hgd b h1] at hh
        rw [h10, Nat.add_mul, Nat.add_assoc, hh, ← Nat.add_assoc, ← Nat.add_mul]
        exact ((hx b h1).2.2.2 i _ p _ h3 hri h11 t ht).2 (by rw [h4]; exact fun h => h2 h.symm)
      · have := hrow b h1 _ (List.getElem_mem hil)
        rw [List.getElem?_eq_none (by rw [List.length_take, List.length_drop]; omega),
          List.getElem?_eq_none (by rw [List.length_take]; omega)]
    let V : Nat → List α := fun ix =>
      (slice (recv a) (ix * ncomp) (ix * ncomp + ncomp)).getD []
    obtain ⟨o, o1, o2, o3, o4⟩ := runItems_block (items := List.range (q a).ownIdx.length)
      (m := (x a).1) ncomp (fun ix => (q a).ownIdx[ix]?) V
      (step := fun ix output => (rd (q a).ownIdx ix).bind fun d =>
        (slice (recv a) (ix * ncomp) (ix * ncomp + ncomp)).bind fun v =>
          stRange output (d * ncomp) v) (by
        intro ix hix s hs
        obtain ⟨b, i, p, row, h1, h2, h3, h4, h5, h6, h7⟩ := hplace ix (List.mem_range.1 hix)
        simp only [rd, h5, Option.bind_some, h7, V, Option.getD_some]) (by
        intro ix hix d hd
        obtain ⟨b, i, p, row, h1, h2, h3, h4, h5, h6, h7⟩ := hplace ix (List.mem_range.1 hix)
        simp only [V, h7, Option.getD_some]
        rw [List.length_take, Nat.min_eq_left (hrow b h1 row (List.mem_of_getElem? h6))]) (by
        intro ix hix iy hiy d hd1 hd2
        obtain ⟨b, i, p, row, h1, h2, h3, h4, h5, h6, h7⟩ := hplace ix (List.mem_range.1 hix)
        obtain ⟨b', i', p', row', g1, g2, g3, g4, g5, g6, g7⟩ := hplace iy (List.mem_range.1 hiy)
        rw [h5] at hd1; rw [g5] at hd2
        obtain ⟨rfl, rfl⟩ := hp.uniq b b' i i' p p' h1 g1 h3 g3 (by rw [h4, g4])
          ((Option.some.inj hd1).trans (Option.some.inj hd2).symm)
        rw [h6] at g6
        obtain rfl := Option.some.inj g6
        simp only [V, h7, g7]) (by
        intro ix hix d hd
        obtain ⟨b, i, p, row, h1, h2, h3, h4, h5, h6, h7⟩ := hplace ix (List.mem_range.1 hix)
        rw [h5] at hd
        obtain rfl := Option.some.inj hd
        have := hp.idx b h1 p (List.mem_of_getElem? h3)
        rw [h4] at this
        have := Nat.mul_le_mul_right ncomp (Nat.succ_le_of_lt this)
        rw [Nat.succ_mul] at this
        rw [(hx a han).2.1]
        omega)
    refine ⟨o, fun _ => ⟨o1, by rw [o2, (hx a han).2.1], ?_⟩⟩
    intro b i p row h1 h2 h3 h4 c hc
    by_cases hba : b = a
    · subst hba
      have hw := (hq.held b h1).loc i p h2 h3
      rw [o4 p.index c hc, ((hx b h1).2.2.2 i p.index p row h2 h4 hw c hc).1 h3]
      intro ix hix hd
      obtain ⟨b', i', p', row', g1, g2, g3, g4, g5, g6, g7⟩ := hplace ix (List.mem_range.1 hix)
      rw [g5] at hd
      exact g2 (hp.uniq b' b i' i p' p g1 h1 g3 h2 (by rw [g4, h3]) (Option.some.inj hd)).1
    · obtain ⟨ix, hix⟩ := place_of_remote hq han h1 h2 h3 (fun h => hba h.symm)
      have hixl := (List.getElem?_eq_some_iff.1 hix).1
      rw [o3 ix (List.mem_range.2 hixl) p.index hix c hc]
      obtain ⟨b', i', p', row', g1, g2, g3, g4, g5, g6, g7⟩ := hplace ix hixl
      rw [hix] at g5
      obtain ⟨rfl, rfl⟩ := hp.uniq b b' i i' p p' h1 g1 h2 g3 (by rw [h3, g4]) (Option.some.inj g5)
      rw [h4] at g6
      obtain rfl := Option.some.inj g6
      simp only [V, g7, Option.getD_some]
      rw [List.getElem?_take_of_lt hc]
  obtain ⟨out, hout⟩ := Classical.axiomOfChoice hsc
  refine ⟨out, ?_, fun a han => (hout a han).2⟩
  unfold qpGet
  rw [if_pos hk, mapM_of_forall (g := x) (fun r hr => (hx r (List.mem_range.1 hr)).1),
    Option.bind_some, r1, Option.bind_some]
  refine mapM_of_forall fun r hr => ?_
  have hrn := List.mem_range.1 hr
  have e1 : ((List.range n).map x)[r]? = some (x r) := by simp [List.getElem?_range hrn]
  have e2 : ((List.range n).map recv)[r]? = some (recv r) := by simp [List.getElem?_range hrn]
  simp only [rd, e1, e2, Option.bind_some]
  exact (hout r hrn).1

end NP
