import Verif.Points.LemmasAdd

/-!
# C81: values at quadrature points come back in the order in which the points were added

`xs a` are the points that rank `a` adds, in order. The particles that `add_points_finalise` makes
from them move between ranks and cells (`PointsMoved`), after which rank `r` holds `pts r`.
-/

set_option autoImplicit false

namespace NP

open Spec

variable {α : Type}

/-- `add_points_finalise` succeeds, and `get` returns on each rank, for each point that it added and
in the order in which they were added, the values that the particle of this point has on the rank
where it is. Missing: `get` of two or more components when a rank holds a point of another one, which
fails (`C81_get_fails`). -/
theorem C81_get_partial [Inhabited α] {n : Nat} (e e' : Nat → QpEnv α) (order : Sched)
    (arrive arrive' arrive'' : Nat → Sched) {xs : Nat → List (List α)}
    {pts : Nat → List (QPoint α)} (hm : PointsMoved n (fun r => qpAdded r (xs r)) pts) {ncomp : Nat}
    (hk : 0 < ncomp ∧ ncomp < 1000) (hone : ncomp = 1 ∨ AllLocal n pts)
    {vals : Nat → List (List α)} (hv : ∀ b, b < n → (vals b).length = (pts b).length)
    (hrow : ∀ b, b < n → ∀ row ∈ vals b, row.length = ncomp) :
    ∃ qs, qpFinalise n e order arrive arrive' (fun r => (xs r).length) pts = some qs ∧
      ∃ out, qpGet n e' arrive'' ncomp (fun r => qs.getD r default) vals = some out ∧
        out.length = n ∧
        ∀ a, a < n → ∃ o, out[a]? = some o ∧ o.length = (xs a).length * ncomp ∧
          ∀ (x : Nat) (pt : List α), (xs a)[x]? = some pt →
            ∃ (b i : Nat) (p : QPoint α) (row : List α), b < n ∧ (pts b)[i]? = some p ∧
              p.rank = a ∧ p.index = x ∧ p.coords = pt ∧ (vals b)[i]? = some row ∧
              ∀ c, c < ncomp → o[x * ncomp + c]? = row[c]? := by
  obtain ⟨hp, -, hcov⟩ := placed_of_moved hm
  obtain ⟨qs, h1, -, h3⟩ := qpFinalise_ok e order arrive arrive' (fun r => (xs r).length) hp.lt
  obtain ⟨out, g1, g2⟩ := qpGet_ok e' arrive'' hp h3 hk hone hv
    (fun b hb row hr => by rw [hrow b hb row hr])
  refine ⟨qs, h1, _, g1, by simp, ?_⟩
  intro a ha
  refine ⟨out a, by simp [List.getElem?_range ha], (g2 a ha).1, ?_⟩
  intro x pt hx
  obtain ⟨b, i, p, q1, q2, q3, q4, q5⟩ := hcov a x pt ha hx
  have hi := List.getElem?_eq_getElem (show i < (vals b).length by
    rw [hv b q1]; exact (List.getElem?_eq_some_iff.1 q2).1)
  refine ⟨b, i, p, _, q1, q2, q3, q4, q5, hi, fun c hc => ?_⟩
  rw [← q4]
  exact (g2 a ha).2 b i p _ q1 q2 q3 hi c hc

/-- `get` of two or more components fails on every run in which a rank holds a point that another
rank added: the receive buffer has room for one value per point. -/
theorem C81_get_fails {n : Nat} (e e' : Nat → QpEnv α) (order : Sched)
    (arrive arrive' arrive'' : Nat → Sched) {xs : Nat → List (List α)}
    {pts : Nat → List (QPoint α)} (hm : PointsMoved n (fun r => qpAdded r (xs r)) pts) {ncomp : Nat}
    (hk : 2 ≤ ncomp) (hrem : ¬ AllLocal n pts) (vals : Nat → List (List α)) :
    ∃ qs, qpFinalise n e order arrive arrive' (fun r => (xs r).length) pts = some qs ∧
      qpGet n e' arrive'' ncomp (fun r => qs.getD r default) vals = none := by
  obtain ⟨hp, -, -⟩ := placed_of_moved hm
  obtain ⟨qs, h1, -, h3⟩ := qpFinalise_ok e order arrive arrive' (fun r => (xs r).length) hp.lt
  refine ⟨qs, h1, ?_⟩
  obtain ⟨b, hb, p, hpm, hpr⟩ : ∃ b, b < n ∧ ∃ p ∈ pts b, p.rank ≠ b := by
    unfold AllLocal at hrem
    push Not at hrem
    exact hrem
  have ha := hp.lt b hb p hpm
  obtain ⟨i, hi⟩ := List.mem_iff_getElem?.1 hpm
  obtain ⟨ix, hix⟩ := place_of_remote h3 ha hb hi rfl hpr
  have hpos : 0 < (qs.getD p.rank default).ownCounts.sum := by
    rw [← h3.xlen p.rank ha]
    exact Nat.lt_of_le_of_lt (Nat.zero_le _) (List.getElem?_eq_some_iff.1 hix).1
  unfold qpGet
  split
  · refine Option.bind_eq_none_iff.2 fun ls _ => ?_
    unfold qpExchange
    rw [Option.bind_eq_none_iff]
    intro x hx
    obtain ⟨msgs, -, h4⟩ := Option.bind_eq_some_iff.1 hx
    rw [if_neg] at h4
    · cases h4
    · intro h
      have := h p.rank (List.mem_range.2 ha)
      rw [sum_sizes, ((e' p.rank).recv _).2] at this
      dsimp only at this
      have h2 := Nat.mul_le_mul_left (qs.getD p.rank default).ownCounts.sum hk
      omega
  · rfl

/-- `interpolate` and `get`: value `c` of the point number `x` of a rank is function `c` at the
position which the rank gave for this point. Missing: as for `get`. -/
theorem C81_interpolate_partial [Inhabited α] {n : Nat} (e e' e'' : Nat → QpEnv α) (order : Sched)
    (arrive arrive' arrive'' : Nat → Sched) {xs : Nat → List (List α)}
    {pts : Nat → List (QPoint α)} (hm : PointsMoved n (fun r => qpAdded r (xs r)) pts)
    (fs : List (List α → α)) (hk : 0 < fs.length ∧ fs.length < 1000)
    (hone : fs.length = 1 ∨ AllLocal n pts)
    {vals : Nat → List (List α)} (hv : ∀ b, b < n → (vals b).length = (pts b).length)
    (hrow : ∀ b, b < n → ∀ row ∈ vals b, row.length = fs.length) :
    ∃ qs, qpFinalise n e order arrive arrive' (fun r => (xs r).length) pts = some qs ∧
      ∃ vs, ((List.range n).mapM fun r => qpInterp (e'' r) (pts r) fs (vals r)) = some vs ∧
      ∃ out, qpGet n e' arrive'' fs.length (fun r => qs.getD r default)
          (fun r => vs.getD r []) = some out ∧ out.length = n ∧
        ∀ a, a < n → ∃ o, out[a]? = some o ∧ o.length = (xs a).length * fs.length ∧
          ∀ (x c : Nat) (pt : List α) (f : List α → α), (xs a)[x]? = some pt → fs[c]? = some f →
            o[x * fs.length + c]? = some (f pt) := by
  have hvs := mapM_of_forall (l := List.range n)
    (f := fun r => qpInterp (e'' r) (pts r) fs (vals r))
    (g := fun r => (pts r).map fun p => fs.map fun f => f p.coords)
    (fun r hr => qpInterp_ok (e'' r) (pts r) fs (hv r (List.mem_range.1 hr))
      (hrow r (List.mem_range.1 hr)))
  have hg : ∀ b, b < n → ((List.range n).map fun r => (pts r).map fun p =>
      fs.map fun f => f p.coords).getD b [] = (pts b).map fun p => fs.map fun f => f p.coords := by
    intro b hb
    simp [List.getD_eq_getElem?_getD, List.getElem?_range hb]
  obtain ⟨qs, h1, out, h2, h3, h4⟩ := C81_get_partial e e' order arrive arrive' arrive'' hm hk hone
    (vals := fun r => ((List.range n).map fun r => (pts r).map fun p =>
      fs.map fun f => f p.coords).getD r [])
    (fun b hb => by rw [hg b hb, List.length_map])
    (fun b hb row hr => by
      rw [hg b hb] at hr
      obtain ⟨p, -, rfl⟩ := List.mem_map.1 hr
      rw [List.length_map])
  refine ⟨qs, h1, _, hvs, out, h2, h3, ?_⟩
  intro a ha
  obtain ⟨o, o1, o2, o3⟩ := h4 a ha
  refine ⟨o, o1, o2, ?_⟩
  intro x c pt f hx hf
  obtain ⟨b, i, p, row, q1, q2, q3, q4, q5, q6, q7⟩ := o3 x pt hx
  rw [q7 c (List.getElem?_eq_some_iff.1 hf).1]
  rw [hg b q1, List.getElem?_map, q2, Option.map_some] at q6
  rw [← Option.some.inj q6, List.getElem?_map, hf, q5]
  rfl

/-- `set` gives each point that is on the rank which added it the values for its number, and leaves
the points that other ranks added as they are. -/
theorem C81_set {n : Nat} (e e' : Nat → QpEnv α) (order : Sched)
    (arrive arrive' : Nat → Sched) {xs : Nat → List (List α)}
    {pts : Nat → List (QPoint α)} (hm : PointsMoved n (fun r => qpAdded r (xs r)) pts) {ncomp : Nat}
    (hk : 0 < ncomp ∧ ncomp < 1000) {input : Nat → List α}
    (hin : ∀ a, a < n → (xs a).length * ncomp ≤ (input a).length)
    {vals : Nat → List (List α)} (hv : ∀ b, b < n → (vals b).length = (pts b).length)
    (hrow : ∀ b, b < n → ∀ row ∈ vals b, row.length = ncomp) :
    ∃ qs, qpFinalise n e order arrive arrive' (fun r => (xs r).length) pts = some qs ∧
      ∀ a, a < n → ∃ vals', qpSet (e' a) a ncomp (qs.getD a default) (input a) (vals a) = some vals' ∧
        vals'.length = (vals a).length ∧
        ∀ (i : Nat) (p : QPoint α), (pts a)[i]? = some p →
          (p.rank = a → ∃ row, vals'[i]? = some row ∧ row.length = ncomp ∧
            ∀ c, c < ncomp → row[c]? = (input a)[p.index * ncomp + c]?) ∧
          (p.rank ≠ a → vals'[i]? = (vals a)[i]?) := by
  obtain ⟨hp, -, -⟩ := placed_of_moved hm
  obtain ⟨qs, h1, -, h3⟩ := qpFinalise_ok e order arrive arrive' (fun r => (xs r).length) hp.lt
  refine ⟨qs, h1, ?_⟩
  intro a ha
  obtain ⟨vals', g1, g2, g3, g4⟩ := qpSet_ok (e' a) hp ha (h3.np a ha) (h3.same a ha)
    (h3.held a ha) hk (hin a ha) (hv a ha) (hrow a ha)
  refine ⟨vals', g1, g2, ?_⟩
  intro i p hi
  refine ⟨fun hr => ?_, (g4 i p hi).2⟩
  obtain ⟨row, r1, r2⟩ := (g4 i p hi).1 hr
  exact ⟨row, r1, g3 row (List.mem_of_getElem? r1), r2⟩

/-- `set` and then `get` returns the input for the points on the rank that added them. For a point on
another rank it returns the value from before `set`, not the input. -/
theorem C81_set_get_partial [Inhabited α] {n : Nat} (e e' e'' : Nat → QpEnv α) (order : Sched)
    (arrive arrive' arrive'' : Nat → Sched) {xs : Nat → List (List α)}
    {pts : Nat → List (QPoint α)} (hm : PointsMoved n (fun r => qpAdded r (xs r)) pts) {ncomp : Nat}
    (hk : 0 < ncomp ∧ ncomp < 1000) (hone : ncomp = 1 ∨ AllLocal n pts) {input : Nat → List α}
    (hin : ∀ a, a < n → (xs a).length * ncomp ≤ (input a).length)
    {vals : Nat → List (List α)} (hv : ∀ b, b < n → (vals b).length = (pts b).length)
    (hrow : ∀ b, b < n → ∀ row ∈ vals b, row.length = ncomp) :
    ∃ qs, qpFinalise n e order arrive arrive' (fun r => (xs r).length) pts = some qs ∧
      ∃ vs, ((List.range n).mapM fun r => qpSet (e'' r) r ncomp (qs.getD r default) (input r)
        (vals r)) = some vs ∧
      ∃ out, qpGet n e' arrive'' ncomp (fun r => qs.getD r default) (fun r => vs.getD r []) =
          some out ∧ out.length = n ∧
        ∀ a, a < n → ∃ o, out[a]? = some o ∧ o.length = (xs a).length * ncomp ∧
          ∀ (x : Nat) (pt : List α), (xs a)[x]? = some pt →
            ∃ (b i : Nat) (p : QPoint α) (row : List α), b < n ∧ (pts b)[i]? = some p ∧
              p.rank = a ∧ p.index = x ∧ p.coords = pt ∧ (vals b)[i]? = some row ∧
              ∀ c, c < ncomp → o[x * ncomp + c]? =
                if b = a then (input a)[x * ncomp + c]? else row[c]? := by
  obtain ⟨hp, -, hcov⟩ := placed_of_moved hm
  obtain ⟨qs, h1, -, h3⟩ := qpFinalise_ok e order arrive arrive' (fun r => (xs r).length) hp.lt
  have hset : ∀ r, ∃ v : List (List α), r < n →
      qpSet (e'' r) r ncomp (qs.getD r default) (input r) (vals r) = some v ∧
      v.length = (vals r).length ∧ (∀ row ∈ v, row.length = ncomp) ∧
      ∀ (i : Nat) (p : QPoint α), (pts r)[i]? = some p →
        (p.rank = r → ∃ row, v[i]? = some row ∧
          ∀ c, c < ncomp → row[c]? = (input r)[p.index * ncomp + c]?) ∧
        (p.rank ≠ r → v[i]? = (vals r)[i]?) := by
    intro r
    by_cases hr : r < n
    · obtain ⟨v, g⟩ := qpSet_ok (e'' r) hp hr (h3.np r hr) (h3.same r hr)
        (h3.held r hr) hk (hin r hr) (hv r hr) (hrow r hr)
      exact ⟨v, fun _ => g⟩
    · exact ⟨[], fun h => absurd h hr⟩
  obtain ⟨v, hset⟩ := Classical.axiomOfChoice hset
  have hvs := mapM_of_forall (l := List.range n) (g := v)
    (fun r hr => (hset r (List.mem_range.1 hr)).1)
  have hg : ∀ b, b < n → ((List.range n).map v).getD b [] = v b := by
    intro b hb
    simp [List.getD_eq_getElem?_getD, List.getElem?_range hb]
  obtain ⟨out, g1, g2⟩ := qpGet_ok e' arrive'' hp h3 hk hone
    (vals := fun r => ((List.range n).map v).getD r [])
    (fun b hb => by rw [hg b hb, (hset b hb).2.1, hv b hb])
    (fun b hb row hr => by rw [hg b hb] at hr; rw [(hset b hb).2.2.1 row hr])
  refine ⟨qs, h1, _, hvs, _, g1, by simp, ?_⟩
  intro a ha
  refine ⟨out a, by simp [List.getElem?_range ha], (g2 a ha).1, ?_⟩
  intro x pt hx
  obtain ⟨b, i, p, q1, q2, q3, q4, q5⟩ := hcov a x pt ha hx
  have hi := List.getElem?_eq_getElem (show i < (vals b).length by
    rw [hv b q1]; exact (List.getElem?_eq_some_iff.1 q2).1)
  refine ⟨b, i, p, _, q1, q2, q3, q4, q5, hi, fun c hc => ?_⟩
  have hb := (hset b q1).2.2.2 i p q2
  have hget := (g2 a ha).2 b i p
  rw [q4, hg b q1] at hget
  by_cases hba : b = a
  · rw [if_pos hba]
    obtain ⟨row, r1, r2⟩ := hb.1 (by rw [q3, hba])
    rw [hget row q1 q2 q3 r1 c hc, r2 c hc, q4, hba]
  · rw [if_neg hba]
    exact hget _ q1 q2 q3 ((hb.2 (by rw [q3]; exact fun h => hba h.symm)).trans hi) c hc

/-- The fourth component of `ADDING_RANK_INDEX` numbers, in each cell, the points that are on the
rank which added them `0, 1, …` without gaps, in some order, and is -1 for the others. -/
theorem C81_order (e : QpEnv α) {ncell me : Nat} {pts : List (QPoint α)} {old : List Int}
    (hc : ∀ p ∈ pts, p.cell < ncell) (ho : old.length = pts.length) :
    ∃ out, qpOrder e ncell me pts old = some out ∧ out.length = pts.length ∧
      (∀ (i : Nat) (p : QPoint α), pts[i]? = some p → p.rank ≠ me → out[i]? = some (-1)) ∧
      (∀ (i : Nat) (p : QPoint α), pts[i]? = some p → p.rank = me → ∃ k : Nat,
        out[i]? = some (k : Int) ∧
        k < (pts.filter fun p' => p'.rank = me ∧ p'.cell = p.cell).length) ∧
      (∀ (i j : Nat) (p p' : QPoint α), pts[i]? = some p → pts[j]? = some p' → p.rank = me →
        p'.rank = me → p.cell = p'.cell → out[i]? = out[j]? → i = j) := by
  have hperm := e.s3.perm (List.range pts.length)
  obtain ⟨items, hit⟩ : ∃ items, items = e.s3.order (List.range pts.length) := ⟨_, rfl⟩
  rw [← hit] at hperm
  have hnd : items.Nodup := hperm.nodup_iff.2 List.nodup_range
  let key : Nat → Option Nat := fun i => (pts[i]?).bind fun p =>
    if p.rank = me then some p.cell else none
  have hkey : ∀ (i : Nat) (p : QPoint α), pts[i]? = some p → p.rank = me →
      key i = some p.cell := by
    intro i p h1 h2
    simp only [key, h1, Option.bind_some, if_pos h2]
  have hkn : ∀ (i : Nat) (p : QPoint α), pts[i]? = some p → p.rank ≠ me → key i = none := by
    intro i p h1 h2
    simp only [key, h1, Option.bind_some, if_neg h2]
  have e1 : runItems (qpStep3 me pts) items (List.replicate ncell 0, old) =
      runItems (fetchStep key (fun i v s => st s i (v : Int)) (fun i s => st s i (-1))) items
        (List.replicate ncell 0, old) := by
    refine runItems_congr ?_ _
    intro i hi s
    have hl := List.mem_range.1 (hperm.mem_iff.1 hi)
    have h1 := List.getElem?_eq_getElem hl
    unfold qpStep3 fetchStep
    by_cases hr : pts[i].rank = me
    · rw [hkey i _ h1 hr]
      simp only [rd, h1, Option.bind_some, if_pos hr]
    · rw [hkn i _ h1 hr]
      simp only [rd, h1, Option.bind_some, if_neg hr]
  have hkc : ∀ i ∈ items, ∀ c, key i = some c → c < (List.replicate ncell 0).length := by
    intro i hi c h
    obtain ⟨p, p1, p2⟩ := Option.bind_eq_some_iff.1 h
    split at p2
    · rw [← Option.some.inj p2]; simpa using hc p (List.mem_of_getElem? p1)
    · cases p2
  let W : Nat → Int := fun i => match key i with
    | none => -1
    | some c => (((List.replicate ncell 0).getD c 0 + rank key items i : Nat) : Int)
  obtain ⟨out, r1, r2, r3, -⟩ := runItems_put (items := items) (m := old) (fun i => some i) W
    (step := fun i s => match key i with
      | none => st s i (-1)
      | some c => st s i (((List.replicate ncell 0).getD c 0 + rank key items i : Nat) : Int)) (by
      intro i hi s hs
      simp only [W]
      cases key i <;> rfl) (by
      intro i hi j hj d h1 h2
      rw [Option.some.inj h1, Option.some.inj h2]) (by
      intro i hi d h1
      rw [← Option.some.inj h1, ho]; exact List.mem_range.1 (hperm.mem_iff.1 hi))
  have hW : ∀ (i : Nat) (p : QPoint α), pts[i]? = some p → p.rank = me →
      out[i]? = some ((rank key items i : Nat) : Int) := by
    intro i p h1 h2
    have hi : i ∈ items := hperm.mem_iff.2 (List.mem_range.2 (List.getElem?_eq_some_iff.1 h1).1)
    have hcl := hc p (List.mem_of_getElem? h1)
    rw [r3 i hi i rfl]
    simp only [W, hkey i p h1 h2, List.getD_eq_getElem?_getD]
    simp [hcl]
  refine ⟨out, ?_, by omega, ?_, ?_, ?_⟩
  · unfold qpOrder
    rw [← hit, e1, runItems_fetch hnd hkc]
    exact congrArg (fun o : Option (List Int) => (o.map fun t =>
      (addCounts key items (List.replicate ncell 0), t)).bind fun s => some s.2) r1
  · intro i p h1 h2
    have hi : i ∈ items := hperm.mem_iff.2 (List.mem_range.2 (List.getElem?_eq_some_iff.1 h1).1)
    rw [r3 i hi i rfl]
    simp only [W, hkn i p h1 h2]
  · intro i p h1 h2
    have hi : i ∈ items := hperm.mem_iff.2 (List.mem_range.2 (List.getElem?_eq_some_iff.1 h1).1)
    refine ⟨_, hW i p h1 h2, ?_⟩
    have := rank_lt hi (hkey i p h1 h2)
    rw [keyCount_perm hperm] at this
    refine Nat.lt_of_lt_of_eq this ?_
    rw [← length_filter_range fun p' : QPoint α => decide (p'.rank = me ∧ p'.cell = p.cell)]
    unfold keyCount
    congr 1
    refine List.filter_congr fun j hj => ?_
    have hj := List.getElem?_eq_getElem (List.mem_range.1 hj)
    simp only [key, hj, Option.bind_some, Option.any_some]
    by_cases hr : (pts[j]'(List.getElem?_eq_some_iff.1 hj).1).rank = me
    · simp [hr]
    · simp [hr]
  · intro i j p p' h1 h2 h3 h4 h5 h6
    rw [hW i p h1 h3, hW j p' h2 h4] at h6
    have hi : i ∈ items := hperm.mem_iff.2 (List.mem_range.2 (List.getElem?_eq_some_iff.1 h1).1)
    refine rank_inj hi (hkey i p h1 h3) (by rw [h5]; exact hkey j p' h2 h4) ?_
    exact Int.ofNat.inj (Option.some.inj h6)

/-! ## A case with points on other ranks -/

namespace Ex

/-- Loops in reversed order and memory full of nines. -/
def qpEnv : QpEnv Nat where
  s0 := Sched.reversed
  s1 := Sched.inOrder
  s2 := Sched.reversed
  s3 := Sched.reversed
  remote := fun n => ⟨List.replicate n ⟨9, 9, 9⟩, List.length_replicate⟩
  tmp := fun n => ⟨List.replicate n 9, List.length_replicate⟩
  write := fun n => ⟨List.replicate n 9, List.length_replicate⟩
  idx := fun n => ⟨List.replicate n 9, List.length_replicate⟩
  recvIdx := fun n => ⟨List.replicate n 9, List.length_replicate⟩
  loc := fun n => ⟨List.replicate n 9, List.length_replicate⟩
  rem := fun n => ⟨List.replicate n 9, List.length_replicate⟩
  recv := fun n => ⟨List.replicate n 9, List.length_replicate⟩

/-- Rank 0 adds four points, rank 1 adds two, rank 2 none. -/
def qpXs : Nat → List (List Nat)
  | 0 => [[10], [11], [12], [13]]
  | 1 => [[20], [21]]
  | _ => []

/-- Rank 0 holds one point of its own and one of rank 1, rank 1 two of rank 0, rank 2 one of each. -/
def qpPts : Nat → List (QPoint Nat)
  | 0 => [⟨[20], 1, 1, 0⟩, ⟨[12], 0, 0, 2⟩]
  | 1 => [⟨[13], 0, 0, 3⟩, ⟨[10], 0, 0, 0⟩]
  | 2 => [⟨[11], 0, 0, 1⟩, ⟨[21], 0, 1, 1⟩]
  | _ => []

/-- Each rank holds the points that it added. -/
def qpHome : Nat → List (QPoint Nat)
  | 0 => [⟨[13], 0, 0, 3⟩, ⟨[11], 0, 0, 1⟩, ⟨[10], 1, 0, 0⟩, ⟨[12], 0, 0, 2⟩]
  | 1 => [⟨[20], 1, 1, 0⟩, ⟨[21], 0, 1, 1⟩]
  | _ => []

theorem qp_moved : PointsMoved 3 (fun r => qpAdded r (qpXs r)) qpPts := by
  unfold PointsMoved
  decide +kernel

theorem qp_home : PointsMoved 3 (fun r => qpAdded r (qpXs r)) qpHome ∧ AllLocal 3 qpHome := by
  refine ⟨by unfold PointsMoved; decide +kernel, ?_⟩
  unfold AllLocal
  decide +kernel

theorem qp_not_local : ¬ AllLocal 3 qpPts := by
  intro h
  exact absurd (h 0 (by decide) ⟨[20], 1, 1, 0⟩ (by decide)) (by decide)

/-- The ranks after `add_points_finalise`. -/
def qpRanks (pts : Nat → List (QPoint Nat)) : Option (Nat → QpRank Nat) :=
  (qpFinalise 3 (fun _ => qpEnv) Sched.reversed (fun _ => Sched.reversed) (fun _ => Sched.inOrder)
    (fun r => (qpXs r).length) pts).map fun qs r => qs.getD r default

end Ex

/-- One component: each rank gets its values in the order in which it added the points. -/
example : ((Ex.qpRanks Ex.qpPts).bind fun qs =>
    qpGet 3 (fun _ => Ex.qpEnv) (fun _ => Sched.reversed) 1 qs
      (fun r => (Ex.qpPts r).map fun p => [p.coords.sum + 100])) =
    some [[110, 111, 112, 113], [120, 121], []] := by
  decide +kernel

/-- Two components fail for the same points. -/
example : ((Ex.qpRanks Ex.qpPts).map fun qs =>
    (qpGet 3 (fun _ => Ex.qpEnv) (fun _ => Sched.reversed) 2 qs
      (fun r => (Ex.qpPts r).map fun p => [p.coords.sum + 100, 7])).isNone) = some true := by
  decide +kernel

/-- Two components of points which stayed where they were added. -/
example : ((Ex.qpRanks Ex.qpHome).bind fun qs =>
    qpGet 3 (fun _ => Ex.qpEnv) (fun _ => Sched.reversed) 2 qs
      (fun r => (Ex.qpHome r).map fun p => [p.coords.sum + 100, p.coords.sum + 200])) =
    some [[110, 210, 111, 211, 112, 212, 113, 213], [120, 220, 121, 221], []] := by
  decide +kernel

/-- The functions are evaluated at the points which were added. -/
example : ((Ex.qpRanks Ex.qpPts).bind fun qs =>
    ((List.range 3).mapM fun r => qpInterp Ex.qpEnv (Ex.qpPts r) [fun x => 3 * x.sum]
      ((Ex.qpPts r).map fun _ => [0])).bind fun vs =>
    qpGet 3 (fun _ => Ex.qpEnv) (fun _ => Sched.reversed) 1 qs (fun r => vs.getD r [])) =
    some [[30, 33, 36, 39], [60, 63], []] := by
  decide +kernel

/-- `set` reaches point 2 of rank 0 only, the one point that is on the rank which added it. -/
example : ((Ex.qpRanks Ex.qpPts).bind fun qs =>
    ((List.range 3).mapM fun r => qpSet Ex.qpEnv r 1 (qs r) [50, 51, 52, 53]
      ((Ex.qpPts r).map fun _ => [0])).bind fun vs =>
    qpGet 3 (fun _ => Ex.qpEnv) (fun _ => Sched.reversed) 1 qs (fun r => vs.getD r [])) =
    some [[0, 0, 52, 0], [0, 0], []] := by
  decide +kernel

/-- Three points of rank 0 are in cell 0 and one in cell 1. -/
example : qpOrder Ex.qpEnv 2 0 (Ex.qpHome 0 ++ [⟨[20], 1, 1, 0⟩]) [8, 8, 8, 8, 8] =
    some [2, 1, 0, 0, -1] := by
  decide +kernel

example (vals : Nat → List (List Nat)) := C81_get_fails (fun _ => Ex.qpEnv) (fun _ => Ex.qpEnv)
  Sched.inOrder (fun _ => Sched.inOrder) (fun _ => Sched.inOrder) (fun _ => Sched.inOrder)
  Ex.qp_moved (Nat.le_refl 2) Ex.qp_not_local vals

end NP
