import Verif.Containers.SpecArray
import Verif.Loop.Props
import Verif.Common.KernelLemmas
import Verif.Comm.LemmasExchange
import Mathlib.Algebra.BigOperators.Group.List.Lemmas

/-! Lemmas about arrays in particle loops. -/

set_option autoImplicit false

namespace NP

open Spec

variable {α : Type}

/-- The values added to component `i` by a list of calls. -/
def addsTo (i : Nat) (calls : List (Int × α)) : List α :=
  (calls.filter fun a => a.1 = (i : Int)).map (·.2)

theorem addsTo_append (i : Nat) (a b : List (Int × α)) :
    addsTo i (a ++ b) = addsTo i a ++ addsTo i b := by
  simp [addsTo]

theorem addsTo_flatMap {β : Type} (i : Nat) (l : List β) (f : β → List (Int × α)) :
    addsTo i (l.flatMap f) = l.flatMap fun x => addsTo i (f x) := by
  induction l with
  | nil => rfl
  | cons a l ih => rw [List.flatMap_cons, addsTo_append, ih, List.flatMap_cons]

theorem arrayAdd_spec [Add α] {m : List α} {a : Int × α} (h : 0 ≤ a.1 ∧ a.1 < m.length) :
    ∃ v, m[a.1.toNat]? = some v ∧ arrayAdd a m = some (m.set a.1.toNat (v + a.2)) := by
  have hl : a.1.toNat < m.length := by omega
  refine ⟨m[a.1.toNat], List.getElem?_eq_getElem hl, ?_⟩
  simp only [arrayAdd, index, if_pos h.1, rd, Option.bind_some, List.getElem?_eq_getElem hl,
    st_eq_some hl]

theorem arrayAdds_run [AddCommMonoid α] {calls : List (Int × α)} {m : List α}
    (h : ∀ a ∈ calls, 0 ≤ a.1 ∧ a.1 < m.length) :
    ∃ m', runItems arrayAdd calls m = some m' ∧ m'.length = m.length ∧
      ∀ i, m'[i]? = (m[i]?).map (· + (addsTo i calls).sum) := by
  induction calls generalizing m with
  | nil => exact ⟨m, rfl, rfl, fun i => by simp [addsTo]⟩
  | cons a calls ih =>
    obtain ⟨v, h1, h2⟩ := arrayAdd_spec (h a List.mem_cons_self)
    obtain ⟨m', h3, h4, h5⟩ := ih (m := m.set a.1.toNat (v + a.2)) (by
      intro b hb; rw [List.length_set]; exact h b (List.mem_cons_of_mem _ hb))
    refine ⟨m', by rw [runItems_cons, h2, Option.bind_some, h3], by rw [h4, List.length_set],
      fun i => ?_⟩
    have ha := (h a List.mem_cons_self).1
    rw [h5, List.getElem?_set]
    by_cases hi : a.1.toNat = i
    · subst hi
      have hl := (List.getElem?_eq_some_iff.1 h1).1
      have he : decide (a.1 = ((a.1.toNat : Nat) : Int)) = true := by
        simp only [decide_eq_true_eq]; omega
      rw [if_pos rfl, if_pos hl, h1]
      simp only [Option.map_some, addsTo, List.filter_cons, he, if_true, List.map_cons,
        List.sum_cons, add_assoc]
    · have he : ¬ (decide (a.1 = (i : Int)) = true) := by
        simp only [decide_eq_true_eq]; omega
      rw [if_neg hi]
      simp only [addsTo, List.filter_cons, if_neg he]

/-- The particles a launch visits, cell by cell. -/
def requestedList (L : GaLaunch α) : List (Nat × Nat) :=
  (L.npart.zipIdx.filter fun nc => CellRequested L.cs L.ce nc.2).flatMap
    fun nc => (List.range nc.1).map fun k => (nc.2, k)

theorem mem_requestedList (L : GaLaunch α) (c k : Nat) :
    (c, k) ∈ requestedList L ↔ CellRequested L.cs L.ce c ∧ IsParticle L.npart c k := by
  unfold requestedList IsParticle
  simp only [List.mem_flatMap, List.mem_filter, List.mem_map, List.mem_range, Prod.mk.injEq,
    decide_eq_true_eq, Prod.exists, List.mem_zipIdx_iff_getElem?]
  constructor
  · rintro ⟨n, c', ⟨h1, h2⟩, k', h3, rfl, rfl⟩
    exact ⟨h2, n, h1, h3⟩
  · rintro ⟨h1, n, h2, h3⟩
    exact ⟨n, c, ⟨h2, h1⟩, k, h3, rfl, rfl⟩

theorem nodup_requestedList (L : GaLaunch α) : (requestedList L).Nodup := by
  unfold requestedList
  rw [List.nodup_flatMap]
  refine ⟨fun nc _ => (List.nodup_range).map fun a b h => (Prod.mk.inj h).2, ?_⟩
  have hn : (L.npart.zipIdx.filter fun nc => CellRequested L.cs L.ce nc.2).Pairwise
      fun a b => a.2 ≠ b.2 := by
    refine List.Pairwise.filter _ ?_
    have := List.nodup_range' (s := 0) (n := L.npart.length) (step := 1)
    have e : L.npart.zipIdx.map (·.2) = List.range' 0 L.npart.length := by
      rw [List.zipIdx_map_snd]
    rw [← e] at this
    exact List.pairwise_map.1 this
  refine hn.imp ?_
  intro a b hab x hx hy
  simp only [List.mem_map] at hx hy
  obtain ⟨_, _, rfl⟩ := hx
  obtain ⟨_, _, h⟩ := hy
  exact hab (Prod.mk.inj h).1.symm

theorem visits_perm {L : GaLaunch α} {vs : List (Nat × Nat)}
    (h : VisitsExactlyOnce vs (fun c k => CellRequested L.cs L.ce c ∧ IsParticle L.npart c k)) :
    vs.Perm (requestedList L) := by
  rw [List.perm_ext_iff_of_nodup h.1 (nodup_requestedList L)]
  intro ⟨c, k⟩
  rw [h.2, mem_requestedList]

theorem launchSum_eq [AddCommMonoid α] (L : GaLaunch α) (i : Nat) :
    (addsTo i ((requestedList L).flatMap fun v => L.adds v.1 v.2)).sum = launchSum L i := by
  unfold requestedList launchSum
  generalize (L.npart.zipIdx.filter fun nc => CellRequested L.cs L.ce nc.2) = l
  induction l with
  | nil => simp [addsTo]
  | cons a l ih =>
    rw [List.flatMap_cons, List.flatMap_append, addsTo_append, List.sum_append, ih,
      List.map_cons, List.sum_cons]
    congr 1
    rw [addsTo_flatMap, List.flatMap_map]
    rfl

/-- What the kernels of a launch do to a buffer of at least `size` elements. -/
theorem launch_adds [AddCommMonoid α] {size : Nat} {L : GaLaunch α} (h : GaLaunchOk size L)
    {m : List α} (hm : size ≤ m.length) :
    ∃ vs m', submitVisits L.P L.npart L.hasGroup L.npartLocal L.cs L.ce = some vs ∧
      runItems arrayAdd (L.ord.order (vs.flatMap fun v => L.adds v.1 v.2)) m = some m' ∧
      m'.length = m.length ∧ ∀ i, m'[i]? = (m[i]?).map (· + launchSum L i) := by
  obtain ⟨vs, h1, h2⟩ := C07_each_particle_once h.launch h.cells
  have hp := L.ord.perm (vs.flatMap fun v => L.adds v.1 v.2)
  obtain ⟨m', h3, h4, h5⟩ := arrayAdds_run (m := m)
    (calls := L.ord.order (vs.flatMap fun v => L.adds v.1 v.2)) (by
      intro a ha
      rw [hp.mem_iff, List.mem_flatMap] at ha
      obtain ⟨⟨c, k⟩, hv, ha⟩ := ha
      have := h.comps c k ((h2.2 c k).1 hv).2 a ha
      omega)
  refine ⟨vs, m', h1, h3, h4, fun i => ?_⟩
  rw [h5, ← launchSum_eq]
  have : (addsTo i (L.ord.order (vs.flatMap fun v => L.adds v.1 v.2))).Perm
      (addsTo i ((requestedList L).flatMap fun v => L.adds v.1 v.2)) :=
    ((hp.trans ((visits_perm h2).flatMap_right _)).filter _).map _
  rw [this.sum_eq]

theorem zeroedBuffer_spec [Zero α] (res : List α) (fresh : Fresh α) (size : Nat) :
    ∃ b, zeroedBuffer res fresh size = some b ∧ size ≤ b.length ∧
      ∀ i < size, b[i]? = some 0 := by
  have hl : size ≤ (bufRealloc fresh size res).length := by
    unfold bufRealloc
    split
    · omega
    · split
      · rw [(fresh size).2]
      · omega
  have hs := stRange_eq_some (m := bufRealloc fresh size res) (a := 0)
    (vs := List.replicate size 0) (by simpa using hl)
  refine ⟨_, hs, ?_, ?_⟩
  · rw [(length_of_stRange hs).1]; exact hl
  · intro i hi
    rw [getElem?_of_stRange hs]
    simp [hi]

theorem mapM_range_exists {β : Type} {n : Nat} {f : Nat → Option β} {R : Nat → β → Prop}
    (h : ∀ r < n, ∃ b, f r = some b ∧ R r b) :
    ∃ l, (List.range n).mapM f = some l ∧ l.length = n ∧
      ∀ r < n, ∃ b, l[r]? = some b ∧ R r b := by
  induction n with
  | zero => exact ⟨[], rfl, rfl, fun r hr => by omega⟩
  | succ n ih =>
    obtain ⟨l, h1, h2, h3⟩ := ih fun r hr => h r (by omega)
    obtain ⟨b, h4, h5⟩ := h n (by omega)
    refine ⟨l ++ [b], ?_, by simp [h2], ?_⟩
    · rw [List.range_succ, List.mapM_append, h1]
      simp [h4]
    · intro r hr
      by_cases hrn : r = n
      · subst hrn
        exact ⟨b, by rw [← h2]; simp, h5⟩
      · obtain ⟨b', h6, h7⟩ := h3 r (by omega)
        exact ⟨b', by rw [List.getElem?_append_left (by omega)]; exact h6, h7⟩

theorem gaSubmitRank_spec [AddCommMonoid α] {size : Nat} {l : Nat} {L : GaLaunch α}
    (h : GaLaunchOk size L) {g : GaRank α} (hs : g.size = size)
    (hr : ¬ (g.running l = true ∧ L.cs = none)) :
    ∃ s, gaSubmitRank l L g =
        some { g with stage := some s, running := fun m => m == l || g.running m } ∧
      size ≤ s.length ∧ ∀ i < size, s[i]? = some (launchSum L i) := by
  obtain ⟨b, h1, h2, h3⟩ := zeroedBuffer_spec L.res L.fresh size
  obtain ⟨vs, s, h4, h5, h6, h7⟩ := launch_adds h h2
  refine ⟨s, ?_, by omega, ?_⟩
  · unfold gaSubmitRank gaPreAdd
    rw [if_neg hr, hs, h1]
    simp only [Option.bind_some, h4, h5]
  · intro i hi
    rw [h7, h3 i hi]
    simp

theorem gaSubmit_spec [AddCommMonoid α] {size : Nat} {l : Nat} {on : Nat → GaLaunch α}
    {w : List (GaRank α)} (h : ∀ r < w.length, GaLaunchOk size (on r))
    (hs : ∀ g ∈ w, g.size = size)
    (hr : ∀ (r : Nat) g, w[r]? = some g → ¬ (g.running l = true ∧ (on r).cs = none)) :
    ∃ w', gaSubmit l on w = some w' ∧ w'.length = w.length ∧
      ∀ (r : Nat) g, w[r]? = some g → ∃ s, w'[r]? =
        some { g with stage := some s, running := fun m => m == l || g.running m } ∧
        size ≤ s.length ∧ ∀ i < size, s[i]? = some (launchSum (on r) i) := by
  obtain ⟨w', h1, h2, h3⟩ := mapM_range_exists (n := w.length)
    (f := fun r => (rd w r).bind (gaSubmitRank l (on r)))
    (R := fun r g' => ∀ g, w[r]? = some g → ∃ s, g' =
        { g with stage := some s, running := fun m => m == l || g.running m } ∧
        size ≤ s.length ∧ ∀ i < size, s[i]? = some (launchSum (on r) i)) (by
    intro r hrl
    have hg := List.getElem?_eq_getElem hrl
    obtain ⟨s, a, b, c⟩ := gaSubmitRank_spec (h r hrl)
      (hs w[r] (List.getElem_mem hrl)) (hr r _ hg)
    refine ⟨_, by simp only [rd, hg, Option.bind_some]; exact a, ?_⟩
    intro g hg'
    rw [hg, Option.some.injEq] at hg'
    subst hg'
    exact ⟨s, rfl, b, c⟩)
  refine ⟨w', h1, h2, fun r g hg => ?_⟩
  obtain ⟨b, h4, h5⟩ := h3 r (List.getElem?_eq_some_iff.1 hg).1
  obtain ⟨s, rfl, h6⟩ := h5 g hg
  exact ⟨s, h4, h6⟩

theorem allReduceSum_spec [AddCommMonoid α] {size n : Nat} {srcs : List (List α)}
    {f : Nat → Nat → α} (hn : srcs.length = n)
    (h : ∀ r < n, ∃ s, srcs[r]? = some s ∧ ∀ i < size, s[i]? = some (f r i)) :
    allReduceSum size srcs =
      some ((List.range size).map fun i => ((List.range n).map fun r => f r i).sum) := by
  unfold allReduceSum
  refine mapM_of_forall fun i hi => ?_
  have hi := List.mem_range.1 hi
  have : srcs.mapM (fun s => rd s i) = some ((List.range n).map fun r => f r i) := by
    subst hn
    rw [mapM_of_forall (g := fun s : List α => (rd s i).getD 0)]
    · congr 1
      apply List.ext_getElem?
      intro r
      by_cases hr : r < srcs.length
      · obtain ⟨s, h1, h2⟩ := h r hr
        simp only [List.getElem?_map, h1, List.getElem?_range hr, Option.map_some, rd, h2 i hi,
          Option.getD_some]
      · rw [List.getElem?_eq_none (by simpa using hr), List.getElem?_eq_none (by simpa using hr)]
    · intro s hs
      obtain ⟨r, hr, rfl⟩ := List.getElem_of_mem hs
      obtain ⟨s', h1, h2⟩ := h r hr
      rw [List.getElem?_eq_getElem hr, Option.some.injEq] at h1
      rw [h1]
      simp only [rd, h2 i hi, Option.getD_some]
  rw [this]
  rfl

theorem gaPostAddRank_spec [AddCommMonoid α] {size : Nat} (env : GaEnv α) {f : Nat → α}
    {g : GaRank α} (hs : g.size = size) (hb : g.buf.length = size) :
    ∃ b, gaPostAddRank env ((List.range size).map f) g =
        some { g with buf := b, stage := none } ∧ b.length = size ∧
      ∀ i, b[i]? = (g.buf[i]?).map (· + f i) := by
  obtain ⟨z, h1, h2, h3⟩ := zeroedBuffer_spec env.res env.fresh size
  have h4 := stRange_eq_some (m := z) (a := 0) (vs := (List.range size).map f) (by simpa using h2)
  generalize hacc : z.take 0 ++ (List.range size).map f ++
    z.drop (0 + ((List.range size).map f).length) = acc at h4
  have h5 : ∀ i < size, acc[i]? = some (f i) := by
    intro i hi
    rw [getElem?_of_stRange h4, if_pos (by simpa using hi)]
    simp [hi]
  have hstep : ∀ (items : List Nat), items.Nodup → (∀ i ∈ items, i < size) → ∀ (m : List α),
      m.length = size → ∃ b, runItems (fun ix dst => (rd dst ix).bind fun d =>
        (rd acc ix).bind fun a => st dst ix (d + a)) items m = some b ∧ b.length = size ∧
        ∀ i, b[i]? = if i ∈ items then (m[i]?).map (· + f i) else m[i]? := by
    intro items
    induction items with
    | nil => exact fun _ _ m hm => ⟨m, rfl, hm, fun i => by simp⟩
    | cons a items ih =>
      intro hnd hlt m hm
      have ha := hlt a List.mem_cons_self
      have hal : a < m.length := by omega
      obtain ⟨b, e1, e2, e3⟩ := ih (List.nodup_cons.1 hnd).2
        (fun i hi => hlt i (List.mem_cons_of_mem _ hi)) (m.set a (m[a] + f a)) (by simpa using hm)
      refine ⟨b, ?_, e2, fun i => ?_⟩
      · rw [runItems_cons]
        simp only [rd, List.getElem?_eq_getElem hal, h5 a ha, Option.bind_some, st_eq_some hal]
        exact e1
      · rw [e3, List.getElem?_set]
        have hna := (List.nodup_cons.1 hnd).1
        by_cases hia : a = i
        · subst hia
          rw [if_neg hna, if_pos rfl, if_pos hal, if_pos List.mem_cons_self,
            List.getElem?_eq_getElem hal]
          rfl
        · rw [if_neg hia]
          by_cases hi : i ∈ items
          · rw [if_pos hi, if_pos (List.mem_cons_of_mem _ hi)]
          · rw [if_neg hi, if_neg (by simpa [hi] using Ne.symm hia)]
  have hp := env.ord.perm (List.range size)
  obtain ⟨b, e1, e2, e3⟩ := hstep (env.ord.order (List.range size))
    (hp.nodup_iff.2 List.nodup_range) (fun i hi => List.mem_range.1 (hp.mem_iff.1 hi)) g.buf hb
  refine ⟨b, ?_, e2, fun i => ?_⟩
  · unfold gaPostAddRank
    rw [hs, h1, Option.bind_some, h4, Option.bind_some, e1]
    rfl
  · rw [e3]
    by_cases hi : i < size
    · rw [if_pos (hp.mem_iff.2 (List.mem_range.2 hi))]
    · rw [if_neg (fun hm => hi (List.mem_range.1 (hp.mem_iff.1 hm))),
        List.getElem?_eq_none (by omega)]
      rfl

theorem gaWait_spec [AddCommMonoid α] {size l : Nat} {env : Nat → GaEnv α} {f : Nat → Nat → α}
    {w : List (GaRank α)} (hok : GaOk size w) (hrun : ∀ g ∈ w, g.running l = true)
    (hst : ∀ (r : Nat) g, w[r]? = some g → ∃ s, g.stage = some s ∧
      ∀ i < size, s[i]? = some (f r i)) :
    ∃ w', gaWait l env w = some w' ∧ w'.length = w.length ∧
      ∀ (r : Nat) g, w[r]? = some g → ∃ b, w'[r]? =
        some { g with buf := b, stage := none, running := fun m => m != l && g.running m } ∧
        b.length = size ∧
        ∀ i, b[i]? = (g.buf[i]?).map (· + ((List.range w.length).map fun r => f r i).sum) := by
  have hsrc : w.mapM GaRank.stage = some (w.map fun g => g.stage.getD []) := by
    refine mapM_of_forall fun g hg => ?_
    obtain ⟨r, hr, rfl⟩ := List.getElem_of_mem hg
    obtain ⟨s, h1, _⟩ := hst r _ (List.getElem?_eq_getElem hr)
    rw [h1]; rfl
  have htot := allReduceSum_spec (size := size) (n := w.length)
    (srcs := w.map fun g => g.stage.getD []) (f := f) (by simp) (by
      intro r hr
      have hg := List.getElem?_eq_getElem hr
      obtain ⟨s, h1, h2⟩ := hst r _ hg
      refine ⟨s, ?_, h2⟩
      rw [List.getElem?_map, hg, Option.map_some, h1]; rfl)
  obtain ⟨w', h1, h2, h3⟩ := mapM_range_exists (n := w.length)
    (f := fun r => (rd w r).bind fun g =>
      (allReduceSum g.size (w.map fun g => g.stage.getD [])).bind fun total =>
      (gaPostAddRank (env r) total g).bind fun g =>
        some { g with running := fun m => m != l && g.running m })
    (R := fun r g' => ∀ g, w[r]? = some g → ∃ b, g' =
        { g with buf := b, stage := none, running := fun m => m != l && g.running m } ∧
        b.length = size ∧
        ∀ i, b[i]? = (g.buf[i]?).map (· + ((List.range w.length).map fun r => f r i).sum)) (by
    intro r hrl
    have hg := List.getElem?_eq_getElem hrl
    have hm := List.getElem_mem hrl
    obtain ⟨b, e1, e2, e3⟩ := gaPostAddRank_spec (env r)
      (f := fun i => ((List.range w.length).map fun r => f r i).sum) (hok _ hm).1 (hok _ hm).2
    refine ⟨⟨w[r].size, b, none, fun m => m != l && w[r].running m⟩, ?_, ?_⟩
    · have htot' := htot
      rw [← (hok _ hm).1] at htot'
      rw [← (hok _ hm).1] at e1
      simp only [rd, hg, Option.bind_some, htot', e1]
    · intro g hg'
      rw [hg, Option.some.injEq] at hg'
      subst hg'
      exact ⟨b, rfl, e2, e3⟩)
  refine ⟨w', ?_, h2, fun r g hg => ?_⟩
  · unfold gaWait
    rw [if_neg (by rintro ⟨g, hg, h⟩; rw [hrun g hg] at h; cases h),
      if_neg (by rintro ⟨g, hg, g', hg', h⟩; exact h ((hok g hg).1.trans (hok g' hg').1.symm)),
      hsrc, Option.bind_some]
    exact h1
  · obtain ⟨b, h4, h5⟩ := h3 r (List.getElem?_eq_some_iff.1 hg).1
    obtain ⟨b', rfl, h6⟩ := h5 g hg
    exact ⟨b', h4, h6⟩

theorem gaVal_eq {size : Nat} {w : List (GaRank α)} {r i : Nat} {g : GaRank α}
    (hg : w[r]? = some g) (hs : g.size = size) (hb : g.buf.length = size) (hi : i < size) :
    gaVal w r i = g.buf[i]? := by
  unfold gaVal gaGet
  simp only [rd, hg, Option.bind_some]
  obtain ⟨l, hl⟩ : ∃ l, slice g.buf 0 g.size = some l :=
    ⟨_, slice_eq_some (by omega) (by omega)⟩
  rw [hl, Option.bind_some]
  rw [getElem?_of_slice hl i (by omega), Nat.zero_add]

end NP
