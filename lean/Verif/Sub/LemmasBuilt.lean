import Verif.Sub.LemmasPartition
import Verif.Sub.LemmasScan
import Verif.Sub.SpecBuilt

/-! Membership, repeats and nesting. -/

set_option autoImplicit false

namespace NP

open Spec

theorem inParent_iff {npart : List Nat} {par : Parent} {L : List (List Nat)}
    (h : ParentLists npart par L) (c l : Nat) :
    InParent npart par c l ↔ ∃ row : List Nat, L[c]? = some row ∧ l ∈ row := by
  cases par with
  | whole =>
    change L = npart.map List.range at h
    subst h
    constructor
    · rintro ⟨n, hn, hl⟩
      exact ⟨List.range n, by simp [hn], List.mem_range.2 hl⟩
    · rintro ⟨row, hr, hl⟩
      rw [List.getElem?_map, Option.map_eq_some_iff] at hr
      obtain ⟨n, hn, rfl⟩ := hr
      exact ⟨n, hn, List.mem_range.1 hl⟩
  | sub s =>
    change Lists s L at h
    constructor
    · rintro ⟨n, k, hn, hk, hl⟩
      rw [h.hostCounts, List.getElem?_map, Option.map_eq_some_iff] at hn
      obtain ⟨row, hr, rfl⟩ := hn
      rw [h.layer c row k hr hk] at hl
      exact ⟨row, hr, List.mem_of_getElem? hl⟩
    · rintro ⟨row, hr, hl⟩
      obtain ⟨k, hk, e⟩ := List.getElem_of_mem hl
      refine ⟨row.length, k, ?_, hk, ?_⟩
      · rw [h.hostCounts, List.getElem?_map, hr]; rfl
      · rw [h.layer c row k hr hk, List.getElem?_eq_getElem hk, e]

theorem noRepeats_of {npart : List Nat} {s : Selection} {L : List (List Nat)} (h : Lists s L)
    (hL : SoundListing npart L) : NoRepeats s := by
  intro c n k k' hn hk hk' e
  rw [h.hostCounts, List.getElem?_map, Option.map_eq_some_iff] at hn
  obtain ⟨row, hr, rfl⟩ := hn
  rw [h.layer c row k hr hk, h.layer c row k' hr hk'] at e
  have hc : c < npart.length := by rw [← hL.1]; exact lt_of_row hr
  have hnd := (hL.2 c row _ hr (List.getElem?_eq_getElem hc)).1
  exact (hnd.getElem_inj_iff (hi := hk) (hj := hk')).1 (by
    rw [List.getElem?_eq_getElem hk, List.getElem?_eq_getElem hk'] at e
    exact Option.some.inj e)

/-- A listing whose rows list particles of a sound one, none twice, is sound. -/
theorem sound_sub {npart : List Nat} {L L' : List (List Nat)} (hL : SoundListing npart L)
    (h : Cellwise (fun _ row row' => (row.Nodup → row'.Nodup) ∧ ∀ l ∈ row', l ∈ row) L L') :
    SoundListing npart L' := by
  refine ⟨h.1.trans hL.1, ?_⟩
  intro c row' n hr' hn
  obtain ⟨row, hr⟩ := exists_row (L := L) (c := c) (by rw [← h.1]; exact lt_of_row hr')
  obtain ⟨a, b⟩ := hL.2 c row n hr hn
  obtain ⟨a', b'⟩ := h.2 c row row' hr hr'
  exact ⟨a' a, fun l hl => b l (b' l hl)⟩

theorem cellwise_map (f : List Nat → List Nat) (L : List (List Nat)) :
    Cellwise (fun _ row row' => row' = f row) L (L.map f) := by
  refine ⟨by simp, ?_⟩
  intro c row row' h1 h2
  rw [List.getElem?_map, h1] at h2
  exact (Option.some.inj h2).symm

theorem cellwise_mapIdx (f : Nat → List Nat → List Nat) (L : List (List Nat)) :
    Cellwise (fun c row row' => row' = f c row) L (L.mapIdx f) := by
  refine ⟨by simp, ?_⟩
  intro c row row' h1 h2
  rw [List.getElem?_mapIdx, h1] at h2
  exact (Option.some.inj h2).symm

theorem Cellwise.imp {R R' : Nat → List Nat → List Nat → Prop} {L L' : List (List Nat)}
    (h : Cellwise R L L') (hi : ∀ c row row', R c row row' → R' c row row') : Cellwise R' L L' :=
  ⟨h.1, fun c row row' h1 h2 => hi _ _ _ (h.2 c row row' h1 h2)⟩

theorem sound_filter {npart : List Nat} {L L' : List (List Nat)} (hL : SoundListing npart L)
    {p : Nat → Nat → Bool}
    (h : Cellwise (fun c row row' => row'.Perm (row.filter (p c))) L L') :
    SoundListing npart L' := by
  refine sound_sub hL (Cellwise.imp h ?_)
  intro c row row' hp
  exact ⟨fun hn => hp.nodup_iff.2 (hn.filter _),
    fun l hl => (List.mem_filter.1 (hp.mem_iff.1 hl)).1⟩

theorem sound_joined {npart : List Nat} {parents : List Selection} {Ls : List (List (List Nat))}
    (hp : List.Forall₂ Lists parents Ls) (hs : ∀ L ∈ Ls, SoundListing npart L)
    (hd : parents.Pairwise fun a b => ∀ c l, InParent npart (.sub a) c l →
      ¬ InParent npart (.sub b) c l) : SoundListing npart (joined npart.length Ls) := by
  refine ⟨by simp [joined], ?_⟩
  intro c row n hr hn
  have hc : c < npart.length := by
    have := lt_of_row hr; simpa [joined] using this
  have hrow : row = (Ls.map fun L => (L[c]?).getD []).flatten := by
    simp only [joined, List.getElem?_map, List.getElem?_range hc, Option.map_some] at hr
    exact (Option.some.inj hr).symm
  subst hrow
  clear hr
  induction hp with
  | nil => simp
  | @cons p L ps Ls hp hps ih =>
    obtain ⟨i1, i2⟩ := ih (fun L hL => hs L (List.mem_cons_of_mem _ hL)) (List.pairwise_cons.1 hd).2
    have hsL := hs L List.mem_cons_self
    obtain ⟨r, hr⟩ := exists_row (L := L) (c := c) (by rw [hsL.1]; exact hc)
    obtain ⟨r1, r2⟩ := hsL.2 c r n hr hn
    simp only [List.map_cons, List.flatten_cons, hr, Option.getD_some]
    refine ⟨?_, ?_⟩
    · rw [List.nodup_append]
      refine ⟨r1, i1, ?_⟩
      rintro a ha b hb rfl
      have hin : InParent npart (.sub p) c a := (inParent_iff (par := .sub p) hp c a).2 ⟨r, hr, ha⟩
      obtain ⟨row2, hm, hm2⟩ := List.mem_flatten.1 hb
      obtain ⟨L2, hL2, rfl⟩ := List.mem_map.1 hm
      obtain ⟨j, hj, rfl⟩ := List.getElem_of_mem hL2
      have hjp : j < ps.length := by rw [hps.length_eq]; exact hj
      have hq : Lists ps[j] Ls[j] := by
        have := List.Forall₂.get hps hjp hj
        simpa using this
      refine (List.pairwise_cons.1 hd).1 ps[j] (List.getElem_mem hjp) c a hin ?_
      refine (inParent_iff (par := .sub ps[j]) (npart := npart) hq c a).2 ?_
      cases hrow : (Ls[j])[c]? with
      | none => rw [hrow] at hm2; simp at hm2
      | some rr => exact ⟨rr, rfl, by rw [hrow] at hm2; simpa using hm2⟩
    · intro l hl
      rcases List.mem_append.1 hl with h | h
      · exact r2 l h
      · exact i2 l h

theorem mem_joined {npart : List Nat} {parents : List Selection} {Ls : List (List (List Nat))}
    (hp : List.Forall₂ Lists parents Ls) (hs : ∀ L ∈ Ls, SoundListing npart L) (c l : Nat) :
    (∃ row : List Nat, (joined npart.length Ls)[c]? = some row ∧ l ∈ row) ↔
      ∃ p ∈ parents, InParent npart (.sub p) c l := by
  by_cases hc : c < npart.length
  · have hr : (joined npart.length Ls)[c]? = some (Ls.map fun L => (L[c]?).getD []).flatten := by
      simp only [joined, List.getElem?_map, List.getElem?_range hc, Option.map_some]
    rw [hr]
    simp only [Option.some.injEq, exists_eq_left']
    clear hr
    induction hp with
    | nil => simp
    | @cons p L ps Ls hp hps ih =>
      have := ih (fun L hL => hs L (List.mem_cons_of_mem _ hL))
      simp only [List.map_cons, List.flatten_cons, List.mem_append, List.mem_cons,
        exists_eq_or_imp, this, inParent_iff (npart := npart) (par := .sub p) hp]
      obtain ⟨r, hr⟩ := exists_row (L := L) (c := c) (by rw [(hs L List.mem_cons_self).1]; exact hc)
      simp [hr]
  · constructor
    · rintro ⟨row, hr, -⟩
      exact absurd (by simpa [joined] using lt_of_row hr) hc
    · rintro ⟨p, hpm, hin⟩
      obtain ⟨i, hi, rfl⟩ := List.getElem_of_mem hpm
      have hi' : i < Ls.length := by rw [← hp.length_eq]; exact hi
      have hq : Lists parents[i] Ls[i] := by simpa using List.Forall₂.get hp hi hi'
      obtain ⟨row, hr, -⟩ := (inParent_iff (par := .sub parents[i]) hq c l).1 hin
      exact absurd (by rw [← (hs _ (List.getElem_mem hi')).1]; exact lt_of_row hr) hc

/-- The particles of a listing with their cells. -/
def rowsOf (L : List (List Nat)) : List (Nat × Nat) :=
  (List.range L.length).flatMap fun c => ((L[c]?).getD []).map fun l => (c, l)

theorem mem_rowsOf {L : List (List Nat)} {c l : Nat} :
    (c, l) ∈ rowsOf L ↔ ∃ row : List Nat, L[c]? = some row ∧ l ∈ row := by
  unfold rowsOf
  simp only [List.mem_flatMap, List.mem_range, List.mem_map, Prod.mk.injEq]
  constructor
  · rintro ⟨d, hd, x, hx, rfl, rfl⟩
    obtain ⟨row, hr⟩ := exists_row hd
    exact ⟨row, hr, by simpa [hr] using hx⟩
  · rintro ⟨row, hr, hl⟩
    exact ⟨c, lt_of_row hr, l, by simpa [hr] using hl, rfl, rfl⟩

theorem rowsOf_nodup {npart : List Nat} {L : List (List Nat)} (h : SoundListing npart L) :
    (rowsOf L).Nodup := by
  unfold rowsOf
  rw [List.nodup_flatMap]
  refine ⟨?_, ?_⟩
  · intro c hc
    obtain ⟨row, hr⟩ := exists_row (List.mem_range.1 hc)
    have hc' : c < npart.length := by rw [← h.1]; exact lt_of_row hr
    simp only [hr, Option.getD_some]
    exact (h.2 c row _ hr (List.getElem?_eq_getElem hc')).1.map
      (fun a b e => by simpa using e)
  · refine List.Pairwise.imp_of_mem ?_ (List.nodup_range (n := L.length))
    intro a b _ _ hab x hx hy
    simp only [List.mem_map] at hx hy
    obtain ⟨_, _, rfl⟩ := hx
    obtain ⟨_, _, e⟩ := hy
    exact hab (by simpa using congrArg Prod.fst e.symm)

theorem length_rowsOf (L : List (List Nat)) : (rowsOf L).length = (L.map List.length).sum := by
  unfold rowsOf
  rw [List.length_flatMap]
  congr 1
  refine List.ext_getElem (by simp) ?_
  intro i h1 h2
  simp only [List.length_map, List.length_range] at h1 h2
  simp [h2]

theorem cellsLayers_spec {s : Selection} {L : List (List Nat)} (h : Lists s L) :
    s.cellsLayers = some (rowsOf L) := by
  have hl : s.hNpart.length = L.length := by rw [h.hostCounts, List.length_map]
  unfold Selection.cellsLayers rowsOf
  rw [collectM_eq_flatMap (g := fun c => ((L[c]?).getD []).map fun l => (c, l)), hl]
  intro c hc
  rw [List.mem_range, hl] at hc
  obtain ⟨row, hr⟩ := exists_row hc
  have hn : rd s.hNpart c = some row.length := by
    rw [h.hostCounts]; simp only [rd, List.getElem?_map, hr, Option.map_some]
  rw [hn]
  simp only [Option.bind_some, hr, Option.getD_some]
  by_cases h0 : row.length > 0
  · rw [if_pos h0]
    have hlay : ∀ k, k < row.length → ∃ o, s.starts[c]? = some o ∧ s.layers[o + k]? = row[k]? := by
      intro k hk
      have := h.layer c row k hr hk
      unfold Selection.layerAt at this
      rw [List.getElem?_eq_getElem hk] at this ⊢
      rw [Option.bind_eq_some_iff] at this
      exact this
    obtain ⟨o, ho, -⟩ := hlay 0 h0
    have hlay' : ∀ k, k < row.length → s.layers[o + k]? = row[k]? := by
      intro k hk
      obtain ⟨o', ho', e⟩ := hlay k hk
      rw [ho] at ho'
      obtain rfl := Option.some.inj ho'
      exact e
    have hlast := hlay' (row.length - 1) (by omega)
    rw [List.getElem?_eq_getElem (show row.length - 1 < row.length by omega)] at hlast
    have hlt := (List.getElem?_eq_some_iff.1 hlast).1
    simp only [rd, ho, Option.bind_some]
    rw [slice_eq_some (by omega) (by omega)]
    simp only [Option.bind_some]
    congr 2
    apply List.ext_getElem?
    intro k
    rw [show o + row.length - o = row.length by omega]
    by_cases hk : k < row.length
    · rw [List.getElem?_take_of_lt hk, List.getElem?_drop, hlay' k hk]
    · rw [List.getElem?_eq_none (by simp; omega), List.getElem?_eq_none (by omega)]
  · rw [if_neg h0]
    have : row = [] := List.length_eq_zero_iff.1 (by omega)
    subst this; rfl

theorem built_list {npart : List Nat} {parents : List Selection}
    (ih : ∀ p ∈ parents, ∃ L, ParentLists npart (.sub p) L ∧ SoundListing npart L) :
    ∃ Ls, List.Forall₂ Lists parents Ls ∧ ∀ L ∈ Ls, SoundListing npart L := by
  induction parents with
  | nil => exact ⟨[], .nil, by simp⟩
  | cons p ps ih2 =>
    obtain ⟨Ls, b1, b2⟩ := ih2 (fun q hq => ih q (List.mem_cons_of_mem _ hq))
    obtain ⟨L, c1, c2⟩ := ih p List.mem_cons_self
    refine ⟨L :: Ls, .cons c1 b1, ?_⟩
    intro M hM
    rcases List.mem_cons.1 hM with rfl | hM
    · exact c2
    · exact b2 M hM

theorem all_some {α : Type} {l : List (Option α)}
    (h : ∀ i, i < l.length → ∃ a, l[i]? = some (some a)) : ∃ m : List α, l = m.map some := by
  induction l with
  | nil => exact ⟨[], rfl⟩
  | cons x l ih =>
    obtain ⟨a, ha⟩ := h 0 (by simp)
    obtain ⟨m, hm⟩ := ih (fun i hi => by
      obtain ⟨b, hb⟩ := h (i + 1) (by simpa using hi)
      exact ⟨b, by simpa using hb⟩)
    simp at ha
    exact ⟨a :: m, by simp [ha, hm]⟩

theorem built_spec {npart : List Nat} {par : Parent} (h : Built npart par) :
    ∃ L, ParentLists npart par L ∧ SoundListing npart L := by
  induction h with
  | whole => exact ⟨_, rfl, whole_sound npart⟩
  | @select e par cond sel hp he hsel ih =>
    obtain ⟨L, h1, h2⟩ := ih
    obtain ⟨sel', L', a1, a2, a3⟩ := select_spec he h1 h2 cond
    rw [hsel] at a1
    obtain rfl := Option.some.inj a1
    exact ⟨L', a2, sound_filter h2 a3⟩
  | @scan e t0 t1 t2 t3 t4 sl u par cond sel hc hp he hs hsel ih =>
    obtain ⟨L, h1, h2⟩ := ih
    obtain ⟨sel', a1, a2⟩ := scan_spec he t0 t1 t2 t3 t4 (units := u) hs hc h1 h2 cond
    rw [hsel] at a1
    obtain rfl := Option.some.inj a1
    refine ⟨_, a2, sound_filter (p := cond) h2 (Cellwise.imp (cellwise_mapIdx _ _) ?_)⟩
    rintro c row row' rfl
    exact List.Perm.refl _
  | @truncate e sl n par sel hc hp he hs hsel ih =>
    obtain ⟨L, h1, h2⟩ := ih
    obtain ⟨sel', a1, a2⟩ := truncate_spec he hs hc h1 h2.1 n
    rw [hsel] at a1
    obtain rfl := Option.some.inj a1
    refine ⟨_, a2, sound_sub h2 (Cellwise.imp (cellwise_map _ _) ?_)⟩
    rintro c row row' rfl
    exact ⟨fun hn => hn.sublist (List.take_sublist _ _), fun l hl => List.mem_of_mem_take hl⟩
  | @discard e sl n par sel hc hp he hs hsel ih =>
    obtain ⟨L, h1, h2⟩ := ih
    obtain ⟨sel', a1, a2⟩ := discard_spec he hs hc h1 h2.1 n
    rw [hsel] at a1
    obtain rfl := Option.some.inj a1
    refine ⟨_, a2, sound_sub h2 (Cellwise.imp (cellwise_map _ _) ?_)⟩
    rintro c row row' rfl
    exact ⟨fun hn => hn.sublist (List.drop_sublist _ _), fun l hl => List.mem_of_mem_drop hl⟩
  | @copy e s sel hp he hsel ih =>
    obtain ⟨L, h1, h2⟩ := ih
    obtain ⟨sel', a1, a2⟩ := copy_spec he (s := s) h1 h2.1
    rw [hsel] at a1
    obtain rfl := Option.some.inj a1
    exact ⟨L, a2, h2⟩
  | @cells e des0 par cs ce sel hp he hdes h01 h12 hz hsel ih =>
    obtain ⟨L, h1, h2⟩ := ih
    obtain ⟨sel', a1, a2⟩ := cell_spec he hdes h01 h12 hz h1 h2.1
    rw [hsel] at a1
    obtain rfl := Option.some.inj a1
    refine ⟨_, a2, sound_sub h2 (Cellwise.imp (cellwise_mapIdx _ _) ?_)⟩
    rintro c row row' rfl
    split <;> simp
  | @union e parents sel hc hp he hd hsel ih =>
    obtain ⟨Ls, b1, b2⟩ := built_list ih
    obtain ⟨sel', a1, a2⟩ := union_spec he hc b1 (fun L hL => (b2 L hL).1)
    rw [hsel] at a1
    obtain rfl := Option.some.inj a1
    exact ⟨_, a2, sound_joined b1 b2 hd⟩
  | @part e sl par f bufs sels px sel hc hp he hs hb hsel hget ih =>
    obtain ⟨L, h1, h2⟩ := ih
    obtain ⟨sels', a1, a2, a3⟩ := partition_spec he hs hc h1 h2 f bufs hb
    rw [hsel] at a1
    obtain rfl := Option.some.inj a1
    have hpx : px < bufs.length := by
      rw [← a2]; exact (List.getElem?_eq_some_iff.1 hget).1
    obtain ⟨d1, d2⟩ := a3 px bufs[px] (List.getElem?_eq_getElem hpx)
    cases hal : bufs[px].alive with
    | false => rw [hget] at d1; simp [hal] at d1
    | true =>
      obtain ⟨sel', L', c1, c2, c3⟩ := d2 hal
      rw [hget] at c1
      obtain rfl := Option.some.inj (Option.some.inj c1)
      exact ⟨L', c2, sound_filter (p := fun c l => decide (f c l = px)) h2 c3⟩

end NP
