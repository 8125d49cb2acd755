import Verif.Petsc.LemmasCell
import Verif.Common.KernelLemmas
import Mathlib.Data.List.Perm.Subperm
import Mathlib.Data.List.Nodup

/-!
# Lemmas: the closure of a cell and the numbering of the points of a halo
-/

set_option autoImplicit false

namespace NP

open Spec

/-! ## Folds -/

theorem foldlM_inv {α σ : Type} (f : σ → α → Option σ) (P : List α → σ → Prop) (l : List α) (s0 : σ)
    (h0 : P [] s0)
    (hstep : ∀ pre x post s, l = pre ++ x :: post → P pre s → ∃ s', f s x = some s' ∧ P (pre ++ [x]) s') :
    ∃ s', l.foldlM f s0 = some s' ∧ P l s' := by
  suffices H : ∀ post pre s, l = pre ++ post → P pre s →
      ∃ s', post.foldlM f s = some s' ∧ P l s' from H l [] s0 rfl h0
  intro post
  induction post with
  | nil =>
    intro pre s hl hs
    rw [List.append_nil] at hl
    exact ⟨s, rfl, hl ▸ hs⟩
  | cons x post ih =>
    intro pre s hl hs
    obtain ⟨s', h1, h2⟩ := hstep pre x post s hl hs
    obtain ⟨s'', h3, h4⟩ := ih (pre ++ [x]) s' (by simp [hl]) h2
    refine ⟨s'', ?_, h4⟩
    rw [List.foldlM_cons, h1]
    exact h3

theorem foldlM_nested {ρ α σ : Type} (L : ρ → List α) (f : ρ → σ → α → Option σ) (reps : List ρ)
    (s0 : σ) : reps.foldlM (fun s r => (L r).foldlM (f r) s) s0 =
      (reps.flatMap fun r => (L r).map (Prod.mk r)).foldlM (fun s rx => f rx.1 s rx.2) s0 := by
  induction reps generalizing s0 with
  | nil => rfl
  | cons r reps ih =>
    rw [List.flatMap_cons, List.foldlM_append, List.foldlM_cons, List.foldlM_map]
    exact congrArg _ (funext fun s => ih s)

/-! ## Ordered pairs -/

section
variable {α : Type} [LT α] [DecidableLT α] [DecidableEq α]

theorem mem_psIns (m : List (Nat × α)) (x y : Nat × α) : y ∈ psIns m x ↔ y = x ∨ y ∈ m := by
  induction m with
  | nil => simp [psIns]
  | cons z m ih =>
    unfold psIns
    split
    · simp
    · split
      · rename_i h1 h2
        subst h2
        simp
      · simp only [List.mem_cons, ih]
        constructor
        · rintro (h | h | h)
          · exact .inr (.inl h)
          · exact .inl h
          · exact .inr (.inr h)
        · rintro (h | h | h)
          · exact .inr (.inl h)
          · exact .inl h
          · exact .inr (.inr h)

theorem pairLt_iff (a b : Nat × α) : pairLt a b = true ↔ a.1 < b.1 ∨ (a.1 = b.1 ∧ a.2 < b.2) := by
  simp [pairLt]

theorem psIns_sorted (htr : ∀ a b c : α, a < b → b < c → a < c)
    (htri : ∀ a b : α, ¬ a < b → a ≠ b → b < a) (m : List (Nat × α)) (x : Nat × α)
    (h : m.Pairwise (fun a b => pairLt a b = true)) :
    (psIns m x).Pairwise (fun a b => pairLt a b = true) := by
  have trans : ∀ a b c : Nat × α, pairLt a b = true → pairLt b c = true → pairLt a c = true := by
    intro a b c h1 h2
    rw [pairLt_iff] at *
    rcases h1 with h1 | ⟨h1, h1'⟩ <;> rcases h2 with h2 | ⟨h2, h2'⟩
    · exact .inl (by omega)
    · exact .inl (by omega)
    · exact .inl (by omega)
    · exact .inr ⟨by omega, htr _ _ _ h1' h2'⟩
  induction m with
  | nil => simp [psIns]
  | cons z m ih =>
    have hz := List.pairwise_cons.1 h
    unfold psIns
    split
    · rename_i hx
      refine List.pairwise_cons.2 ⟨?_, h⟩
      intro y hy
      rcases List.mem_cons.1 hy with rfl | hy
      · exact hx
      · exact trans _ _ _ hx (hz.1 y hy)
    · split
      · exact h
      · rename_i h1 h2
        refine List.pairwise_cons.2 ⟨?_, ih hz.2⟩
        intro y hy
        rcases (mem_psIns m x y).1 hy with rfl | hy
        · rw [pairLt_iff] at h1 ⊢
          by_cases hlt : z.1 < y.1
          · exact .inl hlt
          · have e : z.1 = y.1 := by
              by_contra hne
              exact h1 (.inl (by omega))
            refine .inr ⟨e, htri _ _ (fun hh => h1 (.inr ⟨e.symm, hh⟩)) ?_⟩
            intro he
            exact h2 (Prod.ext e.symm he)
        · exact hz.1 y hy
end

theorem psIns_sorted_nat (m : List (Nat × Nat)) (x : Nat × Nat)
    (h : m.Pairwise (fun a b => pairLt a b = true)) :
    (psIns m x).Pairwise (fun a b => pairLt a b = true) :=
  psIns_sorted (fun _ _ _ => Nat.lt_trans) (fun _ _ h1 h2 => by omega) m x h

theorem psIns_sorted_int (m : List (Nat × Int)) (x : Nat × Int)
    (h : m.Pairwise (fun a b => pairLt a b = true)) :
    (psIns m x).Pairwise (fun a b => pairLt a b = true) :=
  psIns_sorted (fun _ _ _ => Int.lt_trans) (fun _ _ h1 h2 => by omega) m x h

theorem sorted_nodup_nat {m : List (Nat × Nat)} (h : m.Pairwise (fun a b => pairLt a b = true)) :
    m.Nodup := by
  refine h.imp ?_
  intro a b hab e
  subst e
  rw [pairLt_iff] at hab
  omega

theorem sorted_nodup_int {m : List (Nat × Int)} (h : m.Pairwise (fun a b => pairLt a b = true)) :
    m.Nodup := by
  refine h.imp ?_
  intro a b hab e
  subst e
  rw [pairLt_iff] at hab
  omega

/-! ## The closure -/

theorem closure_trans {g : GMesh} {a b c : Int} (h1 : InClosure g a b) (h2 : InClosure g b c) :
    InClosure g a c := by
  induction h2 with
  | self => exact h1
  | cone _ hq ih => exact .cone ih hq

theorem closure_split {g : GMesh} {c p : Int} :
    InClosure g c p ↔ p = c ∨ ∃ q ∈ g.cone c, InClosure g q p := by
  constructor
  · intro h
    induction h with
    | self => exact .inl rfl
    | cone hp hq ih =>
      rcases ih with rfl | ⟨r, hr, hrp⟩
      · exact .inr ⟨_, hq, .self⟩
      · exact .inr ⟨r, hr, .cone hrp hq⟩
  · rintro (rfl | ⟨q, hq, h⟩)
    · exact .self
    · exact closure_trans (.cone .self hq) h

theorem plexOf_global {dm : Plex} {g : GMesh} {glob : Nat → Int} (h : PlexOf dm g glob) {p : Nat}
    (hp : p < dm.points.length) : plexGlobal dm p = some (glob p) := by
  have hn : p < dm.numbers.length := by rw [h.numbered]; exact hp
  unfold plexGlobal
  rw [List.getElem?_eq_getElem hn, h.ids p _ (List.getElem?_eq_getElem hn)]
  simp only [Option.map_some, unsignedId]
  congr 1
  split <;> split <;> omega

theorem plexOf_mem {dm : Plex} {g : GMesh} {glob : Nat → Int} (h : PlexOf dm g glob) {ix : Nat}
    (hix : ix < dm.points.length) {P : Int} (hP : InClosure g (glob ix) P) :
    ∃ p, p < dm.points.length ∧ glob p = P := by
  induction hP with
  | self => exact ⟨ix, hix, rfl⟩
  | cone _ hq ih =>
    obtain ⟨p, hp, rfl⟩ := ih
    have hx := List.getElem?_eq_getElem hp
    rw [h.cones p _ hx] at hq
    obtain ⟨q, hq', rfl⟩ := List.mem_map.1 hq
    exact ⟨q, h.closed p _ hx q hq', rfl⟩

theorem plexOf_closure {dm : Plex} {g : GMesh} {glob : Nat → Int} (h : PlexOf dm g glob) {ix : Nat}
    {x : PlexPoint} (hx : dm.points[ix]? = some x) {p : Nat} (hp : p < dm.points.length) :
    InClosure g (glob ix) (glob p) ↔ p = ix ∨ ∃ q ∈ x.cone, InClosure g (glob q) (glob p) := by
  have hix : ix < dm.points.length := (List.getElem?_eq_some_iff.1 hx).1
  rw [closure_split, h.cones ix x hx]
  constructor
  · rintro (e | ⟨q, hq, hc⟩)
    · exact .inl (h.inj _ _ hp hix e)
    · obtain ⟨q, hq', rfl⟩ := List.mem_map.1 hq
      exact .inr ⟨q, hq', hc⟩
  · rintro (e | ⟨q, hq, hc⟩)
    · exact .inl (by rw [e])
    · exact .inr ⟨glob q, List.mem_map.2 ⟨q, hq, rfl⟩, hc⟩

/-- What the traversal collects. -/
theorem traverse_spec {dm : Plex} {g : GMesh} {ndim ks : Nat} (hg : GMeshOk g ndim ks)
    {glob : Nat → Int} (h : PlexOf dm g glob) :
    ∀ (fuel ix : Nat) (m : List (Nat × Nat)), ix < dm.points.length → g.depth (glob ix) < fuel →
      m.Pairwise (fun a b => pairLt a b = true) →
      ∃ m', traverseCell dm fuel ix m = some m' ∧ m'.Pairwise (fun a b => pairLt a b = true) ∧
        ∀ y, y ∈ m' ↔ y ∈ m ∨ ∃ x, dm.points[y.2]? = some x ∧ y.1 = x.height ∧
          InClosure g (glob ix) (glob y.2)
  | 0, ix, m, _, hf, _ => by omega
  | fuel + 1, ix, m, hix, hf, hm => by
    have hx := List.getElem?_eq_getElem hix
    generalize hX : dm.points[ix] = x at hx
    have hh := h.heights ix x hx
    unfold traverseCell
    rw [hx]
    simp only [Option.bind_some]
    rw [if_pos (by omega)]
    obtain ⟨m', h1, h2, h3⟩ := foldlM_inv (fun m child => traverseCell dm fuel child m)
      (fun pre m' => m'.Pairwise (fun a b => pairLt a b = true) ∧
        ∀ y, y ∈ m' ↔ (y = (x.height, ix) ∨ y ∈ m) ∨ ∃ q ∈ pre, ∃ z, dm.points[y.2]? = some z ∧
          y.1 = z.height ∧ InClosure g (glob q) (glob y.2)) x.cone (psIns m (x.height, ix))
      ⟨psIns_sorted_nat _ _ hm, fun y => by rw [mem_psIns]; simp⟩ (by
        intro pre q post s hl hs
        have hq : q ∈ x.cone := by rw [hl]; simp
        have hqn := h.closed ix x hx q hq
        have hqd := hg.lower (glob ix) (glob q) (by
          rw [h.cones ix x hx]; exact List.mem_map.2 ⟨q, hq, rfl⟩)
        obtain ⟨s', e1, e2, e3⟩ := traverse_spec hg h fuel q s hqn (by omega) hs.1
        refine ⟨s', e1, e2, ?_⟩
        intro y
        rw [e3, hs.2 y]
        constructor
        · rintro ((hy | ⟨r, hr, hz⟩) | hz)
          · exact .inl hy
          · exact .inr ⟨r, List.mem_append_left _ hr, hz⟩
          · exact .inr ⟨q, by simp, hz⟩
        · rintro (hy | ⟨r, hr, hz⟩)
          · exact .inl (.inl hy)
          · rcases List.mem_append.1 hr with hr | hr
            · exact .inl (.inr ⟨r, hr, hz⟩)
            · rw [List.mem_singleton] at hr
              subst hr
              exact .inr hz)
    refine ⟨m', h1, h2, ?_⟩
    intro y
    rw [h3]
    constructor
    · rintro ((rfl | hy) | ⟨q, hq, z, hz, hyz, hc⟩)
      · exact .inr ⟨x, hx, rfl, .self⟩
      · exact .inl hy
      · refine .inr ⟨z, hz, hyz, ?_⟩
        exact (plexOf_closure h hx (List.getElem?_eq_some_iff.1 hz).1).2 (.inr ⟨q, hq, hc⟩)
    · rintro (hy | ⟨z, hz, hyz, hc⟩)
      · exact .inl (.inr hy)
      · rcases (plexOf_closure h hx (List.getElem?_eq_some_iff.1 hz).1).1 hc with e | ⟨q, hq, hc⟩
        · refine .inl (.inl (Prod.ext ?_ e))
          rw [e, hx] at hz
          cases hz
          exact hyz
        · exact .inr ⟨q, hq, z, hz, hyz, hc⟩

theorem omPushAll_new {α : Type} (m : OMap (List α)) (k : Int) (xs : List α)
    (h : omGet m k = none) : omPushAll m k xs = omPut m k xs := by
  unfold omPushAll
  rw [h]
  rfl

theorem omPut_length_le {α : Type} (m : OMap α) (k : Int) (v : α) :
    (omPut m k v).length ≤ m.length + 1 := by
  induction m with
  | nil => simp [omPut]
  | cons e m ih =>
    unfold omPut
    split
    · simp
    · split <;> simp
      exact ih

theorem mapM_global {dm : Plex} {g : GMesh} {glob : Nat → Int} (h : PlexOf dm g glob) (l : List Nat)
    (hl : ∀ q ∈ l, q < dm.points.length) : l.mapM (plexGlobal dm) = some (l.map glob) := by
  induction l with
  | nil => rfl
  | cons q l ih =>
    rw [List.mapM_cons, plexOf_global h (hl q List.mem_cons_self),
      ih (fun q' h' => hl q' (List.mem_cons_of_mem _ h'))]
    rfl

/-- The cell made from the mesh. -/
theorem repOfPlex_spec {dm : Plex} {g : GMesh} {ndim ks : Nat} (hg : GMeshOk g ndim ks)
    {glob : Nat → Int} (h : PlexOf dm g glob) {fuel ix : Nat} (hix : ix < dm.points.length)
    (hf : dm.depth < fuel) :
    ∃ r, repOfPlex fuel dm ix = some r ∧ CellIs r g (glob ix) ∧ OMapOk r.cones ∧ OMapOk r.ornts ∧
      OMapOk r.vertices ∧ r.depthOf = [] ∧ r.cones.length ≤ dm.points.length ∧
      r.vertices.length ≤ dm.points.length := by
  have hd : g.depth (glob ix) < fuel := by
    have := h.heights ix _ (List.getElem?_eq_getElem hix)
    omega
  obtain ⟨m, t1, t2, t3⟩ := traverse_spec hg h fuel ix [] hix hd List.Pairwise.nil
  have hm : ∀ y ∈ m, ∃ x, dm.points[y.2]? = some x ∧ y.1 = x.height ∧
      InClosure g (glob ix) (glob y.2) := by
    intro y hy
    rcases (t3 y).1 hy with hy | hy
    · cases hy
    · exact hy
  have hnd : m.Nodup := sorted_nodup_nat t2
  -- no point occurs twice
  have hid : ∀ y ∈ m, ∀ z ∈ m, glob y.2 = glob z.2 → y = z := by
    intro y hy z hz e
    obtain ⟨xy, hxy, hy1, -⟩ := hm y hy
    obtain ⟨xz, hxz, hz1, -⟩ := hm z hz
    have e2 := h.inj _ _ (List.getElem?_eq_some_iff.1 hxy).1 (List.getElem?_eq_some_iff.1 hxz).1 e
    rw [e2, hxz] at hxy
    cases hxy
    exact Prod.ext (by omega) e2
  have hlen : m.length ≤ dm.points.length := by
    have hsub : m.map (·.2) ⊆ List.range dm.points.length := by
      intro p hp
      obtain ⟨y, hy, rfl⟩ := List.mem_map.1 hp
      obtain ⟨x, hx, -⟩ := hm y hy
      exact List.mem_range.2 (List.getElem?_eq_some_iff.1 hx).1
    have hnd2 : (m.map (·.2)).Nodup := by
      refine hnd.map_on ?_
      intro y hy z hz e
      exact hid y hy z hz (by rw [e])
    have := (List.subperm_of_subset hnd2 hsub).length_le
    rw [List.length_map, List.length_range] at this
    exact this
  obtain ⟨c, c1, c2⟩ := foldlM_inv (repPoint dm)
    (fun pre c => OMapOk c.cones ∧ OMapOk c.ornts ∧ c.vertices = [] ∧ c.depthOf = [] ∧
      c.cones.length ≤ pre.length ∧
      (∀ p v, omGet c.cones p = some v ↔ (∃ y ∈ pre, glob y.2 = p) ∧ v = g.cone p) ∧
      (∀ p v, omGet c.ornts p = some v ↔ (∃ y ∈ pre, glob y.2 = p) ∧ v = g.ornt p)) m StdCell.new
    ⟨List.Pairwise.nil, List.Pairwise.nil, rfl, rfl, Nat.le_refl _,
      fun p v => ⟨fun hh => (nomatch hh), fun ⟨⟨_, hy, _⟩, _⟩ => (nomatch hy)⟩,
      fun p v => ⟨fun hh => (nomatch hh), fun ⟨⟨_, hy, _⟩, _⟩ => (nomatch hy)⟩⟩ (by
    intro pre y post c hl ⟨i1, i2, i3, i4, i5, i6, i7⟩
    have hy : y ∈ m := by rw [hl]; simp
    obtain ⟨x, hx, hyx, -⟩ := hm y hy
    have hyn := (List.getElem?_eq_some_iff.1 hx).1
    have hnew : ¬ ∃ z ∈ pre, glob z.2 = glob y.2 := by
      rintro ⟨z, hz, e⟩
      have := hid z (by rw [hl]; simp [hz]) y hy e
      subst this
      rw [hl, List.nodup_append] at hnd
      exact hnd.2.2 z hz z List.mem_cons_self rfl
    have n1 : omGet c.cones (glob y.2) = none := by
      cases hc : omGet c.cones (glob y.2) with
      | none => rfl
      | some v => exact absurd ((i6 _ _).1 hc).1 hnew
    have n2 : omGet c.ornts (glob y.2) = none := by
      cases hc : omGet c.ornts (glob y.2) with
      | none => rfl
      | some v => exact absurd ((i7 _ _).1 hc).1 hnew
    have ho : x.ornt.length = x.cone.length := by
      have := hg.ornts (glob y.2)
      rw [h.ornts y.2 x hx, h.cones y.2 x hx, List.length_map] at this
      exact this
    refine ⟨{ c with cones := omPut c.cones (glob y.2) (x.cone.map glob),
                     ornts := omPut c.ornts (glob y.2) x.ornt }, ?_, omPut_ok i1 _ _, omPut_ok i2 _ _,
      i3, i4, ?_, ?_, ?_⟩
    · unfold repPoint
      rw [plexOf_global h hyn, hx]
      simp only [Option.bind_some]
      rw [mapM_global h x.cone (h.closed y.2 x hx)]
      simp only [Option.bind_some]
      rw [if_pos ho, omPushAll_new _ _ _ n1, omPushAll_new _ _ _ n2]
    · have := omPut_length_le c.cones (glob y.2) (x.cone.map glob)
      simp only [List.length_append, List.length_singleton]
      omega
    · intro p v
      show omGet (omPut c.cones (glob y.2) (x.cone.map glob)) p = some v ↔ _
      rw [omGet_put]
      by_cases e : glob y.2 = p
      · rw [if_pos e]
        constructor
        · intro hv
          cases hv
          exact ⟨⟨y, by simp, e⟩, by rw [← e, h.cones y.2 x hx]⟩
        · rintro ⟨-, rfl⟩
          rw [← e, h.cones y.2 x hx]
      · rw [if_neg e, i6]
        constructor
        · rintro ⟨⟨z, hz, hzp⟩, hv⟩
          exact ⟨⟨z, List.mem_append_left _ hz, hzp⟩, hv⟩
        · rintro ⟨⟨z, hz, hzp⟩, hv⟩
          rcases List.mem_append.1 hz with hz | hz
          · exact ⟨⟨z, hz, hzp⟩, hv⟩
          · rw [List.mem_singleton] at hz
            subst hz
            exact absurd hzp e
    · intro p v
      show omGet (omPut c.ornts (glob y.2) x.ornt) p = some v ↔ _
      rw [omGet_put]
      by_cases e : glob y.2 = p
      · rw [if_pos e]
        constructor
        · intro hv
          cases hv
          exact ⟨⟨y, by simp, e⟩, by rw [← e, h.ornts y.2 x hx]⟩
        · rintro ⟨-, rfl⟩
          rw [← e, h.ornts y.2 x hx]
      · rw [if_neg e, i7]
        constructor
        · rintro ⟨⟨z, hz, hzp⟩, hv⟩
          exact ⟨⟨z, List.mem_append_left _ hz, hzp⟩, hv⟩
        · rintro ⟨⟨z, hz, hzp⟩, hv⟩
          rcases List.mem_append.1 hz with hz | hz
          · exact ⟨⟨z, hz, hzp⟩, hv⟩
          · rw [List.mem_singleton] at hz
            subst hz
            exact absurd hzp e)
  obtain ⟨k1, k2, k3, k4, k5, k6, k7⟩ := c2
  generalize hV : (m.filter fun hx => hx.1 == dm.depth) = V
  have hVm : ∀ y ∈ V, y ∈ m ∧ y.1 = dm.depth := by
    intro y hy
    rw [← hV, List.mem_filter] at hy
    exact ⟨hy.1, by simpa using hy.2⟩
  have hVnd : V.Nodup := by rw [← hV]; exact hnd.filter _
  have hVlen : V.length ≤ m.length := by rw [← hV]; exact List.length_filter_le _ _
  obtain ⟨d, d1, d2⟩ := foldlM_inv (repVertex dm)
    (fun pre d => d.cones = c.cones ∧ d.ornts = c.ornts ∧ d.depthOf = [] ∧ OMapOk d.vertices ∧
      d.vertices.length ≤ pre.length ∧
      (∀ p v, omGet d.vertices p = some v ↔ (∃ y ∈ pre, glob y.2 = p) ∧ v = g.coords p)) V c
    ⟨rfl, rfl, k4, by rw [k3]; exact List.Pairwise.nil, by rw [k3]; exact Nat.le_refl _,
      fun p v => by
        rw [k3]
        exact ⟨fun hh => (nomatch hh), fun ⟨⟨_, hy, _⟩, _⟩ => (nomatch hy)⟩⟩ (by
    intro pre y post d hl ⟨i1, i2, i3, i4, i5, i6⟩
    have hy : y ∈ V := by rw [hl]; simp
    obtain ⟨x, hx, hyx, -⟩ := hm y (hVm y hy).1
    have hyn := (List.getElem?_eq_some_iff.1 hx).1
    have hxc := h.coords y.2 x hx (by rw [← hyx]; exact (hVm y hy).2)
    have hnew : ¬ ∃ z ∈ pre, glob z.2 = glob y.2 := by
      rintro ⟨z, hz, e⟩
      have := hid z (hVm z (by rw [hl]; simp [hz])).1 y (hVm y hy).1 e
      subst this
      rw [hl, List.nodup_append] at hVnd
      exact hVnd.2.2 z hz z List.mem_cons_self rfl
    have n1 : omGet d.vertices (glob y.2) = none := by
      cases hc : omGet d.vertices (glob y.2) with
      | none => rfl
      | some v => exact absurd ((i6 _ _).1 hc).1 hnew
    refine ⟨{ d with vertices := omPut d.vertices (glob y.2) x.coords }, ?_, i1, i2, i3,
      omPut_ok i4 _ _, ?_, ?_⟩
    · unfold repVertex
      rw [plexOf_global h hyn, hx]
      simp only [Option.bind_some]
      rw [omPushAll_new _ _ _ n1]
    · have := omPut_length_le d.vertices (glob y.2) x.coords
      simp only [List.length_append, List.length_singleton]
      omega
    · intro p v
      show omGet (omPut d.vertices (glob y.2) x.coords) p = some v ↔ _
      rw [omGet_put]
      by_cases e : glob y.2 = p
      · rw [if_pos e]
        constructor
        · intro hv
          cases hv
          exact ⟨⟨y, by simp, e⟩, by rw [← e, hxc]⟩
        · rintro ⟨-, rfl⟩
          rw [← e, hxc]
      · rw [if_neg e, i6]
        constructor
        · rintro ⟨⟨z, hz, hzp⟩, hv⟩
          exact ⟨⟨z, List.mem_append_left _ hz, hzp⟩, hv⟩
        · rintro ⟨⟨z, hz, hzp⟩, hv⟩
          rcases List.mem_append.1 hz with hz | hz
          · exact ⟨⟨z, hz, hzp⟩, hv⟩
          · rw [List.mem_singleton] at hz
            subst hz
            exact absurd hzp e)
  obtain ⟨j1, j2, j3, j4, j5, j6⟩ := d2
  have hcl : ∀ p, (∃ y ∈ m, glob y.2 = p) ↔ InClosure g (glob ix) p := by
    intro p
    constructor
    · rintro ⟨y, hy, rfl⟩
      obtain ⟨x, -, -, hc⟩ := hm y hy
      exact hc
    · intro hc
      obtain ⟨q, hq, rfl⟩ := plexOf_mem h hix hc
      exact ⟨(_, q), (t3 (dm.points[q].height, q)).2 (.inr ⟨_, List.getElem?_eq_getElem hq, rfl, hc⟩),
        rfl⟩
  have hclV : ∀ p, (∃ y ∈ V, glob y.2 = p) ↔ InClosure g (glob ix) p ∧ g.depth p = 0 := by
    intro p
    constructor
    · rintro ⟨y, hy, rfl⟩
      obtain ⟨hy, hyd⟩ := hVm y hy
      obtain ⟨x, hx, hyx, hc⟩ := hm y hy
      have := h.heights y.2 x hx
      exact ⟨hc, by omega⟩
    · rintro ⟨hc, hz⟩
      obtain ⟨y, hy, rfl⟩ := (hcl p).2 hc
      obtain ⟨x, hx, hyx, -⟩ := hm y hy
      have := h.heights y.2 x hx
      exact ⟨y, by rw [← hV]; exact List.mem_filter.2 ⟨hy, by simp; omega⟩, rfl⟩
  refine ⟨d, ?_, ⟨?_, ?_, ?_⟩, j1 ▸ k1, j2 ▸ k2, j4, j3, by rw [j1]; omega, by omega⟩
  · unfold repOfPlex
    rw [t1]
    simp only [Option.bind_some]
    rw [c1]
    simp only [Option.bind_some]
    rw [hV, d1]
  · intro p v
    rw [j1, k6, hcl]
  · intro p v
    rw [j2, k7, hcl]
  · intro p v
    rw [j6, hclV, and_assoc]

end NP
