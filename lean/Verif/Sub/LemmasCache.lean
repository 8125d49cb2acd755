import Verif.Sub.SpecCache
import Mathlib.Data.List.Forall2

/-! Invariants of the pointer caches and of ephemeral dats. -/

set_option autoImplicit false

namespace NP

open Spec

/-- The stored pointers of one kind of access. -/
def stored (const : Bool) (c : PtrCache) : List Nat → Option (List Nat) :=
  if const then c.cptrs else c.ptrs

theorem findAll_spec {base : Nat → Option DatRef} {eph : Option (Nat → Option DatRef)} :
    ∀ {key : List Nat} {r : List Nat × Bool}, findAll base eph key = some r →
      List.Forall₂ (fun s p => ∃ d b, findDat base eph s = some (d, b) ∧ d.id = p ∧
        (b = true → r.2 = true)) key r.1 := by
  intro key
  induction key with
  | nil => intro r h; obtain rfl := Option.some.inj h; exact .nil
  | cons s ss ih =>
    intro r h
    simp only [findAll, Option.bind_eq_some_iff] at h
    obtain ⟨⟨d, b⟩, hd, r1, hr, e⟩ := h
    obtain rfl := Option.some.inj e
    refine .cons ⟨d, b, hd, rfl, fun h => by simp [h]⟩ ?_
    refine (ih hr).imp ?_
    rintro t p ⟨d', b', h1, h2, h3⟩
    exact ⟨d', b', h1, h2, fun h => by simp [h3 h]⟩

theorem findAll_isSome {base : Nat → Option DatRef} {eph : Option (Nat → Option DatRef)}
    {key : List Nat} :
    (findAll base eph key).isSome ↔ ∀ s ∈ key, (findDat base eph s).isSome := by
  induction key with
  | nil => simp [findAll]
  | cons s ss ih =>
    simp only [findAll, List.mem_cons, forall_eq_or_imp, ← ih]
    cases findDat base eph s with
    | none => simp
    | some d => cases findAll base eph ss <;> simp

theorem findDat_none (base : Nat → Option DatRef) (s : Nat) :
    findDat base none s = (base s).map fun d => (d, false) := rfl

theorem findDat_eph {base eph : Nat → Option DatRef} {s : Nat} {d : DatRef}
    (h : eph s = some d) : findDat base (some eph) s = some (d, true) := by
  simp [findDat, h]

theorem findDat_base {base eph : Nat → Option DatRef} {s : Nat} (h : eph s = none) :
    findDat base (some eph) s = (base s).map fun d => (d, false) := by
  simp [findDat, h]

theorem cacheCreate_stored {base : Nat → Option DatRef} {eph : Option (Nat → Option DatRef)}
    {const : Bool} {key : List Nat} {c c' : PtrCache}
    (h : cacheCreate base eph const key c = some c') :
    (∃ r, (c' = c ∧ stored const c key = some r) ∨
      ∃ b, findAll base eph key = some (r, b) ∧ stored const c' key = some r ∧
        (∀ con k ps, stored con c' k = some ps → (con = const ∧ k = key ∧ ps = r) ∨
          stored con c k = some ps) ∧
        (∀ k ∈ c.ephKeys, k ∈ c'.ephKeys) ∧ (b = true → key ∈ c'.ephKeys)) := by
  unfold cacheCreate at h
  change (if (stored const c key).isSome then _ else _) = _ at h
  by_cases hs : (stored const c key).isSome
  · rw [if_pos hs] at h
    obtain ⟨r, hr⟩ := Option.isSome_iff_exists.1 hs
    exact ⟨r, .inl ⟨(Option.some.inj h).symm, hr⟩⟩
  rw [if_neg hs, Option.bind_eq_some_iff] at h
  obtain ⟨⟨r, b⟩, hf, e⟩ := h
  obtain rfl := Option.some.inj e
  refine ⟨r, .inr ⟨b, hf, ?_, ?_, ?_, ?_⟩⟩
  · cases const <;> simp [stored]
  · intro con k ps hk
    cases const <;> cases con <;>
      simp only [stored, if_true, Bool.false_eq_true, if_false, Function.update_apply] at hk ⊢
    · by_cases e : k = key
      · rw [if_pos e] at hk; exact .inl ⟨trivial, e, (Option.some.inj hk).symm⟩
      · rw [if_neg e] at hk; exact .inr hk
    · exact .inr hk
    · exact .inr hk
    · by_cases e : k = key
      · rw [if_pos e] at hk; exact .inl ⟨trivial, e, (Option.some.inj hk).symm⟩
      · rw [if_neg e] at hk; exact .inr hk
  · intro k hk
    cases const <;> cases b <;> simp [hk]
  · intro hb
    cases const <;> simp [hb]

/-- A stored pointer of the cache of the group. -/
def GroupPos (base : Nat → Option DatRef) (ever : Nat → Bool) (s p : Nat) : Prop :=
  ever s = true ∧ ∀ d, base s = some d → d.id = p

/-- A stored pointer of the cache of a sub group: of a property, or of an ephemeral dat. -/
def SubPos (base : Nat → Option DatRef) (ever gone : Nat → Bool) (eph : Nat → Option DatRef)
    (keys : List (List Nat)) (key : List Nat) (s p : Nat) : Prop :=
  (ever s = true ∧ eph s = none ∧ ∀ d, base s = some d → d.id = p) ∨
  (key ∈ keys ∧ (∀ d, eph s = some d → d.id = p) ∧
    (eph s = none → gone s = true ∧ base s = none))

def SubOk (base : Nat → Option DatRef) (ever gone : Nat → Bool) (n : SubDats) : Prop :=
  ∀ const key ps, stored const n.cache key = some ps →
    List.Forall₂ (SubPos base ever gone n.eph n.cache.ephKeys key) key ps

theorem stored_reset {const : Bool} {c : PtrCache} {key ps : List Nat}
    (h : stored const (cacheResetEph c) key = some ps) :
    stored const c key = some ps ∧ key ∉ c.ephKeys := by
  cases const <;> simp only [stored, cacheResetEph, if_true, Bool.false_eq_true, if_false] at h ⊢
  all_goals
    by_cases hk : key ∈ c.ephKeys
    · rw [if_pos hk] at h; cases h
    · rw [if_neg hk] at h; exact ⟨h, hk⟩

theorem subOk_reset {base : Nat → Option DatRef} {ever gone : Nat → Bool} {n : SubDats}
    (h : SubOk base ever gone n) (gone' : Nat → Bool) : SubOk base ever gone' (resetEph n) := by
  intro const key ps hs
  obtain ⟨h1, h2⟩ := stored_reset hs
  refine (h const key ps h1).imp ?_
  rintro s p (⟨a, -, b⟩ | ⟨a, -⟩)
  · exact .inl ⟨a, rfl, b⟩
  · exact absurd a h2

theorem subOk_congr {base : Nat → Option DatRef} {ever gone : Nat → Bool} {n n' : SubDats}
    (h : SubOk base ever gone n) (h1 : n'.cache = n.cache) (h2 : n'.eph = n.eph) :
    SubOk base ever gone n' := by
  unfold SubOk
  rw [h1, h2]
  exact h

theorem invalidateEph_cases (n : SubDats) : invalidateEph n = n ∨ invalidateEph n = resetEph n := by
  unfold invalidateEph
  by_cases h : (if n.static = true then n.groupChanged else n.groupChanged || n.datsChanged) = true
  · rw [if_pos h]; exact .inr rfl
  · rw [if_neg h]; exact .inl rfl

theorem subOk_invalidate {base : Nat → Option DatRef} {ever gone : Nat → Bool} {n : SubDats}
    (h : SubOk base ever gone n) : SubOk base ever gone (invalidateEph n) := by
  rcases invalidateEph_cases n with e | e <;> rw [e]
  · exact h
  · exact subOk_reset h _

theorem createSub_cases {n n' : SubDats} (h : createSub n = some n') :
    (n' = n ∧ (n.static = true → n.groupChanged = false) ∧
      (n.static = false → n.groupChanged = false ∧ n.datsChanged = false)) ∨
    (n.static = false ∧ n' = { resetEph { n with
      groupChanged := false, datsChanged := false, sel := n.now } with version := n.version + 1 }) := by
  unfold createSub at h
  by_cases hs : n.static = true
  · rw [if_pos hs] at h
    by_cases hg : n.groupChanged = true
    · rw [if_pos hg] at h; cases h
    · rw [if_neg hg] at h
      exact .inl ⟨(Option.some.inj h).symm, fun _ => by simpa using hg, fun e => by simp [hs] at e⟩
  · rw [if_neg hs] at h
    by_cases hc : (n.groupChanged || n.datsChanged) = true
    · rw [if_pos hc] at h
      exact .inr ⟨by simpa using hs, (Option.some.inj h).symm⟩
    · rw [if_neg hc] at h
      refine .inl ⟨(Option.some.inj h).symm, fun e => absurd e hs, fun _ => ?_⟩
      simpa using hc

/-- After `create_if_required`: the invariant holds, with any record of removed dats if the sub
group was made anew. -/
theorem subOk_create {base : Nat → Option DatRef} {ever gone : Nat → Bool} {n n' : SubDats}
    (h : SubOk base ever gone n) (hc : createSub n = some n') :
    SubOk base ever gone n' ∧ (n'.version ≠ n.version → ∀ gone', SubOk base ever gone' n') := by
  rcases createSub_cases hc with ⟨rfl, -⟩ | ⟨-, rfl⟩
  · exact ⟨h, fun e => absurd rfl e⟩
  · have key : ∀ gone', SubOk base ever gone' (resetEph { n with
        groupChanged := false, datsChanged := false, sel := n.now }) :=
      fun gone' => subOk_reset (gone := gone) (subOk_congr h rfl rfl) gone'
    exact ⟨subOk_congr (key gone) rfl rfl, fun _ gone' => subOk_congr (key gone') rfl rfl⟩

theorem subOk_enter {base : Nat → Option DatRef} {ever gone : Nat → Bool} {n n' : SubDats}
    (h : SubOk base ever gone n) (hc : enterSub n = some n') :
    SubOk base ever gone n' ∧ (n'.version ≠ n.version → ∀ gone', SubOk base ever gone' n') := by
  unfold enterSub at hc
  by_cases hw : n.whole = true
  · rw [if_pos hw] at hc
    obtain rfl := Option.some.inj hc
    exact ⟨h, fun e => absurd rfl e⟩
  · rw [if_neg hw] at hc
    exact subOk_create h hc

theorem subOk_cacheCreate {base : Nat → Option DatRef} {ever gone : Nat → Bool} {n : SubDats}
    (h : SubOk base ever gone n) (he : ∀ s d, base s = some d → ever s = true) {const : Bool}
    {key : List Nat} {c : PtrCache}
    (hc : cacheCreate base (some n.eph) const key n.cache = some c) :
    SubOk base ever gone { n with cache := c } := by
  obtain ⟨r, ⟨rfl, -⟩ | ⟨b, h1, h2, h3, h4, h5⟩⟩ := cacheCreate_stored hc
  · exact subOk_congr h rfl rfl
  · intro con k ps hs
    rcases h3 con k ps hs with ⟨rfl, rfl, rfl⟩ | ho
    · refine (findAll_spec h1).imp ?_
      rintro s p ⟨d, b', hd, hp, hb⟩
      cases hs : n.eph s with
      | some d' =>
        rw [findDat_eph hs] at hd
        obtain ⟨rfl, rfl⟩ := Prod.mk.inj (Option.some.inj hd)
        refine .inr ⟨h5 (hb rfl), fun d'' e => ?_, fun e => ?_⟩
        · dsimp only at e; rw [hs] at e; rw [← Option.some.inj e]; exact hp
        · dsimp only at e; rw [hs] at e; cases e
      | none =>
        rw [findDat_base hs, Option.map_eq_some_iff] at hd
        obtain ⟨d', hd', e⟩ := hd
        obtain ⟨rfl, rfl⟩ := Prod.mk.inj e
        refine .inl ⟨he s _ hd', hs, fun d'' e => ?_⟩
        rw [hd'] at e; rw [← Option.some.inj e]; exact hp
    · refine (h con k ps ho).imp ?_
      rintro s p (a | ⟨a, b⟩)
      · exact .inl a
      · exact .inr ⟨h4 k a, b⟩

/-- What a loop over a sub group gets from its cache. -/
theorem subOk_get {base : Nat → Option DatRef} {ever gone : Nat → Bool} {n : SubDats}
    (h : SubOk base ever gone n) {const : Bool} {key ps : List Nat}
    (hg : cacheGet base (some n.eph) const key n.cache = some ps) :
    ps.map some = key.map fun s => (findDat base (some n.eph) s).map fun d => d.1.id := by
  unfold cacheGet at hg
  rw [Option.bind_eq_some_iff] at hg
  obtain ⟨r, hr, hp⟩ := hg
  have ha := findAll_isSome.1 (Option.isSome_iff_exists.2 ⟨r, hr⟩)
  have hk := h const key ps hp
  have aux : ∀ (ks qs : List Nat),
      List.Forall₂ (SubPos base ever gone n.eph n.cache.ephKeys key) ks qs →
      (∀ s ∈ ks, (findDat base (some n.eph) s).isSome) →
      qs.map some = ks.map fun s => (findDat base (some n.eph) s).map fun d => d.1.id := by
    intro ks qs hf
    induction hf with
    | nil => intro _; rfl
    | cons hd _ ih =>
      rename_i s p ks qs _
      intro hh
      rw [List.map_cons, List.map_cons, ih fun t ht => hh t (List.mem_cons_of_mem _ ht)]
      congr 1
      have h1 := hh s List.mem_cons_self
      rcases hd with ⟨-, e1, e2⟩ | ⟨-, e1, e2⟩
      · rw [findDat_base e1] at h1 ⊢
        cases hb : base s with
        | none => rw [hb] at h1; cases h1
        | some d => simp [e2 d hb]
      · cases he : n.eph s with
        | some d => rw [findDat_eph he]; simp [e1 d he]
        | none =>
          rw [findDat_base he, (e2 he).2] at h1
          cases h1
  exact aux key ps hk ha

def GroupOk (base : Nat → Option DatRef) (ever : Nat → Bool) (c : PtrCache) : Prop :=
  ∀ const key ps, stored const c key = some ps → List.Forall₂ (GroupPos base ever) key ps

theorem groupOk_create {base : Nat → Option DatRef} {ever : Nat → Bool} {c c' : PtrCache}
    (h : GroupOk base ever c) (he : ∀ s d, base s = some d → ever s = true) {const : Bool}
    {key : List Nat} (hc : cacheCreate base none const key c = some c') : GroupOk base ever c' := by
  obtain ⟨r, ⟨rfl, -⟩ | ⟨b, h1, h2, h3, h4, h5⟩⟩ := cacheCreate_stored hc
  · exact h
  · intro con k ps hs
    rcases h3 con k ps hs with ⟨rfl, rfl, rfl⟩ | ho
    · refine (findAll_spec h1).imp ?_
      rintro s p ⟨d, b', hd, hp, -⟩
      rw [findDat_none, Option.map_eq_some_iff] at hd
      obtain ⟨d', hd', e⟩ := hd
      obtain ⟨rfl, rfl⟩ := Prod.mk.inj e
      refine ⟨he s _ hd', fun d'' e => ?_⟩
      rw [hd'] at e; rw [← Option.some.inj e]; exact hp
    · exact h con k ps ho

theorem groupOk_get {base : Nat → Option DatRef} {ever : Nat → Bool} {c : PtrCache}
    (h : GroupOk base ever c) {const : Bool} {key ps : List Nat}
    (hg : cacheGet base none const key c = some ps) :
    ps.map some = key.map fun s => (base s).map DatRef.id := by
  unfold cacheGet at hg
  rw [Option.bind_eq_some_iff] at hg
  obtain ⟨r, hr, hp⟩ := hg
  have ha := findAll_isSome.1 (Option.isSome_iff_exists.2 ⟨r, hr⟩)
  have hk := h const key ps hp
  clear hr hp h
  induction hk with
  | nil => rfl
  | cons hd _ ih =>
    rename_i s p ks qs _
    rw [List.map_cons, List.map_cons, ih fun t ht => ha t (List.mem_cons_of_mem _ ht)]
    congr 1
    have h1 := ha s List.mem_cons_self
    rw [findDat_none] at h1
    cases hb : base s with
    | none => rw [hb] at h1; cases h1
    | some d => simp [hd.2 d hb]

/-- The invariant of programs that use every name once. -/
structure NameInv (ever : Nat → Bool) (gone : Nat → Nat → Bool) (w : DatWorld) : Prop where
  names : ∀ s d, w.base s = some d → ever s = true
  group : GroupOk w.base ever w.cache
  subs : ∀ i, SubOk w.base ever (gone i) (w.subs i)

theorem subOk_base {base base' : Nat → Option DatRef} {ever ever' gone : Nat → Bool} {n : SubDats}
    (h : SubOk base ever gone n) (he : ∀ s, ever s = true → ever' s = true)
    (h1 : ∀ s d, ever s = true → base' s = some d → base s = some d)
    (h2 : ∀ s, gone s = true → base s = none → base' s = none) : SubOk base' ever' gone n := by
  intro const key ps hs
  refine (h const key ps hs).imp ?_
  rintro s p (⟨a, b, c⟩ | ⟨a, b, c⟩)
  · exact .inl ⟨he s a, b, fun d e => c d (h1 s d a e)⟩
  · exact .inr ⟨a, b, fun e => ⟨(c e).1, h2 s (c e).1 (c e).2⟩⟩

theorem groupOk_base {base base' : Nat → Option DatRef} {ever ever' : Nat → Bool} {c : PtrCache}
    (h : GroupOk base ever c) (he : ∀ s, ever s = true → ever' s = true)
    (h1 : ∀ s d, ever s = true → base' s = some d → base s = some d) : GroupOk base' ever' c := by
  intro const key ps hs
  refine (h const key ps hs).imp ?_
  rintro s p ⟨a, c⟩
  exact ⟨he s a, fun d e => c d (h1 s d a e)⟩

theorem setSub_subs (w : DatWorld) (i j : Nat) (n : SubDats) :
    (w.setSub i n).subs j = if j = i then n else w.subs j := by
  simp [DatWorld.setSub, Function.update_apply]

/-- An operation that changes sub group `i` only. -/
theorem nameInv_setSub {ever : Nat → Bool} {gone : Nat → Nat → Bool} {w : DatWorld}
    (h : NameInv ever gone w) (i : Nat) (n : SubDats) {op : DatOp} (hop : everDat ever op = ever)
    (hrm : ∀ j s, op ≠ .removeEph j s)
    (hn : SubOk w.base ever (gone i) n ∧ (n.version ≠ (w.subs i).version →
      SubOk w.base ever (fun _ => false) n)) {w' : DatWorld} (h1 : w'.base = w.base)
    (h2 : w'.cache = w.cache) (h3 : w'.subs = (w.setSub i n).subs) :
    NameInv (everDat ever op) (removedEph gone w w' op) w' := by
  rw [hop]
  refine ⟨by rw [h1]; exact h.names, by rw [h1, h2]; exact h.group, ?_⟩
  intro j
  have hg : removedEph gone w w' op j =
      if (w'.subs j).version = (w.subs j).version then gone j else fun _ => false := by
    funext t
    unfold removedEph
    by_cases hv : (w'.subs j).version = (w.subs j).version
    · simp only [hv, if_true]
    · simp only [hv, if_false]
  rw [hg, h1, h3, setSub_subs]
  by_cases hj : j = i
  · subst hj
    simp only [if_true]
    by_cases hv : n.version = (w.subs j).version
    · rw [if_pos hv]; exact hn.1
    · rw [if_neg hv]; exact hn.2 hv
  · simp only [hj, if_false]
    exact h.subs j

theorem setSub_self (w : DatWorld) (i : Nat) (n : SubDats) : (w.setSub i n).subs i = n := by
  simp [setSub_subs]

theorem setSub_setSub (w : DatWorld) (i : Nat) (n n' : SubDats) :
    (w.setSub i n).setSub i n' = w.setSub i n' := by
  simp [DatWorld.setSub]

theorem invalidateEph_create {n n' : SubDats} (h : createSub n = some n') :
    invalidateEph n' = n' := by
  rcases createSub_cases h with ⟨rfl, h1, h2⟩ | ⟨h1, rfl⟩
  · unfold invalidateEph
    cases hs : n'.static with
    | true => simp [h1 hs]
    | false => simp [h2 hs]
  · simp [invalidateEph, resetEph, h1]

theorem invalidateEph_idem (n : SubDats) : invalidateEph (invalidateEph n) = invalidateEph n := by
  have hr : resetEph (resetEph n) = resetEph n := by
    have hc : cacheResetEph (cacheResetEph n.cache) = cacheResetEph n.cache := by
      simp [cacheResetEph]
    simp [resetEph, hc]
  unfold invalidateEph
  by_cases h : (if n.static = true then n.groupChanged else n.groupChanged || n.datsChanged) = true
  · have h' : (if (resetEph n).static = true then (resetEph n).groupChanged
        else (resetEph n).groupChanged || (resetEph n).datsChanged) = true := h
    rw [if_pos h, if_pos h', hr]
  · rw [if_neg h, if_neg h]

theorem getEph_eq (i s : Nat) (w : DatWorld) : getEph i s w =
    ((invalidateEph (w.subs i)).eph s).map
      fun d => (w.setSub i (invalidateEph (w.subs i)), d) := by
  simp only [getEph, containsEph, setSub_self, setSub_setSub, invalidateEph_idem]
  cases (invalidateEph (w.subs i)).eph s <;> simp

/-- `add_ephemeral_dat` in one formula. -/
theorem addEph_eq (i s ncomp : Nat) (w : DatWorld) : addEph i s ncomp w =
    (createSub (w.subs i)).bind fun n0 =>
      if 0 < ncomp then
        match n0.eph s with
        | some d => if d.ncomp = ncomp then some (w.setSub i n0) else none
        | none => some { w.setSub i { n0 with
            eph := Function.update n0.eph s (some ⟨w.next, ncomp, n0.sel⟩) } with
              next := w.next + 1 }
      else none := by
  unfold addEph
  cases hc : createSub (w.subs i) with
  | none => rfl
  | some n0 =>
    simp only [Option.bind_some, containsEph, getEph_eq, setSub_self, setSub_setSub,
      invalidateEph_create hc]
    by_cases hn : 0 < ncomp
    · simp only [hn, if_true]
      cases he : n0.eph s with
      | none => simp
      | some d => simp
    · simp only [hn, if_false]

/-- `remove_ephemeral_dat` in one formula. -/
theorem removeEph_eq (i s : Nat) (w : DatWorld) : removeEph i s w =
    let n := invalidateEph (w.subs i)
    if (n.eph s).isSome then some (w.setSub i { n with eph := Function.update n.eph s none })
    else none := by
  unfold removeEph
  simp only [containsEph, setSub_self, setSub_setSub]
  by_cases hs : ((invalidateEph (w.subs i)).eph s).isSome = true
  · simp only [hs, if_true]
    have e : invalidateEph { invalidateEph (w.subs i) with
        eph := Function.update (invalidateEph (w.subs i)).eph s none } =
        { invalidateEph (w.subs i) with
          eph := Function.update (invalidateEph (w.subs i)).eph s none } := by
      have hne : invalidateEph (w.subs i) = w.subs i := by
        rcases invalidateEph_cases (w.subs i) with h | h
        · exact h
        · rw [h] at hs; simp [resetEph] at hs
      have hfl : ¬ (if (w.subs i).static = true then (w.subs i).groupChanged
          else (w.subs i).groupChanged || (w.subs i).datsChanged) = true := by
        intro hf
        rw [invalidateEph, if_pos hf] at hs
        simp [resetEph] at hs
      rw [hne]
      unfold invalidateEph
      exact if_neg hfl
    rw [e]
    simp
  · rw [Bool.not_eq_true] at hs
    simp only [hs, Bool.false_eq_true, if_false]

theorem subOk_ever {base : Nat → Option DatRef} {ever gone : Nat → Bool} {n : SubDats}
    (h : SubOk base ever gone n) {s : Nat} (hs : ever s = false) (hg : gone s = false)
    (he : n.eph s = none) (d : DatRef) :
    SubOk base ever gone { n with eph := Function.update n.eph s (some d) } := by
  intro const key ps hp
  refine (h const key ps hp).imp ?_
  rintro t p (⟨a, b, c⟩ | ⟨a, b, c⟩)
  · refine .inl ⟨a, ?_, c⟩
    have : t ≠ s := by rintro rfl; rw [hs] at a; cases a
    dsimp only; rw [Function.update_of_ne this]; exact b
  · by_cases ht : t = s
    · subst ht
      have := (c he).1
      rw [hg] at this; cases this
    · refine .inr ⟨a, ?_, ?_⟩ <;> dsimp only <;> rw [Function.update_of_ne ht]
      · exact b
      · exact c

theorem nameInv_step {ever : Nat → Bool} {gone : Nat → Nat → Bool} {w w' : DatWorld}
    (h : NameInv ever gone w) {op : DatOp} (ha : NameAllowed ever gone w op)
    (hs : stepDat op w = some w') : NameInv (everDat ever op) (removedEph gone w w' op) w' := by
  cases op with
  | addDat s ncomp =>
    change addDat s ncomp w = some w' at hs
    have hgone : ∀ u : DatWorld, u.subs = w.subs →
        removedEph gone w u (.addDat s ncomp) = gone := by
      intro u hu
      funext i t
      simp [removedEph, hu]
    have hle : ∀ t, ever t = true → everDat ever (.addDat s ncomp) t = true := by
      intro t ht
      simp only [everDat]
      split <;> simp [ht]
    unfold addDat at hs
    cases hb : w.base s with
    | some d =>
      rw [hb] at hs
      dsimp only at hs
      split at hs
      swap
      · cases hs
      obtain rfl := Option.some.inj hs
      rw [hgone w rfl]
      exact ⟨fun t e he => hle t (h.names t e he), groupOk_base h.group hle fun _ _ _ e => e,
        fun i => subOk_base (h.subs i) hle (fun _ _ _ e => e) fun _ _ e => e⟩
    | none =>
      rw [hb] at hs
      obtain rfl := Option.some.inj hs
      rw [hgone { w with
        base := Function.update w.base s (some ⟨w.next, ncomp, []⟩), next := w.next + 1 } rfl]
      obtain ⟨a1, a2⟩ := ha hb
      have key : ∀ t e, ever t = true →
          Function.update w.base s (some ⟨w.next, ncomp, []⟩) t = some e → w.base t = some e := by
        intro t e ht he
        have hts : t ≠ s := by rintro rfl; rw [a1] at ht; cases ht
        rwa [Function.update_of_ne hts] at he
      refine ⟨?_, groupOk_base h.group hle key, fun i => subOk_base (h.subs i) hle key ?_⟩
      · intro t e he
        simp only [everDat]
        by_cases hts : t = s
        · simp [hts]
        · dsimp only at he
          rw [Function.update_of_ne hts] at he
          simp [hts, h.names t e he]
      · intro t ht hn
        have hts : t ≠ s := by rintro rfl; rw [a2 i] at ht; cases ht
        dsimp only; rw [Function.update_of_ne hts]; exact hn
  | removeDat s =>
    change removeDat s w = some w' at hs
    unfold removeDat at hs
    split at hs
    swap
    · cases hs
    obtain rfl := Option.some.inj hs
    have hgone : removedEph gone w { w with base := Function.update w.base s none }
        (.removeDat s) = gone := by
      funext i t; simp [removedEph]
    rw [hgone]
    have key : ∀ t e, Function.update w.base s none t = some e → w.base t = some e := by
      intro t e he
      by_cases hts : t = s
      · subst hts; simp at he
      · rwa [Function.update_of_ne hts] at he
    refine ⟨fun t e he => h.names t e (key t e he), groupOk_base h.group (fun _ e => e)
      fun t e _ => key t e, fun i => subOk_base (h.subs i) (fun _ e => e) (fun t e _ => key t e) ?_⟩
    intro t _ hn
    by_cases hts : t = s
    · subst hts; simp
    · dsimp only; rw [Function.update_of_ne hts]; exact hn
  | change counts =>
    obtain rfl := Option.some.inj hs
    have hgone : removedEph gone w (changeParticles counts w) (.change counts) = gone := by
      funext i t; simp [removedEph, changeParticles]
    rw [hgone]
    exact ⟨h.names, h.group, fun i => subOk_congr (h.subs i) rfl rfl⟩
  | write uses counts =>
    obtain rfl := Option.some.inj hs
    have hsub : ∀ i, (((writeProperty uses counts w).subs i).cache = (w.subs i).cache ∧
        ((writeProperty uses counts w).subs i).eph = (w.subs i).eph) ∧
        ((writeProperty uses counts w).subs i).version = (w.subs i).version := by
      intro i
      simp only [writeProperty]
      split <;> exact ⟨⟨rfl, rfl⟩, rfl⟩
    have hgone : removedEph gone w (writeProperty uses counts w) (.write uses counts) = gone := by
      funext i t; simp [removedEph, (hsub i).2]
    rw [hgone]
    exact ⟨h.names, h.group, fun i => subOk_congr (h.subs i) (hsub i).1.1 (hsub i).1.2⟩
  | setStatic i b =>
    change setStaticSub i b w = some w' at hs
    unfold setStaticSub at hs
    dsimp only at hs
    by_cases hb : (w.subs i).static = b
    · rw [if_pos hb] at hs
      obtain rfl := Option.some.inj hs
      exact nameInv_setSub h i (w.subs i) rfl (by simp) ⟨h.subs i, fun e => absurd rfl e⟩ rfl rfl
        (by simp [DatWorld.setSub])
    · rw [if_neg hb, Option.map_eq_some_iff] at hs
      obtain ⟨n1, h1, rfl⟩ := hs
      refine nameInv_setSub h i { n1 with static := b } rfl (by simp) ?_ rfl rfl rfl
      cases b with
      | true =>
        rw [if_pos rfl] at h1
        obtain ⟨a, c⟩ := subOk_create (h.subs i) h1
        exact ⟨subOk_congr a rfl rfl, fun hv => subOk_congr (c hv _) rfl rfl⟩
      | false =>
        simp only [Bool.false_eq_true, if_false, Option.some.injEq] at h1
        subst h1
        exact ⟨subOk_congr (h.subs i) rfl rfl, fun hv => absurd rfl hv⟩
  | use i =>
    simp only [stepDat, Option.map_eq_some_iff] at hs
    obtain ⟨n, hn, rfl⟩ := hs
    obtain ⟨a, c⟩ := subOk_create (h.subs i) hn
    exact nameInv_setSub h i n rfl (by simp) ⟨a, fun hv => c hv _⟩ rfl rfl rfl
  | addEph i s ncomp =>
    obtain ⟨a1, a2⟩ := ha
    have a2' := a2
    change addEph i s ncomp w = some w' at hs
    have hs0 := hs
    rw [addEph_eq, Option.bind_eq_some_iff] at hs
    obtain ⟨n0, hn0, hs⟩ := hs
    obtain ⟨c1, c2⟩ := subOk_create (h.subs i) hn0
    split at hs
    swap
    · cases hs
    split at hs
    · split at hs
      swap
      · cases hs
      obtain rfl := Option.some.inj hs
      exact nameInv_setSub h i n0 rfl (by simp) ⟨c1, fun hv => c2 hv _⟩ rfl rfl rfl
    · rename_i he
      obtain rfl := Option.some.inj hs
      by_cases hg : gone i s = true
      · have hv := a2 hg _ hs0
        have hv' : n0.version ≠ (w.subs i).version := by
          simpa [DatWorld.setSub] using hv
        -- the sub group was made anew, so that nothing is known to be removed
        refine nameInv_setSub h i _ rfl (by simp) ⟨?_, fun _ => ?_⟩ rfl rfl rfl
        · have := subOk_ever (c2 hv' (fun _ => false)) a1 rfl he ⟨w.next, ncomp, n0.sel⟩
          intro const key ps hp
          refine (this const key ps hp).imp ?_
          rintro t p (x | ⟨x, y, z⟩)
          · exact .inl x
          · exact .inr ⟨x, y, fun e => absurd (z e).1 (by simp)⟩
        · exact subOk_ever (c2 hv' _) a1 rfl he _
      · have hg' : gone i s = false := by simpa using hg
        exact nameInv_setSub h i _ rfl (by simp)
          ⟨subOk_ever c1 a1 hg' he _, fun hv => subOk_ever (c2 hv _) a1 rfl he _⟩ rfl rfl rfl
  | removeEph i s =>
    change removeEph i s w = some w' at hs
    rw [removeEph_eq] at hs
    dsimp only at hs
    split at hs
    swap
    · cases hs
    obtain rfl := Option.some.inj hs
    have hb : w.base s = none := ha
    have hver : (invalidateEph (w.subs i)).version = (w.subs i).version := by
      rcases invalidateEph_cases (w.subs i) with e | e <;> rw [e]; rfl
    refine ⟨h.names, h.group, ?_⟩
    intro j
    have hg : ∀ t, removedEph gone w (w.setSub i { invalidateEph (w.subs i) with
        eph := Function.update (invalidateEph (w.subs i)).eph s none }) (.removeEph i s) j t =
        if i = j ∧ s = t then true else gone j t := by
      intro t
      simp only [removedEph, setSub_subs]
      by_cases hj : j = i
      · subst hj; simp [hver]
      · simp [hj]
    rw [setSub_subs]
    by_cases hj : j = i
    · subst hj
      rw [if_pos rfl]
      intro const key ps hp
      refine (subOk_invalidate (h.subs j) const key ps hp).imp ?_
      rintro t p (⟨a, b, c⟩ | ⟨a, b, c⟩)
      · refine .inl ⟨a, ?_, c⟩
        dsimp only
        by_cases hts : t = s
        · subst hts; simp
        · rw [Function.update_of_ne hts]; exact b
      · refine .inr ⟨a, ?_, ?_⟩
        · intro d hd
          dsimp only at hd
          by_cases hts : t = s
          · subst hts; simp at hd
          · rw [Function.update_of_ne hts] at hd; exact b d hd
        · intro hd
          dsimp only at hd
          rw [hg]
          by_cases hts : t = s
          · subst hts; exact ⟨by simp, hb⟩
          · rw [Function.update_of_ne hts] at hd
            have hst : ¬ (j = j ∧ s = t) := fun e => hts e.2.symm
            rw [if_neg hst]
            exact c hd
    · rw [if_neg hj]
      have : removedEph gone w (w.setSub i { invalidateEph (w.subs i) with
          eph := Function.update (invalidateEph (w.subs i)).eph s none }) (.removeEph i s) j =
          gone j := by
        funext t
        rw [hg, if_neg fun e => hj e.1.symm]
      rw [this]
      exact h.subs j
  | containsEph i s =>
    obtain rfl := Option.some.inj hs
    have hver : (invalidateEph (w.subs i)).version = (w.subs i).version := by
      rcases invalidateEph_cases (w.subs i) with e | e <;> rw [e]; rfl
    exact nameInv_setSub h i _ rfl (by simp)
      ⟨subOk_invalidate (h.subs i), fun hv => absurd hver hv⟩ rfl rfl rfl
  | loopVec const key =>
    simp only [stepDat, Option.map_eq_some_iff] at hs
    obtain ⟨⟨w1, ps⟩, hl, rfl⟩ := hs
    simp only [loopVec, Option.bind_eq_some_iff, Option.some.injEq, Prod.mk.injEq] at hl
    obtain ⟨c, hc, ps', -, rfl, -⟩ := hl
    have hgone : removedEph gone w { w with cache := c } (.loopVec const key) = gone := by
      funext i t; simp [removedEph]
    rw [hgone]
    exact ⟨h.names, groupOk_create h.group h.names hc, h.subs⟩
  | loopVecSub i const key =>
    simp only [stepDat, Option.map_eq_some_iff] at hs
    obtain ⟨⟨w1, ps⟩, hl, rfl⟩ := hs
    simp only [loopVecSub, Option.bind_eq_some_iff, Option.some.injEq, Prod.mk.injEq] at hl
    obtain ⟨n, hn, c, hc, ps', -, rfl, -⟩ := hl
    obtain ⟨a1, a2⟩ := subOk_enter (h.subs i) hn
    exact nameInv_setSub h i _ rfl (by simp) ⟨subOk_cacheCreate a1 h.names hc,
      fun hv => subOk_cacheCreate (a2 hv _) h.names hc⟩ rfl rfl rfl
  | loopSymSub i s =>
    simp only [stepDat, Option.map_eq_some_iff] at hs
    obtain ⟨⟨w1, d⟩, hl, rfl⟩ := hs
    simp only [loopSymSub, Option.bind_eq_some_iff, Option.map_eq_some_iff, Prod.mk.injEq] at hl
    obtain ⟨n, hn, d', -, rfl, -⟩ := hl
    obtain ⟨a1, a2⟩ := subOk_enter (h.subs i) hn
    exact nameInv_setSub h i n rfl (by simp) ⟨a1, fun hv => a2 hv _⟩ rfl rfl rfl

theorem nameInv_run {ever : Nat → Bool} {gone : Nat → Nat → Bool} {w : DatWorld}
    (h : NameRun ever gone w) : NameInv ever gone w := by
  induction h with
  | new whole counts =>
    refine ⟨by simp [DatWorld.new], ?_, ?_⟩
    · intro const key ps hs
      cases const <;> simp [stored, DatWorld.new, PtrCache.empty] at hs
    · intro i const key ps hs
      cases const <;> simp [stored, DatWorld.new, SubDats.new, PtrCache.empty] at hs
  | step op _ ha hs ih => exact nameInv_step ih ha hs

/-! ## Sub groups -/

theorem findDat_subName {w : DatWorld} {i : Nat} {n : SubDats} (s : Nat) :
    (findDat w.base (some n.eph) s).map (fun d => d.1.id) = subName (w.setSub i n) i s := by
  unfold subName groupName
  rw [setSub_self]
  cases he : n.eph s with
  | some d => simp [findDat, he]
  | none =>
    simp only [findDat, he, Option.map_map, DatWorld.setSub]
    rfl

/-- Facts about every state of every program. -/
structure DatInv (w : DatWorld) : Prop where
  rows : ∀ i s d, (w.subs i).eph s = some d → d.rows = (w.subs i).sel ∧ 0 < d.ncomp
  ids : ∀ i s d, (w.subs i).eph s = some d → d.id < w.next
  baseIds : ∀ s d, w.base s = some d → d.id < w.next
  now : ∀ i, (w.subs i).groupChanged = false → (w.subs i).datsChanged = false →
    (w.subs i).sel = (w.subs i).now

/-- The part of it about one sub group. -/
structure SubInvD (next : Nat) (n : SubDats) : Prop where
  rows : ∀ s d, n.eph s = some d → d.rows = n.sel ∧ 0 < d.ncomp
  ids : ∀ s d, n.eph s = some d → d.id < next
  now : n.groupChanged = false → n.datsChanged = false → n.sel = n.now

theorem datInv_iff {w : DatWorld} : DatInv w ↔ (∀ i, SubInvD w.next (w.subs i)) ∧
    ∀ s d, w.base s = some d → d.id < w.next :=
  ⟨fun h => ⟨fun i => ⟨h.rows i, h.ids i, h.now i⟩, h.baseIds⟩,
    fun h => ⟨fun i => (h.1 i).rows, fun i => (h.1 i).ids, h.2, fun i => (h.1 i).now⟩⟩

theorem subInvD_reset {next : Nat} {n : SubDats} (h : SubInvD next n) :
    SubInvD next (resetEph n) :=
  ⟨fun s d e => by simp [resetEph] at e, fun s d e => by simp [resetEph] at e, h.now⟩

theorem subInvD_invalidate {next : Nat} {n : SubDats} (h : SubInvD next n) :
    SubInvD next (invalidateEph n) := by
  rcases invalidateEph_cases n with e | e <;> rw [e]
  · exact h
  · exact subInvD_reset h

theorem subInvD_create {next : Nat} {n n' : SubDats} (h : SubInvD next n)
    (hc : createSub n = some n') : SubInvD next n' ∧ (n'.static = true ∨ n'.sel = n'.now) := by
  rcases createSub_cases hc with ⟨rfl, -, h2⟩ | ⟨-, rfl⟩
  · refine ⟨h, ?_⟩
    cases hs : n'.static with
    | true => exact .inl rfl
    | false => exact .inr (h.now (h2 hs).1 (h2 hs).2)
  · exact ⟨⟨fun s d e => by simp [resetEph] at e, fun s d e => by simp [resetEph] at e,
      fun _ _ => rfl⟩, .inr rfl⟩

theorem subInvD_enter {next : Nat} {n n' : SubDats} (h : SubInvD next n)
    (hc : enterSub n = some n') : SubInvD next n' := by
  unfold enterSub at hc
  split at hc
  · obtain rfl := Option.some.inj hc; exact h
  · exact (subInvD_create h hc).1

theorem subInvD_mono {next next' : Nat} {n : SubDats} (h : SubInvD next n) (hn : next ≤ next') :
    SubInvD next' n := ⟨h.rows, fun s d e => Nat.lt_of_lt_of_le (h.ids s d e) hn, h.now⟩

theorem datInv_setSub {w w' : DatWorld} (h : DatInv w) (i : Nat) {n : SubDats}
    (hn : SubInvD w'.next n) (h1 : w'.base = w.base) (h2 : w.next ≤ w'.next)
    (h3 : w'.subs = (w.setSub i n).subs) : DatInv w' := by
  rw [datInv_iff] at h ⊢
  refine ⟨fun j => ?_, fun s d e => Nat.lt_of_lt_of_le (h.2 s d (by rwa [h1] at e)) h2⟩
  rw [h3, setSub_subs]
  by_cases hj : j = i
  · rw [if_pos hj]; exact hn
  · rw [if_neg hj]; exact subInvD_mono (h.1 j) h2

theorem datInv_step {w w' : DatWorld} (h : DatInv w) {op : DatOp} (hs : stepDat op w = some w') :
    DatInv w' := by
  have hsub : ∀ i, SubInvD w.next (w.subs i) := (datInv_iff.1 h).1
  cases op with
  | addDat s ncomp =>
    change addDat s ncomp w = some w' at hs
    unfold addDat at hs
    split at hs
    · split at hs
      · obtain rfl := Option.some.inj hs; exact h
      · cases hs
    · obtain rfl := Option.some.inj hs
      rw [datInv_iff]
      refine ⟨fun j => subInvD_mono (hsub j) (Nat.le_succ _), fun t d e => ?_⟩
      dsimp only at e ⊢
      by_cases ht : t = s
      · subst ht
        rw [Function.update_self] at e
        obtain rfl := Option.some.inj e
        exact Nat.lt_succ_self _
      · rw [Function.update_of_ne ht] at e
        exact Nat.lt_succ_of_lt (h.baseIds t d e)
  | removeDat s =>
    change removeDat s w = some w' at hs
    unfold removeDat at hs
    split at hs
    swap
    · cases hs
    obtain rfl := Option.some.inj hs
    rw [datInv_iff]
    refine ⟨hsub, fun t d e => ?_⟩
    dsimp only at e
    by_cases ht : t = s
    · subst ht; simp at e
    · rw [Function.update_of_ne ht] at e; exact h.baseIds t d e
  | change counts =>
    obtain rfl := Option.some.inj hs
    exact ⟨h.rows, h.ids, h.baseIds, fun i e => by simp [changeParticles] at e⟩
  | write uses counts =>
    obtain rfl := Option.some.inj hs
    rw [datInv_iff]
    refine ⟨fun i => ?_, h.baseIds⟩
    simp only [writeProperty]
    split
    · exact ⟨h.rows i, h.ids i, fun _ e => by simp at e⟩
    · exact hsub i
  | setStatic i b =>
    change setStaticSub i b w = some w' at hs
    unfold setStaticSub at hs
    dsimp only at hs
    split at hs
    · obtain rfl := Option.some.inj hs; exact h
    · rw [Option.map_eq_some_iff] at hs
      obtain ⟨n1, h1, rfl⟩ := hs
      have hn1 : SubInvD w.next n1 := by
        cases b with
        | true => rw [if_pos rfl] at h1; exact (subInvD_create (hsub i) h1).1
        | false =>
          simp only [Bool.false_eq_true, if_false, Option.some.injEq] at h1
          subst h1; exact hsub i
      exact datInv_setSub h i (n := { n1 with static := b }) ⟨hn1.rows, hn1.ids, hn1.now⟩ rfl
        (Nat.le_refl _) rfl
  | use i =>
    simp only [stepDat, Option.map_eq_some_iff] at hs
    obtain ⟨n, hn, rfl⟩ := hs
    exact datInv_setSub h i (subInvD_create (hsub i) hn).1 rfl (Nat.le_refl _) rfl
  | addEph i s ncomp =>
    change addEph i s ncomp w = some w' at hs
    rw [addEph_eq, Option.bind_eq_some_iff] at hs
    obtain ⟨n0, hn0, hs⟩ := hs
    have hn := (subInvD_create (hsub i) hn0).1
    split at hs
    swap
    · cases hs
    rename_i hpos
    split at hs
    · split at hs
      swap
      · cases hs
      obtain rfl := Option.some.inj hs
      exact datInv_setSub h i hn rfl (Nat.le_refl _) rfl
    · obtain rfl := Option.some.inj hs
      refine datInv_setSub h i (n := { n0 with
        eph := Function.update n0.eph s (some ⟨w.next, ncomp, n0.sel⟩) }) ?_ rfl (Nat.le_succ _) rfl
      refine ⟨fun t d e => ?_, fun t d e => ?_, hn.now⟩ <;> dsimp only at e ⊢ <;>
        by_cases ht : t = s
      · subst ht
        rw [Function.update_self] at e
        obtain rfl := Option.some.inj e
        exact ⟨rfl, hpos⟩
      · rw [Function.update_of_ne ht] at e; exact hn.rows t d e
      · subst ht
        rw [Function.update_self] at e
        obtain rfl := Option.some.inj e
        exact Nat.lt_succ_self _
      · rw [Function.update_of_ne ht] at e; exact Nat.lt_succ_of_lt (hn.ids t d e)
  | removeEph i s =>
    change removeEph i s w = some w' at hs
    rw [removeEph_eq] at hs
    dsimp only at hs
    split at hs
    swap
    · cases hs
    obtain rfl := Option.some.inj hs
    have hn := subInvD_invalidate (hsub i)
    refine datInv_setSub h i (n := { invalidateEph (w.subs i) with
      eph := Function.update (invalidateEph (w.subs i)).eph s none }) ?_ rfl (Nat.le_refl _) rfl
    refine ⟨fun t d e => ?_, fun t d e => ?_, hn.now⟩ <;> dsimp only at e ⊢ <;>
      by_cases ht : t = s
    · subst ht; simp at e
    · rw [Function.update_of_ne ht] at e; exact hn.rows t d e
    · subst ht; simp at e
    · rw [Function.update_of_ne ht] at e; exact hn.ids t d e
  | containsEph i s =>
    obtain rfl := Option.some.inj hs
    exact datInv_setSub h i (subInvD_invalidate (hsub i)) rfl (Nat.le_refl _) rfl
  | loopVec const key =>
    simp only [stepDat, Option.map_eq_some_iff] at hs
    obtain ⟨⟨w1, ps⟩, hl, rfl⟩ := hs
    simp only [loopVec, Option.bind_eq_some_iff, Option.some.injEq, Prod.mk.injEq] at hl
    obtain ⟨c, hc, ps', -, rfl, -⟩ := hl
    exact ⟨h.rows, h.ids, h.baseIds, h.now⟩
  | loopVecSub i const key =>
    simp only [stepDat, Option.map_eq_some_iff] at hs
    obtain ⟨⟨w1, ps⟩, hl, rfl⟩ := hs
    simp only [loopVecSub, Option.bind_eq_some_iff, Option.some.injEq, Prod.mk.injEq] at hl
    obtain ⟨n, hn, c, hc, ps', -, rfl, -⟩ := hl
    have hn' := subInvD_enter (hsub i) hn
    exact datInv_setSub h i (n := { n with cache := c }) ⟨hn'.rows, hn'.ids, hn'.now⟩ rfl
      (Nat.le_refl _) rfl
  | loopSymSub i s =>
    simp only [stepDat, Option.map_eq_some_iff] at hs
    obtain ⟨⟨w1, d⟩, hl, rfl⟩ := hs
    simp only [loopSymSub, Option.bind_eq_some_iff, Option.map_eq_some_iff, Prod.mk.injEq] at hl
    obtain ⟨n, hn, d', -, rfl, -⟩ := hl
    exact datInv_setSub h i (subInvD_enter (hsub i) hn) rfl (Nat.le_refl _) rfl

theorem datInv_reach {w : DatWorld} (h : DatReach w) : DatInv w := by
  induction h with
  | new whole counts =>
    refine ⟨?_, ?_, ?_, ?_⟩ <;> simp [DatWorld.new, SubDats.new]
  | step op _ hs ih => exact datInv_step ih hs

end NP
