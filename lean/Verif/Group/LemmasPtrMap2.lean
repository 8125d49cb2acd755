import Verif.Group.LemmasPtrMap

/-!
# Lemmas: histories of a pointer map
-/

set_option autoImplicit false

namespace NP

open Spec

/-- What holds between operations. -/
structure PtrMapInv (w : MapWorld) : Prop where
  okR : OMapOk w.reals
  okI : OMapOk w.ints
  nodup : (datIds w).Nodup
  lt : ∀ k ∈ datIds w, k < w.next
  host : ∀ k ∈ datIds w, ∃ l, w.host k = some l ∧ l.length = w.ncell
  device : ∀ k ∈ datIds w, ∃ l, w.device k = some l ∧ l.length = w.ncell
  pos : ∃ d, omGet w.reals w.posSym = some d
  const : w.map.validConst = true → MapDescribes w ∧ w.map.npart = datIds w ∧
    ∃ rest, w.map.dNpart = datIds w ++ rest
  write : w.map.valid = true → w.map.validConst = true ∧ WriteDescribes w

theorem createConst_spec (env : MapEnv) {w : MapWorld} (inv : PtrMapInv w) :
    ∃ w', createConst env w = some w' ∧ PtrMapInv w' ∧ w'.map.validConst = true ∧ SameDats w w' ∧
      w'.host = w.host ∧ w'.device = w.device ∧ w'.writes = w.writes := by
  unfold createConst
  by_cases hv : w.map.validConst = true
  · rw [if_pos hv]
    exact ⟨w, rfl, inv, hv, ⟨rfl, rfl, rfl, rfl, rfl, rfl⟩, rfl, rfl, rfl⟩
  · rw [if_neg hv]
    dsimp only
    obtain ⟨t1, h1, d1⟩ := buildTable_spec env inv.okR w.map.tReal []
    obtain ⟨t2, h2, d2⟩ := buildTable_spec env inv.okI w.map.tInt ([] ++ w.reals.map (·.2.id))
    rw [h1, Option.bind_some, h2, Option.bind_some]
    have hids : ([] ++ w.reals.map (·.2.id)) ++ w.ints.map (·.2.id) = datIds w := by simp [datIds]
    dsimp only
    rw [hids]
    have hl : (datIds w).length = w.reals.length + w.ints.length := by simp [datIds]
    have hc : copyFront (reallocNoCopy env.fresh w.map.dNpart (w.reals.length + w.ints.length)) (datIds w) =
        some (datIds w ++ (reallocNoCopy env.fresh w.map.dNpart (w.reals.length + w.ints.length)).drop
          (datIds w).length) := by
      unfold copyFront
      rw [if_pos (by rw [hl]; exact reallocNoCopy_ge _ _ _)]
    rw [hc, Option.bind_some]
    have hne : w.reals ≠ [] := by
      obtain ⟨d, hd⟩ := inv.pos
      intro h0; rw [h0] at hd; simp [omGet_nil] at hd
    refine ⟨_, rfl, ?_, rfl, ⟨rfl, rfl, rfl, rfl, rfl, rfl⟩, rfl, rfl, rfl⟩
    refine ⟨inv.okR, inv.okI, inv.nodup, inv.lt, inv.host, inv.device, inv.pos, ?_, ?_⟩
    · intro _
      refine ⟨⟨d1, d2, by dsimp only; rw [if_neg hne], ?_, ?_, ?_⟩, rfl, _, rfl⟩
      · dsimp only; rw [d1.2.2.1, d2.2.2.1]; omega
      · dsimp only; rw [d1.2.2.1]; omega
      · dsimp only; rw [d2.2.2.1]; omega
    · intro hval
      exact absurd (inv.write hval).1 hv

theorem createMap_spec (env : MapEnv) {w : MapWorld} (inv : PtrMapInv w) :
    ∃ w', createMap env w = some w' ∧ PtrMapInv w' ∧ w'.map.validConst = true ∧ w'.map.valid = true ∧
      SameDats w w' ∧ w'.host = w.host ∧ w'.device = w.device ∧
      ∀ k, w'.writes k = w.writes k + (datIds w).count k := by
  unfold createMap
  obtain ⟨w1, h1, inv1, hv1, ⟨s1, s2, s3, s4, s5, s6⟩, hh, hd, hw⟩ := createConst_spec env inv
  rw [h1, Option.bind_some]
  have hcount : ∀ k, (datIds w).count k = (w1.reals.map (·.2.id)).count k + (w1.ints.map (·.2.id)).count k := by
    intro k; unfold datIds; rw [List.count_append, s1, s2]
  by_cases hv : w1.map.valid = true
  · rw [if_pos hv]
    dsimp only
    refine ⟨_, rfl, ?_, hv1, hv, ⟨s1, s2, s3, s4, s5, s6⟩, hh, hd, ?_⟩
    · exact ⟨inv1.okR, inv1.okI, inv1.nodup, inv1.lt, inv1.host, inv1.device, inv1.pos, inv1.const, inv1.write⟩
    · intro k
      dsimp only
      rw [writes_foldl, writes_foldl, hw, hcount]; omega
  · rw [if_neg hv]
    obtain ⟨r, hr, r1, r2⟩ := wptr_loop w1.reals (reallocNoCopy env.fresh w1.map.wptrReal w1.reals.length) w1.writes
      (reallocNoCopy_ge _ _ _)
    obtain ⟨i, hi, i1, i2⟩ := wptr_loop w1.ints (reallocNoCopy env.fresh w1.map.wptrInt w1.ints.length) r.2.2
      (reallocNoCopy_ge _ _ _)
    rw [hr, Option.bind_some, hi, Option.bind_some]
    refine ⟨_, rfl, ?_, hv1, rfl, ⟨s1, s2, s3, s4, s5, s6⟩, hh, hd, ?_⟩
    · exact ⟨inv1.okR, inv1.okI, inv1.nodup, inv1.lt, inv1.host, inv1.device, inv1.pos, inv1.const,
        fun _ => ⟨hv1, r1, i1⟩⟩
    · intro k
      dsimp only
      rw [i2, r2, hw, hcount]; omega

/-- The counts found through the pointers `ids` are those of `src` where `Done` says so, and no other memory
has changed. -/
def CountsDone (ids : List Nat) (src : List Int) (n : Nat) (Done : Nat → Nat → Prop)
    (mem0 mem : Nat → Option (List Int)) : Prop :=
  (∀ k ∈ ids, ∃ l, mem k = some l ∧ l.length = n ∧
    ∀ dx cx : Nat, Done dx cx → ids[dx]? = some k → l[cx]? = src[cx]?) ∧
  ∀ k, k ∉ ids → mem k = mem0 k

theorem putCount_step {ids : List Nat} {src : List Int} {n : Nat} {Done Done' : Nat → Nat → Prop}
    {mem0 mem : Nat → Option (List Int)} (h : CountsDone ids src n Done mem0 mem) {dx cx p : Nat}
    (hp : ids[dx]? = some p) (hcx : cx < n) {v : Int} (hv : src[cx]? = some v)
    (hD : ∀ a b, Done' a b → Done a b ∨ (a = dx ∧ b = cx)) :
    ∃ mem', putCount mem p cx v = some mem' ∧ CountsDone ids src n Done' mem0 mem' := by
  have hpm : p ∈ ids := List.mem_of_getElem? hp
  obtain ⟨l, h1, h2, h3⟩ := h.1 p hpm
  refine ⟨fun k => if k = p then some (l.set cx v) else mem k, ?_, ?_, ?_⟩
  · unfold putCount
    rw [h1, Option.bind_some, st_eq_some (by omega), Option.bind_some]
  · intro k hk
    by_cases hkp : k = p
    · subst hkp
      refine ⟨l.set cx v, by simp, by simpa using h2, ?_⟩
      intro a b hab hka
      by_cases hb : b = cx
      · subst hb; rw [List.getElem?_set_self (by omega), hv]
      · rw [List.getElem?_set_ne (by omega)]
        rcases hD a b hab with h4 | ⟨-, h4⟩
        · exact h3 a b h4 hka
        · exact absurd h4 hb
    · obtain ⟨l', e1, e2, e3⟩ := h.1 k hk
      refine ⟨l', by simpa [hkp] using e1, e2, ?_⟩
      intro a b hab hka
      rcases hD a b hab with h4 | ⟨h4, -⟩
      · exact e3 a b h4 hka
      · subst h4; rw [hp] at hka; simp only [Option.some.injEq] at hka; exact absurd hka.symm hkp
  · intro k hk
    have : k ≠ p := fun h => hk (h ▸ hpm)
    simp only [if_neg this]
    exact h.2 k hk

theorem countsDone_all {ids : List Nat} {src : List Int} {n : Nat} {Done : Nat → Nat → Prop}
    {mem0 mem : Nat → Option (List Int)} (h : CountsDone ids src n Done mem0 mem) (hs : n ≤ src.length)
    (hD : ∀ dx < ids.length, ∀ cx < n, Done dx cx) : ∀ k ∈ ids, mem k = some (src.take n) := by
  intro k hk
  obtain ⟨l, h1, h2, h3⟩ := h.1 k hk
  obtain ⟨dx, hdx⟩ := List.getElem?_of_mem hk
  have hlt := (List.getElem?_eq_some_iff.mp hdx).1
  rw [h1]
  congr 1
  refine List.ext_getElem? fun cx => ?_
  by_cases hcx : cx < n
  · rw [h3 dx cx (hD dx hlt cx hcx) hdx, List.getElem?_take_of_lt hcx]
  · rw [List.getElem?_eq_none (by omega), List.getElem?_eq_none (by rw [List.length_take]; omega)]

theorem setNpartCells_spec (env : MapEnv) {w : MapWorld} (inv : PtrMapInv w) (h d : List Int)
    (hh : w.ncell ≤ h.length) (hd : w.ncell ≤ d.length) :
    ∃ w', setNpartCells env h d w = some w' ∧ PtrMapInv w' ∧ w'.map.validConst = true ∧ w'.map.valid = true ∧
      SameDats w w' ∧
      (∀ k ∈ datIds w, w'.host k = some (h.take w.ncell) ∧ w'.device k = some (d.take w.ncell)) ∧
      (∀ k, k ∉ datIds w → w'.host k = w.host k ∧ w'.device k = w.device k) ∧
      ∀ k, w'.writes k = w.writes k + 2 * (datIds w).count k := by
  unfold setNpartCells
  obtain ⟨w1, h1, inv1, hv1, hv2, ⟨s1, s2, s3, s4, s5, s6⟩, eh, ed, hw⟩ := createMap_spec env inv
  rw [h1, Option.bind_some]
  dsimp only
  have hids : datIds w1 = datIds w := by unfold datIds; rw [s1, s2]
  obtain ⟨⟨-, -, hcell, -⟩, hnp, rest, hdn⟩ := inv1.const hv1
  rw [hids] at hnp hdn
  rw [hcell.trans s3, hnp]
  obtain ⟨dev, e1, c1⟩ := runItems_invariant
    (items := env.sched.order (pairs (datIds w).length w.ncell))
    (step := fun (x : Nat × Nat) dev => (rd d x.2).bind fun n => (rd w1.map.dNpart x.1).bind fun p =>
      putCount dev p x.2 n) (s := w1.device)
    (P := fun pre dev => CountsDone (datIds w) d w.ncell (fun a b => (a, b) ∈ pre) w1.device dev) (by
      rintro pre ⟨dx, cx⟩ post dev hpre hP
      have hmem : (dx, cx) ∈ pairs (datIds w).length w.ncell :=
        (env.sched.perm _).mem_iff.mp (by rw [hpre]; simp)
      simp only [pairs, List.mem_flatMap, List.mem_range, List.mem_map, Prod.mk.injEq] at hmem
      obtain ⟨a, ha, b, hb, rfl, rfl⟩ := hmem
      have e1 : rd d b = some d[b] := List.getElem?_eq_getElem (by omega)
      have e2 : rd w1.map.dNpart a = some (datIds w)[a] := by
        unfold rd; rw [hdn, List.getElem?_append_left ha, List.getElem?_eq_getElem ha]
      dsimp only
      rw [e1, Option.bind_some, e2, Option.bind_some]
      exact putCount_step hP (List.getElem?_eq_getElem ha) hb (List.getElem?_eq_getElem (by omega))
        (by
          intro a' b' h'
          rcases List.mem_append.mp h' with h' | h'
          · exact Or.inl h'
          · simp only [List.mem_singleton, Prod.mk.injEq] at h'; exact Or.inr h')) (by
      refine ⟨?_, fun k _ => rfl⟩
      intro k hk
      obtain ⟨l, q1, q2⟩ := inv.device k hk
      exact ⟨l, by rw [ed]; exact q1, q2, by simp⟩)
  rw [e1, Option.bind_some]
  obtain ⟨host, e2, c2⟩ := forLoop_invariant (a := 0) (b := (datIds w).length)
    (step := fun dx host => forLoop 0 w.ncell (fun cx host =>
      (rd h cx).bind fun n => (rd (datIds w) dx).bind fun p => putCount host p cx n) host) (s := w1.host)
    (fun n host => CountsDone (datIds w) h w.ncell (fun a b => a < n ∧ b < w.ncell) w1.host host) (Nat.zero_le _) (by
      intro dx host _ hdx hP
      obtain ⟨host', f1, f2⟩ := forLoop_invariant (a := 0) (b := w.ncell)
        (step := fun cx host => (rd h cx).bind fun n => (rd (datIds w) dx).bind fun p => putCount host p cx n)
        (s := host)
        (fun n host => CountsDone (datIds w) h w.ncell (fun a b => (a < dx ∧ b < w.ncell) ∨ (a = dx ∧ b < n))
          w1.host host) (Nat.zero_le _) (by
          intro cx host _ hcx hP
          have g1 : rd h cx = some h[cx] := List.getElem?_eq_getElem (by omega)
          have g2 : rd (datIds w) dx = some (datIds w)[dx] := List.getElem?_eq_getElem hdx
          rw [g1, Option.bind_some, g2, Option.bind_some]
          exact putCount_step hP (List.getElem?_eq_getElem hdx) hcx (List.getElem?_eq_getElem (by omega))
            (by
              intro a b hab
              rcases hab with hab | ⟨hab1, hab2⟩
              · exact Or.inl (Or.inl hab)
              · by_cases hbc : b = cx
                · exact Or.inr ⟨hab1, hbc⟩
                · exact Or.inl (Or.inr ⟨hab1, by omega⟩))) (by
          refine ⟨?_, hP.2⟩
          intro k hk
          obtain ⟨l, q1, q2, q3⟩ := hP.1 k hk
          refine ⟨l, q1, q2, fun a b hab => q3 a b ?_⟩
          rcases hab with hab | hab
          · exact hab
          · omega)
      refine ⟨host', f1, ?_, f2.2⟩
      intro k hk
      obtain ⟨l, q1, q2, q3⟩ := f2.1 k hk
      refine ⟨l, q1, q2, fun a b hab => q3 a b ?_⟩
      by_cases ha : a = dx
      · exact Or.inr ⟨ha, hab.2⟩
      · exact Or.inl ⟨by omega, hab.2⟩) (by
      refine ⟨?_, fun k _ => rfl⟩
      intro k hk
      obtain ⟨l, q1, q2⟩ := inv.host k hk
      exact ⟨l, by rw [eh]; exact q1, q2, by omega⟩)
  rw [e2, Option.bind_some]
  have hallD := countsDone_all c1 hd (by
    intro dx hdx cx hcx
    refine (env.sched.perm _).mem_iff.mpr ?_
    simp only [pairs, List.mem_flatMap, List.mem_range, List.mem_map, Prod.mk.injEq]
    exact ⟨dx, hdx, cx, hcx, rfl, rfl⟩)
  have hallH := countsDone_all c2 hh (fun dx hdx cx hcx => ⟨hdx, hcx⟩)
  refine ⟨_, rfl, ?_, hv1, hv2, ⟨s1, s2, s3, s4, s5, s6⟩, ?_, ?_, ?_⟩
  · refine ⟨inv1.okR, inv1.okI, inv1.nodup, inv1.lt, ?_, ?_, inv1.pos, inv1.const, inv1.write⟩
    · intro k hk
      have hk' : k ∈ datIds w := hids ▸ hk
      exact ⟨_, hallH k hk', by dsimp only; rw [s3, List.length_take]; omega⟩
    · intro k hk
      have hk' : k ∈ datIds w := hids ▸ hk
      exact ⟨_, hallD k hk', by dsimp only; rw [s3, List.length_take]; omega⟩
  · exact fun k hk => ⟨hallH k hk, hallD k hk⟩
  · exact fun k hk => ⟨by dsimp only; rw [c2.2 k hk, eh], by dsimp only; rw [c1.2 k hk, ed]⟩
  · intro k
    dsimp only
    rw [writes_foldl, writes_foldl, hw]
    have : (datIds w).count k = (w1.reals.map (·.2.id)).count k + (w1.ints.map (·.2.id)).count k := by
      unfold datIds; rw [List.count_append, s1, s2]
    omega

end NP
