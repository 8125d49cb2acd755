import Verif.Boundary.PropsWallCases
import Verif.Group.LemmasCounts

/-!
# C69: a particle for which no intersection is found is an error
-/

set_option autoImplicit false

namespace NP

open Spec

/-- What one item establishes and the others keep holds at the end. -/
theorem runItems_establishes {ι σ : Type} {step : ι → σ → Option σ} {P : σ → Prop} {items : List ι} {i : ι}
    (hi : i ∈ items) (hest : ∀ s s', step i s = some s' → P s')
    (hkeep : ∀ j ∈ items, ∀ s s', P s → step j s = some s' → P s') {s s' : σ}
    (h : runItems step items s = some s') : P s' := by
  have keep : ∀ (l : List ι), (∀ j ∈ l, j ∈ items) → ∀ s s', P s → runItems step l s = some s' → P s' := by
    intro l
    induction l with
    | nil => intro _ s s' hp h; obtain rfl := Option.some.inj h; exact hp
    | cons a l ih =>
      intro hl s s' hp h
      obtain ⟨t, h1, h2⟩ := Option.bind_eq_some_iff.1 h
      exact ih (fun j hj => hl j (List.mem_cons_of_mem _ hj)) t s'
        (hkeep a (hl a (by simp)) s t hp h1) h2
  obtain ⟨pre, post, rfl⟩ := List.append_of_mem hi
  rw [runItems_append] at h
  obtain ⟨t, -, h2⟩ := Option.bind_eq_some_iff.1 h
  obtain ⟨u, h3, h4⟩ := Option.bind_eq_some_iff.1 h2
  exact keep post (fun j hj => by simp [hj]) u s' (hest t u h3) h4

/-- **C69 (no intersection).** If for a particle that is not strictly inside of the domain no
intersection is found then `post_integration` throws, whatever the other particles, the memory
contents and the schedules. -/
theorem C69_missing {m : CartMesh} {extent tol : ℚ} {groups : List (Int × List Int)}
    {e : WallEnv m.mh.dims.length} {npart : List Nat} {par : Parent} {rows : List (List WallPart)}
    (h : WallSetup m extent tol groups e npart par rows)
    (hp : ∀ c l, InParent npart par c l → ∃ p, rowAt rows c l = some p ∧
      HasComps (m.globalExtents extent) p.pos)
    {c l : Nat} {p : WallPart} {q : List ℚ} {f : Int} (hin : InParent npart par c l)
    (hr : rowAt rows c l = some p) (hout : ¬ InsideDomain (m.globalExtents extent) p.pos)
    (hno : wallHit (m.globalExtents extent) tol p.pos p.prev = some (false, q, f)) :
    wallPost m extent tol groups e npart par rows = none := by
  have hext : (m.globalExtents extent).length = 2 ∨ (m.globalExtents extent).length = 3 := by
    rw [wall_ext_length]; exact h.ndim
  set ext := m.globalExtents extent with hextdef
  have hdk : ∀ c l, InParent npart par c l → ∃ b,
      ((wallPart rows c l).bind fun p => wallDeparts ext p.pos) = some b ∧
        (b = true ↔ Departed ext rows c l) := by
    intro c l hl
    obtain ⟨p, h1, h2⟩ := hp c l hl
    obtain ⟨b, h4, h5⟩ := C68_departs ext p.pos hext h2
    have h1' : wallPart rows c l = some p := h1
    refine ⟨b, by rw [h1', Option.bind_some, h4], ?_⟩
    rw [h5]
    constructor
    · intro h6; exact ⟨p, h1, h6⟩
    · rintro ⟨p', h6, h7⟩
      rw [h1] at h6
      obtain rfl := Option.some.inj h6
      exact h7
  obtain ⟨dep, d1, d2, d3, d4⟩ := selectKernel_spec h.dep h.loop.built
    (kernel := fun c l => (wallPart rows c l).bind fun p => wallDeparts ext p.pos)
    (fun c l => (((wallPart rows c l).bind fun p => wallDeparts ext p.pos)).getD false) (by
      intro c l hl
      obtain ⟨b, hb, -⟩ := hdk c l hl
      rw [hb]; rfl)
  have hdep : InParent npart (.sub dep) c l := by
    rw [d4]
    obtain ⟨b, hb, hb'⟩ := hdk c l hin
    refine ⟨hin, ?_⟩
    rw [hb]
    exact hb'.2 ⟨p, hr, hout⟩
  obtain ⟨vis, v1, v2, v3, v4, v5, v6, v7⟩ := rowVisits_spec
    (P := e.P) (npart := npart) (par := .sub dep)
    ⟨d2, h.loop.localSize, h.loop.localSizeInt, h.loop.nbin, h.loop.counts⟩
  obtain ⟨k, hk, hkl⟩ := v5 c l hdep
  replace hkl : dep.layerAt c k = some l := hkl
  have hperm := e.hit.perm vis
  have hlin : ∀ c l, InParent npart (.sub dep) c l →
      localLinearIndex npart c l = some (before npart c + l) := by
    intro c l h
    obtain ⟨n, a, b⟩ := v6 c l h
    exact lin_eq (List.getElem?_eq_some_iff.1 a).1
  unfold wallPost
  dsimp only
  rw [if_pos h.ndim, d1, Option.bind_some, v1, Option.bind_some]
  cases hb : runItems (wallStore ext tol npart rows dep) (e.hit.order vis)
      ⟨(e.pts (m.mh.dims.length * dep.npartLocal)).val, (e.sides dep.npartLocal).val,
        (e.lut npart.sum).val⟩ with
  | none => rfl
  | some b =>
    rw [Option.bind_some]
    have hlut : wallLut npart b c l = some (-1) := by
      refine runItems_establishes (P := fun b => wallLut npart b c l = some (-1)) (i := (c, k))
        (hperm.mem_iff.2 hk) ?_ ?_ hb
      · intro s s' hs
        unfold wallStore at hs
        have hr' : wallPart rows c l = some p := hr
        simp only [hkl, hr', hno, Option.bind_some] at hs
        obtain ⟨li, -, hs⟩ := Option.bind_eq_some_iff.1 hs
        obtain ⟨pts, -, hs⟩ := Option.bind_eq_some_iff.1 hs
        obtain ⟨sides, -, hs⟩ := Option.bind_eq_some_iff.1 hs
        rw [hlin c l hdep, Option.bind_some] at hs
        obtain ⟨lut, h1, hs⟩ := Option.bind_eq_some_iff.1 hs
        obtain rfl := Option.some.inj hs
        unfold wallLut
        rw [hlin c l hdep, Option.bind_some]
        unfold st at h1
        split at h1
        case isFalse => cases h1
        case isTrue hlt =>
          obtain rfl := Option.some.inj h1
          simp only [rd]
          rw [List.getElem?_set_self hlt]
          rfl
      · rintro ⟨c', k'⟩ hj s s' hs0 hs
        have hj' := hperm.mem_iff.1 hj
        by_cases hsame : c' = c ∧ k' = k
        · obtain ⟨rfl, rfl⟩ := hsame
          unfold wallStore at hs
          have hr' : wallPart rows c' l = some p := hr
          simp only [hkl, hr', hno, Option.bind_some] at hs
          obtain ⟨li, -, hs⟩ := Option.bind_eq_some_iff.1 hs
          obtain ⟨pts, -, hs⟩ := Option.bind_eq_some_iff.1 hs
          obtain ⟨sides, -, hs⟩ := Option.bind_eq_some_iff.1 hs
          rw [hlin c' l hdep, Option.bind_some] at hs
          obtain ⟨lut, h1, hs⟩ := Option.bind_eq_some_iff.1 hs
          obtain rfl := Option.some.inj hs
          unfold wallLut
          rw [hlin c' l hdep, Option.bind_some]
          unfold st at h1
          split at h1
          case isFalse => cases h1
          case isTrue hlt =>
            obtain rfl := Option.some.inj h1
            simp only [rd]
            rw [List.getElem?_set_self hlt]
            rfl
        · obtain ⟨l', hl', hin'⟩ := v4 c' k' hj'
          replace hl' : dep.layerAt c' k' = some l' := hl'
          have hne : before npart c' + l' ≠ before npart c + l := by
            intro he
            obtain ⟨n, a, b⟩ := v6 c l hdep
            obtain ⟨n', a', b'⟩ := v6 c' l' hin'
            obtain ⟨rfl, rfl⟩ := lin_inj a' a b' b he
            exact hsame ⟨rfl, v7 c' k' k l' hj' hk hl' hkl⟩
          unfold wallStore at hs
          simp only [hl', Option.bind_some] at hs
          obtain ⟨p', -, hs⟩ := Option.bind_eq_some_iff.1 hs
          obtain ⟨hh, -, hs⟩ := Option.bind_eq_some_iff.1 hs
          obtain ⟨li, -, hs⟩ := Option.bind_eq_some_iff.1 hs
          obtain ⟨pts, -, hs⟩ := Option.bind_eq_some_iff.1 hs
          obtain ⟨sides, -, hs⟩ := Option.bind_eq_some_iff.1 hs
          rw [hlin c' l' hin', Option.bind_some] at hs
          obtain ⟨lut, h1, hs⟩ := Option.bind_eq_some_iff.1 hs
          obtain rfl := Option.some.inj hs
          unfold wallLut at hs0 ⊢
          rw [hlin c l hdep, Option.bind_some] at hs0 ⊢
          unfold st at h1
          split at h1
          case isFalse => cases h1
          case isTrue hlt =>
            obtain rfl := Option.some.inj h1
            simp only [rd] at hs0 ⊢
            rw [List.getElem?_set_ne hne]
            exact hs0
    have hcheck : wallCheck e.P npart dep b = none := by
      unfold wallCheck
      rw [v1, Option.bind_some]
      cases hvs : vis.mapM fun it => (dep.layerAt it.1 it.2).bind fun l => wallLut npart b it.1 l with
      | none => rfl
      | some vs =>
        rw [Option.bind_some, if_neg]
        intro hall
        rw [List.all_eq_true] at hall
        have hmem : (-1 : Int) ∈ vs := by
          obtain ⟨i, hi, hie⟩ := List.getElem_of_mem hk
          obtain ⟨hlen, hget⟩ := List.forall₂_iff_get.1 (mapM_some hvs)
          have h1 := hget i hi (by omega)
          simp only [List.get_eq_getElem, hie, hkl, Option.bind_some, hlut] at h1
          rw [Option.some.inj h1]
          exact List.getElem_mem _
        have := hall _ hmem
        simp at this
    rw [hcheck]
    rfl

/-- A particle that moves along the lower wall. -/
example : wallPost Ex.cartMesh 1 (1/100) Ex.wallGroups (Ex.wallEnv 3 2) Ex.subCounts .whole
    [[⟨[1, -1], [1, 1]⟩, ⟨[3/2, 0], [1, 0]⟩, ⟨[1, 2], [1, 1]⟩], [],
      [⟨[1/2, 4], [1/2, 2]⟩, ⟨[-1, 1], [1, 1]⟩]] = none := by
  have hs := Ex.wallCall.toWallSetup
  refine C69_missing (c := 0) (l := 1) (p := ⟨[3/2, 0], [1, 0]⟩) (q := [2, 0]) (f := 1)
    { hs with shape := by unfold Shape; rfl } ?_ ⟨3, rfl, by omega⟩ rfl ?_ (by decide +kernel)
  · rintro c l ⟨n, hn, hl⟩
    match c, l, hn, hl with
    | 0, 0, _, _ | 0, 1, _, _ | 0, 2, _, _ | 2, 0, _, _ | 2, 1, _, _ =>
      exact ⟨_, rfl, by simp [HasComps, CartMesh.globalExtents, Ex.cartMesh]⟩
    | 0, l + 3, hn, hl => cases hn; omega
    | 1, l, hn, hl => cases hn; omega
    | 2, l + 2, hn, hl => cases hn; omega
    | c + 3, l, hn, hl => simp [Ex.subCounts] at hn
  · intro hi
    obtain ⟨x, hx, h0, -⟩ := hi 1 3 (by decide +kernel)
    cases hx
    exact absurd h0 (lt_irrefl _)

end NP
