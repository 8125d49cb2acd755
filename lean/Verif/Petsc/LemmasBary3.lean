import Verif.Petsc.LemmasBary2

/-!
# Lemmas: what holds after any calls
-/

set_option autoImplicit false

namespace NP

open Spec Finset

/-- What holds for every object and its points. -/
structure BaryInv (verts : List (List (ℝ × ℝ))) (vols : List ℝ) (o : BaryObj) (pts : List (List BPoint)) :
    Prop where
  vertsEq : o.verts = verts
  sz : ∀ vs ∈ verts, 2 < vs.length ∧ vs.length < 5
  tabc : o.tab.ncells = verts.length
  tabr : 0 < o.tab.nrow
  tabk : o.tab.ncol = 4
  scale : ∀ (c : Nat) (vs : List (ℝ × ℝ)), verts[c]? = some vs → ∃ vol, vols[c]? = some vol ∧ vol ≠ 0 ∧
    o.scale[c]? = some (vs.length / vol)
  w : ∀ (ip : Nat × Nat) (p : BPoint), rd2 pts ip = some p → ∃ vs, verts[ip.1]? = some vs ∧ baryW vs p.pos = some p.w
  one : ∀ (c : Nat) (vs : List (ℝ × ℝ)), verts[c]? = some vs → OneEach pts c vs.length
  matc : o.mats.ncells = verts.length
  matr : o.mats.nrow = 4
  matk : o.mats.ncol = 4
  inv : ∀ (ip : Nat × Nat) (p : BPoint) (vs : List (ℝ × ℝ)), rd2 pts ip = some p → verts[ip.1]? = some vs → 0 ≤ p.order → p.order < vs.length →
    ∀ j < vs.length, ∑ k ∈ range vs.length, max 0 (min 1 (ent p.w k)) * o.mats.val ip.1 k j =
      if p.order = j then 1 else 0

theorem same_some {pts pts' : List (List BPoint)} (h : SamePoints pts pts') {ip : Nat × Nat} {p' : BPoint}
    (hp : rd2 pts' ip = some p') : ∃ p, rd2 pts ip = some p ∧ p.order = p'.order ∧ p.pos = p'.pos ∧
      p.w = p'.w := by
  have := h ip
  rw [hp, Option.map_some, Option.map_eq_some_iff] at this
  obtain ⟨p, h1, h2⟩ := this
  simp only [Prod.mk.injEq] at h2
  exact ⟨p, h1, h2⟩

theorem samePoints_symm {pts pts' : List (List BPoint)} (h : SamePoints pts pts') : SamePoints pts' pts :=
  fun it => (h it).symm

theorem oneEach_same {pts pts' : List (List BPoint)} (h : SamePoints pts pts') {c n : Nat}
    (ho : OneEach pts c n) : OneEach pts' c n := by
  intro i hi
  have : ∀ ip : Nat × Nat, (ip.1 = c ∧ ∃ p, rd2 pts ip = some p ∧ p.order = i) ↔
      (ip.1 = c ∧ ∃ p, rd2 pts' ip = some p ∧ p.order = i) := by
    intro ip
    refine and_congr_right fun _ => ⟨?_, ?_⟩
    · rintro ⟨p, h1, h2⟩
      obtain ⟨p', h3, h4, -⟩ := same_some (samePoints_symm h) h1
      exact ⟨p', h3, h4.trans h2⟩
    · rintro ⟨p, h1, h2⟩
      obtain ⟨p', h3, h4, -⟩ := same_some h h1
      exact ⟨p', h3, h4.trans h2⟩
  exact (existsUnique_congr this).mp (ho i hi)

theorem BaryInv.same {verts : List (List (ℝ × ℝ))} {vols : List ℝ} {o : BaryObj}
    {pts pts' : List (List BPoint)} (h : BaryInv verts vols o pts) (hs : SamePoints pts pts') :
    BaryInv verts vols o pts' :=
  { h with
    w := fun ip p' hp => by
      obtain ⟨p, h1, -, h3, h4⟩ := same_some hs hp
      rw [← h3, ← h4]
      exact h.w ip p h1
    one := fun c vs hvs => oneEach_same hs (h.one c vs hvs)
    inv := fun ip p' vs hp hvs => by
      obtain ⟨p, h1, h2, h3, h4⟩ := same_some hs hp
      rw [← h2, ← h4]
      exact h.inv ip p vs h1 hvs }

theorem BaryInv.withTab {verts : List (List (ℝ × ℝ))} {vols : List ℝ} {o : BaryObj}
    {pts : List (List BPoint)} (h : BaryInv verts vols o pts) {t : CellTab ℝ} (ht : o.tab.Same t) :
    BaryInv verts vols { o with tab := t } pts :=
  { h with
    tabc := ht.1.trans h.tabc
    tabr := by show 0 < t.nrow; rw [ht.2.1]; exact h.tabr
    tabk := ht.2.2.trans h.tabk }

theorem BaryInv.check {verts : List (List (ℝ × ℝ))} {vols : List ℝ} {o : BaryObj}
    {pts : List (List BPoint)} (h : BaryInv verts vols o pts) (ncomp : Nat) :
    BaryInv verts vols (o.checkNcomp ncomp) pts ∧ ncomp ≤ (o.checkNcomp ncomp).tab.nrow := by
  unfold BaryObj.checkNcomp
  split
  · exact ⟨{ h with
      tabc := by show o.verts.length = _; rw [h.vertsEq]
      tabr := by show 0 < ncomp; omega
      tabk := rfl }, le_refl _⟩
  · exact ⟨h, by omega⟩

/-- Points of a cell with the same number are the same. -/
theorem BaryInv.uniq {verts : List (List (ℝ × ℝ))} {pts : List (List BPoint)}
    (h : ∀ c vs, verts[c]? = some vs → OneEach pts c vs.length) {ip ip' : Nat × Nat} {p p' : BPoint}
    {vs : List (ℝ × ℝ)} (hp : rd2 pts ip = some p) (hp' : rd2 pts ip' = some p') (hc : ip.1 = ip'.1)
    (hvs : verts[ip.1]? = some vs) (h0 : 0 ≤ p.order) (h1 : p.order < vs.length)
    (ho : p.order = p'.order) : ip = ip' := by
  obtain ⟨x, -, hx⟩ := h ip.1 vs hvs p.order.toNat (by omega)
  rw [hx ip ⟨rfl, p, hp, by omega⟩, hx ip' ⟨hc.symm, p', hp', by omega⟩]

theorem baryPoints_spec {s : Sched} {verts : List (List (ℝ × ℝ))} {pts pts' : List (List BPoint)}
    (h : baryPoints s verts pts = some pts') :
    (∀ ip p, rd2 pts ip = some p → ∃ vs w, verts[ip.1]? = some vs ∧ baryW vs p.pos = some w ∧
      rd2 pts' ip = some { p with w := w }) ∧
    ∀ ip, rd2 pts ip = none → rd2 pts' ip = none := by
  obtain ⟨h3, h4⟩ := loopWrite_some (allItems_nodup pts) h
  refine ⟨fun ip p hp => ?_, fun ip hp => ?_⟩
  · have hmem := mem_allItems.mpr ⟨p, hp⟩
    obtain ⟨q, q', hq, hf, h3'⟩ := h3 ip hmem
    rw [hp] at hq
    cases hq
    rw [Option.bind_eq_some_iff] at hf
    obtain ⟨vs, hvs, hf⟩ := hf
    rw [Option.map_eq_some_iff] at hf
    obtain ⟨w, hw, rfl⟩ := hf
    exact ⟨vs, w, hvs, hw, h3'⟩
  · rw [h4 ip fun hm => ?_, hp]
    obtain ⟨p, hpp⟩ := mem_allItems.mp hm
    rw [hp] at hpp
    cases hpp

theorem oneEach_points {s : Sched} {verts : List (List (ℝ × ℝ))} {pts pts' : List (List BPoint)}
    (h : baryPoints s verts pts = some pts') {c n : Nat} : OneEach pts' c n ↔ OneEach pts c n := by
  obtain ⟨h1, h2⟩ := baryPoints_spec h
  refine forall₂_congr fun i hi => existsUnique_congr fun ip => and_congr_right fun _ => ⟨?_, ?_⟩
  · rintro ⟨p', hp', ho⟩
    cases hp : rd2 pts ip with
    | none => rw [h2 ip hp] at hp'; cases hp'
    | some p =>
      obtain ⟨vs, w, -, -, h3⟩ := h1 ip p hp
      rw [hp'] at h3
      cases h3
      exact ⟨p, rfl, ho⟩
  · rintro ⟨p, hp, ho⟩
    obtain ⟨vs, w, -, -, h3⟩ := h1 ip p hp
    exact ⟨_, h3, ho⟩

theorem baryNew_inv {solve : Nat → List ℝ → List ℝ → Option (List ℝ)} (hs : LuSolves solve)
    {s0 s1 s2 : Sched} {space : String} {order : Int} {ndim : Nat} {verts : List (List (ℝ × ℝ))}
    {vols : List ℝ} {added : Bool} {pts pts' : List (List BPoint)} {o : BaryObj}
    (h : baryNew solve s0 s1 s2 space order ndim verts vols added pts = some (o, pts')) :
    BaryInv verts vols o pts' := by
  unfold baryNew at h
  split at h
  · rename_i hcond
    obtain ⟨-, -, -, hsz⟩ := hcond
    rw [Option.bind_eq_some_iff] at h
    obtain ⟨scale, hscale, h⟩ := h
    split at h
    · simp only [Option.bind_eq_some_iff, Option.map_eq_some_iff, Prod.mk.injEq] at h
      obtain ⟨cnt, hcnt, u, hchk, pts1, hpts1, t, ht, mats, hmats, rfl, rfl⟩ := h
      have hsz5 : ∀ vs ∈ verts, vs.length < 5 := fun vs hvs => (hsz vs hvs).2
      obtain ⟨hp1, hp2⟩ := baryPoints_spec hpts1
      have hv : ∀ ip p, rd2 pts ip = some p → ip.1 < verts.length := fun ip p hp => by
        obtain ⟨vs, w, hvs, -⟩ := hp1 ip p hp
        exact (List.getElem?_eq_some_iff.mp hvs).1
      have hone := (baryCheck_iff s0 hsz5 hv).mp (by rw [hcnt, Option.bind_some]; exact hchk)
      have hone' : ∀ c vs, verts[c]? = some vs → OneEach pts1 c vs.length := fun c vs hvs =>
        (oneEach_points hpts1).mpr (hone c vs hvs)
      have hw : ∀ ip p, rd2 pts1 ip = some p → ∃ vs, verts[ip.1]? = some vs ∧ baryW vs p.pos = some p.w := by
        intro ip p hp
        cases hq : rd2 pts ip with
        | none => rw [hp2 ip hq] at hp; cases hp
        | some q =>
          obtain ⟨vs, w, hvs, hw, h3⟩ := hp1 ip q hq
          rw [hp] at h3
          cases h3
          exact ⟨vs, hvs, hw⟩
      obtain ⟨t', ht', d1, d2, d3, hfill⟩ := baryFill_spec s2 (pts := pts1) hsz5
        (fun ip p hp => by obtain ⟨vs, a, b⟩ := hw ip p hp; exact ⟨vs, a, baryW_length b⟩)
        (fun ip ip' p p' vs hp hp' => BaryInv.uniq hone' hp hp')
      rw [ht] at ht'
      cases ht'
      obtain ⟨hsame, hinv⟩ := (baryInvert_spec hs hsz5 d1 d2 d3).1 mats hmats
      refine ⟨rfl, hsz, rfl, Nat.one_pos, rfl, fun c vs hvs => ?_, hw, hone', hsame.1.trans d1,
        hsame.2.1.trans d2, hsame.2.2.trans d3, fun ip p vs hp hvs h0 h1 j hj => ?_⟩
      · have hf := mapM_some hscale
        rw [List.forall₂_iff_get] at hf
        obtain ⟨hll, hf⟩ := hf
        have hc := (List.getElem?_eq_some_iff.mp hvs).1
        have hc' : c < scale.length := by rw [← hll]; simpa using hc
        have hfc := hf c (by simpa using hc) hc'
        simp only [List.get_eq_getElem, List.getElem_range, rd, hvs, Option.bind_some] at hfc
        rw [Option.bind_eq_some_iff] at hfc
        obtain ⟨vol, hvol, hfc⟩ := hfc
        unfold fdiv at hfc
        split at hfc
        · cases hfc
        · rename_i hne
          refine ⟨vol, hvol, hne, ?_⟩
          show scale[c]? = _
          rw [List.getElem?_eq_getElem hc']
          exact hfc.symm
      · have := hinv ip.1 vs hvs p.order.toNat (by omega) j hj
        rw [show (if p.order = (j : ℤ) then (1 : ℝ) else 0) = if p.order.toNat = j then 1 else 0 from
          if_congr (by omega) rfl rfl, ← this]
        refine sum_congr rfl fun k hk => ?_
        rw [hfill ip p vs hp hvs h0 h1 k (mem_range.mp hk)]
    · cases h
  · cases h

theorem baryProject_same {o : BaryObj} {s0 s1 : Sched} {ncomp : Nat} {cells : List (List BPart)}
    {sel : List (Nat × Nat)} {pts pts' : List (List BPoint)} {o' : BaryObj}
    (h : o.project s0 s1 ncomp cells sel pts = some (o', pts')) :
    SamePoints pts pts' ∧ ∃ t, (o.checkNcomp ncomp).tab.Same t ∧ o' = { o.checkNcomp ncomp with tab := t } := by
  unfold BaryObj.project at h
  simp only at h
  split at h
  · simp only [Option.bind_eq_some_iff, Option.map_eq_some_iff, Prod.mk.injEq] at h
    obtain ⟨t, ht, pts1, hpts, rfl, rfl⟩ := h
    constructor
    · obtain ⟨h3, h4⟩ := loopWrite_some (allItems_nodup pts) hpts
      intro ip
      by_cases hm : ip ∈ allItems pts
      · obtain ⟨p, p', hp, hf, h5⟩ := h3 ip hm
        rw [h5, hp]
        rw [Option.bind_eq_some_iff] at hf
        obtain ⟨vs, -, hf⟩ := hf
        split at hf
        · rw [Option.bind_eq_some_iff] at hf
          obtain ⟨iv, -, hf⟩ := hf
          rw [Option.map_eq_some_iff] at hf
          obtain ⟨val, -, rfl⟩ := hf
          rfl
        · cases hf; rfl
      · rw [h4 ip hm]
    · refine ⟨t, CellTab.Same.trans (t' := (o.checkNcomp ncomp).tab.fill 0) ⟨rfl, rfl, rfl⟩
        (loopTab_same (fun c p t t' h => ?_) ht), rfl⟩
      simp only [Option.bind_eq_some_iff] at h
      obtain ⟨vs, -, b, -, h⟩ := h
      refine forLoop_same (fun i t t' h => forLoop_same (fun i t t' h => ?_) h) h
      simp only [Option.bind_eq_some_iff] at h
      obtain ⟨lx, -, v, -, h⟩ := h
      exact CellTab.add_same h
  · cases h

theorem baryEvaluate_same {o : BaryObj} {s0 s1 : Sched} {ncomp : Nat} {cells cells' : List (List BPart)}
    {sel : List (Nat × Nat)} {pts : List (List BPoint)} {o' : BaryObj}
    (h : o.evaluate s0 s1 ncomp pts cells sel = some (o', cells')) :
    ∃ t, (o.checkNcomp ncomp).tab.Same t ∧ o' = { o.checkNcomp ncomp with tab := t } := by
  unfold BaryObj.evaluate at h
  simp only at h
  split at h
  · simp only [Option.bind_eq_some_iff, Option.map_eq_some_iff, Prod.mk.injEq] at h
    obtain ⟨t, ht, cells1, -, rfl, -⟩ := h
    refine ⟨t, CellTab.Same.trans (t' := (o.checkNcomp ncomp).tab.fill 0) ⟨rfl, rfl, rfl⟩
      (loopTab_same (fun c p t t' h => ?_) ht), rfl⟩
    rw [Option.bind_eq_some_iff] at h
    obtain ⟨vs, -, h⟩ := h
    split at h
    · refine forLoop_same (fun i t t' h => forLoop_same (fun i t t' h => ?_) h) h
      simp only [Option.bind_eq_some_iff] at h
      obtain ⟨lx, -, v, -, h⟩ := h
      exact CellTab.add_same h
    · cases h; exact CellTab.Same.refl _
  · cases h

theorem Spec.BaryReach.inv {solve : Nat → List ℝ → List ℝ → Option (List ℝ)} (hs : LuSolves solve)
    {verts : List (List (ℝ × ℝ))} {vols : List ℝ} {o : BaryObj} {pts : List (List BPoint)}
    (h : BaryReach solve verts vols o pts) : BaryInv verts vols o pts := by
  induction h with
  | new h => exact baryNew_inv hs h
  | project _ h ih =>
    obtain ⟨h1, t, h2, rfl⟩ := baryProject_same h
    exact ((ih.check _).1.withTab h2).same h1
  | evaluate _ h ih =>
    obtain ⟨t, h2, rfl⟩ := baryEvaluate_same h
    exact (ih.check _).1.withTab h2
  | write _ h ih => exact ih.same h

end NP
