import Verif.Boundary.LemmasSurface2
import Mathlib.Algebra.BigOperators.Ring.List

/-!
# Lemmas about functions on the faces of a boundary: histories and sums
-/

set_option autoImplicit false

namespace NP

open Spec

variable {owned : List (List Int)} {calls before : List SurfCall} {ph : FuncPhase} {W : Nat → SurfRank}
  {F : Nat → SurfFunc} {mem : Nat → Fresh ℚ}

/-- A new function. -/
theorem funcsNew_inv (ho : FacesOwned owned) (hb : ∀ c ∈ before, PairsOk owned c.pairs) :
    ∃ W F, surfRun owned before = some ((List.range owned.length).map W) ∧
      funcsNew mem owned = (List.range owned.length).map F ∧ FuncInv owned before .idle W F := by
  have hver : ∀ calls : List SurfCall, (∀ c ∈ calls, PairsOk owned c.pairs) →
      ∃ W, surfRun owned calls = some ((List.range owned.length).map W) ∧ ∃ iv, 1 ≤ iv ∧
        ∀ r < owned.length, (W r).version = iv := by
    intro calls
    induction calls using List.reverseRecOn with
    | nil =>
      intro _
      refine ⟨fun r => surfNew owned.length (owned.getD r []), ?_, 1, le_refl _, fun r _ => rfl⟩
      show some (owned.map (surfNew owned.length)) = _
      congr 1
      have := congrArg (List.map (surfNew owned.length)) (table_of owned)
      rw [table_map] at this
      exact this
    | append_singleton calls c ih =>
      intro hc
      obtain ⟨W, h1, iv, h2, h3⟩ := ih fun d hd => hc d (List.mem_append_left _ hd)
      obtain ⟨W', g1, g2, g3, g4⟩ := surfRun_extend ho (fun d hd => hc d (List.mem_append_left _ hd))
        (hc c (by simp)) h1
      refine ⟨W', g2, ?_⟩
      rcases g4 with g4 | g4
      · exact ⟨iv, h2, fun r hr => by rw [g4 r hr, h3 r hr]⟩
      · exact ⟨iv + 1, by omega, fun r hr => by rw [g4 r hr, h3 r hr]⟩
  obtain ⟨W, h1, iv, h2, h3⟩ := hver before hb
  refine ⟨W, fun r => funcNew (mem r) (owned.getD r []).length, h1, ?_, ⟨h1, hb,
    ⟨iv, 0, h2, by omega, h3, fun r _ => rfl, fun hx => absurd rfl hx, fun hx => by omega⟩, ?_, ?_,
    fun hx => by cases hx⟩⟩
  · unfold funcsNew
    apply List.ext_getElem?
    intro i
    by_cases hi : i < owned.length
    · rw [get_table _ hi, List.getElem?_map, List.getElem?_zipIdx, List.getElem?_eq_getElem hi,
        List.getD_eq_getElem?_getD, List.getElem?_eq_getElem hi]
      simp
    · rw [List.getElem?_eq_none (by simp; omega), List.getElem?_eq_none (by simp; omega)]
  · intro r faces hr
    show (List.replicate _ (0 : ℚ)).length = _
    rw [List.length_replicate, List.getD_eq_getElem?_getD, hr, Option.getD_some]
  · intro r hr
    show 1 ≤ ((mem r) _).1.length
    rw [(mem r _).2]
    omega

theorem funcRun_append (ops ops' : List FuncOp) {s : List SurfRank × List SurfFunc}
    (h : funcRun owned before mem ops = some s) :
    funcRun owned before mem (ops ++ ops') = runItems funcStep ops' s := by
  unfold funcRun at h ⊢
  cases hw : surfRun owned before with
  | none => rw [hw] at h; cases h
  | some w =>
    rw [hw, Option.bind_some] at h
    rw [Option.bind_some, runItems_append, h, Option.bind_some]

theorem runItems_one {S : Type _} {I : Type _} (f : I → S → Option S) (i : I) (s : S) :
    runItems f [i] s = f i s := by
  rw [runItems_cons]
  cases f i s <;> rfl

/-- All histories run and end in a good state. -/
theorem funcHistory_inv (ho : FacesOwned owned) (hb : ∀ c ∈ before, PairsOk owned c.pairs) {ops : List FuncOp}
    (h : FuncHistory owned before ops calls ph) :
    ∃ W F, funcRun owned before mem ops =
        some ((List.range owned.length).map W, (List.range owned.length).map F) ∧
      FuncInv owned calls ph W F := by
  induction h with
  | nil =>
    obtain ⟨W, F, h1, h2, h3⟩ := funcsNew_inv (mem := mem) ho hb
    refine ⟨W, F, ?_, h3⟩
    unfold funcRun
    rw [h1, Option.bind_some, h2]
    rfl
  | extend c _ hc ih =>
    obtain ⟨W, F, h1, h2⟩ := ih
    obtain ⟨W', g1, g2, -⟩ := extend_inv ho h2 hc
    refine ⟨W', F, ?_, g2⟩
    rw [funcRun_append _ _ h1, runItems_one]
    unfold funcStep
    dsimp only
    rw [g1, Option.bind_some]
  | @fill ops calls vs _ hv ih =>
    obtain ⟨W, F, h1, h2⟩ := ih
    refine ⟨W, fun r => funcFill (vs.getD r 0) (F r), ?_, ?_⟩
    · rw [funcRun_append _ _ h1, runItems_one]
      unfold funcStep
      dsimp only
      rw [funcOnRanks_table (g := fun r => funcFill (vs.getD r 0) (F r)) (fun r hr => by
        simp only [rd]
        rw [List.getElem?_eq_getElem (by rw [hv]; exact hr), Option.bind_some, List.getD_eq_getElem?_getD,
          List.getElem?_eq_getElem (by rw [hv]; exact hr), Option.getD_some]), Option.bind_some]
    · obtain ⟨iv, fv, v⟩ := h2.versions
      have := v.pos
      refine ⟨h2.run, h2.calls_ok, ⟨iv, 0, v.pos, by omega, v.rank, fun r _ => rfl, fun _ => rfl,
        fun hx => by omega⟩, ?_, h2.stage, fun hx => by cases hx⟩
      intro r faces hr
      show (List.replicate _ _).length = _
      rw [List.length_replicate]
      exact h2.dofs r faces hr
  | @set ops calls vs _ hv ih =>
    obtain ⟨W, F, h1, h2⟩ := ih
    have hvl : vs.length = owned.length := by simpa using congrArg List.length hv
    have hlen : ∀ (r : Nat) faces, owned[r]? = some faces → (vs.getD r []).length = faces.length := by
      intro r faces hr
      have := congrArg (fun l => l[r]?) hv
      simp only [List.getElem?_map, hr, Option.map_some] at this
      rw [List.getD_eq_getElem?_getD]
      cases hvr : vs[r]? with
      | none => rw [hvr] at this; cases this
      | some x => rw [hvr] at this; exact Option.some.inj this
    refine ⟨W, fun r => { F r with dofs := vs.getD r [], version := 0 }, ?_, ?_⟩
    · rw [funcRun_append _ _ h1, runItems_one]
      unfold funcStep
      dsimp only
      rw [funcOnRanks_table (g := fun r => { F r with dofs := vs.getD r [], version := 0 }) (fun r hr => by
        simp only [rd]
        have he : vs[r]? = some (vs.getD r []) := by
          rw [List.getD_eq_getElem?_getD, List.getElem?_eq_getElem (by rw [hvl]; exact hr), Option.getD_some]
        rw [he, Option.bind_some]
        unfold funcSet
        rw [if_pos (by rw [hlen r _ (List.getElem?_eq_getElem hr), h2.dofs r _ (List.getElem?_eq_getElem hr)])]),
        Option.bind_some]
    · obtain ⟨iv, fv, v⟩ := h2.versions
      have := v.pos
      exact ⟨h2.run, h2.calls_ok, ⟨iv, 0, v.pos, by omega, v.rank, fun r _ => rfl, fun _ => rfl,
        fun hx => by omega⟩, hlen, h2.stage, fun hx => by cases hx⟩
  | init e _ ih =>
    obtain ⟨W, F, h1, h2⟩ := ih
    obtain ⟨F', g1, g2, -⟩ := funcInits_spec h2 e
    refine ⟨W, F', ?_, g2⟩
    rw [funcRun_append _ _ h1, runItems_one]
    unfold funcStep
    dsimp only
    rw [g1, Option.bind_some]
  | add e inv parts _ hph hp ih =>
    obtain ⟨W, F, h1, h2⟩ := ih
    obtain ⟨F', g1, g2, -⟩ := funcAdds_spec ho h2 hph e inv hp
    refine ⟨W, F', ?_, g2⟩
    rw [funcRun_append _ _ h1, runItems_one]
    unfold funcStep
    dsimp only
    rw [g1, Option.bind_some]
  | final e _ ih =>
    obtain ⟨W, F, h1, h2⟩ := ih
    obtain ⟨F', g1, g2, -⟩ := funcFinals_spec ho h2 e
    refine ⟨W, F', ?_, ?_⟩
    · rw [funcRun_append _ _ h1, runItems_one]
      unfold funcStep
      dsimp only
      rw [g1, Option.bind_some]
    · obtain ⟨iv, fv, v⟩ := h2.versions
      have := v.pos
      refine ⟨h2.run, h2.calls_ok, ⟨iv, 0, v.pos, by omega, v.rank, fun r hr => (g2 r hr).1, fun _ => rfl,
        fun hx => by omega⟩, ?_, ?_, fun hx => by cases hx⟩
      · intro r faces hr
        rw [(g2 r (get_owned hr)).2.2]
        exact h2.dofs r faces hr
      · intro r hr
        rw [(g2 r hr).2.1]
        exact h2.stage r hr
  | eval e parts _ hp he ih =>
    obtain ⟨W, F, h1, h2⟩ := ih
    obtain ⟨F', outs, g1, g2, -⟩ := funcEvals_spec ho h2 e he hp
    refine ⟨W, F', ?_, g2⟩
    rw [funcRun_append _ _ h1, runItems_one]
    unfold funcStep
    dsimp only
    rw [g1, Option.bind_some]

/-! ## Sums -/

/-- Adding terms that are zero does not change a sum. -/
theorem sum_holders {n : Nat} {hs : List Nat} (hnd : hs.Nodup) (hlt : ∀ s ∈ hs, s < n) (g : Nat → ℚ)
    (hz : ∀ s < n, s ∉ hs → g s = 0) : (hs.map g).sum = ((List.range n).map g).sum := by
  have hp : hs.Perm ((List.range n).filter fun s => decide (s ∈ hs)) := by
    refine (List.perm_ext_iff_of_nodup hnd (List.nodup_range.filter _)).2 fun s => ?_
    rw [List.mem_filter, List.mem_range, decide_eq_true_eq]
    exact ⟨fun h => ⟨hlt s h, h⟩, fun h => h.2⟩
  rw [(hp.map g).sum_eq]
  have : ∀ l : List Nat, (∀ s ∈ l, s < n) →
      ((l.filter fun s => decide (s ∈ hs)).map g).sum = (l.map g).sum := by
    intro l
    induction l with
    | nil => intro _; rfl
    | cons s l ih =>
      intro hl
      by_cases h : s ∈ hs
      · rw [List.filter_cons_of_pos (by simpa using h), List.map_cons, List.map_cons, List.sum_cons,
          List.sum_cons, ih fun x hx => hl x (by simp [hx])]
      · rw [List.filter_cons_of_neg (by simpa using h), List.map_cons, List.sum_cons,
          ih fun x hx => hl x (by simp [hx]), hz s (hl s (by simp)) h, zero_add]
  exact this _ fun s hs => List.mem_range.1 hs

theorem rankTotal_eq (inv : ℚ) (ps : List (Int × ℚ)) (face : Int) :
    rankTotal inv ps face = inv * ((ps.filter fun p => p.1 = face).map fun p => p.2).sum := by
  unfold rankTotal
  rw [List.sum_map_mul_left]

theorem rankTotal_parts (inv : ℚ) (parts : List (Option (List (Int × ℚ)))) (face : Int) :
    (parts.map fun ps => rankTotal inv (ps.getD []) face).sum = inv * faceTotal parts face := by
  unfold faceTotal
  rw [← rankTotal_eq]
  induction parts with
  | nil => simp [rankTotal]
  | cons p ps ih =>
    rw [List.map_cons, List.sum_cons, ih, List.flatMap_cons, rankTotal_append]

theorem rankTotal_ranks (inv : ℚ) {parts : List (Option (List (Int × ℚ)))} {n : Nat}
    (hn : parts.length = n) (face : Int) :
    ((List.range n).map fun r => rankTotal inv ((parts.getD r none).getD []) face).sum =
      inv * faceTotal parts face := by
  rw [← rankTotal_parts]
  congr 1
  conv_rhs => rw [table_of parts, hn]
  rw [table_map]
  rfl

/-! ## Projections -/

/-- What has been deposited so far: `N0` and `L0` are the number of faces and the size of the
staging buffer when the projection started, `tot` the sums. -/
structure Acc (owned : List (List Int)) (calls : List SurfCall) (W0 W : Nat → SurfRank) (F : Nat → SurfFunc)
    (L0 : Nat → Nat) (tot : Nat → Int → ℚ) : Prop where
  seq : ∀ r < owned.length, ∀ face i, surfSeqOf (W0 r) face = some i → surfSeqOf (W r) face = some i
  geoms : ∀ r < owned.length, surfNumGeoms (W0 r) ≤ surfNumGeoms (W r)
  low : ∀ r < owned.length, L0 r ≤ (F r).stage.length
  high : ∀ r < owned.length, (F r).stage.length ≤ max (L0 r) (surfNumGeoms (W r))
  val : ∀ r < owned.length, ∀ (k : Nat) face, surfGeomOf (W r) k = some face →
    (k < surfNumGeoms (W0 r) ∨ L0 r ≤ k) →
    (k < (F r).stage.length → (F r).stage[k]? = some (tot r face)) ∧
    ((F r).stage.length ≤ k → tot r face = 0)
  unseen : ∀ r < owned.length, ∀ face, ¬ Announced calls r face → tot r face = 0
  dofs : ∀ r < owned.length, ∀ i < (F r).dofs.length, (F r).dofs[i]? = some 0

theorem Acc.extend (ho : FacesOwned owned) (h : FuncInv owned calls ph W F) {W0 W' : Nat → SurfRank}
    {L0 : Nat → Nat} {tot : Nat → Int → ℚ} (ha : Acc owned calls W0 W F L0 tot) {c : SurfCall}
    {ph' : FuncPhase} (h' : FuncInv owned (calls ++ [c]) ph' W' F)
    (hs : ∀ r < owned.length, ∀ face i, surfSeqOf (W r) face = some i → surfSeqOf (W' r) face = some i) :
    Acc owned (calls ++ [c]) W0 W' F L0 tot := by
  have hmono : ∀ r < owned.length, surfNumGeoms (W r) ≤ surfNumGeoms (W' r) := by
    intro r hr
    by_contra hlt
    obtain ⟨face, hf⟩ := ((h.numbered ho hr).lt_iff (surfNumGeoms (W' r))).2 (by omega)
    have := (h'.numbered ho hr).lt (hs r hr face _ (((h.numbered ho hr).find _ _).2 hf))
    omega
  refine ⟨fun r hr face i hi => hs r hr face i (ha.seq r hr face i hi),
    fun r hr => le_trans (ha.geoms r hr) (hmono r hr), ha.low, fun r hr => ?_, ?_, ?_, ha.dofs⟩
  · have := ha.high r hr
    have := hmono r hr
    omega
  · intro r hr k face hk hgood
    by_cases hlt : k < surfNumGeoms (W r)
    · obtain ⟨face', hf'⟩ := ((h.numbered ho hr).lt_iff k).2 hlt
      have h1 := hs r hr face' k (((h.numbered ho hr).find _ _).2 hf')
      have h2 := ((h'.numbered ho hr).find _ _).1 h1
      rw [hk] at h2
      obtain rfl := Option.some.inj h2
      exact ha.val r hr k face hf' hgood
    · have g1 := ha.geoms r hr
      have g2 := ha.high r hr
      refine ⟨fun hx => by omega, fun _ => ha.unseen r hr face fun hann => ?_⟩
      obtain ⟨k', hk'⟩ := ((h.numbered ho hr).held_iff face).2 hann
      have := (h'.numbered ho hr).seqOf_eq (hs r hr face k' hk') hk
      have := (h.numbered ho hr).lt hk'
      omega
  · intro r hr face hann
    refine ha.unseen r hr face fun hx => hann ?_
    obtain ⟨c', h1, h2⟩ := hx
    exact ⟨c', List.mem_append_left _ h1, h2⟩

theorem Acc.extends (ho : FacesOwned owned) {W0 : Nat → SurfRank} {L0 : Nat → Nat} {tot : Nat → Int → ℚ}
    (cs : List SurfCall) (hcs : ∀ c ∈ cs, PairsOk owned c.pairs) (calls : List SurfCall)
    (W : Nat → SurfRank) (ph : FuncPhase) (hph : ph ≠ .idle) (h : FuncInv owned calls ph W F)
    (ha : Acc owned calls W0 W F L0 tot) :
    ∃ W' ph', ph' ≠ .idle ∧ runItems funcStep (cs.map .extend)
        ((List.range owned.length).map W, (List.range owned.length).map F) =
          some ((List.range owned.length).map W', (List.range owned.length).map F) ∧
      FuncInv owned (calls ++ cs) ph' W' F ∧ Acc owned (calls ++ cs) W0 W' F L0 tot := by
  induction cs generalizing calls W ph with
  | nil => exact ⟨W, ph, hph, rfl, by rw [List.append_nil]; exact h, by rw [List.append_nil]; exact ha⟩
  | cons c cs ih =>
    obtain ⟨W1, g1, g2, g3⟩ := extend_inv ho h (hcs c (by simp))
    obtain ⟨W', ph', e0, e1, e2, e3⟩ := ih (fun d hd => hcs d (by simp [hd])) (calls ++ [c]) W1 ph.afterExtend
      (by cases ph with
        | idle => exact absurd rfl hph
        | ready => intro hx; cases hx
        | extended => intro hx; cases hx) g2 (ha.extend ho h g2 g3)
    rw [List.append_assoc, List.singleton_append] at e2 e3
    refine ⟨W', ph', e0, ?_, e2, e3⟩
    rw [List.map_cons, runItems_cons]
    show (((surfExtend c.mpi c.mem c.pairs ((List.range owned.length).map W)).bind fun w =>
      some (w, (List.range owned.length).map F))).bind _ = _
    rw [g1, Option.bind_some, Option.bind_some, e1]

/-- The parts of a projection. -/
theorem Acc.rounds (ho : FacesOwned owned) {W0 : Nat → SurfRank} {L0 : Nat → Nat} (inv : ℚ)
    (rounds : List FuncRound) (tot : Nat → Int → ℚ) (calls : List SurfCall)
    (hr : RoundsOk owned calls rounds) (W : Nat → SurfRank) (F : Nat → SurfFunc)
    (h : FuncInv owned calls .ready W F) (ha : Acc owned calls W0 W F L0 tot) :
    ∃ W' F', runItems funcStep (roundOps inv rounds)
        ((List.range owned.length).map W, (List.range owned.length).map F) =
          some ((List.range owned.length).map W', (List.range owned.length).map F') ∧
      FuncInv owned (calls ++ rounds.flatMap FuncRound.calls) .ready W' F' ∧
      Acc owned (calls ++ rounds.flatMap FuncRound.calls) W0 W' F' L0 (fun r face =>
        tot r face + (rounds.map fun d => rankTotal inv ((d.parts.getD r none).getD []) face).sum) := by
  induction rounds generalizing tot calls W F with
  | nil =>
    refine ⟨W, F, rfl, by simpa using h, ?_⟩
    simpa using ha
  | cons d rounds ih =>
    obtain ⟨hc, hp, hrest⟩ := hr
    obtain ⟨W1, ph1, hph1, e1, e2, e3⟩ := ha.extends ho d.calls hc calls W .ready (fun hx => by cases hx) h
    obtain ⟨F1, g1, g2, g3⟩ := funcAdds_spec ho e2 hph1 d.env inv hp
    have hacc : Acc owned (calls ++ d.calls) W0 W1 F1 L0 (fun r face =>
        tot r face + rankTotal inv ((d.parts.getD r none).getD []) face) := by
      refine ⟨e3.seq, e3.geoms, fun r hr => ?_, fun r hr => ?_, ?_, ?_, ?_⟩
      · rw [(g3 r hr).2.1]
        have := e3.low r hr
        omega
      · rw [(g3 r hr).2.1]
        have := e3.high r hr
        omega
      · intro r hr k face hk hgood
        obtain ⟨v1, v2⟩ := e3.val r hr k face hk hgood
        have hklt := ((e2.numbered ho hr).lt_iff k).1 ⟨face, hk⟩
        obtain ⟨a1, a2⟩ := (g3 r hr).2.2 k face hk
        refine ⟨fun _ => ?_, fun hx => by rw [(g3 r hr).2.1] at hx; omega⟩
        by_cases hlt : k < (F r).stage.length
        · rw [a1 _ (v1 hlt)]
        · rw [a2 (by omega), v2 (by omega), zero_add]
      · intro r hr face hann
        rw [e3.unseen r hr face hann, zero_add]
        unfold rankTotal
        rw [List.filter_eq_nil_iff.2, List.map_nil, List.sum_nil]
        intro p hpm hpf
        rw [decide_eq_true_eq] at hpf
        refine hann (hpf ▸ ?_)
        rw [List.getD_eq_getElem?_getD, List.getElem?_eq_getElem (by rw [hp.1]; exact hr), Option.getD_some] at hpm
        cases hps : d.parts[r]'(by rw [hp.1]; exact hr) with
        | none => rw [hps] at hpm; cases hpm
        | some ps =>
          rw [hps] at hpm
          exact hp.2 r ps (by rw [List.getElem?_eq_getElem (by rw [hp.1]; exact hr), hps]) p hpm
      · intro r hr i hi
        rw [(g3 r hr).1] at hi ⊢
        exact e3.dofs r hr i hi
    obtain ⟨W', F', i1, i2, i3⟩ := ih _ (calls ++ d.calls) hrest W1 F1 g2 hacc
    rw [List.append_assoc, ← List.flatMap_cons (f := FuncRound.calls)] at i2 i3
    refine ⟨W', F', ?_, i2, ?_⟩
    · have : roundOps inv (d :: rounds) = d.calls.map FuncOp.extend ++ ([.add d.env inv d.parts] ++ roundOps inv rounds) := by
        unfold roundOps
        rw [List.flatMap_cons, List.append_assoc]
      rw [this, runItems_append, e1, Option.bind_some, runItems_append, runItems_one]
      show ((funcAdds d.env inv d.parts _ _).bind fun fs => some (_, fs)).bind _ = _
      rw [g1, Option.bind_some, Option.bind_some, i1]
    · convert i3 using 3
      rw [List.map_cons, List.sum_cons, add_assoc]

end NP
