import Verif.Boundary.SpecSurface
import Verif.Boundary.PropsExchange

/-!
# Lemmas about functions on the faces of a boundary
-/

set_option autoImplicit false

namespace NP

open Spec

variable {owned : List (List Int)} {calls : List SurfCall} {n : Nat}

/-- A list as a table. -/
theorem table_of {α : Type} [Inhabited α] (l : List α) :
    l = (List.range l.length).map fun r => l.getD r default := by
  apply List.ext_getElem?
  intro i
  by_cases hi : i < l.length
  · rw [List.getElem?_map, List.getElem?_range hi, Option.map_some, List.getElem?_eq_getElem hi,
      List.getD_eq_getElem?_getD, List.getElem?_eq_getElem hi, Option.getD_some]
  · rw [List.getElem?_eq_none (by omega), List.getElem?_eq_none (by simp; omega)]

theorem funcOnRanks_table {A : Type} {W : Nat → SurfRank} {F : Nat → SurfFunc}
    {op : Nat → SurfRank → SurfFunc → Option A} {g : Nat → A}
    (h : ∀ r < n, op r (W r) (F r) = some (g r)) :
    funcOnRanks ((List.range n).map W) ((List.range n).map F) op = some ((List.range n).map g) := by
  unfold funcOnRanks
  refine mapRanks_table fun r hr => ?_
  rw [rd_table F hr, Option.bind_some, h r hr]

theorem funcOnRanks_exists {A : Type} [Nonempty A] {W : Nat → SurfRank} {F : Nat → SurfFunc}
    {op : Nat → SurfRank → SurfFunc → Option A} {P : Nat → A → Prop}
    (h : ∀ r < n, ∃ x, op r (W r) (F r) = some x ∧ P r x) :
    ∃ g, funcOnRanks ((List.range n).map W) ((List.range n).map F) op = some ((List.range n).map g) ∧
      ∀ r < n, P r (g r) := by
  choose! g hg using h
  exact ⟨g, funcOnRanks_table fun r hr => (hg r hr).1, fun r hr => (hg r hr).2⟩

/-! ## The calls on one rank -/

theorem funcInit_spec {mem : Fresh ℚ} {a : SurfRank} {f : SurfFunc} (hs : 1 ≤ f.stage.length) :
    ∃ f', funcInit mem a f = some f' ∧ f'.dofs = List.replicate f.dofs.length 0 ∧ f'.version = 0 ∧
      f'.stage.length = max f.stage.length (surfNumGeoms a) ∧
      ∀ k < surfNumGeoms a, f'.stage[k]? = some 0 := by
  unfold funcInit stageNoCopy
  obtain ⟨buf, hb, hl⟩ : ∃ buf : List ℚ, (if f.stage.length < surfNumGeoms a then
      (if f.stage.length = 0 then none else some (mem (surfNumGeoms a)).1) else some f.stage) = some buf ∧
      buf.length = max f.stage.length (surfNumGeoms a) := by
    split
    · rw [if_neg (by omega)]
      exact ⟨_, rfl, by rw [(mem _).2]; omega⟩
    · exact ⟨_, rfl, by omega⟩
  simp only [hb, Option.bind_some]
  obtain ⟨b2, h1, h2, h3⟩ := stRange_zero (m := buf) (vs := List.replicate (surfNumGeoms a) (0 : ℚ))
    (by rw [List.length_replicate]; omega)
  rw [h1, Option.bind_some]
  refine ⟨_, rfl, rfl, rfl, by rw [← hl, ← h2]; rfl, fun k hk => ?_⟩
  rw [List.length_replicate] at h3
  show b2[k]? = some 0
  rw [getElem?_of_take h3 hk, List.getElem?_replicate, if_pos hk]

/-- What the particles add to the entry of a face. -/
def rankTotal (inv : ℚ) (ps : List (Int × ℚ)) (face : Int) : ℚ :=
  ((ps.filter fun p => p.1 = face).map fun p => inv * p.2).sum

theorem rankTotal_perm {inv : ℚ} {ps qs : List (Int × ℚ)} (h : ps.Perm qs) (face : Int) :
    rankTotal inv ps face = rankTotal inv qs face := by
  unfold rankTotal
  exact ((h.filter _).map _).sum_eq

theorem rankTotal_cons (inv : ℚ) (p : Int × ℚ) (ps : List (Int × ℚ)) (face : Int) :
    rankTotal inv (p :: ps) face = (if p.1 = face then inv * p.2 else 0) + rankTotal inv ps face := by
  unfold rankTotal
  by_cases h : p.1 = face
  · rw [List.filter_cons_of_pos (by simpa using h), List.map_cons, List.sum_cons, if_pos h]
  · rw [List.filter_cons_of_neg (by simpa using h), if_neg h, zero_add]

theorem rankTotal_append (inv : ℚ) (ps qs : List (Int × ℚ)) (face : Int) :
    rankTotal inv (ps ++ qs) face = rankTotal inv ps face + rankTotal inv qs face := by
  unfold rankTotal
  rw [List.filter_append, List.map_append, List.sum_append]

/-- The numbering of the faces of a rank. -/
structure Numbered (a : SurfRank) (held : Int → Prop) : Prop where
  find : ∀ face i, surfSeqOf a face = some i ↔ surfGeomOf a i = some face
  held_iff : ∀ face, (∃ i, surfSeqOf a face = some i) ↔ held face
  lt_iff : ∀ i, (∃ face, surfGeomOf a i = some face) ↔ i < surfNumGeoms a

theorem Numbered.lt {a : SurfRank} {held : Int → Prop} (h : Numbered a held) {face : Int} {i : Nat}
    (hi : surfSeqOf a face = some i) : i < surfNumGeoms a :=
  (h.lt_iff i).1 ⟨face, (h.find face i).1 hi⟩

theorem funcAddKernel_run {debug : Bool} {inv : ℚ} {a : SurfRank} {held : Int → Prop}
    (ha : Numbered a held) (ps : List (Int × ℚ)) (hps : ∀ p ∈ ps, held p.1) (buf : List ℚ)
    (hb : surfNumGeoms a ≤ buf.length) :
    ∃ buf', runItems (funcAddKernel debug inv a) ps buf = some buf' ∧ buf'.length = buf.length ∧
      ∀ k x, buf[k]? = some x → ∀ face, surfGeomOf a k = some face →
        buf'[k]? = some (x + rankTotal inv ps face) := by
  induction ps generalizing buf with
  | nil => exact ⟨buf, rfl, rfl, fun k x hx face _ => by rw [hx]; simp [rankTotal]⟩
  | cons p ps ih =>
    obtain ⟨i, hi⟩ := (ha.held_iff p.1).2 (hps p (by simp))
    have hlt := ha.lt hi
    obtain ⟨x0, hx0⟩ : ∃ x0, buf[i]? = some x0 := ⟨_, List.getElem?_eq_getElem (by omega)⟩
    have hstep : funcAddKernel debug inv a p buf = some (buf.set i (x0 + inv * p.2)) := by
      unfold funcAddKernel
      rw [if_neg (by omega), hi]
      simp only [rd]
      rw [if_neg (by simp [hlt]), hx0, Option.bind_some, st_eq_some (by omega)]
    obtain ⟨buf', h1, h2, h3⟩ := ih (fun q hq => hps q (by simp [hq])) (buf.set i (x0 + inv * p.2))
      (by rw [List.length_set]; exact hb)
    refine ⟨buf', by rw [runItems_cons, hstep, Option.bind_some, h1], by rw [h2, List.length_set], ?_⟩
    intro k x hx face hface
    rw [rankTotal_cons]
    by_cases hk : k = i
    · subst hk
      have : p.1 = face := by
        have := (ha.find p.1 k).1 hi
        rw [hface] at this
        exact (Option.some.inj this).symm
      rw [hx0] at hx
      obtain rfl := Option.some.inj hx
      rw [h3 k (x0 + inv * p.2) (by rw [List.getElem?_set_self (by omega)]) face hface, if_pos this, add_assoc]
    · have hne : ¬ p.1 = face := by
        intro h
        subst h
        have := (ha.find p.1 k).2 hface
        rw [hi] at this
        exact hk (Option.some.inj this).symm
      rw [h3 k x (by rw [List.getElem?_set_ne (Ne.symm hk), hx]) face hface, if_neg hne, zero_add]

theorem funcAdd_spec {mem : Fresh ℚ} {order : Sched} {debug : Bool} {inv : ℚ} {a : SurfRank}
    {held : Int → Prop} (ha : Numbered a held) {parts : Option (List (Int × ℚ))}
    (hps : ∀ p ∈ parts.getD [], held p.1) {f : SurfFunc} (hs : 1 ≤ f.stage.length) :
    ∃ f', funcAdd mem order debug inv a parts f = some f' ∧ f'.dofs = f.dofs ∧ f'.version = f.version ∧
      f'.stage.length = max f.stage.length (surfNumGeoms a) ∧
      ∀ k face, surfGeomOf a k = some face →
        (∀ x, f.stage[k]? = some x → f'.stage[k]? = some (x + rankTotal inv (parts.getD []) face)) ∧
        (f.stage.length ≤ k → f'.stage[k]? = some (rankTotal inv (parts.getD []) face)) := by
  unfold funcAdd
  obtain ⟨buf, hb, hl, hold, hnew⟩ : ∃ buf : List ℚ, (if f.stage.length < surfNumGeoms a then
      (stageCopy mem (surfNumGeoms a) f.stage).bind fun buf =>
        stRange buf f.stage.length (List.replicate (surfNumGeoms a - f.stage.length) 0)
      else some f.stage) = some buf ∧ buf.length = max f.stage.length (surfNumGeoms a) ∧
      (∀ k < f.stage.length, buf[k]? = f.stage[k]?) ∧
      ∀ k, f.stage.length ≤ k → k < surfNumGeoms a → buf[k]? = some 0 := by
    split
    · rename_i hlt
      unfold stageCopy
      rw [if_pos hlt, if_neg (by omega), Option.bind_some, stRange_eq_some (by
        simp only [List.length_append, List.length_drop, List.length_replicate, (mem _).2]; omega)]
      refine ⟨_, rfl, ?_, ?_, ?_⟩
      · simp only [List.length_append, List.length_take, List.length_drop, List.length_replicate, (mem _).2]
        omega
      · intro k hk
        rw [List.append_assoc, List.getElem?_append_left (by
          simp only [List.length_take, List.length_append, List.length_drop, (mem _).2]; omega),
          List.getElem?_take_of_lt hk, List.getElem?_append_left hk]
      · intro k h1 h2
        rw [List.append_assoc, List.getElem?_append_right (by
          simp only [List.length_take, List.length_append, List.length_drop, (mem _).2]; omega),
          List.getElem?_append_left (by
            simp only [List.length_take, List.length_append, List.length_drop, (mem _).2,
              List.length_replicate]; omega), List.getElem?_replicate, if_pos (by
            simp only [List.length_take, List.length_append, List.length_drop, (mem _).2]; omega)]
    · exact ⟨_, rfl, by omega, fun _ _ => rfl, fun k h1 h2 => by omega⟩
  simp only [hb, Option.bind_some]
  rw [if_pos (by omega)]
  cases parts with
  | none =>
    refine ⟨_, rfl, rfl, rfl, hl, fun k face hf => ⟨fun x hx => ?_, fun hk => ?_⟩⟩
    · show buf[k]? = _
      rw [hold k (List.getElem?_eq_some_iff.1 hx).1, hx]
      simp [rankTotal]
    · show buf[k]? = _
      rw [hnew k hk ((ha.lt_iff k).1 ⟨face, hf⟩)]
      simp [rankTotal]
  | some ps =>
    have hperm : (order.order ps).Perm ps := order.perm ps
    obtain ⟨buf', h1, h2, h3⟩ := funcAddKernel_run (debug := debug) (inv := inv) ha (order.order ps)
      (fun p hp => hps p (hperm.mem_iff.1 hp)) buf (by omega)
    simp only [h1, Option.bind_some]
    refine ⟨_, rfl, rfl, rfl, by rw [← hl, ← h2], fun k face hf => ⟨fun x hx => ?_, fun hk => ?_⟩⟩
    · show buf'[k]? = _
      rw [h3 k x (by rw [hold k (List.getElem?_eq_some_iff.1 hx).1, hx]) face hf, rankTotal_perm hperm]
      rfl
    · show buf'[k]? = _
      rw [h3 k 0 (hnew k hk ((ha.lt_iff k).1 ⟨face, hf⟩)) face hf, rankTotal_perm hperm, zero_add]
      rfl

/-! ## The state between calls -/

/-- The staging buffers hold the values of the owners. -/
def Synced (owned : List (List Int)) (W : Nat → SurfRank) (F : Nat → SurfFunc) : Prop :=
  ∀ s < owned.length, ∀ (q i : Nat) (faces : List Int) (face : Int) (k : Nat), owned[q]? = some faces →
    faces[i]? = some face → surfSeqOf (W s) face = some k → (F s).stage[k]? = (F q).dofs[i]?

/-- The versions of the interface (`iv`) and of the function (`fv`) on all ranks. -/
structure VersionsOk (owned : List (List Int)) (ph : FuncPhase) (W : Nat → SurfRank) (F : Nat → SurfFunc)
    (iv fv : Nat) : Prop where
  pos : 1 ≤ iv
  le : fv ≤ iv
  rank : ∀ r < owned.length, (W r).version = iv
  func : ∀ r < owned.length, (F r).version = fv
  zero : ph ≠ .idle → fv = 0
  synced : fv = iv → Synced owned W F

structure FuncInv (owned : List (List Int)) (calls : List SurfCall) (ph : FuncPhase)
    (W : Nat → SurfRank) (F : Nat → SurfFunc) : Prop where
  run : surfRun owned calls = some ((List.range owned.length).map W)
  calls_ok : ∀ c ∈ calls, PairsOk owned c.pairs
  versions : ∃ iv fv, VersionsOk owned ph W F iv fv
  dofs : ∀ (r : Nat) faces, owned[r]? = some faces → (F r).dofs.length = faces.length
  stage : ∀ r < owned.length, 1 ≤ (F r).stage.length
  room : ph = .ready → ∀ r < owned.length, surfNumGeoms (W r) ≤ (F r).stage.length

theorem surfRun_table (ho : FacesOwned owned) (hcalls : ∀ c ∈ calls, PairsOk owned c.pairs) :
    ∃ W, surfRun owned calls = some ((List.range owned.length).map W) ∧
      ∀ r < owned.length, Numbered (W r) (Announced calls r) := by
  obtain ⟨w, h1, h2, h3⟩ := C63_numbering ho hcalls
  obtain ⟨W, R, g1, g2⟩ := surfRun_inv ho calls hcalls
  refine ⟨W, g1, fun r hr => ?_⟩
  rw [g1] at h1
  obtain rfl := Option.some.inj h1
  obtain ⟨a1, a2, a3⟩ := h3 r (W r) (rd_table W hr)
  exact ⟨a1, a2, a3⟩

theorem FuncInv.numbered {ph : FuncPhase} {W : Nat → SurfRank} {F : Nat → SurfFunc} (ho : FacesOwned owned)
    (h : FuncInv owned calls ph W F) {r : Nat} (hr : r < owned.length) :
    Numbered (W r) (Announced calls r) := by
  obtain ⟨w, h1, h2, h3⟩ := C63_numbering ho h.calls_ok
  rw [h.run] at h1
  obtain rfl := Option.some.inj h1
  obtain ⟨a1, a2, a3⟩ := h3 r (W r) (rd_table W hr)
  exact ⟨a1, a2, a3⟩

theorem Numbered.seqOf_eq {a : SurfRank} {held : Int → Prop} (h : Numbered a held) {face : Int} {i j : Nat}
    (hi : surfSeqOf a face = some i) (hj : surfGeomOf a j = some face) : i = j := by
  have := (h.find face j).2 hj
  rw [hi] at this
  exact Option.some.inj this

/-- One more extension. -/
theorem surfRun_extend (ho : FacesOwned owned) {c : SurfCall} (hcalls : ∀ c ∈ calls, PairsOk owned c.pairs)
    (hc : PairsOk owned c.pairs) {W : Nat → SurfRank}
    (hw : surfRun owned calls = some ((List.range owned.length).map W)) :
    ∃ W', surfExtend c.mpi c.mem c.pairs ((List.range owned.length).map W) =
        some ((List.range owned.length).map W') ∧
      surfRun owned (calls ++ [c]) = some ((List.range owned.length).map W') ∧
      (∀ r < owned.length, ∀ face i, surfSeqOf (W r) face = some i → surfSeqOf (W' r) face = some i) ∧
      ((∀ r < owned.length, W' r = W r) ∨ ∀ r < owned.length, (W' r).version = (W r).version + 1) := by
  obtain ⟨w', h1, h2, h3, h4⟩ := C63_extension ho hcalls hc hw
  obtain ⟨W', g1, g2⟩ := surfRun_table ho (calls := calls ++ [c]) (by
    intro d hd
    rcases List.mem_append.1 hd with hd | hd
    · exact hcalls d hd
    · rw [List.mem_singleton] at hd; rw [hd]; exact hc)
  rw [g1] at h1
  obtain rfl := Option.some.inj h1
  refine ⟨W', ?_, g1, ?_, ?_⟩
  · have := g1
    unfold surfRun at hw this
    rw [runItems_append, hw, Option.bind_some, runItems_cons] at this
    cases hx : surfExtend c.mpi c.mem c.pairs ((List.range owned.length).map W) with
    | none => rw [hx] at this; cases this
    | some w' => rw [hx, Option.bind_some] at this; exact this
  · intro r hr face i hi
    obtain ⟨a', e1, e2⟩ := h2 r (W r) (rd_table W hr)
    have e3 : ((List.range owned.length).map W')[r]? = some (W' r) := rd_table W' hr
    rw [e3] at e1
    obtain rfl := Option.some.inj e1
    exact e2 face i hi
  · by_cases hnew : ∃ s face, Announced [c] s face ∧ ¬ Announced calls s face
    · exact Or.inr fun r hr => h4 hnew r (W r) (W' r) (rd_table W hr) (rd_table W' hr)
    · left
      push Not at hnew
      have := h3 hnew
      intro r hr
      have e1 : ((List.range owned.length).map W')[r]? = some (W' r) := rd_table W' hr
      have e2 : ((List.range owned.length).map W)[r]? = some (W r) := rd_table W hr
      rw [this, e2] at e1
      exact (Option.some.inj e1).symm

end NP
