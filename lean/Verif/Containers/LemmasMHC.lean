import Verif.Containers.SpecMHC
import Mathlib.Data.List.Nodup
import Mathlib.Data.List.Pairwise

/-!
# Lemmas: mesh hierarchy container
-/

set_option autoImplicit false

namespace NP

open Spec

instance (n : Nat) (owner : Int → Int) (c : Int) : Decidable (HasOwner n owner c) := by
  unfold HasOwner; infer_instance

theorem toInt32_eq {x : Int} (h : Fits32 x) : toInt32 x = x := by
  unfold Fits32 at h
  unfold toInt32
  simp only
  by_cases hx : 0 ≤ x
  · rw [if_pos (by omega)]; omega
  · rw [if_neg (by omega)]; omega

theorem mem_setInsert (l : List Int) (x y : Int) : y ∈ setInsert l x ↔ y = x ∨ y ∈ l := by
  induction l with
  | nil => simp [setInsert]
  | cons a l ih =>
    unfold setInsert
    by_cases h1 : x < a
    · rw [if_pos h1]; simp
    · rw [if_neg h1]
      by_cases h2 : x = a
      · rw [if_pos h2]; subst h2; simp
      · rw [if_neg h2]; simp only [List.mem_cons, ih]
        constructor
        · rintro (h | h | h)
          · exact Or.inr (Or.inl h)
          · exact Or.inl h
          · exact Or.inr (Or.inr h)
        · rintro (h | h | h)
          · exact Or.inr (Or.inl h)
          · exact Or.inl h
          · exact Or.inr (Or.inr h)

theorem setInsert_sorted (l : List Int) (x : Int) (h : l.Pairwise (· < ·)) :
    (setInsert l x).Pairwise (· < ·) := by
  induction l with
  | nil => simp [setInsert]
  | cons a l ih =>
    obtain ⟨ha, hl⟩ := List.pairwise_cons.mp h
    unfold setInsert
    by_cases h1 : x < a
    · rw [if_pos h1, List.pairwise_cons]
      refine ⟨fun y hy => ?_, h⟩
      rcases List.mem_cons.mp hy with e | hy
      · subst e; exact h1
      · have := ha y hy; omega
    · rw [if_neg h1]
      by_cases h2 : x = a
      · rw [if_pos h2]; exact h
      · rw [if_neg h2, List.pairwise_cons]
        refine ⟨fun y hy => ?_, ih hl⟩
        rcases (mem_setInsert l x y).mp hy with e | hy
        · subst e; omega
        · exact ha y hy

theorem mem_foldl_setInsert (xs l : List Int) (y : Int) :
    y ∈ xs.foldl setInsert l ↔ y ∈ xs ∨ y ∈ l := by
  induction xs generalizing l with
  | nil => simp
  | cons x xs ih =>
    simp only [List.foldl_cons, ih, mem_setInsert, List.mem_cons]
    constructor
    · rintro (h | h | h)
      · exact Or.inl (Or.inr h)
      · exact Or.inl (Or.inl h)
      · exact Or.inr h
    · rintro ((h | h) | h)
      · exact Or.inr (Or.inl h)
      · exact Or.inl h
      · exact Or.inr (Or.inr h)

theorem cellsSet_spec (s : MHCRank) (cells : List Int) :
    (∀ c, c ∈ cellsSet s cells ↔ c ∈ cells ∧ c ∉ s.gathered) ∧ (cellsSet s cells).Nodup := by
  have key : ∀ (cells l : List Int), l.Pairwise (· < ·) →
      (∀ c, c ∈ cells.foldl (fun set cell => if cell ∈ s.gathered then set else setInsert set cell) l ↔
        (c ∈ cells ∧ c ∉ s.gathered) ∨ c ∈ l) ∧
      (cells.foldl (fun set cell => if cell ∈ s.gathered then set else setInsert set cell) l).Pairwise
        (· < ·) := by
    intro cells
    induction cells with
    | nil => intro l hl; simpa using hl
    | cons x xs ih =>
      intro l hl
      simp only [List.foldl_cons]
      by_cases hx : x ∈ s.gathered
      · rw [if_pos hx]
        refine ⟨fun c => ?_, (ih l hl).2⟩
        rw [(ih l hl).1 c]
        simp only [List.mem_cons]
        constructor
        · rintro (⟨h1, h2⟩ | h)
          · exact Or.inl ⟨Or.inr h1, h2⟩
          · exact Or.inr h
        · rintro (⟨h1 | h1, h2⟩ | h)
          · subst h1; exact absurd hx h2
          · exact Or.inl ⟨h1, h2⟩
          · exact Or.inr h
      · rw [if_neg hx]
        have hs := setInsert_sorted l x hl
        refine ⟨fun c => ?_, (ih _ hs).2⟩
        rw [(ih _ hs).1 c, mem_setInsert]
        simp only [List.mem_cons]
        constructor
        · rintro (⟨h1, h2⟩ | h | h)
          · exact Or.inl ⟨Or.inr h1, h2⟩
          · subst h; exact Or.inl ⟨Or.inl rfl, hx⟩
          · exact Or.inr h
        · rintro (⟨h1 | h1, h2⟩ | h)
          · exact Or.inr (Or.inl h1)
          · exact Or.inl ⟨h1, h2⟩
          · exact Or.inr (Or.inr h)
  obtain ⟨h1, h2⟩ := key cells [] List.Pairwise.nil
  refine ⟨fun c => by unfold cellsSet; rw [h1 c]; simp, ?_⟩
  exact h2.imp (fun h => by omega)

/-- Bytes for a cell in a list of cell buffers. -/
def cellBytes (ms : List CellBuffer) (c : Int) : List Byte :=
  ms.flatMap fun m => if m.cell = c then m.buffer else []

theorem foldl_unpack (ms : List CellBuffer) : ∀ (s : MHCRank), (∀ m ∈ ms, Fits32 m.cell) →
    (∀ c, ((ms.foldl unpackCell s).buffers c).getD [] = (s.buffers c).getD [] ++ cellBytes ms c) ∧
    (∀ c, ((s.buffers c).isSome ∨ ∃ m ∈ ms, m.cell = c) →
      ((ms.foldl unpackCell s).buffers c).isSome) ∧
    (∀ c, c ∈ (ms.foldl unpackCell s).gathered ↔ c ∈ s.gathered ∨ ∃ m ∈ ms, m.cell = c) ∧
    (ms.foldl unpackCell s).noOwner = s.noOwner := by
  induction ms with
  | nil => intro s _; simp [cellBytes]
  | cons m ms ih =>
    intro s hf
    have hm := toInt32_eq (hf m (by simp))
    obtain ⟨h1, h2, h3, h4⟩ := ih (unpackCell s m) (fun x hx => hf x (by simp [hx]))
    simp only [List.foldl_cons]
    refine ⟨fun c => ?_, fun c hc => ?_, fun c => ?_, h4⟩
    · rw [h1 c]
      simp only [unpackCell, hm, cellBytes, List.flatMap_cons]
      by_cases h : m.cell = c
      · rw [if_pos h.symm, if_pos h]; simp [serialAppend]
      · rw [if_neg (fun e => h e.symm), if_neg h]; simp
    · apply h2 c
      rcases hc with hc | ⟨x, hx, hxc⟩
      · left
        simp only [unpackCell]
        by_cases h : c = toInt32 m.cell
        · rw [if_pos h]; rfl
        · rw [if_neg h]; exact hc
      · rcases List.mem_cons.mp hx with e | hx
        · left
          subst e
          simp only [unpackCell]
          rw [if_pos (by rw [hm, hxc])]; rfl
        · exact Or.inr ⟨x, hx, hxc⟩
    · rw [h3 c]
      simp only [unpackCell, mem_setInsert, List.mem_cons]
      constructor
      · rintro ((h | h) | ⟨x, hx, hxc⟩)
        · exact Or.inr ⟨m, Or.inl rfl, h.symm⟩
        · exact Or.inl h
        · exact Or.inr ⟨x, Or.inr hx, hxc⟩
      · rintro (h | ⟨x, hx | hx, hxc⟩)
        · exact Or.inl (Or.inr h)
        · subst hx; exact Or.inl (Or.inl hxc.symm)
        · exact Or.inr ⟨x, hx, hxc⟩

theorem genericUnpack_eq (d : CellBuffer) (mss : List (List CellBuffer)) :
    ∀ (s : MHCRank), (∀ ms ∈ mss, ∀ m ∈ ms, Serial.Good cellBufferSerial m) →
    genericUnpack d (mss.map (objsBytes cellBufferSerial)) s =
      some ((mss.flatten).foldl unpackCell s) := by
  induction mss with
  | nil => intro s _; rfl
  | cons ms mss ih =>
    intro s h
    simp only [List.map_cons, genericUnpack]
    rw [serialGet_eq _ d ms (h ms (by simp))]
    simp only [Option.bind_some, List.flatten_cons, List.foldl_append]
    exact ih _ (fun x hx => h x (by simp [hx]))

theorem fits32_int {x : Int} (h : Fits32 x) : -2 ^ 63 ≤ x ∧ x < 2 ^ 63 := by
  unfold Fits32 at h; omega

theorem objsBytes_len {T : Type} (I : Serial T) (ts : List T) (h : ∀ t ∈ ts, Serial.Good I t) :
    (objsBytes I ts).length = serialBytes I ts := by
  induction ts with
  | nil => rfl
  | cons t ts ih =>
    have h1 := ih (fun x hx => h x (by simp [hx]))
    have h2 := objBytes_length (h t (by simp))
    simp only [objsBytes, List.flatMap_cons, List.length_append, serialBytes] at h1 ⊢
    omega

/-! ### Constructor -/

/-- Cell buffers that a rank sends to `q` in the constructor. -/
def ctorMsgs {T : Type} (I : Serial T) (n : Nat) (owner : Int → Int) (data : List (Int × List T))
    (q : Int) : List CellBuffer :=
  (data.filter fun p => -1 < owner p.1 ∧ owner p.1 < n ∧ owner p.1 = q).map
    fun p => ⟨p.1, objsBytes I p.2⟩

theorem ctorPack_eq {T : Type} (I : Serial T) (n : Nat) (owner : Int → Int)
    (data : List (Int × List T)) : ∀ (m : Int → Option (List Byte)),
    (∀ p ∈ data, (∀ t ∈ p.2, Serial.Good I t) ∧
      Serial.Good cellBufferSerial ⟨p.1, objsBytes I p.2⟩) →
    ∃ m', ctorPack I n owner data m = some m' ∧
      ∀ q, m' q = if ctorMsgs I n owner data q = [] then m q
        else some ((m q).getD [] ++ objsBytes cellBufferSerial (ctorMsgs I n owner data q)) := by
  induction data with
  | nil => intro m _; exact ⟨m, rfl, fun q => by simp [ctorMsgs]⟩
  | cons p data ih =>
    intro m h
    obtain ⟨cell, ts⟩ := p
    obtain ⟨h1, h2⟩ := h (cell, ts) (by simp)
    by_cases ho : -1 < owner cell ∧ owner cell < n
    · obtain ⟨m', e, hm'⟩ := ih (fun k => if k = owner cell then
        some (serialAppend ((m k).getD []) (objsBytes cellBufferSerial [⟨cell, objsBytes I ts⟩]))
        else m k) (fun x hx => h x (by simp [hx]))
      refine ⟨m', ?_, fun q => ?_⟩
      · simp only [ctorPack]
        rw [if_pos ho, serialCreate_eq I ts h1]
        simp only [Option.bind_some]
        rw [serialCreate_eq _ _ (fun x hx => by rw [List.mem_singleton] at hx; subst hx; exact h2)]
        exact e
      · rw [hm' q]
        by_cases hq : owner cell = q
        · have hc : ctorMsgs I n owner ((cell, ts) :: data) q =
              ⟨cell, objsBytes I ts⟩ :: ctorMsgs I n owner data q := by
            unfold ctorMsgs
            rw [List.filter_cons_of_pos (by simp; omega)]; rfl
          rw [hc]
          simp only [if_pos hq.symm, serialAppend]
          by_cases hn : ctorMsgs I n owner data q = []
          · simp [hn]
          · simp [hn, objsBytes]
        · have hc : ctorMsgs I n owner ((cell, ts) :: data) q = ctorMsgs I n owner data q := by
            unfold ctorMsgs
            rw [List.filter_cons_of_neg (by simp; omega)]
          have hq' : ¬ q = owner cell := fun e => hq e.symm
          simp only [hc, if_neg hq']
    · obtain ⟨m', e, hm'⟩ := ih m (fun x hx => h x (by simp [hx]))
      refine ⟨m', by simp only [ctorPack]; rw [if_neg ho]; exact e, fun q => ?_⟩
      have hc : ctorMsgs I n owner ((cell, ts) :: data) q = ctorMsgs I n owner data q := by
        unfold ctorMsgs
        rw [List.filter_cons_of_neg (by simp; omega)]
      rw [hm' q, hc]

/-- Invariant. `req r c`: rank `r` asked for cell `c`. -/
structure MHCOk {T : Type} (I : Serial T) (n : Nat) (owner : Int → Int)
    (data : Nat → List (Int × List T)) (w : Nat → MHCRank) (req : Nat → Int → Prop) : Prop where
  have_ : ∀ (r : Nat) (c : Int), r < n → Fits32 c → HasOwner n owner c →
    (c ∈ (w r).gathered ∨ owner c = r) →
    ((w r).buffers c).getD [] = objsBytes I (contributed n data c)
  not : ∀ (r : Nat) (c : Int), r < n → Fits32 c → HasOwner n owner c → c ∉ (w r).gathered →
    ((w r).buffers c).getD [] = []
  some_ : ∀ (r : Nat) (c : Int), r < n → Fits32 c → c ∈ (w r).gathered →
    ((w r).buffers c).isSome ∧ HasOwner n owner c
  own : ∀ (r : Nat) (c : Int), r < n → c ∈ (w r).noOwner → ¬ HasOwner n owner c
  asked : ∀ (r : Nat) (c : Int), r < n → req r c → c ∈ (w r).gathered ∨ c ∈ (w r).noOwner
  only : ∀ (r : Nat) (c : Int), r < n → (c ∈ (w r).gathered ∨ c ∈ (w r).noOwner) →
    req r c ∨ (owner c = r ∧ ∃ q, q < n ∧ ∃ p ∈ data q, p.1 = c)

theorem serialBytes_append {T : Type} (I : Serial T) (a b : List T) :
    serialBytes I (a ++ b) = serialBytes I a + serialBytes I b := by
  induction a with
  | nil => simp [serialBytes]
  | cons t a ih => simp only [List.cons_append, serialBytes, ih]; omega

theorem serialBytes_le_flatMap {T ι : Type} (I : Serial T) (l : List ι) (f : ι → List T) (i : ι)
    (hi : i ∈ l) : serialBytes I (f i) ≤ serialBytes I (l.flatMap f) := by
  induction l with
  | nil => cases hi
  | cons a l ih =>
    rw [List.flatMap_cons, serialBytes_append]
    rcases List.mem_cons.mp hi with e | hi
    · subst e; omega
    · have := ih hi; omega

theorem Spec.DataOk.contrib_good {T : Type} {I : Serial T} {n : Nat} {data : Nat → List (Int × List T)}
    (h : DataOk I n data) (c : Int) : ∀ t ∈ contributed n data c, Serial.Good I t := by
  intro t ht
  unfold contributed at ht
  rw [List.mem_flatMap] at ht
  obtain ⟨r, hr, ht⟩ := ht
  rw [List.mem_flatMap] at ht
  obtain ⟨p, hp, ht⟩ := ht
  by_cases hc : p.1 = c
  · rw [if_pos hc] at ht; exact h.good r (List.mem_range.mp hr) p hp t ht
  · rw [if_neg hc] at ht; cases ht

theorem Spec.DataOk.cell_good {T : Type} {I : Serial T} {n : Nat} {data : Nat → List (Int × List T)}
    (h : DataOk I n data) (c : Int) (hc : Fits32 c) :
    Serial.Good cellBufferSerial ⟨c, objsBytes I (contributed n data c)⟩ :=
  cellBuffer_good _ (fits32_int hc) (by
    have e : (objsBytes I (contributed n data c)).length = _ := objsBytes_len I _ (h.contrib_good c)
    have := h.size c
    simp only
    omega)

theorem Spec.DataOk.msg_good {T : Type} {I : Serial T} {n : Nat} {data : Nat → List (Int × List T)}
    (h : DataOk I n data) (r : Nat) (hr : r < n) (p : Int × List T) (hp : p ∈ data r) :
    Serial.Good cellBufferSerial ⟨p.1, objsBytes I p.2⟩ :=
  cellBuffer_good _ (fits32_int (h.fits r hr p hp)) (by
    have e : (objsBytes I p.2).length = _ := objsBytes_len I _ (h.good r hr p hp)
    have h1 := h.size p.1
    have h2 : serialBytes I p.2 ≤ serialBytes I (contributed n data p.1) := by
      unfold contributed
      refine Nat.le_trans ?_ (serialBytes_le_flatMap I _ _ r (List.mem_range.mpr hr))
      refine Nat.le_trans ?_ (serialBytes_le_flatMap I _ _ p hp)
      rw [if_pos rfl]
      exact Nat.le_refl _
    simp only
    omega)

theorem cellBytes_ctorMsgs {T : Type} (I : Serial T) (n : Nat) (owner : Int → Int)
    (data : List (Int × List T)) (q c : Int) :
    cellBytes (ctorMsgs I n owner data q) c =
      if HasOwner n owner c ∧ owner c = q then
        objsBytes I (data.flatMap fun p => if p.1 = c then p.2 else []) else [] := by
  induction data with
  | nil => simp [ctorMsgs, cellBytes, objsBytes]
  | cons p data ih =>
    have hcons : ctorMsgs I n owner (p :: data) q =
        (if -1 < owner p.1 ∧ owner p.1 < n ∧ owner p.1 = q then [⟨p.1, objsBytes I p.2⟩] else []) ++
          ctorMsgs I n owner data q := by
      unfold ctorMsgs
      by_cases h : -1 < owner p.1 ∧ owner p.1 < n ∧ owner p.1 = q
      · rw [List.filter_cons_of_pos (by simpa using h), if_pos h]; rfl
      · rw [List.filter_cons_of_neg (by simpa using h), if_neg h]; rfl
    rw [hcons]
    unfold cellBytes at ih ⊢
    rw [List.flatMap_append, ih]
    by_cases hq : HasOwner n owner c ∧ owner c = q
    · rw [if_pos hq, if_pos hq]
      by_cases hc : p.1 = c
      · rw [if_pos (by subst hc; unfold HasOwner at hq; omega)]
        simp [hc, objsBytes]
      · by_cases h : -1 < owner p.1 ∧ owner p.1 < n ∧ owner p.1 = q
        · rw [if_pos h]; simp [hc]
        · rw [if_neg h]; simp [hc]
    · rw [if_neg hq, if_neg hq]
      by_cases h : -1 < owner p.1 ∧ owner p.1 < n ∧ owner p.1 = q
      · rw [if_pos h]
        have hc : p.1 ≠ c := fun e => by subst e; exact hq ⟨⟨by omega, h.2.1⟩, h.2.2⟩
        simp [hc]
      · rw [if_neg h]; simp

theorem allRanks_some {n : Nat} {f : Nat → Option MHCRank} {g : Nat → MHCRank}
    (h : ∀ r, r < n → f r = some (g r)) :
    ∃ w, allRanks n f = some w ∧ ∀ r, r < n → w r = g r := by
  unfold allRanks
  rw [if_pos (fun r hr => by rw [h r hr]; rfl)]
  exact ⟨_, rfl, fun r hr => by simp [h r hr]⟩

theorem create_ok {T : Type} {I : Serial T} (d : CellBuffer) {n : Nat} {owner : Int → Int}
    {data : Nat → List (Int × List T)} (h : DataOk I n data) :
    ∃ w, mhcCreate I d n owner data = some w ∧ MHCOk I n owner data w (fun _ _ => False) := by
  -- messages to rank q
  let msgs : Nat → List CellBuffer := fun q =>
    (List.range n).flatMap fun r => ctorMsgs I n owner (data r) q
  have hmsg : ∀ q, ∀ m ∈ msgs q, ∃ r, r < n ∧ ∃ p ∈ data r, -1 < owner p.1 ∧ owner p.1 < n ∧
      owner p.1 = q ∧ m = ⟨p.1, objsBytes I p.2⟩ := by
    intro q m hm
    simp only [msgs, List.mem_flatMap, List.mem_range, ctorMsgs, List.mem_map, List.mem_filter,
      decide_eq_true_eq] at hm
    obtain ⟨r, hr, p, ⟨hp, h1, h2, h3⟩, rfl⟩ := hm
    exact ⟨r, hr, p, hp, h1, h2, h3, rfl⟩
  have hrank : ∀ q, q < n → (fun q : Nat =>
      (collectM (fun (r : Nat) => (ctorPack I n owner (data r) (fun _ => none)).map
        fun m => (m q).toList) (List.range n)).bind fun incoming =>
      genericUnpack d incoming MHCRank.empty) q = some ((msgs q).foldl unpackCell MHCRank.empty) := by
    intro q _
    simp only
    rw [collectM_eq_flatMap (g := fun r => (([ctorMsgs I n owner (data r) q].filter
      (fun l => !l.isEmpty)).map (objsBytes cellBufferSerial)))]
    · simp only [Option.bind_some]
      rw [← List.map_flatMap, genericUnpack_eq]
      · congr 2
        simp only [msgs]
        induction List.range n with
        | nil => rfl
        | cons r l ih =>
          simp only [List.flatMap_cons, List.flatten_append, ih]
          congr 1
          cases hc : ctorMsgs I n owner (data r) q with
          | nil => simp
          | cons a b => simp
      · intro ms hms m hm
        simp only [List.mem_flatMap, List.mem_range, List.mem_filter, List.mem_singleton] at hms
        obtain ⟨r, hr, rfl, -⟩ := hms
        obtain ⟨r', hr', p, hp, -, -, -, e⟩ := hmsg q m (by
          simp only [msgs, List.mem_flatMap, List.mem_range]; exact ⟨r, hr, hm⟩)
        subst e
        exact h.msg_good r' hr' p hp
    · intro r hr
      have hr' := List.mem_range.mp hr
      obtain ⟨m', e, hm'⟩ := ctorPack_eq I n owner (data r) (fun _ => none)
        (fun p hp => ⟨h.good r hr' p hp, h.msg_good r hr' p hp⟩)
      rw [e]
      simp only [Option.map_some, hm' q]
      cases hc : ctorMsgs I n owner (data r) q with
      | nil => simp
      | cons a b => simp
  obtain ⟨w, hw, hwr⟩ := allRanks_some hrank
  refine ⟨w, hw, ?_⟩
  have facts := fun q => foldl_unpack (msgs q) MHCRank.empty (fun m hm => by
    obtain ⟨r, hr, p, hp, -, -, -, rfl⟩ := hmsg q m hm
    exact h.fits r hr p hp)
  have hbytes : ∀ (q : Nat) (c : Int), cellBytes (msgs q) c =
      if HasOwner n owner c ∧ owner c = q then objsBytes I (contributed n data c) else [] := by
    intro q c
    simp only [msgs, cellBytes, contributed]
    induction List.range n with
    | nil => simp [objsBytes]
    | cons r l ih =>
      have := cellBytes_ctorMsgs I n owner (data r) q c
      unfold cellBytes at this
      simp only [List.flatMap_cons, List.flatMap_append, ih, this]
      by_cases hq : HasOwner n owner c ∧ owner c = q
      · rw [if_pos hq, if_pos hq, if_pos hq]; simp [objsBytes]
      · rw [if_neg hq, if_neg hq, if_neg hq]; rfl
  have hgath : ∀ (q : Nat) (c : Int), q < n → (c ∈ (w q).gathered ↔ ∃ m ∈ msgs q, m.cell = c) := by
    intro q c hq
    rw [hwr q hq, (facts q).2.2.1 c]
    simp [MHCRank.empty]
  have hbuf : ∀ (q : Nat) (c : Int), q < n → ((w q).buffers c).getD [] = cellBytes (msgs q) c := by
    intro q c hq
    rw [hwr q hq, (facts q).1 c]
    simp [MHCRank.empty]
  have hown : ∀ (q : Nat) (c : Int), (∃ m ∈ msgs q, m.cell = c) →
      HasOwner n owner c ∧ owner c = q ∧ ∃ r, r < n ∧ ∃ p ∈ data r, p.1 = c := by
    rintro q c ⟨m, hm, rfl⟩
    obtain ⟨r, hr, p, hp, h1, h2, h3, rfl⟩ := hmsg q m hm
    exact ⟨⟨by simp only; omega, h2⟩, h3, r, hr, p, hp, rfl⟩
  constructor
  · intro r c hr hc ho hor
    rw [hbuf r c hr, hbytes r c]
    rcases hor with hg | hg
    · obtain ⟨h1, h2, -⟩ := hown r c ((hgath r c hr).mp hg)
      rw [if_pos ⟨h1, h2⟩]
    · rw [if_pos ⟨ho, hg⟩]
  · intro r c hr hc ho hg
    rw [hbuf r c hr]
    unfold cellBytes
    rw [List.flatMap_eq_nil_iff]
    intro m hm
    rw [if_neg (fun e => hg ((hgath r c hr).mpr ⟨m, hm, e⟩))]
  · intro r c hr hc hg
    have hm := (hgath r c hr).mp hg
    refine ⟨?_, (hown r c hm).1⟩
    rw [hwr r hr]
    exact (facts r).2.1 c (Or.inr hm)
  · intro r c hr hc
    rw [hwr r hr, (facts r).2.2.2] at hc
    simp [MHCRank.empty] at hc
  · intro r c hr hreq; exact hreq.elim
  · intro r c hr hg
    right
    rcases hg with hg | hg
    · exact (hown r c ((hgath r c hr).mp hg)).2
    · rw [hwr r hr, (facts r).2.2.2] at hg
      simp [MHCRank.empty] at hg

/-! ### Gather -/

theorem touchCells_spec (cells : List Int) : ∀ (s : MHCRank),
    (∀ c, ((touchCells s cells).buffers c).getD [] = (s.buffers c).getD []) ∧
    (∀ c, (s.buffers c).isSome → ((touchCells s cells).buffers c).isSome) ∧
    (touchCells s cells).gathered = s.gathered ∧ (touchCells s cells).noOwner = s.noOwner := by
  induction cells with
  | nil => intro s; exact ⟨fun _ => rfl, fun _ h => h, rfl, rfl⟩
  | cons x xs ih =>
    intro s
    obtain ⟨h1, h2, h3, h4⟩ := ih { s with
      buffers := fun k => if k = toInt32 x then some ((s.buffers k).getD []) else s.buffers k }
    refine ⟨fun c => ?_, fun c hc => ?_, h3, h4⟩
    · refine (h1 c).trans ?_
      simp only
      by_cases h : c = toInt32 x
      · rw [if_pos h]; rfl
      · rw [if_neg h]
    · refine h2 c ?_
      simp only
      by_cases h : c = toInt32 x
      · rw [if_pos h]; rfl
      · rw [if_neg h]; exact hc

theorem cellBytes_map (l : List Int) (f : Int → List Byte) (hn : l.Nodup) (c : Int) :
    cellBytes (l.map fun c => ⟨c, f c⟩) c = if c ∈ l then f c else [] := by
  induction l with
  | nil => simp [cellBytes]
  | cons x l ih =>
    obtain ⟨hx, hn⟩ := List.nodup_cons.mp hn
    have := ih hn
    unfold cellBytes at this ⊢
    simp only [List.map_cons, List.flatMap_cons, this, List.mem_cons]
    by_cases h : x = c
    · subst h; simp [hx]
    · have h' : ¬ c = x := fun e => h e.symm
      simp [h, h']

theorem mem_requests {n : Nat} {owner : Int → Int} {set : List Int} {q c : Int} :
    c ∈ requests n owner set q ↔ c ∈ set ∧ HasOwner n owner c ∧ owner c = q := by
  unfold requests HasOwner
  simp only [List.mem_filter, decide_eq_true_eq]
  constructor
  · rintro ⟨h1, h2, h3, h4⟩; exact ⟨h1, ⟨by omega, h3⟩, h4⟩
  · rintro ⟨h1, ⟨h2, h3⟩, h4⟩; exact ⟨h1, by omega, h3, h4⟩

theorem requests_all {n : Nat} {owner : Int → Int} {set : List Int} (hn : set.Nodup) :
    ((List.range n).flatMap fun (q : Nat) => requests n owner set q).Nodup ∧
    ∀ c, c ∈ ((List.range n).flatMap fun (q : Nat) => requests n owner set q) ↔
      c ∈ set ∧ HasOwner n owner c := by
  constructor
  · rw [List.nodup_flatMap]
    refine ⟨fun q _ => hn.filter _, ?_⟩
    refine List.nodup_range.imp ?_
    intro a b hab
    rw [Function.onFun, List.disjoint_left]
    intro c h1 h2
    have e1 := (mem_requests.mp h1).2.2
    have e2 := (mem_requests.mp h2).2.2
    omega
  · intro c
    simp only [List.mem_flatMap, List.mem_range, mem_requests]
    constructor
    · rintro ⟨q, -, h1, h2, -⟩; exact ⟨h1, h2⟩
    · rintro ⟨h1, h2⟩
      have : HasOwner n owner c := h2
      unfold HasOwner at this
      exact ⟨(owner c).toNat, by omega, h1, h2, by omega⟩

theorem gather_ok {T : Type} {I : Serial T} (d : CellBuffer) {n : Nat} {owner : Int → Int}
    {data : Nat → List (Int × List T)} (h : DataOk I n data) {w : Nat → MHCRank}
    {req : Nat → Int → Prop} (ok : MHCOk I n owner data w req) (cells : Nat → List Int)
    (hfit : ∀ r, r < n → ∀ c ∈ cells r, Fits32 c) :
    ∃ w', mhcGather d n owner w cells = some w' ∧
      MHCOk I n owner data w' (fun r c => req r c ∨ c ∈ cells r) := by
  have hset := fun r => cellsSet_spec (w r) (cells r)
  unfold mhcGather
  by_cases hz : ∀ r, r < n → (cellsSet (w r) (cells r)).length = 0
  · rw [if_pos hz]
    refine ⟨w, rfl, ok.have_, ok.not, ok.some_, ok.own, ?_, ?_⟩
    · rintro r c hr (hq | hq)
      · exact ok.asked r c hr hq
      · left
        by_contra hn
        have := ((hset r).1 c).mpr ⟨hq, hn⟩
        rw [List.length_eq_zero_iff.mp (hz r hr)] at this
        cases this
    · intro r c hr hg
      rcases ok.only r c hr hg with h | h
      · exact Or.inl (Or.inl h)
      · exact Or.inr h
  · rw [if_neg hz]
    let set : Nat → List Int := fun r => cellsSet (w r) (cells r)
    let bytes : Int → List Byte := fun c => objsBytes I (contributed n data c)
    let msgs : Nat → List CellBuffer := fun r =>
      ((List.range n).flatMap fun (q : Nat) => requests n owner (set r) q).map fun c => ⟨c, bytes c⟩
    let start : Nat → MHCRank := fun r =>
      touchCells { w r with
        noOwner := ((set r).filter fun cell => ¬ (-1 < owner cell ∧ owner cell < n)).foldl
          setInsert (w r).noOwner }
        ((List.range n).flatMap fun p => requests n owner (cellsSet (w p) (cells p)) r)
    have hsetfit : ∀ r, r < n → ∀ c ∈ set r, Fits32 c := fun r hr c hc =>
      hfit r hr c (((hset r).1 c).mp hc).1
    have hrank : ∀ r, r < n → (fun r : Nat =>
        let set := cellsSet (w r) (cells r)
        let noOwner := (set.filter fun cell => ¬ (-1 < owner cell ∧ owner cell < n)).foldl setInsert
          (w r).noOwner
        let s := touchCells { w r with noOwner := noOwner }
          ((List.range n).flatMap fun p => requests n owner (cellsSet (w p) (cells p)) r)
        (collectM (fun (q : Nat) =>
          if (requests n owner set q).length = 0 then some []
          else (gatherPack (w q) (requests n owner set q)).map fun b => [b]) (List.range n)).bind
          fun incoming => genericUnpack d incoming s) r =
        some ((msgs r).foldl unpackCell (start r)) := by
      intro r hr
      simp only
      have hpack : ∀ q : Nat, q < n → gatherPack (w q) (requests n owner (set r) q) =
          some (objsBytes cellBufferSerial ((requests n owner (set r) q).map
            fun c => ⟨c, bytes c⟩)) := by
        intro q hq
        unfold gatherPack
        rw [collectM_eq_flatMap (g := fun c => objsBytes cellBufferSerial [⟨c, bytes c⟩])]
        · congr 1
          unfold objsBytes
          rw [List.flatMap_map]
          congr 1; funext c; simp
        · intro c hc
          obtain ⟨h1, h2, h3⟩ := mem_requests.mp hc
          have hf := hsetfit r hr c h1
          rw [toInt32_eq hf, ok.have_ q c hq hf h2 (Or.inr h3)]
          exact serialCreate_eq _ _ (fun x hx => by
            rw [List.mem_singleton] at hx; subst hx; exact h.cell_good c hf)
      rw [collectM_eq_flatMap (g := fun (q : Nat) => (([(requests n owner (set r) q).map
        fun c => (⟨c, bytes c⟩ : CellBuffer)].filter (fun l => !l.isEmpty)).map
          (objsBytes cellBufferSerial)))]
      · simp only [Option.bind_some]
        rw [← List.map_flatMap, genericUnpack_eq]
        · congr 2
          simp only [msgs]
          induction List.range n with
          | nil => rfl
          | cons q l ih =>
            simp only [List.flatMap_cons, List.flatten_append, ih, List.map_append]
            congr 1
            cases hc : requests n owner (set r) q with
            | nil => simp
            | cons a b => simp
        · intro ms hms m hm
          simp only [List.mem_flatMap, List.mem_range, List.mem_filter, List.mem_singleton] at hms
          obtain ⟨q, hq, rfl, -⟩ := hms
          obtain ⟨c, hc, rfl⟩ := List.mem_map.mp hm
          exact h.cell_good c (hsetfit r hr c (mem_requests.mp hc).1)
      · intro q hq
        have hq' := List.mem_range.mp hq
        show (if (requests n owner (set r) q).length = 0 then some []
          else (gatherPack (w q) (requests n owner (set r) q)).map fun b => [b]) = _
        rw [hpack q hq']
        cases hc : requests n owner (set r) q with
        | nil => simp
        | cons a b => simp
    obtain ⟨w', hw', hwr⟩ := allRanks_some hrank
    refine ⟨w', hw', ?_⟩
    have hmem : ∀ r c, (∃ m ∈ msgs r, m.cell = c) ↔ c ∈ set r ∧ HasOwner n owner c := by
      intro r c
      rw [← (requests_all (n := n) (owner := owner) (hset r).2).2 c]
      simp only [msgs, List.mem_map]
      constructor
      · rintro ⟨m, ⟨c', hc', rfl⟩, rfl⟩; exact hc'
      · intro hc; exact ⟨_, ⟨c, hc, rfl⟩, rfl⟩
    have hbytes : ∀ r c, cellBytes (msgs r) c = if c ∈ set r ∧ HasOwner n owner c then bytes c else [] := by
      intro r c
      simp only [msgs]
      rw [cellBytes_map _ _ (requests_all (n := n) (owner := owner) (hset r).2).1]
      by_cases hc : c ∈ set r ∧ HasOwner n owner c
      · rw [if_pos hc, if_pos ((requests_all (n := n) (owner := owner) (hset r).2).2 c |>.mpr hc)]
      · rw [if_neg hc, if_neg (mt ((requests_all (n := n) (owner := owner) (hset r).2).2 c).mp hc)]
    have hstart := fun r => touchCells_spec
      ((List.range n).flatMap fun p => requests n owner (cellsSet (w p) (cells p)) (r : Nat))
      { w r with
        noOwner := ((set r).filter fun cell => ¬ (-1 < owner cell ∧ owner cell < n)).foldl
          setInsert (w r).noOwner }
    have facts := fun r (hr : r < n) => foldl_unpack (msgs r) (start r) (fun m hm => by
      have := (hmem r m.cell).mp ⟨m, hm, rfl⟩
      exact hsetfit r hr _ this.1)
    have hbuf : ∀ r c, r < n → ((w' r).buffers c).getD [] =
        ((w r).buffers c).getD [] ++ if c ∈ set r ∧ HasOwner n owner c then bytes c else [] := by
      intro r c hr
      rw [hwr r hr, (facts r hr).1 c, hbytes r c]
      congr 1
      exact (hstart r).1 c
    have hgath : ∀ r c, r < n → (c ∈ (w' r).gathered ↔
        c ∈ (w r).gathered ∨ (c ∈ set r ∧ HasOwner n owner c)) := by
      intro r c hr
      rw [hwr r hr, (facts r hr).2.2.1 c, hmem r c]
      have : (start r).gathered = (w r).gathered := (hstart r).2.2.1
      rw [this]
    have hno : ∀ r c, r < n → (c ∈ (w' r).noOwner ↔
        (c ∈ set r ∧ ¬ HasOwner n owner c) ∨ c ∈ (w r).noOwner) := by
      intro r c hr
      rw [hwr r hr, (facts r hr).2.2.2]
      have : (start r).noOwner = _ := (hstart r).2.2.2
      rw [this]
      simp only [mem_foldl_setInsert, List.mem_filter, decide_eq_true_eq]
      have : (-1 < owner c ∧ owner c < n) ↔ HasOwner n owner c := by unfold HasOwner; omega
      rw [this]
    constructor
    · intro r c hr hc ho hor
      rw [hbuf r c hr]
      by_cases hg : c ∈ (w r).gathered
      · have hns : c ∉ set r := fun hs => (((hset r).1 c).mp hs).2 hg
        rw [if_neg (fun x => hns x.1), List.append_nil]
        exact ok.have_ r c hr hc ho (Or.inl hg)
      · rcases hor with hor | hor
        · rcases (hgath r c hr).mp hor with h1 | h1
          · exact absurd h1 hg
          · rw [if_pos h1, ok.not r c hr hc ho hg, List.nil_append]
        · have e1 := ok.have_ r c hr hc ho (Or.inr hor)
          have e2 := ok.not r c hr hc ho hg
          have e3 : bytes c = [] := e1.symm.trans e2
          rw [e1]
          by_cases hs : c ∈ set r ∧ HasOwner n owner c
          · rw [if_pos hs, e3, List.append_nil]
          · rw [if_neg hs, List.append_nil]
    · intro r c hr hc ho hg
      have hg' := mt (hgath r c hr).mpr hg
      have h1 : c ∉ (w r).gathered := fun x => hg' (Or.inl x)
      have h2 : ¬ (c ∈ set r ∧ HasOwner n owner c) := fun x => hg' (Or.inr x)
      rw [hbuf r c hr, if_neg h2, List.append_nil]
      exact ok.not r c hr hc ho h1
    · intro r c hr hc hg
      rcases (hgath r c hr).mp hg with h1 | h1
      · obtain ⟨h2, h3⟩ := ok.some_ r c hr hc h1
        refine ⟨?_, h3⟩
        rw [hwr r hr]
        exact (facts r hr).2.1 c (Or.inl ((hstart r).2.1 c h2))
      · refine ⟨?_, h1.2⟩
        rw [hwr r hr]
        exact (facts r hr).2.1 c (Or.inr ((hmem r c).mpr h1))
    · intro r c hr hc
      rcases (hno r c hr).mp hc with h1 | h1
      · exact h1.2
      · exact ok.own r c hr h1
    · rintro r c hr (hq | hq)
      · rcases ok.asked r c hr hq with h1 | h1
        · exact Or.inl ((hgath r c hr).mpr (Or.inl h1))
        · exact Or.inr ((hno r c hr).mpr (Or.inr h1))
      · by_cases hg : c ∈ (w r).gathered
        · exact Or.inl ((hgath r c hr).mpr (Or.inl hg))
        · have hs := ((hset r).1 c).mpr ⟨hq, hg⟩
          by_cases ho : HasOwner n owner c
          · exact Or.inl ((hgath r c hr).mpr (Or.inr ⟨hs, ho⟩))
          · exact Or.inr ((hno r c hr).mpr (Or.inl ⟨hs, ho⟩))
    · intro r c hr hg
      have old : (c ∈ (w r).gathered ∨ c ∈ (w r).noOwner) ∨ c ∈ set r := by
        rcases hg with hg | hg
        · rcases (hgath r c hr).mp hg with h1 | h1
          · exact Or.inl (Or.inl h1)
          · exact Or.inr h1.1
        · rcases (hno r c hr).mp hg with h1 | h1
          · exact Or.inr h1.1
          · exact Or.inl (Or.inr h1)
      rcases old with h1 | h1
      · rcases ok.only r c hr h1 with h2 | h2
        · exact Or.inl (Or.inl h2)
        · exact Or.inr h2
      · exact Or.inl (Or.inr (((hset r).1 c).mp h1).1)

theorem gathers_ok {T : Type} {I : Serial T} (d : CellBuffer) {n : Nat} {owner : Int → Int}
    {data : Nat → List (Int × List T)} (h : DataOk I n data) (hist : List (Nat → List Int)) :
    ∀ {w : Nat → MHCRank} {req : Nat → Int → Prop}, MHCOk I n owner data w req →
    (∀ cs ∈ hist, ∀ r, r < n → ∀ c ∈ cs r, Fits32 c) →
    ∃ w', gathers d n owner w hist = some w' ∧
      MHCOk I n owner data w' (fun r c => req r c ∨ ∃ cs ∈ hist, c ∈ cs r) := by
  induction hist with
  | nil =>
    intro w req ok _
    refine ⟨w, rfl, ok.have_, ok.not, ok.some_, ok.own, ?_, ?_⟩
    · rintro r c hr (hq | ⟨cs, hcs, -⟩)
      · exact ok.asked r c hr hq
      · cases hcs
    · intro r c hr hg
      rcases ok.only r c hr hg with h | h
      · exact Or.inl (Or.inl h)
      · exact Or.inr h
  | cons cs hist ih =>
    intro w req ok hfit
    obtain ⟨w1, e1, ok1⟩ := gather_ok d h ok cs (hfit cs (by simp))
    obtain ⟨w2, e2, ok2⟩ := ih ok1 (fun x hx => hfit x (by simp [hx]))
    refine ⟨w2, by simp [gathers, e1, e2], ok2.have_, ok2.not, ok2.some_, ok2.own, ?_, ?_⟩
    · rintro r c hr hq
      apply ok2.asked r c hr
      rcases hq with hq | ⟨x, hx, hxc⟩
      · exact Or.inl (Or.inl hq)
      · rcases List.mem_cons.mp hx with e | hx
        · subst e; exact Or.inl (Or.inr hxc)
        · exact Or.inr ⟨x, hx, hxc⟩
    · intro r c hr hg
      rcases ok2.only r c hr hg with ((h1 | h1) | ⟨x, hx, hxc⟩) | h1
      · exact Or.inl (Or.inl h1)
      · exact Or.inl (Or.inr ⟨cs, by simp, h1⟩)
      · exact Or.inl (Or.inr ⟨x, by simp [hx], hxc⟩)
      · exact Or.inr h1

end NP
