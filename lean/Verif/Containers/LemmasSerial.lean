import Verif.Containers.SpecSerial
import Verif.Common.KernelLemmas

/-!
# Lemmas: serialised containers
-/

set_option autoImplicit false

namespace NP

open Spec

theorem encNat_length (k n : Nat) : (encNat k n).length = k := by
  induction k generalizing n with
  | zero => rfl
  | succ k ih => simp [encNat, ih]

theorem decNat_encNat (k n : Nat) (h : n < 256 ^ k) : decNat (encNat k n) = n := by
  induction k generalizing n with
  | zero => simp at h; subst h; rfl
  | succ k ih =>
    simp only [encNat, decNat]
    rw [ih (n / 256) (by rw [Nat.pow_succ] at h; omega)]
    omega

theorem encInt_length (x : Int) : (encInt x).length = 8 := encNat_length _ _

theorem decInt_encInt (x : Int) (h : -2 ^ 63 ≤ x ∧ x < 2 ^ 63) : decInt (encInt x) = x := by
  unfold decInt encInt
  rw [decNat_encNat _ _ (by
    have : (256 : Nat) ^ 8 = 2 ^ 64 := by decide
    rw [this]; omega)]
  simp only
  by_cases hx : 0 ≤ x
  · rw [if_pos (by omega)]; omega
  · rw [if_neg (by omega)]; omega

theorem decSize (n : Nat) (h : n < sizeTMax) : decNat (encNat sizeofSize n) = n :=
  decNat_encNat _ _ (by
    have : (256 : Nat) ^ sizeofSize = 2 ^ 64 := by decide
    rw [this]; unfold sizeTMax at h; omega)

/-- The bytes of one object. -/
def objBytes {T : Type} (I : Serial T) (t : T) : List Byte :=
  encNat sizeofSize (I.numBytes t) ++ (I.serialise t (I.numBytes t)).getD []

/-- The bytes of some objects. -/
def objsBytes {T : Type} (I : Serial T) (ts : List T) : List Byte := ts.flatMap (objBytes I)

theorem objBytes_length {T : Type} {I : Serial T} {t : T} (h : Serial.Good I t) :
    (objBytes I t).length = sizeofSize + I.numBytes t := by
  obtain ⟨-, bytes, e, hl, -⟩ := h
  simp [objBytes, e, hl, encNat_length]

theorem serialSizes_fst {T : Type} (I : Serial T) (ts : List T) :
    (serialSizes I ts).1 = ts.map I.numBytes := by
  induction ts with
  | nil => rfl
  | cons t ts ih => simp [serialSizes, ih]

theorem serialSizes_snd {T : Type} (I : Serial T) (ts : List T) (h : ∀ t ∈ ts, Serial.Good I t) :
    (serialSizes I ts).2 = (objsBytes I ts).length := by
  induction ts with
  | nil => rfl
  | cons t ts ih =>
    have h1 := ih (fun t ht => h t (by simp [ht]))
    have h2 := objBytes_length (h t (by simp))
    simp only [serialSizes, objsBytes, List.flatMap_cons, List.length_append] at h1 ⊢
    omega

theorem writeBytes_front (done src rest : List Byte) (n : Nat) :
    writeBytes (done ++ List.replicate (src.length + n) 0 ++ rest) done.length src =
      some (done ++ src ++ List.replicate n 0 ++ rest) := by
  unfold writeBytes
  rw [if_pos (by simp; omega)]
  congr 1
  simp only [List.append_assoc]
  rw [List.take_left, ← List.drop_drop, List.drop_left,
    List.drop_append_of_le_length (by simp), List.drop_replicate, Nat.add_sub_cancel_left]

theorem serialCreate_eq {T : Type} (I : Serial T) (ts : List T) (h : ∀ t ∈ ts, Serial.Good I t) :
    serialCreate I ts = some (objsBytes I ts) := by
  unfold serialCreate
  simp only [serialSizes_snd I ts h, serialSizes_fst]
  have key := forLoop_invariant (P := fun i (s : List Byte × Nat) =>
      s.2 = (objsBytes I (ts.take i)).length ∧
      s.1 = objsBytes I (ts.take i) ++ List.replicate (objsBytes I (ts.drop i)).length 0)
      (step := fun ix s => serialWrite I ts (ts.map I.numBytes) ix s) (a := 0) (b := ts.length)
      (s := (List.replicate (objsBytes I ts).length 0, 0)) (Nat.zero_le _) ?_ ?_
  · obtain ⟨⟨buf, pos⟩, e, h1, h2⟩ := key
    simp only [List.take_length, List.drop_length] at h1 h2
    rw [e]
    simp only [Option.bind_some]
    rw [if_pos h1, h2]
    simp [objsBytes]
  · rintro i ⟨buf, pos⟩ _ hi ⟨h1, h2⟩
    simp only at h1 h2
    obtain ⟨hsz, bytes, e, hl, -⟩ := h ts[i] (List.getElem_mem hi)
    have hsplit : objsBytes I (ts.drop i) = objBytes I ts[i] ++ objsBytes I (ts.drop (i + 1)) := by
      unfold objsBytes; rw [List.drop_eq_getElem_cons hi, List.flatMap_cons]
    have hob : objBytes I ts[i] = encNat sizeofSize (I.numBytes ts[i]) ++ bytes := by
      simp [objBytes, e]
    have htake : objsBytes I (ts.take (i + 1)) = objsBytes I (ts.take i) ++ objBytes I ts[i] := by
      unfold objsBytes; rw [List.take_succ_eq_append_getElem hi, List.flatMap_append]; simp
    have w1 := writeBytes_front (objsBytes I (ts.take i)) (encNat sizeofSize (I.numBytes ts[i]))
      [] (bytes.length + (objsBytes I (ts.drop (i + 1))).length)
    have w2 := writeBytes_front (objsBytes I (ts.take i) ++ encNat sizeofSize (I.numBytes ts[i]))
      bytes [] (objsBytes I (ts.drop (i + 1))).length
    simp only [List.append_nil] at w1 w2
    refine ⟨(objsBytes I (ts.take (i + 1)) ++
      List.replicate (objsBytes I (ts.drop (i + 1))).length 0, pos + sizeofSize + I.numBytes ts[i]),
      ?_, ?_, rfl⟩
    · have hb : buf = objsBytes I (ts.take i) ++ List.replicate
          ((encNat sizeofSize (I.numBytes ts[i])).length +
            (bytes.length + (objsBytes I (ts.drop (i + 1))).length)) 0 := by
        rw [h2, hsplit, hob]; simp [Nat.add_assoc]
      have hp2 : (objsBytes I (ts.take i) ++ encNat sizeofSize (I.numBytes ts[i])).length =
          pos + sizeofSize := by simp [h1, encNat_length]
      unfold serialWrite
      simp only [List.getElem?_map, List.getElem?_eq_getElem hi, Option.map_some, Option.bind_some]
      rw [hb, h1, w1]
      simp only [Option.bind_some, e]
      rw [hp2, h1] at w2
      rw [w2, htake, hob]
      simp
    · simp only
      rw [htake, List.length_append, objBytes_length (h ts[i] (List.getElem_mem hi)), h1]
      omega
  · simp [objsBytes]

theorem readBytes_mid (pre mid post : List Byte) :
    readBytes (pre ++ (mid ++ post)) pre.length mid.length = some mid := by
  unfold readBytes
  rw [if_pos (by simp)]
  simp

/-- The loops of `get` from the position after `pre`. -/
theorem serialLoops {T : Type} (I : Serial T) (ts : List T) (h : ∀ t ∈ ts, Serial.Good I t) :
    ∀ (pre : List Byte) (fuel num : Nat), (objsBytes I ts).length < fuel →
      serialCount (pre ++ objsBytes I ts) fuel pre.length num = some (num + ts.length) ∧
      serialRead I (pre ++ objsBytes I ts) fuel pre.length = some ts := by
  induction ts with
  | nil =>
    intro pre fuel num hf
    obtain ⟨f, rfl⟩ : ∃ f, fuel = f + 1 := ⟨fuel - 1, by omega⟩
    simp [serialCount, serialRead, objsBytes]
  | cons t ts ih =>
    intro pre fuel num hf
    obtain ⟨f, rfl⟩ : ∃ f, fuel = f + 1 := ⟨fuel - 1, by omega⟩
    obtain ⟨hsz, bytes, e, hl, hd⟩ := h t (by simp)
    have hob : objBytes I t = encNat sizeofSize (I.numBytes t) ++ bytes := by
      simp [objBytes, e]
    have hsplit : objsBytes I (t :: ts) = objBytes I t ++ objsBytes I ts := by simp [objsBytes]
    have hlen := objBytes_length (h t (by simp))
    obtain ⟨i1, i2⟩ := ih (fun t ht => h t (by simp [ht])) (pre ++ objBytes I t) f (num + 1)
      (by rw [hsplit, List.length_append, hlen] at hf; unfold sizeofSize at hf; omega)
    have hlt : pre.length < (pre ++ objsBytes I (t :: ts)).length := by
      rw [List.length_append, hsplit, List.length_append, hlen]; unfold sizeofSize; omega
    have r1 : readBytes (pre ++ objsBytes I (t :: ts)) pre.length sizeofSize =
        some (encNat sizeofSize (I.numBytes t)) := by
      have := readBytes_mid pre (encNat sizeofSize (I.numBytes t)) (bytes ++ objsBytes I ts)
      rw [encNat_length] at this
      rw [hsplit, hob, List.append_assoc]; exact this
    have r2 : readBytes (pre ++ objsBytes I (t :: ts)) (pre.length + sizeofSize) (I.numBytes t) =
        some bytes := by
      have := readBytes_mid (pre ++ encNat sizeofSize (I.numBytes t)) bytes (objsBytes I ts)
      rw [hl] at this
      rw [List.length_append, encNat_length] at this
      rw [hsplit, hob, List.append_assoc, ← List.append_assoc pre]; exact this
    have happ : pre ++ objBytes I t ++ objsBytes I ts = pre ++ objsBytes I (t :: ts) := by
      rw [hsplit, List.append_assoc]
    rw [happ, List.length_append, hlen] at i1 i2
    constructor
    · simp only [serialCount]
      rw [if_pos hlt, r1]
      simp only [Option.bind_some, decSize _ hsz, if_pos hsz]
      rw [show pre.length + I.numBytes t + sizeofSize = pre.length + (sizeofSize + I.numBytes t) by omega,
        i1]
      simp only [List.length_cons, Option.some.injEq]; omega
    · simp only [serialRead]
      rw [if_pos hlt, r1]
      simp only [Option.bind_some, decSize _ hsz, r2]
      rw [← hl, hd]
      simp only [Option.bind_some]
      rw [hl, show pre.length + sizeofSize + I.numBytes t = pre.length + (sizeofSize + I.numBytes t) by omega,
        i2]
      rfl

theorem serialGet_eq {T : Type} (I : Serial T) (d : T) (ts : List T)
    (h : ∀ t ∈ ts, Serial.Good I t) : serialGet I d (objsBytes I ts) = some ts := by
  unfold serialGet
  by_cases hz : (objsBytes I ts).length = 0
  · rw [if_pos hz]
    cases ts with
    | nil => rfl
    | cons t ts =>
      have hlen := objBytes_length (h t (by simp))
      simp [objsBytes, hlen, sizeofSize] at hz
  · rw [if_neg hz]
    obtain ⟨h1, h2⟩ := serialLoops I ts h [] ((objsBytes I ts).length + 1) 0 (by omega)
    simp only [List.nil_append, List.length_nil] at h1 h2
    rw [h1, h2]
    simp

theorem SerialExpr.build_eq {T : Type} (I : Serial T) (e : SerialExpr T)
    (h : ∀ t ∈ e.objects, Serial.Good I t) : e.build I = some (objsBytes I e.objects) := by
  induction e with
  | empty => rfl
  | ofList ts => exact serialCreate_eq I ts h
  | append a b iha ihb =>
    have h1 := iha (fun t ht => h t (by simp [SerialExpr.objects, ht]))
    have h2 := ihb (fun t ht => h t (by simp [SerialExpr.objects, ht]))
    simp [SerialExpr.build, h1, h2, SerialExpr.objects, objsBytes, serialAppend]

theorem cellBuffer_good (m : CellBuffer) (hc : -2 ^ 63 ≤ m.cell ∧ m.cell < 2 ^ 63)
    (hs : m.buffer.length + 16 < sizeTMax) : Serial.Good cellBufferSerial m := by
  have hser : CellBuffer.serialise m (8 + sizeofSize + m.buffer.length) =
      some (encInt m.cell ++ encNat sizeofSize m.buffer.length ++ m.buffer) := by
    unfold CellBuffer.serialise; simp
  have hlen : (encInt m.cell ++ encNat sizeofSize m.buffer.length ++ m.buffer).length =
      8 + sizeofSize + m.buffer.length := by
    simp only [List.length_append, encInt_length, encNat_length]
  have hnb : cellBufferSerial.numBytes m = 8 + sizeofSize + m.buffer.length := rfl
  refine ⟨?_, _, hser, hlen, ?_⟩
  · have : sizeofSize = 8 := rfl
    omega
  · have hdes : cellBufferSerial.deserialise = CellBuffer.deserialise := rfl
    rw [hdes]
    have r1 : readBytes (encInt m.cell ++ encNat sizeofSize m.buffer.length ++ m.buffer) 0 8 =
        some (encInt m.cell) := by
      have := readBytes_mid [] (encInt m.cell) (encNat sizeofSize m.buffer.length ++ m.buffer)
      rw [encInt_length] at this
      rw [List.append_assoc]; exact this
    have r2 : readBytes (encInt m.cell ++ encNat sizeofSize m.buffer.length ++ m.buffer) 8
        sizeofSize = some (encNat sizeofSize m.buffer.length) := by
      have := readBytes_mid (encInt m.cell) (encNat sizeofSize m.buffer.length) m.buffer
      rw [encInt_length, encNat_length] at this
      rw [List.append_assoc]; exact this
    have r3 : readBytes (encInt m.cell ++ encNat sizeofSize m.buffer.length ++ m.buffer)
        (8 + sizeofSize) m.buffer.length = some m.buffer := by
      have := readBytes_mid (encInt m.cell ++ encNat sizeofSize m.buffer.length) m.buffer []
      rw [List.length_append, encInt_length, encNat_length] at this
      rw [List.append_nil] at this; exact this
    have hm : m.buffer.length < sizeTMax := by omega
    unfold CellBuffer.deserialise
    rw [r1, r2]
    simp only [Option.bind_some, decSize _ hm, if_pos hm, r3, hlen, if_true, decInt_encInt _ hc]

end NP
