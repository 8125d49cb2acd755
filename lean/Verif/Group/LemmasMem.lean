import Verif.Group.Spec
import Verif.Group.ModelAdd
import Verif.Common.Atomic
import Verif.Loop.LemmasIndex
import Mathlib.Data.List.Forall2

/-! Lemmas about the memory of a group, row counts and the per cell counts. -/

set_option autoImplicit false

namespace NP

open Spec

theorem mst_eq_some {m : Mem} {k : Key} {v : Int} (h : (m k).isSome = true) :
    mst m k v = some (fun k' => if k' = k then some v else m k') := by simp [mst, h]

/-- Each item stores (at most) one value; it may read values that no item stores to. -/
theorem runItems_mem {ι : Type} {step : ι → Mem → Option Mem} {items : List ι} {m : Mem}
    (dst : ι → Option Key) (v : ι → Int)
    (hstep : ∀ i ∈ items, ∀ m', (∀ k, (∀ j ∈ items, dst j ≠ some k) → m' k = m k) →
      step i m' = match dst i with | none => some m' | some d => mst m' d (v i))
    (hagree : ∀ i ∈ items, ∀ j ∈ items, ∀ d, dst i = some d → dst j = some d → v i = v j)
    (halloc : ∀ i ∈ items, ∀ d, dst i = some d → (m d).isSome = true) :
    ∃ m', runItems step items m = some m' ∧
      (∀ i ∈ items, ∀ d, dst i = some d → m' d = some (v i)) ∧
      (∀ k, (∀ i ∈ items, dst i ≠ some k) → m' k = m k) := by
  obtain ⟨m', h1, h2, h3, h4⟩ := runItems_invariant (step := step) (items := items) (s := m)
    (P := fun done m' => (∀ k, (m' k).isSome = (m k).isSome) ∧
      (∀ i ∈ done, ∀ d, dst i = some d → m' d = some (v i)) ∧
      (∀ k, (∀ i ∈ done, dst i ≠ some k) → m' k = m k))
    (by
      intro pre i post m' he ⟨hs, hd, hn⟩
      have hi : i ∈ items := by rw [he]; simp
      have hpre : ∀ j ∈ pre, j ∈ items := by intro j hj; rw [he]; simp [hj]
      rw [hstep i hi m' (fun k hk => hn k (fun j hj => hk j (hpre j hj)))]
      cases hdi : dst i with
      | none =>
        refine ⟨m', rfl, hs, ?_, ?_⟩
        · intro j hj d hjd
          rcases List.mem_append.1 hj with h | h
          · exact hd j h d hjd
          · rw [List.mem_singleton.1 h, hdi] at hjd; simp at hjd
        · intro k hk
          exact hn k (fun j hj => hk j (List.mem_append_left _ hj))
      | some d =>
        have ha := halloc i hi d hdi
        refine ⟨_, mst_eq_some (by rw [hs]; exact ha), ?_, ?_, ?_⟩
        · intro k
          by_cases hk : k = d
          · subst hk; simp [ha]
          · simp only [hk, if_false]; exact hs k
        · intro j hj d' hjd
          by_cases hdd : d' = d
          · subst hdd
            have : j ∈ items := by
              rcases List.mem_append.1 hj with h | h
              · exact hpre j h
              · rw [List.mem_singleton.1 h]; exact hi
            simp [hagree i hi j this d' hdi hjd]
          · simp only [hdd, if_false]
            rcases List.mem_append.1 hj with h | h
            · exact hd j h d' hjd
            · rw [List.mem_singleton.1 h, hdi] at hjd
              simp only [Option.some.injEq] at hjd
              exact absurd hjd.symm hdd
        · intro k hk
          have hne : k ≠ d := by
            intro h; subst h
            exact hk i (by simp) hdi
          simp only [hne, if_false]
          exact hn k (fun j hj => hk j (List.mem_append_left _ hj)))
    ⟨fun _ => rfl, by simp, by simp⟩
  exact ⟨m', h1, h3, h4⟩

/-! ## Rows -/

theorem setNrow_spec {e : Env} {ncell c req : Nat} {m : Mem} {d : Dat} (h : DatMem ncell m d)
    (hc : c < ncell) :
    ∃ m' d', setNrow e c req (m, d) = some (m', d') ∧ DatMem ncell m' d' ∧
      d'.nrow = d.nrow.set c req ∧ d'.sym = d.sym ∧ d'.ncomp = d.ncomp ∧
      d'.hNpart = d.hNpart ∧ d'.dNpart = d.dNpart ∧
      (∀ k, ¬ (k.sym = d.sym ∧ k.cell = c) → m' k = m k) ∧
      (∀ k r, k.sym = d.sym → k.cell = c → k.comp < d.ncomp → d.nrow[c]? = some r → k.row < r →
        k.row < req → m' k = m k) := by
  obtain ⟨hl, hla, hle, hal⟩ := h
  have hr : d.nrow[c]? = some d.nrow[c] := List.getElem?_eq_getElem (by omega)
  have ha : d.alloc[c]? = some d.alloc[c] := List.getElem?_eq_getElem (by omega)
  have hra := hle c _ _ hr ha
  generalize d.nrow[c] = r at hr hra
  generalize d.alloc[c] = a at ha hra
  unfold setNrow
  simp only [rd, hr, ha, Option.bind_some]
  by_cases h1 : req = r
  · rw [if_pos h1]
    refine ⟨m, d, rfl, ⟨hl, hla, hle, hal⟩, ?_, rfl, rfl, rfl, rfl, fun _ _ => rfl,
      fun _ _ _ _ _ _ _ _ => rfl⟩
    subst h1
    apply List.ext_getElem?
    intro i
    by_cases hi : c = i
    · subst hi; rw [hr, List.getElem?_set_self (by omega)]
    · rw [List.getElem?_set_ne hi]
  rw [if_neg h1]
  have hset : ∀ (x : Nat), (d.nrow.set c x).length = ncell := by intro x; simp [hl]
  have hge : ∀ x i y, (d.nrow.set c x)[i]? = some y → (i = c ∧ y = x) ∨ (i ≠ c ∧ d.nrow[i]? = some y) := by
    intro x i y hy
    by_cases hi : c = i
    · subst hi
      rw [List.getElem?_set_self (by omega)] at hy
      exact Or.inl ⟨rfl, by simpa using hy.symm⟩
    · rw [List.getElem?_set_ne hi] at hy
      exact Or.inr ⟨fun h => hi h.symm, hy⟩
  by_cases h2 : req < r
  · rw [if_pos h2]
    refine ⟨m, _, rfl, ⟨hset _, hla, ?_, hal⟩, rfl, rfl, rfl, rfl, rfl, fun _ _ => rfl,
      fun _ _ _ _ _ _ _ _ => rfl⟩
    intro i x y hx hy
    rcases hge _ _ _ hx with ⟨rfl, rfl⟩ | ⟨_, hx⟩
    · rw [ha] at hy; simp only [Option.some.injEq] at hy; omega
    · exact hle i x y hx hy
  rw [if_neg h2]
  by_cases h3 : req > a
  · rw [if_pos h3]
    refine ⟨_, _, rfl, ⟨hset _, by simp [hla], ?_, ?_⟩, rfl, rfl, rfl, rfl, rfl, ?_, ?_⟩
    · intro i x y hx hy
      simp only at hx hy
      rcases hge _ _ _ hx with ⟨rfl, rfl⟩ | ⟨hne, hx⟩
      · rw [List.getElem?_set_self (by omega)] at hy
        simp only [Option.some.injEq] at hy; omega
      · rw [List.getElem?_set_ne (fun h => hne h.symm)] at hy
        exact hle i x y hx hy
    · intro i y j k hy hj hk
      simp only at hy hj ⊢
      by_cases hi : c = i
      · subst hi
        rw [List.getElem?_set_self (by omega)] at hy
        simp only [Option.some.injEq] at hy
        simp only [reallocMem, and_self, if_true]
        rw [if_pos ⟨hj, by omega⟩]
        by_cases hkk : k < if a > 0 then r else 0
        · rw [if_pos hkk]
          by_cases ha0 : a > 0
          · rw [if_pos ha0] at hkk
            exact hal c a j k ha hj (by omega)
          · rw [if_neg ha0] at hkk; omega
        · rw [if_neg hkk]; rfl
      · rw [List.getElem?_set_ne hi] at hy
        simp only [reallocMem]
        rw [if_neg (by rintro ⟨_, h⟩; exact hi h.symm)]
        exact hal i y j k hy hj hk
    · intro k hk
      simp only [reallocMem]
      rw [if_neg hk]
    · intro k x hs hcell hcomp hx hrow hreq
      simp only [Option.some.injEq] at hx
      simp only [reallocMem]
      rw [if_pos ⟨hs, hcell⟩, if_pos ⟨hcomp, by omega⟩, if_pos ?_]
      by_cases ha0 : a > 0
      · rw [if_pos ha0]; omega
      · omega
  · rw [if_neg h3]
    refine ⟨m, _, rfl, ⟨hset _, hla, ?_, hal⟩, rfl, rfl, rfl, rfl, rfl, fun _ _ => rfl,
      fun _ _ _ _ _ _ _ _ => rfl⟩
    intro i x y hx hy
    rcases hge _ _ _ hx with ⟨rfl, rfl⟩ | ⟨_, hx⟩
    · rw [ha] at hy; simp only [Option.some.injEq] at hy; omega
    · exact hle i x y hx hy

/-- The parts of a dat that `realloc` leaves alone. -/
structure SameDat (d d' : Dat) : Prop where
  sym : d'.sym = d.sym
  ncomp : d'.ncomp = d.ncomp

theorem reallocDat_spec {e : Env} {ncell : Nat} {counts : List Nat} {m : Mem} {d : Dat}
    (h : DatMem ncell m d) (hc : counts.length = ncell) :
    ∃ m' d', reallocDat e ncell counts (m, d) = some (m', d') ∧ DatMem ncell m' d' ∧
      d'.nrow = counts ∧ d'.sym = d.sym ∧ d'.ncomp = d.ncomp ∧
      d'.hNpart = d.hNpart ∧ d'.dNpart = d.dNpart ∧
      (∀ k, k.sym ≠ d.sym → m' k = m k) ∧
      (∀ k r n, k.sym = d.sym → k.comp < d.ncomp → d.nrow[k.cell]? = some r → k.row < r →
        counts[k.cell]? = some n → k.row < n → m' k = m k) := by
  unfold reallocDat
  obtain ⟨⟨m', d'⟩, h1, h2, h3, h4, h5, h6, h7, h8, h9, h10⟩ := forLoop_invariant
    (a := 0) (b := ncell) (s := (m, d))
    (step := fun c s => (rd counts c).bind fun n => setNrow e c n s)
    (P := fun i s => DatMem ncell s.1 s.2 ∧ s.2.sym = d.sym ∧ s.2.ncomp = d.ncomp ∧
      s.2.hNpart = d.hNpart ∧ s.2.dNpart = d.dNpart ∧
      (∀ c, c < i → s.2.nrow[c]? = counts[c]?) ∧ (∀ c, i ≤ c → s.2.nrow[c]? = d.nrow[c]?) ∧
      (∀ k, k.sym ≠ d.sym → s.1 k = m k) ∧
      (∀ k r n, k.sym = d.sym → k.comp < d.ncomp → d.nrow[k.cell]? = some r → k.row < r →
        counts[k.cell]? = some n → k.row < n → s.1 k = m k))
    (Nat.zero_le _)
    (by
      rintro i ⟨m1, d1⟩ - hi ⟨g1, g2, g3, g4, g5, g6, g7, g8, g9⟩
      simp only at g1 g2 g3 g4 g5 g6 g7 g8 g9
      have hci : counts[i]? = some counts[i] := List.getElem?_eq_getElem (by omega)
      obtain ⟨m2, d2, k1, k2, k3, k4, k5, k6, k7, k8, k9⟩ := setNrow_spec (e := e)
        (req := counts[i]) g1 hi
      refine ⟨(m2, d2), by simp only [rd, hci, Option.bind_some]; exact k1, k2, ?_, ?_, ?_, ?_,
        ?_, ?_, ?_, ?_⟩
      · exact k4.trans g2
      · exact k5.trans g3
      · exact k6.trans g4
      · exact k7.trans g5
      · intro c hlt
        simp only
        rw [k3]
        by_cases hic : i = c
        · subst hic
          rw [List.getElem?_set_self (by rw [g1.nrow_len]; omega), hci]
        · rw [List.getElem?_set_ne hic]; exact g6 c (by omega)
      · intro c hge
        simp only
        rw [k3, List.getElem?_set_ne (by omega)]; exact g7 c (by omega)
      · intro k hk
        simp only
        rw [k8 k (by rw [g2]; rintro ⟨h, _⟩; exact hk h)]; exact g8 k hk
      · intro k r n hs hcomp hr hrow hn hlt
        simp only
        by_cases hcell : k.cell = i
        · rw [k9 k r (by rw [g2]; exact hs) hcell (by rw [g3]; exact hcomp) ?_ hrow ?_]
          · exact g9 k r n hs hcomp hr hrow hn hlt
          · rw [← hcell, g7 k.cell (by omega)]; exact hr
          · rw [hcell, hci] at hn
            simp only [Option.some.injEq] at hn; omega
        · rw [k8 k (by rintro ⟨_, h⟩; exact hcell h)]
          exact g9 k r n hs hcomp hr hrow hn hlt)
    ⟨h, rfl, rfl, rfl, rfl, by intro c hc; omega, fun _ _ => rfl, fun _ _ => rfl,
      fun _ _ _ _ _ _ _ _ _ => rfl⟩
  refine ⟨m', d', h1, h2, ?_, h3, h4, h5, h6, h9, h10⟩
  apply List.ext_getElem?
  intro c
  by_cases hlt : c < ncell
  · exact h7 c hlt
  · rw [List.getElem?_eq_none (by rw [h2.nrow_len]; omega), List.getElem?_eq_none (by omega)]

theorem Spec.DatMem.congr {ncell : Nat} {m m' : Mem} {d : Dat} (h : DatMem ncell m d)
    (hm : ∀ k, k.sym = d.sym → m' k = m k) : DatMem ncell m' d :=
  ⟨h.nrow_len, h.alloc_len, h.le, fun c a j k h1 h2 h3 => by
    rw [hm _ rfl]; exact h.alloc c a j k h1 h2 h3⟩

theorem Spec.DatMem.congr_isSome {ncell : Nat} {m m' : Mem} {d : Dat} (h : DatMem ncell m d)
    (hm : ∀ k, (m k).isSome = true → (m' k).isSome = true) : DatMem ncell m' d :=
  ⟨h.nrow_len, h.alloc_len, h.le, fun c a j k h1 h2 h3 => hm _ (h.alloc c a j k h1 h2 h3)⟩

/-- What `mapDats (reallocDat ..)` does to one dat. -/
structure Realloced (counts : List Nat) (d d' : Dat) : Prop where
  sym : d'.sym = d.sym
  ncomp : d'.ncomp = d.ncomp
  host : d'.hNpart = d.hNpart
  device : d'.dNpart = d.dNpart
  nrow : d'.nrow = counts

theorem mapDats_realloc {e : Env} {ncell : Nat} {counts : List Nat} {m : Mem} {dats : List Dat}
    (h : ∀ d ∈ dats, DatMem ncell m d) (hnd : (dats.map (·.sym)).Nodup)
    (hc : counts.length = ncell) :
    ∃ m' dats', mapDats (reallocDat e ncell counts) dats m = some (m', dats') ∧
      List.Forall₂ (Realloced counts) dats dats' ∧
      (∀ d ∈ dats', DatMem ncell m' d) ∧
      (∀ k, k.sym ∉ dats.map (·.sym) → m' k = m k) ∧
      (∀ d ∈ dats, ∀ k r n, k.sym = d.sym → k.comp < d.ncomp → d.nrow[k.cell]? = some r →
        k.row < r → counts[k.cell]? = some n → k.row < n → m' k = m k) := by
  induction dats generalizing m with
  | nil => exact ⟨m, [], rfl, .nil, by simp, by simp, by simp⟩
  | cons d ds ih =>
    rw [List.map_cons, List.nodup_cons] at hnd
    obtain ⟨m1, d1, a1, a2, a3, a4, a5, a6, a7, a8, a9⟩ := reallocDat_spec (e := e)
      (h d List.mem_cons_self) hc
    have hsym : ∀ d' ∈ ds, d'.sym ≠ d.sym := by
      intro d' hd' he
      exact hnd.1 (he ▸ List.mem_map_of_mem hd')
    obtain ⟨m2, ds2, b1, b2, b3, b4, b5⟩ := ih (m := m1)
      (fun d' hd' => (h d' (List.mem_cons_of_mem d hd')).congr
        (fun k hk => a8 k (by rw [hk]; exact hsym d' hd'))) hnd.2
    refine ⟨m2, d1 :: ds2, ?_, .cons ⟨a4, a5, a6, a7, a3⟩ b2, ?_, ?_, ?_⟩
    · simp only [mapDats, a1, Option.bind_some, b1]
    · intro d' hd'
      rcases List.mem_cons.1 hd' with rfl | hd'
      · refine a2.congr (fun k hk => b4 k ?_)
        rw [hk, a4]; exact hnd.1
      · exact b3 d' hd'
    · intro k hk
      rw [List.map_cons, List.mem_cons] at hk
      rw [b4 k (fun h => hk (Or.inr h)), a8 k (fun h => hk (Or.inl h))]
    · intro d' hd' k r n hs hcomp hr hrow hn hlt
      rcases List.mem_cons.1 hd' with rfl | hd'
      · rw [b4 k (by rw [hs]; exact hnd.1)]
        exact a9 k r n hs hcomp hr hrow hn hlt
      · rw [b5 d' hd' k r n hs hcomp hr hrow hn hlt]
        exact a8 k (by rw [hs]; exact hsym d' hd')

/-! ## Counts -/

theorem copyCounts_eq {ncell : Nat} {src dst : List Nat} (hs : src.length = ncell)
    (hd : dst.length = ncell) : copyCounts ncell src dst = some src := by
  unfold copyCounts
  obtain ⟨a, h1, h2, h3⟩ := forLoop_invariant (a := 0) (b := ncell) (s := dst)
    (step := fun c a => (rd src c).bind fun n => st a c n)
    (P := fun i a => a.length = ncell ∧ ∀ c, c < i → a[c]? = src[c]?)
    (Nat.zero_le _)
    (by
      rintro i a - hi ⟨g1, g2⟩
      have hci : src[i]? = some src[i] := List.getElem?_eq_getElem (by omega)
      refine ⟨a.set i src[i], by simp only [rd, hci, Option.bind_some]; exact st_eq_some (by omega),
        by simp [g1], ?_⟩
      intro c hc
      by_cases hic : i = c
      · subst hic; rw [List.getElem?_set_self (by omega), hci]
      · rw [List.getElem?_set_ne hic]; exact g2 c (by omega))
    ⟨hd, by intro c hc; omega⟩
  rw [h1]
  congr 1
  apply List.ext_getElem?
  intro c
  by_cases hlt : c < ncell
  · exact h3 c hlt
  · rw [List.getElem?_eq_none (by omega), List.getElem?_eq_none (by omega)]

theorem recomputeEs_eq {ncell : Nat} {npart es : List Nat} (hn : npart.length = ncell)
    (he : es.length = ncell) :
    ∃ es', recomputeEs ncell npart es = some (es', npart.sum) ∧ es'.length = ncell ∧
      ∀ c, c < ncell → es'[c]? = some ((npart.take c).sum) := by
  unfold recomputeEs
  obtain ⟨⟨a, t⟩, h1, h2, h3, h4⟩ := forLoop_invariant (a := 0) (b := ncell) (s := (es, 0))
    (step := fun c (s : List Nat × Nat) => (rd npart c).bind fun n =>
      (st s.1 c s.2).bind fun es => some (es, s.2 + n))
    (P := fun i s => s.1.length = ncell ∧ s.2 = (npart.take i).sum ∧
      ∀ c, c < i → s.1[c]? = some ((npart.take c).sum))
    (Nat.zero_le _)
    (by
      rintro i ⟨a, t⟩ - hi ⟨g1, g2, g3⟩
      simp only at g1 g2 g3
      have hci : npart[i]? = some npart[i] := List.getElem?_eq_getElem (by omega)
      refine ⟨(a.set i t, t + npart[i]), ?_, by simp [g1], ?_, ?_⟩
      · simp only [rd, hci, Option.bind_some]
        rw [st_eq_some (by omega)]; rfl
      · simp only
        rw [List.take_add_one, hci, List.sum_append, g2]; simp
      · intro c hc
        simp only
        by_cases hic : i = c
        · subst hic; rw [List.getElem?_set_self (by omega), g2]
        · rw [List.getElem?_set_ne hic]; exact g3 c (by omega))
    ⟨he, by simp, by intro c hc; omega⟩
  simp only at h2 h3 h4
  refine ⟨a, ?_, h2, h4⟩
  rw [h1, h3, List.take_of_length_le (by omega)]

theorem mapM_forall₂ {α β : Type} {f : α → Option β} {l : List α} {R : α → β → Prop}
    (h : ∀ a ∈ l, ∃ b, f a = some b ∧ R a b) :
    ∃ l', l.mapM f = some l' ∧ List.Forall₂ R l l' := by
  induction l with
  | nil => exact ⟨[], by simp, .nil⟩
  | cons a as ih =>
    obtain ⟨b, h1, h2⟩ := h a List.mem_cons_self
    obtain ⟨bs, h3, h4⟩ := ih (fun x hx => h x (List.mem_cons_of_mem a hx))
    exact ⟨b :: bs, by simp [List.mapM_cons, h1, h3], .cons h2 h4⟩

theorem flatComps_congr {l l' : List Dat}
    (h : List.Forall₂ (fun d d' => d'.sym = d.sym ∧ d'.ncomp = d.ncomp) l l') :
    flatComps l' = flatComps l := by
  induction h with
  | nil => rfl
  | cons hd _ ih =>
    unfold flatComps at *
    rw [List.flatMap_cons, List.flatMap_cons, ih, hd.1, hd.2]

theorem syms_congr {l l' : List Dat}
    (h : List.Forall₂ (fun d d' => d'.sym = d.sym ∧ d'.ncomp = d.ncomp) l l') :
    l'.map (·.sym) = l.map (·.sym) := by
  induction h with
  | nil => rfl
  | cons hd _ ih => rw [List.map_cons, List.map_cons, ih, hd.1]

theorem forall₂_mem_right {α β : Type} {R : α → β → Prop} {l : List α} {l' : List β}
    (h : List.Forall₂ R l l') {b : β} (hb : b ∈ l') : ∃ a ∈ l, R a b := by
  induction h with
  | nil => simp at hb
  | cons hd _ ih =>
    rcases List.mem_cons.1 hb with rfl | hb
    · exact ⟨_, List.mem_cons_self, hd⟩
    · obtain ⟨a, h1, h2⟩ := ih hb
      exact ⟨a, List.mem_cons_of_mem _ h1, h2⟩

theorem forall₂_mem_left {α β : Type} {R : α → β → Prop} {l : List α} {l' : List β}
    (h : List.Forall₂ R l l') {a : α} (ha : a ∈ l) : ∃ b ∈ l', R a b := by
  induction h with
  | nil => simp at ha
  | cons hd _ ih =>
    rcases List.mem_cons.1 ha with rfl | ha
    · exact ⟨_, List.mem_cons_self, hd⟩
    · obtain ⟨b, h1, h2⟩ := ih ha
      exact ⟨b, List.mem_cons_of_mem _ h1, h2⟩

theorem mem_flatComps {dats : List Dat} {sj : Nat × Nat} :
    sj ∈ flatComps dats ↔ ∃ d ∈ dats, d.sym = sj.1 ∧ sj.2 < d.ncomp := by
  unfold flatComps
  simp only [List.mem_flatMap, List.mem_map, List.mem_range]
  constructor
  · rintro ⟨d, hd, j, hj, rfl⟩; exact ⟨d, hd, rfl, hj⟩
  · rintro ⟨d, hd, h1, h2⟩; exact ⟨d, hd, sj.2, h2, by rw [h1]⟩

theorem flatComps_nodup {dats : List Dat} (h : (dats.map (·.sym)).Nodup) :
    (flatComps dats).Nodup := by
  unfold flatComps
  rw [List.nodup_flatMap]
  refine ⟨?_, ?_⟩
  · intro d _
    exact List.Nodup.map (fun a b hab => (Prod.mk.inj hab).2) List.nodup_range
  · rw [List.nodup_iff_pairwise_ne, List.pairwise_map] at h
    refine h.imp ?_
    intro d d' hne
    rw [Function.onFun, List.disjoint_left]
    rintro ⟨s, j⟩ h1 h2
    simp only [List.mem_map, Prod.mk.injEq] at h1 h2
    obtain ⟨_, _, rfl, _⟩ := h1
    obtain ⟨_, _, h2, _⟩ := h2
    exact hne h2.symm

/-! ## Groups -/

theorem dat?_of_mem_syms {g : Group} {s : Nat} (h : s ∈ g.dats.map (·.sym)) :
    ∃ d ∈ g.dats, g.dat? s = some d ∧ d.sym = s := by
  unfold Group.dat?
  rw [List.mem_map] at h
  obtain ⟨d, hd, hs⟩ := h
  cases hf : g.dats.find? (fun d => d.sym == s) with
  | none =>
    have := List.find?_eq_none.1 hf d hd
    simp [hs] at this
  | some d' =>
    refine ⟨d', List.mem_of_find?_eq_some hf, rfl, ?_⟩
    simpa using List.find?_some hf

theorem setNpartCellFromDat_spec {g : Group} (hl : g.hNpart.length = g.ncell)
    (hes : g.npartEs.length = g.ncell) {new : List Nat} (hnew : new.length = g.ncell)
    (hpos : g.posSym ∈ g.dats.map (·.sym)) (hh : ∀ d ∈ g.dats, d.hNpart = new) :
    ∃ es, setNpartCellFromDat g = some (invalidateVersion { g with
        hNpart := new, dNpart := new, npartEs := es, npartLocal := new.sum }) ∧
      es.length = g.ncell ∧ ∀ c, c < g.ncell → es[c]? = some ((new.take c).sum) := by
  obtain ⟨d, hd, h1, _⟩ := dat?_of_mem_syms hpos
  obtain ⟨es, h2, h3, h4⟩ := recomputeEs_eq (npart := new) hnew hes
  refine ⟨es, ?_, h3, h4⟩
  unfold setNpartCellFromDat
  rw [h1]
  simp only [Option.bind_some, hh d hd]
  rw [copyCounts_eq hnew hl]
  simp only [Option.bind_some, h2]

theorem syncCounts_spec {g : Group} (hl : g.hNpart.length = g.ncell)
    (hd : g.dNpart.length = g.ncell) (hes : g.npartEs.length = g.ncell) :
    ∃ es, syncCounts g = some { g with
        dNpart := g.hNpart, npartEs := es, npartLocal := g.hNpart.sum } ∧
      es.length = g.ncell ∧ ∀ c, c < g.ncell → es[c]? = some ((g.hNpart.take c).sum) := by
  obtain ⟨es, h2, h3, h4⟩ := recomputeEs_eq (npart := g.hNpart) hl hes
  refine ⟨es, ?_, h3, h4⟩
  unfold syncCounts
  rw [copyCounts_eq hl hd]
  simp only [Option.bind_some, h2]

theorem setNpartHostDevice_eq {ncell : Nat} {h d : List Nat} {dat : Dat} (h1 : h.length = ncell)
    (h2 : d.length = ncell) (h3 : dat.hNpart.length = ncell) (h4 : dat.dNpart.length = ncell) :
    setNpartHostDevice ncell h d dat = some { dat with hNpart := h, dNpart := d } := by
  unfold setNpartHostDevice
  rw [copyCounts_eq h1 h3]
  simp only [Option.bind_some]
  rw [copyCounts_eq h2 h4]; rfl

end NP
