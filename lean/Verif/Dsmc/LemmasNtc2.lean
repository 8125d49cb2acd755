import Verif.Dsmc.LemmasNtc

/-! Lemmas for the NTC sampler: one block of pairs on a GPU. -/

set_option autoImplicit false

namespace NP

open Spec

theorem runItems_range'_rd {ι σ : Type} (step : ι → σ → Option σ) (pre post : List ι) (s : σ) :
    runItems (fun o s => (rd (pre ++ post) o).bind fun i => step i s)
      (List.range' pre.length post.length) s = runItems step post s := by
  induction post generalizing pre s with
  | nil => rfl
  | cons a post ih =>
    rw [List.length_cons, List.range'_succ, runItems_cons, runItems_cons]
    simp only [rd]
    rw [List.getElem?_append_right (Nat.le_refl _), Nat.sub_self, List.getElem?_cons_zero,
      Option.bind_some]
    congr 1
    funext t
    have := ih (pre ++ [a]) t
    rw [List.append_assoc, List.length_append, List.length_singleton, List.singleton_append] at this
    exact this

theorem ntcInOrder_zero {σ : Type} (ordered : List Nat) (step : Nat → σ → Option σ) (s : σ) :
    ntcInOrder 0 ordered step s = runItems step ordered s := by
  unfold ntcInOrder forLoop
  rw [Nat.zero_add, Nat.sub_zero, ← runItems_range'_rd step [] ordered s]
  congr 1

theorem setFlags_spec {picks : List (Nat × Nat)} {pl : Nat → Nat × Nat} {K v : Nat}
    (hp : ∀ l, l < K → picks[l]? = some (pl l)) {items : List Nat} (hi : ∀ l ∈ items, l < K)
    {f : List Nat} (hb : ∀ l, l < K → (pl l).1 < f.length ∧ (pl l).2 < f.length) :
    ∃ f', runItems (ntcSetFlags picks v) items f = some f' ∧ f'.length = f.length ∧
      (∀ l ∈ items, f'[(pl l).1]? = some v ∧ f'[(pl l).2]? = some v) ∧
      (∀ p, (∀ l ∈ items, p ≠ (pl l).1 ∧ p ≠ (pl l).2) → f'[p]? = f[p]?) := by
  refine runItems_invariant (P := fun pre f' => f'.length = f.length ∧
      (∀ l ∈ pre, f'[(pl l).1]? = some v ∧ f'[(pl l).2]? = some v) ∧
      (∀ p, (∀ l ∈ pre, p ≠ (pl l).1 ∧ p ≠ (pl l).2) → f'[p]? = f[p]?)) ?_
    ⟨rfl, by simp, fun _ _ => rfl⟩
  rintro pre i post s he ⟨h1, h2, h3⟩
  have hiK := hi i (by rw [he]; simp)
  obtain ⟨b1, b2⟩ := hb i hiK
  obtain ⟨s', c1, c2, c3⟩ := ntcSt2_spec (f := s) (i := (pl i).1) (j := (pl i).2) (v := v) (by omega)
    (by omega)
  refine ⟨s', ?_, by omega, ?_, ?_⟩
  · unfold ntcSetFlags
    simp only [rd]
    rw [hp i hiK, Option.bind_some]
    exact c1
  · intro l hl
    rw [c3, c3]
    rcases List.mem_append.1 hl with hl | hl
    · obtain ⟨e1, e2⟩ := h2 l hl
      constructor
      · split
        · rfl
        · exact e1
      · split
        · rfl
        · exact e2
    · obtain rfl := List.mem_singleton.1 hl
      rw [if_pos (Or.inl rfl), if_pos (Or.inr rfl)]
      exact ⟨rfl, rfl⟩
  · intro p hpp
    rw [c3]
    obtain ⟨d1, d2⟩ := hpp i (by simp)
    rw [if_neg (by simp [d1, d2])]
    exact h3 p fun l hl => hpp l (by simp [hl])

/-- The particle of an atomic increment. -/
def flagTarget (pl : Nat → Nat × Nat) (e : Nat × Nat) : Nat :=
  if e.2 = 0 then (pl e.1).1 else (pl e.1).2

theorem flagPhase_spec {picks : List (Nat × Nat)} {pl : Nat → Nat × Nat} {K : Nat}
    (hp : ∀ l, l < K → picks[l]? = some (pl l)) {items : List (Nat × Nat)} (hnd : items.Nodup)
    (hi : ∀ e ∈ items, e.1 < K ∧ e.2 < 2) {f res : List Nat} (hres : res.length = 2 * K)
    (hb : ∀ l, l < K → (pl l).1 < f.length ∧ (pl l).2 < f.length) :
    ∃ t : List Nat × List Nat, runItems (ntcFlag picks) items (f, res) = some t ∧
      t.1.length = f.length ∧ t.2.length = 2 * K ∧
      (∀ e ∈ items, ∀ e' ∈ items, e ≠ e' → flagTarget pl e = flagTarget pl e' →
        ¬ (t.2[2 * e.1 + e.2]? = some 0 ∧ t.2[2 * e'.1 + e'.2]? = some 0)) ∧
      (∀ p, (∀ e ∈ items, p ≠ flagTarget pl e) → t.1[p]? = f[p]?) := by
  obtain ⟨t, h1, h2, h3, -, h4, h5⟩ := runItems_invariant (step := ntcFlag picks) (items := items)
    (s := (f, res))
    (P := fun pre (t : List Nat × List Nat) => t.1.length = f.length ∧ t.2.length = 2 * K ∧
      (∀ e ∈ pre, 1 ≤ flagOf t.1 (flagTarget pl e)) ∧
      (∀ e ∈ pre, ∀ e' ∈ pre, e ≠ e' → flagTarget pl e = flagTarget pl e' →
        ¬ (t.2[2 * e.1 + e.2]? = some 0 ∧ t.2[2 * e'.1 + e'.2]? = some 0)) ∧
      (∀ p, (∀ e ∈ pre, p ≠ flagTarget pl e) → t.1[p]? = f[p]?))
    (by
      rintro pre e post ⟨fl, rs⟩ he ⟨a1, a2, a3, a4, a5⟩
      dsimp only at a1 a2 a3 a4 a5
      obtain ⟨e1, e2⟩ := hi e (by rw [he]; simp)
      have hnot : e ∉ pre := by
        rw [he] at hnd
        have := (List.nodup_append.1 hnd).2.2
        exact fun hm => this e hm e (by simp) rfl
      obtain ⟨b1, b2⟩ := hb e.1 e1
      have hlt : flagTarget pl e < fl.length := by
        unfold flagTarget
        split <;> omega
      have hpre : ∀ e' ∈ pre, e'.1 < K ∧ e'.2 < 2 := fun e' h => hi e' (by rw [he]; simp [h])
      have hpos : ∀ e' ∈ pre, 2 * e'.1 + e'.2 ≠ 2 * e.1 + e.2 := by
        intro e' h heq
        obtain ⟨c1, c2⟩ := hpre e' h
        refine hnot ?_
        have : e' = e := Prod.ext (by omega) (by omega)
        rw [← this]
        exact h
      refine ⟨(fl.set (flagTarget pl e) (flagOf fl (flagTarget pl e) + 1),
        rs.set (2 * e.1 + e.2) (flagOf fl (flagTarget pl e))), ?_, by simp [a1], by simp [a2], ?_, ?_,
        ?_⟩
      · unfold ntcFlag
        simp only [rd]
        rw [hp e.1 e1, Option.bind_some]
        have : (if e.2 = 0 then (pl e.1).1 else (pl e.1).2) = flagTarget pl e := rfl
        rw [this]
        unfold fetchAdd
        simp only [rd]
        rw [get_flagOf hlt, Option.bind_some, Option.bind_some, st_eq_some (by omega),
          Option.bind_some]
      · intro e' he'
        dsimp only
        by_cases heq : flagTarget pl e' = flagTarget pl e
        · rw [heq, flagOf_eq (List.getElem?_set_self hlt)]
          omega
        · have hm : e' ∈ pre := by
            rcases List.mem_append.1 he' with h | h
            · exact h
            · rw [List.mem_singleton.1 h] at heq
              exact absurd rfl heq
          have hlt' : flagTarget pl e' < fl.length := by
            obtain ⟨c1, c2⟩ := hpre e' hm
            obtain ⟨b1, b2⟩ := hb e'.1 c1
            unfold flagTarget
            split <;> omega
          rw [flagOf_eq (v := flagOf fl (flagTarget pl e'))]
          · exact a3 e' hm
          · rw [List.getElem?_set_ne (Ne.symm heq)]
            exact get_flagOf hlt'
      · intro x hx y hy hxy hxt
        dsimp only
        rcases List.mem_append.1 hx with kx | kx
        · rcases List.mem_append.1 hy with ky | ky
          · rw [List.getElem?_set_ne (Ne.symm (hpos x kx)), List.getElem?_set_ne (Ne.symm (hpos y ky))]
            exact a4 x kx y ky hxy hxt
          · obtain rfl := List.mem_singleton.1 ky
            rintro ⟨-, h⟩
            rw [List.getElem?_set_self (by omega)] at h
            have := a3 x kx
            rw [hxt] at this
            simp only [Option.some.injEq] at h
            omega
        · obtain rfl := List.mem_singleton.1 kx
          rcases List.mem_append.1 hy with ky | ky
          · rintro ⟨h, -⟩
            rw [List.getElem?_set_self (by omega)] at h
            have := a3 y ky
            rw [← hxt] at this
            simp only [Option.some.injEq] at h
            omega
          · exact absurd (List.mem_singleton.1 ky).symm hxy
      · intro p hpp
        dsimp only
        rw [List.getElem?_set_ne (Ne.symm (hpp e (by simp)))]
        exact a5 p fun e' h => hpp e' (by simp [h]))
    ⟨rfl, hres, by simp, by simp, fun _ _ => rfl⟩
  exact ⟨t, h1, h2, h3, h4, h5⟩

/-- The work items find a wave for every pair of the block. -/
theorem resolve_spec {np K : Nat} {picks : List (Nat × Nat)} {pl : Nat → Nat × Nat}
    (hp : ∀ l, l < K → picks[l]? = some (pl l)) (hnp : ∀ l, l < K → (pl l).1 < np ∧ (pl l).2 < np)
    {fr : Nat → Bool} {ordered : List Nat} (hnd : ordered.Nodup)
    (ho : ∀ l, l ∈ ordered ↔ l < K ∧ fr l = false) {fl : List Nat} (hlen : np ≤ fl.length)
    {W : Nat → Nat} (hg : Greedy np pl (fun l => l < K ∧ fr l = true) W (flagOf fl))
    (hW : ∀ l, W l = 0) {ws : List (Option Nat)} (hwl : ws.length = K)
    (hws : ∀ l, l < K → ws[l]? = some (if fr l then some 0 else none)) :
    ∃ t : List Nat × List (Option Nat) × Nat, runItems (ntcResolve picks) ordered (fl, ws, 0) = some t ∧
      ∃ W, Greedy np pl (fun l => l < K) W (flagOf t.1) ∧ t.1.length = fl.length ∧ t.2.1.length = K ∧
        (∀ l, l < K → t.2.1[l]? = some (some (W l))) ∧ (∀ l, l < K → W l ≤ t.2.2) ∧
        (t.2.2 = 0 ∨ ∃ l, l < K ∧ W l = t.2.2) := by
  obtain ⟨t, h1, W, h2, h3, h4, h5, h6, h7⟩ := runItems_invariant (step := ntcResolve picks)
    (items := ordered) (s := (fl, ws, 0))
    (P := fun pre (t : List Nat × List (Option Nat) × Nat) =>
      ∃ W, Greedy np pl (fun l => l < K ∧ (fr l = true ∨ l ∈ pre)) W (flagOf t.1) ∧
        t.1.length = fl.length ∧ t.2.1.length = K ∧
        (∀ l, l < K → t.2.1[l]? = some (if fr l = true ∨ l ∈ pre then some (W l) else none)) ∧
        (∀ l, l < K → fr l = true ∨ l ∈ pre → W l ≤ t.2.2) ∧
        (t.2.2 = 0 ∨ ∃ l, l < K ∧ (fr l = true ∨ l ∈ pre) ∧ W l = t.2.2))
    (by
      rintro pre e post ⟨f, w, c⟩ he ⟨W, a1, a2, a3, a4, a5, a6⟩
      dsimp only at a1 a2 a3 a4 a5 a6
      obtain ⟨eK, efr⟩ := (ho e).1 (by rw [he]; simp)
      have hnot : e ∉ pre := by
        rw [he] at hnd
        have := (List.nodup_append.1 hnd).2.2
        exact fun hm => this e hm e (by simp) rfl
      obtain ⟨q1, q2⟩ := hnp e eK
      obtain ⟨f', f1, f2, f3⟩ := ntcSt2_spec (f := f) (i := (pl e).1) (j := (pl e).2)
        (v := max (flagOf f (pl e).1) (flagOf f (pl e).2) + 1) (by omega) (by omega)
      set v := max (flagOf f (pl e).1) (flagOf f (pl e).2) with hv
      have hD : ∀ l, (l < K ∧ (fr l = true ∨ l ∈ pre ++ [e])) ↔
          ((l < K ∧ (fr l = true ∨ l ∈ pre)) ∨ l = e) := by
        intro l
        simp only [List.mem_append, List.mem_singleton]
        constructor
        · rintro ⟨h1, h2 | h2 | h2⟩
          · exact Or.inl ⟨h1, Or.inl h2⟩
          · exact Or.inl ⟨h1, Or.inr h2⟩
          · exact Or.inr h2
        · rintro (⟨h1, h2 | h2⟩ | rfl)
          · exact ⟨h1, Or.inl h2⟩
          · exact ⟨h1, Or.inr (Or.inl h2)⟩
          · exact ⟨eK, Or.inr (Or.inr rfl)⟩
      have hne : ¬ (e < K ∧ (fr e = true ∨ e ∈ pre)) := by
        rintro ⟨-, h | h⟩
        · rw [efr] at h; exact Bool.noConfusion h
        · exact hnot h
      refine ⟨(f', w.set e (some v), max v c), ?_, fun y => if y = e then v else W y, ?_,
        by dsimp only; omega, by simp [a3], ?_, ?_, ?_⟩
      · unfold ntcResolve
        simp only [rd]
        rw [hp e eK, Option.bind_some, get_flagOf (f := f) (p := (pl e).1) (by omega),
          Option.bind_some, get_flagOf (f := f) (p := (pl e).2) (by omega), Option.bind_some]
        obtain ⟨g, g1, g2⟩ := Option.bind_eq_some_iff.1 f1
        rw [← hv, g1, Option.bind_some, g2, Option.bind_some, st_eq_some (by omega), Option.bind_some]
      · have := a1.step (l := e) hne q1 q2 (fl' := flagOf f') (flagOf_st2 f3)
        rw [show (fun l => l < K ∧ (fr l = true ∨ l ∈ pre ++ [e])) = fun l =>
          (l < K ∧ (fr l = true ∨ l ∈ pre)) ∨ l = e from funext fun l => propext (hD l)]
        exact this
      · intro l hl
        dsimp only
        by_cases hle : l = e
        · subst hle
          rw [List.getElem?_set_self (by omega), if_pos (by simp), if_pos rfl]
        · rw [List.getElem?_set_ne (Ne.symm hle), a4 l hl, if_neg hle]
          simp only [List.mem_append, List.mem_singleton, hle, or_false]
      · intro l hl hor
        dsimp only
        by_cases hle : l = e
        · rw [if_pos hle]; omega
        · rw [if_neg hle]
          have := a5 l hl (by
            rcases hor with h | h
            · exact Or.inl h
            · rcases List.mem_append.1 h with h | h
              · exact Or.inr h
              · exact absurd (List.mem_singleton.1 h) hle)
          omega
      · dsimp only
        by_cases hvc : c ≤ v
        · exact Or.inr ⟨e, eK, Or.inr (by simp), by rw [if_pos rfl]; omega⟩
        · rcases a6 with h | ⟨l, l1, l2, l3⟩
          · omega
          · refine Or.inr ⟨l, l1, ?_, ?_⟩
            · rcases l2 with h | h
              · exact Or.inl h
              · exact Or.inr (by simp [h])
            · have hle : l ≠ e := by
                intro h
                subst h
                exact hne ⟨l1, l2⟩
              rw [if_neg hle]
              omega)
    ⟨W, by simpa using hg, rfl, hwl, by
      intro l hl
      rw [hws l hl, hW]
      simp [-Option.some.injEq], by
      intro l _ _
      exact (hW l).le.trans (Nat.zero_le _), Or.inl rfl⟩
  have hD : ∀ l, l < K → (fr l = true ∨ l ∈ ordered) := by
    intro l hl
    cases hf : fr l with
    | true => exact Or.inl rfl
    | false => exact Or.inr ((ho l).2 ⟨hl, hf⟩)
  refine ⟨t, h1, W, ?_, h3, h4, ?_, ?_, ?_⟩
  · rw [show (fun l => l < K) = fun l => l < K ∧ (fr l = true ∨ l ∈ ordered) from
      funext fun l => propext ⟨fun h => ⟨h, hD l h⟩, fun h => h.1⟩]
    exact h2
  · intro l hl
    rw [h5 l hl, if_pos (hD l hl)]
  · exact fun l hl => h6 l hl (hD l hl)
  · rcases h7 with h | ⟨l, l1, -, l3⟩
    · exact Or.inl h
    · exact Or.inr ⟨l, l1, l3⟩

theorem foldl_max_succ (l : List Nat) (a : Nat) :
    a ≤ l.foldl (fun a w => max a (w + 1)) a ∧
      ∀ w ∈ l, w + 1 ≤ l.foldl (fun a w => max a (w + 1)) a := by
  induction l generalizing a with
  | nil => simp
  | cons x l ih =>
    obtain ⟨h1, h2⟩ := ih (max a (x + 1))
    rw [List.foldl_cons]
    refine ⟨by omega, ?_⟩
    intro w hw
    rcases List.mem_cons.1 hw with rfl | hw
    · omega
    · exact h2 w hw

theorem foldl_max_succ_le (l : List Nat) (a c : Nat) (h : ∀ w ∈ l, w + 1 ≤ c) :
    l.foldl (fun a w => max a (w + 1)) a ≤ max a c := by
  induction l generalizing a with
  | nil => exact Nat.le_max_left _ _
  | cons x l ih =>
    rw [List.foldl_cons]
    have h1 := ih (max a (x + 1)) fun w hw => h w (List.mem_cons_of_mem _ hw)
    have h2 := h x List.mem_cons_self
    omega

theorem ntcFree_iff {res : List Nat} {l : Nat} :
    ntcFree res l = true ↔ res[2 * l]? = some 0 ∧ res[2 * l + 1]? = some 0 := by
  simp [ntcFree]

/-- One block on a GPU. -/
theorem gpuBlock_spec {α : Type} {conv : α → Int → Int} {x : NtcArgs α} {cell es n np b : Nat}
    (sc : NtcSched)
    {pk : Nat → Nat × Nat} (hpk : ∀ px, px < n → ntcPick conv x cell px = some (pk px))
    (hnp : ∀ px, px < n → (pk px).1 < np ∧ (pk px).2 < np) (hes : es + n ≤ x.num)
    (hbs : 0 < x.blockSize) (hb : b * x.blockSize < n)
    {s : NtcGroup} (hs : FlagsClear np s) (hlist : x.num * 3 ≤ s.mem.list.length)
    (hw : b * x.cellCount + cell < s.mem.waves.length) :
    ∃ s', ntcGpuBlock conv x sc cell es n b s = some s' ∧ FlagsClear np s' ∧
      (∃ W, BlockDone pk es x.num n x.blockSize x.cellCount cell b W s'.mem) ∧
      BlkFrame es x.num n x.blockSize x.cellCount cell b s.mem s'.mem := by
  obtain ⟨hs1, hs2, hs3⟩ := hs
  set start := b * x.blockSize with hstart
  set K := min x.blockSize (n - start) with hK
  set pl : Nat → Nat × Nat := fun l => pk (start + l) with hpl
  have hKpos : 0 < K := by omega
  have hKn : ∀ l, l < K → start + l < n := fun l hl => by omega
  have hin : ∀ px, InBlk x.blockSize n b px ↔ ∃ l, l < K ∧ px = start + l := by
    intro px
    unfold InBlk
    constructor
    · rintro ⟨h1, h2⟩
      exact ⟨px - start, by omega, by omega⟩
    · rintro ⟨l, h1, rfl⟩
      exact ⟨by omega, by omega⟩
  set picks := (List.range K).map pl with hpicks
  have hp : ∀ l, l < K → picks[l]? = some (pl l) := by
    intro l hl
    rw [hpicks, List.getElem?_map, List.getElem?_range hl]; rfl
  have hnp' : ∀ l, l < K → (pl l).1 < np ∧ (pl l).2 < np := fun l hl => hnp _ (hKn l hl)
  have hmap : (List.range K).mapM (fun l => ntcPick conv x cell (start + l)) = some picks :=
    mapM_of_forall fun l hl => hpk _ (hKn l (List.mem_range.1 hl))
  -- the atomic increments
  have hev : ∀ (e : Nat × Nat), e ∈ (List.range K).flatMap (fun l => [(l, 0), (l, 1)]) ↔
      e.1 < K ∧ e.2 < 2 := by
    rintro ⟨a, c⟩
    simp only [List.mem_flatMap, List.mem_range, List.mem_cons, Prod.mk.injEq, List.not_mem_nil,
      or_false]
    constructor
    · rintro ⟨l, hl, ⟨rfl, rfl⟩ | ⟨rfl, rfl⟩⟩ <;> exact ⟨hl, by omega⟩
    · rintro ⟨h1, h2⟩
      exact ⟨a, h1, by omega⟩
  have hevperm := sc.flags.perm ((List.range K).flatMap fun l => [(l, 0), (l, 1)])
  have hevnd : (sc.flags.order ((List.range K).flatMap fun l => [(l, 0), (l, 1)])).Nodup := by
    refine hevperm.nodup_iff.2 (nodup_flatMap_range (by intro l _; simp) ?_)
    intro l l' _ _ hne y hy hy'
    simp only [List.mem_cons, List.not_mem_nil, or_false] at hy hy'
    rcases hy with rfl | rfl <;> rcases hy' with h | h <;> simp_all
  obtain ⟨⟨f, res⟩, f1, f2, f3, f4, f5⟩ := flagPhase_spec (f := s.flags) (res := List.replicate (2 * K) 0)
    hp hevnd (fun e he => (hev e).1 (hevperm.mem_iff.1 he)) (by simp)
    (fun l hl => by have := hnp' l hl; omega)
  dsimp only at f2 f3 f4 f5
  replace f4 : ∀ e e' : Nat × Nat, e.1 < K → e.2 < 2 → e'.1 < K → e'.2 < 2 → e ≠ e' →
      flagTarget pl e = flagTarget pl e' →
      ¬ (res[2 * e.1 + e.2]? = some 0 ∧ res[2 * e'.1 + e'.2]? = some 0) := by
    intro e e' h1 h2 h3 h4
    exact f4 e (hevperm.mem_iff.2 ((hev e).2 ⟨h1, h2⟩)) e' (hevperm.mem_iff.2 ((hev e').2 ⟨h3, h4⟩))
  have hfreesep : ∀ l l', l < K → l' < K → l ≠ l' → ntcFree res l = true → ntcFree res l' = true →
      ¬ SharesParticle (pl l) (pl l') := by
    intro l l' hl hl' hne h1 h2 hsh
    obtain ⟨a1, a2⟩ := ntcFree_iff.1 h1
    obtain ⟨b1, b2⟩ := ntcFree_iff.1 h2
    rcases hsh with h | h | h | h
    · exact f4 (l, 0) (l', 0) hl (by simp) hl' (by simp) (by simp [hne]) h ⟨a1, b1⟩
    · exact f4 (l, 0) (l', 1) hl (by simp) hl' (by simp) (by simp) h ⟨a1, b2⟩
    · exact f4 (l, 1) (l', 0) hl (by simp) hl' (by simp) (by simp) h ⟨a2, b1⟩
    · exact f4 (l, 1) (l', 1) hl (by simp) hl' (by simp) (by simp [hne]) h ⟨a2, b2⟩
  have hunpicked : ∀ p, p < np → (∀ l, l < K → p ≠ (pl l).1 ∧ p ≠ (pl l).2) → f[p]? = some 0 := by
    intro p hpn hun
    rw [f5 p ?_, hs2 p hpn]
    intro e he
    obtain ⟨h1, h2⟩ := (hev e).1 (hevperm.mem_iff.1 he)
    unfold flagTarget
    split
    · exact (hun _ h1).1
    · exact (hun _ h1).2
  set ordered := sc.counter.order ((List.range K).filter fun l => !ntcFree res l) with hord
  have hoperm := sc.counter.perm ((List.range K).filter fun l => !ntcFree res l)
  have ho : ∀ l, l ∈ ordered ↔ l < K ∧ ntcFree res l = false := by
    intro l
    rw [hord, hoperm.mem_iff]
    simp
  have hond : ordered.Nodup := hoperm.nodup_iff.2 (List.nodup_range.filter _)
  set waves := (List.range K).map fun l => if ntcFree res l then some 0 else none with hwv
  have hwvl : waves.length = K := by simp [hwv]
  have hwvg : ∀ l, l < K → waves[l]? = some (if ntcFree res l then some 0 else none) := by
    intro l hl
    rw [hwv, List.getElem?_map, List.getElem?_range hl]; rfl
  -- every pair gets a wave
  obtain ⟨⟨rf, rw_, rc⟩, r1, W, r2, r3, r4, r5, r6, r7, r8, r9⟩ : ∃ r : List Nat × List (Option Nat) × Nat,
      (if s.cnt + ordered.length > 0 then
        (ntcInOrder s.cnt ordered (ntcSetFlags picks 0) f).bind fun f1 =>
        (runItems (ntcSetFlags picks 1) (sc.ones.order ((List.range K).filter (ntcFree res))) f1).bind
          fun f2 => ntcInOrder s.cnt ordered (ntcResolve picks) (f2, waves, 0)
        else some (f, waves, 0)) = some r ∧
      ∃ W : Nat → Nat, (∀ l l', l < K → l' < K → l ≠ l' → SharesParticle (pl l) (pl l') → W l ≠ W l') ∧
        (∀ l w, l < K → W l = w + 1 → ∃ l', l' < K ∧ W l' = w ∧ SharesParticle (pl l) (pl l')) ∧
        r.1.length = s.flags.length ∧ r.2.1.length = K ∧
        (∀ l, l < K → r.2.1[l]? = some (some (W l))) ∧ (∀ l, l < K → W l ≤ r.2.2) ∧
        (r.2.2 = 0 ∨ ∃ l, l < K ∧ W l = r.2.2) ∧
        (∀ p, p < np → (∀ l, l < K → p ≠ (pl l).1 ∧ p ≠ (pl l).2) → r.1[p]? = some 0) := by
    by_cases hc : s.cnt + ordered.length > 0
    · rw [if_pos hc, hs3, ntcInOrder_zero]
      obtain ⟨g1, c1, c2, c3, c4⟩ := setFlags_spec (v := 0) hp (items := ordered)
        (fun l hl => ((ho l).1 hl).1) (f := f) (fun l hl => by have := hnp' l hl; omega)
      have hfperm := sc.ones.perm ((List.range K).filter (ntcFree res))
      have hfm : ∀ l, l ∈ sc.ones.order ((List.range K).filter (ntcFree res)) ↔
          l < K ∧ ntcFree res l = true := by
        intro l
        rw [hfperm.mem_iff]
        simp
      obtain ⟨g2, d1, d2, d3, d4⟩ := setFlags_spec (v := 1) hp
        (items := sc.ones.order ((List.range K).filter (ntcFree res)))
        (fun l hl => ((hfm l).1 hl).1) (f := g1) (fun l hl => by have := hnp' l hl; omega)
      have hzero : ∀ p, p < np → (∀ l, l < K → p ≠ (pl l).1 ∧ p ≠ (pl l).2) → g2[p]? = some 0 := by
        intro p hpn hun
        rw [d4 p (fun l hl => hun l ((hfm l).1 hl).1), c4 p (fun l hl => hun l ((ho l).1 hl).1)]
        exact hunpicked p hpn hun
      have hg : Greedy np pl (fun l => l < K ∧ ntcFree res l = true) (fun _ => 0) (flagOf g2) := by
        refine ⟨?_, ?_, by intro l w _ h; omega, ?_⟩
        · rintro l ⟨h1, h2⟩
          obtain ⟨a1, a2⟩ := d3 l ((hfm l).2 ⟨h1, h2⟩)
          rw [flagOf_eq a1, flagOf_eq a2]
          omega
        · rintro l l' ⟨h1, h2⟩ ⟨h3, h4⟩ hne hsh
          exact absurd hsh (hfreesep l l' h1 h3 hne h2 h4)
        · intro p v hpn hv
          by_cases hfp : ∃ l, (l < K ∧ ntcFree res l = true) ∧ (p = (pl l).1 ∨ p = (pl l).2)
          · obtain ⟨l, hl, hor⟩ := hfp
            refine ⟨l, hl, ?_, hor⟩
            obtain ⟨a1, a2⟩ := d3 l ((hfm l).2 hl)
            rcases hor with rfl | rfl
            · rw [flagOf_eq a1] at hv; omega
            · rw [flagOf_eq a2] at hv; omega
          · exfalso
            have hnf : ∀ l, l < K → ntcFree res l = true → p ≠ (pl l).1 ∧ p ≠ (pl l).2 :=
              fun l hl h => ⟨fun e => hfp ⟨l, ⟨hl, h⟩, Or.inl e⟩, fun e => hfp ⟨l, ⟨hl, h⟩, Or.inr e⟩⟩
            have h2 : g2[p]? = g1[p]? := d4 p (fun l hl => hnf l ((hfm l).1 hl).1 ((hfm l).1 hl).2)
            have h0 : g2[p]? = some 0 := by
              by_cases hcp : ∃ l, (l < K ∧ ntcFree res l = false) ∧ (p = (pl l).1 ∨ p = (pl l).2)
              · obtain ⟨l, hl, hor⟩ := hcp
                obtain ⟨a1, a2⟩ := c3 l ((ho l).2 hl)
                rw [h2]
                rcases hor with rfl | rfl
                · exact a1
                · exact a2
              · refine hzero p hpn fun l hl => ?_
                cases hf : ntcFree res l with
                | true => exact hnf l hl hf
                | false =>
                  exact ⟨fun e => hcp ⟨l, ⟨hl, hf⟩, Or.inl e⟩, fun e => hcp ⟨l, ⟨hl, hf⟩, Or.inr e⟩⟩
            rw [flagOf_eq h0] at hv
            omega
      obtain ⟨t, t1, W, t2, t3, t4, t5, t6, t7⟩ := resolve_spec hp hnp' hond ho (fl := g2) (by omega) hg
        (fun _ => rfl) hwvl hwvg
      refine ⟨t, ?_, W, t2.free, ?_, by omega, t4, t5, t6, t7, ?_⟩
      · rw [c1, Option.bind_some, d1, Option.bind_some, ntcInOrder_zero, t1]
      · exact t2.needed
      · intro p hpn hun
        rw [get_flagOf (by omega)]
        cases hf : flagOf t.1 p with
        | zero => rfl
        | succ v =>
          obtain ⟨l, l1, -, l3⟩ := t2.below p v hpn hf
          obtain ⟨u1, u2⟩ := hun l l1
          rcases l3 with h | h
          · exact absurd h u1
          · exact absurd h u2
    · rw [if_neg hc]
      have hall : ∀ l, l < K → ntcFree res l = true := by
        intro l hl
        cases hf : ntcFree res l with
        | true => rfl
        | false =>
          have := List.length_pos_of_mem ((ho l).2 ⟨hl, hf⟩)
          omega
      refine ⟨_, rfl, fun _ => 0, ?_, by intro l w _ h; exact absurd h (by simp), f2, hwvl, ?_, fun _ _ => Nat.zero_le _,
        Or.inl rfl, hunpicked⟩
      · intro l l' h1 h2 hne hsh
        exact absurd hsh (hfreesep l l' h1 h2 hne (hall l h1) (hall l' h2))
      · intro l hl
        dsimp only
        rw [hwvg l hl, if_pos (hall l hl)]
  dsimp only at r4 r5 r6 r7 r8 r9
  -- the pairs are stored
  have hst : ∀ (e : Nat × Nat), e ∈ (List.range K).flatMap (fun l => [(l, 0), (l, 1), (l, 2)]) ↔
      e.1 < K ∧ e.2 < 3 := by
    rintro ⟨a, c⟩
    simp only [List.mem_flatMap, List.mem_range, List.mem_cons, Prod.mk.injEq, List.not_mem_nil,
      or_false]
    constructor
    · rintro ⟨l, hl, ⟨rfl, rfl⟩ | ⟨rfl, rfl⟩ | ⟨rfl, rfl⟩⟩ <;> exact ⟨hl, by omega⟩
    · rintro ⟨h1, h2⟩
      exact ⟨a, h1, by omega⟩
  have hstperm := sc.store.perm ((List.range K).flatMap fun l => [(l, 0), (l, 1), (l, 2)])
  set sitems := sc.store.order ((List.range K).flatMap fun l => [(l, 0), (l, 1), (l, 2)]) with hsi
  have hsm : ∀ e : Nat × Nat, e ∈ sitems ↔ e.1 < K ∧ e.2 < 3 := fun e =>
    hstperm.mem_iff.trans (hst e)
  set dst : Nat × Nat → Nat := fun e => x.num * e.2 + (es + start + e.1) with hdst
  set val : Nat × Nat → Int := fun e => if e.2 = 0 then ((pl e.1).1 : Int)
    else if e.2 = 1 then ((pl e.1).2 : Int) else (W e.1 : Int) with hval
  have hdlt : ∀ e : Nat × Nat, e.1 < K → es + start + e.1 < x.num := by
    intro e he
    have := hKn e.1 he
    omega
  have hdinj : ∀ e ∈ sitems, ∀ e' ∈ sitems, dst e = dst e' → e = e' := by
    rintro ⟨a, c⟩ he ⟨a', c'⟩ he' h
    obtain ⟨h1, h2⟩ := (hsm _).1 he
    obtain ⟨h3, h4⟩ := (hsm _).1 he'
    have g1 := hdlt _ h1
    have g2 := hdlt _ h3
    simp only [hdst] at h
    dsimp only at h1 h2 h3 h4 g1 g2
    have : c = c' ∧ a = a' := by
      have e0 : x.num * 0 = 0 := Nat.mul_zero _
      have e1 : x.num * 1 = x.num := Nat.mul_one _
      have e2 : x.num * 2 = x.num + x.num := by omega
      have hc : c = 0 ∨ c = 1 ∨ c = 2 := by omega
      have hc' : c' = 0 ∨ c' = 1 ∨ c' = 2 := by omega
      rcases hc with rfl | rfl | rfl <;> rcases hc' with rfl | rfl | rfl <;> omega
    rw [this.1, this.2]
  obtain ⟨ml, p1, p2, p3, p4⟩ := runItems_put (items := sitems) (m := s.mem.list)
    (step := ntcStore x picks rw_ (es + start)) (fun e => some (dst e)) val
    (by
      rintro ⟨a, c⟩ he m -
      obtain ⟨h1, h2⟩ := (hsm _).1 he
      dsimp only at h1
      unfold ntcStore
      simp only [rd]
      rw [hp a h1, Option.bind_some, r6 a h1, Option.bind_some])
    (by
      intro e he e' he' d h h'
      rw [hdinj e he e' he' (Option.some.inj (h.trans h'.symm))])
    (by
      rintro ⟨a, c⟩ he d hd
      obtain rfl := Option.some.inj hd
      obtain ⟨h1, h2⟩ := (hsm _).1 he
      have := hdlt _ h1
      simp only [hdst]
      dsimp only at h1 h2 this
      have : x.num * c ≤ x.num * 2 := Nat.mul_le_mul_left _ (by omega)
      omega)
  -- the flags are reset
  have hsome : (List.range K).filter (fun l => ((rw_[l]?).getD none).isSome) = List.range K := by
    rw [List.filter_eq_self]
    intro l hl
    rw [r6 l (List.mem_range.1 hl)]; rfl
  have hrperm := sc.reset.perm (List.range K)
  obtain ⟨fl, z1, z2, z3, z4⟩ := setFlags_spec (v := 0) hp (items := sc.reset.order (List.range K))
    (fun l hl => List.mem_range.1 (hrperm.mem_iff.1 hl)) (f := rf)
    (fun l hl => by have := hnp' l hl; omega)
  obtain ⟨m1, m2⟩ := foldl_max_succ (rw_.filterMap id) s.mem.maxWave
  have hmem : ∀ l, l < K → W l ∈ rw_.filterMap id := by
    intro l hl
    exact List.mem_filterMap.2 ⟨some (W l), List.mem_of_getElem? (r6 l hl), rfl⟩
  have hlast : ∃ l, l < K ∧ W l = rc := by
    rcases r8 with h | ⟨l, l1, l2⟩
    · have := r7 0 hKpos
      exact ⟨0, hKpos, by omega⟩
    · exact ⟨l, l1, l2⟩
  refine ⟨⟨fl, 0, ⟨ml, s.mem.waves.set (b * x.cellCount + cell) (rc + 1),
      (rw_.filterMap id).foldl (fun a w => max a (w + 1)) s.mem.maxWave⟩⟩, ?_, ⟨by dsimp only; omega, ?_,
      rfl⟩, ⟨fun px => W (px - start), ?_, ⟨rc + 1, ?_, ?_, ?_, ?_⟩, ?_, ?_⟩, p2, by simp, m1, ?_, ?_, ?_⟩
  · unfold ntcGpuBlock
    dsimp only
    rw [← hstart, ← hK, hmap, Option.bind_some, List.length_range, f1, Option.bind_some]
    dsimp only
    rw [← hord, ← hwv, r1, Option.bind_some]
    dsimp only
    rw [← hsi, p1, Option.bind_some, st_eq_some hw, Option.bind_some, hsome, z1, Option.bind_some]
  · intro p hpn
    dsimp only
    by_cases hun : ∀ l, l < K → p ≠ (pl l).1 ∧ p ≠ (pl l).2
    · rw [z4 p (fun l hl => hun l (List.mem_range.1 (hrperm.mem_iff.1 hl)))]
      exact r9 p hpn hun
    · simp only [not_forall, not_and_or, not_not] at hun
      obtain ⟨l, hl, hor⟩ := hun
      obtain ⟨a1, a2⟩ := z3 l (hrperm.mem_iff.2 (List.mem_range.2 hl))
      rcases hor with h | h
      · rw [h]; exact a1
      · rw [h]; exact a2
  · intro px hpx
    obtain ⟨l, hl, rfl⟩ := (hin px).1 hpx
    have q0 := p3 (l, 0) ((hsm _).2 ⟨hl, by simp⟩) _ rfl
    have q1 := p3 (l, 1) ((hsm _).2 ⟨hl, by simp⟩) _ rfl
    have q2 := p3 (l, 2) ((hsm _).2 ⟨hl, by simp⟩) _ rfl
    simp only [hdst, hval, Nat.mul_zero, Nat.zero_add, Nat.mul_one, if_true, Nat.one_ne_zero, if_false,
      Nat.add_assoc] at q0 q1 q2
    dsimp only
    rw [Nat.add_sub_cancel_left]
    exact ⟨q0, q1, q2⟩
  · dsimp only
    rw [List.getElem?_set_self hw]
  · dsimp only
    rcases r8 with h | ⟨l, l1, l2⟩
    · have := m2 (W 0) (hmem 0 hKpos)
      omega
    · have := m2 (W l) (hmem l l1)
      omega
  · intro px hpx
    obtain ⟨l, hl, rfl⟩ := (hin px).1 hpx
    dsimp only
    rw [Nat.add_sub_cancel_left]
    have := r7 l hl
    omega
  · intro _ _
    obtain ⟨l, hl, he⟩ := hlast
    refine ⟨start + l, (hin _).2 ⟨l, hl, rfl⟩, ?_⟩
    dsimp only
    rw [Nat.add_sub_cancel_left, he]
  · intro u v hu hv huv hsh
    obtain ⟨l, hl, rfl⟩ := (hin u).1 hu
    obtain ⟨l', hl', rfl⟩ := (hin v).1 hv
    dsimp only
    rw [Nat.add_sub_cancel_left, Nat.add_sub_cancel_left]
    exact r2 l l' hl hl' (by omega) hsh
  · intro u w hu huw
    obtain ⟨l, hl, rfl⟩ := (hin u).1 hu
    dsimp only at huw
    rw [Nat.add_sub_cancel_left] at huw
    obtain ⟨l', h1, h2, h3⟩ := r3 l w hl huw
    refine ⟨start + l', (hin _).2 ⟨l', h1, rfl⟩, ?_, h3⟩
    dsimp only
    rw [Nat.add_sub_cancel_left]
    exact h2
  · dsimp only
    have hle := foldl_max_succ_le (rw_.filterMap id) s.mem.maxWave (rc + 1) (by
      intro w hw
      obtain ⟨o, ho, rfl⟩ := List.mem_filterMap.1 hw
      obtain ⟨l, hl⟩ := List.mem_iff_getElem?.1 ho
      have hlK : l < K := by
        have := (List.getElem?_eq_some_iff.1 hl).1
        omega
      rw [r6 l hlK] at hl
      have h1 := Option.some.inj (Option.some.inj hl)
      have h2 := r7 l hlK
      omega)
    obtain ⟨l, hl, he⟩ := hlast
    have hlt := wave_lt_block (bs := x.blockSize) (n := n) (b := b) (W := fun px => W (px - start))
      (fun u w hu huw => by
        obtain ⟨l, hl, rfl⟩ := (hin u).1 hu
        rw [Nat.add_sub_cancel_left] at huw
        obtain ⟨l', h1, h2, -⟩ := r3 l w hl huw
        refine ⟨start + l', (hin _).2 ⟨l', h1, rfl⟩, ?_⟩
        rw [Nat.add_sub_cancel_left]
        exact h2) ((hin _).2 ⟨l, hl, rfl⟩)
    rw [Nat.add_sub_cancel_left, he] at hlt
    omega
  · intro k hk
    refine p4 k ?_
    rintro ⟨l, c⟩ he heq
    obtain ⟨h1, h2⟩ := (hsm _).1 he
    dsimp only at h1 h2
    obtain ⟨k1, k2, k3⟩ := hk (start + l) ((hin _).2 ⟨l, h1, rfl⟩)
    have := Option.some.inj heq
    simp only [hdst] at this
    have e0 : x.num * 0 = 0 := Nat.mul_zero _
    have e1 : x.num * 1 = x.num := Nat.mul_one _
    have hc : c = 0 ∨ c = 1 ∨ c = 2 := by omega
    rcases hc with rfl | rfl | rfl <;> omega
  · intro k hk
    dsimp only
    rw [List.getElem?_set_ne (Ne.symm hk)]

end NP
