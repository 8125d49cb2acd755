import Verif.Comm.Mpi

/-!
# Every run ends as the run without buffers does
-/

set_option autoImplicit false

namespace NP

variable {M R : Type}

/-- A run that never buffers; each message counts as two. -/
inductive Drains (f : Net M R) : Nat → Net M R → Prop where
  | here : Drains f 0 f
  | take {n : Nat} {s t : Net M R} (h : Net.Take s t) (d : Drains f n t) : Drains f (n + 1) s
  | meet {n : Nat} {s t : Net M R} (h : Net.Meet s t) (d : Drains f n t) : Drains f (n + 2) s

theorem setChan_same (c : Nat → Nat → Nat → List M) (a b t : Nat) (l : List M) :
    setChan c a b t l a b t = l := by simp [setChan]

theorem setChan_other (c : Nat → Nat → Nat → List M) {a b t a' b' t' : Nat} (l : List M)
    (h : ¬ (a' = a ∧ b' = b ∧ t' = t)) : setChan c a b t l a' b' t' = c a' b' t' := by
  simp [setChan, h]

theorem setChan_comm (c : Nat → Nat → Nat → List M) {a b t a' b' t' : Nat} (l l' : List M)
    (h : ¬ (a' = a ∧ b' = b ∧ t' = t)) :
    setChan (setChan c a b t l) a' b' t' l' = setChan (setChan c a' b' t' l') a b t l := by
  funext x y z
  simp only [setChan]
  split
  · rename_i h1
    rw [if_neg]
    rintro ⟨rfl, rfl, rfl⟩
    exact h ⟨h1.1.symm, h1.2.1.symm, h1.2.2.symm⟩
  · rfl

theorem setChan_twice (c : Nat → Nat → Nat → List M) (a b t : Nat) (l l' : List M) :
    setChan (setChan c a b t l) a b t l' = setChan c a b t l' := by
  funext x y z
  simp only [setChan]
  split <;> rfl

theorem setChan_self (c : Nat → Nat → Nat → List M) {a b t : Nat} {l : List M}
    (h : c a b t = l) : setChan c a b t l = c := by
  funext x y z
  simp only [setChan]
  split
  · rename_i h1; obtain ⟨rfl, rfl, rfl⟩ := h1; exact h.symm
  · rfl

open Function in
/-- A buffered send does not lengthen the way to the end. -/
theorem drains_buffer {f : Net M R} (hf : ∀ v, ¬ Net.Step f v) {n : Nat} {s : Net M R}
    (d : Drains f n s) : ∀ {u : Net M R}, Net.Buffer s u → ∃ m, n = m + 1 ∧ Drains f m u := by
  induction d with
  | here => intro u h; exact absurd (Or.inl h) (hf u)
  | @take n s t ht d ih =>
    intro u hu
    cases ht with
    | mk b src tag m ms k hb hc =>
    cases hu with
    | mk a dst tag' m' k' ha =>
      have hab : a ≠ b := by rintro rfl; rw [ha] at hb; cases hb
      obtain ⟨j, rfl, hd⟩ := ih (Net.Buffer.mk a dst tag' m' k' (by
        simp only [Function.update_of_ne hab]; exact ha))
      refine ⟨j + 1, rfl, ?_⟩
      by_cases e : a = src ∧ dst = b ∧ tag' = tag
      · obtain ⟨rfl, rfl, rfl⟩ := e
        have := Net.Take.mk (s := ⟨update s.proc a k', setChan s.chan a dst tag'
          (s.chan a dst tag' ++ [m'])⟩) dst a tag' m (ms ++ [m']) k
          (by simp only [Function.update_of_ne hab.symm]; exact hb)
          (by simp only [setChan_same, hc]; rfl)
        refine Drains.take this ?_
        simp only [setChan_twice, setChan_same] at hd ⊢
        rwa [Function.update_comm hab]
      · have := Net.Take.mk (s := ⟨update s.proc a k', setChan s.chan a dst tag'
          (s.chan a dst tag' ++ [m'])⟩) b src tag m ms k
          (by simp only [Function.update_of_ne hab.symm]; exact hb)
          (by
            simp only
            rw [setChan_other]
            · exact hc
            · rintro ⟨e1, e2, e3⟩; exact e ⟨e1.symm, e2.symm, e3.symm⟩)
        refine Drains.take this ?_
        simp only at hd ⊢
        rw [setChan_other _ _ e] at hd
        rw [Function.update_comm hab, setChan_comm]
        · exact hd
        · rintro ⟨e1, e2, e3⟩; exact e ⟨e1.symm, e2.symm, e3.symm⟩
  | @meet n s t ht d ih =>
    intro u hu
    cases ht with
    | mk a b tag m k k' ha hb hc =>
    cases hu with
    | mk a' dst tag' m' k'' ha' =>
      have hab : a ≠ b := by rintro rfl; rw [ha] at hb; cases hb
      have hab' : a' ≠ b := by rintro rfl; rw [ha'] at hb; cases hb
      by_cases e : a' = a
      · subst e
        rw [ha] at ha'
        cases ha'
        refine ⟨n + 1, rfl, ?_⟩
        have := Net.Take.mk (s := ⟨update s.proc a' k, setChan s.chan a' b tag
          (s.chan a' b tag ++ [m])⟩) b a' tag m [] k'
          (by simp only [Function.update_of_ne hab.symm]; exact hb)
          (by simp only [setChan_same, hc]; rfl)
        refine Drains.take this ?_
        simp only [setChan_twice]
        rw [setChan_self _ hc]
        exact d
      · obtain ⟨j, rfl, hd⟩ := ih (Net.Buffer.mk a' dst tag' m' k'' (by
          simp only [Function.update_of_ne hab', Function.update_of_ne e]; exact ha'))
        refine ⟨j + 2, rfl, ?_⟩
        have := Net.Meet.mk (s := ⟨update s.proc a' k'', setChan s.chan a' dst tag'
          (s.chan a' dst tag' ++ [m'])⟩) a b tag m k k'
          (by simp only [Function.update_of_ne (Ne.symm e)]; exact ha)
          (by simp only [Function.update_of_ne hab'.symm]; exact hb)
          (by
            simp only
            rw [setChan_other]
            · exact hc
            · rintro ⟨e1, -⟩; exact e e1.symm)
        refine Drains.meet this ?_
        simp only at hd ⊢
        rw [Function.update_comm e, Function.update_comm hab']
        exact hd

open Function in
theorem drains_take {f : Net M R} (hf : ∀ v, ¬ Net.Step f v) {n : Nat} {s : Net M R}
    (d : Drains f n s) : ∀ {u : Net M R}, Net.Take s u → ∃ m, n = m + 1 ∧ Drains f m u := by
  induction d with
  | here => intro u h; exact absurd (Or.inr (Or.inl h)) (hf u)
  | @take n s t ht d ih =>
    intro u hu
    cases ht with
    | mk b src tag m ms k hb hc =>
    cases hu with
    | mk b' src' tag' m' ms' k' hb' hc' =>
      by_cases e : b' = b
      · subst e
        rw [hb] at hb'
        cases hb'
        rw [hc] at hc'
        cases hc'
        exact ⟨n, rfl, d⟩
      · obtain ⟨j, rfl, hd⟩ := ih (Net.Take.mk b' src' tag' m' ms' k'
          (by simp only [Function.update_of_ne e]; exact hb')
          (by simp only; rw [setChan_other _ _ (fun h => e h.2.1)]; exact hc'))
        refine ⟨j + 1, rfl, ?_⟩
        have := Net.Take.mk (s := ⟨update s.proc b' (k' m'), setChan s.chan src' b' tag' ms'⟩)
          b src tag m ms k (by simp only [Function.update_of_ne (Ne.symm e)]; exact hb)
          (by simp only; rw [setChan_other _ _ (fun h => e h.2.1.symm)]; exact hc)
        refine Drains.take this ?_
        simp only at hd ⊢
        rw [Function.update_comm e, setChan_comm _ _ _ (fun h => e h.2.1.symm)]
        exact hd
  | @meet n s t ht d ih =>
    intro u hu
    cases ht with
    | mk a b tag m k k' ha hb hc =>
    cases hu with
    | mk c src' tag' m' ms' k'' hb' hc' =>
      have hca : c ≠ a := by rintro rfl; rw [ha] at hb'; cases hb'
      have hcb : c ≠ b := by
        rintro rfl
        rw [hb] at hb'
        cases hb'
        rw [hc] at hc'
        cases hc'
      obtain ⟨j, rfl, hd⟩ := ih (Net.Take.mk c src' tag' m' ms' k''
        (by simp only [Function.update_of_ne hca, Function.update_of_ne hcb]; exact hb') hc')
      refine ⟨j + 2, rfl, ?_⟩
      have := Net.Meet.mk (s := ⟨update s.proc c (k'' m'), setChan s.chan src' c tag' ms'⟩)
        a b tag m k k' (by simp only [Function.update_of_ne hca.symm]; exact ha)
        (by simp only [Function.update_of_ne hcb.symm]; exact hb)
        (by simp only; rw [setChan_other _ _ (fun h => hcb h.2.1.symm)]; exact hc)
      refine Drains.meet this ?_
      simp only at hd ⊢
      rw [Function.update_comm hca, Function.update_comm hcb]
      exact hd

open Function in
theorem drains_meet {f : Net M R} (hf : ∀ v, ¬ Net.Step f v) {n : Nat} {s : Net M R}
    (d : Drains f n s) : ∀ {u : Net M R}, Net.Meet s u → ∃ m, n = m + 2 ∧ Drains f m u := by
  induction d with
  | here => intro u h; exact absurd (Or.inr (Or.inr h)) (hf u)
  | @take n s t ht d ih =>
    intro u hu
    cases ht with
    | mk c src tag' m' ms k'' hb' hc' =>
    cases hu with
    | mk a b tag m k k' ha hb hc =>
      have hca : c ≠ a := by rintro rfl; rw [ha] at hb'; cases hb'
      have hcb : c ≠ b := by
        rintro rfl
        rw [hb] at hb'
        cases hb'
        rw [hc] at hc'
        cases hc'
      obtain ⟨j, rfl, hd⟩ := ih (Net.Meet.mk a b tag m k k'
        (by simp only [Function.update_of_ne hca.symm]; exact ha)
        (by simp only [Function.update_of_ne hcb.symm]; exact hb)
        (by simp only; rw [setChan_other _ _ (fun h => hcb h.2.1.symm)]; exact hc))
      refine ⟨j + 1, rfl, ?_⟩
      have := Net.Take.mk (s := ⟨update (update s.proc a k) b (k' m), s.chan⟩)
        c src tag' m' ms k''
        (by simp only [Function.update_of_ne hca, Function.update_of_ne hcb]; exact hb') hc'
      refine Drains.take this ?_
      simp only at hd ⊢
      rw [Function.update_comm hca, Function.update_comm hcb] at hd
      exact hd
  | @meet n s t ht d ih =>
    intro u hu
    cases ht with
    | mk a b tag m k k' ha hb hc =>
    cases hu with
    | mk a' b' tag' m' l l' ha' hb' hc' =>
      by_cases e : a' = a
      · subst e
        rw [ha] at ha'
        cases ha'
        rw [hb] at hb'
        cases hb'
        exact ⟨n, rfl, d⟩
      · have hbb : b' ≠ b := by
          rintro rfl
          rw [hb] at hb'
          cases hb'
          exact e rfl
        have h1 : a' ≠ b := by rintro rfl; rw [ha'] at hb; cases hb
        have h2 : a ≠ b' := by rintro rfl; rw [ha] at hb'; cases hb'
        obtain ⟨j, rfl, hd⟩ := ih (Net.Meet.mk a' b' tag' m' l l'
          (by simp only [Function.update_of_ne h1, Function.update_of_ne e]; exact ha')
          (by simp only [Function.update_of_ne hbb, Function.update_of_ne h2.symm]; exact hb')
          hc')
        refine ⟨j + 2, rfl, ?_⟩
        have := Net.Meet.mk (s := ⟨update (update s.proc a' l) b' (l' m'), s.chan⟩) a b tag m k k'
          (by simp only [Function.update_of_ne h2, Function.update_of_ne (Ne.symm e)]; exact ha)
          (by simp only [Function.update_of_ne (Ne.symm hbb), Function.update_of_ne h1.symm]
              exact hb) hc
        refine Drains.meet this ?_
        simp only at hd ⊢
        rw [Function.update_comm h1.symm, Function.update_comm (Ne.symm e),
          Function.update_comm (Ne.symm hbb), Function.update_comm h2] at hd
        exact hd

theorem drains_run {f : Net M R} (hf : ∀ v, ¬ Net.Step f v) {n : Nat} {s u : Net M R}
    (r : Net.Run n s u) : ∀ {N : Nat}, Drains f N s → ∃ m, n + m ≤ N ∧ Drains f m u := by
  induction r with
  | refl => intro N d; exact ⟨N, by omega, d⟩
  | @step n s t u h r ih =>
    intro N d
    have : ∃ m, m + 1 ≤ N ∧ Drains f m t := by
      rcases h with h | h | h
      · obtain ⟨m, rfl, hd⟩ := drains_buffer hf d h; exact ⟨m, by omega, hd⟩
      · obtain ⟨m, rfl, hd⟩ := drains_take hf d h; exact ⟨m, by omega, hd⟩
      · obtain ⟨m, rfl, hd⟩ := drains_meet hf d h; exact ⟨m, by omega, hd⟩
    obtain ⟨m, hm, hd⟩ := this
    obtain ⟨m', hm', hd'⟩ := ih hd
    exact ⟨m', by omega, hd'⟩

/-- One run without buffers determines all runs. -/
theorem endsIn_of_drains {f s : Net M R} (hf : ∀ v, ¬ Net.Step f v) {N : Nat}
    (d : Drains f N s) : Spec.EndsIn s f := by
  refine ⟨⟨N, fun n u r => ?_⟩, hf⟩
  obtain ⟨m, hm, hd⟩ := drains_run hf r d
  refine ⟨by omega, ?_⟩
  cases hd with
  | here => exact .inl rfl
  | take h _ => exact .inr ⟨_, .inl h⟩
  | meet h _ => exact .inr ⟨_, .inr h⟩

/-- Ranks that are all done do nothing. -/
theorem no_step_of_done {f : Net M R} (h : ∀ r, ∃ x, f.proc r = .done x) (v : Net M R) :
    ¬ Net.Step f v := by
  rintro (h' | h' | h')
  · cases h' with | mk a _ _ _ _ ha => obtain ⟨x, hx⟩ := h a; rw [hx] at ha; cases ha
  · cases h' with | mk a _ _ _ _ _ ha => obtain ⟨x, hx⟩ := h a; rw [hx] at ha; cases ha
  · cases h' with | mk a _ _ _ _ _ ha => obtain ⟨x, hx⟩ := h a; rw [hx] at ha; cases ha

/-- Runs without buffers from one state to another. -/
inductive Direct : Net M R → Net M R → Prop where
  | refl (s : Net M R) : Direct s s
  | meet {s t u : Net M R} (h : Net.Meet s t) (d : Direct t u) : Direct s u

theorem Direct.trans {s t u : Net M R} (h : Direct s t) : Direct t u → Direct s u := by
  induction h with
  | refl => exact id
  | meet h _ ih => exact fun d => .meet h (ih d)

theorem Direct.drains {s f : Net M R} (h : Direct s f) : ∃ n, Drains f n s := by
  induction h with
  | refl => exact ⟨0, .here⟩
  | meet h _ ih => obtain ⟨n, hn⟩ := ih; exact ⟨n + 2, .meet h hn⟩

theorem endsIn_of_direct {s f : Net M R} (h : Direct s f)
    (hf : ∀ r, ∃ x, f.proc r = .done x) : Spec.EndsIn s f := by
  obtain ⟨n, hn⟩ := h.drains
  exact endsIn_of_drains (no_step_of_done hf) hn

end NP
