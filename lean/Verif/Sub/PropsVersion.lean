import Verif.Sub.LemmasVersion
import Verif.Sub.Props

/-!
# C24: sub groups are refreshed after every change
-/

set_option autoImplicit false

namespace NP

open Spec

variable {D S X : Type}

/-- After any history, using a sub group gives a selection recomputed from the present data.

Partial: `OpAllowed` excludes other writes that do not call the write callback (`CellDat::set_value`,
and pointers obtained before a later write through the API), removing and adding again a property
on which a sub group depends, and ending the static status of a sub group that has sub groups of
its own. The four theorems `C24_stale_…` below show that in these cases the property does not hold
of the code. -/
theorem C24_current_partial {w w' : GroupWorld D S X} (hw : SubHistory w) {i : Nat} {x : X}
    (hu : useSub w i = some (w', x)) :
    Recomputed w' i x ∧ w'.data = w.data ∧ w'.cells = w.cells := by
  unfold useSub at hu
  simp only [Option.bind_eq_some_iff, Option.some.injEq, Prod.mk.injEq] at hu
  obtain ⟨w1, h1, n, hn, y, hy, rfl, rfl⟩ := hu
  obtain ⟨-, r⟩ := refresh_inv (history_inv hw).1 h1
  obtain ⟨-, z, hz, hz2⟩ := r.ok n hn
  rw [hy] at hz
  obtain rfl := Option.some.inj hz
  exact ⟨hz2, r.struct.data, r.struct.cells⟩

/-- Without static sub groups every use succeeds. -/
theorem C24_use_succeeds {w : GroupWorld D S X} (hw : SubHistory w)
    (hs : ∀ n ∈ w.subs, n.static = false) {i : Nat} (hi : i < w.subs.length) :
    ∃ w' x, useSub w i = some (w', x) := by
  obtain ⟨w', h1, -, -, n, x, h2, h3⟩ := refresh_total (d := i + 1)
    (canRefresh_of (history_inv hw).1 hs (i + 1)) (Nat.lt_succ_self i) hi
  exact ⟨w', x, by simp [useSub, h1, rd, h2, h3]⟩

/-- For a sub group of the whole group made by a condition on a particle property: after any
history, using it gives exactly the particles which are in the group now and whose present value
satisfies the condition, each once. `env` are the schedules and memory of each run. -/
theorem C24_select_partial {w w' : GroupWorld (Nat → Nat → Int) (List Nat) Selection}
    (hw : SubHistory w) {i sym : Nat} {n : SubNode (Nat → Nat → Int) (List Nat) Selection}
    (hn : w.subs[i]? = some n) (hst : n.static = false)
    (env : Nat → List Nat → SelEnv) (henv : ∀ r, SelOk (env r w.cells) w.cells)
    (cond : Int → Bool) (dflt : Selection)
    (hmake : n.make = fun r _ d c =>
      (selectCreate (env r c) c .whole (fun cell l => cond (d sym cell l))).getD dflt)
    {x : Selection} (hu : useSub w i = some (w', x)) :
    NoRepeats x ∧ ∀ c l, InParent w.cells (.sub x) c l ↔
      InParent w.cells .whole c l ∧ cond (w.data sym c l) = true := by
  obtain ⟨h1, h2, h3⟩ := C24_current_partial hw hu
  unfold useSub at hu
  simp only [Option.bind_eq_some_iff, Option.some.injEq, Prod.mk.injEq] at hu
  obtain ⟨w1, hr, -, -, -, -, rfl, -⟩ := hu
  obtain ⟨-, r⟩ := refresh_inv (history_inv hw).1 hr
  cases h1 with
  | static hm hs hx =>
    rename_i m
    have := (r.struct.node i n m hn hm).2.2.2.1
    rw [hs, hst] at this; cases this
  | made run xs hm hs hl hp =>
    rename_i m
    rw [(r.struct.node i n m hn hm).2.2.1, hmake, h2, h3]
    obtain ⟨sel, e1, e2, e3⟩ := C21_members (henv run) .whole
      (fun cell l => cond (w.data sym cell l))
    simp only [e1, Option.getD_some]
    exact ⟨e2, e3⟩

namespace Ex

/-- The particles of three cells with property 4 positive. -/
def positiveMake : Nat → List Selection → (Nat → Nat → Nat → Int) → List Nat → Selection :=
  fun _ _ d c => (selectCreate (subEnv c.length) c .whole
    (fun cell l => decide (0 < d 4 cell l))).getD ⟨0, [], [], [], [], []⟩

/-- The group with `subCounts`, all values 1, after making that sub group. -/
def positiveWorld : GroupWorld (Nat → Nat → Int) (List Nat) Selection :=
  ⟨fun _ _ _ => 1, subCounts, fun _ => (1, false), 1, [⟨[], [4], positiveMake, [(4, 0)], 0, false, none⟩], 0⟩

theorem positiveWorld_history : SubHistory positiveWorld := ⟨_,
  .step (.add [] [4] positiveMake) (.init (fun _ _ _ => 1) subCounts)
    (fun _ _ d d' _ h => by simp only [positiveMake, h 4 (by simp)]) rfl⟩

/-- The property is negated by a kernel for odd layers, and then the sub group is used. -/
example (w w' : GroupWorld (Nat → Nat → Int) (List Nat) Selection) (x : Selection)
    (h : stepSub (.write 4 fun _ l => if l % 2 = 0 then 1 else -1) positiveWorld = some w)
    (hu : useSub w 0 = some (w', x)) : NoRepeats x ∧
      ∀ c l, InParent w.cells (.sub x) c l ↔
        InParent w.cells .whole c l ∧ decide (0 < w.data 4 c l) = true := by
  have hw : SubHistory w := by
    obtain ⟨live, h0⟩ := positiveWorld_history
    exact ⟨_, .step (.write 4 _) h0 trivial h⟩
  obtain rfl := Option.some.inj h
  exact C24_select_partial hw (i := 0) (sym := 4) rfl rfl (fun _ c => subEnv c.length)
    (fun _ => subEnv_ok subCounts (by decide)) (fun v => decide (0 < v)) _ rfl hu

example : ((stepSub (.write 4 fun _ l => if l % 2 = 0 then 1 else -1) positiveWorld).bind
    fun w => (useSub w 0).map Prod.snd) = some subSel := by decide +kernel

end Ex

/-- Refreshing leaves static sub groups and the group version alone. -/
theorem refresh_static {d : Nat} : ∀ {j : Nat} {w w' : GroupWorld D S X},
    refresh d j w = some w' → w'.groupVersion = w.groupVersion ∧
      ∀ (i : Nat) (n : SubNode D S X), w.subs[i]? = some n → n.static = true →
        w'.subs[i]? = some n := by
  induction d with
  | zero => intro j w w' h; simp [refresh] at h
  | succ d ih =>
    intro j w w' h
    unfold refresh at h
    rw [Option.bind_eq_some_iff] at h
    obtain ⟨m, hm, h⟩ := h
    change w.subs[j]? = some m at hm
    have hj : j < w.subs.length := (List.getElem?_eq_some_iff.1 hm).1
    by_cases hv : isValid w m = true
    swap
    · rw [if_neg hv] at h; cases h
    rw [if_pos hv] at h
    by_cases hst : m.static = true
    · rw [if_pos hst] at h
      obtain rfl := Option.some.inj h
      exact ⟨rfl, fun _ _ h _ => h⟩
    rw [if_neg hst] at h
    dsimp only at h
    have ne : ∀ (i : Nat) (n : SubNode D S X), w.subs[i]? = some n → n.static = true → i ≠ j := by
      rintro i n hn hs rfl
      rw [hm] at hn
      obtain rfl := Option.some.inj hn
      exact hst hs
    split at h
    · simp only [Option.bind_eq_some_iff] at h
      obtain ⟨w2, h2, xs, -, e⟩ := h
      have key : ∀ (ps : List Nat) (v v' : GroupWorld D S X), runItems (refresh d) ps v = some v' →
          v'.groupVersion = v.groupVersion ∧ ∀ (i : Nat) (n : SubNode D S X),
            v.subs[i]? = some n → n.static = true → v'.subs[i]? = some n := by
        intro ps
        induction ps with
        | nil =>
          intro v v' hv
          obtain rfl := Option.some.inj hv
          exact ⟨rfl, fun _ _ h _ => h⟩
        | cons p ps ihp =>
          intro v v' hv
          rw [runItems_cons, Option.bind_eq_some_iff] at hv
          obtain ⟨u, hu, hv⟩ := hv
          obtain ⟨a1, a2⟩ := ih hu
          obtain ⟨b1, b2⟩ := ihp u v' hv
          exact ⟨b1.trans a1, fun i n h hs => b2 i n (a2 i n h hs) hs⟩
      obtain ⟨k1, k2⟩ := key _ _ _ h2
      obtain rfl := Option.some.inj e
      refine ⟨k1, ?_⟩
      intro i n hn hs
      have hij := ne i n hn hs
      have h3 := k2 i n (by rw [getElem?_setSub w j i _ hj, if_neg hij]; exact hn) hs
      change (w2.subs.set j _)[i]? = some n
      rw [List.getElem?_set, if_neg (fun e => hij e.symm)]
      exact h3
    · obtain rfl := Option.some.inj h
      refine ⟨rfl, ?_⟩
      intro i n hn hs
      rw [getElem?_setSub w j i _ hj, if_neg (ne i n hn hs)]
      exact hn

/-- One operation on a world with a static sub group. -/
theorem static_step {w w' : GroupWorld D S X} {op : SubOp D S X} (h : stepSub op w = some w')
    {i : Nat} {n : SubNode D S X} (hn : w.subs[i]? = some n) (hs : n.static = true)
    (hop : ∀ j, op = .setStatic j false → j ≠ i) :
    w'.subs[i]? = some n ∧ w.groupVersion ≤ w'.groupVersion ∧
      ((∃ d c, op = .change d c) → w.groupVersion < w'.groupVersion) ∧
      ((∀ d c, op ≠ .change d c) → w'.groupVersion = w.groupVersion) := by
  cases op with
  | add parents own make =>
    simp only [stepSub, Option.bind_eq_some_iff] at h
    obtain ⟨t, -, e⟩ := h
    obtain rfl := Option.some.inj e
    refine ⟨?_, Int.le_refl _, by simp, fun _ => rfl⟩
    change (w.subs ++ _)[i]? = _
    rw [List.getElem?_append_left (List.getElem?_eq_some_iff.1 hn).1]; exact hn
  | write s v => obtain rfl := Option.some.inj h; exact ⟨hn, Int.le_refl _, by simp, fun _ => rfl⟩
  | takePointer s => obtain rfl := Option.some.inj h; exact ⟨hn, Int.le_refl _, by simp, fun _ => rfl⟩
  | poke s v => obtain rfl := Option.some.inj h; exact ⟨hn, Int.le_refl _, by simp, fun _ => rfl⟩
  | replace s v => obtain rfl := Option.some.inj h; exact ⟨hn, Int.le_refl _, by simp, fun _ => rfl⟩
  | change d c =>
    obtain rfl := Option.some.inj h
    have := bumpGroup_lt w.groupVersion
    exact ⟨hn, Int.le_of_lt this, fun _ => this, fun hh => absurd rfl (hh d c)⟩
  | use j =>
    obtain ⟨a, b⟩ := refresh_static h
    exact ⟨b i n hn hs, Int.le_of_eq a.symm, by simp, fun _ => a⟩
  | setStatic j b =>
    simp only [stepSub, Option.bind_eq_some_iff] at h
    obtain ⟨m, hm, h⟩ := h
    by_cases hb : m.static = b
    · rw [if_pos hb] at h
      obtain rfl := Option.some.inj h
      exact ⟨hn, Int.le_refl _, by simp, fun _ => rfl⟩
    · rw [if_neg hb, Option.bind_eq_some_iff] at h
      obtain ⟨w1, h1, h⟩ := h
      have hne : j ≠ i := by
        rintro rfl
        change w.subs[j]? = some m at hm
        rw [hn] at hm
        obtain rfl := Option.some.inj hm
        rw [hs] at hb
        cases b with
        | true => exact hb rfl
        | false => exact hop j rfl rfl
      have h1' : w1.groupVersion = w.groupVersion ∧ w1.subs[i]? = some n := by
        cases b with
        | true =>
          rw [if_pos rfl] at h1
          obtain ⟨a, b⟩ := refresh_static h1
          exact ⟨a, b i n hn hs⟩
        | false =>
          simp only [Bool.false_eq_true, if_false, Option.some.injEq] at h1
          subst h1
          exact ⟨rfl, hn⟩
      rw [Option.bind_eq_some_iff] at h
      obtain ⟨n1, hn1, e⟩ := h
      obtain rfl := Option.some.inj e
      refine ⟨?_, Int.le_of_eq h1'.1.symm, by simp, fun _ => h1'.1⟩
      change (w1.subs.set j _)[i]? = some n
      rw [List.getElem?_set, if_neg hne]
      exact h1'.2

theorem static_run {ops : List (SubOp D S X)} : ∀ {w w' : GroupWorld D S X},
    runItems stepSub ops w = some w' → ∀ {i : Nat} {n : SubNode D S X}, w.subs[i]? = some n →
    n.static = true → (SubOp.setStatic i false ∉ ops) →
    w'.subs[i]? = some n ∧ w.groupVersion ≤ w'.groupVersion ∧
      ((∃ d c, SubOp.change d c ∈ ops) → w.groupVersion < w'.groupVersion) ∧
      ((∀ d c, SubOp.change d c ∉ ops) → w'.groupVersion = w.groupVersion) := by
  induction ops with
  | nil =>
    intro w w' h i n hn _ _
    obtain rfl := Option.some.inj h
    exact ⟨hn, Int.le_refl _, by simp, fun _ => rfl⟩
  | cons op ops ih =>
    intro w w' h i n hn hs hop
    rw [runItems_cons, Option.bind_eq_some_iff] at h
    obtain ⟨u, hu, h⟩ := h
    obtain ⟨a1, a2, a3, a4⟩ := static_step hu hn hs (by
      rintro j rfl rfl
      exact hop List.mem_cons_self)
    obtain ⟨b1, b2, b3, b4⟩ := ih h a1 hs (fun hh => hop (List.mem_cons_of_mem _ hh))
    refine ⟨b1, Int.le_trans a2 b2, ?_, ?_⟩
    · rintro ⟨d, c, hm⟩
      rcases List.mem_cons.1 hm with e | hm
      · have := a3 ⟨d, c, e.symm⟩
        omega
      · have := b3 ⟨d, c, hm⟩
        omega
    · intro hh
      have e1 := a4 (fun d c e => hh d c (by rw [e]; exact List.mem_cons_self))
      have e2 := b4 (fun d c hm => hh d c (List.mem_cons_of_mem _ hm))
      omega

/-- A sub group made static keeps the selection it then had, recomputed from the data of that
moment, whatever is written later and however other sub groups are used, as long as no particles
are added, removed or moved. -/
theorem C24_static_kept {w0 w w' : GroupWorld D S X} (hw : SubHistory w0) {i : Nat}
    {n0 : SubNode D S X} (hn0 : w0.subs[i]? = some n0) (hst : n0.static = false)
    (h : stepSub (.setStatic i true) w0 = some w) {ops : List (SubOp D S X)}
    (hr : runItems stepSub ops w = some w') (h1 : SubOp.setStatic i false ∉ ops)
    (h2 : ∀ d c, SubOp.change d c ∉ ops) :
    ∃ w1 x, useSub w0 i = some (w1, x) ∧ Recomputed w1 i x ∧ useSub w' i = some (w', x) := by
  simp only [stepSub, Option.bind_eq_some_iff] at h
  obtain ⟨m, hm, h⟩ := h
  change w0.subs[i]? = some m at hm
  rw [hn0] at hm
  obtain rfl := Option.some.inj hm
  rw [if_neg (by simp [hst]), if_pos trivial, Option.bind_eq_some_iff] at h
  obtain ⟨w1, h1', h⟩ := h
  rw [Option.bind_eq_some_iff] at h
  obtain ⟨n1, hn1, e⟩ := h
  obtain rfl := Option.some.inj e
  change w1.subs[i]? = some n1 at hn1
  obtain ⟨-, r⟩ := refresh_inv (history_inv hw).1 h1'
  obtain ⟨k1, x, k2, k3⟩ := r.ok n1 hn1
  have hn1s : n1.static = false := by rw [(r.struct.node i n0 n1 hn0 hn1).2.2.2.1, hst]
  have hup : UpTo w1 n1 := by
    rcases k1 with k | k
    · rw [hn1s] at k; cases k
    · exact k
  have hi : i < w1.subs.length := (List.getElem?_eq_some_iff.1 hn1).1
  obtain ⟨b1, -, -, b4⟩ := static_run hr (i := i) (n := { n1 with static := true })
    (by rw [getElem?_setSub w1 i i _ hi, if_pos rfl]) rfl h1
  have hg : w'.groupVersion = n1.groupVersion := (b4 h2).trans hup.2.symm
  refine ⟨w1, x, by simp [useSub, h1', rd, hn1, k2], k3, ?_⟩
  have hv : isValid w' { n1 with static := true } = true := by
    simp [isValid, checkGroup, hg]
  have hf : refresh (i + 1) i w' = some w' := by
    unfold refresh
    simp only [rd, b1, Option.bind_some, hv, if_true]
  simp [useSub, hf, rd, b1, k2]

/-- When particles were added, removed or moved after a sub group was made static, using it fails
an assertion instead of giving a stale selection. -/
theorem C24_static_invalid {w0 w w' : GroupWorld D S X} (hw : SubHistory w0) {i : Nat}
    {n0 : SubNode D S X} (hn0 : w0.subs[i]? = some n0) (hst : n0.static = false)
    (h : stepSub (.setStatic i true) w0 = some w) {ops : List (SubOp D S X)}
    (hr : runItems stepSub ops w = some w') (h1 : SubOp.setStatic i false ∉ ops)
    (h2 : ∃ d c, SubOp.change d c ∈ ops) : useSub w' i = none := by
  simp only [stepSub, Option.bind_eq_some_iff] at h
  obtain ⟨m, hm, h⟩ := h
  change w0.subs[i]? = some m at hm
  rw [hn0] at hm
  obtain rfl := Option.some.inj hm
  rw [if_neg (by simp [hst]), if_pos trivial, Option.bind_eq_some_iff] at h
  obtain ⟨w1, h1', h⟩ := h
  rw [Option.bind_eq_some_iff] at h
  obtain ⟨n1, hn1, e⟩ := h
  obtain rfl := Option.some.inj e
  change w1.subs[i]? = some n1 at hn1
  obtain ⟨q, r⟩ := refresh_inv (history_inv hw).1 h1'
  have hi : i < w1.subs.length := (List.getElem?_eq_some_iff.1 hn1).1
  obtain ⟨b1, -, b3, -⟩ := static_run hr (i := i) (n := { n1 with static := true })
    (by rw [getElem?_setSub w1 i i _ hi, if_pos rfl]) rfl h1
  have hlt := b3 h2
  have hle := (q.wf.le i n1 hn1).2
  change w1.groupVersion < w'.groupVersion at hlt
  have hv : isValid w' { n1 with static := true } = false := by
    have : w'.groupVersion ≠ n1.groupVersion := by omega
    simp [isValid, checkGroup, this]
  have hf : refresh (i + 1) i w' = none := by
    unfold refresh
    simp only [rd, b1, Option.bind_some, hv, Bool.false_eq_true, if_false]
  simp [useSub, hf]

/-! ## Concrete histories -/

namespace Ex

/-- A sub group reads property 0; its selection is the value itself. -/
def readMake : Nat → List Nat → (Nat → Nat) → Nat → Nat := fun _ _ d _ => d 0

/-- A sub group of a sub group: ten times the selection of the parent plus the number of
cells. -/
def childMake : Nat → List Nat → (Nat → Nat) → Nat → Nat := fun _ xs _ c => 10 * xs.headD 0 + c

/-- A group with all properties 7 and 2 cells. -/
def start : GroupWorld Nat Nat Nat := GroupWorld.init (fun _ => 7) 2

/-- Makes the two sub groups and uses both. -/
def twoSubs : List (SubOp Nat Nat Nat) :=
  [.add [] [0] readMake, .add [0] [] childMake, .use 1]

/-- The selections seen by a use at the end. -/
def seen (ops : List (SubOp Nat Nat Nat)) (i : Nat) : Option Nat :=
  (runItems stepSub ops start).bind fun w => (useSub w i).map Prod.snd

theorem history_of_run {ops : List (SubOp Nat Nat Nat)} {live : Nat → Bool}
    {w w' : GroupWorld Nat Nat Nat} (hw : SubRun live w)
    (ha : ∀ (k : Nat) (op : SubOp Nat Nat Nat), ops[k]? = some op →
      ∀ u, OpAllowed ((ops.take k).foldl livePointers live) u op)
    (h : runItems stepSub ops w = some w') : SubHistory w' := by
  induction ops generalizing w live with
  | nil => obtain rfl := Option.some.inj h; exact ⟨live, hw⟩
  | cons op ops ih =>
    rw [runItems_cons, Option.bind_eq_some_iff] at h
    obtain ⟨u, hu, h⟩ := h
    exact ih (.step op hw (ha 0 op rfl w) hu) (fun k o ho => ha (k + 1) o ho) h

/-- A history with a write, a group change and uses: its last state meets the hypotheses of
`C24_current_partial`, and uses see the present data. A pointer is taken and written through. -/
def busyOps : List (SubOp Nat Nat Nat) :=
  twoSubs ++ [.write 0 8, .takePointer 0, .use 1, .write 1 3, .poke 0 5]

/-- A property on which no sub group depends may be removed and added again. -/
example (w : GroupWorld Nat Nat Nat) (live : Nat → Bool) (h : SubRun live w)
    (hn : ∀ n ∈ w.subs, n.tracker.map Prod.fst = [0]) :
    ∃ w', stepSub (.replace 1 4) w = some w' ∧ SubHistory w' :=
  ⟨_, rfl, _, .step (.replace 1 4) h (fun n hm => by rw [hn n hm]; decide) rfl⟩

example : ∃ w, runItems stepSub busyOps start = some w ∧ SubHistory w ∧
    (∀ n ∈ w.subs, n.static = false) ∧ w.subs.length = 2 := by
  refine ⟨_, rfl, history_of_run (ops := busyOps) (w := start) (.init _ _) ?_ rfl, ?_, rfl⟩
  · intro k op hop u
    have hk : k < 8 := (List.getElem?_eq_some_iff.1 hop).1
    match k, hk with
    | 0, _ => obtain rfl := Option.some.inj hop; intro run xs d d' c h; exact h 0 (by simp)
    | 1, _ => obtain rfl := Option.some.inj hop; intro run xs d d' c h; rfl
    | 2, _ => obtain rfl := Option.some.inj hop; trivial
    | 3, _ => obtain rfl := Option.some.inj hop; trivial
    | 4, _ => obtain rfl := Option.some.inj hop; trivial
    | 5, _ => obtain rfl := Option.some.inj hop; trivial
    | 6, _ => obtain rfl := Option.some.inj hop; trivial
    | 7, _ => obtain rfl := Option.some.inj hop; rfl
  · intro n hn
    have : ∀ m ∈ (((runItems stepSub busyOps start).map GroupWorld.subs).getD []).map
        SubNode.static, m = false := by decide
    exact this n.static (List.mem_map.2 ⟨n, hn, rfl⟩)

example : seen busyOps 1 = some 52 ∧ seen twoSubs 1 = some 72 ∧
    seen (twoSubs ++ [.write 0 8]) 1 = some 82 ∧ seen (twoSubs ++ [.write 1 8]) 1 = some 72 := by
  decide

/-- A static sub group keeps 7 after a write and fails after a group change. -/
example : seen (twoSubs ++ [.setStatic 0 true, .write 0 8]) 0 = some 7 ∧
    seen (twoSubs ++ [.setStatic 0 true, .write 0 8, .change (fun _ => 1) 2]) 0 = none := by
  decide

theorem recomputed_read {w : GroupWorld Nat Nat Nat} {i x : Nat} {n : SubNode Nat Nat Nat}
    (hn : w.subs[i]? = some n) (hs : n.static = false) (hm : n.make = readMake)
    (h : Recomputed w i x) : x = w.data 0 := by
  cases h with
  | static h1 h2 h3 => rw [hn] at h1; obtain rfl := Option.some.inj h1; rw [hs] at h2; cases h2
  | made run xs h1 h2 h3 h4 =>
    rw [hn] at h1; obtain rfl := Option.some.inj h1
    rw [hm]; rfl

theorem recomputed_child {w : GroupWorld Nat Nat Nat} {x : Nat} {m n : SubNode Nat Nat Nat}
    (hm : w.subs[0]? = some m) (hms : m.static = false) (hmm : m.make = readMake)
    (hn : w.subs[1]? = some n) (hs : n.static = false) (hp : n.parents = [0])
    (hnm : n.make = childMake) (h : Recomputed w 1 x) : x = 10 * w.data 0 + w.cells := by
  cases h with
  | static h1 h2 h3 => rw [hn] at h1; obtain rfl := Option.some.inj h1; rw [hs] at h2; cases h2
  | made run xs h1 h2 h3 h4 =>
    rw [hn] at h1; obtain rfl := Option.some.inj h1
    rw [hp] at h3 h4
    match xs, h3 with
    | [z], _ =>
      have hz := recomputed_read hm hms hmm (h4 0 0 z rfl rfl)
      rw [hnm, hz]; rfl

end Ex

/-- `CellDat::set_value` writes without the write callback (cell_dat.hpp:523): a sub group
used before and after it keeps the old selection. -/
theorem C24_stale_set_value : ∃ (w w' : GroupWorld Nat Nat Nat) (x : Nat),
    runItems stepSub [.add [] [0] Ex.readMake, .use 0, .poke 0 5] Ex.start = some w ∧
    useSub w 0 = some (w', x) ∧ ¬ Recomputed w' 0 x := by
  refine ⟨_, _, _, rfl, rfl, ?_⟩
  intro h
  have := Ex.recomputed_read (i := 0) rfl rfl rfl h
  revert this
  decide

/-- A pointer from `device_ptr` is used after a write through the API: the write has cleared the
mark that sub groups are always to be made anew, and the pointer's write is missed. -/
theorem C24_stale_pointer : ∃ (w w' : GroupWorld Nat Nat Nat) (x : Nat),
    runItems stepSub [.add [] [0] Ex.readMake, .takePointer 0, .write 0 6, .use 0, .poke 0 5]
      Ex.start = some w ∧
    useSub w 0 = some (w', x) ∧ ¬ Recomputed w' 0 x := by
  refine ⟨_, _, _, rfl, rfl, ?_⟩
  intro h
  have := Ex.recomputed_read (i := 0) rfl rfl rfl h
  revert this
  decide

/-- A property is written once, the sub group that depends on it is used, the property is removed
and added again and written once: it has the same version as before, and the sub group keeps the
old selection. -/
theorem C24_stale_added_again : ∃ (w w' : GroupWorld Nat Nat Nat) (x : Nat),
    runItems stepSub [.add [] [0] Ex.readMake, .write 0 6, .use 0, .replace 0 0, .write 0 5]
      Ex.start = some w ∧
    useSub w 0 = some (w', x) ∧ x = 6 ∧ w'.data 0 = 5 ∧ ¬ Recomputed w' 0 x := by
  refine ⟨_, _, _, rfl, rfl, rfl, rfl, ?_⟩
  intro h
  have := Ex.recomputed_read (i := 0) rfl rfl rfl h
  revert this
  decide

/-- A sub group of a static sub group was used after a write; then the parent stops being
static. Using the parent sees the new data but using the child does not. -/
theorem C24_stale_static_parent : ∃ (w w' w'' : GroupWorld Nat Nat Nat) (x y : Nat),
    runItems stepSub (Ex.twoSubs ++ [.setStatic 0 true, .write 0 8, .use 1, .setStatic 0 false])
      Ex.start = some w ∧
    useSub w 0 = some (w', x) ∧ useSub w' 1 = some (w'', y) ∧ x = 8 ∧ y = 72 ∧
    ¬ Recomputed w'' 1 y := by
  refine ⟨_, _, _, _, _, rfl, rfl, rfl, rfl, rfl, ?_⟩
  intro h
  have := Ex.recomputed_child rfl rfl rfl rfl rfl rfl rfl h
  revert this
  decide

end NP
