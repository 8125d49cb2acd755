import Verif.Loop.SpecLocalMem
import Verif.Loop.Props
import Mathlib.Tactic.Ring

/-! Lemmas on the local memory of particle loops. -/

set_option autoImplicit false

namespace NP

open Spec

theorem foldl_bytes (args : List LoopArg) (n : Nat) :
    args.foldl (fun n a => n + a.bytes) n = n + bytesPerParticle args := by
  unfold bytesPerParticle
  induction args generalizing n with
  | nil => simp
  | cons a t ih => simp only [List.foldl_cons, ih, List.map_cons, List.sum_cons]; omega

theorem numLocal_spec {lm off B d n : Nat} (h : getNumLocalWorkItems lm off B d = some n) :
    (B = 0 → n = d) ∧
    (0 < B → 0 < n ∧ n ≤ d ∧ n * B + off ≤ lm ∧
      (n < d → (∃ k, n = 2 ^ k) ∧ lm < 2 * n * B + off)) := by
  unfold getNumLocalWorkItems at h
  split at h
  · rename_i hB
    obtain rfl := Option.some.inj h
    exact ⟨fun _ => rfl, fun h => absurd hB (by omega)⟩
  rename_i hB
  refine ⟨fun h => absurd h hB, fun hB => ?_⟩
  split at h
  · exact absurd h (by simp)
  rename_i ho
  simp only at h
  split at h
  · exact absurd h (by simp)
  rename_i hm
  split at h
  · exact absurd h (by simp)
  rename_i hn
  split at h
  · exact absurd h (by simp)
  rename_i hf
  obtain rfl := Option.some.inj h
  refine ⟨Nat.pos_of_ne_zero hn, Nat.min_le_left _ _, by omega, fun hlt => ?_⟩
  have e : min d (2 ^ Nat.log 2 ((lm - off) / B)) = 2 ^ Nat.log 2 ((lm - off) / B) := by
    generalize 2 ^ Nat.log 2 ((lm - off) / B) = q at hlt ⊢
    omega
  rw [e]
  refine ⟨⟨_, rfl⟩, ?_⟩
  have h1 := Nat.lt_pow_succ_log_self (b := 2) (by omega) ((lm - off) / B)
  rw [Nat.pow_succ] at h1
  have h2 := (Nat.div_lt_iff_lt_mul hB).1 h1
  have h3 : 2 ^ Nat.log 2 ((lm - off) / B) * 2 * B = 2 * 2 ^ Nat.log 2 ((lm - off) / B) * B := by
    ring
  omega

theorem numLocal_none {lm off B d : Nat} :
    getNumLocalWorkItems lm off B d = none ↔ 0 < B ∧ (d = 0 ∨ lm < off + B) := by
  unfold getNumLocalWorkItems
  split
  · rename_i hB; simp; omega
  rename_i hB
  have hB : 0 < B := by omega
  split
  · simp; omega
  rename_i ho
  simp only
  split
  · rename_i hm
    rw [Nat.div_eq_zero_iff] at hm
    simp; omega
  rename_i hm
  have hge : off + B ≤ lm := by
    by_contra hc
    exact hm (Nat.div_eq_of_lt (by omega))
  have hp : 0 < 2 ^ Nat.log 2 ((lm - off) / B) := Nat.pow_pos (by omega)
  split
  · simp; omega
  rename_i hn
  have hle : 2 ^ Nat.log 2 ((lm - off) / B) * B ≤ lm - off :=
    le_trans (Nat.mul_le_mul_right B (Nat.pow_log_le_self 2 hm)) (Nat.div_mul_le_self _ _)
  have hmin : min d (2 ^ Nat.log 2 ((lm - off) / B)) * B ≤
      2 ^ Nat.log 2 ((lm - off) / B) * B := Nat.mul_le_mul_right B (Nat.min_le_right _ _)
  split
  · omega
  · simp; omega

theorem bytesPerGroup_eq (n : Nat) (args : List LoopArg) :
    bytesPerGroup n args = n * bytesPerParticle args := by
  unfold bytesPerGroup bytesPerParticle
  induction args with
  | nil => rfl
  | cons a t ih =>
    simp only [List.map_cons, List.sum_cons, ih, Nat.mul_add]
    congr 1
    cases a <;> simp only [LoopArg.accessor, elementBytes, LoopArg.bytes] <;> ring

/-! ## The calls of a launch -/

theorem getGeneric_localSize_le {lmem : Nat} {npart : List Nat} {cs ce nbin ls nb S : Nat}
    {bs : List LoopBlock} (h : getGeneric lmem npart cs ce nbin ls nb S = some bs) :
    ∀ b ∈ bs, b.localSize ≤ ls := by
  unfold getGeneric at h
  obtain ⟨ls', h1, h⟩ := Option.bind_eq_some_iff.1 h
  have hle : ls' ≤ ls := by
    unfold loopLocalSize at h1
    simp only at h1
    split at h1
    · exact absurd h1 (by simp)
    obtain ⟨mb, -, h1⟩ := Option.bind_eq_some_iff.1 h1
    obtain ⟨p, -, h1⟩ := Option.bind_eq_some_iff.1 h1
    split at h1
    · obtain rfl := Option.some.inj h1; omega
    · exact absurd h1 (by simp)
  split at h
  · exact absurd h (by simp)
  obtain ⟨r, -, h⟩ := Option.bind_eq_some_iff.1 h
  obtain ⟨mm, -, h⟩ := Option.bind_eq_some_iff.1 h
  obtain ⟨pp, -, h⟩ := Option.bind_eq_some_iff.1 h
  simp only at h
  generalize hL : (if 2 * pp < ls' then 2 * pp else ls') = L at h
  have hLle : L ≤ ls := by rw [← hL]; split <;> omega
  split at h
  · obtain rfl := Option.some.inj h; simp
  split at h
  · exact absurd h (by simp)
  obtain ⟨peel, hp, h⟩ := Option.bind_eq_some_iff.1 h
  obtain rfl := Option.some.inj h
  intro b hb
  rcases List.mem_append.1 hb with hb | hb
  · split at hb
    · simp only [List.mem_singleton] at hb; subst hb; exact hLle
    · simp at hb
  · have hmem : ∀ {is : List Nat} {l : List LoopBlock} {f : Nat → Option (List LoopBlock)},
        collectM f is = some l → b ∈ l → ∃ i y, f i = some y ∧ b ∈ y := by
      intro is
      induction is with
      | nil => intro l f h hx; obtain rfl := Option.some.inj h; simp at hx
      | cons i is ih =>
        intro l f h hx
        obtain ⟨y, h1, h⟩ := Option.bind_eq_some_iff.1 h
        obtain ⟨ys, h2, h⟩ := Option.bind_eq_some_iff.1 h
        obtain rfl := Option.some.inj h
        rcases List.mem_append.1 hx with hx | hx
        · exact ⟨i, y, h1, hx⟩
        · exact ih h2 hx
    obtain ⟨i, y, hy, hby⟩ := hmem hp hb
    unfold peelBlock at hy
    obtain ⟨r', -, hy⟩ := Option.bind_eq_some_iff.1 hy
    obtain ⟨mo, -, hy⟩ := Option.bind_eq_some_iff.1 hy
    simp only at hy
    split at hy
    · exact absurd hy (by simp)
    split at hy
    · obtain ⟨m, -, hy⟩ := Option.bind_eq_some_iff.1 hy
      obtain ⟨g, -, hy⟩ := Option.bind_eq_some_iff.1 hy
      obtain rfl := Option.some.inj hy
      simp only [List.mem_singleton] at hby
      subst hby; exact hLle
    · obtain rfl := Option.some.inj hy; simp at hby

theorem submitBlocks_localSize_le {P : LoopParams} {npartLb : List Nat} {hasGroup : Bool}
    {npartLocal stride : Nat} {cs ce : Option Int} {bs : List LoopBlock}
    (h : submitBlocks P npartLb hasGroup npartLocal stride cs ce = some bs) :
    ∀ b ∈ bs, b.localSize ≤ P.localSize := by
  unfold submitBlocks at h
  obtain ⟨r, -, h⟩ := Option.bind_eq_some_iff.1 h
  obtain ⟨e, -, h⟩ := Option.bind_eq_some_iff.1 h
  split at h
  · obtain rfl := Option.some.inj h; simp
  split at h
  · exact getGeneric_localSize_le h
  · exact getGeneric_localSize_le h

theorem collectM_mem {ι β : Type _} {f : ι → Option (List β)} {is : List ι} {l : List β}
    (h : collectM f is = some l) {x : β} (hx : x ∈ l) : ∃ i ∈ is, ∃ y, f i = some y ∧ x ∈ y := by
  induction is generalizing l with
  | nil => obtain rfl := Option.some.inj h; simp at hx
  | cons i is ih =>
    obtain ⟨y, h1, h⟩ := Option.bind_eq_some_iff.1 h
    obtain ⟨ys, h2, h⟩ := Option.bind_eq_some_iff.1 h
    obtain rfl := Option.some.inj h
    rcases List.mem_append.1 hx with hx | hx
    · exact ⟨i, by simp, y, h1, hx⟩
    · obtain ⟨j, hj, z, h3, h4⟩ := ih h2 hx
      exact ⟨j, by simp [hj], z, h3, h4⟩

theorem collectM_map {ι κ β γ : Type _} {f : ι → Option (List β)} {f' : κ → Option (List γ)}
    (g : κ → ι) (q : γ → β) {is : List κ}
    (hf : ∀ i ∈ is, f (g i) = (f' i).map (List.map q)) :
    collectM f (is.map g) = (collectM f' is).map (List.map q) := by
  induction is with
  | nil => rfl
  | cons i is ih =>
    simp only [List.map_cons, collectM, hf i (by simp), ih (fun j hj => hf j (by simp [hj]))]
    cases f' i <;> cases collectM f' is <;> simp

theorem launchCalls_particles (npart : List Nat) (k : Nat) (b : LoopBlock) :
    (launchCalls npart k b).map (List.map KernelCall.particle) = blockVisits npart b := by
  unfold launchCalls blockVisits
  cases blockItems b with
  | none => rfl
  | some gs =>
    simp only [Option.bind_some]
    have h := collectM_map (f := itemVisit npart b) (f' := fun g => (itemVisit npart b g).bind fun vs =>
      some (vs.map fun v => (⟨k, (g.1, g.2 / b.localSize), g.2 % b.localSize, b.localSize, v⟩ :
        KernelCall))) id KernelCall.particle (is := gs) (by
        intro g _
        simp only [id]
        cases itemVisit npart b g with
        | none => rfl
        | some vs => simp [Function.comp_def])
    rw [← h]; simp

/-- What is known of a call. -/
structure CallOk (bs : List LoopBlock) (c : KernelCall) : Prop where
  ok : ∃ b, bs[c.launch]? = some b ∧ c.localRange = b.localSize ∧ c.localId < b.localSize ∧
    c.particle = (c.group.1 + b.offsetCell, c.group.2 * b.localSize + c.localId + b.offsetLayer)

theorem launchCalls_ok {npart : List Nat} {k : Nat} {b : LoopBlock} {l : List KernelCall}
    (h : launchCalls npart k b = some l) {c : KernelCall} (hc : c ∈ l) :
    c.launch = k ∧ c.localRange = b.localSize ∧ c.localId < b.localSize ∧
    c.particle = (c.group.1 + b.offsetCell, c.group.2 * b.localSize + c.localId + b.offsetLayer) := by
  unfold launchCalls at h
  obtain ⟨gs, h1, h⟩ := Option.bind_eq_some_iff.1 h
  have hpos : 0 < b.localSize := by
    unfold blockItems at h1
    split at h1
    · exact absurd h1 (by simp)
    · omega
  obtain ⟨g, -, y, h2, h3⟩ := collectM_mem h hc
  obtain ⟨vs, h4, h2⟩ := Option.bind_eq_some_iff.1 h2
  obtain rfl := Option.some.inj h2
  obtain ⟨v, hv, rfl⟩ := List.mem_map.1 h3
  have hvv : v = (g.1 + b.offsetCell, g.2 + b.offsetLayer) := by
    unfold itemVisit at h4
    simp only at h4
    split at h4
    · obtain ⟨ok, -, h4⟩ := Option.bind_eq_some_iff.1 h4
      obtain rfl := Option.some.inj h4
      split at hv
      · simpa using hv
      · simp at hv
    · obtain rfl := Option.some.inj h4
      simpa using hv
  refine ⟨rfl, rfl, Nat.mod_lt _ hpos, ?_⟩
  simp only [hvv]
  have := Nat.div_add_mod g.2 b.localSize
  rw [Nat.mul_comm] at this
  rw [this]

structure SubmitOk (n : Nat) (bs : List LoopBlock) (cs : List KernelCall) : Prop where
  calls : ∀ c ∈ cs, CallOk bs c
  le : ∀ b ∈ bs, b.localSize ≤ n

theorem submitCalls_ok {lm gb ib d nbin n : Nat} {args : List LoopArg} {npartLb : List Nat}
    {hasGroup : Bool} {npartLocal : Nat} {s e : Option Int} {cs : List KernelCall}
    (h : submitCalls lm gb ib d nbin args npartLb hasGroup npartLocal s e = some (n, cs)) :
    getLocalSizeArgs lm gb ib d args = some n ∧
    submitVisits ⟨lm, nbin, n⟩ npartLb hasGroup npartLocal s e = some (cs.map KernelCall.particle) ∧
    ∃ bs, SubmitOk n bs cs := by
  unfold submitCalls at h
  obtain ⟨n', h1, h⟩ := Option.bind_eq_some_iff.1 h
  obtain ⟨bs, h2, h⟩ := Option.bind_eq_some_iff.1 h
  obtain ⟨cs', h3, h⟩ := Option.bind_eq_some_iff.1 h
  obtain ⟨rfl, rfl⟩ := Prod.mk.inj (Option.some.inj h)
  refine ⟨h1, ?_, bs, ⟨?_, submitBlocks_localSize_le h2⟩⟩
  · unfold submitVisits
    rw [h2]
    have h4 := collectM_map (f := blockVisits npartLb)
      (f' := fun p : LoopBlock × Nat => launchCalls npartLb p.2 p.1) Prod.fst
      KernelCall.particle (is := bs.zipIdx) (fun p _ => (launchCalls_particles npartLb p.2 p.1).symm)
    rw [List.zipIdx_map_fst, h3] at h4
    exact h4
  · intro c hc
    obtain ⟨p, hp, y, h4, h5⟩ := collectM_mem h3 hc
    obtain ⟨a1, a2, a3, a4⟩ := launchCalls_ok h4 h5
    refine ⟨p.1, ?_, a2, a3, a4⟩
    rw [a1]
    exact List.mem_zipIdx_iff_getElem?.1 hp

theorem submitCalls_exists {lm gb ib d nbin n : Nat} {args : List LoopArg} {npartLb : List Nat}
    {hasGroup : Bool} {npartLocal : Nat} {s e : Option Int} {l : List (Nat × Nat)}
    (h1 : getLocalSizeArgs lm gb ib d args = some n)
    (h2 : submitVisits ⟨lm, nbin, n⟩ npartLb hasGroup npartLocal s e = some l) :
    ∃ cs, submitCalls lm gb ib d nbin args npartLb hasGroup npartLocal s e = some (n, cs) := by
  unfold submitVisits at h2
  obtain ⟨bs, h3, h2⟩ := Option.bind_eq_some_iff.1 h2
  have h4 := collectM_map (f := blockVisits npartLb)
    (f' := fun p : LoopBlock × Nat => launchCalls npartLb p.2 p.1) Prod.fst
    KernelCall.particle (is := bs.zipIdx) (fun p _ => (launchCalls_particles npartLb p.2 p.1).symm)
  rw [List.zipIdx_map_fst, h2] at h4
  obtain ⟨cs, h5, -⟩ := Option.map_eq_some_iff.1 h4.symm
  refine ⟨cs, ?_⟩
  unfold submitCalls
  rw [h1, Option.bind_some, h3, Option.bind_some, h5, Option.bind_some]

/-! ## Accesses -/

/-- Distinct elements of distinct particles are at distinct places. -/
theorem place_inj {arg : LoopArg} {x x' r i i' e : Nat} (hx : x < r) (hx' : x' < r)
    (hi : i < elementsOf arg) (hi' : i' < elementsOf arg)
    (h : arg.place x r i = some e) (h' : arg.place x' r i' = some e) : x = x' ∧ i = i' := by
  cases arg with
  | other => simp [LoopArg.place] at h
  | block size elem =>
    simp only [LoopArg.place, Option.some.injEq] at h h'
    simp only [elementsOf] at hi hi'
    have e1 : (x * size + i) / size = x := by
      rw [Nat.mul_comm, Nat.mul_add_div (by omega), Nat.div_eq_of_lt hi]; omega
    have e2 : (x' * size + i') / size = x' := by
      rw [Nat.mul_comm, Nat.mul_add_div (by omega), Nat.div_eq_of_lt hi']; omega
    have : x = x' := by rw [← e1, ← e2, h, h']
    subst this
    exact ⟨rfl, by omega⟩
  | interlaced size elem =>
    simp only [LoopArg.place, Option.some.injEq] at h h'
    have e1 : (x + r * i) / r = i := by
      rw [Nat.add_mul_div_left _ _ (by omega), Nat.div_eq_of_lt hx]; omega
    have e2 : (x' + r * i') / r = i' := by
      rw [Nat.add_mul_div_left _ _ (by omega), Nat.div_eq_of_lt hx']; omega
    have : i = i' := by rw [← e1, ← e2, h, h']
    subst this
    exact ⟨by omega, rfl⟩

theorem place_exists {arg : LoopArg} {x r i n : Nat} (hx : x < r) (hr : r ≤ n)
    (hi : i < elementsOf arg) : ∃ e, arg.place x r i = some e ∧ e < arg.accessor n := by
  cases arg with
  | other => simp [elementsOf] at hi
  | block size elem =>
    refine ⟨_, rfl, ?_⟩
    simp only [elementsOf] at hi
    have h1 : (x + 1) * size ≤ n * size := Nat.mul_le_mul_right _ (by omega)
    simp only [LoopArg.accessor, Nat.mul_comm size n]
    rw [Nat.add_mul] at h1
    omega
  | interlaced size elem =>
    refine ⟨_, rfl, ?_⟩
    simp only [elementsOf] at hi
    have h1 : r * (i + 1) ≤ r * size := Nat.mul_le_mul_left _ (by omega)
    have h2 : r * size ≤ n * size := Nat.mul_le_mul_right _ hr
    simp only [LoopArg.accessor, Nat.mul_comm size n]
    rw [Nat.mul_add] at h1
    omega

/-- The memory agrees with what the particles wrote so far. -/
def MemOk {V : Type} (args : List LoopArg) (cs : List KernelCall)
    (hist : List (KernelCall × LocalOp V)) (m : LocalMem V) : Prop :=
  ∀ c ∈ cs, ∀ (a i : Nat) (arg : LoopArg) (e : Nat) (v : V), args[a]? = some arg →
    i < elementsOf arg → arg.place c.localId c.localRange i = some e →
    lastWritten c.particle a i hist = some v → m c.launch c.group a e = v

theorem call_place {n : Nat} {bs : List LoopBlock} {cs : List KernelCall}
    (h : SubmitOk n bs cs) {c : KernelCall} (hc : c ∈ cs) {arg : LoopArg} {i : Nat}
    (hi : i < elementsOf arg) :
    ∃ e, arg.place c.localId c.localRange i = some e ∧ e < arg.accessor n := by
  obtain ⟨b, h1, h2, h3, -⟩ := (h.calls c hc).ok
  have := h.le b (List.mem_of_getElem? h1)
  exact place_exists (by omega) (by omega) hi

theorem localStep_ok {V : Type} {args : List LoopArg} {n : Nat} {bs : List LoopBlock}
    {cs : List KernelCall} (h : SubmitOk n bs cs)
    (hnd : (cs.map KernelCall.particle).Nodup) {c : KernelCall} (hc : c ∈ cs) {o : LocalOp V}
    (ho : LocalOpAllowed args o) {m : LocalMem V} {hist : List (KernelCall × LocalOp V)}
    (hm : MemOk args cs hist m) :
    ∃ r, localStep args n c o m = some r ∧ MemOk args cs ((c, o) :: hist) r.1 ∧
      ∀ a i, o = .read a i → ∀ v, lastWritten c.particle a i hist = some v → r.2 = some v := by
  cases o with
  | read a i =>
    obtain ⟨arg, ha, hi⟩ := ho
    obtain ⟨e, he, hlt⟩ := call_place h hc hi
    refine ⟨(m, some (m c.launch c.group a e)), ?_, ?_, ?_⟩
    · simp only [localStep, rd, ha, Option.bind_some, he, if_pos hlt]
    · exact hm
    · intro a' i' heq v hv
      simp only [LocalOp.read.injEq] at heq
      obtain ⟨rfl, rfl⟩ := heq
      simp only [hm c hc a i arg e v ha hi he hv]
  | write a i v =>
    obtain ⟨arg, ha, hi⟩ := ho
    obtain ⟨e, he, hlt⟩ := call_place h hc hi
    refine ⟨(fun l g b p => if l = c.launch ∧ g = c.group ∧ b = a ∧ p = e then v
      else m l g b p, none), ?_, ?_, ?_⟩
    · simp only [localStep, rd, ha, Option.bind_some, he, if_pos hlt]
    · intro c' hc' a' i' arg' e' v' ha' hi' he' hv'
      simp only [lastWritten] at hv'
      simp only
      by_cases hsame : c.particle = c'.particle ∧ a = a' ∧ i = i'
      · rw [if_pos hsame] at hv'
        obtain ⟨hp, rfl, rfl⟩ := hsame
        have hcc : c = c' := List.inj_on_of_nodup_map hnd hc hc' hp
        subst hcc
        have : arg = arg' := Option.some.inj (ha.symm.trans ha')
        subst this
        have : e = e' := Option.some.inj (he.symm.trans he')
        subst this
        rw [if_pos ⟨rfl, rfl, rfl, rfl⟩]
        exact Option.some.inj hv'
      · rw [if_neg hsame] at hv'
        rw [if_neg]
        · exact hm c' hc' a' i' arg' e' v' ha' hi' he' hv'
        · rintro ⟨h1, h2, rfl, rfl⟩
          apply hsame
          have : arg = arg' := Option.some.inj (ha.symm.trans ha')
          subst this
          obtain ⟨b, b1, b2, b3, b4⟩ := (h.calls c hc).ok
          obtain ⟨b', b1', b2', b3', b4'⟩ := (h.calls c' hc').ok
          have hbb : b = b' := by
            rw [h1, b1] at b1'
            exact Option.some.inj b1'
          subst hbb
          rw [b2] at he
          rw [b2'] at he'
          obtain ⟨hx, hii⟩ := place_inj b3 b3' hi hi' he he'
          refine ⟨?_, rfl, hii⟩
          rw [b4, b4', h2, hx]
    · intro a' i' heq
      simp at heq

theorem localRun_ok {V : Type} {args : List LoopArg} {n : Nat} {bs : List LoopBlock}
    {cs : List KernelCall} (h : SubmitOk n bs cs) (hnd : (cs.map KernelCall.particle).Nodup) :
    ∀ (tr hist : List (KernelCall × LocalOp V)) (m : LocalMem V),
    (∀ x ∈ tr, x.1 ∈ cs ∧ LocalOpAllowed args x.2) → MemOk args cs hist m →
    ∃ vs, localRun args n tr m = some vs ∧ vs.length = tr.length ∧
      ∀ (j : Nat) c a i, tr[j]? = some (c, .read a i) → ∀ v,
        lastWritten c.particle a i ((tr.take j).reverse ++ hist) = some v →
        vs[j]? = some (some v) := by
  intro tr
  induction tr with
  | nil => intro hist m _ _; exact ⟨[], rfl, rfl, by simp⟩
  | cons x t ih =>
    intro hist m hx hm
    obtain ⟨c, o⟩ := x
    obtain ⟨h1, h2⟩ := hx (c, o) (by simp)
    obtain ⟨r, r1, r2, r3⟩ := localStep_ok h hnd h1 h2 hm
    obtain ⟨vs, v1, v2, v3⟩ := ih ((c, o) :: hist) r.1 (fun y hy => hx y (by simp [hy])) r2
    refine ⟨r.2 :: vs, ?_, by simp [v2], ?_⟩
    · simp only [localRun, r1, Option.bind_some, v1]
    · intro j c' a i hj v hv
      cases j with
      | zero =>
        simp only [List.getElem?_cons_zero, Option.some.injEq, Prod.mk.injEq] at hj
        obtain ⟨rfl, rfl⟩ := hj
        simp only [List.take_zero, List.reverse_nil, List.nil_append] at hv
        simp only [List.getElem?_cons_zero, r3 a i rfl v hv]
      | succ j =>
        simp only [List.getElem?_cons_succ] at hj ⊢
        refine v3 j c' a i hj v ?_
        simpa using hv

end NP
