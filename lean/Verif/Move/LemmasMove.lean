import Verif.Move.LemmasUnpack
import Verif.Comm.PropsEdges

/-! # Lemmas about `globalMove` and `localMove` -/

set_option autoImplicit false

namespace NP

open Spec

variable {α : Type}

/-! ## Exchange of prefixes of buffers -/

theorem mapM_congr_mem {β γ : Type} {f g : β → Option γ} {l : List β}
    (h : ∀ x ∈ l, f x = g x) : l.mapM f = l.mapM g := by
  induction l with
  | nil => rfl
  | cons a l ih =>
    rw [List.mapM_cons, List.mapM_cons, h a List.mem_cons_self,
      ih fun x hx => h x (List.mem_cons_of_mem _ hx)]

theorem exchangeData_prefix {n : Nat} (arrive : Nat → Sched) (tag : Nat)
    {recvRanks sendRanks recvCounts sendCounts : Nat → List Nat}
    {bufs data : Nat → List (List α)}
    (hl : ∀ s, s < n → (data s).length = (recvRanks s).length)
    (hcl : ∀ s, s < n → (data s).map List.length = recvCounts s)
    (hb : ∀ (s i : Nat) (d : List α), s < n → (data s)[i]? = some d →
      ∃ b, (bufs s)[i]? = some b ∧ slice b 0 d.length = some d) :
    exchangeData n arrive tag recvRanks recvCounts bufs sendRanks sendCounts =
      exchangeData n arrive tag recvRanks recvCounts data sendRanks sendCounts := by
  have key : ∀ x : Nat → List (List α),
      (∀ (s i : Nat) (d : List α), s < n → (data s)[i]? = some d →
        ∃ b, (x s)[i]? = some b ∧ slice b 0 d.length = some d) →
      (List.range n).mapM (fun r =>
        (((recvRanks r).zipIdx.mapM fun ri => (rd (recvCounts r) ri.2).bind fun c =>
          (rd (x r) ri.2).bind fun d => slice d 0 c)).bind fun ds =>
        countSends tag (recvRanks r) ds) =
      (List.range n).mapM fun r =>
        countSends tag (recvRanks r) ((recvRanks r).zipIdx.map fun ri => (data r).getD ri.2 []) := by
    intro x hx
    apply mapM_congr_mem
    intro r hr
    rw [List.mem_range] at hr
    rw [mapM_of_forall (g := fun ri : Nat × Nat => (data r).getD ri.2 [])]
    · rfl
    · rintro ⟨t, i⟩ hm
      have hi := (List.getElem?_eq_some_iff.1 (List.mem_zipIdx_iff_getElem?.1 hm)).1
      rw [← hl r hr] at hi
      have hd : (data r)[i]? = some (data r)[i] := List.getElem?_eq_getElem hi
      obtain ⟨b, h1, h2⟩ := hx r i _ hr hd
      have hc : (recvCounts r)[i]? = some ((data r)[i]).length := by
        rw [← hcl r hr, List.getElem?_map, hd]; rfl
      simp only [rd, hc, h1, Option.bind_some, h2, List.getD_eq_getElem?_getD, hd, Option.getD_some]
  unfold exchangeData
  rw [key bufs hb, key data]
  intro s i d hs hd
  refine ⟨d, hd, ?_⟩
  rw [slice_eq_some (Nat.zero_le _) (Nat.le_refl _)]
  simp

/-! ## The last part of a move -/

/-- `compressorRemove` on a group that may have hinted counts. -/
theorem compressor_hint {e : Env} (hE : EnvOk e) {g : Group} (hg : Consistent g)
    (hsmall : SmallCounts g) {npart : Nat} {cells layers : List Int}
    (hcells : npart ≤ cells.length) (hlayers : npart ≤ layers.length)
    (hlisted : ∀ c k, c < g.ncell → Listed npart cells layers c k → k < count g c)
    (hids : ∀ c k, c < g.ncell → k < count g c → ¬ Listed npart cells layers c k →
      ∃ v, cellId g c k = some v ∧ 0 ≤ v) :
    ∃ (N' : List Nat) (m' : Mem) (dats' : List Dat),
      compressorRemove e g npart cells layers = some { g with mem := m', dats := dats' } ∧
      SameSyms g.dats dats' ∧ DatsOk g.ncell N' m' dats' ∧
      (g.hint = 0 → ∀ d ∈ dats', d.nrow = N') ∧
      ∀ c, c < g.ncell → (contents { g with mem := m', dats := dats', hNpart := N' } c).Perm
        (((List.range (count g c)).filter fun k => decide ¬ Listed npart cells layers c k).map
          (particle g c)) := by
  by_cases h0 : npart = 0
  · subst h0
    refine ⟨g.hNpart, g.mem, g.dats, by unfold compressorRemove; simp,
      List.forall₂_same.2 (fun d _ => ⟨rfl, rfl⟩), hg.datsOk,
      fun h d hd => (hg.dats d hd).exact h, ?_⟩
    intro c _
    have : ((List.range (count g c)).filter fun k => decide ¬ Listed 0 cells layers c k) =
        List.range (count g c) := by
      rw [List.filter_eq_self]
      intro k _
      simp [Listed]
    rw [this]
    exact List.Perm.refl _
  · obtain ⟨N', m', dats', src, h1, h2, h3, h4, h5, h6, h7⟩ := compressorRemove_spec hE
      (g := g) hg.datsOk hsmall hg.rank hg.cell (npart := npart) (by omega) hcells hlayers
      (by
        intro c k hc hl
        exact ⟨_, get_getD hg.len hc, hlisted c k hc hl⟩)
      (by
        intro c n k v hn hk hl hv
        have hc : c < g.ncell := by
          have := (List.getElem?_eq_some_iff.1 hn).1
          rw [hg.len] at this; exact this
        obtain ⟨w, hw, hw0⟩ := hids c k hc (by rw [count_eq hn]; exact hk) hl
        unfold cellId at hw
        rw [hv] at hw
        simp only [Option.some.injEq] at hw
        omega)
    refine ⟨N', m', dats', h1, h2, h3, fun _ => h4, ?_⟩
    intro c hc
    refine contents_perm (src := src c) (flatComps_congr h2) ?_ (h7 c hc)
    intro k hk sj hsj
    exact h6 c _ (get_getD h3.len hc) k hk sj hsj

theorem listed_iff_sel {size own comp : Nat} {g : Group} {d : Depart} {sel : List (Nat × Nat)}
    (hid : Identified size own comp g d sel) {c k : Nat} :
    Listed d.numParticles d.cells d.layersSrc c k ↔ (c, k) ∈ sel := by
  unfold Listed
  rw [hid.listed, List.mem_map]
  constructor
  · rintro ⟨⟨a, b⟩, hm, he⟩
    simp only [Prod.mk.injEq, Int.natCast_inj] at he
    obtain ⟨rfl, rfl⟩ := he
    exact hm
  · intro hm; exact ⟨(c, k), hm, rfl⟩

theorem moveFinish_spec {e : Env} {size own comp : Nat} {map0 : List Nat} {g : Group}
    (h : CanMove size own comp e map0 g) {prep : MovePrep} {sel : List (Nat × Nat)}
    (hid : Identified size own comp g prep.dep sel) {wss : List (List (List Int))}
    (hws : ∀ ws ∈ wss, ∀ w ∈ ws, w.length = numWords g.dats) (nReal : Nat) :
    ∃ g', moveFinish e nReal g prep (wss.map List.length) (wss.map List.flatten) = some g' ∧
      Consistent g' ∧ SameShape g g' ∧ g'.version = g.version + 2 ∧
      ∀ c, c < g.ncell → (contents g' c).Perm (staying size own comp g c ++
        if c = 0 then wss.flatten.map (fun w => w.map some) else []) := by
  have hg := h.consistent
  have hmem : ∀ {c k : Nat}, c < g.ncell → k < count g c →
      (¬ Listed prep.dep.numParticles prep.dep.cells prep.dep.layersSrc c k ↔
        destination size own comp g c k = none) := by
    intro c k hc hk
    rw [listed_iff_sel hid, hid.mem]
    constructor
    · intro hn
      rw [Option.eq_none_iff_forall_ne_some]
      intro r hr
      exact hn ⟨hc, hk, r, hr⟩
    · rintro hn ⟨-, -, r, hr⟩
      rw [hn] at hr; simp at hr
  obtain ⟨N', m1, dats1, a1, a2, a3, a4, a5⟩ := compressor_hint h.env hg h.small
    (npart := prep.dep.numParticles) (cells := prep.dep.cells) (layers := prep.dep.layersSrc)
    hid.cells_len hid.src_len
    (by
      intro c k _ hl
      rw [listed_iff_sel hid] at hl
      exact ((hid.mem c k).1 hl).2.1)
    (by
      intro c k hc hk hl
      exact h.ids c k hc hk ((hmem hc hk).1 hl))
  have hfc := flatComps_congr a2
  have hnw : numWords dats1 = numWords g.dats := by
    rw [← length_flatComps, hfc, length_flatComps]
  have hws' : ∀ w ∈ wss.flatten, w.length = numWords dats1 := by
    intro w hw
    obtain ⟨ws, h1, h2⟩ := List.mem_flatten.1 hw
    rw [hnw]
    exact hws ws h1 w h2
  have hlen : (wss.map List.length).sum = wss.flatten.length := by rw [List.length_flatten]
  have hflat : (wss.map List.flatten).flatten = wss.flatten.flatten := by
    rw [List.flatten_flatten]
  obtain ⟨m2, dats2, b1, b2, b3, b4, b5, b6⟩ := unpack_spec (e := e)
    (g := { g with mem := m1, dats := dats1 }) a3 (mem_syms_congr a2 hg.rank) h.cells hws' nReal
  have hs12 : SameSyms g.dats dats2 := SameSyms.trans a2 b2
  have hn0 : N'[0]? = some (N'.getD 0 0) := get_getD a3.len h.cells
  generalize hn0e : N'.getD 0 0 = n0 at *
  obtain ⟨es, q1, q2, q3⟩ := setNpartCellFromDat_spec (g := { g with mem := m2, dats := dats2 })
    hg.len hg.es_len b3.len (mem_syms_congr hs12 hg.pos) b3.host
  have hrun : moveFinish e nReal g prep (wss.map List.length) (wss.map List.flatten) =
      some (invalidateVersion (invalidateVersion { g with
        mem := m2, dats := dats2, hNpart := N'.set 0 (n0 + wss.flatten.length),
        dNpart := N'.set 0 (n0 + wss.flatten.length), npartEs := es,
        npartLocal := (N'.set 0 (n0 + wss.flatten.length)).sum })) := by
    unfold moveFinish
    simp only [unpackReset_eq]
    rw [recvBuffer_spec e (by
      rw [List.map_map, List.map_map]
      apply List.map_congr_left
      intro ws hw
      exact length_flatten_uniform (hws ws hw))]
    simp only [Option.bind_some]
    rw [a1]
    simp only [Option.bind_some]
    rw [hlen, hflat, b1]
    simp only [Option.bind_some]
    rw [q1]
    rfl
  refine ⟨_, hrun, ?_, SameShape.of_sameSyms hs12 rfl rfl rfl rfl rfl, rfl, ?_⟩
  · refine consistent_of_datsOk (N := N'.set 0 (n0 + wss.flatten.length)) b3 ?_ rfl rfl rfl q2 q3
      rfl (mem_syms_congr hs12 hg.pos) (mem_syms_congr hs12 hg.rank) (cell_congr hs12 hg.cell)
    intro h0 d hd
    obtain ⟨d1, hd1, hd2⟩ := b4 d hd
    rw [hd2, a4 h0 d1 hd1]
  · intro c hc
    have hst : (contents { g with mem := m1, dats := dats1, hNpart := N' } c).Perm
        (staying size own comp g c) := by
      refine (a5 c hc).trans ?_
      unfold staying
      rw [List.filter_congr]
      intro k hk
      rw [List.mem_range] at hk
      rw [Bool.eq_iff_iff, decide_eq_true_iff, hmem hc hk, Option.isNone_iff_eq_none]
    have hfc2 : flatComps dats2 = flatComps dats1 := flatComps_congr b2
    obtain ⟨n, hn⟩ := exists_at a3.len hc
    by_cases hc0 : c = 0
    · subst hc0
      rw [hn0, Option.some.injEq] at hn
      have := contents_append (g := { g with mem := m1, dats := dats1, hNpart := N' })
        (g' := invalidateVersion (invalidateVersion { g with
          mem := m2, dats := dats2, hNpart := N'.set 0 (n0 + wss.flatten.length),
          dNpart := N'.set 0 (n0 + wss.flatten.length), npartEs := es,
          npartLocal := (N'.set 0 (n0 + wss.flatten.length)).sum })) hfc2 (c := 0) (n := n0)
        (K := wss.flatten.length) hn0
        (by
          show (N'.set 0 _)[0]? = _
          rw [List.getElem?_set_self (by rw [a3.len]; exact h.cells)])
        (fun sj hsj k hk => b5 sj hsj 0 n0 k hn0 hk)
      rw [this, if_pos rfl]
      refine List.Perm.append hst (List.Perm.of_eq ?_)
      apply List.ext_getElem?
      intro i
      rw [List.getElem?_map, List.getElem?_map]
      by_cases hi : i < wss.flatten.length
      · rw [List.getElem?_range hi, List.getElem?_eq_getElem hi, Option.map_some, Option.map_some]
        have hb := b6 i _ (List.getElem?_eq_getElem hi)
        unfold particle
        rw [← hb]
        exact congrArg some (congrArg (fun l => List.map _ l) hfc2)
      · rw [List.getElem?_eq_none (by simpa using hi), List.getElem?_eq_none (by omega)]
        rfl
    · have := contents_append (g := { g with mem := m1, dats := dats1, hNpart := N' })
        (g' := invalidateVersion (invalidateVersion { g with
          mem := m2, dats := dats2, hNpart := N'.set 0 (n0 + wss.flatten.length),
          dNpart := N'.set 0 (n0 + wss.flatten.length), npartEs := es,
          npartLocal := (N'.set 0 (n0 + wss.flatten.length)).sum })) hfc2 (c := c) (n := n)
        (K := 0) hn
        (by
          show (N'.set 0 _)[c]? = _
          rw [List.getElem?_set_ne (fun h => hc0 h.symm)]
          exact hn)
        (fun sj hsj k hk => b5 sj hsj c n k hn hk)
      rw [this, if_neg hc0]
      simpa using hst

end NP
