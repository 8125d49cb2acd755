import Verif.Move.LemmasPrepare

/-!
# C27: packing and unpacking
-/

set_option autoImplicit false

namespace NP

open Spec

/-- What is at the pointer for rank `r` are the values of exactly the particles that have to be
sent to `r`, particle after particle, whether or not MPI can read device memory. -/
theorem C27_pack {e : Env} {g : Group} (h : Consistent g) {size own comp : Nat} {d : Depart}
    {sel : List (Nat × Nat)} (hid : Identified size own comp g d sel)
    {rks nparts rankMap : List Nat} (hs : SendOk size own comp g rks nparts rankMap) (nReal : Nat)
    (aware : Bool) :
    ∃ packs msgs, pack e g nReal comp rks.length nparts rankMap d = some packs ∧
      packedPointers e aware (numWords g.dats) nparts packs = some msgs ∧
      ∀ i r : Nat, rks[i]? = some r → ∃ (ws : List (List Int)) (msg : List Int),
        msgs[i]? = some msg ∧
        slice msg 0 (sendCount size own comp g r * numWords g.dats) = some ws.flatten ∧
        (∀ w ∈ ws, w.length = numWords g.dats) ∧
        (ws.map fun w => w.map some).Perm (leavingTo size own comp g r) := by
  obtain ⟨packs, msgs, h1, h2, -, h3⟩ := pack_messages (e := e) h hid hs nReal aware
  refine ⟨packs, msgs, h1, h2, ?_⟩
  intro i r hr
  obtain ⟨ws, msg, a1, a2, a3, -, a4⟩ := h3 i r hr
  exact ⟨ws, msg, a1, a2, a3, a4⟩

/-- `unpack` followed by `set_npart_cell_from_dat`: the particles of the buffer are behind the old
ones in cell 0, in order and with all their values, and nothing else has changed. -/
theorem C27_unpack {e : Env} {g : Group} (h : Consistent g) (hc : 0 < g.ncell)
    {ws : List (List Int)} (hws : ∀ w ∈ ws, w.length = numWords g.dats) (nReal : Nat) :
    ∃ g', ((unpack e g nReal ws.length ws.flatten).bind setNpartCellFromDat) = some g' ∧
      Consistent g' ∧ SameShape g g' ∧
      contents g' 0 = contents g 0 ++ ws.map (fun w => w.map some) ∧
      ∀ c, 0 < c → c < g.ncell → contents g' c = contents g c := by
  obtain ⟨m2, dats2, b1, b2, b3, b4, b5, b6⟩ := unpack_spec (e := e) h.datsOk h.rank hc hws nReal
  have hn0 : g.hNpart[0]? = some (g.hNpart.getD 0 0) := get_getD h.len hc
  generalize hn0e : g.hNpart.getD 0 0 = n0 at *
  obtain ⟨es, q1, q2, q3⟩ := setNpartCellFromDat_spec (g := { g with mem := m2, dats := dats2 })
    h.len h.es_len b3.len (mem_syms_congr b2 h.pos) b3.host
  rw [b1, Option.bind_some, q1]
  refine ⟨_, rfl, ?_, SameShape.of_sameSyms b2 rfl rfl rfl rfl rfl, ?_, ?_⟩
  · refine consistent_of_datsOk (N := g.hNpart.set 0 (n0 + ws.length)) b3 ?_ rfl rfl rfl q2 q3
      rfl (mem_syms_congr b2 h.pos) (mem_syms_congr b2 h.rank) (cell_congr b2 h.cell)
    intro h0 d hd
    obtain ⟨d1, hd1, hd2⟩ := b4 d hd
    rw [hd2, (h.dats d1 hd1).exact h0]
  · rw [contents_append (flatComps_congr b2) (K := ws.length) hn0
      (by
        show (g.hNpart.set 0 _)[0]? = _
        rw [List.getElem?_set_self (by rw [h.len]; exact hc)])
      (fun sj hsj k hk => b5 sj hsj 0 n0 k hn0 hk)]
    congr 1
    apply List.ext_getElem?
    intro i
    rw [List.getElem?_map, List.getElem?_map]
    by_cases hi : i < ws.length
    · rw [List.getElem?_range hi, List.getElem?_eq_getElem hi, Option.map_some, Option.map_some]
      have hb := b6 i _ (List.getElem?_eq_getElem hi)
      unfold particle
      rw [← hb]
      exact congrArg some (congrArg (fun l => List.map _ l) (flatComps_congr b2))
    · rw [List.getElem?_eq_none (by simpa using hi), List.getElem?_eq_none (by omega)]
      rfl
  · intro c hc0 hcn
    obtain ⟨n, hn⟩ := exists_at h.len hcn
    rw [contents_append (flatComps_congr b2) (K := 0) hn
      (by
        show (g.hNpart.set 0 _)[c]? = _
        rw [List.getElem?_set_ne (by omega)]
        exact hn)
      (fun sj hsj k hk => b5 sj hsj c n k hn hk)]
    simp

/-- Packing on one rank, then unpacking on a rank whose group has the same properties: cell 0 of
the receiver gains exactly the particles that had to be sent to it, with all values equal. -/
theorem C27_round_trip {e e' : Env} {g g' : Group} (h : Consistent g) (h' : Consistent g')
    (hsame : flatComps g'.dats = flatComps g.dats) (hc : 0 < g'.ncell) {size own comp : Nat}
    {d : Depart} {sel : List (Nat × Nat)} (hid : Identified size own comp g d sel)
    {rks nparts rankMap : List Nat} (hs : SendOk size own comp g rks nparts rankMap) (nReal : Nat)
    (aware : Bool) {i r : Nat} (hr : rks[i]? = some r) :
    ∃ packs msgs msg buf g'', pack e g nReal comp rks.length nparts rankMap d = some packs ∧
      packedPointers e aware (numWords g.dats) nparts packs = some msgs ∧ msgs[i]? = some msg ∧
      slice msg 0 (sendCount size own comp g r * numWords g.dats) = some buf ∧
      ((unpack e' g' nReal (sendCount size own comp g r) buf).bind setNpartCellFromDat) =
        some g'' ∧ Consistent g'' ∧ SameShape g' g'' ∧
      (contents g'' 0).Perm (contents g' 0 ++ leavingTo size own comp g r) ∧
      ∀ c, 0 < c → c < g'.ncell → contents g'' c = contents g' c := by
  obtain ⟨packs, msgs, h1, h2, -, h3⟩ := pack_messages (e := e) h hid hs nReal aware
  obtain ⟨ws, msg, a1, a2, a3, a4, a5⟩ := h3 i r hr
  have hnw : numWords g'.dats = numWords g.dats := by
    rw [← length_flatComps, hsame, length_flatComps]
  obtain ⟨g'', b1, b2, b3, b4, b5⟩ := C27_unpack (e := e') h' hc (ws := ws)
    (by intro w hw; rw [hnw]; exact a3 w hw) nReal
  rw [a4] at b1
  refine ⟨packs, msgs, msg, ws.flatten, g'', h1, h2, a1, a2, b1, b2, b3, ?_, b5⟩
  rw [b4]
  exact (List.Perm.refl _).append a5

end NP
