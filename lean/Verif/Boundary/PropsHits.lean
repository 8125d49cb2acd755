import Verif.Boundary.LemmasHits3
import Verif.Boundary.PropsExchange

/-!
# C71: the faces that are hit are registered with the exchange
-/

set_option autoImplicit false

namespace NP

open Spec

variable {m : CartMesh} {extent tol : ℚ} {groups : List (Int × List Int)} {tw : Nat}

/-- **C71 (owned faces).** The constructor gives the interface of each group, on each rank, exactly
the faces on the sides of the group which the rank owns. No face is given twice. -/
theorem C71_owned (hv : ValidCartMesh m) (hn : m.mh.dims.length = 2 ∨ m.mh.dims.length = 3)
    (hg : GroupsOk m groups) :
    ∃ w owned, hitNew m groups = some (w, owned) ∧ owned.length = groups.length ∧
      ∀ (j : Nat) g ow, groups[j]? = some g → owned[j]? = some ow →
        ow.length = m.comm.dims.prod ∧ FacesOwned ow ∧
        ∀ (r : Nat) faces, ow[r]? = some faces → ∀ id, id ∈ faces ↔ GroupFace m g r id := by
  obtain ⟨w, owned, h1, h2, -⟩ := hitNew_inv (tw := 1) hv hn hg
  exact ⟨w, owned, h1, h2.1, h2.2⟩

/-- **C71 (all faces are owned).** Each face on a side of a group is a face of the group for exactly
one rank. -/
theorem C71_partition (hv : ValidCartMesh m) {g : Int × List Int} {f : Nat} {t : List Int} {id : Int}
    (hn : m.mh.dims.length = 2 ∨ m.mh.dims.length = 3) (hf : (f : Int) ∈ g.2) (h1 : IsFace m id f t)
    (h2 : OnSide m f t) :
    ∃ r < m.comm.dims.prod, GroupFace m g r id ∧
      ∀ r' < m.comm.dims.prod, GroupFace m g r' id → r' = r := by
  obtain ⟨r, r1, r2⟩ := owningRank_spec hv h2.1 []
  rw [List.append_nil] at r1
  refine ⟨r, r2, ⟨f, t, hf, h1, h2, (owns_iff hv r2 h2.1).2 r1⟩, ?_⟩
  rintro r' hr' ⟨f', t', -, q1, q2, q3⟩
  obtain ⟨rfl, rfl⟩ := face_unique hv hn h1 q1
  rw [owns_iff hv hr' h2.1, r1] at q3
  exact (Option.some.inj q3).symm

/-- **C71 (registration).** Every history of collective calls of `post_integration` completes and
returns on every rank what C69 describes. Afterwards the interface of each group is in a state
that is reached by well formed extensions, and on every rank exactly the faces found in the
metadata of the particles returned so far for the group are announced; each of them has an index. -/
theorem C71_registered (hv : ValidCartMesh m) (hn : m.mh.dims.length = 2 ∨ m.mh.dims.length = 3)
    (hg : GroupsOk m groups) (hw : 0 < tw) (steps : List (HitStep m.mh.dims.length))
    (hs : ∀ s ∈ steps, HitStepOk m extent tol groups tw s) :
    ∃ w owned w' outs, hitNew m groups = some (w, owned) ∧
      hitRun m extent tol groups tw steps w = some (w', outs) ∧
      List.Forall₂ (fun (s : HitStep m.mh.dims.length) (o : List HitOut) => o.length = m.comm.dims.prod ∧
        ∀ (r : Nat) x, s.ranks[r]? = some x → ∃ out, o[r]? = some out ∧
          wallPost m extent tol groups x.env x.npart x.par x.rows = some out) steps outs ∧
      w'.ifaces.length = owned.length ∧
      ∀ (j : Nat) ow, owned[j]? = some ow → ∃ calls iface, w'.ifaces[j]? = some iface ∧
        surfRun ow calls = some iface ∧ (∀ c ∈ calls, PairsOk ow c.pairs) ∧
        ∀ (r : Nat) a, iface[r]? = some a → ∀ id,
          (Announced calls r id ↔ EverHit outs r j id) ∧
          ((∃ k, surfSeqOf a id = some k) ↔ EverHit outs r j id) := by
  obtain ⟨w, owned, h1, h2, h3⟩ := hitNew_inv (tw := tw) hv hn hg
  obtain ⟨w', outs, r1, r2, r3⟩ := hitRun_spec hv hw h2 h3 steps hs
  rw [List.nil_append] at r3
  refine ⟨w, owned, w', outs, h1, r1, r2, by rw [r3.ifacesLen, h2.1], ?_⟩
  intro j ow how
  obtain ⟨calls, iface, i1, i2, i3, i4⟩ := r3.iface j ow how
  have hj : j < groups.length := by rw [← h2.1]; exact (List.getElem?_eq_some_iff.1 how).1
  obtain ⟨hol, hfo, -⟩ := h2.2 j _ ow (List.getElem?_eq_getElem hj) how
  refine ⟨calls, iface, i1, i2, i3, ?_⟩
  intro r a ha id
  obtain ⟨ifc, c1, c2, c3⟩ := C63_numbering hfo i3
  rw [i2] at c1
  obtain rfl := Option.some.inj c1
  have hr : r < m.comm.dims.prod := by
    rw [← hol, ← c2]; exact (List.getElem?_eq_some_iff.1 ha).1
  refine ⟨i4 r hr id, ?_⟩
  rw [← i4 r hr id]
  exact (c3 r a ha).2.1 id

/-- Values of a property of particles, on each rank, which were returned for group number `j` in one
of the calls. -/
def Spec.HitParts (outs : List (List HitOut)) (n j : Nat) (parts : List (Option (List (Int × ℚ)))) : Prop :=
  parts.length = n ∧ ∀ (r : Nat) ps, parts[r]? = some (some ps) → ∀ p ∈ ps, EverHit outs r j p.1

/-- **C71 (functions on the sides of the domain).** After any history of `post_integration` a new
function on group number `j` is created and particles that were returned for the group are
projected: the value of each face on the sides of the group, on the rank which owns it, is the
scaled sum of the values of all particles, on all ranks, which hit the face. Evaluating at particles
returned for the group then gives each of them the value of the face that it hit. -/
theorem C71_project (hv : ValidCartMesh m) (hn : m.mh.dims.length = 2 ∨ m.mh.dims.length = 3)
    (hg : GroupsOk m groups) (hw : 0 < tw) (steps : List (HitStep m.mh.dims.length))
    (hs : ∀ s ∈ steps, HitStepOk m extent tol groups tw s) {w w' : HitWorld}
    {owned : List (List (List Int))} {outs : List (List HitOut)} (h1 : hitNew m groups = some (w, owned))
    (h2 : hitRun m extent tol groups tw steps w = some (w', outs)) {j : Nat} {g : Int × List Int}
    {ow : List (List Int)} {iface : List SurfRank} (hj : groups[j]? = some g) (how : owned[j]? = some ow)
    (hif : w'.ifaces[j]? = some iface) (mem : Nat → Fresh ℚ) (e e' : FuncEnv) (inv : ℚ)
    {parts parts' : List (Option (List (Int × ℚ)))} (hp : HitParts outs m.comm.dims.prod j parts)
    (hp' : HitParts outs m.comm.dims.prod j parts') (he : (e'.aware || e'.host) = true) :
    ∃ fs, funcProject e inv parts iface (funcsNew mem ow) = some fs ∧
      (∀ q face, q < m.comm.dims.prod → GroupFace m g q face → ∃ (i : Nat) (faces : List Int) (f : SurfFunc),
        ow[q]? = some faces ∧ faces[i]? = some face ∧ fs[q]? = some f ∧
        (funcGet f)[i]? = some (inv * faceTotal parts face)) ∧
      ∃ fs' vals, funcEvals e' parts' iface fs = some (fs', vals) ∧ fs'.map funcGet = fs.map funcGet ∧
        vals.length = m.comm.dims.prod ∧
        ∀ (r : Nat) ps, parts'[r]? = some (some ps) → ∃ vs, vals[r]? = some (some vs) ∧
          vs = ps.map fun p => inv * faceTotal parts p.1 := by
  obtain ⟨w0, owned0, w1, outs1, a1, a2, -, -, a4⟩ := C71_registered (extent := extent) (tol := tol) hv hn hg hw steps hs
  rw [h1] at a1
  obtain ⟨rfl, rfl⟩ := Prod.mk.inj (Option.some.inj a1)
  rw [h2] at a2
  obtain ⟨rfl, rfl⟩ := Prod.mk.inj (Option.some.inj a2)
  obtain ⟨w2, owned2, b1, b2, b3⟩ := C71_owned hv hn hg
  rw [h1] at b1
  obtain ⟨rfl, rfl⟩ := Prod.mk.inj (Option.some.inj b1)
  obtain ⟨hol, hfo, hfm⟩ := b3 j g ow hj how
  obtain ⟨calls, iface', c1, c2, c3, c4⟩ := a4 j ow how
  rw [hif] at c1
  obtain rfl := Option.some.inj c1
  obtain ⟨ifc, d1, d2, -⟩ := C63_numbering hfo c3
  rw [c2] at d1
  obtain rfl := Option.some.inj d1
  have hparts : ∀ ps, HitParts outs m.comm.dims.prod j ps → PartsOk ow calls ps := by
    intro ps hps
    refine ⟨by rw [hps.1, hol], ?_⟩
    intro r l hl p hpm
    have hr : r < iface.length := by
      rw [d2, hol, ← hps.1]; exact (List.getElem?_eq_some_iff.1 hl).1
    exact ((c4 r _ (List.getElem?_eq_getElem hr) p.1).1).2 (hps.2 r l hl p hpm)
  have hrun : funcRun ow calls mem [] = some (iface, funcsNew mem ow) := by
    unfold funcRun
    rw [c2, Option.bind_some, runItems_nil]
  obtain ⟨fs, f1, f2, f3⟩ := C70_project hfo c3 (FuncHistory.nil) hrun e inv (hparts parts hp)
  have hops : FuncHistory ow calls ([] ++ [.init e] ++ [.add e inv parts] ++ [.final e]) calls .idle :=
    .final e (.add e inv parts (.init e .nil) (by intro h; cases h) (hparts parts hp))
  have hrun' : funcRun ow calls mem ([] ++ [.init e] ++ [.add e inv parts] ++ [.final e]) = some (iface, fs) := by
    rw [List.nil_append]
    unfold funcRun
    rw [c2, Option.bind_some]
    unfold funcProject at f1
    obtain ⟨g1, k1, f1⟩ := Option.bind_eq_some_iff.1 f1
    obtain ⟨g2, k2, f1⟩ := Option.bind_eq_some_iff.1 f1
    simp only [List.cons_append, List.nil_append, runItems_cons, runItems_nil, funcStep, k1, k2, f1,
      Option.bind_some]
  obtain ⟨fs', vals, g1, g2, g3, -, g4⟩ := C70_evaluate hfo c3 hops hrun' e' he (hparts parts' hp')
  refine ⟨fs, f1, ?_, fs', vals, g1, g2, by rw [g3, hol], ?_⟩
  · intro q face hq hgf
    have hq' : q < ow.length := by omega
    have hface : face ∈ ow[q] := (hfm q _ (List.getElem?_eq_getElem hq') face).2 hgf
    obtain ⟨q1, i, faces, d, k1, k2, k3, k4⟩ := f3 face (List.mem_flatten.2 ⟨_, List.getElem_mem _, hface⟩)
    rw [List.getElem?_map, Option.map_eq_some_iff] at k3
    obtain ⟨f, k5, rfl⟩ := k3
    have hqq : q1 = q := surfOwn_unique hfo q1 q face ⟨faces, k1, List.mem_of_getElem? k2⟩
      ⟨_, List.getElem?_eq_getElem hq', hface⟩
    subst hqq
    exact ⟨i, faces, f, k1, k2, k5, k4⟩
  · intro r ps hps
    obtain ⟨vs, k1, k2, k3⟩ := g4 r ps hps
    refine ⟨vs, k1, ?_⟩
    apply List.ext_getElem?
    intro i
    rw [List.getElem?_map]
    by_cases hi : i < ps.length
    · rw [List.getElem?_eq_getElem hi, Option.map_some]
      obtain ⟨v, l1, l2⟩ := k3 i _ (List.getElem?_eq_getElem hi)
      rw [l1]
      have hmem : ps[i].1 ∈ ow.flatten := by
        obtain ⟨q, i', faces, d, z1, z2, -⟩ := l2
        exact List.mem_flatten.2 ⟨faces, List.mem_of_getElem? z1, List.mem_of_getElem? z2⟩
      rw [FaceDof.unique hfo l2 (f3 _ hmem)]
    · rw [List.getElem?_eq_none (by omega), List.getElem?_eq_none (by omega)]
      rfl

end NP
