import Verif.Mesh.LemmasMeshVtk
import Verif.Mesh.ExamplesCart
import Verif.Io.PropsVtk

/-!
# C99: Cartesian meshes and functions on their boundary are written as they are
-/

set_option autoImplicit false

namespace NP
open NP.Spec

/-- **C99** In two and three dimensions, on every rank, `get_vtk_cell_data` gives one cell of an unstructured grid for
each owned cell, in order, with the corners of that cell in the order that VTK asks for. -/
theorem C99_cells (m : CartMesh) (hv : ValidCartMesh m) (hn : m.mh.dims.length = 2 ∨ m.mh.dims.length = 3)
    (w : Int) (hw : 0 < w) (r : Nat) (hr : r < m.comm.dims.prod) :
    ∃ b cells out, m.box r = some b ∧ getOwnedCells b = some cells ∧ m.vtkCellData w b = some out ∧
      out.length = cells.length ∧
      ∀ (i : Nat) c, cells[i]? = some c → ∃ t v, c = pad3 t ∧ IsMeshCell m t ∧ out[i]? = some v ∧ IsVtkOfCell w t v := by
  obtain ⟨b, cells, h1, h2, -, h4⟩ := (C39_partition m hv).1 r hr
  have hloc := C39_local_index m hv r hr b cells h1 h2
  obtain ⟨out, o1, o2, o3⟩ := mapM_range_exists (n := cells.length)
    (f := fun (cx : Nat) => (m.vtkCellPoints w b cx).bind fun pts =>
      some (⟨if m.ndim = 2 then 4 else 8, pts, if m.ndim = 2 then 9 else 12, [], []⟩ : VtkCell))
    (R := fun i v => ∀ c, cells[i]? = some c → ∃ t, c = pad3 t ∧ IsMeshCell m t ∧ IsVtkOfCell w t v) (by
      intro i hi
      obtain ⟨t, ht1, ht2⟩ := h4 _ (List.getElem_mem hi)
      have htl : t.length = m.mh.dims.length := by have := ht2.length; simpa using this
      have hget : getGlobalCellTupleIndex b (i : Int) = some (pad3 t) := by
        rw [hloc, if_pos (by omega), Int.toNat_natCast, List.getElem?_eq_getElem hi, ht1]
      have key : ∃ pts, vtkTuplePoints m.ndim w (pad3 t) = some pts ∧
          IsVtkOfCell w t ⟨if m.ndim = 2 then 4 else 8, pts, if m.ndim = 2 then 9 else 12, [], []⟩ := by
        rcases hn with hn | hn
        · have hnd : m.ndim = 2 := hn
          rw [hn] at htl
          match t, htl with
          | [x, y], _ =>
            rw [hnd]
            exact vtkCell_two hw
        · have hnd : m.ndim = 3 := hn
          rw [hn] at htl
          match t, htl with
          | [x, y, z], _ =>
            rw [hnd]
            exact vtkCell_three hw
      obtain ⟨pts, k1, k2⟩ := key
      refine ⟨_, by unfold CartMesh.vtkCellPoints; rw [hget, Option.bind_some, k1]; rfl, fun c hc => ?_⟩
      rw [List.getElem?_eq_getElem hi, Option.some.injEq] at hc
      exact ⟨t, by rw [← hc, ht1], ht2, k2⟩)
  refine ⟨b, cells, out, h1, h2, ?_, o2, fun i c hc => ?_⟩
  · unfold CartMesh.vtkCellData
    rw [h2, Option.bind_some]
    exact o1
  · obtain ⟨hi, -⟩ := List.getElem?_eq_some_iff.mp hc
    obtain ⟨v, v1, v2⟩ := o3 i hi
    obtain ⟨t, t1, t2, t3⟩ := v2 c hc
    exact ⟨t, v, t1, t2, v1, t3⟩

/-- The bound in the assertion of `get_vtk_face_cell_points`. -/
theorem faceScans_last {m : CartMesh} (hn : m.mh.dims.length = 2 ∨ m.mh.dims.length = 3) :
    ∃ sc, rd (faceScans 0 m.geomsPerFace) (if m.ndim = 2 then 3 else 5) = some sc ∧ sc.2 = m.ncellsFaceGlobal := by
  rcases hn with hn | hn
  · match hd : m.mh.dims, hn with
    | [d0, d1], _ =>
      have hnd : m.ndim = 2 := by simp [CartMesh.ndim, MeshHierarchy.ndim, hd]
      rw [hnd]
      unfold CartMesh.ncellsFaceGlobal CartMesh.geomsPerFace
      rw [hd]
      exact ⟨_, rfl, by simp; omega⟩
  · match hd : m.mh.dims, hn with
    | [d0, d1, d2], _ =>
      have hnd : m.ndim = 3 := by simp [CartMesh.ndim, MeshHierarchy.ndim, hd]
      rw [hnd]
      unfold CartMesh.ncellsFaceGlobal CartMesh.geomsPerFace
      rw [hd]
      exact ⟨_, rfl, by simp; omega⟩

/-- **C99** In two and three dimensions `get_vtk_face_cell_data` gives for the index of a face the line or the
quadrilateral made of the corners of its cell that are on its side of the domain; other indices are rejected. -/
theorem C99_face (m : CartMesh) (hv : ValidCartMesh m) (hn : m.mh.dims.length = 2 ∨ m.mh.dims.length = 3)
    (w : Int) (hw : 0 < w) :
    (∀ id f t, IsFace m id f t → OnSide m f t → ∃ c, m.vtkFaceCell w id = some c ∧ IsVtkOfFace m w f t c) ∧
    (∀ id, ¬ (0 ≤ id ∧ id < m.ncellsFaceGlobal) → m.vtkFaceCell w id = none) := by
  obtain ⟨sc, sc1, sc2⟩ := faceScans_last hn
  obtain ⟨-, -, b3, -⟩ := C40_bijection m hv hn
  constructor
  · rintro id f t ⟨l0, l1, g1, g2, g3⟩ hs
    have hid : 0 ≤ id ∧ id < sc.2 := by
      rw [sc2]
      by_contra hx
      rw [b3 id hx] at g1
      cases g1
    have hfi : index (f : Int) = some f := by simp [index]
    have key : ∃ cellPts pts, vtkTuplePoints m.ndim w (pad3 t) = some cellPts ∧
        (if m.ndim = 2 then facePoints faceCorners2 2 f cellPts else facePoints faceCorners3 4 f cellPts) = some pts ∧
        IsVtkOfFace m w f t ⟨if m.ndim = 2 then 2 else 4, pts, if m.ndim = 2 then 3 else 9, [], []⟩ := by
      rcases hn with hn | hn
      · have hnd : m.ndim = 2 := hn
        rw [hn] at g3
        match t, g3 with
        | [x, y], _ =>
          rw [hnd]
          exact vtkFace_two hw hs
      · have hnd : m.ndim = 3 := hn
        rw [hn] at g3
        match t, g3 with
        | [x, y, z], _ =>
          rw [hnd]
          exact vtkFace_three hw hs
    obtain ⟨cellPts, pts, k1, k2, k3⟩ := key
    refine ⟨_, ?_, k3⟩
    unfold CartMesh.vtkFaceCell CartMesh.vtkFacePoints
    rw [sc1, Option.bind_some, if_pos hid, g1, Option.bind_some]
    unfold CartMesh.vtkFaceTuplePoints
    rw [g2, Option.bind_some, k1, Option.bind_some, rd, List.getElem?_cons_zero, Option.bind_some, hfi,
      Option.bind_some, k2]
    rfl
  · intro id hid
    unfold CartMesh.vtkFaceCell CartMesh.vtkFacePoints
    rw [sc1, Option.bind_some, sc2, if_neg hid]
    rfl

/-- Every index below the number of faces is the face of a cell on a side. -/
theorem vtkFaceCell_exists {m : CartMesh} (hv : ValidCartMesh m)
    (hn : m.mh.dims.length = 2 ∨ m.mh.dims.length = 3) {w : Int} (hw : 0 < w) {id : Int} (h0 : 0 ≤ id)
    (h1 : id < m.ncellsFaceGlobal) : ∃ c f t, m.vtkFaceCell w id = some c ∧ IsFace m id f t ∧
      IsVtkOfFace m w f t c := by
  obtain ⟨f, t, g1, g2, -⟩ := (C40_bijection m hv hn).1 id h0 h1
  obtain ⟨c, c1, c2⟩ := (C99_face m hv hn w hw).1 id f t g1 g2
  exact ⟨c, f, t, c1, g1, c2⟩

/-- **C99** On every rank the map from `get_vtk_face_cell_data()` has the owned faces as keys and the cell of each. -/
theorem C99_faces (m : CartMesh) (hv : ValidCartMesh m) (hn : m.mh.dims.length = 2 ∨ m.mh.dims.length = 3)
    (w : Int) (hw : 0 < w) (r : Nat) (hr : r < m.comm.dims.prod) :
    ∃ cache owned out, m.ownedFaces (fun _ => none) r = some (cache, owned) ∧ m.vtkFaceCells w owned = some out ∧
      (∀ id, (omGet out id).isSome ↔ ∃ f t, IsFace m id f t ∧ OnSide m f t ∧ Owns m r t) ∧
      ∀ id f t, IsFace m id f t → OnSide m f t → Owns m r t → ∃ c, omGet out id = some c ∧ IsVtkOfFace m w f t c := by
  obtain ⟨cache, owned, h1, -, h3, h4, -⟩ := C40_owned m hv hn r hr
  obtain ⟨out, o1, o2⟩ := runItems_invariant
    (step := fun ix out => (m.vtkFaceCell w ix).bind fun c => some (omPut out ix c)) (items := owned)
    (s := ([] : OMap VtkCell))
    (P := fun pre out => OMapOk out ∧ ∀ id, omGet out id = if id ∈ pre then m.vtkFaceCell w id else none)
    (by
      rintro pre x post out hitems ⟨q1, q2⟩
      obtain ⟨f, t, g1, g2, -⟩ := (h4 x).mp (by rw [hitems]; simp)
      obtain ⟨c, c1, -⟩ := (C99_face m hv hn w hw).1 x f t g1 g2
      refine ⟨_, by rw [c1]; rfl, omPut_ok q1 _ _, fun id => ?_⟩
      rw [omGet_put, q2]
      by_cases hx : x = id
      · subst hx
        simp [c1]
      · have : id ≠ x := fun h => hx h.symm
        simp [hx, this])
    ⟨by simp [OMapOk], by simp [omGet]⟩
  have hget : ∀ id f t, IsFace m id f t → OnSide m f t → Owns m r t →
      ∃ c, omGet out id = some c ∧ IsVtkOfFace m w f t c := by
    intro id f t g1 g2 g3
    obtain ⟨c, c1, c2⟩ := (C99_face m hv hn w hw).1 id f t g1 g2
    exact ⟨c, by rw [o2.2, if_pos ((h4 id).mpr ⟨f, t, g1, g2, g3⟩), c1], c2⟩
  refine ⟨cache, owned, out, h1, o1, fun id => ⟨fun h => ?_, fun ⟨f, t, g1, g2, g3⟩ => ?_⟩, hget⟩
  · rw [o2.2] at h
    by_cases hin : id ∈ owned
    · exact (h4 id).mp hin
    · rw [if_neg hin] at h; cases h
  · obtain ⟨c, hc, -⟩ := hget id f t g1 g2 g3
    rw [hc]; rfl

/-- The cells of a function on one rank. -/
theorem faceFunctionCells_spec {m : CartMesh} {w u : Int} {f : FaceFunction} {cell : Int → VtkCell}
    (hd : f.dofs.length = f.cells.length) (hc : ∀ id ∈ f.cells, m.vtkFaceCell w id = some (cell id))
    (he : ∀ id ∈ f.cells, (cell id).cellData = []) :
    m.faceFunctionCells w u f =
      some (List.zipWith (fun id v => { cell id with cellData := [(u, v)] }) f.cells f.dofs) := by
  obtain ⟨s, s1, s2, s3⟩ := runItems_invariant
    (step := fun cx (s : Nat × List VtkCell) => (m.vtkFaceCell w cx).bind fun c =>
      (rd f.dofs s.1).bind fun v => some (s.1 + 1, s.2 ++ [{ c with cellData := omPut c.cellData u v }]))
    (items := f.cells) (s := (0, []))
    (P := fun pre s => s.1 = pre.length ∧ s.2 =
      List.zipWith (fun id v => { cell id with cellData := [(u, v)] }) pre (f.dofs.take pre.length))
    (by
      rintro pre x post ⟨k, l⟩ hitems ⟨q1, q2⟩
      simp only at q1 q2
      subst q1 q2
      have hx : x ∈ f.cells := by rw [hitems]; simp
      have hlt : pre.length < f.dofs.length := by rw [hd, hitems]; simp
      refine ⟨_, by rw [hc x hx, Option.bind_some, rd, List.getElem?_eq_getElem hlt, Option.bind_some], by simp, ?_⟩
      simp only [List.length_append, List.length_cons, List.length_nil, Nat.zero_add]
      rw [List.take_add_one, List.getElem?_eq_getElem hlt, Option.toList_some,
        List.zipWith_append (by rw [List.length_take]; omega)]
      simp [he x hx, omPut])
    ⟨rfl, by simp⟩
  unfold CartMesh.faceFunctionCells
  rw [s1, Option.map_some, s3, ← hd, List.take_length]

/-- **C99** The file of a function on faces of the boundary: cell `i` of rank `p` is the face which the function has
there, and the quantity "u" of it is the value of the function on that face; there is nothing else in the file. -/
theorem C99_function (m : CartMesh) (hv : ValidCartMesh m) (hn : m.mh.dims.length = 2 ∨ m.mh.dims.length = 3)
    (w u : Int) (hw : 0 < w) (sch : Sched) (fs : List FaceFunction) (hne : fs ≠ [])
    (hf : ∀ f ∈ fs, f.dofs.length = f.cells.length ∧ ∀ id ∈ f.cells, 0 ≤ id ∧ id < m.ncellsFaceGlobal) :
    ∃ file, m.writeFaceFunction w u sch fs = some file ∧
      (∀ (p i : Nat) f id v, fs[p]? = some f → f.cells[i]? = some id → f.dofs[i]? = some v →
        ∃ c side t, IsFace m id side t ∧ IsVtkOfFace m w side t c ∧
          readVtkCell file p i = some { c with cellData := [(u, v)] }) ∧
      ∀ p i, (readVtkCell file p i).isSome → ∃ f, fs[p]? = some f ∧ i < f.cells.length := by
  classical
  -- the cell of each face
  have hcell : ∃ cell : Int → VtkCell, ∀ id, 0 ≤ id → id < m.ncellsFaceGlobal → m.vtkFaceCell w id = some (cell id) ∧
      ∃ side t, IsFace m id side t ∧ IsVtkOfFace m w side t (cell id) := by
    refine ⟨fun id => (m.vtkFaceCell w id).getD ⟨0, [], 0, [], []⟩, fun id h0 h1 => ?_⟩
    obtain ⟨c, side, t, c1, c2, c3⟩ := vtkFaceCell_exists hv hn hw h0 h1
    simp only [c1]
    exact ⟨rfl, side, t, c2, c3⟩
  obtain ⟨cell, hcell⟩ := hcell
  have hdata : ∀ id, 0 ≤ id → id < m.ncellsFaceGlobal → (cell id).cellData = [] ∧ (cell id).pointData = [] ∧
      (cell id).points.length = (cell id).numPoints * 3 := by
    intro id h0 h1
    obtain ⟨-, side, t, -, pts, hp, -⟩ := hcell id h0 h1
    refine ⟨hp.cellData, hp.pointData, ?_⟩
    rw [hp.points, hp.number, List.length_flatten]
    have : pts.map List.length = List.replicate pts.length 3 := by
      rw [List.eq_replicate_iff]
      refine ⟨by simp, fun b hb => ?_⟩
      obtain ⟨q, hq, rfl⟩ := List.mem_map.mp hb
      exact hp.three q hq
    rw [this]; simp
  let cellsOf := fun f : FaceFunction =>
    List.zipWith (fun id v => ({ cell id with cellData := [(u, v)] } : VtkCell)) f.cells f.dofs
  have hmap : (fs.mapM fun f => (m.faceFunctionCells w u f).map fun data => (⟨data, [], [u]⟩ : VtkRank)) =
      some (fs.map fun f => ⟨cellsOf f, [], [u]⟩) := by
    apply mapM_of_forall
    intro f hfm
    rw [faceFunctionCells_spec (cell := cell) (hf f hfm).1
      (fun id hid => (hcell id ((hf f hfm).2 id hid).1 ((hf f hfm).2 id hid).2).1)
      (fun id hid => (hdata id ((hf f hfm).2 id hid).1 ((hf f hfm).2 id hid).2).1)]
    rfl
  obtain ⟨file, w1, w2⟩ := C98_read (P := []) (C := [u]) (by simp) (by simp) sch
    (ranks := fs.map fun f => (⟨cellsOf f, [], [u]⟩ : VtkRank)) (by simpa using hne) (by
      intro r hr
      obtain ⟨f, hfm, rfl⟩ := List.mem_map.mp hr
      refine ⟨fun c hc => ?_, by simp, by simp, by simp, by simp⟩
      obtain ⟨i, hi⟩ := List.mem_iff_getElem?.mp hc
      rw [List.getElem?_zipWith] at hi
      cases h1 : f.cells[i]? with
      | none => rw [h1] at hi; simp at hi
      | some id =>
        cases h2 : f.dofs[i]? with
        | none => rw [h1, h2] at hi; simp at hi
        | some v =>
          rw [h1, h2] at hi
          simp only [Option.some.injEq] at hi
          subst hi
          obtain ⟨b1, b2⟩ := (hf f hfm).2 id (List.mem_of_getElem? h1)
          obtain ⟨e1, e2, e3⟩ := hdata id b1 b2
          exact ⟨e3, by simp [e2], by simp, by simp [e2]⟩)
  refine ⟨file, ?_, ?_, ?_⟩
  · unfold CartMesh.writeFaceFunction
    rw [hmap, Option.bind_some, w1]
    rfl
  · intro p i f id v hp hi hvv
    have hfm := List.mem_of_getElem? hp
    obtain ⟨b1, b2⟩ := (hf f hfm).2 id (List.mem_of_getElem? hi)
    obtain ⟨-, side, t, k1, k2⟩ := hcell id b1 b2
    refine ⟨cell id, side, t, k1, k2, ?_⟩
    rw [w2, List.getElem?_map, hp, Option.map_some, Option.bind_some, List.getElem?_zipWith, hi, hvv]
  · intro p i h
    rw [w2, List.getElem?_map] at h
    cases hp : fs[p]? with
    | none => rw [hp] at h; simp at h
    | some f =>
      refine ⟨f, rfl, ?_⟩
      rw [hp, Option.map_some, Option.bind_some, List.getElem?_zipWith] at h
      by_contra hi
      rw [List.getElem?_eq_none (by omega)] at h
      simp at h

/-- In one dimension the cells say that they are hexahedra with eight points and have two, so that writing them
fails. -/
theorem C99_one_dimension : ∃ (m : CartMesh) (b : List (Int × Int)) (out : List VtkCell),
    m.mh.dims = [2] ∧ m.box 0 = some b ∧ m.vtkCellData 1 b = some out ∧
    out.map (fun c => (c.numPoints, c.points.length, c.cellType)) = [(8, 6, 12), (8, 6, 12)] ∧
    VtkWriter.write Sched.inOrder ⟨true, none⟩ [⟨out, [], []⟩] = none :=
  ⟨⟨⟨[2], 0⟩, ⟨[1], fun _ => 0, fun _ => [0]⟩, 1⟩, [(0, 2)],
    [⟨8, [0, 0, 0, 1, 0, 0], 12, [], []⟩, ⟨8, [1, 0, 0, 2, 0, 0], 12, [], []⟩], rfl, by decide, by decide, by decide,
    by decide⟩

namespace Ex

/-- The cells of rank 1 of a mesh of 4 by 6 cells on four ranks. -/
example : ∃ b out, cartMesh.box 1 = some b ∧ cartMesh.vtkCellData 5 b = some out ∧ out.length = 6 ∧
    ∃ v, out[3]? = some v ∧ IsVtkOfCell 5 [1, 4] v := by
  obtain ⟨b, cells, out, h1, h2, h3, h4, h5⟩ := C99_cells cartMesh cartMesh_valid (Or.inl rfl) 5 (by decide) 1
    (by decide)
  have hb : b = [(0, 2), (3, 6)] := by
    have : cartMesh.box 1 = some [(0, 2), (3, 6)] := by decide
    rw [h1] at this
    exact Option.some.inj this
  subst hb
  have hc : cells = [[0, 3, 0], [1, 3, 0], [0, 4, 0], [1, 4, 0], [0, 5, 0], [1, 5, 0]] := by
    have : getOwnedCells [(0, 2), (3, 6)] = some [[0, 3, 0], [1, 3, 0], [0, 4, 0], [1, 4, 0], [0, 5, 0], [1, 5, 0]] :=
      by decide
    rw [h2] at this
    exact Option.some.inj this
  subst hc
  obtain ⟨t, v, t1, t2, t3, t4⟩ := h5 3 [1, 4, 0] rfl
  have htl : t.length = 2 := by have := t2.length; simpa [cartMesh] using this
  match t, htl with
  | [x, y], _ =>
    simp [pad3] at t1
    obtain ⟨rfl, rfl⟩ := t1
    exact ⟨_, out, h1, h3, h4, v, t3, t4⟩

example : (cartMesh.vtkCellData 5 [(0, 2), (3, 6)]).bind (fun l => l[3]?) =
    some ⟨4, [5, 20, 0, 10, 20, 0, 10, 25, 0, 5, 25, 0], 9, [], []⟩ := by decide +kernel

/-- The face with index 5 is on the upper end of the first dimension. -/
example : cartMesh.vtkFaceCell 5 5 = some ⟨2, [20, 5, 0, 20, 10, 0], 3, [], []⟩ := by decide +kernel

/-- A function on two faces of rank 0 and one face of rank 2; rank 1 has none. -/
example : ∃ file, cartMesh.writeFaceFunction 5 9 Sched.reversed [⟨[5, 0], [50, 60]⟩, ⟨[], []⟩, ⟨[19], [70]⟩] = some file ∧
    (readVtkCell file 2 0).isSome ∧ ¬ (readVtkCell file 1 0).isSome := by
  obtain ⟨file, f1, f2, f3⟩ := C99_function cartMesh cartMesh_valid (Or.inl rfl) 5 9 (by decide) Sched.reversed
    [⟨[5, 0], [50, 60]⟩, ⟨[], []⟩, ⟨[19], [70]⟩] (by simp) (by decide)
  refine ⟨file, f1, ?_, fun h => ?_⟩
  · obtain ⟨c, side, t, -, -, h⟩ := f2 2 0 ⟨[19], [70]⟩ 19 70 rfl rfl rfl
    rw [h]; rfl
  · obtain ⟨f, g1, g2⟩ := f3 1 0 h
    simp at g1
    subst g1
    simp at g2

/-- A mesh of 2 by 1 by 3 cells on one rank. -/
def cartMesh3 : CartMesh := ⟨⟨[2, 1, 3], 0⟩, ⟨[1, 1, 1], fun _ => 0, fun _ => [0, 0, 0]⟩, 1⟩

/-- The upper end of the third dimension. -/
example : (List.range 22).map (fun id => (cartMesh3.getFaceIdAsTuple id).bind (rd · 0)) =
    [0, 0, 0, 0, 0, 0, 1, 1, 1, 2, 2, 2, 2, 2, 2, 3, 3, 3, 4, 4, 5, 5].map some := by decide +kernel
example : cartMesh3.vtkFaceCell 5 21 = some ⟨4, [5, 0, 15, 10, 0, 15, 10, 5, 15, 5, 5, 15], 9, [], []⟩ := by
  decide +kernel

end Ex

end NP
