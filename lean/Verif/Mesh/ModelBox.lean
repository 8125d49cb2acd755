import Verif.Mesh.ModelMap

/-!
# Claims of mesh hierarchy cells by bounding boxes

Model of `src/external_interfaces/common/local_claim.cpp`. Real numbers are exact and integers
unbounded. The loops over dimensions which the mesh does not have visit one cell with the factor
one, so they are left out.
-/

set_option autoImplicit false

namespace NP

/-- `overlap_1d`, src/external_interfaces/common/local_claim.cpp:17-35. -/
def overlap1d (lhs rhs : ℚ) (cell : Int) (w : ℚ) : ℚ :=
  let start := cell * w
  let stop := start + w
  if rhs ≤ start then 0
  else if lhs ≥ stop then 0
  else
    let area := min stop rhs - max start lhs
    if area > 0 then area else 0

/-- `lhs_cell`, `rhs_cell` and the shifted bounds in one dimension. -/
structure BoxDim where
  /-- First cell. -/
  start : Int
  /-- After the last cell. -/
  stop : Int
  /-- Shifted lower bound. -/
  lhs : ℚ
  /-- Shifted upper bound. -/
  rhs : ℚ

/-- The body of the loop in src/external_interfaces/common/local_claim.cpp:63-81, where the
dimension has `n` coarse cells. -/
def boxDim (nf : Int) (inv : ℚ) (n : Int) (o lo hi : ℚ) : BoxDim :=
  let lhs := lo - o
  let rhs := hi - o
  let l0 := truncZ (lhs * inv)
  let r0 := truncZ (rhs * inv + 1)
  let nc := nf * n
  let l1 := if l0 < 0 then 0 else l0
  let l2 := if l1 ≥ nc then nc else l1
  let r1 := if r0 < 0 then 0 else r0
  let r2 := if r1 > nc then nc else r1
  ⟨l2, r2, lhs, rhs⟩

/-- The loop over dimensions in src/external_interfaces/common/local_claim.cpp:63-81. -/
def boxDims (nf : Int) (inv : ℚ) : List Int → List ℚ → List ℚ → List ℚ → Option (List BoxDim)
  | [], _, _, _ => some []
  | n :: ns, o :: os, lo :: los, hi :: his =>
    (boxDims nf inv ns os los his).bind fun r => some (boxDim nf inv n o lo hi :: r)
  | _, _, _, _ => none

/-- The nested loops over cells and the volume computed for each,
src/external_interfaces/common/local_claim.cpp:92-124: the first dimension is the innermost
loop. -/
def boxVolumes (w : ℚ) : List BoxDim → List (List Int × ℚ)
  | [] => [([], 1)]
  | b :: bs => (boxVolumes w bs).flatMap fun (t, v) =>
    (intRange b.start b.stop).map fun c => (c :: t, overlap1d b.lhs b.rhs c w * v)

/-- `mesh_tuple_to_mh_tuple` (src/external_interfaces/common/local_claim.cpp:37-46) is the
same as `cart_tuple_to_tuple`; the index is then made linear, lines 118-120. -/
def boxCellIndex (mh : MeshHierarchy) (t : List Int) : Option Int :=
  (mh.cartToTuple t).bind mh.tupleToLinearGlobal

/-- `bounding_box_map`, src/external_interfaces/common/local_claim.cpp:48-125. -/
def boundingBoxMap (g : MeshGeom) (lower upper : List ℚ) : Option (List (Int × ℚ)) :=
  (boxDims g.mh.ncellsDimFine ((g.mh.ncellsDimFine : ℚ) / g.width) g.mh.dims g.origin lower
    upper).bind fun bs =>
  collectM (fun tv => if tv.2 > 0 then (boxCellIndex g.mh tv.1).bind fun i => some [(i, tv.2)]
    else some []) (boxVolumes g.widthFine bs)

/-- `LocalClaim` and `MHGeomMap`; `std::map` entries that do not exist are `none`. -/
structure LocalClaims where
  /-- `claim_cells`, a `std::set`. -/
  cells : List Int
  /-- `claim_weights`. -/
  weights : Int → Option (Int × ℚ)
  /-- `mh_geom_map`. -/
  geoms : Int → Option (List Int)

/-- No claims. -/
def LocalClaims.empty : LocalClaims := ⟨[], fun _ => none, fun _ => none⟩

/-- `LocalClaim::claim`, src/external_interfaces/common/local_claim.cpp:5-15. The access of
`claim_weights[index]` creates the entry. -/
def LocalClaims.claim (s : LocalClaims) (index weight : Int) (weightf : ℚ) : LocalClaims :=
  if weight > 0 then
    let current := (s.weights index).getD (0, 0)
    { s with
      cells := intSetInsert index s.cells
      weights := fun i => if i = index then
          some (if weight > current.1 then (weight, weightf) else current)
        else s.weights i }
  else s

/-- The body of the loop in `bounding_box_claim`,
src/external_interfaces/common/local_claim.cpp:139-145. -/
def boxClaimStep (elementId : Int) (inv : ℚ) (cv : Int × ℚ) (s : LocalClaims) : LocalClaims :=
  let ratio := cv.2 * inv
  let weight := truncZ (1000000 * ratio)
  let s := s.claim cv.1 weight ratio
  { s with
    geoms := fun i => if i = cv.1 then some ((s.geoms cv.1).getD [] ++ [elementId])
      else s.geoms i }

/-- `bounding_box_claim`, src/external_interfaces/common/local_claim.cpp:127-147. -/
def boundingBoxClaim (g : MeshGeom) (elementId : Int) (lower upper : List ℚ) (s : LocalClaims) :
    Option LocalClaims :=
  (boundingBoxMap g lower upper).bind fun cells =>
  let inv := 1 / g.widthFine ^ g.mh.ndim
  some (cells.foldl (fun s cv => boxClaimStep elementId inv cv s) s)

/-- Successive calls for the elements of a mesh. -/
def claimElements (g : MeshGeom) : List (Int × List ℚ × List ℚ) → LocalClaims → Option LocalClaims
  | [], s => some s
  | (e, lo, hi) :: es, s => (boundingBoxClaim g e lo hi s).bind (claimElements g es)

end NP
