import Mathlib.Analysis.Real.Sqrt
import Mathlib.Data.Fin.VecNotation
import Mathlib.Algebra.BigOperators.Group.Finset.Basic
import Mathlib.Algebra.BigOperators.Fin

/-
The geometry of the vertex-centred finite volumes within one element of the grid: volumes of the sub-control volumes, the faces between
them, and their parts of the faces of the element.

All line numbers are of opm/models/discretization/vcfv/vcfvstencil.hh unless another file is given.

Elements are lines, triangles, quadrilaterals, tetrahedra and hexahedra, given by the positions `x` of their corners; those in two
dimensions are in the plane.  What comes from dune-geometry is modelled here as it is documented there: the numbering of corners, edges
and faces of the reference elements, and that the geometry maps the centre of an edge, a face or the reference element itself to the mean
of its corners (as it does for all these elements).  Pyramids and prisms are rejected by `updateScvGeometry` (lines 1016-1037).
-/

set_option autoImplicit false

namespace Verif.Vcfv

noncomputable section

/-- A position or direction in two dimensions -/
abbrev V2 := Fin 2 → ℝ

/-- A position or direction in three dimensions -/
abbrev V3 := Fin 3 → ℝ

/-! ### Reference elements (dune-geometry) -/

/-- A reference element: the number of its corners, the corners of its edges, and those of its faces (in three dimensions) -/
structure RefElement where
  numVertices : ℕ
  edges : List (ℕ × ℕ)
  faces : List (List ℕ)

/-- The triangle -/
def triangle : RefElement := ⟨3, [(0, 1), (0, 2), (1, 2)], []⟩

/-- The quadrilateral -/
def quadrilateral : RefElement := ⟨4, [(0, 2), (1, 3), (0, 1), (2, 3)], []⟩

/-- The tetrahedron -/
def tetrahedron : RefElement :=
  ⟨4, [(0, 1), (0, 2), (1, 2), (0, 3), (1, 3), (2, 3)], [[0, 1, 2], [0, 1, 3], [0, 2, 3], [1, 2, 3]]⟩

/-- The hexahedron -/
def hexahedron : RefElement :=
  ⟨8, [(0, 4), (1, 5), (2, 6), (3, 7), (0, 2), (1, 3), (0, 1), (2, 3), (4, 6), (5, 7), (4, 5), (6, 7)],
    [[0, 2, 4, 6], [1, 3, 5, 7], [0, 1, 4, 5], [2, 3, 6, 7], [0, 1, 2, 3], [4, 5, 6, 7]]⟩

/-- The mean of some corners -/
def mean {d : ℕ} (x : ℕ → Fin d → ℝ) (l : List ℕ) : Fin d → ℝ := (1 / (l.length : ℝ)) • (l.map x).sum

/-- `edgeCoord[k]` (lines 884-886) -/
def edgeCoord {d : ℕ} (R : RefElement) (x : ℕ → Fin d → ℝ) (k : ℕ) : Fin d → ℝ :=
  mean x [(R.edges.getD k (0, 0)).1, (R.edges.getD k (0, 0)).2]

/-- `faceCoord[f]` (lines 889-891) -/
def faceCoord {d : ℕ} (R : RefElement) (x : ℕ → Fin d → ℝ) (f : ℕ) : Fin d → ℝ := mean x (R.faces.getD f [])

/-- `elementGlobal` (line 875) -/
def elementGlobal {d : ℕ} (R : RefElement) (x : ℕ → Fin d → ℝ) : Fin d → ℝ := mean x (List.range R.numVertices)

/-! ### Faces between sub-control volumes -/

/-- `interiorIndex` and `exteriorIndex` of the face `k` (lines 902-907) -/
def faceIndices (R : RefElement) (k : ℕ) : ℕ × ℕ :=
  let (i, j) := R.edges.getD k (0, 0)
  if R.edges.length = 4 ∧ (i = 2 ∨ j = 2) then (j, i) else (i, j)

/-- `two_norm` -/
def norm2 (n : V2) : ℝ := Real.sqrt (n 0 * n 0 + n 1 * n 1)

/-- `two_norm` -/
def norm3 (n : V3) : ℝ := Real.sqrt (n 0 * n 0 + n 1 * n 1 + n 2 * n 2)

/-- The normal in two dimensions before it is scaled (lines 926-935) -/
def rawNormal2 (R : RefElement) (x : ℕ → V2) (k : ℕ) : V2 :=
  let diff := fun m => elementGlobal R x m - edgeCoord R x k m
  let n : V2 := ![diff 1, -diff 0]
  let (i, j) := faceIndices R k
  let d := fun m => x j m - x i m
  if n 0 * d 0 + n 1 * d 1 < 0 then fun m => -n m else n

/-- `area` of a face in two dimensions (line 937) -/
def area2 (R : RefElement) (x : ℕ → V2) (k : ℕ) : ℝ := norm2 (rawNormal2 R x k)

/-- `normal` of a face in two dimensions (line 938) -/
def normal2 (R : RefElement) (x : ℕ → V2) (k : ℕ) : V2 := fun m => rawNormal2 R x k m / area2 R x k

/-- `crossProduct` (lines 502-507) -/
def crossProduct (a b : V3) : V3 := ![a 1 * b 2 - a 2 * b 1, a 2 * b 0 - a 0 * b 2, a 0 * b 1 - a 1 * b 0]

/-- `normalOfQuadrilateral3D` (lines 570-585) -/
def normalOfQuadrilateral3D (p0 p1 p2 p3 : V3) : V3 :=
  let a := fun k => p2 k - p0 k
  let b := fun k => p3 k - p1 k
  fun k => crossProduct a b k * (1 / 2)

/-- `quadrilateralArea3D` (lines 587-595) -/
def quadrilateralArea3D (p0 p1 p2 p3 : V3) : ℝ := norm3 (normalOfQuadrilateral3D p0 p1 p2 p3)

/-- `getFaceIndices` (lines 597-638): the tables of tetrahedra and hexahedra -/
def edgeToFace (numVertices : ℕ) : List ℕ × List ℕ :=
  if numVertices = 4 then ([1, 0, 3, 2, 1, 3], [0, 2, 0, 1, 3, 2])
  else ([0, 2, 3, 1, 4, 1, 2, 4, 0, 5, 5, 3], [2, 1, 0, 3, 0, 4, 4, 3, 5, 1, 2, 5])

/-- The normal in three dimensions before it is scaled (lines 940-951) -/
def rawNormal3 (R : RefElement) (x : ℕ → V3) (k : ℕ) : V3 :=
  let leftFace := (edgeToFace R.numVertices).1.getD k 0
  let rightFace := (edgeToFace R.numVertices).2.getD k 0
  normalOfQuadrilateral3D (edgeCoord R x k) (faceCoord R x rightFace) (elementGlobal R x) (faceCoord R x leftFace)

/-- `area` of a face in three dimensions (line 952) -/
def area3 (R : RefElement) (x : ℕ → V3) (k : ℕ) : ℝ := norm3 (rawNormal3 R x k)

/-- `normal` of a face in three dimensions (line 953) -/
def normal3 (R : RefElement) (x : ℕ → V3) (k : ℕ) : V3 := fun m => rawNormal3 R x k m / area3 R x k

/-! ### Boundary -/

/-- `getEdgeIndices` (lines 640-723): the tables of tetrahedra and hexahedra; 99 stands for -1. -/
def leftEdge (numVertices : ℕ) : List (List ℕ) :=
  if numVertices = 4 then [[0, 0, 2, 99], [0, 0, 99, 3], [1, 99, 1, 3], [99, 2, 2, 4]]
  else [[0, 99, 4, 99, 8, 99, 2, 99], [99, 5, 99, 3, 99, 1, 99, 9], [6, 1, 99, 99, 0, 10, 99, 99],
    [99, 99, 2, 7, 99, 99, 11, 3], [4, 6, 7, 5, 99, 99, 99, 99], [99, 99, 99, 99, 10, 9, 8, 11]]

/-- `getEdgeIndices` (lines 640-723), as above -/
def rightEdge (numVertices : ℕ) : List (List ℕ) :=
  if numVertices = 4 then [[1, 2, 1, 99], [3, 4, 99, 4], [3, 99, 5, 5], [99, 4, 5, 5]]
  else [[4, 99, 2, 99, 0, 99, 8, 99], [99, 1, 99, 5, 99, 9, 99, 3], [0, 6, 99, 99, 10, 1, 99, 99],
    [99, 99, 7, 3, 99, 99, 2, 11], [6, 5, 4, 7, 99, 99, 99, 99], [99, 99, 99, 99, 8, 10, 11, 9]]

/-- `area` of the part of the face `f` of an element in three dimensions which belongs to the corner `v` (lines 986-1000) -/
def boundaryArea3 (R : RefElement) (x : ℕ → V3) (f v : ℕ) : ℝ :=
  let l := ((leftEdge R.numVertices).getD f []).getD v 0
  let r := ((rightEdge R.numVertices).getD f []).getD v 0
  quadrilateralArea3D (x v) (edgeCoord R x r) (faceCoord R x f) (edgeCoord R x l)

/-- `area` of the part of the edge `f` of an element in two dimensions which belongs to one of its corners (line 984); the volume of the
intersection is the length of the edge. -/
def boundaryArea2 (R : RefElement) (x : ℕ → V2) (f : ℕ) : ℝ :=
  let (i, j) := R.edges.getD f (0, 0)
  1 / 2 * norm2 fun m => x j m - x i m

/-! ### Volumes -/

/-- `quadrilateralArea` (lines 494-500) -/
def quadrilateralArea (p0 p1 p2 p3 : V2) : ℝ := 1 / 2 * |(p3 0 - p1 0) * (p2 1 - p0 1) - (p3 1 - p1 1) * (p2 0 - p0 0)|

/-- The volumes of the sub-control volumes of a line whose volume is `elementVolume` (lines 1116-1120) -/
def scvVolumeLine (elementVolume : ℝ) (_ : ℕ) : ℝ := 1 / 2 * elementVolume

/-- Those of a triangle (lines 1123-1127) -/
def scvVolumeTriangle (elementVolume : ℝ) (_ : ℕ) : ℝ := elementVolume / 3

/-- Those of a quadrilateral (lines 1128-1149) -/
def scvVolumeQuadrilateral (x : ℕ → V2) (v : ℕ) : ℝ :=
  let e := edgeCoord quadrilateral x
  let c := elementGlobal quadrilateral x
  match v with
  | 0 => quadrilateralArea (x 0) (e 2) c (e 0)
  | 1 => quadrilateralArea (x 1) (e 1) c (e 2)
  | 2 => quadrilateralArea (x 2) (e 0) c (e 3)
  | _ => quadrilateralArea (x 3) (e 3) c (e 1)

/-- Those of a tetrahedron (lines 1157-1160) -/
def scvVolumeTetrahedron (elementVolume : ℝ) (_ : ℕ) : ℝ := elementVolume / 4

/-- `prismVolume` (lines 526-554) -/
def prismVolume (p0 p1 p2 p3 p4 p5 : V3) : ℝ :=
  let m := crossProduct (fun k => p4 k - p0 k) (fun k => p1 k - p3 k)
  let n := crossProduct (fun k => p1 k - p0 k) (fun k => p2 k - p0 k)
  let n := fun k => n k + m k
  let a := fun k => p5 k - p0 k
  |1 / 6 * (n 0 * a 0 + n 1 * a 1 + n 2 * a 2)|

/-- `hexahedronVolume` (lines 556-568) -/
def hexahedronVolume (p0 p1 p2 p3 p4 p5 p6 p7 : V3) : ℝ := prismVolume p0 p1 p2 p4 p5 p6 + prismVolume p0 p2 p3 p4 p6 p7

/-- Those of a hexahedron (lines 1260-1333) -/
def scvVolumeHexahedron (x : ℕ → V3) (v : ℕ) : ℝ :=
  let e := edgeCoord hexahedron x
  let f := faceCoord hexahedron x
  let c := elementGlobal hexahedron x
  match v with
  | 0 => hexahedronVolume (x 0) (e 6) (f 4) (e 4) (e 0) (f 2) c (f 0)
  | 1 => hexahedronVolume (x 1) (e 5) (f 4) (e 6) (e 1) (f 1) c (f 2)
  | 2 => hexahedronVolume (x 2) (e 4) (f 4) (e 7) (e 2) (f 0) c (f 3)
  | 3 => hexahedronVolume (x 3) (e 7) (f 4) (e 5) (e 3) (f 3) c (f 1)
  | 4 => hexahedronVolume (e 0) (f 2) c (f 0) (x 4) (e 10) (f 5) (e 8)
  | 5 => hexahedronVolume (e 1) (f 1) c (f 2) (x 5) (e 9) (f 5) (e 10)
  | 6 => hexahedronVolume (e 2) (f 0) c (f 3) (x 6) (e 8) (f 5) (e 11)
  | _ => hexahedronVolume (e 3) (f 3) c (f 1) (x 7) (e 11) (f 5) (e 9)

end

end Verif.Vcfv
