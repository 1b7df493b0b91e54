import Mathlib.LinearAlgebra.CrossProduct
import Mathlib.Analysis.Calculus.Deriv.Basic
import Mathlib.MeasureTheory.Integral.IntervalIntegral.Basic
import Verif.Vcfv.Model

/-
What the geometry of vertex-centred finite volumes has to be, in terms of areas and volumes of polygons and polyhedra.
-/

set_option autoImplicit false

namespace Verif.Vcfv.Spec

open Matrix

noncomputable section

/-! ### Two dimensions -/

/-- Twice the signed area of the parallelogram of two vectors -/
def det2 (a b : V2) : ℝ := a 0 * b 1 - a 1 * b 0

/-- The signed area of a polygon with four corners, in this order (shoelace formula) -/
def signedArea4 (p q r s : V2) : ℝ := (det2 p q + det2 q r + det2 r s + det2 s p) / 2

/-- The signed area of a triangle (shoelace formula) -/
def signedArea3 (p q r : V2) : ℝ := (det2 p q + det2 q r + det2 r p) / 2

/-- The corner after the corner `v` when walking around a quadrilateral in the order 0, 1, 3, 2 (that of dune has 0 opposite to 3) -/
def next4 : ℕ → ℕ
  | 0 => 1 | 1 => 3 | 2 => 0 | _ => 2

/-- The corner before the corner `v` -/
def prev4 : ℕ → ℕ
  | 0 => 2 | 1 => 0 | 2 => 3 | _ => 1

/-- The corner after the corner `v` when walking around a triangle in the order 0, 1, 2 -/
def next3 : ℕ → ℕ
  | 0 => 1 | 1 => 2 | _ => 0

/-- The corner before the corner `v` -/
def prev3 : ℕ → ℕ
  | 0 => 2 | 1 => 0 | _ => 1

/-- All corners of a quadrilateral turn left. -/
def TurnsLeft (x : ℕ → V2) : Prop := ∀ v < 4, 0 < det2 (x (next4 v) - x v) (x (prev4 v) - x v)

/-- All corners of a quadrilateral turn right. -/
def TurnsRight (x : ℕ → V2) : Prop := ∀ v < 4, det2 (x (next4 v) - x v) (x (prev4 v) - x v) < 0

/-- A (strictly) convex quadrilateral, with its corners in either orientation -/
def Convex (x : ℕ → V2) : Prop := TurnsLeft x ∨ TurnsRight x

/-- The middle between two points -/
def middle {d : ℕ} (p q : Fin d → ℝ) : Fin d → ℝ := (1 / 2 : ℝ) • (p + q)

/-- A vector turned to the right by 90 degrees -/
def right (d : V2) : V2 := ![d 1, -d 0]

/-! ### Faces of a sub-control volume -/

/-- The sum of the area vectors (area times unit normal) of the faces between sub-control volumes, as seen from the one of the corner
`v`: faces of which it is the interior count as they are, those of which it is the exterior count with the opposite sign. -/
def outOf {d : ℕ} (numFaces : ℕ) (idx : ℕ → ℕ × ℕ) (area : ℕ → ℝ) (normal : ℕ → Fin d → ℝ) (v : ℕ) : Fin d → ℝ :=
  ∑ k ∈ Finset.range numFaces,
    ((if (idx k).1 = v then area k • normal k else 0) - (if (idx k).2 = v then area k • normal k else 0))

/-! ### Three dimensions -/

/-- The faces of a tetrahedron, each with its corners in the order in which they are seen counterclockwise from outside if the first three
edges at the corner 0 are oriented like the axes. -/
def tetCycles : List (List ℕ) := [[0, 2, 1], [0, 1, 3], [0, 3, 2], [1, 2, 3]]

/-- The same for hexahedra -/
def hexCycles : List (List ℕ) := [[0, 4, 6, 2], [1, 3, 7, 5], [0, 1, 5, 4], [2, 6, 7, 3], [0, 2, 3, 1], [4, 5, 7, 6]]

/-- The corners of a face, each with the one after it and the one before it -/
def triples (l : List ℕ) : List (ℕ × ℕ × ℕ) := l.zip ((l.rotate 1).zip (l.rotate (l.length - 1)))

/-- The mean of corners -/
def average (x : ℕ → V3) (l : List ℕ) : V3 := (1 / (l.length : ℝ)) • (l.map x).sum

/-- The area vector of a polygon with four corners in space: half the cross product of its diagonals -/
def areaVector (p q r s : V3) : V3 := (1 / 2 : ℝ) • ((r - p) ⨯₃ (s - q))

/-- The area vector of the part of a face of the element which belongs to one of its corners: that of the polygon from the corner to the
middle of the next edge, the centre of the face and the middle of the edge before. -/
def part (x : ℕ → V3) (l : List ℕ) (t : ℕ × ℕ × ℕ) : V3 :=
  areaVector (x t.1) (middle (x t.1) (x t.2.1)) (average x l) (middle (x t.1) (x t.2.2))

/-- The area vectors of the parts of the faces of the element which belong to the corner `v` -/
def parts (cycles : List (List ℕ)) (x : ℕ → V3) (v : ℕ) : List V3 :=
  cycles.flatMap fun l => ((triples l).filter fun t => t.1 = v).map (part x l)

/-- The signed volume spanned by three vectors -/
def det3 (a b c : V3) : ℝ := a ⬝ᵥ (b ⨯₃ c)

/-- The volume enclosed by the plane faces of the sub-control volume of the corner `v`: a third of the sum over all its faces of the scalar
product of a point of the face (the middle of the edge for faces in the element, the corner itself for parts of faces of the element) with
the area vector of the face pointing outwards (divergence theorem for the field of positions). -/
def enclosed (x : ℕ → V3) (numFaces : ℕ) (idx : ℕ → ℕ × ℕ) (area : ℕ → ℝ) (normal : ℕ → V3) (outer : List V3) (v : ℕ) : ℝ :=
  1 / 3 * (∑ k ∈ Finset.range numFaces,
    ((if (idx k).1 = v then middle (x (idx k).1) (x (idx k).2) ⬝ᵥ (area k • normal k) else 0) -
      (if (idx k).2 = v then middle (x (idx k).1) (x (idx k).2) ⬝ᵥ (area k • normal k) else 0)) + x v ⬝ᵥ outer.sum)

/-- Four points lie in a plane. -/
def Coplanar (p q r s : V3) : Prop := det3 (q - p) (r - p) (s - p) = 0

/-- The position of a point of a hexahedron given by its coordinates in the unit cube -/
def trilinear (x : ℕ → V3) (s t u : ℝ) : V3 :=
  ((1 - s) * (1 - t) * (1 - u)) • x 0 + (s * (1 - t) * (1 - u)) • x 1 + ((1 - s) * t * (1 - u)) • x 2 + (s * t * (1 - u)) • x 3 +
    ((1 - s) * (1 - t) * u) • x 4 + (s * (1 - t) * u) • x 5 + ((1 - s) * t * u) • x 6 + (s * t * u) • x 7

/-- The volume of a hexahedron: the integral over the unit cube of the determinant of the derivatives of the position -/
def hexVolume (x : ℕ → V3) : ℝ :=
  ∫ s in (0 : ℝ)..1, ∫ t in (0 : ℝ)..1, ∫ u in (0 : ℝ)..1,
    det3 (deriv (fun s => trilinear x s t u) s) (deriv (fun t => trilinear x s t u) t) (deriv (fun u => trilinear x s t u) u)

/-- A column: a quadrilateral in space with the corners `p`, `p + a`, `p + b` and `p + a + b + d`, and the same moved by `c` -/
def column (p a b c d : V3) : ℕ → V3
  | 0 => p | 1 => p + a | 2 => p + b | 3 => p + a + b + d
  | 4 => p + c | 5 => p + a + c | 6 => p + b + c | _ => p + a + b + c + d

/-- A parallelepiped: the corner with the number `v` is the corner 0 plus the edges of the bits of `v`. -/
def box (p a b c : V3) (v : ℕ) : V3 :=
  p + (if v.testBit 0 then a else 0) + (if v.testBit 1 then b else 0) + (if v.testBit 2 then c else 0)

end

end Verif.Vcfv.Spec
