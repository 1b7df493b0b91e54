import Mathlib.Tactic.FinCases
import Mathlib.Tactic.IntervalCases
import Mathlib.Tactic.Linarith
import Mathlib.Tactic.Ring
import Mathlib.Tactic.FieldSimp
import Mathlib.Tactic.NormNum
import Verif.Vcfv.Spec

/-
Lemmas about the elements in three dimensions.
-/

set_option autoImplicit false

namespace Verif.Vcfv

open Spec Matrix

theorem edge_middle (R : RefElement) (x : ℕ → V3) (k : ℕ) : edgeCoord R x k =
    middle (x (R.edges.getD k (0, 0)).1) (x (R.edges.getD k (0, 0)).2) := by
  funext m
  simp [edgeCoord, mean, middle]

theorem faceCoord_eq (R : RefElement) (x : ℕ → V3) (f : ℕ) : faceCoord R x f = average x (R.faces.getD f []) := rfl

theorem elementGlobal_eq (R : RefElement) (x : ℕ → V3) : elementGlobal R x = average x (List.range R.numVertices) := rfl

theorem average3 (x : ℕ → V3) (a b c : ℕ) (m : Fin 3) : average x [a, b, c] m = (x a m + x b m + x c m) / 3 := by
  simp [average]; ring

theorem average4 (x : ℕ → V3) (a b c d : ℕ) (m : Fin 3) : average x [a, b, c, d] m = (x a m + x b m + x c m + x d m) / 4 := by
  simp [average]; ring

theorem average_range4 (x : ℕ → V3) (m : Fin 3) : average x (List.range 4) m = (x 0 m + x 1 m + x 2 m + x 3 m) / 4 :=
  average4 x 0 1 2 3 m

theorem average_range8 (x : ℕ → V3) (m : Fin 3) : average x (List.range 8) m =
    (x 0 m + x 1 m + x 2 m + x 3 m + x 4 m + x 5 m + x 6 m + x 7 m) / 8 := by
  simp [average, List.range, List.range.loop]; ring

theorem middle_apply (p q : V3) (m : Fin 3) : middle p q m = (p m + q m) / 2 := by
  simp [middle]; ring

theorem normalOf_eq (p q r s : V3) : normalOfQuadrilateral3D p q r s = areaVector p q r s := by
  funext m
  fin_cases m <;> simp [normalOfQuadrilateral3D, crossProduct, areaVector, Matrix.vecHead, Matrix.vecTail, cross_apply] <;> ring

theorem areaVector_0 (p q r s : V3) :
    areaVector p q r s 0 = ((r 1 - p 1) * (s 2 - q 2) - (r 2 - p 2) * (s 1 - q 1)) / 2 := by
  simp [areaVector, cross_apply]; ring

theorem areaVector_1 (p q r s : V3) :
    areaVector p q r s 1 = ((r 2 - p 2) * (s 0 - q 0) - (r 0 - p 0) * (s 2 - q 2)) / 2 := by
  simp [areaVector, cross_apply]; ring

theorem areaVector_2 (p q r s : V3) :
    areaVector p q r s 2 = ((r 0 - p 0) * (s 1 - q 1) - (r 1 - p 1) * (s 0 - q 0)) / 2 := by
  simp [areaVector, cross_apply]; ring

theorem norm3_pos {n : V3} (h : n ≠ 0) : 0 < norm3 n := by
  rw [norm3, Real.sqrt_pos]
  by_contra hc
  have h0 : 0 ≤ n 0 * n 0 := mul_self_nonneg _
  have h1 : 0 ≤ n 1 * n 1 := mul_self_nonneg _
  have h2 : 0 ≤ n 2 * n 2 := mul_self_nonneg _
  apply h
  funext m
  fin_cases m
  · exact mul_self_eq_zero.1 (show n 0 * n 0 = 0 by linarith)
  · exact mul_self_eq_zero.1 (show n 1 * n 1 = 0 by linarith)
  · exact mul_self_eq_zero.1 (show n 2 * n 2 = 0 by linarith)

theorem norm3_neg (n : V3) : norm3 (-n) = norm3 n := by simp [norm3]

theorem area_normal3 (R : RefElement) (x : ℕ → V3) (k : ℕ) (h : rawNormal3 R x k ≠ 0) :
    area3 R x k • normal3 R x k = rawNormal3 R x k := by
  have hp : area3 R x k ≠ 0 := (norm3_pos h).ne'
  funext m
  simp only [normal3, Pi.smul_apply, smul_eq_mul]
  field_simp

theorem normal3_unit (R : RefElement) (x : ℕ → V3) (k : ℕ) (h : rawNormal3 R x k ≠ 0) : norm3 (normal3 R x k) = 1 := by
  have hp : 0 < area3 R x k := norm3_pos h
  have h2 : area3 R x k * area3 R x k = rawNormal3 R x k 0 * rawNormal3 R x k 0 + rawNormal3 R x k 1 * rawNormal3 R x k 1 +
      rawNormal3 R x k 2 * rawNormal3 R x k 2 :=
    Real.mul_self_sqrt (add_nonneg (add_nonneg (mul_self_nonneg _) (mul_self_nonneg _)) (mul_self_nonneg _))
  rw [norm3, Real.sqrt_eq_one]
  simp only [normal3]
  rw [div_mul_div_comm, div_mul_div_comm, div_mul_div_comm, ← add_div, ← add_div, ← h2]
  exact div_self (mul_pos hp hp).ne'

/-! ### Faces between sub-control volumes -/

theorem tet_raw (x : ℕ → V3) (k : ℕ) : rawNormal3 tetrahedron x k =
    areaVector (middle (x (tetrahedron.edges.getD k (0, 0)).1) (x (tetrahedron.edges.getD k (0, 0)).2))
      (average x (tetrahedron.faces.getD ((edgeToFace 4).2.getD k 0) [])) (average x (List.range 4))
      (average x (tetrahedron.faces.getD ((edgeToFace 4).1.getD k 0) [])) := by
  rw [rawNormal3, normalOf_eq, edge_middle]
  rfl

theorem hex_raw (x : ℕ → V3) (k : ℕ) : rawNormal3 hexahedron x k =
    areaVector (middle (x (hexahedron.edges.getD k (0, 0)).1) (x (hexahedron.edges.getD k (0, 0)).2))
      (average x (hexahedron.faces.getD ((edgeToFace 8).2.getD k 0) [])) (average x (List.range 8))
      (average x (hexahedron.faces.getD ((edgeToFace 8).1.getD k 0) [])) := by
  rw [rawNormal3, normalOf_eq, edge_middle]
  rfl

theorem tet_indices (k : ℕ) : faceIndices tetrahedron k = tetrahedron.edges.getD k (0, 0) := by
  unfold faceIndices
  simp [tetrahedron]

theorem hex_indices (k : ℕ) : faceIndices hexahedron k = hexahedron.edges.getD k (0, 0) := by
  unfold faceIndices
  simp [hexahedron]

/-! ### Parts of the faces of the element -/

theorem tet_parts (x : ℕ → V3) (v : ℕ) (hv : v < 4) : parts tetCycles x v =
    ([[(([0, 2, 1] : List ℕ), ((0, 2, 1) : ℕ × ℕ × ℕ)), ([0, 1, 3], (0, 1, 3)), ([0, 3, 2], (0, 3, 2))],
      [([0, 2, 1], (1, 0, 2)), ([0, 1, 3], (1, 3, 0)), ([1, 2, 3], (1, 2, 3))],
      [([0, 2, 1], (2, 1, 0)), ([0, 3, 2], (2, 0, 3)), ([1, 2, 3], (2, 3, 1))],
      [([0, 1, 3], (3, 0, 1)), ([0, 3, 2], (3, 2, 0)), ([1, 2, 3], (3, 1, 2))]].getD v []).map fun q => part x q.1 q.2 := by
  have h1 : triples [0, 2, 1] = [(0, 2, 1), (2, 1, 0), (1, 0, 2)] := by decide
  have h2 : triples [0, 1, 3] = [(0, 1, 3), (1, 3, 0), (3, 0, 1)] := by decide
  have h3 : triples [0, 3, 2] = [(0, 3, 2), (3, 2, 0), (2, 0, 3)] := by decide
  have h4 : triples [1, 2, 3] = [(1, 2, 3), (2, 3, 1), (3, 1, 2)] := by decide
  interval_cases v <;> simp [parts, tetCycles, h1, h2, h3, h4]

theorem hex_parts (x : ℕ → V3) (v : ℕ) (hv : v < 8) : parts hexCycles x v =
    ([[(([0, 4, 6, 2] : List ℕ), ((0, 4, 2) : ℕ × ℕ × ℕ)), ([0, 1, 5, 4], (0, 1, 4)), ([0, 2, 3, 1], (0, 2, 1))],
      [([1, 3, 7, 5], (1, 3, 5)), ([0, 1, 5, 4], (1, 5, 0)), ([0, 2, 3, 1], (1, 0, 3))],
      [([0, 4, 6, 2], (2, 0, 6)), ([2, 6, 7, 3], (2, 6, 3)), ([0, 2, 3, 1], (2, 3, 0))],
      [([1, 3, 7, 5], (3, 7, 1)), ([2, 6, 7, 3], (3, 2, 7)), ([0, 2, 3, 1], (3, 1, 2))],
      [([0, 4, 6, 2], (4, 6, 0)), ([0, 1, 5, 4], (4, 0, 5)), ([4, 5, 7, 6], (4, 5, 6))],
      [([1, 3, 7, 5], (5, 1, 7)), ([0, 1, 5, 4], (5, 4, 1)), ([4, 5, 7, 6], (5, 7, 4))],
      [([0, 4, 6, 2], (6, 2, 4)), ([2, 6, 7, 3], (6, 7, 2)), ([4, 5, 7, 6], (6, 4, 7))],
      [([1, 3, 7, 5], (7, 5, 3)), ([2, 6, 7, 3], (7, 3, 6)), ([4, 5, 7, 6], (7, 6, 5))]].getD v []).map
        fun q => part x q.1 q.2 := by
  have h1 : triples [0, 4, 6, 2] = [(0, 4, 2), (4, 6, 0), (6, 2, 4), (2, 0, 6)] := by decide
  have h2 : triples [1, 3, 7, 5] = [(1, 3, 5), (3, 7, 1), (7, 5, 3), (5, 1, 7)] := by decide
  have h3 : triples [0, 1, 5, 4] = [(0, 1, 4), (1, 5, 0), (5, 4, 1), (4, 0, 5)] := by decide
  have h4 : triples [2, 6, 7, 3] = [(2, 6, 3), (6, 7, 2), (7, 3, 6), (3, 2, 7)] := by decide
  have h5 : triples [0, 2, 3, 1] = [(0, 2, 1), (2, 3, 0), (3, 1, 2), (1, 0, 3)] := by decide
  have h6 : triples [4, 5, 7, 6] = [(4, 5, 6), (5, 7, 4), (7, 6, 5), (6, 4, 7)] := by decide
  interval_cases v <;> simp [parts, hexCycles, h1, h2, h3, h4, h5, h6]

end Verif.Vcfv
