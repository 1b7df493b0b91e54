import Mathlib.Tactic.FinCases
import Mathlib.Tactic.IntervalCases
import Mathlib.Tactic.Linarith
import Mathlib.Tactic.Ring
import Mathlib.Tactic.FieldSimp
import Mathlib.Tactic.NormNum
import Verif.Vcfv.Spec

/-
Lemmas about the elements in two dimensions.
-/

set_option autoImplicit false

namespace Verif.Vcfv

open Spec

/-! ### Coordinates of centres -/

theorem quad_edge (x : ℕ → V2) (k : ℕ) : edgeCoord quadrilateral x k =
    middle (x (quadrilateral.edges.getD k (0, 0)).1) (x (quadrilateral.edges.getD k (0, 0)).2) := by
  funext m
  simp [edgeCoord, mean, middle]

theorem quad_center (x : ℕ → V2) : elementGlobal quadrilateral x = (1 / 4 : ℝ) • (x 0 + x 1 + x 2 + x 3) := by
  funext m
  simp [elementGlobal, mean, quadrilateral, List.range, List.range.loop]
  ring

theorem tri_edge (x : ℕ → V2) (k : ℕ) : edgeCoord triangle x k =
    middle (x (triangle.edges.getD k (0, 0)).1) (x (triangle.edges.getD k (0, 0)).2) := by
  funext m
  simp [edgeCoord, mean, middle]

theorem tri_center (x : ℕ → V2) : elementGlobal triangle x = (1 / 3 : ℝ) • (x 0 + x 1 + x 2) := by
  funext m
  simp [elementGlobal, mean, triangle, List.range, List.range.loop]
  ring

/-! ### Areas of quadrilaterals -/

theorem quadrilateralArea_eq (p q r s : V2) : quadrilateralArea p q r s = |signedArea4 p q r s| := by
  have h : (p 0 * q 1 - p 1 * q 0 + (q 0 * r 1 - q 1 * r 0) + (r 0 * s 1 - r 1 * s 0) + (s 0 * p 1 - s 1 * p 0)) / 2 =
      -(1 / 2 * ((s 0 - q 0) * (r 1 - p 1) - (s 1 - q 1) * (r 0 - p 0))) := by ring
  rw [quadrilateralArea, signedArea4, det2, det2, det2, det2, h, abs_neg, abs_mul, abs_of_pos (by norm_num : (0 : ℝ) < 1 / 2)]

/-- The polygon of the sub-control volume of the corner `v` -/
noncomputable def quadPart (x : ℕ → V2) (v : ℕ) : ℝ :=
  signedArea4 (x v) (middle (x v) (x (next4 v))) ((1 / 4 : ℝ) • (x 0 + x 1 + x 2 + x 3)) (middle (x v) (x (prev4 v)))

theorem scvVolume_quad (x : ℕ → V2) (v : ℕ) (hv : v < 4) : scvVolumeQuadrilateral x v = |quadPart x v| := by
  interval_cases v
  all_goals
    simp only [scvVolumeQuadrilateral, quadrilateralArea_eq, quadPart, quad_edge, quad_center, next4, prev4]
    first
    | rfl
    | (congr 1
       simp [signedArea4, det2, middle, quadrilateral]
       ring)

/-- The signed area of a corner -/
noncomputable def corner (x : ℕ → V2) (v : ℕ) : ℝ := det2 (x (next4 v) - x v) (x (prev4 v) - x v)

theorem quadPart_eq (x : ℕ → V2) (v : ℕ) (hv : v < 4) :
    quadPart x v = (2 * corner x v + corner x (next4 v) + corner x (prev4 v)) / 16 := by
  interval_cases v <;> simp [quadPart, corner, signedArea4, det2, middle, next4, prev4] <;> ring

theorem next4_lt (v : ℕ) : next4 v < 4 := by
  rcases v with _ | _ | _ | v <;> simp [next4]

theorem prev4_lt (v : ℕ) : prev4 v < 4 := by
  rcases v with _ | _ | _ | v <;> simp [prev4]

theorem quadPart_pos {x : ℕ → V2} (h : TurnsLeft x) {v : ℕ} (hv : v < 4) : 0 < quadPart x v := by
  rw [quadPart_eq x v hv]
  have h1 : 0 < corner x v := h v hv
  have h2 : 0 < corner x (next4 v) := h _ (next4_lt v)
  have h3 : 0 < corner x (prev4 v) := h _ (prev4_lt v)
  linarith

theorem quadPart_neg {x : ℕ → V2} (h : TurnsRight x) {v : ℕ} (hv : v < 4) : quadPart x v < 0 := by
  rw [quadPart_eq x v hv]
  have h1 : corner x v < 0 := h v hv
  have h2 : corner x (next4 v) < 0 := h _ (next4_lt v)
  have h3 : corner x (prev4 v) < 0 := h _ (prev4_lt v)
  linarith

theorem quadParts_sum (x : ℕ → V2) : quadPart x 0 + quadPart x 1 + quadPart x 2 + quadPart x 3 =
    signedArea4 (x 0) (x 1) (x 3) (x 2) := by
  simp [quadPart, signedArea4, det2, middle, next4, prev4]; ring

/-! ### Normals -/

theorem raw_flip (R : RefElement) (x : ℕ → V2) (k : ℕ) :
    rawNormal2 R x k =
      if det2 (x (faceIndices R k).2 - x (faceIndices R k).1) (elementGlobal R x - edgeCoord R x k) < 0
      then -right (elementGlobal R x - edgeCoord R x k) else right (elementGlobal R x - edgeCoord R x k) := by
  have h : det2 (x (faceIndices R k).2 - x (faceIndices R k).1) (elementGlobal R x - edgeCoord R x k) =
      (elementGlobal R x 1 - edgeCoord R x k 1) * (x (faceIndices R k).2 0 - x (faceIndices R k).1 0) +
        -(elementGlobal R x 0 - edgeCoord R x k 0) * (x (faceIndices R k).2 1 - x (faceIndices R k).1 1) := by
    simp only [det2, Pi.sub_apply]
    ring
  rw [h]
  split_ifs with hc
  · refine Eq.trans (if_pos hc) ?_
    funext m
    fin_cases m <;> simp [right]
  · refine Eq.trans (if_neg hc) ?_
    funext m
    fin_cases m <;> simp [right]

theorem norm2_pos {n : V2} (h : n ≠ 0) : 0 < norm2 n := by
  rw [norm2, Real.sqrt_pos]
  by_contra hc
  have h0 : 0 ≤ n 0 * n 0 := mul_self_nonneg _
  have h1 : 0 ≤ n 1 * n 1 := mul_self_nonneg _
  apply h
  funext m
  fin_cases m
  · exact mul_self_eq_zero.1 (show n 0 * n 0 = 0 by linarith)
  · exact mul_self_eq_zero.1 (show n 1 * n 1 = 0 by linarith)

theorem norm2_neg (n : V2) : norm2 (-n) = norm2 n := by simp [norm2]

theorem norm2_right (d : V2) : norm2 (right d) = norm2 d := by
  simp only [norm2, right, Matrix.cons_val_zero, Matrix.cons_val_one]
  congr 1
  ring

theorem area_eq (R : RefElement) (x : ℕ → V2) (k : ℕ) : area2 R x k = norm2 (elementGlobal R x - edgeCoord R x k) := by
  rw [area2, raw_flip]
  split_ifs
  · rw [norm2_neg, norm2_right]
  · rw [norm2_right]

theorem area_normal (R : RefElement) (x : ℕ → V2) (k : ℕ) (h : elementGlobal R x - edgeCoord R x k ≠ 0) :
    area2 R x k • normal2 R x k = rawNormal2 R x k := by
  have hp : area2 R x k ≠ 0 := by rw [area_eq]; exact (norm2_pos h).ne'
  funext m
  simp only [normal2, Pi.smul_apply, smul_eq_mul]
  field_simp

theorem normal_unit (R : RefElement) (x : ℕ → V2) (k : ℕ) (h : elementGlobal R x - edgeCoord R x k ≠ 0) :
    norm2 (normal2 R x k) = 1 := by
  have hp : 0 < area2 R x k := by rw [area_eq]; exact norm2_pos h
  have h2 : area2 R x k * area2 R x k = rawNormal2 R x k 0 * rawNormal2 R x k 0 + rawNormal2 R x k 1 * rawNormal2 R x k 1 :=
    Real.mul_self_sqrt (add_nonneg (mul_self_nonneg _) (mul_self_nonneg _))
  rw [norm2, Real.sqrt_eq_one]
  simp only [normal2]
  rw [div_mul_div_comm, div_mul_div_comm, ← add_div, ← h2]
  exact div_self (mul_pos hp hp).ne'

end Verif.Vcfv
