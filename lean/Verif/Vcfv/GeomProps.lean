import Verif.Vcfv.Integrals
import Verif.Vcfv.P1Props

/-
Property C118: local geometries of sub-control volumes.
-/

set_option autoImplicit false
set_option linter.unusedSimpArgs false

namespace Verif.Vcfv

open Spec Matrix

variable {d : ℕ}

/-- **C118** The geometry maps each corner of the unit cube to the corner with the same number. -/
theorem C118_corners (corners : ℕ → Fin d → ℝ) (i : ℕ) (hi : i < 2 ^ d) : global corners (refCorner .cube i) = corners i := by
  funext m
  have h := C119_interpolates (d := d) (m := 0) .cube 0 (fun i => ⟨corners i m, fun _ => 0⟩) i hi
  simp only [calculateScalarValue, Kind.numVertices, shape] at h
  rw [← h, global, Finset.sum_apply]
  exact Finset.sum_congr rfl fun j _ => by rw [Pi.smul_apply, smul_eq_mul, mul_comm]

/-- **C118** The centre is the image of the middle of the unit cube. -/
theorem C118_center (corners : ℕ → Fin d → ℝ) : center corners = global corners (fun _ => 1 / 2) := by
  rw [center, global, Finset.smul_sum]
  refine Finset.sum_congr rfl fun i _ => ?_
  congr 1
  rw [cornerWeight]
  have : ∀ j : Fin d, (if i.testBit j then (1 / 2 : ℝ) else 1 - 1 / 2) = 1 / 2 := by
    intro j
    split_ifs <;> norm_num
  rw [Finset.prod_congr rfl fun j _ => this j]
  simp

/-- **C118** The matrix consists of the derivatives of the position. -/
theorem C118_jacobian (corners : ℕ → Fin d → ℝ) (ξ : Fin d → ℝ) (k : Fin d) :
    HasDerivAt (fun t => global corners (Function.update ξ k t)) (jacobian corners ξ k) (ξ k) := by
  unfold global jacobian
  exact HasDerivAt.fun_sum fun i _ => (hasDerivAt_weight ξ i k).smul_const (corners i)

theorem jacobian2 (c : ℕ → V2) (s t : ℝ) (m : Fin 2) :
    jacobian c ![s, t] 0 m = (1 - t) * (c 1 m - c 0 m) + t * (c 3 m - c 2 m) ∧
      jacobian c ![s, t] 1 m = (1 - s) * (c 2 m - c 0 m) + s * (c 3 m - c 1 m) := by
  constructor <;>
    simp [jacobian, Finset.sum_range_succ, dWeight, Fin.prod_univ_two, Nat.testBit] <;> ring

theorem jacobian3 (c : ℕ → V3) (s t u : ℝ) (m : Fin 3) :
    jacobian c ![s, t, u] 0 m = deriv (fun s => trilinear c s t u) s m ∧
    jacobian c ![s, t, u] 1 m = deriv (fun t => trilinear c s t u) t m ∧
      jacobian c ![s, t, u] 2 m = deriv (fun u => trilinear c s t u) u m := by
  rw [deriv_s, deriv_t, deriv_u]
  refine ⟨?_, ?_, ?_⟩ <;>
    simp [jacobian, Finset.sum_range_succ, dWeight, Fin.prod_univ_three, Nat.testBit] <;> ring

theorem element2 (c : ℕ → V2) (s t : ℝ) : integrationElement c ![s, t] =
    ((1 - t) * (c 1 0 - c 0 0) + t * (c 3 0 - c 2 0)) * ((1 - s) * (c 2 1 - c 0 1) + s * (c 3 1 - c 1 1)) -
    ((1 - t) * (c 1 1 - c 0 1) + t * (c 3 1 - c 2 1)) * ((1 - s) * (c 2 0 - c 0 0) + s * (c 3 0 - c 1 0)) := by
  rw [integrationElement, Matrix.det_fin_two, (jacobian2 c s t 0).1, (jacobian2 c s t 1).1, (jacobian2 c s t 0).2, (jacobian2 c s t 1).2]

/-- **C118** In two dimensions the integral of the integration element over the unit square is the area of the quadrilateral (with its
sign, negative if the corners are mirrored). -/
theorem C118_area (corners : ℕ → V2) :
    ∫ s in (0 : ℝ)..1, ∫ t in (0 : ℝ)..1, integrationElement corners ![s, t] =
      signedArea4 (corners 0) (corners 1) (corners 3) (corners 2) := by
  have h : ∀ s t : ℝ, integrationElement corners ![s, t] = ∑ k ∈ Finset.range 2, (∑ j ∈ Finset.range 2,
      (match j, k with
        | 0, 0 => det2 (corners 1 - corners 0) (corners 2 - corners 0)
        | 1, 0 => det2 (corners 1 - corners 0) (corners 3 - corners 2 - (corners 1 - corners 0))
        | 0, 1 => det2 (corners 3 - corners 2 - (corners 1 - corners 0)) (corners 2 - corners 0)
        | _, _ => 0) * s ^ j) * t ^ k := by
    intro s t
    simp only [element2, Finset.sum_range_succ, Finset.sum_range_zero, det2, Pi.sub_apply]
    ring
  simp only [h]
  rw [integral_poly2 (fun j k => match j, k with
        | 0, 0 => det2 (corners 1 - corners 0) (corners 2 - corners 0)
        | 1, 0 => det2 (corners 1 - corners 0) (corners 3 - corners 2 - (corners 1 - corners 0))
        | 0, 1 => det2 (corners 3 - corners 2 - (corners 1 - corners 0)) (corners 2 - corners 0)
        | _, _ => 0) 2]
  simp only [Finset.sum_range_succ, Finset.sum_range_zero, signedArea4, det2, Pi.sub_apply]
  norm_num
  ring

/-- **C118** In three dimensions the integral of the integration element over the unit cube is the volume of the hexahedron. -/
theorem C118_volume (corners : ℕ → V3) :
    ∫ s in (0 : ℝ)..1, ∫ t in (0 : ℝ)..1, ∫ u in (0 : ℝ)..1, integrationElement corners ![s, t, u] = hexVolume corners := by
  rw [hexVolume]
  have h : ∀ s t u : ℝ, integrationElement corners ![s, t, u] = det3 (deriv (fun s => trilinear corners s t u) s)
      (deriv (fun t => trilinear corners s t u) t) (deriv (fun u => trilinear corners s t u) u) := by
    intro s t u
    rw [integrationElement, Matrix.det_fin_three, det3_eq]
    simp only [(jacobian3 corners s t u _).1, (jacobian3 corners s t u _).2.1, (jacobian3 corners s t u _).2.2]
    ring
  simp only [h]

/-! ### Tables of sub-control volumes -/

/-- **C118** Lines, squares and cubes: the sub-control volume of a corner is the half (quarter, eighth) of the reference element at it. -/
theorem C118_cubes (v : ℕ) :
    (v < 2 → ∀ ξ : Fin 1 → ℝ, global (lineScv v) ξ = (1 / 2 : ℝ) • (refCorner .cube v + ξ)) ∧
    (v < 4 → ∀ ξ : Fin 2 → ℝ, global (squareScv v) ξ = (1 / 2 : ℝ) • (refCorner .cube v + ξ)) ∧
    (v < 8 → ∀ ξ : Fin 3 → ℝ, global (cubeScv v) ξ = (1 / 2 : ℝ) • (refCorner .cube v + ξ)) := by
  refine ⟨fun hv ξ => ?_, fun hv ξ => ?_, fun hv ξ => ?_⟩
  · interval_cases v <;> funext m <;> fin_cases m <;>
      simp [global, cornerWeight, lineScv, refCorner, Finset.sum_range_succ, Nat.testBit] <;> ring
  · interval_cases v <;> funext m <;> fin_cases m <;>
      simp [global, cornerWeight, squareScv, refCorner, Finset.sum_range_succ, Fin.prod_univ_two, Nat.testBit] <;> ring
  · interval_cases v <;> funext m <;> fin_cases m <;>
      simp [global, cornerWeight, cubeScv, refCorner, Finset.sum_range_succ, Fin.prod_univ_three, Nat.testBit] <;> ring

theorem weight_nonneg {ξ : Fin d → ℝ} (h : ∀ k, ξ k ∈ Set.Icc (0 : ℝ) 1) (i : ℕ) : 0 ≤ cornerWeight ξ i := by
  refine Finset.prod_nonneg fun j _ => ?_
  split_ifs
  · exact (h j).1
  · linarith [(h j).2]

theorem shape_global (c : ℕ → Fin d → ℝ) (ξ : Fin d → ℝ) (j : ℕ) :
    shape .simplex (global c ξ) j = ∑ i ∈ Finset.range (2 ^ d), cornerWeight ξ i * shape .simplex (c i) j := by
  simp only [shape, global]
  split_ifs with h0 h1
  · simp only [mul_sub, mul_one]
    rw [Finset.sum_sub_distrib, weights_sum]
    congr 1
    simp only [Finset.sum_apply, Pi.smul_apply, smul_eq_mul, Finset.mul_sum]
    rw [Finset.sum_comm]
  · simp [Finset.sum_apply]
  · simp

/-- A geometry maps the unit cube into the part of the simplex where the barycentric coordinate of the corner `v` is the largest if it does
so with all corners. -/
theorem stays_in_part (c : ℕ → Fin d → ℝ) (v : ℕ)
    (h : ∀ i < 2 ^ d, ∀ j ≤ d, 0 ≤ shape .simplex (c i) j ∧ shape .simplex (c i) j ≤ shape .simplex (c i) v)
    (ξ : Fin d → ℝ) (hξ : ∀ k, ξ k ∈ Set.Icc (0 : ℝ) 1) (j : ℕ) (hj : j ≤ d) :
    0 ≤ shape .simplex (global c ξ) j ∧ shape .simplex (global c ξ) j ≤ shape .simplex (global c ξ) v := by
  simp only [shape_global]
  exact ⟨Finset.sum_nonneg fun i hi => mul_nonneg (weight_nonneg hξ i) (h i (Finset.mem_range.1 hi) j hj).1,
    Finset.sum_le_sum fun i hi => mul_le_mul_of_nonneg_left (h i (Finset.mem_range.1 hi) j hj).2 (weight_nonneg hξ i)⟩

/-- **C118** Triangles and tetrahedra: each point of the sub-control volume of a corner lies in the element, and the barycentric coordinate
of that corner is not smaller than those of the other corners. -/
theorem C118_simplices (v : ℕ) :
    (v < 3 → ∀ ξ : Fin 2 → ℝ, (∀ k, ξ k ∈ Set.Icc (0 : ℝ) 1) → ∀ j ≤ 2,
      0 ≤ shape .simplex (global (triangleScv v) ξ) j ∧
        shape .simplex (global (triangleScv v) ξ) j ≤ shape .simplex (global (triangleScv v) ξ) v) ∧
    (v < 4 → ∀ ξ : Fin 3 → ℝ, (∀ k, ξ k ∈ Set.Icc (0 : ℝ) 1) → ∀ j ≤ 3,
      0 ≤ shape .simplex (global (tetrahedronScv v) ξ) j ∧
        shape .simplex (global (tetrahedronScv v) ξ) j ≤ shape .simplex (global (tetrahedronScv v) ξ) v) := by
  refine ⟨fun hv => stays_in_part _ _ fun i hi j hj => ?_, fun hv => stays_in_part _ _ fun i hi j hj => ?_⟩
  · have hi : i < 4 := hi
    interval_cases v <;> interval_cases i <;> interval_cases j <;>
      norm_num [shape, triangleScv, Fin.sum_univ_two]
  · have hi : i < 8 := hi
    interval_cases v <;> interval_cases i <;> interval_cases j <;>
      simp [shape, tetrahedronScv, Fin.sum_univ_three] <;> norm_num

theorem tet_0 : hexVolume (tetrahedronScv 0) = 1 / 24 := by
  rw [hexVolume_of (a := fun i j k => match i, j, k with
      | 0, 0, 0 => 1/8 | 0, 0, 1 => -1/12 | 0, 0, 2 => 1/72 | 0, 1, 0 => -1/12 | 0, 1, 1 => 7/144 | 0, 1, 2 => -1/144
      | 0, 2, 0 => 1/72 | 0, 2, 1 => -1/144 | 1, 0, 0 => -1/12 | 1, 0, 1 => 7/144 | 1, 0, 2 => -1/144 | 1, 1, 0 => 7/144
      | 1, 1, 1 => -1/54 | 1, 1, 2 => 1/432 | 1, 2, 0 => -1/144 | 1, 2, 1 => 1/432 | 2, 0, 0 => 1/72 | 2, 0, 1 => -1/144
      | 2, 1, 0 => -1/144 | 2, 1, 1 => 1/432 | _, _, _ => 0)]
  · simp only [Finset.sum_range_succ, Finset.sum_range_zero]
    norm_num
  · intro s t u
    simp only [det3_eq, deriv_s, deriv_t, deriv_u, tetrahedronScv, List.getD_cons_zero, List.getD_cons_succ,
      Finset.sum_range_succ, Finset.sum_range_zero]
    simp
    ring

theorem tet_1 : hexVolume (tetrahedronScv 1) = 1 / 24 := by
  rw [hexVolume_of (a := fun i j k => match i, j, k with
      | 0, 0, 0 => 1/18 | 0, 0, 1 => -1/24 | 0, 0, 2 => 1/144 | 0, 1, 0 => -1/24 | 0, 1, 1 => 7/216 | 0, 1, 2 => -1/216
      | 0, 2, 0 => 1/144 | 0, 2, 1 => -1/216 | 1, 0, 0 => 1/18 | 1, 0, 1 => -5/144 | 1, 0, 2 => 1/144 | 1, 1, 0 => -5/144
      | 1, 1, 1 => 1/72 | 1, 1, 2 => -1/432 | 1, 2, 0 => 1/144 | 1, 2, 1 => -1/432 | 2, 0, 0 => 1/72 | 2, 0, 1 => -1/144
      | 2, 1, 0 => -1/144 | 2, 1, 1 => 1/432 | _, _, _ => 0)]
  · simp only [Finset.sum_range_succ, Finset.sum_range_zero]
    norm_num
  · intro s t u
    simp only [det3_eq, deriv_s, deriv_t, deriv_u, tetrahedronScv, List.getD_cons_zero, List.getD_cons_succ,
      Finset.sum_range_succ, Finset.sum_range_zero]
    simp
    ring

theorem tet_2 : hexVolume (tetrahedronScv 2) = 1 / 24 := by
  rw [hexVolume_of (a := fun i j k => match i, j, k with
      | 0, 0, 0 => 1/18 | 0, 0, 1 => -1/24 | 0, 0, 2 => 1/144 | 0, 1, 0 => 1/18 | 0, 1, 1 => -5/144 | 0, 1, 2 => 1/144
      | 0, 2, 0 => 1/72 | 0, 2, 1 => -1/144 | 1, 0, 0 => -1/24 | 1, 0, 1 => 7/216 | 1, 0, 2 => -1/216 | 1, 1, 0 => -5/144
      | 1, 1, 1 => 1/72 | 1, 1, 2 => -1/432 | 1, 2, 0 => -1/144 | 1, 2, 1 => 1/432 | 2, 0, 0 => 1/144 | 2, 0, 1 => -1/216
      | 2, 1, 0 => 1/144 | 2, 1, 1 => -1/432 | _, _, _ => 0)]
  · simp only [Finset.sum_range_succ, Finset.sum_range_zero]
    norm_num
  · intro s t u
    simp only [det3_eq, deriv_s, deriv_t, deriv_u, tetrahedronScv, List.getD_cons_zero, List.getD_cons_succ,
      Finset.sum_range_succ, Finset.sum_range_zero]
    simp
    ring

theorem tet_3 : hexVolume (tetrahedronScv 3) = 1 / 24 := by
  rw [hexVolume_of (a := fun i j k => match i, j, k with
      | 0, 0, 0 => 1/18 | 0, 0, 1 => 1/18 | 0, 0, 2 => 1/72 | 0, 1, 0 => -1/24 | 0, 1, 1 => -5/144 | 0, 1, 2 => -1/144
      | 0, 2, 0 => 1/144 | 0, 2, 1 => 1/144 | 1, 0, 0 => -1/24 | 1, 0, 1 => -5/144 | 1, 0, 2 => -1/144 | 1, 1, 0 => 7/216
      | 1, 1, 1 => 1/72 | 1, 1, 2 => 1/432 | 1, 2, 0 => -1/216 | 1, 2, 1 => -1/432 | 2, 0, 0 => 1/144 | 2, 0, 1 => 1/144
      | 2, 1, 0 => -1/216 | 2, 1, 1 => -1/432 | _, _, _ => 0)]
  · simp only [Finset.sum_range_succ, Finset.sum_range_zero]
    norm_num
  · intro s t u
    simp only [det3_eq, deriv_s, deriv_t, deriv_u, tetrahedronScv, List.getD_cons_zero, List.getD_cons_succ,
      Finset.sum_range_succ, Finset.sum_range_zero]
    simp
    ring

/-- **C118** The sub-control volumes of the tetrahedron all have the same volume: a quarter of that of the element. -/
theorem C118_tetrahedron (v : ℕ) (hv : v < 4) :
    ∫ s in (0 : ℝ)..1, ∫ t in (0 : ℝ)..1, ∫ u in (0 : ℝ)..1, integrationElement (tetrahedronScv v) ![s, t, u] = 1 / 6 / 4 := by
  rw [C118_volume]
  interval_cases v
  · rw [tet_0]; norm_num
  · rw [tet_1]; norm_num
  · rw [tet_2]; norm_num
  · rw [tet_3]; norm_num

/-- **C118** (partial) The sub-control volumes of the corners 1 and 2 of the triangle have a third of its area.  Missing: the corner 0, for
which this is false. -/
theorem C118_triangle_partial (v : ℕ) (hv : v = 1 ∨ v = 2) :
    ∫ s in (0 : ℝ)..1, ∫ t in (0 : ℝ)..1, integrationElement (triangleScv v) ![s, t] = 1 / 2 / 3 := by
  rw [C118_area]
  rcases hv with rfl | rfl <;>
    simp only [signedArea4, det2, triangleScv, List.getD_cons_zero, List.getD_cons_succ] <;> norm_num

/-- **C118** (violated) The corners of the sub-control volume of the corner 0 of a triangle are listed in the order in which one walks around
it, not in that of the corners of the unit square: its area according to the geometry is 1/24 instead of 1/6, the integration element is
negative at one of the corners, and the middle of the unit square and the corner opposite to 0 are not where they should be. -/
theorem C118_triangle_violated :
    ∫ s in (0 : ℝ)..1, ∫ t in (0 : ℝ)..1, integrationElement (triangleScv 0) ![s, t] = 1 / 24 ∧
    integrationElement (triangleScv 0) ![0, 1] < 0 ∧
    global (triangleScv 0) ![1, 1] ≠ ![1 / 3, 1 / 3] := by
  refine ⟨?_, ?_, ?_⟩
  · rw [C118_area]
    simp only [signedArea4, det2, triangleScv, List.getD_cons_zero, List.getD_cons_succ]
    norm_num
  · rw [element2]
    simp [triangleScv]
    norm_num
  · intro h
    have := congrFun h 0
    simp [global, cornerWeight, triangleScv, Finset.sum_range_succ, Fin.prod_univ_two, Nat.testBit] at this

end Verif.Vcfv
