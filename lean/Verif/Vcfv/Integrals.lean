import Mathlib.Analysis.SpecialFunctions.Integrals.Basic
import Mathlib.Analysis.Calculus.Deriv.Add
import Mathlib.Analysis.Calculus.Deriv.Mul
import Mathlib.Analysis.Calculus.Deriv.Pi
import Verif.Vcfv.HexProps

/-
Integrals of polynomials over the unit cube, and volumes of hexahedra.
-/

set_option autoImplicit false

namespace Verif.Vcfv

open Spec Matrix

theorem integral_poly (a : ℕ → ℝ) (n : ℕ) :
    ∫ u in (0 : ℝ)..1, ∑ k ∈ Finset.range n, a k * u ^ k = ∑ k ∈ Finset.range n, a k / (k + 1) := by
  rw [intervalIntegral.integral_finset_sum]
  · refine Finset.sum_congr rfl fun k _ => ?_
    rw [intervalIntegral.integral_const_mul, integral_pow]
    simp [div_eq_mul_inv]
  · intro k _
    exact (Continuous.intervalIntegrable (by fun_prop) _ _)

theorem integral_poly2 (a : ℕ → ℕ → ℝ) (n : ℕ) :
    ∫ t in (0 : ℝ)..1, ∫ u in (0 : ℝ)..1, ∑ k ∈ Finset.range n, (∑ j ∈ Finset.range n, a j k * t ^ j) * u ^ k =
      ∑ j ∈ Finset.range n, (∑ k ∈ Finset.range n, a j k / (k + 1)) / (j + 1) := by
  simp only [integral_poly]
  have : ∀ t : ℝ, ∑ k ∈ Finset.range n, (∑ j ∈ Finset.range n, a j k * t ^ j) / (k + 1) =
      ∑ j ∈ Finset.range n, (∑ k ∈ Finset.range n, a j k / (k + 1)) * t ^ j := by
    intro t
    simp only [Finset.sum_div, Finset.sum_mul]
    rw [Finset.sum_comm]
    refine Finset.sum_congr rfl fun j _ => Finset.sum_congr rfl fun k _ => ?_
    ring
  simp only [this, integral_poly]

theorem integral_poly3 (a : ℕ → ℕ → ℕ → ℝ) (n : ℕ) :
    ∫ s in (0 : ℝ)..1, ∫ t in (0 : ℝ)..1, ∫ u in (0 : ℝ)..1,
      ∑ k ∈ Finset.range n, (∑ j ∈ Finset.range n, (∑ i ∈ Finset.range n, a i j k * s ^ i) * t ^ j) * u ^ k =
      ∑ i ∈ Finset.range n, (∑ j ∈ Finset.range n, (∑ k ∈ Finset.range n, a i j k / (k + 1)) / (j + 1)) / (i + 1) := by
  have h : ∀ s : ℝ, (∫ t in (0 : ℝ)..1, ∫ u in (0 : ℝ)..1,
      ∑ k ∈ Finset.range n, (∑ j ∈ Finset.range n, (∑ i ∈ Finset.range n, a i j k * s ^ i) * t ^ j) * u ^ k) =
      ∑ i ∈ Finset.range n, (∑ j ∈ Finset.range n, (∑ k ∈ Finset.range n, a i j k / (k + 1)) / (j + 1)) * s ^ i := by
    intro s
    rw [integral_poly2 (fun j k => ∑ i ∈ Finset.range n, a i j k * s ^ i) n]
    simp only [Finset.sum_div, Finset.sum_mul]
    rw [Finset.sum_congr rfl fun j _ => Finset.sum_comm, Finset.sum_comm]
    refine Finset.sum_congr rfl fun j _ => Finset.sum_congr rfl fun k _ => Finset.sum_congr rfl fun i _ => ?_
    ring
  simp only [h]
  rw [integral_poly]

/-! ### Derivatives of the position in a hexahedron -/

theorem trilinear_apply (x : ℕ → V3) (s t u : ℝ) (m : Fin 3) : trilinear x s t u m =
    (1 - s) * (1 - t) * (1 - u) * x 0 m + s * (1 - t) * (1 - u) * x 1 m + (1 - s) * t * (1 - u) * x 2 m + s * t * (1 - u) * x 3 m +
    (1 - s) * (1 - t) * u * x 4 m + s * (1 - t) * u * x 5 m + (1 - s) * t * u * x 6 m + s * t * u * x 7 m := by
  simp [trilinear]

theorem deriv_affine (a b : V3) (t : ℝ) : deriv (fun t : ℝ => a + t • b) t = b := by
  have h : HasDerivAt (fun t : ℝ => a + t • b) b t := by
    simpa using ((hasDerivAt_id t).smul_const b).const_add a
  exact h.deriv

theorem deriv_s (x : ℕ → V3) (s t u : ℝ) (m : Fin 3) : deriv (fun s => trilinear x s t u) s m =
    (1 - t) * (1 - u) * (x 1 m - x 0 m) + t * (1 - u) * (x 3 m - x 2 m) + (1 - t) * u * (x 5 m - x 4 m) + t * u * (x 7 m - x 6 m) := by
  have h : (fun s => trilinear x s t u) = fun s : ℝ => trilinear x 0 t u + s • (trilinear x 1 t u - trilinear x 0 t u) := by
    funext s m
    simp only [Pi.add_apply, Pi.smul_apply, Pi.sub_apply, smul_eq_mul, trilinear_apply]
    ring
  rw [h, deriv_affine]
  simp only [Pi.sub_apply, trilinear_apply]
  ring

theorem deriv_t (x : ℕ → V3) (s t u : ℝ) (m : Fin 3) : deriv (fun t => trilinear x s t u) t m =
    (1 - s) * (1 - u) * (x 2 m - x 0 m) + s * (1 - u) * (x 3 m - x 1 m) + (1 - s) * u * (x 6 m - x 4 m) + s * u * (x 7 m - x 5 m) := by
  have h : (fun t => trilinear x s t u) = fun t : ℝ => trilinear x s 0 u + t • (trilinear x s 1 u - trilinear x s 0 u) := by
    funext t m
    simp only [Pi.add_apply, Pi.smul_apply, Pi.sub_apply, smul_eq_mul, trilinear_apply]
    ring
  rw [h, deriv_affine]
  simp only [Pi.sub_apply, trilinear_apply]
  ring

theorem deriv_u (x : ℕ → V3) (s t u : ℝ) (m : Fin 3) : deriv (fun u => trilinear x s t u) u m =
    (1 - s) * (1 - t) * (x 4 m - x 0 m) + s * (1 - t) * (x 5 m - x 1 m) + (1 - s) * t * (x 6 m - x 2 m) + s * t * (x 7 m - x 3 m) := by
  have h : (fun u => trilinear x s t u) = fun u : ℝ => trilinear x s t 0 + u • (trilinear x s t 1 - trilinear x s t 0) := by
    funext u m
    simp only [Pi.add_apply, Pi.smul_apply, Pi.sub_apply, smul_eq_mul, trilinear_apply]
    ring
  rw [h, deriv_affine]
  simp only [Pi.sub_apply, trilinear_apply]
  ring

/-- The coefficients of a polynomial of degree two in each variable -/
def IsPoly (F : ℝ → ℝ → ℝ → ℝ) (a : ℕ → ℕ → ℕ → ℝ) : Prop :=
  ∀ s t u, F s t u = ∑ k ∈ Finset.range 3, (∑ j ∈ Finset.range 3, (∑ i ∈ Finset.range 3, a i j k * s ^ i) * t ^ j) * u ^ k

theorem hexVolume_of {x : ℕ → V3} {a : ℕ → ℕ → ℕ → ℝ}
    (h : IsPoly (fun s t u => det3 (deriv (fun s => trilinear x s t u) s) (deriv (fun t => trilinear x s t u) t)
      (deriv (fun u => trilinear x s t u) u)) a) :
    hexVolume x = ∑ i ∈ Finset.range 3, (∑ j ∈ Finset.range 3, (∑ k ∈ Finset.range 3, a i j k / (k + 1)) / (j + 1)) / (i + 1) := by
  rw [hexVolume, ← integral_poly3]
  simp only [h _ _ _]

end Verif.Vcfv
