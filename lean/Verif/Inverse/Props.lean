import Verif.Inverse.Model
import Mathlib.LinearAlgebra.Matrix.Determinant.Basic
import Mathlib.LinearAlgebra.Matrix.NonsingularInverse
import Mathlib.Tactic.Ring
import Mathlib.Tactic.FinCases
import Mathlib.Tactic.NormNum
/-
C45: the inversion of 4x4 blocks.  The specification is Mathlib's determinant and matrix product.
-/

set_option autoImplicit false

namespace Verif.Inverse

variable {K : Type} [Field K] [LinearOrder K] [IsStrictOrderedRing K]

theorem cofactors_eq (m : Matrix (Fin 4) (Fin 4) K) : cofactors m = m.adjugate := by
  ext i j
  rw [Matrix.adjugate_fin_succ_eq_det_submatrix]
  rw [Matrix.det_fin_three]
  fin_cases i <;> fin_cases j <;> simp [cofactors, Fin.succAbove, Fin.lt_def] <;> ring

theorem determinant_eq (m : Matrix (Fin 4) (Fin 4) K) : determinant m = m.det := by
  have h := Matrix.mul_adjugate m
  have h0 := congrFun (congrFun h 0) 0
  rw [Matrix.mul_apply, Fin.sum_univ_four] at h0
  simp only [← cofactors_eq, Matrix.smul_apply, Matrix.one_apply_eq, smul_eq_mul, mul_one] at h0
  exact h0

/-- **C45** The returned matrix is the inverse, from both sides, and the returned number the determinant. -/
theorem C45_inverse (m inverse : Matrix (Fin 4) (Fin 4) K) (d : K) (h : invertMatrix4 m = .inverted d inverse) :
    d = m.det ∧ m * inverse = 1 ∧ inverse * m = 1 := by
  unfold invertMatrix4 at h
  split at h
  · simp at h
  · rename_i hd
    injection h with h1 h2
    have hne : determinant m ≠ 0 := by
      intro h0; apply hd; rw [h0, abs_zero]; unfold threshold; positivity
    have hm : m.det ≠ 0 := determinant_eq m ▸ hne
    have e : inverse = (1 / m.det) • m.adjugate := by
      rw [← h2]; ext i j; simp [cofactors_eq, determinant_eq, mul_comm]
    refine ⟨h1.symm.trans (determinant_eq m), ?_, ?_⟩
    · rw [e, Matrix.mul_smul, Matrix.mul_adjugate, smul_smul, one_div, inv_mul_cancel₀ hm, one_smul]
    · rw [e, Matrix.smul_mul, Matrix.adjugate_mul, smul_smul, one_div, inv_mul_cancel₀ hm, one_smul]

/-- **C45** An inverse is returned exactly if the absolute value of the determinant is at least 1e-40; otherwise an exception
is thrown. -/
theorem C45_threshold (m : Matrix (Fin 4) (Fin 4) K) :
    ((∃ d inverse, invertMatrix4 m = .inverted d inverse) ↔ 1 / 10 ^ 40 ≤ |m.det|) ∧
      (invertMatrix4 m = .singular ↔ |m.det| < 1 / 10 ^ 40) := by
  unfold invertMatrix4
  rw [determinant_eq]
  unfold threshold
  constructor
  · constructor
    · rintro ⟨d, inv, h⟩
      split at h
      · simp at h
      · rename_i hd; exact not_lt.1 hd
    · intro h; rw [if_neg (not_lt.2 h)]; exact ⟨_, _, rfl⟩
  · split <;> simp_all

/-- **C45** `MatrixBlock::invert`: inverting a 4x4 block in place gives the inverse block, and inverting it again gives the
block back (unless the inverse counts as singular). -/
theorem C45_invert (m inverse : Matrix (Fin 4) (Fin 4) K) (h : invert m = some inverse) :
    m * inverse = 1 ∧ ∀ again, invert inverse = some again → again = m := by
  have key : ∀ a b : Matrix (Fin 4) (Fin 4) K, invert a = some b → a * b = 1 ∧ b * a = 1 := by
    intro a b hab
    unfold invert at hab
    split at hab
    · rename_i d inv hi
      injection hab with hab
      subst hab
      exact (C45_inverse a _ d hi).2
    · simp at hab
  refine ⟨(key _ _ h).1, fun again ha => ?_⟩
  have h1 := (key _ _ h).1
  have h2 := (key _ _ ha).1
  calc again = (m * inverse) * again := by rw [h1, one_mul]
    _ = m * (inverse * again) := by rw [Matrix.mul_assoc]
    _ = m := by rw [h2, mul_one]

/-- A block with a determinant of 10 is inverted. -/
example : ∃ d inverse, invertMatrix4 (!![2, 0, 0, 0; 1, 1, 0, 0; 0, 0, 5, 3; 0, 0, 0, 1] : Matrix (Fin 4) (Fin 4) ℚ) =
    .inverted d inverse := by
  apply (C45_threshold _).1.2
  rw [← determinant_eq]
  simp [determinant, cofactors]; norm_num

/-- A singular block is refused. -/
example : invertMatrix4 (!![1, 2, 3, 4; 5, 6, 7, 8; 9, 10, 11, 12; 13, 14, 15, 16] : Matrix (Fin 4) (Fin 4) ℚ) =
    .singular := by
  apply (C45_threshold _).2.2
  rw [← determinant_eq]
  simp [determinant, cofactors]; norm_num

end Verif.Inverse
