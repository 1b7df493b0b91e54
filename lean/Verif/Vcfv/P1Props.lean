import Mathlib.Analysis.Calculus.Deriv.Add
import Mathlib.Analysis.Calculus.Deriv.Mul
import Mathlib.Analysis.Calculus.Deriv.Pi
import Mathlib.Tactic.FieldSimp
import Mathlib.Tactic.FinCases
import Mathlib.Tactic.IntervalCases
import Mathlib.Tactic.Linarith
import Mathlib.Tactic.NormNum
import Mathlib.Tactic.Ring
import Verif.Vcfv.GeomModel

/-
Property C119: finite element values and gradients on vertex-centred grids.
-/

set_option autoImplicit false

namespace Verif.Vcfv

open Matrix

variable {d m : ℕ}

/-! ### Specification -/

/-- The position in space which belongs to the position `ξ` in the reference element (dune-geometry) -/
noncomputable def position (kind : Kind) (x : ℕ → Fin d → ℝ) (ξ : Fin d → ℝ) : Fin d → ℝ :=
  ∑ i ∈ Finset.range (kind.numVertices d), shape kind ξ i • x i

/-- The position of the corner `i` in the reference element -/
def refCorner (kind : Kind) (i : ℕ) : Fin d → ℝ :=
  match kind with
  | .simplex => fun k => if i = k.val + 1 then 1 else 0
  | .cube => fun k => if i.testBit k then 1 else 0

/-! ### Weights of corners -/

theorem weight_succ (ξ : Fin (d + 1) → ℝ) (i : ℕ) :
    cornerWeight ξ i = (if i.testBit 0 then ξ 0 else 1 - ξ 0) * cornerWeight (fun j => ξ j.succ) (i / 2) := by
  rw [cornerWeight, Fin.prod_univ_succ, cornerWeight]
  congr 1
  refine Finset.prod_congr rfl fun j _ => ?_
  rw [Fin.val_succ, Nat.testBit_succ]

/-- Sums over all numbers of `d + 1` bits: pairs of numbers which differ in the last bit -/
theorem sum_bits {M : Type} [AddCommMonoid M] (n : ℕ) (f : ℕ → M) :
    ∑ i ∈ Finset.range (2 ^ (n + 1)), f i = ∑ i ∈ Finset.range (2 ^ n), (f (2 * i) + f (2 * i + 1)) := by
  rw [pow_succ, mul_comm]
  induction 2 ^ n with
  | zero => simp
  | succ k ih =>
    rw [Finset.sum_range_succ, ← ih, show 2 * (k + 1) = 2 * k + 1 + 1 by ring, Finset.sum_range_succ, Finset.sum_range_succ, add_assoc]

theorem weights_sum : ∀ {d : ℕ} (ξ : Fin d → ℝ), ∑ i ∈ Finset.range (2 ^ d), cornerWeight ξ i = 1
  | 0, ξ => by simp [cornerWeight]
  | d + 1, ξ => by
    rw [sum_bits]
    have : ∀ i, cornerWeight ξ (2 * i) + cornerWeight ξ (2 * i + 1) = cornerWeight (fun j => ξ j.succ) i := by
      intro i
      rw [weight_succ, weight_succ]
      have h1 : (2 * i).testBit 0 = false := by simp
      have h2 : (2 * i + 1).testBit 0 = true := by simp
      rw [h1, h2, show 2 * i / 2 = i by omega, show (2 * i + 1) / 2 = i by omega]
      simp only [Bool.false_eq_true, if_false, if_true]
      ring
    rw [Finset.sum_congr rfl fun i _ => this i]
    exact weights_sum _

theorem hasDerivAt_weight (ξ : Fin d → ℝ) (i : ℕ) (k : Fin d) :
    HasDerivAt (fun t => cornerWeight (Function.update ξ k t) i) (dWeight ξ i k) (ξ k) := by
  have h : (fun t => cornerWeight (Function.update ξ k t) i) = fun t =>
      (if i.testBit k then t else 1 - t) * ∏ j : Fin d, if k ≠ j then (if i.testBit j then ξ j else 1 - ξ j) else 1 := by
    funext t
    rw [cornerWeight, ← Finset.mul_prod_erase _ _ (Finset.mem_univ k), ← Finset.mul_prod_erase _ _ (Finset.mem_univ k)]
    simp only [Function.update_self, ne_eq, not_true_eq_false, if_false, one_mul]
    congr 1
    refine Finset.prod_congr rfl fun j hj => ?_
    have hne : k ≠ j := fun e => (Finset.ne_of_mem_erase hj) e.symm
    rw [Function.update_of_ne hne.symm, if_pos hne]
  rw [h, dWeight]
  refine HasDerivAt.mul_const ?_ _
  split_ifs
  · exact hasDerivAt_id _
  · exact (hasDerivAt_id (ξ k)).const_sub 1

/-! ### Shape functions -/

theorem simplex_sum {M : Type} [AddCommMonoid M] (f : ℕ → M) :
    ∑ i ∈ Finset.range (d + 1), f i = f 0 + ∑ k : Fin d, f (k.val + 1) := by
  rw [Finset.sum_range_succ', add_comm, Finset.sum_range]

theorem shape_succ (ξ : Fin d → ℝ) (k : Fin d) : shape .simplex ξ (k.val + 1) = ξ k := by
  simp [shape]

theorem shapes_sum (kind : Kind) (ξ : Fin d → ℝ) : ∑ i ∈ Finset.range (kind.numVertices d), shape kind ξ i = 1 := by
  cases kind with
  | simplex =>
    rw [Kind.numVertices, simplex_sum]
    simp only [shape_succ]
    simp [shape]
  | cube => exact weights_sum ξ

theorem hasDerivAt_shape (kind : Kind) (ξ : Fin d → ℝ) (i : ℕ) (hi : i < kind.numVertices d) (k : Fin d) :
    HasDerivAt (fun t => shape kind (Function.update ξ k t) i) (shapeGradient kind ξ i k) (ξ k) := by
  cases kind with
  | cube => exact hasDerivAt_weight ξ i k
  | simplex =>
    rw [Kind.numVertices] at hi
    rcases Nat.eq_zero_or_pos i with rfl | hpos
    · have h : (fun t => shape .simplex (Function.update ξ k t) 0) = fun t => 1 - (t + ∑ j ∈ Finset.univ.erase k, ξ j) := by
        funext t
        simp only [shape, if_true]
        rw [← Finset.add_sum_erase _ _ (Finset.mem_univ k), Function.update_self]
        congr 2
        exact Finset.sum_congr rfl fun j hj => Function.update_of_ne (Finset.ne_of_mem_erase hj) _ _
      rw [h]
      have : shapeGradient .simplex ξ 0 k = -1 := by simp [shapeGradient]
      rw [this]
      exact ((hasDerivAt_id (ξ k)).add_const _).const_sub 1
    · obtain ⟨l, rfl⟩ : ∃ l : Fin d, i = l.val + 1 := ⟨⟨i - 1, by omega⟩, by simp; omega⟩
      have h : (fun t => shape .simplex (Function.update ξ k t) (l.val + 1)) = fun t => Function.update ξ k t l := by
        funext t; rw [shape_succ]
      rw [h]
      by_cases hkl : l = k
      · subst hkl
        have : shapeGradient .simplex ξ (l.val + 1) l = 1 := by simp [shapeGradient]
        rw [this]
        simp only [Function.update_self]
        exact hasDerivAt_id _
      · have : shapeGradient .simplex ξ (l.val + 1) k = 0 := by
          simp only [shapeGradient, Nat.add_sub_cancel]
          rw [if_neg (by omega), if_neg (fun e => hkl (Fin.ext e))]
        rw [this]
        simp only [Function.update_of_ne hkl]
        exact hasDerivAt_const _ _

/-- **C119** The interpolated value has the value of the quantity at each corner. -/
theorem C119_interpolates (kind : Kind) (focus : ℕ) (quantity : ℕ → Eval m) (j : ℕ) (hj : j < kind.numVertices d) :
    (calculateScalarValue kind (refCorner kind j : Fin d → ℝ) focus quantity).value = (quantity j).value := by
  have key : ∀ i < kind.numVertices d, shape kind (refCorner kind j : Fin d → ℝ) i = if i = j then 1 else 0 := by
    intro i hi
    cases kind with
    | simplex =>
      rw [Kind.numVertices] at hi hj
      rcases Nat.eq_zero_or_pos i with rfl | hpos
      · simp only [shape, if_true, refCorner]
        rcases Nat.eq_zero_or_pos j with rfl | hj0
        · simp
        · obtain ⟨l, rfl⟩ : ∃ l : Fin d, j = l.val + 1 := ⟨⟨j - 1, by omega⟩, by simp; omega⟩
          have : (∑ k : Fin d, if l.val + 1 = k.val + 1 then (1 : ℝ) else 0) = 1 := by
            rw [Finset.sum_eq_single l]
            · simp
            · intro b _ hb
              rw [if_neg]
              intro e
              exact hb (Fin.ext (by omega))
            · simp
          rw [this, if_neg (by omega)]
          norm_num
      · obtain ⟨l, rfl⟩ : ∃ l : Fin d, i = l.val + 1 := ⟨⟨i - 1, by omega⟩, by simp; omega⟩
        rw [shape_succ, refCorner]
        simp only [eq_comm]
    | cube =>
      rw [Kind.numVertices] at hi hj
      simp only [shape, refCorner, cornerWeight]
      by_cases hij : i = j
      · subst hij
        rw [if_pos rfl]
        refine Finset.prod_eq_one fun k _ => ?_
        by_cases h : i.testBit k <;> simp [h]
      · rw [if_neg hij]
        obtain ⟨k, hk⟩ : ∃ k : Fin d, i.testBit k ≠ j.testBit k := by
          by_contra hc
          push Not at hc
          apply hij
          refine Nat.eq_of_testBit_eq fun k => ?_
          by_cases hkd : k < d
          · exact hc ⟨k, hkd⟩
          · rw [Nat.testBit_lt_two_pow (lt_of_lt_of_le hi (Nat.pow_le_pow_right (by norm_num) (by omega))),
              Nat.testBit_lt_two_pow (lt_of_lt_of_le hj (Nat.pow_le_pow_right (by norm_num) (by omega)))]
        refine Finset.prod_eq_zero (Finset.mem_univ k) ?_
        cases h1 : i.testBit k <;> cases h2 : j.testBit k <;> simp_all
  simp only [calculateScalarValue]
  rw [Finset.sum_eq_single j]
  · rw [key j hj, if_pos rfl, mul_one]
  · intro i hi hne
    rw [key i (Finset.mem_range.1 hi), if_neg hne, mul_zero]
  · intro h
    exact absurd (Finset.mem_range.2 hj) h

/-- **C119** The interpolated value of a quantity which is a linear function of the position is exact everywhere in the element. -/
theorem C119_value_exact (kind : Kind) (x : ℕ → Fin d → ℝ) (ξ : Fin d → ℝ) (focus : ℕ) (quantity : ℕ → Eval m) (g : Fin d → ℝ) (c : ℝ)
    (hq : ∀ i < kind.numVertices d, (quantity i).value = g ⬝ᵥ x i + c) :
    (calculateScalarValue kind ξ focus quantity).value = g ⬝ᵥ position kind x ξ + c := by
  simp only [calculateScalarValue, position]
  rw [Finset.sum_congr rfl fun i hi => by rw [hq i (Finset.mem_range.1 hi), add_mul], Finset.sum_add_distrib, ← Finset.mul_sum,
    shapes_sum, mul_one, dotProduct_sum]
  congr 1
  refine Finset.sum_congr rfl fun i _ => ?_
  rw [dotProduct_smul, smul_eq_mul, mul_comm]

theorem shapeGradients_sum (kind : Kind) (ξ : Fin d → ℝ) (k : Fin d) :
    ∑ i ∈ Finset.range (kind.numVertices d), shapeGradient kind ξ i k = 0 := by
  have h1 : HasDerivAt (fun t => ∑ i ∈ Finset.range (kind.numVertices d), shape kind (Function.update ξ k t) i)
      (∑ i ∈ Finset.range (kind.numVertices d), shapeGradient kind ξ i k) (ξ k) :=
    HasDerivAt.fun_sum fun i hi => hasDerivAt_shape kind ξ i (Finset.mem_range.1 hi) k
  simp only [shapes_sum] at h1
  exact h1.unique (hasDerivAt_const _ _)

/-- **C119** The matrix used to convert gradients is the derivative of the position. -/
theorem C119_jacobian (kind : Kind) (x : ℕ → Fin d → ℝ) (ξ : Fin d → ℝ) (k : Fin d) :
    HasDerivAt (fun t => position kind x (Function.update ξ k t)) (jacobianTransposed kind x ξ k) (ξ k) := by
  unfold position jacobianTransposed
  exact HasDerivAt.fun_sum fun i hi => (hasDerivAt_shape kind ξ i (Finset.mem_range.1 hi) k).smul_const (x i)

/-- **C119** The gradient is the one of the interpolated value: by the chain rule, its product with the derivative of the position by each
coordinate of the reference element is the derivative of the interpolated value by that coordinate. -/
theorem C119_gradient (kind : Kind) (x : ℕ → Fin d → ℝ) (ξ : Fin d → ℝ) (hJ : (jacobianTransposed kind x ξ).det ≠ 0) (focus : ℕ)
    (quantity : ℕ → Eval m) (k : Fin d) :
    HasDerivAt (fun t => (calculateScalarValue kind (Function.update ξ k t) focus quantity).value)
      (jacobianTransposed kind x ξ k ⬝ᵥ fun l => (calculateGradient kind x ξ focus quantity l).value) (ξ k) := by
  have h1 : HasDerivAt (fun t => (calculateScalarValue kind (Function.update ξ k t) focus quantity).value)
      (∑ i ∈ Finset.range (kind.numVertices d), (quantity i).value * shapeGradient kind ξ i k) (ξ k) := by
    simp only [calculateScalarValue]
    exact HasDerivAt.fun_sum fun i hi => (hasDerivAt_shape kind ξ i (Finset.mem_range.1 hi) k).const_mul _
  have h2 : (jacobianTransposed kind x ξ k ⬝ᵥ fun l => (calculateGradient kind x ξ focus quantity l).value) =
      ∑ i ∈ Finset.range (kind.numVertices d), (quantity i).value * shapeGradient kind ξ i k := by
    have e : (fun l => (calculateGradient kind x ξ focus quantity l).value) =
        ∑ i ∈ Finset.range (kind.numVertices d), (quantity i).value • p1Gradient kind x ξ i := by
      funext l
      simp [calculateGradient, Finset.sum_apply]
    rw [e, dotProduct_sum]
    refine Finset.sum_congr rfl fun i _ => ?_
    rw [dotProduct_smul, smul_eq_mul, p1Gradient]
    congr 1
    have : (jacobianTransposed kind x ξ).mulVec ((jacobianTransposed kind x ξ)⁻¹.mulVec (shapeGradient kind ξ i)) =
        shapeGradient kind ξ i := by
      rw [mulVec_mulVec, mul_nonsing_inv _ (isUnit_iff_ne_zero.2 hJ), one_mulVec]
    exact congrFun this k
  rw [h2]
  exact h1

/-- **C119** The gradient of a quantity which is a linear function of the position is exact, at each point of each element which is not
degenerate. -/
theorem C119_gradient_exact (kind : Kind) (x : ℕ → Fin d → ℝ) (ξ : Fin d → ℝ) (hJ : (jacobianTransposed kind x ξ).det ≠ 0) (focus : ℕ)
    (quantity : ℕ → Eval m) (g : Fin d → ℝ) (c : ℝ) (hq : ∀ i < kind.numVertices d, (quantity i).value = g ⬝ᵥ x i + c) (k : Fin d) :
    (calculateGradient kind x ξ focus quantity k).value = g k := by
  have key : ∑ i ∈ Finset.range (kind.numVertices d), (g ⬝ᵥ x i + c) • shapeGradient kind ξ i =
      (jacobianTransposed kind x ξ).mulVec g := by
    funext l
    simp only [Finset.sum_apply, Pi.smul_apply, smul_eq_mul, add_mul]
    rw [Finset.sum_add_distrib, ← Finset.mul_sum, shapeGradients_sum, mul_zero, add_zero]
    simp only [mulVec, jacobianTransposed]
    rw [sum_dotProduct]
    refine Finset.sum_congr rfl fun i _ => ?_
    rw [smul_dotProduct, smul_eq_mul, dotProduct_comm, mul_comm]
  have e : (fun l => (calculateGradient kind x ξ focus quantity l).value) =
      (jacobianTransposed kind x ξ)⁻¹.mulVec (∑ i ∈ Finset.range (kind.numVertices d), (g ⬝ᵥ x i + c) • shapeGradient kind ξ i) := by
    funext l
    rw [mulVec_sum]
    simp only [calculateGradient, Finset.sum_apply]
    refine Finset.sum_congr rfl fun i hi => ?_
    rw [hq i (Finset.mem_range.1 hi), mulVec_smul, Pi.smul_apply, smul_eq_mul, p1Gradient]
  have := congrFun e k
  rw [key, mulVec_mulVec, nonsing_inv_mul _ (isUnit_iff_ne_zero.2 hJ), one_mulVec] at this
  exact this

/-- **C119** Values and gradients carry the derivatives by the primary variables of the focus degree of freedom: if its quantity is changed
with the rate `(quantity focus).deriv l` and all other quantities are kept, values and gradients change with the rate of their
derivatives. -/
theorem C119_derivatives (kind : Kind) (x : ℕ → Fin d → ℝ) (ξ : Fin d → ℝ) (focus : ℕ)
    (quantity : ℕ → Eval m) (l : Fin m) (k : Fin d) (ε : ℝ) :
    let changed := Function.update quantity focus ⟨(quantity focus).value + ε * (quantity focus).deriv l, (quantity focus).deriv⟩
    (calculateScalarValue kind ξ focus changed).value = (calculateScalarValue kind ξ focus quantity).value +
        ε * (calculateScalarValue kind ξ focus quantity).deriv l ∧
      (calculateGradient kind x ξ focus changed k).value = (calculateGradient kind x ξ focus quantity k).value +
        ε * (calculateGradient kind x ξ focus quantity k).deriv l := by
  intro changed
  have hc : ∀ i, (changed i).value = (quantity i).value + ε * if focus = i then (quantity i).deriv l else 0 := by
    intro i
    by_cases h : focus = i
    · subst h
      simp [changed]
    · simp [changed, Function.update_of_ne (Ne.symm h), h]
  constructor
  · simp only [calculateScalarValue, hc, add_mul, Finset.sum_add_distrib, Finset.mul_sum]
    congr 1
    exact Finset.sum_congr rfl fun i _ => by ring
  · simp only [calculateGradient, hc, add_mul, Finset.sum_add_distrib, Finset.mul_sum]
    congr 1
    exact Finset.sum_congr rfl fun i _ => by ring

/-- a quadrilateral which is not a parallelogram -/
example : (jacobianTransposed .cube (fun | 0 => ![0, 0] | 1 => ![2, 0] | 2 => ![0, 1] | _ => ![3, 3] : ℕ → Fin 2 → ℝ)
    ![1 / 2, 1 / 4]).det ≠ 0 := by
  rw [det_fin_two]
  simp [jacobianTransposed, Kind.numVertices, Finset.sum_range_succ, shapeGradient, dWeight, Fin.prod_univ_two, Nat.testBit]
  norm_num

end Verif.Vcfv
