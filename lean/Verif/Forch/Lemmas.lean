import Verif.Forch.Model
import Mathlib.Analysis.InnerProductSpace.PiL2
import Mathlib.Topology.Order.IntermediateValue
import Mathlib.Topology.Algebra.Monoid
import Mathlib.Analysis.SpecialFunctions.Sqrt
import Mathlib.Tactic.Ring
import Mathlib.Tactic.Linarith
import Mathlib.Tactic.NormNum
import Mathlib.Tactic.FieldSimp
import Mathlib.Tactic.Positivity

set_option autoImplicit false
set_option linter.unusedSectionVars false
/-
Lemmas for C131.
-/
namespace Verif.Forch

variable {n : ℕ}

/-- The length of a vector. -/
noncomputable def len (v : Vec ℝ n) : ℝ := Real.sqrt (∑ i, v i ^ 2)

theorem absVel_real (v : Vec ℝ n) : absVel Real.sqrt v = len v := by
  unfold absVel len
  simp only [← pow_two]
  split_ifs with h
  · rw [Real.sqrt_eq_zero_of_nonpos h]
  · rfl

theorem len_nonneg (v : Vec ℝ n) : 0 ≤ len v := Real.sqrt_nonneg _

theorem len_eq (v : Vec ℝ n) : len v = ‖(WithLp.toLp 2 v : EuclideanSpace ℝ (Fin n))‖ := by
  rw [EuclideanSpace.norm_eq]
  unfold len
  congr 1
  exact Finset.sum_congr rfl fun i _ => by simp [sq_abs]

theorem len_add (v w : Vec ℝ n) : len (v + w) ≤ len v + len w := by
  simp only [len_eq]
  rw [WithLp.toLp_add]
  exact norm_add_le _ _

theorem len_neg (v : Vec ℝ n) : len (-v) = len v := by
  unfold len; simp

theorem abs_le_len (v : Vec ℝ n) (i : Fin n) : |v i| ≤ len v := by
  unfold len
  rw [← Real.sqrt_sq_eq_abs]
  exact Real.sqrt_le_sqrt (Finset.single_le_sum (f := fun i => v i ^ 2) (fun i _ => sq_nonneg _) (Finset.mem_univ i))

theorem len_single (i : Fin n) (h : ℝ) : len (Function.update (0 : Vec ℝ n) i h) = |h| := by
  unfold len
  rw [Finset.sum_eq_single i]
  · simp [Real.sqrt_sq_eq_abs]
  · intro j _ hj; simp [Function.update_of_ne hj]
  · simp

theorem len_zero : len (0 : Vec ℝ n) = 0 := by simp [len]

theorem len_le_oneNorm (v : Vec ℝ n) : len v ≤ oneNorm v := by
  unfold len oneNorm
  rw [show (∑ i, |v i|) = Real.sqrt ((∑ i, |v i|) ^ 2) from
    (Real.sqrt_sq (Finset.sum_nonneg fun i _ => abs_nonneg _)).symm]
  apply Real.sqrt_le_sqrt
  calc (∑ i, v i ^ 2) = ∑ i, |v i| ^ 2 := by simp [sq_abs]
    _ ≤ (∑ i, |v i|) ^ 2 := Finset.sum_sq_le_sq_sum_of_nonneg fun i _ => abs_nonneg _

/-- The residual, with the length of the velocity. -/
theorem resid_real (f : Face ℝ n) (v : Vec ℝ n) (i : Fin n) :
    resid Real.sqrt f v i = v i + f.mobility * f.grad i * f.perm i + f.sqrtPerm i * (f.density * f.ratio * f.ergun) * len v * v i := by
  unfold resid; rw [absVel_real]; ring

theorem update_eq (v : Vec ℝ n) (i : Fin n) (h : ℝ) : Function.update v i (v i + h) = v + Function.update (0 : Vec ℝ n) i h := by
  funext j
  by_cases hj : j = i
  · subst hj; simp
  · simp [Function.update_of_ne hj]

theorem coordEps_pos (x : ℝ) : 0 < coordEps x := lt_of_lt_of_le (by norm_num) (le_max_left _ _)

theorem coordEps_le (x : ℝ) : coordEps x ≤ 2 * |x| + 1 / 100000000000 := by
  unfold coordEps
  have h0 := abs_nonneg x
  apply max_le
  · linarith
  · have h1 := le_abs_self x
    nlinarith

theorem len_perturb (v : Vec ℝ n) (i : Fin n) {h : ℝ} (hh : 0 ≤ h) : |len (v + Function.update (0 : Vec ℝ n) i h) - len v| ≤ h := by
  have h1 := len_add v (Function.update (0 : Vec ℝ n) i h)
  have h2 := len_add (v + Function.update (0 : Vec ℝ n) i h) (-Function.update (0 : Vec ℝ n) i h)
  rw [add_neg_cancel_right, len_neg] at h2
  rw [len_single, abs_of_nonneg hh] at h1 h2
  rw [abs_le]; constructor <;> linarith

/-- Bounds of the difference quotients. -/
theorem gradResid_le (f : Face ℝ n) (ha : 0 ≤ f.density * f.ratio * f.ergun) {S : ℝ} (hs : ∀ i, 0 ≤ f.sqrtPerm i) (hS : ∀ i, f.sqrtPerm i ≤ S)
    (v : Vec ℝ n) (i j : Fin n) :
    |gradResid Real.sqrt f v i j| ≤ 1 + S * (f.density * f.ratio * f.ergun) * (4 * len v + 1 / 100000000000) := by
  have hp := coordEps_pos (v i)
  have he := coordEps_le (v i)
  have hv := abs_le_len v i
  have hvj := abs_le_len v j
  have hl := len_nonneg v
  unfold gradResid
  rw [update_eq, resid_real, resid_real]
  generalize coordEps (v i) = h at *
  have hd := len_perturb v i hp.le
  have hl2 := len_nonneg (v + Function.update (0 : Vec ℝ n) i h)
  generalize len (v + Function.update (0 : Vec ℝ n) i h) = L at *
  generalize f.density * f.ratio * f.ergun = a at *
  have hsj := hs j
  have hSj := hS j
  generalize f.sqrtPerm j = s at *
  have key : |(v + Function.update (0 : Vec ℝ n) i h) j + f.mobility * f.grad j * f.perm j + s * a * L * (v + Function.update (0 : Vec ℝ n) i h) j
      - (v j + f.mobility * f.grad j * f.perm j + s * a * len v * v j)| ≤ h * (1 + S * a * (4 * len v + 1 / 100000000000)) := by
    have hsa : 0 ≤ s * a := mul_nonneg hsj ha
    have hSa : s * a ≤ S * a := mul_le_mul_of_nonneg_right hSj ha
    have hb : 0 ≤ h * len v := by positivity
    rw [abs_le] at hd hvj
    have e1 : |L - len v| * |v j| ≤ h * len v := by
      have := abs_le_len v j
      have h3 : |L - len v| ≤ h := abs_le.2 hd
      exact mul_le_mul h3 this (abs_nonneg _) hp.le
    rw [← abs_mul] at e1
    by_cases hj : j = i
    · subst hj
      have ee : (v + Function.update (0 : Vec ℝ n) j h) j + f.mobility * f.grad j * f.perm j + s * a * L * (v + Function.update (0 : Vec ℝ n) j h) j
          - (v j + f.mobility * f.grad j * f.perm j + s * a * len v * v j) = h + s * a * ((L - len v) * v j + h * L) := by
        simp only [Pi.add_apply, Function.update_self]; ring
      rw [ee]
      have hL : L ≤ len v + h := by linarith [hd.2]
      have hx : |(L - len v) * v j + h * L| ≤ h * (4 * len v + 1 / 100000000000) := by
        calc |(L - len v) * v j + h * L| ≤ |(L - len v) * v j| + |h * L| := abs_add_le _ _
          _ = |(L - len v) * v j| + h * L := by rw [abs_of_nonneg (by positivity : 0 ≤ h * L)]
          _ ≤ h * len v + h * (len v + h) := by
              have := mul_le_mul_of_nonneg_left hL hp.le
              linarith
          _ ≤ h * (4 * len v + 1 / 100000000000) := by
              have : h * h ≤ h * (2 * len v + 1 / 100000000000) := mul_le_mul_of_nonneg_left (by linarith) hp.le
              nlinarith
      calc |h + s * a * ((L - len v) * v j + h * L)| ≤ |h| + |s * a * ((L - len v) * v j + h * L)| := abs_add_le _ _
        _ = h + s * a * |(L - len v) * v j + h * L| := by rw [abs_of_pos hp, abs_mul, abs_of_nonneg hsa]
        _ ≤ h + S * a * (h * (4 * len v + 1 / 100000000000)) := by
            have := mul_le_mul hSa hx (abs_nonneg _) (le_trans hsa hSa)
            linarith
        _ = _ := by ring
    · have ee : (v + Function.update (0 : Vec ℝ n) i h) j + f.mobility * f.grad j * f.perm j + s * a * L * (v + Function.update (0 : Vec ℝ n) i h) j
          - (v j + f.mobility * f.grad j * f.perm j + s * a * len v * v j) = s * a * ((L - len v) * v j) := by
        simp only [Pi.add_apply, Function.update_of_ne hj, Pi.zero_apply]; ring
      rw [ee, abs_mul, abs_of_nonneg hsa]
      have hx : |(L - len v) * v j| ≤ h * (4 * len v + 1 / 100000000000) := by
        have : 0 ≤ h * (3 * len v + 1 / 100000000000) := by positivity
        nlinarith
      have := mul_le_mul hSa hx (abs_nonneg _) (le_trans hsa hSa)
      linarith [hp]
  rw [abs_div, abs_of_pos hp, div_le_iff₀ hp]
  linarith [key]

/-- The loop ends with a step which is small and solves the linear system. -/
theorem newton_spec {solve : (Fin n → Fin n → ℝ) → Vec ℝ n → Option (Vec ℝ n)} {f : Face ℝ n} :
    ∀ (k : ℕ) (v u : Vec ℝ n), newton Real.sqrt solve f k v = some u →
      ∃ w d, solve (gradResid Real.sqrt f w) (resid Real.sqrt f w) = some d ∧ oneNorm d ≤ 1 / 100000000000 ∧ u = w - d := by
  intro k
  induction k with
  | zero => intro v u h; simp [newton] at h
  | succ k ih =>
    intro v u h
    simp only [newton] at h
    cases hs : solve (gradResid Real.sqrt f v) (resid Real.sqrt f v) with
    | none => rw [hs] at h; simp at h
    | some d =>
      rw [hs] at h
      simp only [] at h
      split_ifs at h with hc
      · exact ih _ u h
      · exact ⟨v, d, hs, not_lt.1 hc, (Option.some.inj h).symm⟩

open scoped RealInnerProductSpace in
/-- Turbulence is monotone. -/
theorem turbulence_monotone {E : Type} [NormedAddCommGroup E] [InnerProductSpace ℝ E] (v w : E) :
    0 ≤ ⟪‖v‖ • v - ‖w‖ • w, v - w⟫ := by
  rw [inner_sub_left, inner_sub_right, inner_sub_right, inner_smul_left, inner_smul_left, inner_smul_left, inner_smul_left,
    real_inner_self_eq_norm_sq, real_inner_self_eq_norm_sq, real_inner_comm v w]
  simp only [conj_trivial]
  have h := real_inner_le_norm v w
  have h1 := norm_nonneg v
  have h2 := norm_nonneg w
  generalize ‖v‖ = a at *
  generalize ‖w‖ = b at *
  have h3 : (a + b) * ⟪v, w⟫ ≤ (a + b) * (a * b) := mul_le_mul_of_nonneg_left h (by positivity)
  have h4 : 0 ≤ (a + b) * (a - b) ^ 2 := by positivity
  nlinarith

open scoped RealInnerProductSpace in
theorem strongly_monotone {E : Type} [NormedAddCommGroup E] [InnerProductSpace ℝ E] {c : ℝ} (hc : 0 ≤ c) (v w : E) :
    ‖v - w‖ ≤ ‖(v + (c * ‖v‖) • v) - (w + (c * ‖w‖) • w)‖ := by
  have e : (v + (c * ‖v‖) • v) - (w + (c * ‖w‖) • w) = (v - w) + c • (‖v‖ • v - ‖w‖ • w) := by
    rw [smul_sub, smul_smul, smul_smul]; abel
  rw [e]
  have h1 : ‖v - w‖ ^ 2 ≤ ⟪(v - w) + c • (‖v‖ • v - ‖w‖ • w), v - w⟫ := by
    rw [inner_add_left, real_inner_self_eq_norm_sq, inner_smul_left]
    have := mul_nonneg hc (turbulence_monotone v w)
    simp only [conj_trivial]
    linarith
  have h2 := real_inner_le_norm ((v - w) + c • (‖v‖ • v - ‖w‖ • w)) (v - w)
  by_cases h0 : ‖v - w‖ = 0
  · rw [h0]; exact norm_nonneg _
  · have hp : 0 < ‖v - w‖ := lt_of_le_of_ne (norm_nonneg _) (Ne.symm h0)
    have : ‖v - w‖ * ‖v - w‖ ≤ ‖(v - w) + c • (‖v‖ • v - ‖w‖ • w)‖ * ‖v - w‖ := by rw [← pow_two]; linarith
    exact le_of_mul_le_mul_right this hp

/-- In an isotropic rock, the residual bounds the distance from a solution. -/
theorem distance_le_resid (f : Face ℝ n) (ha : 0 ≤ f.density * f.ratio * f.ergun) {s : ℝ} (hs : 0 ≤ s) (hi : ∀ i, f.sqrtPerm i = s)
    (v u : Vec ℝ n) (hu : resid Real.sqrt f u = 0) : len (v - u) ≤ len (resid Real.sqrt f v) := by
  have hc : 0 ≤ s * (f.density * f.ratio * f.ergun) := mul_nonneg hs ha
  have h := strongly_monotone hc (WithLp.toLp 2 v : EuclideanSpace ℝ (Fin n)) (WithLp.toLp 2 u)
  have e : (WithLp.toLp 2 v : EuclideanSpace ℝ (Fin n)) + (s * (f.density * f.ratio * f.ergun) * ‖(WithLp.toLp 2 v : EuclideanSpace ℝ (Fin n))‖) • WithLp.toLp 2 v
      - (WithLp.toLp 2 u + (s * (f.density * f.ratio * f.ergun) * ‖(WithLp.toLp 2 u : EuclideanSpace ℝ (Fin n))‖) • WithLp.toLp 2 u)
      = WithLp.toLp 2 (resid Real.sqrt f v) := by
    have h2 : (WithLp.toLp 2 (resid Real.sqrt f v) : EuclideanSpace ℝ (Fin n)) = WithLp.toLp 2 (resid Real.sqrt f v - resid Real.sqrt f u) := by
      rw [hu, sub_zero]
    rw [h2]
    ext i
    simp only [PiLp.sub_apply, PiLp.add_apply, PiLp.smul_apply, smul_eq_mul, Pi.sub_apply, resid_real, hi i, ← len_eq]
    ring
  rw [e, ← WithLp.toLp_sub, ← len_eq, ← len_eq] at h
  exact h

end Verif.Forch
