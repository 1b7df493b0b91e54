import Verif.Extend.Polymer
import Mathlib.Tactic.Ring
import Mathlib.Tactic.Linarith
import Mathlib.Tactic.NormNum
import Mathlib.Tactic.FieldSimp
import Mathlib.Tactic.Positivity

set_option autoImplicit false
/-
C125: the shear factor solves the equation for the sheared velocity.
-/
namespace Verif.Extend.Poly

variable {logZ slope : ℝ → ℝ} {a L : ℝ}

theorem newton_spec (hlip : ∀ x y, |logZ x - logZ y| ≤ L * |x - y|) (hs : ∀ x, |slope x| ≤ L) (hL : L < 1) :
    ∀ (n : ℕ) (u w : ℝ), newton logZ slope a n u = some w → |residual logZ a w| ≤ 2 / 1000000000000 / (1 - L)
  | 0, u, w, h => by simp [newton] at h
  | n + 1, u, w, h => by
    unfold newton at h
    simp only at h
    split at h
    case isFalse => exact newton_spec hlip hs hL n _ w h
    case isTrue hf =>
      have hL0 : 0 ≤ L := le_trans (abs_nonneg _) (hs u)
      have hw := Option.some.inj h
      generalize hfd : residual logZ a u = f at hf hw
      have hd : 1 - L ≤ 1 + slope u := by have := neg_abs_le (slope u); linarith [hs u]
      have pL : 0 < 1 - L := by linarith
      have pd : 0 < 1 + slope u := by linarith
      have hstep : |w - u| ≤ |f| / (1 - L) := by
        rw [← hw]
        have : u - f / (1 + slope u) - u = -(f / (1 + slope u)) := by ring
        rw [this, abs_neg, abs_div, abs_of_pos pd]
        exact div_le_div_of_nonneg_left (abs_nonneg _) pL hd
      have hr : residual logZ a w = f + (w - u) + (logZ w - logZ u) := by rw [← hfd]; unfold residual; ring
      have h1 : |residual logZ a w| ≤ |f| + |w - u| + L * |w - u| := by
        rw [hr]
        refine le_trans (abs_add_le _ _) (add_le_add (abs_add_le _ _) (hlip w u))
      have h2 : |f| + |w - u| + L * |w - u| ≤ |f| + (1 + L) * (|f| / (1 - L)) := by nlinarith
      have h3 : |f| + (1 + L) * (|f| / (1 - L)) = 2 * |f| / (1 - L) := by field_simp; ring
      refine le_trans h1 (le_trans h2 ?_)
      rw [h3]
      refine div_le_div_of_nonneg_right ?_ pL.le
      linarith

/-- C125: whatever factor is returned for a velocity in the range of the table, it is the one of a velocity which, multiplied by
the factor, is the given one, up to the tolerance; provided the logarithm of the factor varies less than the one of the
velocity. -/
theorem C125_solves_partial {P first v0 Z : ℝ} (hP : 1 / 100000000000000 ≤ |P - 1|) (hv : first ≤ Real.log |v0|)
    (hlip : ∀ x y, |logZ x - logZ y| ≤ L * |x - y|) (hs : ∀ x, |slope x| ≤ L) (hL : L < 1)
    (h : computeShearFactor P first logZ slope v0 = some Z) :
    ∃ v, 0 < v ∧ Z = Real.exp (logZ (Real.log v)) ∧
      abs (Real.log v + Real.log Z - Real.log |v0|) ≤ 2 / 1000000000000 / (1 - L) := by
  unfold computeShearFactor at h
  rw [if_neg (not_lt.2 hP), if_neg (not_lt.2 hv)] at h
  obtain ⟨u, hu, hZ⟩ := Option.map_eq_some_iff.1 h
  refine ⟨Real.exp u, Real.exp_pos u, ?_, ?_⟩
  · rw [Real.log_exp, hZ]
  · rw [← hZ, Real.log_exp, Real.log_exp]
    exact newton_spec hlip hs hL 20 _ u hu

/-- C125: the factor does not depend on the direction of the flow. -/
theorem C125_direction (P first v0 : ℝ) :
    computeShearFactor P first logZ slope (-v0) = computeShearFactor P first logZ slope v0 := by
  unfold computeShearFactor; rw [abs_neg]

/-- C125: water without effective polymer, and water which is slower than the first velocity of the table, is not sheared. -/
theorem C125_unsheared {P first v0 : ℝ} (h : P = 1 ∨ Real.log |v0| < first) :
    computeShearFactor P first logZ slope v0 = some 1 := by
  unfold computeShearFactor
  rcases h with h | h
  · rw [if_pos (by rw [h]; norm_num)]
  · rw [if_pos h]; simp

/-- A solution is returned at once. -/
theorem newton_solved (n : ℕ) (u : ℝ) (h : residual logZ a u = 0) :
    newton logZ slope a (n + 1) u = some u := by
  unfold newton; simp only [h]; norm_num

/-- C125: a factor which does not depend on the velocity is returned. -/
theorem C125_constant {P first v0 k : ℝ} (hP : 1 / 100000000000000 ≤ |P - 1|) (hv : first ≤ Real.log |v0|)
    (hz : ∀ x, logZ x = k) (hs : ∀ x, slope x = 0) : computeShearFactor P first logZ slope v0 = some (Real.exp k) := by
  unfold computeShearFactor
  rw [if_neg (not_lt.2 hP), if_neg (not_lt.2 hv)]
  have step : ∀ n u, newton logZ slope (Real.log |v0|) (n + 2) u = some (u - residual logZ (Real.log |v0|) u) := fun n u => by
    unfold newton
    simp only [hs, add_zero, div_one]
    split
    · rfl
    · exact newton_solved n _ (by unfold residual; rw [hz, hz]; ring)
  rw [step 18]
  simp [hz]

/-- The hypotheses of the theorem on solutions can be met. -/
example : ∃ Z, computeShearFactor 2 0 (fun _ => -1) (fun _ => 0) (Real.exp 1) = some Z ∧ ∃ v, 0 < v ∧ Z = Real.exp (-1) ∧
    abs (Real.log v + Real.log Z - Real.log |Real.exp 1|) ≤ 2 / 1000000000000 / (1 - 0) := by
  have hv : (0 : ℝ) ≤ Real.log |Real.exp 1| := by rw [abs_of_pos (Real.exp_pos 1), Real.log_exp]; norm_num
  have h := C125_constant (P := 2) (first := 0) (v0 := Real.exp 1) (k := -1) (logZ := fun _ => -1) (slope := fun _ => 0)
    (by norm_num) hv (fun _ => rfl) (fun _ => rfl)
  exact ⟨_, h, C125_solves_partial (L := 0) (by norm_num) hv (fun _ _ => by simp) (fun _ => by simp) (by norm_num) h⟩

/-- A shear thinning polymer with a plateau: the logarithm of the multiplier falls with slope -3/4, is constant between -1 and 1,
and falls again. -/
noncomputable def plateau (u : ℝ) : ℝ := if u ≤ -1 then -3 / 4 * (u + 1) - 3 else if u ≤ 1 then -3 else -3 / 4 * (u - 1) - 3

/-- Its slope. -/
noncomputable def plateauSlope (u : ℝ) : ℝ := if u ≤ -1 then -3 / 4 else if u ≤ 1 then 0 else -3 / 4

theorem plateau_cycle (n : ℕ) : newton plateau plateauSlope (-3) n (-3) = none ∧ newton plateau plateauSlope (-3) n 3 = none := by
  induction n with
  | zero => exact ⟨rfl, rfl⟩
  | succ n ih =>
    have r1 : residual plateau (-3) (-3) = -3 / 2 := by norm_num [residual, plateau]
    have r2 : residual plateau (-3) 3 = 3 / 2 := by norm_num [residual, plateau]
    have s1 : plateauSlope (-3) = -3 / 4 := by norm_num [plateauSlope]
    have s2 : plateauSlope 3 = -3 / 4 := by norm_num [plateauSlope]
    constructor
    · unfold newton
      simp only [r1, s1]
      rw [if_neg (by norm_num [abs_of_neg])]
      have : (-3 : ℝ) - -3 / 2 / (1 + -3 / 4) = 3 := by norm_num
      rw [this]; exact ih.2
    · unfold newton
      simp only [r2, s2]
      rw [if_neg (by norm_num [abs_of_pos])]
      have : (3 : ℝ) - 3 / 2 / (1 + -3 / 4) = -3 := by norm_num
      rw [this]; exact ih.1

/-- C125, violated: for a velocity in the table, for which there is a shear factor, an exception is thrown: the Newton method
alternates between two velocities. -/
theorem C125_throws_violated :
    ∃ v0 : ℝ, (-5 ≤ Real.log |v0|) ∧ plateau (-5) = 0 ∧ (∃ v, 0 < v ∧ Real.log v + plateau (Real.log v) = Real.log |v0|) ∧
      computeShearFactor 100 (-5) plateau plateauSlope v0 = none := by
  have hl : Real.log |Real.exp (-3)| = -3 := by rw [abs_of_pos (Real.exp_pos _), Real.log_exp]
  refine ⟨Real.exp (-3), by rw [hl]; norm_num, by norm_num [plateau], ⟨Real.exp 0, Real.exp_pos 0, ?_⟩, ?_⟩
  · rw [hl, Real.log_exp]; norm_num [plateau]
  · unfold computeShearFactor
    rw [hl, if_neg (by norm_num [abs_of_pos]), if_neg (by norm_num), (plateau_cycle 20).1]; rfl

/-- C125: if all cells of the stencil have the same region and critical saturation, the factor of a face is the one of the cells of
the face, and it is the same for both of them. -/
theorem C125_face_partial (dofs dofs' : ℕ → Dof) (shear : ℕ → ℝ → ℝ → ℝ) (hsym : ∀ r c v, shear r c (-v) = shear r c v)
    (f i e f' i' e' : ℕ) (q : ℝ) (up : Bool) (h1 : dofs i = dofs' e') (h2 : dofs e = dofs' i')
    (hu : ∀ k, (dofs k).pvtRegion = (dofs i).pvtRegion ∧ (dofs k).swcr = (dofs i).swcr)
    (hu' : ∀ k, (dofs' k).pvtRegion = (dofs i).pvtRegion ∧ (dofs' k).swcr = (dofs i).swcr) :
    waterShearFactor dofs shear f i e (if up then e else i) q
      = waterShearFactor dofs' shear f' i' e' (if up then i' else e') (-q) := by
  unfold waterShearFactor
  simp only
  rw [neg_div, hsym, (hu f).1, (hu f).2, (hu' f').1, (hu' f').2, h1, h2,
    add_comm ((dofs' e').porosity * _)]
  cases up
  · simp only [Bool.false_eq_true, if_false, h1]
  · simp only [if_true, h2]

/-- A stencil of three cells; only the cell 1 has another region. -/
noncomputable def threeCells (region : ℕ) : ℕ → Dof := fun k => ⟨1, 1, 1, if k = 1 then region else 0, 0⟩

/-- The hypotheses can be met. -/
example : waterShearFactor (threeCells 0) (fun r _ v => r + |v|) 1 0 2 0 3
    = waterShearFactor (threeCells 0) (fun r _ v => r + |v|) 0 2 0 0 (-3) :=
  C125_face_partial (threeCells 0) (threeCells 0) _ (fun _ _ _ => by simp) 1 0 2 0 2 0 3 false rfl rfl
    (fun k => by unfold threeCells; split <;> exact ⟨rfl, rfl⟩) (fun k => by unfold threeCells; split <;> exact ⟨rfl, rfl⟩)

/-- C125, violated: the shear factor of the face between the cells 0 and 2 depends on the cell 1: the index of the face is used as
the one of a cell. -/
theorem C125_face_violated :
    ∃ (dofs dofs' : ℕ → Dof) (shear : ℕ → ℝ → ℝ → ℝ), dofs 0 = dofs' 0 ∧ dofs 2 = dofs' 2 ∧
      waterShearFactor dofs shear 1 0 2 0 1 ≠ waterShearFactor dofs' shear 1 0 2 0 1 := by
  refine ⟨threeCells 0, threeCells 1, fun r _ _ => r, rfl, rfl, ?_⟩
  norm_num [waterShearFactor, threeCells]

end Verif.Extend.Poly
