import Verif.Extend.Polymer
import Mathlib.Tactic.Ring
import Mathlib.Tactic.Linarith
import Mathlib.Tactic.NormNum
import Mathlib.Tactic.FieldSimp
import Mathlib.Tactic.Positivity

set_option autoImplicit false
/-
C124: polymer makes water thicker, never thinner, and does not move faster than the water.
-/
namespace Verif.Extend.Poly

/-- Reasonable parameters: multipliers grow with the concentration from 1 on, adsorption stays between zero and its maximum. -/
structure Rock.Sound (r : Rock) : Prop where
  one_le : ∀ c, 0 ≤ c → c ≤ r.cmax → 1 ≤ r.multiplier c
  le_max : ∀ c, 0 ≤ c → c ≤ r.cmax → r.multiplier c ≤ r.multiplier r.cmax
  at_zero : r.multiplier 0 = 1
  ads : ∀ c, 0 ≤ c → c ≤ r.cmax → 0 ≤ r.adsorbed c ∧ r.adsorbed c ≤ r.maxAdsorption
  maxAds : 0 < r.maxAdsorption
  resist : 1 ≤ r.residualResistance
  cmax : 0 < r.cmax
  omega : 0 ≤ r.omega ∧ r.omega ≤ 1

variable {r : Rock} {mu c history mobility : ℝ}

theorem split_pow {x w : ℝ} (hx : 0 < x) : x ^ w * x ^ (1 - w) = x := by rw [← Real.rpow_add hx]; simp

/-- The effective viscosities: water's own viscosity, water's, polymer's and the fully concentrated solution's in this order. -/
theorem effective_order (h : r.Sound) (hmu : 0 < mu) (h0 : 0 ≤ c) (h1 : c ≤ r.cmax) :
    mu ≤ waterEffective r mu c ∧ waterEffective r mu c ≤ polymerEffective r mu c ∧
    polymerEffective r mu c ≤ r.multiplier r.cmax * mu := by
  have m1 := h.one_le c h0 h1
  have m2 := h.le_max c h0 h1
  have hw : 0 ≤ 1 - r.omega := by linarith [h.omega.2]
  have e1 : mu ≤ r.multiplier c * mu := by nlinarith
  have e2 : mu ≤ r.multiplier r.cmax * mu := by nlinarith
  have e3 : r.multiplier c * mu ≤ r.multiplier r.cmax * mu := mul_le_mul_of_nonneg_right m2 hmu.le
  have p1 : 0 < r.multiplier c * mu := lt_of_lt_of_le hmu e1
  have p2 : 0 < r.multiplier r.cmax * mu := lt_of_lt_of_le hmu e2
  unfold waterEffective polymerEffective
  refine ⟨?_, ?_, ?_⟩
  · calc mu = mu ^ r.omega * mu ^ (1 - r.omega) := (split_pow hmu).symm
      _ ≤ _ := mul_le_mul_of_nonneg_right (Real.rpow_le_rpow hmu.le e1 h.omega.1) (Real.rpow_nonneg hmu.le _)
  · exact mul_le_mul_of_nonneg_left (Real.rpow_le_rpow hmu.le e2 hw) (Real.rpow_nonneg p1.le _)
  · calc _ ≤ (r.multiplier r.cmax * mu) ^ r.omega * (r.multiplier r.cmax * mu) ^ (1 - r.omega) :=
        mul_le_mul_of_nonneg_right (Real.rpow_le_rpow p1.le e3 h.omega.1) (Real.rpow_nonneg p2.le _)
      _ = _ := split_pow p2

theorem cbar_bounds (h : r.Sound) (h0 : 0 ≤ c) (h1 : c ≤ r.cmax) : 0 ≤ c / r.cmax ∧ c / r.cmax ≤ 1 :=
  ⟨div_nonneg h0 h.cmax.le, (div_le_one h.cmax).2 h1⟩

/-- C124: polymer makes water thicker by at most the factor at the maximum concentration. -/
theorem C124_water_viscosity_partial (h : r.Sound) (hmu : 0 < mu) (h0 : 0 ≤ c) (h1 : c ≤ r.cmax) :
    1 / r.multiplier r.cmax ≤ waterCorrection r mu c ∧ waterCorrection r mu c ≤ 1 := by
  obtain ⟨o1, o2, o3⟩ := effective_order h hmu h0 h1
  obtain ⟨b0, b1⟩ := cbar_bounds h h0 h1
  have pw : 0 < waterEffective r mu c := by linarith
  have pp : 0 < polymerEffective r mu c := by linarith
  have hM : 1 ≤ r.multiplier r.cmax := h.one_le _ h.cmax.le le_rfl
  have pM : 0 < r.multiplier r.cmax := by linarith
  have t : ∀ x y : ℝ, waterCorrection r mu c = (1 - c / r.cmax) * (mu / waterEffective r mu c)
      + c / r.cmax * (mu / polymerEffective r mu c) := fun _ _ => by unfold waterCorrection; ring
  rw [t 0 0]
  have q1 : mu / waterEffective r mu c ≤ 1 := (div_le_one pw).2 o1
  have q2 : mu / polymerEffective r mu c ≤ 1 := (div_le_one pp).2 (le_trans o1 o2)
  have q3 : 1 / r.multiplier r.cmax ≤ mu / waterEffective r mu c := by
    rw [div_le_div_iff₀ pM pw]; linarith
  have q4 : 1 / r.multiplier r.cmax ≤ mu / polymerEffective r mu c := by
    rw [div_le_div_iff₀ pM pp]; linarith
  constructor <;> nlinarith

/-- C124: the resistance the adsorbed polymer offers lies between none and the residual resistance factor. -/
theorem C124_resistance (h : r.Sound) (h0 : 0 ≤ c) (h1 : c ≤ r.cmax) (hh : history ≤ r.maxAdsorption) :
    1 ≤ resistance r history c ∧ resistance r history c ≤ r.residualResistance := by
  have ha : 0 ≤ adsorption r history c ∧ adsorption r history c ≤ r.maxAdsorption := by
    have := h.ads c h0 h1
    unfold adsorption
    split
    · exact ⟨le_trans this.1 (le_max_right _ _), max_le hh this.2⟩
    · exact this
  have hr : 0 ≤ r.residualResistance - 1 := by linarith [h.resist]
  unfold resistance
  have e : (r.residualResistance - 1) * adsorption r history c / r.maxAdsorption
      = (r.residualResistance - 1) * (adsorption r history c / r.maxAdsorption) := by ring
  rw [e]
  have f0 : 0 ≤ adsorption r history c / r.maxAdsorption := div_nonneg ha.1 h.maxAds.le
  have f1 : adsorption r history c / r.maxAdsorption ≤ 1 := (div_le_one h.maxAds).2 ha.2
  constructor <;> nlinarith

/-- C124: polymer never makes water more mobile, and does not stop it. -/
theorem C124_mobility_partial (h : r.Sound) (hmu : 0 < mu) (h0 : 0 ≤ c) (h1 : c ≤ r.cmax) (hh : history ≤ r.maxAdsorption)
    (hm : 0 ≤ mobility) :
    mobility / (r.multiplier r.cmax * r.residualResistance) ≤ waterMobility r mobility mu history c ∧
    waterMobility r mobility mu history c ≤ mobility := by
  obtain ⟨w0, w1⟩ := C124_water_viscosity_partial h hmu h0 h1
  obtain ⟨r0, r1⟩ := C124_resistance h h0 h1 hh
  have pM : 0 < r.multiplier r.cmax := by linarith [h.one_le _ h.cmax.le le_rfl]
  have pr : 0 < resistance r history c := by linarith
  have pR : 0 < r.residualResistance := by linarith
  have hw : 0 ≤ waterCorrection r mu c := le_trans (by positivity) w0
  unfold waterMobility
  constructor
  · rw [div_eq_mul_one_div]
    refine mul_le_mul_of_nonneg_left ?_ hm
    rw [← div_div]
    exact div_le_div₀ hw w0 pr r1
  · have : waterCorrection r mu c / resistance r history c ≤ 1 := by rw [div_le_one pr]; linarith
    nlinarith

/-- C124: polymer does not move faster than the water it is dissolved in. -/
theorem C124_polymer_slower_partial (h : r.Sound) (hmu : 0 < mu) (h0 : 0 ≤ c) (h1 : c ≤ r.cmax) :
    0 < polymerCorrection r mu c ∧ polymerCorrection r mu c ≤ 1 := by
  obtain ⟨o1, o2, -⟩ := effective_order h hmu h0 h1
  obtain ⟨b0, b1⟩ := cbar_bounds h h0 h1
  obtain ⟨w0, -⟩ := C124_water_viscosity_partial h hmu h0 h1
  have pM : 0 < r.multiplier r.cmax := by linarith [h.one_le _ h.cmax.le le_rfl]
  have hw : 0 < waterCorrection r mu c := lt_of_lt_of_le (by positivity) w0
  have pw : 0 < waterEffective r mu c := by linarith
  have pp : 0 < polymerEffective r mu c := by linarith
  unfold polymerCorrection
  refine ⟨by positivity, ?_⟩
  rw [div_div, div_le_one (mul_pos hw pp)]
  have t : waterCorrection r mu c * polymerEffective r mu c
      = mu * ((1 - c / r.cmax) * (polymerEffective r mu c / waterEffective r mu c) + c / r.cmax) := by
    unfold waterCorrection; field_simp
  rw [t]
  have q : 1 ≤ polymerEffective r mu c / waterEffective r mu c := (one_le_div pw).2 o2
  have q2 : 1 ≤ (1 - c / r.cmax) * (polymerEffective r mu c / waterEffective r mu c) + c / r.cmax := by nlinarith
  nlinarith

/-- C124: water without polymer is pure water, and water with as much polymer as possible is as thick as the table says. -/
theorem C124_ends (h : r.Sound) (hmu : 0 < mu) :
    waterCorrection r mu 0 = 1 ∧ waterCorrection r mu r.cmax = 1 / r.multiplier r.cmax ∧ polymerCorrection r mu r.cmax = 1 := by
  have pM : 0 < r.multiplier r.cmax := by linarith [h.one_le _ h.cmax.le le_rfl]
  have hc := h.cmax.ne'
  have e2 : polymerEffective r mu r.cmax = r.multiplier r.cmax * mu := split_pow (mul_pos pM hmu)
  have e3 : waterCorrection r mu r.cmax = 1 / r.multiplier r.cmax := by
    unfold waterCorrection
    rw [e2, div_self hc, sub_self, zero_div, zero_add]
    field_simp
  refine ⟨?_, e3, ?_⟩
  · unfold waterCorrection
    have : waterEffective r mu 0 = mu := by unfold waterEffective; rw [h.at_zero, one_mul, split_pow hmu]
    rw [this, zero_div, sub_zero, zero_div, add_zero, mul_one_div_cancel hmu.ne']
  · unfold polymerCorrection
    rw [e3, e2]; field_simp

/-- C124: with complete mixing water and polymer move together, and the solution is as thick as the table says. -/
theorem C124_complete (h : r.Sound) (hmu : 0 < mu) (h0 : 0 ≤ c) (h1 : c ≤ r.cmax) (hw : r.omega = 1) :
    waterCorrection r mu c = 1 / r.multiplier c ∧ polymerCorrection r mu c = 1 := by
  have m1 : 0 < r.multiplier c := by linarith [h.one_le c h0 h1]
  have e1 : waterEffective r mu c = r.multiplier c * mu := by unfold waterEffective; rw [hw]; simp
  have e2 : polymerEffective r mu c = r.multiplier c * mu := by unfold polymerEffective; rw [hw]; simp
  have e3 : waterCorrection r mu c = 1 / r.multiplier c := by
    unfold waterCorrection; rw [e1, e2]; field_simp; ring
  refine ⟨e3, ?_⟩
  unfold polymerCorrection; rw [e3, e2]; field_simp

/-- C124: if polymer does not desorb, what is adsorbed never becomes less, whatever the concentration. -/
theorem C124_no_desorption (hn : r.noDesorption = true) : history ≤ adsorption r history c ∧ r.adsorbed c ≤ adsorption r history c := by
  unfold adsorption; rw [hn]; exact ⟨le_max_left _ _, le_max_right _ _⟩

/-- C124: with the Mark-Houwink equation, too, polymer makes water thicker. -/
theorem C124_mark_houwink {kMh aMh gamma kappa weight : ℝ} (hk : 0 ≤ kMh) (hg : 0 ≤ gamma) (hkap : 0 ≤ kappa) (hw : 0 ≤ weight)
    (h0 : 0 ≤ c) : 0 < waterCorrectionMH kMh aMh gamma kappa weight c ∧ waterCorrectionMH kMh aMh gamma kappa weight c ≤ 1 ∧
      waterCorrectionMH kMh aMh gamma kappa weight 0 = 1 := by
  have hx : 0 ≤ c * (kMh * (weight * 1000) ^ aMh) :=
    mul_nonneg h0 (mul_nonneg hk (Real.rpow_nonneg (mul_nonneg hw (by norm_num)) _))
  unfold waterCorrectionMH
  simp only
  generalize c * (kMh * (weight * 1000) ^ aMh) = x at hx
  have hd : 1 ≤ 1 + gamma * (x + kappa * x * x) := by
    have : 0 ≤ gamma * (x + kappa * x * x) := by positivity
    linarith
  refine ⟨by positivity, (div_le_one (by linarith)).2 hd, ?_⟩
  simp

/-- Parameters with multiplier 1 + c, at most one unit of polymer. -/
noncomputable def rock1 : Rock :=
  { adsorbed := fun c => c, multiplier := fun c => 1 + c, noDesorption := true, maxAdsorption := 1, residualResistance := 2,
    cmax := 1, omega := 0 }

theorem rock1_sound : rock1.Sound where
  one_le := fun c h0 _ => by simp only [rock1]; linarith
  le_max := fun c _ h1 => by simp only [rock1] at *; linarith
  at_zero := by norm_num [rock1]
  ads := fun c h0 h1 => ⟨h0, h1⟩
  maxAds := one_pos
  resist := by norm_num [rock1]
  cmax := one_pos
  omega := by norm_num [rock1]

example : 1 / (2 * 2) ≤ waterMobility rock1 1 1 0 (1 / 2) ∧ waterMobility rock1 1 1 0 (1 / 2) ≤ 1 := by
  have := C124_mobility_partial (mobility := 1) (history := 0) (mu := 1) (c := 1 / 2) rock1_sound one_pos (by norm_num)
    (by norm_num [rock1]) zero_le_one zero_le_one
  have e : rock1.multiplier rock1.cmax = 2 := by norm_num [rock1]
  rw [e] at this
  exact this

/-- C124, violated: nothing keeps the concentration below its maximum, and above it the water becomes mobile backwards. -/
theorem C124_above_maximum_violated :
    ∃ (r : Rock) (c : ℝ), r.Sound ∧ r.cmax < c ∧ waterMobility r 1 1 0 c < 0 := by
  refine ⟨rock1, 3, rock1_sound, by norm_num [rock1], ?_⟩
  have e1 : waterEffective rock1 1 3 = 1 := by unfold waterEffective; norm_num [rock1]
  have e2 : polymerEffective rock1 1 3 = 2 := by unfold polymerEffective; norm_num [rock1]
  unfold waterMobility waterCorrection resistance adsorption
  rw [e1, e2]
  norm_num [rock1]

end Verif.Extend.Poly
