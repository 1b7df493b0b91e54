import Verif.Todd.Lemmas

/-
C155: effective densities and viscosities of the mixing model of Todd and Longstaff.
-/

set_option autoImplicit false

namespace Verif.Todd

open Input

/-- Viscosities, factors and reference densities are positive, saturations are not negative, densities are those which belong to the
factors, and miscibility and mixing parameters are between zero and one. -/
structure Physical (x : Input) : Prop where
  viscOil : 0 < x.viscOil
  muGas : 0 < x.muGas
  muSolvent : 0 < x.muSolvent
  so : 0 ≤ x.so
  sg : 0 ≤ x.sg
  ss : 0 ≤ x.ss
  pmisc : 0 ≤ x.pmisc ∧ x.pmisc ≤ 1
  mixMu : 0 ≤ x.mixMu ∧ x.mixMu ≤ 1
  mixRho : 0 ≤ x.mixRho ∧ x.mixRho ≤ 1
  factors : 0 < x.bo ∧ 0 < x.bg ∧ 0 < x.bs
  denoms : 0 < x.gasDenom ∧ 0 < x.oilDenom ∧ 0 < x.solventRef
  densOil : x.densOil = x.bo * x.oilDenom
  rhoGas : x.rhoGas = x.bg * x.gasDenom
  rhoSolvent : x.rhoSolvent = x.bs * x.solventRef

/-- Enough of the fluids is above the critical saturations, and what there is of oil and gas is not negligible. -/
structure Regular (x : Input) : Prop where
  all : x.allEff > cutOff
  oilGas : x.oilEff + x.gasEff > cutOff ∨ x.oilEff + x.gasEff = 0

/-! ### Parts -/

section
variable {x : Input}

theorem oilEff_nonneg (h : Physical x) : 0 ≤ x.oilEff := by
  unfold oilEff
  split_ifs
  · exact le_max_right _ _
  · exact h.so
  · exact le_refl _

theorem gasEff_nonneg (h : Physical x) : 0 ≤ x.gasEff := by
  unfold gasEff
  split_ifs
  · exact le_max_right _ _
  · exact h.sg

theorem solventEff_nonneg (h : Physical x) : 0 ≤ x.solventEff := by
  unfold solventEff
  split_ifs
  · exact le_max_right _ _
  · exact h.ss

theorem oilPow_eq : x.oilPow = x.muOil ^ (1 / 4 : ℝ) := by
  unfold oilPow muOil
  split_ifs
  · rfl
  · simp

theorem muOil_pos (h : Physical x) : 0 < x.muOil := by
  unfold muOil
  split_ifs
  · exact h.viscOil
  · norm_num

theorem gasPow_pos (h : Physical x) : 0 < x.gasPow := root_pos h.muGas

theorem solventPow_pos (h : Physical x) : 0 < x.solventPow := root_pos h.muSolvent

theorem oilPow_pos (h : Physical x) : 0 < x.oilPow := by rw [oilPow_eq]; exact root_pos (muOil_pos h)

theorem noOil (ho : x.oil = false) : x.oilEff = 0 := by simp [oilEff, ho]

/-- The mixture of gas and solvent -/
theorem mixSolventGas_root (h : Physical x) : 0 < x.mixSolventGas ∧
    ((x.solventEff + x.gasEff > cutOff → x.mixSolventGas ^ (1 / 4 : ℝ) = x.gasPow * x.solventPow /
        (x.gasEff / (x.solventEff + x.gasEff) * x.solventPow + x.solventEff / (x.solventEff + x.gasEff) * x.gasPow)) ∧
      (¬x.solventEff + x.gasEff > cutOff → x.mixSolventGas ^ (1 / 4 : ℝ) = x.gasPow)) ∧
    ∀ lo hi, 0 < lo → lo ≤ x.gasPow → lo ≤ x.solventPow → x.gasPow ≤ hi → x.solventPow ≤ hi →
      lo ≤ x.mixSolventGas ^ (1 / 4 : ℝ) ∧ x.mixSolventGas ^ (1 / 4 : ℝ) ≤ hi := by
  unfold mixSolventGas
  split_ifs with hc
  · have ht : 0 < x.solventEff + x.gasEff := lt_trans cutOff_pos hc
    have hp := div_nonneg (gasEff_nonneg h) ht.le
    have hq := div_nonneg (solventEff_nonneg h) ht.le
    have hpq : x.gasEff / (x.solventEff + x.gasEff) + x.solventEff / (x.solventEff + x.gasEff) = 1 := by
      rw [← add_div, add_comm, div_self ht.ne']
    obtain ⟨h1, h2⟩ := root_mix h.muGas h.muSolvent hp hq hpq
    refine ⟨mul_pos h.muGas (div_pos h.muSolvent (Real.rpow_pos_of_pos h2 _)), ⟨fun _ => h1, fun hn => absurd hc hn⟩, ?_⟩
    intro lo hi hlo a b c d
    rw [show (x.muGas * (x.muSolvent / (x.gasEff / (x.solventEff + x.gasEff) * x.solventPow +
      x.solventEff / (x.solventEff + x.gasEff) * x.gasPow) ^ (4 : ℝ))) ^ (1 / 4 : ℝ) = _ from h1]
    exact harmonic_bounds hlo a b c d hp hq hpq h2
  · exact ⟨h.muGas, ⟨fun hn => absurd hn hc, fun _ => rfl⟩, fun lo hi _ a _ c _ => ⟨a, c⟩⟩

/-- The mixture of oil and solvent -/
theorem mixOilSolvent_root (h : Physical x) : 0 < x.mixOilSolvent ∧
    ∀ lo hi, 0 < lo → lo ≤ x.oilPow → lo ≤ x.solventPow → x.oilPow ≤ hi → x.solventPow ≤ hi →
      lo ≤ x.mixOilSolvent ^ (1 / 4 : ℝ) ∧ x.mixOilSolvent ^ (1 / 4 : ℝ) ≤ hi := by
  unfold mixOilSolvent
  split_ifs with ho hc
  · have e : x.oilPow = x.viscOil ^ (1 / 4 : ℝ) := by simp [oilPow, ho]
    have ht : 0 < x.oilEff + x.solventEff := lt_trans cutOff_pos hc
    have hp := div_nonneg (oilEff_nonneg h) ht.le
    have hq := div_nonneg (solventEff_nonneg h) ht.le
    have hpq : x.oilEff / (x.oilEff + x.solventEff) + x.solventEff / (x.oilEff + x.solventEff) = 1 := by
      rw [← add_div, div_self ht.ne']
    obtain ⟨h1, h2⟩ := root_mix h.viscOil h.muSolvent hp hq hpq
    rw [← e] at h1 h2
    refine ⟨mul_pos h.viscOil (div_pos h.muSolvent (Real.rpow_pos_of_pos h2 _)), ?_⟩
    intro lo hi hlo a b c d
    rw [show (x.viscOil * (x.muSolvent / (x.oilEff / (x.oilEff + x.solventEff) * x.solventPow +
      x.solventEff / (x.oilEff + x.solventEff) * x.oilPow) ^ (4 : ℝ))) ^ (1 / 4 : ℝ) = _ from h1]
    exact harmonic_bounds hlo a b c d hp hq hpq h2
  · refine ⟨h.viscOil, fun lo hi _ a _ c _ => ?_⟩
    rw [show x.viscOil ^ (1 / 4 : ℝ) = x.oilPow by simp [oilPow, ho]]
    exact ⟨a, c⟩
  · refine ⟨by norm_num, fun lo hi _ a _ c _ => ?_⟩
    rw [show (1 : ℝ) ^ (1 / 4 : ℝ) = x.oilPow by simp [oilPow, ho]]
    exact ⟨a, c⟩

theorem weights (hall : 0 < x.allEff) : x.oilEff / x.allEff + x.solventEff / x.allEff + x.gasEff / x.allEff = 1 := by
  rw [← add_div, ← add_div, div_eq_one_iff_eq hall.ne', allEff]
  ring

/-- The mixture of all -/
theorem mixAll_root (h : Physical x) (hall : x.allEff > cutOff) : 0 < x.mixAll ∧
    x.mixAll ^ (1 / 4 : ℝ) = x.oilPow * (x.solventPow * x.gasPow) / (x.oilEff / x.allEff * x.solventPow * x.gasPow +
      x.solventEff / x.allEff * x.oilPow * x.gasPow + x.gasEff / x.allEff * x.solventPow * x.oilPow) ∧
    0 < x.oilEff / x.allEff * x.solventPow * x.gasPow +
      x.solventEff / x.allEff * x.oilPow * x.gasPow + x.gasEff / x.allEff * x.solventPow * x.oilPow := by
  have ht : 0 < x.allEff := lt_trans cutOff_pos hall
  have h1 := root_mix3 (muOil_pos h) h.muSolvent h.muGas (div_nonneg (oilEff_nonneg h) ht.le) (div_nonneg (solventEff_nonneg h) ht.le)
    (div_nonneg (gasEff_nonneg h) ht.le) (weights ht)
  rw [← oilPow_eq] at h1
  obtain ⟨h1, h2⟩ := h1
  unfold mixAll
  rw [if_pos hall]
  exact ⟨mul_pos (muOil_pos h) (div_pos (mul_pos h.muSolvent h.muGas) (Real.rpow_pos_of_pos h2 _)), h1, h2⟩

theorem mixAll_bounds (h : Physical x) (hall : x.allEff > cutOff) (lo hi : ℝ) (hlo : 0 < lo) (ho : x.oil = true → lo ≤ x.oilPow)
    (hg : lo ≤ x.gasPow) (hs : lo ≤ x.solventPow) (ho' : x.oil = true → x.oilPow ≤ hi) (hg' : x.gasPow ≤ hi) (hs' : x.solventPow ≤ hi) :
    lo ≤ x.mixAll ^ (1 / 4 : ℝ) ∧ x.mixAll ^ (1 / 4 : ℝ) ≤ hi := by
  have ht : 0 < x.allEff := lt_trans cutOff_pos hall
  obtain ⟨-, h1, h2⟩ := mixAll_root h hall
  rw [h1]
  have hp := div_nonneg (oilEff_nonneg h) ht.le
  refine harmonic3_bounds hlo (oilPow_pos h) ?_ hs hg ?_ hs' hg' hp (div_nonneg (solventEff_nonneg h) ht.le)
    (div_nonneg (gasEff_nonneg h) ht.le) (weights ht) h2
  · cases hb : x.oil with
    | false => simp [noOil hb]
    | true => exact mul_le_mul_of_nonneg_left (ho hb) hp
  · cases hb : x.oil with
    | false => simp [noOil hb]
    | true => exact mul_le_mul_of_nonneg_left (ho' hb) hp

theorem of_root {lo m hi : ℝ} (hlo : 0 ≤ lo) (hm : 0 ≤ m) (hhi : 0 ≤ hi)
    (h : lo ^ (1 / 4 : ℝ) ≤ m ^ (1 / 4 : ℝ) ∧ m ^ (1 / 4 : ℝ) ≤ hi ^ (1 / 4 : ℝ)) : lo ≤ m ∧ m ≤ hi :=
  ⟨(Real.rpow_le_rpow_iff hlo hm (by norm_num)).1 h.1, (Real.rpow_le_rpow_iff hm hhi (by norm_num)).1 h.2⟩

theorem root_min {a b : ℝ} (ha : 0 ≤ a) (hb : 0 ≤ b) : (min a b) ^ (1 / 4 : ℝ) = min (a ^ (1 / 4 : ℝ)) (b ^ (1 / 4 : ℝ)) := by
  rcases le_total a b with h | h
  · rw [min_eq_left h, min_eq_left (root_le ha h)]
  · rw [min_eq_right h, min_eq_right (root_le hb h)]

theorem root_max {a b : ℝ} (ha : 0 ≤ a) (hb : 0 ≤ b) : (max a b) ^ (1 / 4 : ℝ) = max (a ^ (1 / 4 : ℝ)) (b ^ (1 / 4 : ℝ)) := by
  rcases le_total a b with h | h
  · rw [max_eq_right h, max_eq_right (root_le ha h)]
  · rw [max_eq_left h, max_eq_left (root_le hb h)]

/-- The root of an interpolated viscosity lies between the roots. -/
theorem effPow_bounds {w a m : ℝ} (hw : 0 ≤ w ∧ w ≤ 1) (ha : 0 < a) (hm : 0 < m) :
    min (a ^ (1 / 4 : ℝ)) (m ^ (1 / 4 : ℝ)) ≤ interpolate w a m ^ (1 / 4 : ℝ) ∧
      interpolate w a m ^ (1 / 4 : ℝ) ≤ max (a ^ (1 / 4 : ℝ)) (m ^ (1 / 4 : ℝ)) := by
  have hl : 0 < min a m := lt_min ha hm
  obtain ⟨h1, h2⟩ := interpolate_bounds hw.1 hw.2 hl (min_le_left _ _) (min_le_right _ _) (le_max_left _ _) (le_max_right _ _)
  rw [← root_min ha.le hm.le, ← root_max ha.le hm.le]
  exact ⟨root_le hl.le h1, root_le (interpolate_pos ha hm).le h2⟩

/-! ### Densities -/

theorem rhoMix_bounds (h : Physical x) (hall : x.allEff > cutOff) (lo hi : ℝ) (ho : x.oil = true → lo ≤ x.densOil) (hg : lo ≤ x.rhoGas)
    (hs : lo ≤ x.rhoSolvent) (ho' : x.oil = true → x.densOil ≤ hi) (hg' : x.rhoGas ≤ hi) (hs' : x.rhoSolvent ≤ hi) :
    lo ≤ x.rhoMix ∧ x.rhoMix ≤ hi := by
  have ht : 0 < x.allEff := lt_trans cutOff_pos hall
  unfold rhoMix
  rw [if_pos hall, mul_div_assoc, mul_div_assoc, mul_div_assoc]
  have hw := weights ht
  have hp := div_nonneg (oilEff_nonneg h) ht.le
  have hq := div_nonneg (solventEff_nonneg h) ht.le
  have hr := div_nonneg (gasEff_nonneg h) ht.le
  have o1 : lo * (x.oilEff / x.allEff) ≤ x.rhoOil * (x.oilEff / x.allEff) ∧ x.rhoOil * (x.oilEff / x.allEff) ≤ hi * (x.oilEff / x.allEff) := by
    cases hb : x.oil with
    | false => simp [noOil hb]
    | true =>
      rw [show x.rhoOil = x.densOil by simp [rhoOil, hb]]
      exact ⟨mul_le_mul_of_nonneg_right (ho hb) hp, mul_le_mul_of_nonneg_right (ho' hb) hp⟩
  have g1 := mul_le_mul_of_nonneg_right hg hr
  have g2 := mul_le_mul_of_nonneg_right hg' hr
  have s1 := mul_le_mul_of_nonneg_right hs hq
  have s2 := mul_le_mul_of_nonneg_right hs' hq
  have el : lo = lo * (x.oilEff / x.allEff) + lo * (x.gasEff / x.allEff) + lo * (x.solventEff / x.allEff) := by
    rw [← mul_add, ← mul_add]; rw [show x.oilEff / x.allEff + x.gasEff / x.allEff + x.solventEff / x.allEff = 1 by linarith]; ring
  have eh : hi = hi * (x.oilEff / x.allEff) + hi * (x.gasEff / x.allEff) + hi * (x.solventEff / x.allEff) := by
    rw [← mul_add, ← mul_add]; rw [show x.oilEff / x.allEff + x.gasEff / x.allEff + x.solventEff / x.allEff = 1 by linarith]; ring
  constructor
  · linarith [o1.1]
  · linarith [o1.2]

theorem gasEffPow_between (h : Physical x) :
    min x.gasPow x.solventPow ≤ x.gasEffPow ∧ x.gasEffPow ≤ max x.gasPow x.solventPow := by
  obtain ⟨h1, -, h2⟩ := mixSolventGas_root h
  obtain ⟨h3, h4⟩ := h2 (min x.gasPow x.solventPow) (max x.gasPow x.solventPow) (lt_min (gasPow_pos h) (solventPow_pos h))
    (min_le_left _ _) (min_le_right _ _) (le_max_left _ _) (le_max_right _ _)
  obtain ⟨h5, h6⟩ := effPow_bounds h.mixRho h.muGas h1
  exact ⟨le_trans (le_min (min_le_left _ _) h3) h5, le_trans h6 (max_le (le_max_left _ _) h4)⟩

theorem oilEffPow_between (h : Physical x) :
    min x.oilPow x.solventPow ≤ x.oilEffPow ∧ x.oilEffPow ≤ max x.oilPow x.solventPow := by
  obtain ⟨h1, h2⟩ := mixOilSolvent_root h
  obtain ⟨h3, h4⟩ := h2 (min x.oilPow x.solventPow) (max x.oilPow x.solventPow) (lt_min (oilPow_pos h) (solventPow_pos h))
    (min_le_left _ _) (min_le_right _ _) (le_max_left _ _) (le_max_right _ _)
  obtain ⟨h5, h6⟩ := effPow_bounds h.mixRho (muOil_pos h) h1
  rw [← oilPow_eq] at h5 h6
  exact ⟨le_trans (le_min (min_le_left _ _) h3) h5, le_trans h6 (max_le (le_max_left _ _) h4)⟩

/-- The fraction of gas is one. -/
theorem gasFraction (h : Physical x) (hc : ¬|x.solventPow - x.gasPow| < cutOff) :
    0 ≤ x.gasPow * (x.solventPow - x.gasEffPow) / (x.gasEffPow * (x.solventPow - x.gasPow)) ∧
      x.gasPow * (x.solventPow - x.gasEffPow) / (x.gasEffPow * (x.solventPow - x.gasPow)) ≤ 1 := by
  obtain ⟨h1, h2⟩ := gasEffPow_between h
  refine fraction_bounds (gasPow_pos h) (solventPow_pos h) h1 h2 ?_
  intro he
  exact hc (by rw [he, sub_self, abs_zero]; exact cutOff_pos)

theorem oilFraction (h : Physical x) (hc : ¬|x.oilPow - x.solventPow| < cutOff) :
    0 ≤ x.oilPow * (x.oilEffPow - x.solventPow) / (x.oilEffPow * (x.oilPow - x.solventPow)) ∧
      x.oilPow * (x.oilEffPow - x.solventPow) / (x.oilEffPow * (x.oilPow - x.solventPow)) ≤ 1 := by
  obtain ⟨h1, h2⟩ := oilEffPow_between h
  have h3 := fraction_bounds (oilPow_pos h) (solventPow_pos h) h1 h2 (fun he => hc (by rw [he, sub_self, abs_zero]; exact cutOff_pos))
  have e : x.oilPow * (x.oilEffPow - x.solventPow) / (x.oilEffPow * (x.oilPow - x.solventPow)) =
      x.oilPow * (x.solventPow - x.oilEffPow) / (x.oilEffPow * (x.solventPow - x.oilPow)) := by
    rw [← neg_sub x.solventPow x.oilEffPow, ← neg_sub x.solventPow x.oilPow, mul_neg, mul_neg, neg_div_neg_eq]
  rw [e]
  exact h3

/-- The root of the viscosity of the mixture of oil and gas alone -/
noncomputable def oilGasPow (x : Input) : ℝ := x.oilPow * x.gasPow / (x.sgf * x.oilPow + x.sof * x.gasPow)

/-- What the fraction of solvent is about, if there is oil or gas -/
theorem solventFraction_eq (h : Physical x) (ho : x.oilEff + x.gasEff > cutOff) :
    x.sof + x.sgf = 1 ∧ 0 ≤ x.sof ∧ 0 ≤ x.sgf ∧ 0 < x.sgf * x.oilPow + x.sof * x.gasPow ∧ 0 < oilGasPow x ∧
    x.solventOilGasPow = x.solventPow * (x.oilPow * x.gasPow / oilGasPow x) := by
  have ht : 0 < x.oilEff + x.gasEff := lt_trans cutOff_pos ho
  have e1 : x.sof = x.oilEff / (x.oilEff + x.gasEff) := if_pos ho
  have e2 : x.sgf = x.gasEff / (x.oilEff + x.gasEff) := if_pos ho
  have n1 : 0 ≤ x.sof := by rw [e1]; exact div_nonneg (oilEff_nonneg h) ht.le
  have n2 : 0 ≤ x.sgf := by rw [e2]; exact div_nonneg (gasEff_nonneg h) ht.le
  have hs : x.sof + x.sgf = 1 := by rw [e1, e2, ← add_div, div_self ht.ne']
  have hO := oilPow_pos h
  have hG := gasPow_pos h
  have hD : 0 < x.sgf * x.oilPow + x.sof * x.gasPow := by
    rcases n1.lt_or_eq with h5 | h5
    · have := mul_pos h5 hG
      have := mul_nonneg n2 hO.le
      linarith
    · have : x.sgf = 1 := by linarith
      rw [← h5, this]
      linarith
  have ha : 0 < oilGasPow x := div_pos (mul_pos hO hG) hD
  refine ⟨hs, n1, n2, hD, ha, ?_⟩
  unfold solventOilGasPow oilGasPow
  have : x.oilPow * x.gasPow ≠ 0 := (mul_pos hO hG).ne'
  congr 1
  field_simp

theorem solventEffPow_pos (h : Physical x) (hall : x.allEff > cutOff) : 0 < x.solventEffPow :=
  root_pos (interpolate_pos h.muSolvent (mixAll_root h hall).1)

/-- The root of the viscosity of all is the harmonic mean of the roots of solvent and of the mixture of oil and gas. -/
theorem mixAll_harmonic (h : Physical x) (hall : x.allEff > cutOff) (ho : x.oilEff + x.gasEff > cutOff) :
    x.mixAll ^ (1 / 4 : ℝ) = x.solventPow * oilGasPow x /
        (x.solventEff / x.allEff * oilGasPow x + (1 - x.solventEff / x.allEff) * x.solventPow) ∧
      0 < x.solventEff / x.allEff * oilGasPow x + (1 - x.solventEff / x.allEff) * x.solventPow := by
  have ht : 0 < x.allEff := lt_trans cutOff_pos hall
  have ht' : 0 < x.oilEff + x.gasEff := lt_trans cutOff_pos ho
  obtain ⟨hs, n1, n2, hD, ha, -⟩ := solventFraction_eq h ho
  obtain ⟨-, e, hD2⟩ := mixAll_root h hall
  have hO := oilPow_pos h
  have hG := gasPow_pos h
  have hS := solventPow_pos h
  have e1 : x.sof * (1 - x.solventEff / x.allEff) = x.oilEff / x.allEff := by
    rw [show x.sof = x.oilEff / (x.oilEff + x.gasEff) from if_pos ho]
    have : 1 - x.solventEff / x.allEff = (x.oilEff + x.gasEff) / x.allEff := by
      rw [eq_div_iff ht.ne', sub_mul, div_mul_cancel₀ _ ht.ne', allEff]; ring
    rw [this]; field_simp
  have e2 : x.sgf * (1 - x.solventEff / x.allEff) = x.gasEff / x.allEff := by
    rw [show x.sgf = x.gasEff / (x.oilEff + x.gasEff) from if_pos ho]
    have : 1 - x.solventEff / x.allEff = (x.oilEff + x.gasEff) / x.allEff := by
      rw [eq_div_iff ht.ne', sub_mul, div_mul_cancel₀ _ ht.ne', allEff]; ring
    rw [this]; field_simp
  have hw := weights ht
  have s0 : 0 ≤ x.solventEff / x.allEff := div_nonneg (solventEff_nonneg h) ht.le
  have s1 : 0 ≤ 1 - x.solventEff / x.allEff := by
    have := div_nonneg (oilEff_nonneg h) ht.le
    have := div_nonneg (gasEff_nonneg h) ht.le
    linarith
  have hD3 : 0 < x.solventEff / x.allEff * oilGasPow x + (1 - x.solventEff / x.allEff) * x.solventPow := by
    rcases s0.lt_or_eq with h5 | h5
    · have := mul_pos h5 ha
      have := mul_nonneg s1 hS.le
      linarith
    · rw [← h5]; linarith
  refine ⟨?_, hD3⟩
  rw [e, ← e1, ← e2]
  generalize x.solventEff / x.allEff = s at *
  rw [div_eq_div_iff (by
    have : x.sof * (1 - s) * x.solventPow * x.gasPow + s * x.oilPow * x.gasPow + x.sgf * (1 - s) * x.solventPow * x.oilPow =
      x.oilEff / x.allEff * x.solventPow * x.gasPow + s * x.oilPow * x.gasPow + x.gasEff / x.allEff * x.solventPow * x.oilPow := by
      rw [e1, e2]
    rw [this]; exact hD2.ne') hD3.ne']
  have hk : oilGasPow x * (x.sgf * x.oilPow + x.sof * x.gasPow) = x.oilPow * x.gasPow := div_mul_cancel₀ _ hD.ne'
  linear_combination (-(1 - s) * x.solventPow * x.solventPow) * hk

theorem solventFraction_form (h : Physical x) (hr : x.allEff > cutOff) (ho : x.oilEff + x.gasEff > cutOff) (hne : x.solventPow ≠ oilGasPow x) :
    (x.solventOilGasPow - x.oilPow * x.gasPow * x.solventPow / x.solventEffPow) / (x.solventOilGasPow - x.oilPow * x.gasPow) =
      x.solventPow * (oilGasPow x - x.solventEffPow) / (x.solventEffPow * (oilGasPow x - x.solventPow)) := by
  obtain ⟨hs, n1, n2, hD, ha, he⟩ := solventFraction_eq h ho
  have hS := solventPow_pos h
  have hOG : 0 < x.oilPow * x.gasPow := mul_pos (oilPow_pos h) (gasPow_pos h)
  have hE := solventEffPow_pos h hr
  rw [he]
  have d1 : x.solventPow * (x.oilPow * x.gasPow / oilGasPow x) - x.oilPow * x.gasPow * x.solventPow / x.solventEffPow =
      x.oilPow * x.gasPow * (x.solventPow * (x.solventEffPow - oilGasPow x)) / (oilGasPow x * x.solventEffPow) := by
    field_simp
  have d2 : x.solventPow * (x.oilPow * x.gasPow / oilGasPow x) - x.oilPow * x.gasPow =
      x.oilPow * x.gasPow * (x.solventPow - oilGasPow x) / oilGasPow x := by
    field_simp
  have hne' : x.solventPow - oilGasPow x ≠ 0 := sub_ne_zero.2 hne
  have hne'' : oilGasPow x - x.solventPow ≠ 0 := sub_ne_zero.2 hne.symm
  rw [d1, d2, div_div_div_eq, div_eq_div_iff (by
    refine mul_ne_zero (mul_ne_zero ha.ne' hE.ne') (mul_ne_zero hOG.ne' hne')) (mul_ne_zero hE.ne' hne'')]
  ring

theorem solventFraction (h : Physical x) (hr : x.allEff > cutOff) (ho : x.oilEff + x.gasEff > cutOff)
    (hc : ¬|x.solventOilGasPow - x.oilPow * x.gasPow| < cutOff) :
    0 ≤ (x.solventOilGasPow - x.oilPow * x.gasPow * x.solventPow / x.solventEffPow) / (x.solventOilGasPow - x.oilPow * x.gasPow) ∧
    (x.solventOilGasPow - x.oilPow * x.gasPow * x.solventPow / x.solventEffPow) / (x.solventOilGasPow - x.oilPow * x.gasPow) ≤ 1 := by
  have ht : 0 < x.allEff := lt_trans cutOff_pos hr
  obtain ⟨hs, n1, n2, hD, ha, he⟩ := solventFraction_eq h ho
  obtain ⟨hm, hD3⟩ := mixAll_harmonic h hr ho
  have hS := solventPow_pos h
  have hOG : 0 < x.oilPow * x.gasPow := mul_pos (oilPow_pos h) (gasPow_pos h)
  have hE := solventEffPow_pos h hr
  have hne : x.solventPow ≠ oilGasPow x := by
    intro heq
    apply hc
    rw [he, heq, mul_div_cancel₀ _ ha.ne', sub_self, abs_zero]
    exact cutOff_pos
  have s0 : 0 ≤ x.solventEff / x.allEff := div_nonneg (solventEff_nonneg h) ht.le
  have hw := weights ht
  have s1 : 0 ≤ 1 - x.solventEff / x.allEff := by
    have := div_nonneg (oilEff_nonneg h) ht.le
    have := div_nonneg (gasEff_nonneg h) ht.le
    linarith
  have hb := harmonic_bounds (lt_min hS ha) (min_le_left x.solventPow (oilGasPow x)) (min_le_right _ _) (le_max_left _ _) (le_max_right _ _)
    s0 s1 (by ring) hD3
  rw [← hm] at hb
  obtain ⟨h5, h6⟩ := effPow_bounds h.mixRho h.muSolvent (mixAll_root h hr).1
  have hf := fraction_bounds hS ha (c := x.solventEffPow) (le_trans (le_min (min_le_left _ _) hb.1) h5)
    (le_trans h6 (max_le (le_max_left _ _) hb.2)) hne
  have e := solventFraction_form h hr ho hne
  rw [e]
  exact hf

/-- With solvent alone, its effective viscosity is its own. -/
theorem solventEffPow_alone (h : Physical x) (hr : x.allEff > cutOff) (ho : x.oilEff + x.gasEff = 0) : x.solventEffPow = x.solventPow := by
  have ht : 0 < x.allEff := lt_trans cutOff_pos hr
  have o0 : x.oilEff = 0 := by linarith [oilEff_nonneg h, gasEff_nonneg h]
  have g0 : x.gasEff = 0 := by linarith [oilEff_nonneg h, gasEff_nonneg h]
  have hs : x.solventEff / x.allEff = 1 := by
    have e : x.allEff = x.solventEff := by rw [allEff, o0, g0]; ring
    rw [e] at ht ⊢
    exact div_self ht.ne'
  obtain ⟨h1, h2, h3⟩ := mixAll_root h hr
  have hm : x.mixAll = x.muSolvent := by
    have h4 : x.mixAll ^ (1 / 4 : ℝ) = x.muSolvent ^ (1 / 4 : ℝ) := by
      rw [h2, hs, o0, g0]
      have := oilPow_pos h
      have := gasPow_pos h
      have := solventPow_pos h
      show _ = x.solventPow
      field_simp
      ring
    rw [← root_pow h1.le, h4, root_pow h.muSolvent.le]
  have hi : interpolate x.mixRho x.muSolvent x.muSolvent = x.muSolvent := by
    unfold interpolate
    rw [← Real.rpow_add h.muSolvent]; simp
  unfold solventEffPow solventPow
  rw [hm, hi]

end

section
variable (x : Input) (h : Physical x) (hr : Regular x) (lo hi : ℝ) (ho : x.oil = true → lo ≤ x.densOil) (hg : lo ≤ x.rhoGas)
    (hs : lo ≤ x.rhoSolvent) (ho' : x.oil = true → x.densOil ≤ hi) (hg' : x.rhoGas ≤ hi) (hs' : x.rhoSolvent ≤ hi)
include h hr ho hg hs ho' hg' hs'

theorem rhoGasEff_bounds : lo ≤ x.rhoGasEff ∧ x.rhoGasEff ≤ hi := by
  obtain ⟨m1, m2⟩ := rhoMix_bounds h hr.all lo hi ho hg hs ho' hg' hs'
  unfold rhoGasEff
  split_ifs with hc
  · have := convex_bounds (f := x.mixRho) h.mixRho.1 h.mixRho.2 m1 hg m2 hg'
    constructor <;> linarith [this.1, this.2]
  · obtain ⟨f0, f1⟩ := gasFraction h hc
    exact convex_bounds f0 f1 hg hs hg' hs'

theorem rhoSolventEff_bounds : lo ≤ x.rhoSolventEff ∧ x.rhoSolventEff ≤ hi := by
  obtain ⟨m1, m2⟩ := rhoMix_bounds h hr.all lo hi ho hg hs ho' hg' hs'
  unfold rhoSolventEff
  split_ifs with hc
  · have := convex_bounds (f := x.mixRho) h.mixRho.1 h.mixRho.2 m1 hs m2 hs'
    constructor <;> linarith [this.1, this.2]
  · rcases hr.oilGas with hog | hog
    · obtain ⟨f0, f1⟩ := solventFraction h hr.all hog hc
      obtain ⟨hsum, n1, n2, -, -, -⟩ := solventFraction_eq h hog
      have hmix : lo ≤ x.rhoGas * x.sgf + x.rhoOil * x.sof ∧ x.rhoGas * x.sgf + x.rhoOil * x.sof ≤ hi := by
        have e : x.sof = 1 - x.sgf := by linarith
        cases hb : x.oil with
        | false =>
          have : x.sof = 0 := by
            rw [show x.sof = x.oilEff / (x.oilEff + x.gasEff) from if_pos hog, noOil hb, zero_div]
          have h1 : x.sgf = 1 := by linarith
          rw [this, h1]
          simpa using And.intro hg hg'
        | true =>
          rw [show x.rhoOil = x.densOil by simp [rhoOil, hb], e]
          exact convex_bounds n2 (by linarith) hg (ho hb) hg' (ho' hb)
      have := convex_bounds f0 f1 hs hmix.1 hs' hmix.2
      simp only
      generalize (x.solventOilGasPow - x.oilPow * x.gasPow * x.solventPow / x.solventEffPow) / (x.solventOilGasPow - x.oilPow * x.gasPow) = f at *
      constructor <;> nlinarith [this.1, this.2]
    · have h1 : x.sof = 0 := if_neg (by rw [hog]; exact not_lt.2 cutOff_pos.le)
      have h2 : x.sgf = 0 := if_neg (by rw [hog]; exact not_lt.2 cutOff_pos.le)
      have h3 : x.solventOilGasPow = 0 := by rw [solventOilGasPow, h1, h2]; ring
      have hOG : 0 < x.oilPow * x.gasPow := mul_pos (oilPow_pos h) (gasPow_pos h)
      have hS := solventPow_pos h
      have h4 : (x.solventOilGasPow - x.oilPow * x.gasPow * x.solventPow / x.solventEffPow) / (x.solventOilGasPow - x.oilPow * x.gasPow) = 1 := by
        rw [h3, solventEffPow_alone h hr.all hog, mul_div_assoc, div_self hS.ne', mul_one]
        exact div_self (by linarith)
      simp only [h4, h1, h2]
      constructor <;> linarith

theorem newSolventDensity_bounds : lo ≤ x.newSolventDensity ∧ x.newSolventDensity ≤ hi := by
  obtain ⟨h1, h2⟩ := rhoSolventEff_bounds x h hr lo hi ho hg hs ho' hg' hs'
  unfold newSolventDensity
  rw [blend_mul _ _ _ _ h.denoms.2.2.ne', ← h.rhoSolvent]
  exact convex_bounds h.pmisc.1 h.pmisc.2 h1 hs h2 hs'

theorem newRhoOilEff_bounds (hb : x.oil = true) : lo ≤ x.newRhoOilEff ∧ x.newRhoOilEff ≤ hi := by
  obtain ⟨m1, m2⟩ := rhoMix_bounds h hr.all lo hi ho hg hs ho' hg' hs'
  obtain ⟨s1, s2⟩ := newSolventDensity_bounds x h hr lo hi ho hg hs ho' hg' hs'
  have e : x.rhoOil = x.densOil := by simp [rhoOil, hb]
  unfold newRhoOilEff rhoOilEff
  split_ifs with hc
  · have := convex_bounds (f := x.mixRho) h.mixRho.1 h.mixRho.2 m1 (ho hb) m2 (ho' hb)
    rw [e]
    constructor <;> linarith [this.1, this.2]
  · obtain ⟨f0, f1⟩ := oilFraction h hc
    rw [e]
    exact convex_bounds f0 f1 (ho hb) s1 (ho' hb) s2

end

/-- **C155** (partial: `Regular`, see below for the other cases.)  The densities which the model gives to oil, gas and solvent are between
the smallest and the largest one of the fluids. -/
theorem C155_density_partial (x : Input) (h : Physical x) (hr : Regular x) (lo hi : ℝ) (ho : x.oil = true → lo ≤ x.densOil)
    (hg : lo ≤ x.rhoGas) (hs : lo ≤ x.rhoSolvent) (ho' : x.oil = true → x.densOil ≤ hi) (hg' : x.rhoGas ≤ hi) (hs' : x.rhoSolvent ≤ hi) :
    (lo ≤ (effectiveProperties x).rhoGas ∧ (effectiveProperties x).rhoGas ≤ hi) ∧
    (lo ≤ (effectiveProperties x).rhoSolvent ∧ (effectiveProperties x).rhoSolvent ≤ hi) ∧
    (x.oil = true → lo ≤ (effectiveProperties x).rhoOil ∧ (effectiveProperties x).rhoOil ≤ hi) := by
  unfold effectiveProperties
  split_ifs with hc hb hb
  · exact ⟨⟨hg, hg'⟩, ⟨hs, hs'⟩, fun hb => ⟨ho hb, ho' hb⟩⟩
  · refine ⟨?_, newSolventDensity_bounds x h hr lo hi ho hg hs ho' hg' hs', fun _ => ?_⟩
    · obtain ⟨h1, h2⟩ := rhoGasEff_bounds x h hr lo hi ho hg hs ho' hg' hs'
      rw [blend_mul _ _ _ _ h.denoms.1.ne', ← h.rhoGas]
      exact convex_bounds h.pmisc.1 h.pmisc.2 h1 hg h2 hg'
    · obtain ⟨h1, h2⟩ := newRhoOilEff_bounds x h hr lo hi ho hg hs ho' hg' hs' hb
      simp only
      rw [blend_mul _ _ _ _ h.denoms.2.1.ne', ← h.densOil]
      exact convex_bounds h.pmisc.1 h.pmisc.2 h1 (ho hb) h2 (ho' hb)
  · refine ⟨?_, newSolventDensity_bounds x h hr lo hi ho hg hs ho' hg' hs', fun hb' => absurd hb' hb⟩
    obtain ⟨h1, h2⟩ := rhoGasEff_bounds x h hr lo hi ho hg hs ho' hg' hs'
    rw [blend_mul _ _ _ _ h.denoms.1.ne', ← h.rhoGas]
    exact convex_bounds h.pmisc.1 h.pmisc.2 h1 hg h2 hg'

/-- **C155** (partial: `Regular`.)  The viscosities with which oil, gas and solvent flow are between the smallest and the largest one of the
fluids; mobilities are changed accordingly. -/
theorem C155_viscosity_partial (x : Input) (h : Physical x) (hr : Regular x) (lo hi : ℝ) (hlo : 0 < lo) (ho : x.oil = true → lo ≤ x.viscOil)
    (hg : lo ≤ x.muGas) (hs : lo ≤ x.muSolvent) (ho' : x.oil = true → x.viscOil ≤ hi) (hg' : x.muGas ≤ hi) (hs' : x.muSolvent ≤ hi) :
    (lo ≤ (effectiveProperties x).muSolvent ∧ (effectiveProperties x).muSolvent ≤ hi) ∧
    (∃ mu, lo ≤ mu ∧ mu ≤ hi ∧ (effectiveProperties x).mobGas = x.mobGas * (x.muGas / mu)) ∧
    (x.oil = true → ∃ mu, lo ≤ mu ∧ mu ≤ hi ∧ (effectiveProperties x).mobOil = x.mobOil * (x.viscOil / mu)) := by
  have hi0 : 0 < hi := lt_of_lt_of_le hlo (le_trans hg hg')
  have rl := root_pos hlo
  have rg := root_le hlo.le hg
  have rg' := root_le h.muGas.le hg'
  have rs := root_le hlo.le hs
  have rs' := root_le h.muSolvent.le hs'
  have rho : 0 < min (if x.oil then x.densOil else x.rhoGas) (min x.rhoGas x.rhoSolvent) := by
    have d1 : 0 < x.densOil := by rw [h.densOil]; exact mul_pos h.factors.1 h.denoms.2.1
    have d2 : 0 < x.rhoGas := by rw [h.rhoGas]; exact mul_pos h.factors.2.1 h.denoms.1
    have d3 : 0 < x.rhoSolvent := by rw [h.rhoSolvent]; exact mul_pos h.factors.2.2 h.denoms.2.2
    refine lt_min ?_ (lt_min d2 d3)
    split_ifs
    · exact d1
    · exact d2
  have hlow : ∀ y : ℝ, (∀ lo hi : ℝ, (x.oil = true → lo ≤ x.densOil) → lo ≤ x.rhoGas → lo ≤ x.rhoSolvent → (x.oil = true → x.densOil ≤ hi) →
      x.rhoGas ≤ hi → x.rhoSolvent ≤ hi → lo ≤ y ∧ y ≤ hi) → 0 < y := fun y f => lt_of_lt_of_le rho
    (f (min (if x.oil then x.densOil else x.rhoGas) (min x.rhoGas x.rhoSolvent))
      (max x.densOil (max x.rhoGas x.rhoSolvent)) (fun hb => by rw [if_pos hb]; exact min_le_left _ _)
      (le_trans (min_le_right _ _) (min_le_left _ _)) (le_trans (min_le_right _ _) (min_le_right _ _)) (fun _ => le_max_left _ _)
      (le_trans (le_max_left _ _) (le_max_right _ _)) (le_trans (le_max_right _ _) (le_max_right _ _))).1
  have pg : 0 < x.rhoGasEff := hlow _ (rhoGasEff_bounds x h hr)
  have ps : 0 < x.rhoSolventEff := hlow _ (rhoSolventEff_bounds x h hr)
  have po : x.oil = true → 0 < x.newRhoOilEff := fun hb =>
    hlow _ (fun lo hi a b c d e f => newRhoOilEff_bounds x h hr lo hi a b c d e f hb)
  have gas : lo ≤ x.newMuGas ∧ x.newMuGas ≤ hi := by
    obtain ⟨m1, -, m2⟩ := mixSolventGas_root h
    obtain ⟨m3, m4⟩ := of_root hlo.le m1.le hi0.le (m2 _ _ rl rg rs rg' rs')
    obtain ⟨m5, m6⟩ := interpolate_bounds h.mixMu.1 h.mixMu.2 hlo hg m3 hg' m4
    exact blendMu_bounds h.pmisc.1 h.pmisc.2 (div_pos pg h.denoms.1) h.factors.2.1 hlo m5 hg m6 hg'
  have solvent : lo ≤ x.newMuSolvent ∧ x.newMuSolvent ≤ hi := by
    obtain ⟨m3, m4⟩ := of_root hlo.le (mixAll_root h hr.all).1.le hi0.le (mixAll_bounds h hr.all _ _ rl
      (fun hb => by rw [show x.oilPow = x.viscOil ^ (1 / 4 : ℝ) by simp [oilPow, hb]]; exact root_le hlo.le (ho hb)) rg rs
      (fun hb => by rw [show x.oilPow = x.viscOil ^ (1 / 4 : ℝ) by simp [oilPow, hb]]; exact root_le h.viscOil.le (ho' hb)) rg' rs')
    obtain ⟨m5, m6⟩ := interpolate_bounds h.mixMu.1 h.mixMu.2 hlo hs m3 hs' m4
    exact blendMu_bounds h.pmisc.1 h.pmisc.2 (div_pos ps h.denoms.2.2) h.factors.2.2 hlo m5 hs m6 hs'
  have oil : x.oil = true → lo ≤ x.newMuOil ∧ x.newMuOil ≤ hi := by
    intro hb
    have e : x.muOil = x.viscOil := by simp [muOil, hb]
    have e2 : x.oilPow = x.viscOil ^ (1 / 4 : ℝ) := by simp [oilPow, hb]
    obtain ⟨m1, m2⟩ := mixOilSolvent_root h
    obtain ⟨m3, m4⟩ := of_root hlo.le m1.le hi0.le (m2 _ _ rl (by rw [e2]; exact root_le hlo.le (ho hb)) rs
      (by rw [e2]; exact root_le h.viscOil.le (ho' hb)) rs')
    unfold newMuOil
    rw [e]
    obtain ⟨m5, m6⟩ := interpolate_bounds h.mixMu.1 h.mixMu.2 hlo (ho hb) m3 (ho' hb) m4
    exact blendMu_bounds h.pmisc.1 h.pmisc.2 (div_pos (po hb) h.denoms.2.1) h.factors.1 hlo m5 (ho hb) m6 (ho' hb)
  have v0 : ∀ {a : ℝ}, 0 < a → a / a = 1 := fun ha => div_self ha.ne'
  unfold effectiveProperties
  split_ifs with hc hb hb
  · exact ⟨⟨hs, hs'⟩, ⟨x.muGas, hg, hg', by rw [v0 h.muGas, mul_one]⟩, fun hb => ⟨x.viscOil, ho hb, ho' hb, by rw [v0 h.viscOil, mul_one]⟩⟩
  · exact ⟨solvent, ⟨x.newMuGas, gas.1, gas.2, rfl⟩, fun _ => ⟨x.newMuOil, (oil hb).1, (oil hb).2, by simp [muOil, hb]⟩⟩
  · exact ⟨solvent, ⟨x.newMuGas, gas.1, gas.2, rfl⟩, fun hb' => absurd hb' hb⟩

theorem blend_zero (bE b : ℝ) : blend 0 bE b = b := by simp [blend]

theorem blend_same (p b : ℝ) : blend p b b = b := by unfold blend; ring

theorem blendMu_zero (bE b mE mu : ℝ) (hb : b ≠ 0) : blendMu 0 bE b mE mu = mu := by
  unfold blendMu
  rw [blend_zero, zero_mul, zero_div, zero_add, sub_zero, one_mul, div_div_cancel₀ hb]

theorem blendMu_same (p b mu : ℝ) (hb : b ≠ 0) : blendMu p b b mu mu = mu := by
  unfold blendMu
  rw [← add_div, show p * b + (1 - p) * b = b by ring, blend_same, div_div_cancel₀ hb]

theorem rhoGasEff_zero {x : Input} (h : Physical x) (h0 : x.mixRho = 0) : x.rhoGasEff = x.rhoGas := by
  unfold rhoGasEff
  split_ifs with hc
  · rw [h0]; ring
  · have e : x.gasEffPow = x.gasPow := by unfold gasEffPow; rw [h0, interpolate_zero]; rfl
    have hne : x.solventPow - x.gasPow ≠ 0 := fun he => hc (by rw [he, abs_zero]; exact cutOff_pos)
    simp only
    rw [e, div_self (mul_ne_zero (gasPow_pos h).ne' hne)]
    ring

theorem rhoSolventEff_zero {x : Input} (h : Physical x) (h0 : x.mixRho = 0) : x.rhoSolventEff = x.rhoSolvent := by
  unfold rhoSolventEff
  split_ifs with hc
  · rw [h0]; ring
  · have e : x.solventEffPow = x.solventPow := by unfold solventEffPow; rw [h0, interpolate_zero]; rfl
    have hne : x.solventOilGasPow - x.oilPow * x.gasPow ≠ 0 := fun he => hc (by rw [he, abs_zero]; exact cutOff_pos)
    simp only
    rw [e, mul_div_assoc, div_self (solventPow_pos h).ne', mul_one, div_self hne]
    ring

theorem rhoOilEff_zero {x : Input} (h : Physical x) (h0 : x.mixRho = 0) (rhoS : ℝ) : x.rhoOilEff rhoS = x.rhoOil := by
  unfold rhoOilEff
  split_ifs with hc
  · rw [h0]; ring
  · have e : x.oilEffPow = x.oilPow := by unfold oilEffPow; rw [h0, interpolate_zero]; exact oilPow_eq.symm
    have hne : x.oilPow - x.solventPow ≠ 0 := fun he => hc (by rw [he, abs_zero]; exact cutOff_pos)
    simp only
    rw [e, div_self (mul_ne_zero (oilPow_pos h).ne' hne)]
    ring

/-- **C155**  Nothing is changed where there is no solvent or where solvent and oil do not mix. -/
theorem C155_unchanged (x : Input) (hc : x.miscible = false ∨ x.ss < cutOff ∨ (Physical x ∧ (x.pmisc = 0 ∨ (x.mixMu = 0 ∧ x.mixRho = 0)))) :
    effectiveProperties x = ⟨x.densOil, x.rhoGas, x.rhoSolvent, x.muSolvent, x.mobOil, x.mobGas⟩ := by
  rcases hc with hc | hc | ⟨h, hc⟩
  · unfold effectiveProperties
    rw [if_pos (Or.inl (by simp [hc]))]
  · unfold effectiveProperties
    rw [if_pos (Or.inr hc)]
  · have hbo : x.bo ≠ 0 := h.factors.1.ne'
    have hbg : x.bg ≠ 0 := h.factors.2.1.ne'
    have hbs : x.bs ≠ 0 := h.factors.2.2.ne'
    have dg := h.denoms.1.ne'
    have dO := h.denoms.2.1.ne'
    have ds := h.denoms.2.2.ne'
    have key : blend x.pmisc (x.rhoGasEff / x.gasDenom) x.bg = x.bg ∧ x.newSolventDensity = x.bs * x.solventRef ∧ x.newMuGas = x.muGas ∧
        x.newMuSolvent = x.muSolvent ∧ (x.oil = true → blend x.pmisc (x.newRhoOilEff / x.oilDenom) x.bo = x.bo ∧ x.newMuOil = x.muOil) := by
      rcases hc with h0 | ⟨h0, h1⟩
      · unfold newSolventDensity newMuGas newMuSolvent newMuOil
        rw [h0]
        exact ⟨blend_zero _ _, by rw [blend_zero], blendMu_zero _ _ _ _ hbg, blendMu_zero _ _ _ _ hbs,
          fun _ => ⟨blend_zero _ _, blendMu_zero _ _ _ _ hbo⟩⟩
      · have eg : x.rhoGasEff / x.gasDenom = x.bg := by rw [rhoGasEff_zero h h1, h.rhoGas, mul_div_cancel_right₀ _ dg]
        have es : x.rhoSolventEff / x.solventRef = x.bs := by rw [rhoSolventEff_zero h h1, h.rhoSolvent, mul_div_cancel_right₀ _ ds]
        have eo : x.oil = true → x.newRhoOilEff / x.oilDenom = x.bo := fun hb => by
          unfold newRhoOilEff
          rw [rhoOilEff_zero h h1, show x.rhoOil = x.densOil by simp [rhoOil, hb], h.densOil, mul_div_cancel_right₀ _ dO]
        unfold newSolventDensity newMuGas newMuSolvent newMuOil
        rw [h0, eg, es]
        simp only [interpolate_zero]
        exact ⟨blend_same _ _, by rw [blend_same], blendMu_same _ _ _ hbg, blendMu_same _ _ _ hbs,
          fun hb => by rw [eo hb]; exact ⟨blend_same _ _, blendMu_same _ _ _ hbo⟩⟩
    obtain ⟨k1, k2, k3, k4, k5⟩ := key
    have v0 : ∀ {a : ℝ}, 0 < a → a / a = 1 := fun ha => div_self ha.ne'
    unfold effectiveProperties
    split_ifs with h1 hb hb
    · rfl
    · obtain ⟨k6, k7⟩ := k5 hb
      rw [k1, k2, k3, k4, k6, k7, v0 h.muGas, v0 (muOil_pos h), mul_one, mul_one, ← h.rhoGas, ← h.rhoSolvent, ← h.densOil]
    · rw [k1, k2, k3, k4, v0 h.muGas, mul_one, ← h.rhoGas, ← h.rhoSolvent]

/-- If a mixture is interpolated completely then the fraction is that of the fluid. -/
theorem harmonic_fraction {a b p q : ℝ} (ha : 0 < a) (hb : 0 < b) (hpq : p + q = 1) (hne : a ≠ b) (hD : 0 < p * b + q * a) :
    a * (b - a * b / (p * b + q * a)) / (a * b / (p * b + q * a) * (b - a)) = p := by
  have h1 : b - a ≠ 0 := sub_ne_zero.2 hne.symm
  have hq : q = 1 - p := by linarith
  have e : a * (b - a * b / (p * b + q * a)) = a * b * (p * (b - a)) / (p * b + q * a) := by
    rw [eq_div_iff hD.ne']
    have : a * (b - a * b / (p * b + q * a)) * (p * b + q * a) =
        a * (b * (p * b + q * a) - a * b / (p * b + q * a) * (p * b + q * a)) := by ring
    rw [this, div_mul_cancel₀ _ hD.ne', hq]
    ring
  rw [e, div_mul_eq_mul_div, div_div_div_cancel_right₀ hD.ne']
  rw [div_eq_iff (mul_ne_zero (mul_pos ha hb).ne' h1)]
  ring

/-- The mean of the densities, with effective saturations as weights -/
noncomputable def mean (x : Input) : ℝ :=
  ((if x.oil then x.densOil * x.oilEff else 0) + x.rhoGas * x.gasEff + x.rhoSolvent * x.solventEff) / x.allEff

theorem rhoMix_mean {x : Input} (hr : x.allEff > cutOff) : x.rhoMix = mean x := by
  unfold rhoMix mean rhoOil
  rw [if_pos hr]
  split_ifs <;> ring

theorem rhoSolventEff_one {x : Input} (h : Physical x) (hr : Regular x) (h1 : x.mixRho = 1) : x.rhoSolventEff = mean x := by
  rw [← rhoMix_mean hr.all]
  have ht : 0 < x.allEff := lt_trans cutOff_pos hr.all
  unfold rhoSolventEff
  split_ifs with hc
  · rw [h1]; ring
  · simp only
    rcases hr.oilGas with ho | ho
    · obtain ⟨hs, n1, n2, hD, ha, he⟩ := solventFraction_eq h ho
      have hS := solventPow_pos h
      have hne : x.solventPow ≠ oilGasPow x := by
        intro heq
        apply hc
        rw [he, heq, mul_div_cancel₀ _ ha.ne', sub_self, abs_zero]
        exact cutOff_pos
      obtain ⟨hm, hD3⟩ := mixAll_harmonic h hr.all ho
      rw [solventFraction_form h hr.all ho hne]
      have e : x.solventEffPow = x.mixAll ^ (1 / 4 : ℝ) := by unfold solventEffPow; rw [h1, interpolate_one]
      rw [e, hm, harmonic_fraction hS ha (by ring) hne hD3]
      unfold rhoMix
      rw [if_pos hr.all]
      have w1 : 1 - x.solventEff / x.allEff = (x.oilEff + x.gasEff) / x.allEff := by
        rw [eq_div_iff ht.ne', sub_mul, div_mul_cancel₀ _ ht.ne', allEff]; ring
      have ht' : 0 < x.oilEff + x.gasEff := lt_trans cutOff_pos ho
      rw [w1, show x.sof = x.oilEff / (x.oilEff + x.gasEff) from if_pos ho, show x.sgf = x.gasEff / (x.oilEff + x.gasEff) from if_pos ho]
      field_simp
      ring
    · have o0 : x.oilEff = 0 := by linarith [oilEff_nonneg h, gasEff_nonneg h]
      have g0 : x.gasEff = 0 := by linarith [oilEff_nonneg h, gasEff_nonneg h]
      have hs : x.allEff = x.solventEff := by rw [allEff, o0, g0]; ring
      have h1 : x.sof = 0 := if_neg (by rw [ho]; exact not_lt.2 cutOff_pos.le)
      have h2 : x.sgf = 0 := if_neg (by rw [ho]; exact not_lt.2 cutOff_pos.le)
      have h3 : x.solventOilGasPow = 0 := by rw [solventOilGasPow, h1, h2]; ring
      have hOG : 0 < x.oilPow * x.gasPow := mul_pos (oilPow_pos h) (gasPow_pos h)
      have h4 : (x.solventOilGasPow - x.oilPow * x.gasPow * x.solventPow / x.solventEffPow) / (x.solventOilGasPow - x.oilPow * x.gasPow) = 1 := by
        rw [h3, solventEffPow_alone h hr.all ho, mul_div_assoc, div_self (solventPow_pos h).ne', mul_one]
        exact div_self (by linarith)
      rw [h4, h1, h2]
      unfold rhoMix
      rw [if_pos hr.all, o0, g0, hs] 
      rw [hs] at ht
      rw [mul_div_assoc, mul_div_assoc, mul_div_assoc, div_self ht.ne']
      ring

/-- **C155** (partial: for oil, see `C155_oil_violated`.)  If everything mixes completely then
* the density of the solvent is the mean of the densities of oil, gas and solvent,
* that of gas is the mean of gas and solvent (if their viscosities differ),
* the viscosity of the solvent is given by the quarter power rule for oil, gas and solvent,
* and that of gas by the quarter power rule for gas and solvent.
Weights are the saturations above the critical ones. -/
theorem C155_complete_partial (x : Input) (h : Physical x) (hr : Regular x) (hm : x.miscible = true) (hs : cutOff ≤ x.ss) (h1 : x.mixRho = 1)
    (h2 : x.mixMu = 1) (h3 : x.pmisc = 1) :
    (effectiveProperties x).rhoSolvent =
      ((if x.oil then x.densOil * x.oilEff else 0) + x.rhoGas * x.gasEff + x.rhoSolvent * x.solventEff) / x.allEff ∧
    (x.gasEff + x.solventEff > cutOff → cutOff ≤ |x.muSolvent ^ (1 / 4 : ℝ) - x.muGas ^ (1 / 4 : ℝ)| →
      (effectiveProperties x).rhoGas = (x.rhoGas * x.gasEff + x.rhoSolvent * x.solventEff) / (x.gasEff + x.solventEff)) ∧
    (x.allEff / (effectiveProperties x).muSolvent ^ (1 / 4 : ℝ) = (if x.oil then x.oilEff / x.viscOil ^ (1 / 4 : ℝ) else 0) +
      x.gasEff / x.muGas ^ (1 / 4 : ℝ) + x.solventEff / x.muSolvent ^ (1 / 4 : ℝ)) ∧
    (x.gasEff + x.solventEff > cutOff → ∃ mu, 0 < mu ∧ (effectiveProperties x).mobGas = x.mobGas * (x.muGas / mu) ∧
      (x.gasEff + x.solventEff) / mu ^ (1 / 4 : ℝ) = x.gasEff / x.muGas ^ (1 / 4 : ℝ) + x.solventEff / x.muSolvent ^ (1 / 4 : ℝ)) := by
  have hbr : ¬(!x.miscible ∨ x.ss < cutOff) := by simp [hm, hs]
  have ht : 0 < x.allEff := lt_trans cutOff_pos hr.all
  have hO := oilPow_pos h
  have hG := gasPow_pos h
  have hS := solventPow_pos h
  unfold effectiveProperties
  rw [if_neg hbr]
  simp only
  have bone : ∀ bE b : ℝ, blend 1 bE b = bE := fun bE b => by simp [blend]
  have bmone : ∀ bE b mE mu : ℝ, bE ≠ 0 → blendMu 1 bE b mE mu = mE := fun bE b mE mu hb => by
    unfold blendMu
    rw [bone, sub_self, zero_mul, zero_div, add_zero, one_mul, div_div_cancel₀ hb]
  obtain ⟨m1, m2, m3⟩ := mixAll_root h hr.all
  have d1 : 0 < x.densOil := by rw [h.densOil]; exact mul_pos h.factors.1 h.denoms.2.1
  have d2 : 0 < x.rhoGas := by rw [h.rhoGas]; exact mul_pos h.factors.2.1 h.denoms.1
  have d3 : 0 < x.rhoSolvent := by rw [h.rhoSolvent]; exact mul_pos h.factors.2.2 h.denoms.2.2
  have ps : 0 < x.rhoSolventEff := lt_of_lt_of_le (lt_min d1 (lt_min d2 d3)) (rhoSolventEff_bounds x h hr (min x.densOil (min x.rhoGas x.rhoSolvent))
    (max x.densOil (max x.rhoGas x.rhoSolvent)) (fun _ => min_le_left _ _)
    (le_trans (min_le_right _ _) (min_le_left _ _)) (le_trans (min_le_right _ _) (min_le_right _ _)) (fun _ => le_max_left _ _)
    (le_trans (le_max_left _ _) (le_max_right _ _)) (le_trans (le_max_right _ _) (le_max_right _ _))).1
  have pg : 0 < x.rhoGasEff := lt_of_lt_of_le (lt_min d1 (lt_min d2 d3)) (rhoGasEff_bounds x h hr (min x.densOil (min x.rhoGas x.rhoSolvent))
    (max x.densOil (max x.rhoGas x.rhoSolvent)) (fun _ => min_le_left _ _)
    (le_trans (min_le_right _ _) (min_le_left _ _)) (le_trans (min_le_right _ _) (min_le_right _ _)) (fun _ => le_max_left _ _)
    (le_trans (le_max_left _ _) (le_max_right _ _)) (le_trans (le_max_right _ _) (le_max_right _ _))).1
  obtain ⟨g1, ⟨g2, -⟩, -⟩ := mixSolventGas_root h
  refine ⟨?_, ?_, ?_, ?_⟩
  · unfold newSolventDensity
    rw [h3, bone, div_mul_cancel₀ _ h.denoms.2.2.ne', rhoSolventEff_one h hr h1]
    rfl
  · intro hgs hne
    have hgs' : x.solventEff + x.gasEff > cutOff := by rw [add_comm]; exact hgs
    have ht2 : 0 < x.solventEff + x.gasEff := lt_trans cutOff_pos hgs'
    rw [h3, bone, div_mul_cancel₀ _ h.denoms.1.ne']
    unfold rhoGasEff
    rw [if_neg (show ¬|x.solventPow - x.gasPow| < cutOff from not_lt.2 hne)]
    simp only
    have hne' : x.gasPow ≠ x.solventPow := by
      intro he
      unfold gasPow solventPow at he
      rw [he, sub_self, abs_zero] at hne
      exact absurd cutOff_pos (not_lt.2 hne)
    have e : x.gasEffPow = x.mixSolventGas ^ (1 / 4 : ℝ) := by unfold gasEffPow; rw [h1, interpolate_one]
    have hpq : x.gasEff / (x.solventEff + x.gasEff) + x.solventEff / (x.solventEff + x.gasEff) = 1 := by
      rw [← add_div, add_comm, div_self ht2.ne']
    have hD := (root_mix h.muGas h.muSolvent (div_nonneg (gasEff_nonneg h) ht2.le) (div_nonneg (solventEff_nonneg h) ht2.le) hpq).2
    rw [e, g2 hgs', harmonic_fraction hG hS hpq hne' hD]
    have : 1 - x.gasEff / (x.solventEff + x.gasEff) = x.solventEff / (x.solventEff + x.gasEff) := by linarith
    rw [this, add_comm x.gasEff x.solventEff]
    ring
  · unfold newMuSolvent
    rw [h2, h3, interpolate_one, bmone _ _ _ _ (div_pos ps h.denoms.2.2).ne', m2]
    have e : (if x.oil then x.oilEff / x.viscOil ^ (1 / 4 : ℝ) else 0) = x.oilEff / x.oilPow := by
      cases hb : x.oil with
      | false => simp [noOil hb]
      | true => simp [oilPow, hb]
    rw [e, div_div_eq_mul_div]
    show _ = x.oilEff / x.oilPow + x.gasEff / x.gasPow + x.solventEff / x.solventPow
    field_simp
    ring
  · intro hgs
    have hgs' : x.solventEff + x.gasEff > cutOff := by rw [add_comm]; exact hgs
    have ht2 : 0 < x.solventEff + x.gasEff := lt_trans cutOff_pos hgs'
    refine ⟨x.mixSolventGas, g1, ?_, ?_⟩
    · unfold newMuGas
      rw [h2, h3, interpolate_one, bmone _ _ _ _ (div_pos pg h.denoms.1).ne']
    · rw [g2 hgs', div_div_eq_mul_div]
      show _ = x.gasEff / x.gasPow + x.solventEff / x.solventPow
      rw [add_comm x.gasEff x.solventEff]
      field_simp

/-! ### What does not hold -/

/-- Half oil, half solvent, completely miscible; oil is sixteen times as viscous and twice as dense as solvent. -/
noncomputable def halves : Input :=
  { miscible := true, oil := true, water := false, so := 1 / 2, sg := 0, ss := 1 / 2, sorwmis := 0, sgcwmis := 0, pmisc := 1, mixMu := 1,
    mixRho := 1, viscOil := 16, muGas := 1, muSolvent := 1, densOil := 1, rhoGas := 1 / 2, rhoSolvent := 1 / 2, bo := 1, bg := 1, bs := 1,
    gasDenom := 1 / 2, oilDenom := 1, solventRef := 1 / 2, mobOil := 1, mobGas := 1 }

theorem halves_physical : Physical halves := by
  constructor <;> norm_num [halves]

theorem halves_regular : Regular halves := by
  constructor <;> norm_num [halves, allEff, oilEff, gasEff, solventEff, cutOff]

theorem root_sixteen : (16 : ℝ) ^ (1 / 4 : ℝ) = 2 := by
  rw [show (16 : ℝ) = 2 ^ (4 : ℝ) by norm_num, pow_root (by norm_num)]

/-- **C155**  Violated: with complete mixing the density of oil is the mean of that of oil and of that of the *mixture*, not of oil and solvent: in
the code the name of the density of the solvent refers to a number which has been overwritten by then. -/
theorem C155_oil_violated : ∃ x : Input, Physical x ∧ Regular x ∧ x.oil = true ∧ x.miscible = true ∧ x.pmisc = 1 ∧ x.mixRho = 1 ∧ x.sg = 0 ∧
    x.so = 1 / 2 ∧ x.ss = 1 / 2 ∧ x.water = false ∧
    (effectiveProperties x).rhoOil ≠ (x.densOil * x.so + x.rhoSolvent * x.ss) / (x.so + x.ss) ∧
    (effectiveProperties x).rhoOil ≠ (effectiveProperties x).rhoSolvent := by
  refine ⟨halves, halves_physical, halves_regular, rfl, rfl, rfl, rfl, rfl, rfl, rfl, rfl, ?_⟩
  have hs : (effectiveProperties halves).rhoSolvent = 3 / 4 := by
    rw [(C155_complete_partial halves halves_physical halves_regular rfl (by norm_num [halves, cutOff]) rfl rfl rfl).1]
    norm_num [halves, allEff, oilEff, gasEff, solventEff]
  have hb : ¬(!halves.miscible ∨ halves.ss < cutOff) := by norm_num [halves, cutOff]
  have hs' : halves.newSolventDensity = 3 / 4 := by
    rw [← hs]; unfold effectiveProperties; rw [if_neg hb]
  have o2 : halves.oilPow = 2 := by unfold oilPow; rw [if_pos (show halves.oil = true from rfl)]; exact root_sixteen
  have s1 : halves.solventPow = 1 := by simp [solventPow, halves]
  have oe : halves.oilEff = 1 / 2 := by norm_num [halves, oilEff]
  have se : halves.solventEff = 1 / 2 := by norm_num [halves, solventEff]
  have mix : halves.mixOilSolvent ^ (1 / 4 : ℝ) = 4 / 3 := by
    unfold mixOilSolvent
    rw [oe, se, o2, s1, if_pos (show halves.oil = true from rfl), if_pos (by norm_num [cutOff])]
    rw [show halves.viscOil * (halves.muSolvent / ((1 / 2 : ℝ) / (1 / 2 + 1 / 2) * 1 + 1 / 2 / (1 / 2 + 1 / 2) * 2) ^ (4 : ℝ)) = (4 / 3) ^ (4 : ℝ) by
      norm_num [halves]]
    exact pow_root (by norm_num)
  have ee : halves.oilEffPow = 4 / 3 := by
    unfold oilEffPow
    rw [show halves.mixRho = 1 from rfl, interpolate_one, mix]
  have ho : (effectiveProperties halves).rhoOil = 7 / 8 := by
    unfold effectiveProperties
    rw [if_neg hb]
    simp only
    rw [if_pos (show halves.oil = true from rfl)]
    have : halves.newRhoOilEff = 7 / 8 := by
      unfold newRhoOilEff rhoOilEff
      rw [o2, s1, ee, hs', if_neg (by norm_num [cutOff])]
      norm_num [halves, rhoOil]
    rw [this]
    norm_num [halves, blend]
  rw [ho, hs]
  norm_num [halves]

/-- Solvent below its critical saturation next to residual oil -/
noncomputable def residual (oil : Bool) (muSolvent mixMu mixRho : ℝ) : Input :=
  { miscible := true, oil := oil, water := true, so := 0, sg := 0, ss := 1 / 10, sorwmis := 0, sgcwmis := 1 / 5, pmisc := 1, mixMu := mixMu,
    mixRho := mixRho, viscOil := 16, muGas := 1, muSolvent := muSolvent, densOil := 1, rhoGas := 1, rhoSolvent := 1, bo := 1, bg := 1,
    bs := 1, gasDenom := 1, oilDenom := 1, solventRef := 1, mobOil := 1, mobGas := 1 }

theorem residual_eff (oil : Bool) (m a b : ℝ) : (residual oil m a b).oilEff = 0 ∧ (residual oil m a b).gasEff = 0 ∧
    (residual oil m a b).solventEff = 0 ∧ (residual oil m a b).allEff = 0 := by
  have h1 : (residual oil m a b).oilEff = 0 := by cases oil <;> norm_num [residual, oilEff]
  have h2 : (residual oil m a b).gasEff = 0 := by norm_num [residual, gasEff]
  have h3 : (residual oil m a b).solventEff = 0 := by norm_num [residual, solventEff]
  exact ⟨h1, h2, h3, by rw [allEff, h1, h2, h3]; norm_num⟩

/-- **C155**  Violated without `Regular`: if all fluids are below their critical saturations then the effective density of the solvent may be half
of the density which all three of them have. -/
theorem C155_density_violated : ∃ x : Input, Physical x ∧ x.oil = true ∧ x.densOil = 1 ∧ x.rhoGas = 1 ∧ x.rhoSolvent = 1 ∧
    (effectiveProperties x).rhoSolvent = 1 / 2 := by
  obtain ⟨h1, h2, h3, h4⟩ := residual_eff true 1 1 1
  refine ⟨residual true 1 1 1, ?_, rfl, rfl, rfl, rfl, ?_⟩
  · constructor <;> norm_num [residual]
  · have hb : ¬(!(residual true 1 1 1).miscible ∨ (residual true 1 1 1).ss < cutOff) := by norm_num [residual, cutOff]
    have cp : ¬(0 : ℝ) > cutOff := not_lt.2 cutOff_pos.le
    have o2 : (residual true 1 1 1).oilPow = 2 := by unfold oilPow; rw [if_pos (show (residual true 1 1 1).oil = true from rfl)]; exact root_sixteen
    have s1 : (residual true 1 1 1).solventPow = 1 := by simp [solventPow, residual]
    have g1 : (residual true 1 1 1).gasPow = 1 := by simp [gasPow, residual]
    have e1 : (residual true 1 1 1).sof = 0 := by unfold sof; rw [h1, h2, add_zero, if_neg cp]
    have e2 : (residual true 1 1 1).sgf = 0 := by unfold sgf; rw [h1, h2, add_zero, if_neg cp]
    have e3 : (residual true 1 1 1).solventOilGasPow = 0 := by unfold solventOilGasPow; rw [e1, e2]; ring
    have e4 : (residual true 1 1 1).solventEffPow = 2 := by
      unfold solventEffPow mixAll
      rw [h4, if_neg cp, show (residual true 1 1 1).mixRho = 1 from rfl, interpolate_one]
      show (if (true : Bool) = true then (16 : ℝ) else 1) ^ (1 / 4 : ℝ) = 2
      rw [if_pos rfl, root_sixteen]
    unfold effectiveProperties
    rw [if_neg hb]
    simp only
    unfold newSolventDensity rhoSolventEff
    rw [e1, e2, e3, e4, o2, s1, g1, if_neg (by norm_num [cutOff])]
    norm_num [residual, blend]

/-- **C155**  Violated without `Regular`: without oil, and gas and solvent below their critical saturations, the viscosity of the solvent is
1 Pa s, whatever the viscosities are. -/
theorem C155_viscosity_violated : ∃ x : Input, Physical x ∧ x.oil = false ∧ x.muGas = 1 ∧ x.muSolvent = 1 / 16 ∧ (effectiveProperties x).muSolvent = 1 := by
  obtain ⟨h1, h2, h3, h4⟩ := residual_eff false (1 / 16) 1 0
  have hp : Physical (residual false (1 / 16) 1 0) := by constructor <;> norm_num [residual]
  refine ⟨residual false (1 / 16) 1 0, hp, rfl, rfl, rfl, ?_⟩
  have hb : ¬(!(residual false (1 / 16) 1 0).miscible ∨ (residual false (1 / 16) 1 0).ss < cutOff) := by norm_num [residual, cutOff]
  have cp : ¬(0 : ℝ) > cutOff := not_lt.2 cutOff_pos.le
  unfold effectiveProperties
  rw [if_neg hb]
  simp only
  unfold newMuSolvent
  rw [rhoSolventEff_zero hp rfl, show (residual false (1 / 16) 1 0).mixMu = 1 from rfl, interpolate_one]
  unfold mixAll
  rw [h4, if_neg cp]
  norm_num [residual, blendMu, blend, muOil]

/-- Hypotheses can be met. -/
example : ∃ x : Input, Physical x ∧ Regular x ∧ x.oil = true ∧ x.mixMu = 1 ∧ x.pmisc = 1 ∧ (effectiveProperties x).rhoSolvent = 3 / 4 ∧
    1 / 2 ≤ x.rhoSolvent ∧ x.densOil ≤ 1 := by
  refine ⟨halves, halves_physical, halves_regular, rfl, rfl, rfl, ?_, by norm_num [halves], by norm_num [halves]⟩
  rw [(C155_complete_partial halves halves_physical halves_regular rfl (by norm_num [halves, cutOff]) rfl rfl rfl).1]
  norm_num [halves, allEff, oilEff, gasEff, solventEff]

end Verif.Todd
