import Verif.Extend.ToddLemmas
import Verif.Extend.ToddSpec

set_option autoImplicit false
/-
Lemmas about the densities and viscosities of the Todd-Longstaff mixture, for C122.
-/
namespace Verif.Extend.TL

variable {i : In} {lo hi rlo rhi : ℝ}

theorem Sound.oilEff (h : Sound i lo hi rlo rhi) : 0 ≤ oilEffSat i := by
  unfold oilEffSat
  simp only [h.oil, if_true]
  split
  · exact le_max_right _ _
  · exact h.so

theorem Sound.gasEff (h : Sound i lo hi rlo rhi) : 0 ≤ gasEffSat i := by
  unfold gasEffSat; split
  · exact le_max_right _ _
  · exact h.sg

theorem Sound.solventEff (h : Sound i lo hi rlo rhi) : 0 ≤ solventEffSat i := by
  unfold solventEffSat; split
  · exact le_max_right _ _
  · exact h.ss

theorem Sound.mu_oil (h : Sound i lo hi rlo rhi) : TL.muOil i = i.muOil := by unfold TL.muOil; rw [h.oil]; rfl

theorem Sound.mixGas (h : Sound i lo hi rlo rhi) : lo ≤ muMixSolventGas i ∧ muMixSolventGas i ≤ hi :=
  mix2_bounds h.gasEff h.solventEff h.lo_pos h.muGas h.muSolvent

theorem Sound.mixOil (h : Sound i lo hi rlo rhi) : lo ≤ muMixOilSolvent i ∧ muMixOilSolvent i ≤ hi := by
  unfold muMixOilSolvent; rw [h.oil]
  exact mix2_bounds h.oilEff h.solventEff h.lo_pos h.muOil h.muSolvent

theorem Sound.total_pos (h : Sound i lo hi rlo rhi) : 0 < TL.total i := lt_trans cutOff_pos h.total

theorem Sound.fractions (h : Sound i lo hi rlo rhi) :
    oilEffSat i / TL.total i + solventEffSat i / TL.total i + gasEffSat i / TL.total i = 1 := by
  have := h.total_pos.ne'
  rw [← add_div, ← add_div, div_eq_one_iff_eq this]; unfold TL.total; ring

/-- The quarter power of the viscosity of the mixture of all three. -/
noncomputable def quarterMix3 (i : In) : ℝ :=
  quarter i.muOil * quarter i.muSolvent * quarter i.muGas /
    (oilEffSat i / total i * quarter i.muSolvent * quarter i.muGas + solventEffSat i / total i * quarter i.muOil * quarter i.muGas
      + gasEffSat i / total i * quarter i.muSolvent * quarter i.muOil)

theorem Sound.mix3 (h : Sound i lo hi rlo rhi) : muMixSolventGasOil i = quarterMix3 i ^ 4 := by
  unfold muMixSolventGasOil
  rw [if_pos h.total, h.mu_oil]
  exact mix3_eq (lt_of_lt_of_le h.lo_pos h.muOil.1) (lt_of_lt_of_le h.lo_pos h.muSolvent.1) (lt_of_lt_of_le h.lo_pos h.muGas.1)

theorem Sound.mix3_bounds (h : Sound i lo hi rlo rhi) : lo ≤ muMixSolventGasOil i ∧ muMixSolventGasOil i ≤ hi := by
  rw [h.mix3]
  have po := lt_of_lt_of_le h.lo_pos h.muOil.1
  have ps := lt_of_lt_of_le h.lo_pos h.muSolvent.1
  have pg := lt_of_lt_of_le h.lo_pos h.muGas.1
  have hb := harmonic3 (quarter_pos po) (quarter_pos ps) (quarter_pos pg) (div_nonneg h.oilEff h.total_pos.le)
    (div_nonneg h.solventEff h.total_pos.le) (div_nonneg h.gasEff h.total_pos.le) h.fractions (quarter_pos h.lo_pos)
    (Or.inr ⟨quarter_mono h.lo_pos h.muOil.1, quarter_mono po h.muOil.2⟩)
    ⟨quarter_mono h.lo_pos h.muSolvent.1, quarter_mono ps h.muSolvent.2⟩ ⟨quarter_mono h.lo_pos h.muGas.1, quarter_mono pg h.muGas.2⟩
  exact pow4_bounds (quarter_pos h.lo_pos) hb.2.1 hb.2.2 (quarter_pow h.lo_pos) (quarter_pow (by linarith [h.muOil.2]))

theorem Sound.rhoMix (h : Sound i lo hi rlo rhi) : rlo ≤ TL.rhoMix i ∧ TL.rhoMix i ≤ rhi := by
  unfold TL.rhoMix
  rw [if_pos h.total, h.oil, if_pos rfl, ← add_div, ← add_div]
  have hp := h.total_pos
  have a := mul_le_mul_of_nonneg_right h.rhoOil.1 h.oilEff
  have b := mul_le_mul_of_nonneg_right h.rhoGas.1 h.gasEff
  have c := mul_le_mul_of_nonneg_right h.rhoSolvent.1 h.solventEff
  have a' := mul_le_mul_of_nonneg_right h.rhoOil.2 h.oilEff
  have b' := mul_le_mul_of_nonneg_right h.rhoGas.2 h.gasEff
  have c' := mul_le_mul_of_nonneg_right h.rhoSolvent.2 h.solventEff
  constructor
  · rw [le_div_iff₀ hp]; unfold TL.total; linarith
  · rw [div_le_iff₀ hp]; unfold TL.total; linarith

/-- Between the quarter powers of the two viscosities lies that of their blended mixture. -/
theorem quarter_blend {s1 sS mu1 muS omega : ℝ} (h1 : 0 ≤ s1) (hS : 0 ≤ sS) (p1 : 0 < mu1) (pS : 0 < muS) (h0 : 0 ≤ omega)
    (hle : omega ≤ 1) :
    0 < quarter (blend omega mu1 (mix2 s1 sS mu1 muS)) ∧
    min (quarter mu1) (quarter muS) ≤ quarter (blend omega mu1 (mix2 s1 sS mu1 muS)) ∧
    quarter (blend omega mu1 (mix2 s1 sS mu1 muS)) ≤ max (quarter mu1) (quarter muS) := by
  have pm : 0 < min mu1 muS := lt_min p1 pS
  have hm := mix2_bounds h1 hS pm ⟨min_le_left mu1 muS, le_max_left mu1 muS⟩ ⟨min_le_right mu1 muS, le_max_right mu1 muS⟩
  have hb := blend_bounds h0 hle pm (min_le_left mu1 muS) (le_max_left mu1 muS) hm.1 hm.2
  have pb := lt_of_lt_of_le pm hb.1
  refine ⟨quarter_pos pb, ?_, ?_⟩
  · rcases le_total mu1 muS with h | h
    · rw [min_eq_left h] at hb; exact le_trans (min_le_left _ _) (quarter_mono p1 hb.1)
    · rw [min_eq_right h] at hb; exact le_trans (min_le_right _ _) (quarter_mono pS hb.1)
  · rcases le_total mu1 muS with h | h
    · rw [max_eq_right h] at hb; exact le_trans (quarter_mono pb hb.2) (le_max_right _ _)
    · rw [max_eq_left h] at hb; exact le_trans (quarter_mono pb hb.2) (le_max_left _ _)

theorem ne_of_far {a b : ℝ} (h : ¬ |a - b| < cutOff) : a ≠ b := by
  rintro rfl; apply h; simp [cutOff_pos]

theorem Sound.mean (h : Sound i lo hi rlo rhi) {rho : ℝ} (hr : rlo ≤ rho ∧ rho ≤ rhi) :
    rlo ≤ (1 - i.omegaRho) * rho + i.omegaRho * TL.rhoMix i ∧ (1 - i.omegaRho) * rho + i.omegaRho * TL.rhoMix i ≤ rhi := by
  have := convex2 h.omegaRho.1 h.omegaRho.2 h.rhoMix hr
  constructor <;> nlinarith

theorem Sound.rhoGasEff (h : Sound i lo hi rlo rhi) : rlo ≤ TL.rhoGasEff i ∧ TL.rhoGasEff i ≤ rhi := by
  unfold TL.rhoGasEff
  have pg := lt_of_lt_of_le h.lo_pos h.muGas.1
  have ps := lt_of_lt_of_le h.lo_pos h.muSolvent.1
  simp only
  split
  case isTrue => exact h.mean h.rhoGas
  case isFalse hc =>
    have hb := quarter_blend h.gasEff h.solventEff pg ps h.omegaRho.1 h.omegaRho.2
    have hf := fraction_bounds (quarter_pos pg) (quarter_pos ps) hb.1 (ne_of_far hc).symm hb.2.1 hb.2.2
    exact convex2 hf.1 hf.2 h.rhoGas h.rhoSolvent

theorem Sound.rhoOilEff (h : Sound i lo hi rlo rhi) {r : ℝ} (hr : rlo ≤ r ∧ r ≤ rhi) :
    rlo ≤ TL.rhoOilEff i r ∧ TL.rhoOilEff i r ≤ rhi := by
  unfold TL.rhoOilEff
  have po := lt_of_lt_of_le h.lo_pos h.muOil.1
  have ps := lt_of_lt_of_le h.lo_pos h.muSolvent.1
  simp only
  split
  case isTrue => exact h.mean h.rhoOil
  case isFalse hc =>
    have hb := quarter_blend h.oilEff h.solventEff po ps h.omegaRho.1 h.omegaRho.2
    rw [h.mu_oil] at hc ⊢
    have he : muMixOilSolvent i = mix2 (oilEffSat i) (solventEffSat i) i.muOil i.muSolvent := by
      unfold muMixOilSolvent; rw [h.oil]; rfl
    rw [he]
    have hf := fraction_bounds (quarter_pos po) (quarter_pos ps) hb.1 (ne_of_far hc) hb.2.1 hb.2.2
    have e1 : ∀ o s e : ℝ, o * (s - e) / (e * (s - o)) = o * (e - s) / (e * (o - s)) := fun o s e => by
      rw [← neg_div_neg_eq]; congr 1 <;> ring
    rw [e1] at hf
    exact convex2 hf.1 hf.2 h.rhoOil hr

/-- `rpow` form of the quarter power of a blend. -/
theorem quarter_blend_eq {omega mu m : ℝ} (hmu : 0 < mu) (hm : 0 < m) :
    quarter (blend omega mu (m ^ 4)) = quarter mu ^ (1 - omega) * m ^ omega := by
  unfold blend
  conv_lhs => rw [← quarter_pow hmu]
  have q := quarter_pos hmu
  rw [← Real.rpow_natCast, ← Real.rpow_natCast, ← Real.rpow_mul q.le, ← Real.rpow_mul hm.le]
  generalize quarter mu = r at q ⊢
  unfold quarter
  rw [Real.mul_rpow (Real.rpow_pos_of_pos q _).le (Real.rpow_pos_of_pos hm _).le]
  rw [← Real.rpow_mul q.le, ← Real.rpow_mul hm.le]
  congr 2 <;> push_cast <;> ring

/-- A fraction of the way from `p` to `t` for a number between `p` and `(1 - x) t + x p`. -/
theorem way {t p X x : ℝ} (hx0 : 0 ≤ x) (hx1 : x ≤ 1) (hne : t ≠ p)
    (hb : min p ((1 - x) * t + x * p) ≤ X ∧ X ≤ max p ((1 - x) * t + x * p)) :
    0 ≤ (t - X) / (t - p) ∧ (t - X) / (t - p) ≤ 1 := by
  rcases lt_or_gt_of_ne hne with h | h
  · have h1 : (1 - x) * t + x * p ≤ p := by nlinarith
    rw [min_eq_right h1, max_eq_left h1] at hb
    have : (t - X) / (t - p) = (X - t) / (p - t) := by rw [← neg_div_neg_eq]; congr 1 <;> ring
    rw [this]
    have hp : 0 < p - t := by linarith
    refine ⟨div_nonneg ?_ hp.le, ?_⟩
    · nlinarith
    · rw [div_le_one hp]; linarith
  · have h1 : p ≤ (1 - x) * t + x * p := by nlinarith
    rw [min_eq_left h1, max_eq_right h1] at hb
    have hp : 0 < t - p := by linarith
    refine ⟨div_nonneg ?_ hp.le, ?_⟩
    · nlinarith
    · rw [div_le_one hp]; linarith

theorem inv_between {c s m e : ℝ} (hc : 0 < c) (hs : 0 < s) (hm : 0 < m) (he : min s m ≤ e ∧ e ≤ max s m) :
    min (c / s) (c / m) ≤ c / e ∧ c / e ≤ max (c / s) (c / m) := by
  have pe : 0 < e := lt_of_lt_of_le (lt_min hs hm) he.1
  rcases le_total s m with h | h
  · rw [min_eq_left h, max_eq_right h] at he
    exact ⟨le_trans (min_le_right _ _) (div_le_div_of_nonneg_left hc.le pe he.2),
      le_trans (div_le_div_of_nonneg_left hc.le hs he.1) (le_max_left _ _)⟩
  · rw [min_eq_right h, max_eq_left h] at he
    exact ⟨le_trans (min_le_left _ _) (div_le_div_of_nonneg_left hc.le pe he.2),
      le_trans (div_le_div_of_nonneg_left hc.le hm he.1) (le_max_right _ _)⟩

theorem Sound.quarterMix3_pos (h : Sound i lo hi rlo rhi) :
    0 < oilEffSat i / TL.total i * quarter i.muSolvent * quarter i.muGas
        + solventEffSat i / TL.total i * quarter i.muOil * quarter i.muGas
        + gasEffSat i / TL.total i * quarter i.muSolvent * quarter i.muOil ∧ 0 < quarterMix3 i := by
  have po := quarter_pos (lt_of_lt_of_le h.lo_pos h.muOil.1)
  have ps := quarter_pos (lt_of_lt_of_le h.lo_pos h.muSolvent.1)
  have pg := quarter_pos (lt_of_lt_of_le h.lo_pos h.muGas.1)
  have hb := harmonic3 (l := min (quarter i.muOil) (min (quarter i.muSolvent) (quarter i.muGas)))
    (h := max (quarter i.muOil) (max (quarter i.muSolvent) (quarter i.muGas))) po ps pg (div_nonneg h.oilEff h.total_pos.le)
    (div_nonneg h.solventEff h.total_pos.le) (div_nonneg h.gasEff h.total_pos.le) h.fractions (lt_min po (lt_min ps pg))
    (Or.inr ⟨by simp, by simp⟩) ⟨by simp, by simp⟩ ⟨by simp, by simp⟩
  exact ⟨hb.1, div_pos (mul_pos (mul_pos po ps) pg) hb.1⟩

/-- The product of the three quarter powers, divided by that of the mixture, is what mixing all oil and gas gives, combined with
what mixing nothing gives. -/
theorem Sound.solvent_line (h : Sound i lo hi rlo rhi) :
    quarter i.muOil * quarter i.muGas * quarter i.muSolvent / quarterMix3 i =
      (1 - solventEffSat i / TL.total i) * solventOilGasPow i
        + solventEffSat i / TL.total i * (quarter i.muOil * quarter i.muGas) := by
  have po := quarter_pos (lt_of_lt_of_le h.lo_pos h.muOil.1)
  have ps := quarter_pos (lt_of_lt_of_le h.lo_pos h.muSolvent.1)
  have pg := quarter_pos (lt_of_lt_of_le h.lo_pos h.muGas.1)
  have hd := h.quarterMix3_pos.1
  have e0 : quarter i.muOil * quarter i.muGas * quarter i.muSolvent / quarterMix3 i =
      oilEffSat i / TL.total i * quarter i.muSolvent * quarter i.muGas
        + solventEffSat i / TL.total i * quarter i.muOil * quarter i.muGas
        + gasEffSat i / TL.total i * quarter i.muSolvent * quarter i.muOil := by
    unfold quarterMix3
    generalize oilEffSat i / TL.total i * quarter i.muSolvent * quarter i.muGas
        + solventEffSat i / TL.total i * quarter i.muOil * quarter i.muGas
        + gasEffSat i / TL.total i * quarter i.muSolvent * quarter i.muOil = d at hd
    field_simp
  rw [e0]
  unfold solventOilGasPow
  rw [h.mu_oil]
  have hx := h.fractions
  rcases h.hydrocarbon with h0 | h0
  · have ho : oilEffSat i = 0 := by have := h.oilEff; have := h.gasEff; linarith
    have hg : gasEffSat i = 0 := by have := h.oilEff; have := h.gasEff; linarith
    rw [ho, hg] at hx ⊢
    simp only [zero_div, zero_add, add_zero, zero_mul] at hx ⊢
    rw [hx]; ring
  · have hp : 0 < oilEffSat i + gasEffSat i := lt_trans cutOff_pos h0
    have e1 : 1 - solventEffSat i / TL.total i = (oilEffSat i + gasEffSat i) / TL.total i := by rw [add_div]; linarith
    rw [e1]
    unfold sgf sof
    rw [if_pos h0, if_pos h0]
    have := h.total_pos.ne'
    field_simp
    ring

theorem Sound.rhoSolventEff (h : Sound i lo hi rlo rhi) : rlo ≤ TL.rhoSolventEff i ∧ TL.rhoSolventEff i ≤ rhi := by
  unfold TL.rhoSolventEff
  have po := quarter_pos (lt_of_lt_of_le h.lo_pos h.muOil.1)
  have ps' := lt_of_lt_of_le h.lo_pos h.muSolvent.1
  have ps := quarter_pos ps'
  have pg := quarter_pos (lt_of_lt_of_le h.lo_pos h.muGas.1)
  simp only [h.mu_oil]
  split
  case isTrue => exact h.mean h.rhoSolvent
  case isFalse hc =>
    have hm := h.quarterMix3_pos.2
    have hx0 : 0 ≤ solventEffSat i / TL.total i := div_nonneg h.solventEff h.total_pos.le
    have hx1 : solventEffSat i / TL.total i ≤ 1 := by
      rw [div_le_one h.total_pos]; unfold TL.total; linarith [h.oilEff, h.gasEff]
    have he : min (quarter i.muSolvent) (quarterMix3 i) ≤ quarter (blend i.omegaRho i.muSolvent (muMixSolventGasOil i)) ∧
        quarter (blend i.omegaRho i.muSolvent (muMixSolventGasOil i)) ≤ max (quarter i.muSolvent) (quarterMix3 i) := by
      rw [h.mix3, quarter_blend_eq ps' hm]
      exact blend_bounds h.omegaRho.1 h.omegaRho.2 (lt_min ps hm) (min_le_left _ _) (le_max_left _ _) (min_le_right _ _)
        (le_max_right _ _)
    have hX := inv_between (mul_pos (mul_pos po pg) ps) ps hm he
    rw [h.solvent_line, mul_div_assoc (quarter i.muOil * quarter i.muGas), div_self ps.ne', mul_one] at hX
    have hf := way hx0 hx1 (ne_of_far hc) hX
    rcases h.hydrocarbon with h0 | h0
    · -- only solvent: the fraction is one
      have ho : oilEffSat i = 0 := by have := h.oilEff; have := h.gasEff; linarith
      have hg : gasEffSat i = 0 := by have := h.oilEff; have := h.gasEff; linarith
      have hs1 : solventEffSat i / TL.total i = 1 := by have := h.fractions; rw [ho, hg] at this; simpa using this
      have hT : solventOilGasPow i = 0 := by unfold solventOilGasPow sgf sof; rw [ho, hg]; simp
      have hn : sgf i = 0 ∧ sof i = 0 := by unfold sgf sof; rw [ho, hg]; simp
      rw [hs1, hT] at hX
      simp only [sub_self, zero_mul, zero_add, one_mul, min_self, max_self] at hX
      have hXe := le_antisymm hX.2 hX.1
      rw [hn.1, hn.2, hT]
      have e : (0 - quarter i.muOil * quarter i.muGas * quarter i.muSolvent /
          quarter (blend i.omegaRho i.muSolvent (muMixSolventGasOil i))) / (0 - quarter i.muOil * quarter i.muGas) = 1 := by
        rw [hXe]; exact div_self (by have := mul_pos po pg; linarith)
      rw [e]
      simpa using h.rhoSolvent
    · have hp : 0 < oilEffSat i + gasEffSat i := lt_trans cutOff_pos h0
      have hsum : sgf i + sof i = 1 := by
        unfold sgf sof; rw [if_pos h0, if_pos h0, ← add_div, add_comm, div_self hp.ne']
      have hsg : 0 ≤ sgf i := by unfold sgf; rw [if_pos h0]; exact div_nonneg h.gasEff hp.le
      have hso : 0 ≤ sof i := by unfold sof; rw [if_pos h0]; exact div_nonneg h.oilEff hp.le
      have hin : rlo ≤ i.rhoGas * sgf i + i.rhoOil * sof i ∧ i.rhoGas * sgf i + i.rhoOil * sof i ≤ rhi := by
        have e : sof i = 1 - sgf i := by linarith
        rw [e]
        exact convex2 hsg (by linarith) h.rhoGas h.rhoOil
      have := convex2 hf.1 hf.2 h.rhoSolvent hin
      rw [h.oil]
      simp only [if_true]
      constructor
      · refine le_trans this.1 (le_of_eq ?_); ring
      · refine le_trans (le_of_eq ?_) this.2; ring

end Verif.Extend.TL
