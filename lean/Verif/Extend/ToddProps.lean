import Verif.Extend.ToddDensity
import Mathlib.Tactic.NormNum

set_option autoImplicit false
/-
C122: where a solvent mixes with oil and gas, the effective densities and viscosities stay between those of the pure fluids.
-/
namespace Verif.Extend.TL

variable {i : In} {lo hi rlo rhi : ℝ}

theorem mul_ref {x ref : ℝ} (h : 0 < ref) : x / ref * ref = x := div_mul_cancel₀ x h.ne'

theorem outBounds {pm rEff b ref rho : ℝ} (h0 : 0 ≤ pm) (h1 : pm ≤ 1) (hr : 0 < ref ∧ b * ref = rho)
    (he : rlo ≤ rEff ∧ rEff ≤ rhi) (hb : rlo ≤ rho ∧ rho ≤ rhi) :
    rlo ≤ (pm * (rEff / ref) + (1 - pm) * b) * ref ∧ (pm * (rEff / ref) + (1 - pm) * b) * ref ≤ rhi := by
  have e : (pm * (rEff / ref) + (1 - pm) * b) * ref = rEff * pm + rho * (1 - pm) := by
    rw [add_mul, mul_assoc, mul_ref hr.1, mul_assoc, hr.2]; ring
  rw [e]; exact convex2 h0 h1 he hb

theorem b_pos {b ref rho r : ℝ} (hr : 0 < ref ∧ b * ref = rho) (h : 0 < r) (hb : r ≤ rho) : 0 < b := by
  by_contra hn
  push Not at hn
  have := mul_nonpos_of_nonpos_of_nonneg hn hr.1.le
  linarith [hr.2]

theorem mob_eq {mob mu muE : ℝ} (h : 0 < muE) : mob * (mu / muE) * muE = mob * mu := by field_simp

/-- C122: the effective densities of oil, gas and solvent lie between those of the pure fluids. -/
theorem C122_densities_partial (m : Bool) (h : Sound i lo hi rlo rhi) :
    (rlo ≤ (effectiveProperties m i).rhoGas ∧ (effectiveProperties m i).rhoGas ≤ rhi) ∧
    (rlo ≤ (effectiveProperties m i).rhoSolvent ∧ (effectiveProperties m i).rhoSolvent ≤ rhi) ∧
    (rlo ≤ (effectiveProperties m i).rhoOil ∧ (effectiveProperties m i).rhoOil ≤ rhi) := by
  unfold effectiveProperties
  split
  · exact ⟨h.rhoGas, h.rhoSolvent, h.rhoOil⟩
  · simp only [h.oil, if_true]
    have hs := outBounds h.pmisc.1 h.pmisc.2 h.refSolvent h.rhoSolventEff h.rhoSolvent
    exact ⟨outBounds h.pmisc.1 h.pmisc.2 h.refGas h.rhoGasEff h.rhoGas, hs,
      outBounds h.pmisc.1 h.pmisc.2 h.refOil (h.rhoOilEff hs) h.rhoOil⟩

/-- C122: the viscosities of the mixed fluids lie between those of the pure fluids: the mobility of each phase, multiplied with a
viscosity in between, is the relative permeability it had before. -/
theorem C122_viscosities_partial (m : Bool) (h : Sound i lo hi rlo rhi) :
    (∃ mu, lo ≤ mu ∧ mu ≤ hi ∧ (effectiveProperties m i).mobGas * mu = i.mobGas * i.muGas) ∧
    (∃ mu, lo ≤ mu ∧ mu ≤ hi ∧ (effectiveProperties m i).mobOil * mu = i.mobOil * i.muOil) ∧
    (lo ≤ (effectiveProperties m i).muSolvent ∧ (effectiveProperties m i).muSolvent ≤ hi) := by
  unfold effectiveProperties
  split
  · exact ⟨⟨_, h.muGas.1, h.muGas.2, rfl⟩, ⟨_, h.muOil.1, h.muOil.2, rfl⟩, h.muSolvent⟩
  · simp only [h.oil, if_true]
    have hs := outBounds h.pmisc.1 h.pmisc.2 h.refSolvent h.rhoSolventEff h.rhoSolvent
    have pos : ∀ {x ref : ℝ}, rlo ≤ x → 0 < ref → 0 < x / ref := fun hx hr => div_pos (lt_of_lt_of_le h.rlo_pos hx) hr
    have bg := interpolate_bounds h.pmisc.1 h.pmisc.2 (pos h.rhoGasEff.1 h.refGas.1) (b_pos h.refGas h.rlo_pos h.rhoGas.1) h.lo_pos
      h.muGas (blend_bounds h.omegaMu.1 h.omegaMu.2 h.lo_pos h.muGas.1 h.muGas.2 h.mixGas.1 h.mixGas.2)
    have bs := interpolate_bounds h.pmisc.1 h.pmisc.2 (pos h.rhoSolventEff.1 h.refSolvent.1)
      (b_pos h.refSolvent h.rlo_pos h.rhoSolvent.1) h.lo_pos h.muSolvent
      (blend_bounds h.omegaMu.1 h.omegaMu.2 h.lo_pos h.muSolvent.1 h.muSolvent.2 h.mix3_bounds.1 h.mix3_bounds.2)
    have bo := interpolate_bounds h.pmisc.1 h.pmisc.2 (pos (h.rhoOilEff hs).1 h.refOil.1) (b_pos h.refOil h.rlo_pos h.rhoOil.1)
      h.lo_pos h.muOil (blend_bounds h.omegaMu.1 h.omegaMu.2 h.lo_pos h.muOil.1 h.muOil.2 h.mixOil.1 h.mixOil.2)
    exact ⟨⟨_, bg.1, bg.2, mob_eq (lt_of_lt_of_le h.lo_pos bg.1)⟩, ⟨_, bo.1, bo.2, mob_eq (lt_of_lt_of_le h.lo_pos bo.1)⟩, bs⟩

/-- C122: nothing changes if the solvent is not miscible, if there is none of it, or if the pressure is below the one at which it
mixes. -/
theorem C122_immiscible (m : Bool) (h : m = false ∨ i.satSolvent < cutOff ∨ i.pmisc = 0)
    (hg : 0 < i.bGas ∧ 0 < i.muGas ∧ i.bGas * i.refGas = i.rhoGas) (ho : 0 < i.bOil ∧ 0 < i.muOil ∧ i.bOil * i.refOil = i.rhoOil)
    (hs : 0 < i.bSolvent ∧ 0 < i.muSolvent ∧ i.bSolvent * i.refSolvent = i.rhoSolvent) :
    effectiveProperties m i = ⟨i.rhoOil, i.rhoGas, i.rhoSolvent, i.mobOil, i.mobGas, i.muSolvent⟩ := by
  unfold effectiveProperties
  split
  · rfl
  case isFalse hc =>
    have hp : i.pmisc = 0 := by
      rcases h with h | h | h
      · exact absurd (Or.inl h) hc
      · exact absurd (Or.inr h) hc
      · exact h
    have e : ∀ {b mu x y : ℝ}, 0 < b → 0 < mu → interpolate 0 x y b mu = mu := fun hb hm => by
      unfold interpolate
      rw [zero_mul, zero_div, zero_add, zero_add, sub_zero, one_mul, div_div_cancel₀ hb.ne']
    simp only [hp, e hg.1 hg.2.1, e ho.1 ho.2.1, e hs.1 hs.2.1, zero_mul, zero_add, sub_zero, one_mul, hg.2.2, ho.2.2, hs.2.2,
      div_self hg.2.1.ne', div_self ho.2.1.ne', mul_one, ite_self]

theorem blend_one {mu mix : ℝ} : blend 1 mu mix = mix := by unfold blend; simp

/-- The fraction of a completely mixed fluid. -/
theorem fraction_complete {a b x y : ℝ} (ha : 0 < a) (hb : 0 < b) (hd : 0 < x * b + y * a) (hsum : x + y = 1) (hne : a ≠ b) :
    a * (b - a * b / (x * b + y * a)) / (a * b / (x * b + y * a) * (b - a)) = x := by
  have h1 : b - a ≠ 0 := sub_ne_zero.2 hne.symm
  have hy : y = 1 - x := by linarith
  generalize hD : x * b + y * a = d at hd
  have e : b - a * b / d = b * (d - a) / d := by field_simp
  have e2 : d - a = x * (b - a) := by rw [← hD, hy]; ring
  rw [e, e2]
  field_simp

theorem quarter_mix2 {s1 sS mu1 muS : ℝ} (h1 : 0 ≤ s1) (hS : 0 ≤ sS) (p1 : 0 < mu1) (pS : 0 < muS) (hc : cutOff < s1 + sS) :
    0 < s1 / (s1 + sS) * quarter muS + sS / (s1 + sS) * quarter mu1 ∧
    quarter (mix2 s1 sS mu1 muS) =
      quarter mu1 * quarter muS / (s1 / (s1 + sS) * quarter muS + sS / (s1 + sS) * quarter mu1) := by
  have ht : 0 < s1 + sS := lt_trans cutOff_pos hc
  have q1 := quarter_pos p1
  have qS := quarter_pos pS
  have hb := harmonic2 (l := min (quarter mu1) (quarter muS)) (h := max (quarter mu1) (quarter muS)) q1 qS (div_nonneg h1 ht.le)
    (div_nonneg hS ht.le) (by rw [← add_div, div_self ht.ne']) (lt_min q1 qS) ⟨by simp, by simp⟩ ⟨by simp, by simp⟩
  refine ⟨hb.1, ?_⟩
  unfold mix2
  rw [if_pos hc, mix2_eq p1 pS, quarter_of_pow (div_pos (mul_pos q1 qS) hb.1)]

theorem Sound.rhoMix_eq (h : Sound i lo hi rlo rhi) : TL.rhoMix i = mean3 i := by
  unfold TL.rhoMix mean3
  rw [if_pos h.total, h.oil, if_pos rfl, ← add_div, ← add_div]; rfl

/-- C122: where everything mixes completely, the gas is as dense as the mixture of gas and solvent. -/
theorem C122_complete_gas (h : Sound i lo hi rlo rhi) (hs : cutOff ≤ i.satSolvent) (hp : i.pmisc = 1) (hw : i.omegaRho = 1)
    (hc : cutOff < gasEffSat i + solventEffSat i) (hfar : cutOff ≤ |quarter i.muSolvent - quarter i.muGas|) :
    (effectiveProperties true i).rhoGas = mean2 (gasEffSat i) (solventEffSat i) i.rhoGas i.rhoSolvent := by
  unfold effectiveProperties
  rw [if_neg (by push Not; exact ⟨by simp, hs⟩)]
  have ht : gasEffSat i + solventEffSat i ≠ 0 := (lt_trans cutOff_pos hc).ne'
  have pg := lt_of_lt_of_le h.lo_pos h.muGas.1
  have ps := lt_of_lt_of_le h.lo_pos h.muSolvent.1
  have hq := quarter_mix2 h.gasEff h.solventEff pg ps hc
  simp only [hp, sub_self, zero_mul, add_zero, one_mul, mul_ref h.refGas.1]
  unfold rhoGasEff
  simp only [hw, blend_one]
  rw [if_neg (not_lt.2 hfar)]
  unfold muMixSolventGas
  rw [hq.2, fraction_complete (quarter_pos pg) (quarter_pos ps) hq.1 (by rw [← add_div, div_self ht])
    (ne_of_far (not_lt.2 hfar)).symm]
  unfold mean2
  field_simp
  ring

/-- C122: where everything mixes completely, the solvent is as dense as the mixture of oil, gas and solvent. -/
theorem C122_complete_solvent (h : Sound i lo hi rlo rhi) (hs : cutOff ≤ i.satSolvent) (hp : i.pmisc = 1) (hw : i.omegaRho = 1)
    (hydro : cutOff < oilEffSat i + gasEffSat i) :
    (effectiveProperties true i).rhoSolvent = mean3 i := by
  unfold effectiveProperties
  rw [if_neg (by push Not; exact ⟨by simp, hs⟩)]
  have ps := lt_of_lt_of_le h.lo_pos h.muSolvent.1
  simp only [hp, sub_self, zero_mul, add_zero, one_mul, mul_ref h.refSolvent.1]
  unfold TL.rhoSolventEff
  simp only [hw, blend_one, h.mu_oil]
  split
  · rw [h.rhoMix_eq]; ring
  case isFalse hfar =>
    rw [h.mix3, quarter_of_pow h.quarterMix3_pos.2, h.solvent_line, h.oil, if_pos rfl]
    have hne : solventOilGasPow i - quarter i.muOil * quarter i.muGas ≠ 0 := sub_ne_zero.2 (ne_of_far hfar)
    have e : (solventOilGasPow i - ((1 - solventEffSat i / TL.total i) * solventOilGasPow i +
        solventEffSat i / TL.total i * (quarter i.muOil * quarter i.muGas))) /
          (solventOilGasPow i - quarter i.muOil * quarter i.muGas) = solventEffSat i / TL.total i := by
      rw [div_eq_iff hne]; ring
    rw [e]
    have ht := h.total_pos.ne'
    have hp0 : oilEffSat i + gasEffSat i ≠ 0 := (lt_trans cutOff_pos hydro).ne'
    have e1 : 1 - solventEffSat i / TL.total i = (oilEffSat i + gasEffSat i) / TL.total i := by
      rw [add_div]; linarith [h.fractions]
    rw [e1]
    unfold sgf sof mean3
    rw [if_pos hydro, if_pos hydro]
    change _ = _ / TL.total i
    field_simp
    ring

/-- What complete mixing gives for the oil: the mixture of the oil with what the solvent has become. -/
theorem C122_complete_oil_partial (h : Sound i lo hi rlo rhi) (hs : cutOff ≤ i.satSolvent) (hp : i.pmisc = 1) (hw : i.omegaRho = 1)
    (hydro : cutOff < oilEffSat i + gasEffSat i) (hc : cutOff < oilEffSat i + solventEffSat i)
    (hfar : cutOff ≤ |quarter i.muOil - quarter i.muSolvent|) :
    (effectiveProperties true i).rhoOil = mean2 (oilEffSat i) (solventEffSat i) i.rhoOil (mean3 i) := by
  have hsol := C122_complete_solvent h hs hp hw hydro
  unfold effectiveProperties at hsol ⊢
  rw [if_neg (by push Not; exact ⟨by simp, hs⟩)] at hsol ⊢
  simp only at hsol
  simp only [hsol, h.oil, if_true]
  have ht : oilEffSat i + solventEffSat i ≠ 0 := (lt_trans cutOff_pos hc).ne'
  have po := lt_of_lt_of_le h.lo_pos h.muOil.1
  have ps := lt_of_lt_of_le h.lo_pos h.muSolvent.1
  have hq := quarter_mix2 h.oilEff h.solventEff po ps hc
  simp only [hp, sub_self, zero_mul, add_zero, one_mul, mul_ref h.refOil.1]
  unfold rhoOilEff
  simp only [hw, blend_one, h.mu_oil]
  rw [if_neg (not_lt.2 hfar)]
  have he : muMixOilSolvent i = mix2 (oilEffSat i) (solventEffSat i) i.muOil i.muSolvent := by
    unfold muMixOilSolvent; rw [h.oil]; rfl
  have e1 : ∀ o s e : ℝ, o * (e - s) / (e * (o - s)) = o * (s - e) / (e * (s - o)) := fun o s e => by
    rw [← neg_div_neg_eq]; congr 1 <;> ring
  rw [he, hq.2, e1, fraction_complete (quarter_pos po) (quarter_pos ps) hq.1 (by rw [← add_div, div_self ht])
    (ne_of_far (not_lt.2 hfar))]
  unfold mean2
  field_simp
  ring

/-- A cell with equal amounts of oil, gas and solvent; the oil is sixteen times as viscous as the others. -/
noncomputable def mixed : In :=
  { oilActive := true, waterActive := true, satOil := 1 / 3, satGas := 1 / 3, satSolvent := 1 / 3, sorwmis := 0, sgcwmis := 0,
    pmisc := 1, omegaMu := 1, omegaRho := 1, muOil := 16, muGas := 1, muSolvent := 1, rhoOil := 800, rhoGas := 300, rhoSolvent := 100,
    bOil := 1, bGas := 1, bSolvent := 1, refOil := 800, refGas := 300, refSolvent := 100, mobOil := 1, mobGas := 1 }

theorem mixed_oil : oilEffSat mixed = 1 / 3 := by norm_num [oilEffSat, mixed]
theorem mixed_gas : gasEffSat mixed = 1 / 3 := by norm_num [gasEffSat, mixed]
theorem mixed_solvent : solventEffSat mixed = 1 / 3 := by norm_num [solventEffSat, mixed]

theorem mixed_sound : Sound mixed 1 16 100 800 where
  oil := rfl
  so := by norm_num [mixed]
  sg := by norm_num [mixed]
  ss := by norm_num [mixed]
  pmisc := by norm_num [mixed]
  omegaMu := by norm_num [mixed]
  omegaRho := by norm_num [mixed]
  lo_pos := by norm_num
  muOil := by norm_num [mixed]
  muGas := by norm_num [mixed]
  muSolvent := by norm_num [mixed]
  rlo_pos := by norm_num
  rhoOil := by norm_num [mixed]
  rhoGas := by norm_num [mixed]
  rhoSolvent := by norm_num [mixed]
  refOil := by norm_num [mixed]
  refGas := by norm_num [mixed]
  refSolvent := by norm_num [mixed]
  total := by unfold TL.total; rw [mixed_oil, mixed_gas, mixed_solvent]; norm_num [cutOff]
  hydrocarbon := by rw [mixed_oil, mixed_gas]; right; norm_num [cutOff]

theorem quarter_sixteen : quarter 16 = 2 := by
  have : (16 : ℝ) = 2 ^ 4 := by norm_num
  rw [this, quarter_of_pow (by norm_num)]

/-- The hypotheses of the theorems on bounds are met by the cell. -/
example : 100 ≤ (effectiveProperties true mixed).rhoOil ∧ (effectiveProperties true mixed).rhoOil ≤ 800 :=
  (C122_densities_partial true mixed_sound).2.2

/-- Those of complete mixing are met by the cell, too. -/
example : (effectiveProperties true mixed).rhoSolvent = 400 := by
  rw [C122_complete_solvent mixed_sound (by norm_num [mixed, cutOff]) rfl rfl (by rw [mixed_oil, mixed_gas]; norm_num [cutOff])]
  unfold mean3
  rw [mixed_oil, mixed_gas, mixed_solvent]
  norm_num [mixed]

/-- And those for the gas by one whose solvent is as viscous as the oil. -/
example : (effectiveProperties true { mixed with muSolvent := 16 }).rhoGas = 200 := by
  have hs : Sound { mixed with muSolvent := 16 } 1 16 100 800 := { mixed_sound with muSolvent := by norm_num }
  have e2 : gasEffSat { mixed with muSolvent := 16 } = 1 / 3 := mixed_gas
  have e3 : solventEffSat { mixed with muSolvent := 16 } = 1 / 3 := mixed_solvent
  rw [C122_complete_gas hs (by norm_num [mixed, cutOff]) rfl rfl (by rw [e2, e3]; norm_num [cutOff])
    (by change cutOff ≤ |quarter 16 - quarter 1|; rw [quarter_sixteen, quarter_one]; norm_num [cutOff])]
  unfold mean2
  rw [e2, e3]
  norm_num [mixed]

/-- C122, violated: completely mixed oil is not as dense as the mixture of oil and solvent: the density of the solvent has been
overwritten by the one of the mixture of all three before it is used for the oil. -/
theorem C122_oil_density_violated :
    ∃ i : In, Sound i 1 16 100 800 ∧ cutOff ≤ i.satSolvent ∧ i.pmisc = 1 ∧ i.omegaRho = 1 ∧
      cutOff < oilEffSat i + solventEffSat i ∧ cutOff ≤ |quarter i.muOil - quarter i.muSolvent| ∧
      (effectiveProperties true i).rhoOil ≠ mean2 (oilEffSat i) (solventEffSat i) i.rhoOil i.rhoSolvent := by
  have h4 : cutOff < oilEffSat mixed + solventEffSat mixed := by rw [mixed_oil, mixed_solvent]; norm_num [cutOff]
  have h5 : cutOff ≤ |quarter mixed.muOil - quarter mixed.muSolvent| := by
    change cutOff ≤ |quarter 16 - quarter 1|; rw [quarter_sixteen, quarter_one]; norm_num [cutOff]
  refine ⟨mixed, mixed_sound, by norm_num [mixed, cutOff], rfl, rfl, h4, h5, ?_⟩
  rw [C122_complete_oil_partial mixed_sound (by norm_num [mixed, cutOff]) rfl rfl (by rw [mixed_oil, mixed_gas]; norm_num [cutOff]) h4 h5]
  unfold mean2 mean3
  rw [mixed_oil, mixed_gas, mixed_solvent]
  norm_num [mixed]

/-- Where oil, gas and solvent are all immobile. -/
noncomputable def immobile : In := { mixed with sorwmis := 1 / 2, sgcwmis := 1 / 2 }

theorem immobile_total : oilEffSat immobile = 0 ∧ gasEffSat immobile = 0 ∧ solventEffSat immobile = 0 := by
  refine ⟨?_, ?_, ?_⟩ <;> norm_num [oilEffSat, gasEffSat, solventEffSat, immobile, mixed]

/-- C122, violated: where oil, gas and solvent are all below the saturations at which they become mobile, the solvent becomes
lighter than each of the pure fluids. -/
theorem C122_immobile_violated :
    ∃ i : In, (100 ≤ i.rhoOil ∧ 100 ≤ i.rhoGas ∧ 100 ≤ i.rhoSolvent) ∧ i.pmisc = 1 ∧ cutOff ≤ i.satSolvent ∧
      i.bSolvent * i.refSolvent = i.rhoSolvent ∧ i.satOil + i.satGas + i.satSolvent ≤ 1 ∧
      (effectiveProperties true i).rhoSolvent = 50 := by
  refine ⟨immobile, by norm_num [immobile, mixed], rfl, by norm_num [immobile, mixed, cutOff], by norm_num [immobile, mixed],
    by norm_num [immobile, mixed], ?_⟩
  obtain ⟨e1, e2, e3⟩ := immobile_total
  unfold effectiveProperties
  rw [if_neg (by push Not; exact ⟨by simp, by norm_num [immobile, mixed, cutOff]⟩)]
  have ho : muOil immobile = 16 := rfl
  have hm : muMixSolventGasOil immobile = 16 := by
    unfold muMixSolventGasOil TL.total; rw [e1, e2, e3, if_neg (by norm_num [cutOff]), ho]
  have hsg : sgf immobile = 0 := by unfold sgf; rw [e1, e2, if_neg (by norm_num [cutOff])]
  have hso : sof immobile = 0 := by unfold sof; rw [e1, e2, if_neg (by norm_num [cutOff])]
  have ht : solventOilGasPow immobile = 0 := by unfold solventOilGasPow; rw [hsg, hso]; simp
  have w : immobile.omegaRho = 1 := rfl
  have g : immobile.muGas = 1 := rfl
  have s : immobile.muSolvent = 1 := rfl
  have hE : rhoSolventEff immobile = 50 := by
    unfold rhoSolventEff
    simp only [hm, hsg, hso, ht, ho, w, g, s, blend_one, quarter_sixteen, quarter_one]
    rw [if_neg (by norm_num [cutOff])]
    norm_num [immobile, mixed]
  simp only [hE]
  norm_num [immobile, mixed]

end Verif.Extend.TL
