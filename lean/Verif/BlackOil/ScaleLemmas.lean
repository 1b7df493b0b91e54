import Verif.BlackOil.ScaleModel
import Verif.BlackOil.UpdateLemmas
import Mathlib.Tactic.FieldSimp
import Mathlib.Tactic.Ring
import Mathlib.Algebra.BigOperators.Ring.Finset

/-
Lemmas on the scaling of pressures (C178).
-/

set_option autoImplicit false
set_option linter.unusedSectionVars false
set_option linter.unusedSimpArgs false

namespace Verif.BlackOil.Scale

open Verif.BlackOil

variable {K : Type} [Field K] [LinearOrder K] [IsStrictOrderedRing K]

/-- The pressure is a variable of its own. -/
structure Own (L : Layout) : Prop where
  w : L.waterSwitchIdx ≠ L.pressureSwitchIdx
  c : L.compositionSwitchIdx ≠ L.pressureSwitchIdx
  s : L.solventSaturationIdx ≠ L.pressureSwitchIdx
  z : L.zFractionIdx ≠ L.pressureSwitchIdx
  p : L.polymerConcentrationIdx ≠ L.pressureSwitchIdx
  q : L.polymerMoleWeightIdx ≠ L.pressureSwitchIdx
  m : L.microbialConcentrationIdx ≠ L.pressureSwitchIdx
  o : L.oxygenConcentrationIdx ≠ L.pressureSwitchIdx
  u : L.ureaConcentrationIdx ≠ L.pressureSwitchIdx
  b : L.biofilmConcentrationIdx ≠ L.pressureSwitchIdx
  x : L.calciteConcentrationIdx ≠ L.pressureSwitchIdx
  f : L.foamConcentrationIdx ≠ L.pressureSwitchIdx
  n : L.saltConcentrationIdx ≠ L.pressureSwitchIdx
  t : L.temperatureIdx ≠ L.pressureSwitchIdx

theorem own {L : Layout} (h : L.primaryVars.Nodup) (h0 : 0 ≤ L.pressureSwitchIdx) : Own L :=
  ⟨(Layout.ne h 1 0 (by decide) (by decide) (by decide) h0).symm, (Layout.ne h 1 2 (by decide) (by decide) (by decide) h0).symm,
    (Layout.ne h 1 3 (by decide) (by decide) (by decide) h0).symm, (Layout.ne h 1 4 (by decide) (by decide) (by decide) h0).symm,
    (Layout.ne h 1 5 (by decide) (by decide) (by decide) h0).symm, (Layout.ne h 1 6 (by decide) (by decide) (by decide) h0).symm,
    (Layout.ne h 1 7 (by decide) (by decide) (by decide) h0).symm, (Layout.ne h 1 8 (by decide) (by decide) (by decide) h0).symm,
    (Layout.ne h 1 9 (by decide) (by decide) (by decide) h0).symm, (Layout.ne h 1 10 (by decide) (by decide) (by decide) h0).symm,
    (Layout.ne h 1 11 (by decide) (by decide) (by decide) h0).symm, (Layout.ne h 1 12 (by decide) (by decide) (by decide) h0).symm,
    (Layout.ne h 1 13 (by decide) (by decide) (by decide) h0).symm, (Layout.ne h 1 14 (by decide) (by decide) (by decide) h0).symm⟩

variable {L : Layout} {f : Fluid K} {s : K} {v : PriVars K}

theorem val_ne {i : ℤ} (h : i ≠ L.pressureSwitchIdx) : (v.stored L s).val i = v.val i := if_neg h

theorem val_p : (v.stored L s).val L.pressureSwitchIdx = v.val L.pressureSwitchIdx / s := if_pos rfl

theorem stored_set {i : ℤ} (h : i ≠ L.pressureSwitchIdx) (x : K) : (v.stored L s).set i x = (v.set i x).stored L s := by
  unfold PriVars.stored PriVars.set
  congr 1
  funext j
  by_cases hj : j = i
  · subst hj
    simp only [scaleDown, if_neg h, Function.update_self]
  · simp only [scaleDown, Function.update_of_ne hj]

theorem pressure_stored (h1 : f.scale = 1) (hs : s ≠ 0) : pressure L (f.withScale s) (v.stored L s) = pressure L f v := by
  unfold pressure
  rw [val_p, h1]
  change _ / s * s = _
  rw [div_mul_cancel₀ _ hs, mul_one]

theorem setScaled_stored (h1 : f.scale = 1) (p : K) :
    setScaledPressure L (f.withScale s) (v.stored L s) p = (setScaledPressure L f v p).stored L s := by
  unfold setScaledPressure PriVars.stored PriVars.set
  congr 1
  funext j
  rw [h1, div_one]
  by_cases hj : j = L.pressureSwitchIdx
  · subst hj
    simp only [scaleDown, if_true, Function.update_self]
    rfl
  · simp only [scaleDown, Function.update_of_ne hj, if_neg hj]

theorem ws_vaporizedWater : (f.withScale s).vaporizedWater = f.vaporizedWater := rfl
theorem ws_dissolvedGasInWater : (f.withScale s).dissolvedGasInWater = f.dissolvedGasInWater := rfl
theorem ws_dissolvedGas : (f.withScale s).dissolvedGas = f.dissolvedGas := rfl
theorem ws_vaporizedOil : (f.withScale s).vaporizedOil = f.vaporizedOil := rfl
theorem ws_rvwSat : (f.withScale s).rvwSat = f.rvwSat := rfl
theorem ws_rswSat : (f.withScale s).rswSat = f.rswSat := rfl
theorem ws_maxGasDissolutionFactor : (f.withScale s).maxGasDissolutionFactor = f.maxGasDissolutionFactor := rfl
theorem ws_maxOilVaporizationFactor : (f.withScale s).maxOilVaporizationFactor = f.maxOilVaporizationFactor := rfl
theorem ws_pcOil : (f.withScale s).pcOil = f.pcOil := rfl
theorem ws_pcGas : (f.withScale s).pcGas = f.pcGas := rfl
theorem ws_pcWater : (f.withScale s).pcWater = f.pcWater := rfl
theorem ws_oilActive : (f.withScale s).oilActive = f.oilActive := rfl
theorem ws_gasActive : (f.withScale s).gasActive = f.gasActive := rfl
theorem ws_waterActive : (f.withScale s).waterActive = f.waterActive := rfl
theorem ws_saltPrecipitation : (f.withScale s).saltPrecipitation = f.saltPrecipitation := rfl
theorem ws_saltSol : (f.withScale s).saltSol = f.saltSol := rfl
theorem ws_maxOilSaturation : (f.withScale s).maxOilSaturation = f.maxOilSaturation := rfl
theorem ws_rsSat : (f.withScale s).rsSat = f.rsSat := rfl
theorem ws_rvSat : (f.withScale s).rvSat = f.rvSat := rfl
theorem ws_extboRs : (f.withScale s).extboRs = f.extboRs := rfl
theorem ws_extboRv : (f.withScale s).extboRv = f.extboRv := rfl

variable (hL : Own L) (h1 : f.scale = 1) (hs : s ≠ 0)
include hL

theorem solventSaturation_stored : solventSaturation L (v.stored L s) = solventSaturation L v := by
  unfold solventSaturation
  rw [val_ne hL.s]
  rfl

theorem zFraction_stored : zFraction L (v.stored L s) = zFraction L v := by
  unfold zFraction
  rw [val_ne hL.z]

theorem temperature_stored : temperature L (f.withScale s) (v.stored L s) = temperature L f v := by
  unfold temperature
  rw [val_ne hL.t]
  rfl

theorem readSw_stored : readSw L (v.stored L s) = readSw L v := by
  unfold readSw
  rw [val_ne hL.w]
  rfl

theorem readSg_stored : readSg L (f.withScale s) (v.stored L s) = readSg L f v := by
  unfold readSg
  rw [val_ne hL.c, readSw_stored hL]
  rfl

theorem adaptBrine_stored (eps : K) :
    adaptBrine L (f.withScale s) eps (v.stored L s) = ((adaptBrine L f eps v).1.stored L s, (adaptBrine L f eps v).2) := by
  unfold adaptBrine
  rw [val_ne hL.n]
  have hsol : (f.withScale s).saltSol = f.saltSol := rfl
  simp only [stored_set hL.n, hsol]
  change (if f.saltPrecipitation = true then (match v.brine with | .Sp => _ | .Cs => _ | .Disabled => _) else _) = _
  cases v.brine <;> simp only [] <;> split_ifs <;> rfl

theorem adaptSolvent_stored (hv : ¬(0 ≤ L.solventSaturationIdx ∧ f.solventInWater)) (eps T salt : K) :
    adaptSolvent L (f.withScale s) eps T salt (v.stored L s) = (adaptSolvent L f eps T salt v).stored L s := by
  unfold adaptSolvent
  rw [if_neg hv]
  exact if_neg hv

theorem adaptWaterFilled_stored (m sw : K) :
    adaptWaterFilled L (f.withScale s) m sw (v.stored L s) = ((adaptWaterFilled L f m sw v).1.stored L s, (adaptWaterFilled L f m sw v).2) := by
  unfold adaptWaterFilled
  have g1 (p : Prop) [Decidable p] (a b : PriVars K) : (if p then a.stored L s else b.stored L s) = (if p then a else b).stored L s := by
    split_ifs <;> rfl
  have hg (a : PriVars K) : (a.stored L s).gas = a.gas := rfl
  have hw : (f.withScale s).waterActive = f.waterActive := rfl
  simp only [stored_set hL.w, stored_set hL.c, g1, hg, hw]
  refine Prod.ext ?_ rfl
  dsimp only
  split_ifs <;> rfl

theorem pcFactor_stored : pcFactor L (f.withScale s) (v.stored L s) = pcFactor L f v := by
  unfold pcFactor
  rw [val_ne hL.n]
  rfl

include h1 hs

theorem gasPressureForWater_stored (pcF sg : K) :
    gasPressureForWater L (f.withScale s) pcF sg (v.stored L s) = gasPressureForWater L f pcF sg v := by
  unfold gasPressureForWater
  simp only [solventSaturation_stored hL, pressure_stored h1 hs]
  rfl

theorem adaptWater_stored (eps T salt pcF sw sg : K) :
    adaptWater L (f.withScale s) eps T salt pcF sw sg (v.stored L s) =
      ((adaptWater L f eps T salt pcF sw sg v).1.stored L s, (adaptWater L f eps T salt pcF sw sg v).2) := by
  unfold adaptWater
  simp only [solventSaturation_stored hL, pressure_stored h1 hs, gasPressureForWater_stored hL h1 hs, val_ne hL.w, stored_set hL.w,
    ws_vaporizedWater, ws_dissolvedGasInWater, ws_dissolvedGas, ws_vaporizedOil, ws_rvwSat, ws_rswSat,
    ws_maxGasDissolutionFactor, ws_maxOilVaporizationFactor, ws_pcOil, ws_pcGas, ws_pcWater]
  have hm : (v.stored L s).water = v.water := rfl
  rw [hm]
  cases v.water with
  | Sw =>
    simp only []
    split_ifs
    · rfl
    · refine Prod.ext ?_ rfl
      exact setScaled_stored (v := { v.set L.waterSwitchIdx (min (f.rswSat T (pressure L f v + pcF *
        (f.pcWater (1 - sw - solventSaturation L v) 0 sw - f.pcGas (1 - sw - solventSaturation L v) 0 sw)) salt)
        f.maxGasDissolutionFactor) with water := .Rsw, pressure := .Pw }) h1 _
    · rfl
  | Rvw =>
    simp only []
    split_ifs <;> rfl
  | Rsw =>
    simp only []
    split_ifs
    · refine Prod.ext ?_ rfl
      exact setScaled_stored (v := { v.set L.waterSwitchIdx 1 with water := .Sw, pressure := .Pg }) h1 _
    · rfl
  | Disabled => rfl

theorem adaptGas_stored (eps T pcF sw sg : K) :
    adaptGas L (f.withScale s) eps T pcF sw sg (v.stored L s) =
      ((adaptGas L f eps T pcF sw sg v).1.stored L s, (adaptGas L f eps T pcF sw sg v).2) := by
  have hr (po so : K) (u : PriVars K) : rsLimit L (f.withScale s) T po so (u.stored L s) = rsLimit L f T po so u := by
    unfold rsLimit
    rw [zFraction_stored hL]
    rfl
  have hg (pg : K) (u : PriVars K) : rvLimit L (f.withScale s) T pg (u.stored L s) = rvLimit L f T pg u := by
    unfold rvLimit
    rw [zFraction_stored hL]
    rfl
  have hset (u : PriVars K) (p : K) : setScaledPressure L (f.withScale s) (u.stored L s) p = (setScaledPressure L f u p).stored L s :=
    setScaled_stored h1 p
  unfold adaptGas
  simp only [solventSaturation_stored hL, pressure_stored h1 hs, hr, hg, val_ne hL.c, stored_set hL.c,
    ws_vaporizedWater, ws_dissolvedGasInWater, ws_dissolvedGas, ws_vaporizedOil, ws_rvwSat, ws_rswSat,
    ws_maxGasDissolutionFactor, ws_maxOilVaporizationFactor, ws_pcOil, ws_pcGas, ws_pcWater]
  have hm : (v.stored L s).gas = v.gas := rfl
  rw [hm]
  cases v.gas with
  | Sg =>
    simp only []
    split_ifs
    · rfl
    · refine Prod.ext ?_ rfl
      have h2 := hset { v with gas := .Sg, pressure := .Pg } (pressure L f v + pcF *
        (f.pcGas 0 (sg + solventSaturation L v) sw - f.pcOil 0 (sg + solventSaturation L v) sw))
      refine Eq.trans (congrArg (fun u => ({ u.set L.compositionSwitchIdx (min f.maxOilVaporizationFactor
        (rvLimit L (f.withScale s) T (pressure L f v + pcF *
          (f.pcGas 0 (sg + solventSaturation L v) sw - f.pcOil 0 (sg + solventSaturation L v) sw)) u)) with gas := .Rv } : PriVars K)) h2) ?_
      dsimp only
      rw [hg, stored_set hL.c]
      rfl
    · rfl
  | Rs =>
    simp only []
    split_ifs <;> rfl
  | Rv =>
    simp only []
    split_ifs
    · refine Prod.ext ?_ rfl
      have h2 := hset { v with gas := .Sg, pressure := .Po } (pressure L f v + pcF *
        (f.pcOil 0 (1 - sw - solventSaturation L v + solventSaturation L v) sw -
          f.pcGas 0 (1 - sw - solventSaturation L v + solventSaturation L v) sw))
      exact (congrArg (fun u => u.set L.compositionSwitchIdx (1 - sw - solventSaturation L v)) h2).trans (stored_set hL.c _)
    · rfl
  | Disabled => rfl

theorem adapt_stored (hv : ¬(0 ≤ L.solventSaturationIdx ∧ f.solventInWater)) (m t eps : K) :
    adapt L (f.withScale s) m t eps (v.stored L s) = ((adapt L f m t eps v).1.stored L s, (adapt L f m t eps v).2) := by
  unfold adapt
  simp only [temperature_stored hL, readSw_stored hL, readSg_stored hL, adaptBrine_stored hL, adaptSolvent_stored hL hv,
    adaptWaterFilled_stored hL, pcFactor_stored hL, adaptWater_stored hL h1 hs, adaptGas_stored hL h1 hs, ws_dissolvedGasInWater]
  change (if v.water = .Disabled ∧ v.gas = .Disabled then _ else if t ≤ readSw L v ∧ ¬f.dissolvedGasInWater then _ else _) = _
  split_ifs <;> rfl

omit h1 hs in
theorem chop_stored : chopAndNormalize L (v.stored L s) =
    (chopAndNormalize L v).map fun x => (x.1.stored L s, x.2) := by
  have g1 (p : Prop) [Decidable p] (a b : PriVars K) : (if p then a.stored L s else b.stored L s) = (if p then a else b).stored L s := by
    split_ifs <;> rfl
  have hw (a : PriVars K) : (a.stored L s).water = a.water := rfl
  have hg (a : PriVars K) : (a.stored L s).gas = a.gas := rfl
  have hss (a : PriVars K) : (a.stored L s).solvent = a.solvent := rfl
  unfold chopAndNormalize
  simp only [val_ne hL.w, val_ne hL.c, val_ne hL.s, stored_set hL.w, stored_set hL.c, stored_set hL.s, hw, hg, hss, g1]
  by_cases hd : v.water = .Disabled ∧ v.gas = .Disabled
  · rw [if_pos hd, if_pos hd]
    rfl
  rw [if_neg hd, if_neg hd]
  symm
  exact apply_ite _ _ _ _

section
variable {l : Limits K} {u : ℤ → K}

omit h1 hs in
theorem satAlpha_stored : satAlpha L l (v.stored L s) (scaleDown L s u) = satAlpha L l v u := by
  unfold satAlpha
  simp only [scaleDown, if_neg hL.w, if_neg hL.c, if_neg hL.s]
  rfl

omit h1 hs in
theorem limitDelta_ne {i : ℤ} (hi : i ≠ L.pressureSwitchIdx) :
    limitDelta L (f.withScale s) l (v.stored L s) (scaleDown L s u) i = limitDelta L f l v u i := by
  have hw (a : PriVars K) : (a.stored L s).water = a.water := rfl
  have hg (a : PriVars K) : (a.stored L s).gas = a.gas := rfl
  have hss (a : PriVars K) : (a.stored L s).solvent = a.solvent := rfl
  have hb (a : PriVars K) : (a.stored L s).brine = a.brine := rfl
  have hu : scaleDown L s u i = u i := if_neg hi
  unfold limitDelta
  simp only [satAlpha_stored hL, val_ne hL.w, val_ne hL.c, val_ne hL.s, val_ne hL.z, hu, if_neg hi, hw, hg, hss, hb, ws_saltPrecipitation]

omit h1 hs in
theorem updateVar_ne {i : ℤ} (hi : i ≠ L.pressureSwitchIdx) (w : ℤ → K) :
    updateVar L (f.withScale s) l (v.stored L s) (scaleDown L s u) i (scaleDown L s w) = updateVar L f l v u i w := by
  have hss (a : PriVars K) : (a.stored L s).solvent = a.solvent := rfl
  have hb (a : PriVars K) : (a.stored L s).brine = a.brine := rfl
  have hp : scaleDown L s w L.polymerConcentrationIdx = w L.polymerConcentrationIdx := if_neg hL.p
  unfold updateVar
  simp only [limitDelta_ne hL hi, val_ne hi, hp, if_neg hi, hss, hb, ws_saltPrecipitation]

omit h1 hs in
theorem updateVar_p (g : Fluid K) (a : PriVars K) (d w : ℤ → K) :
    updateVar L g l a d L.pressureSwitchIdx w =
      clamp (a.val L.pressureSwitchIdx - limitDelta L g l a d L.pressureSwitchIdx) l.pressMin l.pressMax := by
  unfold updateVar
  simp only [hL.s.symm, hL.z.symm, hL.p.symm, hL.q.symm, hL.m.symm, hL.o.symm, hL.u.symm, hL.b.symm, hL.x.symm, hL.f.symm, hL.n.symm,
    hL.t.symm, false_and, and_false, if_false, if_true]

omit hL h1 hs in
theorem limitDelta_p (g : Fluid K) (a : PriVars K) (d : ℤ → K) :
    limitDelta L g l a d L.pressureSwitchIdx =
      if l.dpMaxRel * a.val L.pressureSwitchIdx < |d L.pressureSwitchIdx| then
        signum (d L.pressureSwitchIdx) * l.dpMaxRel * a.val L.pressureSwitchIdx else d L.pressureSwitchIdx := by
  unfold limitDelta
  simp only [if_true]

omit hL h1 hs in
theorem signum_cases (x : K) : signum x = 1 ∨ signum x = 0 ∧ x = 0 ∨ signum x = -1 := by
  unfold signum
  rcases lt_trichotomy x 0 with h | h | h
  · right; right
    rw [if_neg h.not_gt, if_pos h, zero_sub]
  · right; left
    subst h
    simp
  · left
    rw [if_pos h, if_neg h.not_gt, sub_zero]

omit hL h1 hs in
theorem signum_div (x : K) (hp : 0 < s) : signum (x / s) = signum x := by
  unfold signum
  have h0 : 0 < x / s ↔ 0 < x := by rw [lt_div_iff₀ hp, zero_mul]
  have h2 : x / s < 0 ↔ x < 0 := by rw [div_lt_iff₀ hp, zero_mul]
  simp only [h0, h2]

omit hL h1 hs in
theorem limitDelta_scaled (hp : 0 < s) :
    limitDelta L (f.withScale s) l (v.stored L s) (scaleDown L s u) L.pressureSwitchIdx = limitDelta L f l v u L.pressureSwitchIdx / s := by
  have hu : scaleDown L s u L.pressureSwitchIdx = u L.pressureSwitchIdx / s := if_pos rfl
  rw [limitDelta_p, limitDelta_p, val_p, hu, signum_div _ hp, abs_div, abs_of_pos hp, mul_div_assoc']
  simp only [div_lt_div_iff_of_pos_right hp]
  split_ifs
  · rw [mul_div_assoc]
  · rfl

omit hL h1 hs in
theorem limitDelta_abs (g : Fluid K) (a : PriVars K) (d : ℤ → K) (h0 : 0 ≤ a.val L.pressureSwitchIdx) (hd : 0 ≤ l.dpMaxRel) :
    |limitDelta L g l a d L.pressureSwitchIdx| ≤ l.dpMaxRel * a.val L.pressureSwitchIdx := by
  rw [limitDelta_p]
  have hm := mul_nonneg hd h0
  split_ifs with h
  · rw [mul_assoc, abs_mul, abs_of_nonneg hm]
    rcases signum_cases (d L.pressureSwitchIdx) with h | ⟨h, -⟩ | h <;> rw [h] <;> simp [hm]
  · exact not_lt.mp h

omit hL h1 hs in
theorem clamp_of_mem {x lo hi : K} (h : lo ≤ x) (h' : x ≤ hi) : clamp x lo hi = x := by
  unfold clamp
  rw [if_neg h.not_gt, if_neg h'.not_gt]

omit h1 hs in
/-- The new pressure, with limits which do not matter -/
theorem updateVar_scaled (hp : 0 < s) (hd : 0 ≤ l.dpMaxRel) (hi : InLimits l s (v.val L.pressureSwitchIdx)) (w w' : ℤ → K) :
    updateVar L (f.withScale s) l (v.stored L s) (scaleDown L s u) L.pressureSwitchIdx w' = updateVar L f l v u L.pressureSwitchIdx w / s := by
  rw [updateVar_p hL, updateVar_p hL, limitDelta_scaled hp, val_p, ← sub_div]
  have hb := abs_le.mp (limitDelta_abs f v u hi.nonneg hd (l := l))
  have a1 : v.val L.pressureSwitchIdx - l.dpMaxRel * v.val L.pressureSwitchIdx ≤ v.val L.pressureSwitchIdx - limitDelta L f l v u L.pressureSwitchIdx :=
    sub_le_sub_left hb.2 _
  have a2 : v.val L.pressureSwitchIdx - limitDelta L f l v u L.pressureSwitchIdx ≤ v.val L.pressureSwitchIdx + l.dpMaxRel * v.val L.pressureSwitchIdx := by
    rw [sub_eq_add_neg]
    exact add_le_add_right (neg_le.mp hb.1) _
  rw [clamp_of_mem (hi.min.trans a1) (a2.trans hi.max),
    clamp_of_mem (hi.minScaled.trans (div_le_div_of_nonneg_right a1 hp.le)) ((div_le_div_of_nonneg_right a2 hp.le).trans hi.maxScaled)]

omit h1 hs in
theorem limitedUpdate_stored (hp : 0 < s) (hd : 0 ≤ l.dpMaxRel) (hi : InLimits l s (v.val L.pressureSwitchIdx)) (next : PriVars K) :
    limitedUpdate L (f.withScale s) l (v.stored L s) (scaleDown L s u) (next.stored L s) = (limitedUpdate L f l v u next).stored L s := by
  unfold limitedUpdate PriVars.stored
  congr 1
  dsimp only
  generalize L.numEq = n
  induction n with
  | zero => rfl
  | succ n ih =>
    rw [List.range_succ, List.foldl_append, List.foldl_append, ih]
    simp only [List.foldl_cons, List.foldl_nil]
    generalize (List.range n).foldl (fun nv (i : ℕ) => Function.update nv (i : ℤ) (updateVar L f l v u i nv)) next.val = w
    funext j
    by_cases hj : j = (n : ℤ)
    · subst hj
      rw [Function.update_self]
      by_cases hP : (n : ℤ) = L.pressureSwitchIdx
      · rw [scaleDown, if_pos hP, Function.update_self, hP]
        exact updateVar_scaled hL hp hd hi _ _
      · rw [scaleDown, if_neg hP, Function.update_self]
        exact updateVar_ne hL hP w
    · rw [Function.update_of_ne hj, scaleDown, scaleDown, Function.update_of_ne hj]

omit hs in
theorem update_stored (hp : 0 < s) (hd : 0 ≤ l.dpMaxRel) (hi : InLimits l s (v.val L.pressureSwitchIdx))
    (hv : ¬(0 ≤ L.solventSaturationIdx ∧ f.solventInWater)) (sp : SwitchParams K) (was : Bool) :
    updatePrimaryVariables L (f.withScale s) l sp was (v.stored L s) (scaleDown L s u) =
      (updatePrimaryVariables L f l sp was v u).map fun x => (x.1.stored L s, x.2) := by
  unfold updatePrimaryVariables
  rw [limitedUpdate_stored hL hp hd hi, adapt_stored hL h1 hp.ne' hv]
  dsimp only
  rw [chop_stored hL]
  by_cases h : sp.project = true
  · rw [if_pos h, if_pos h, Option.map_map, Option.map_map]
    rfl
  · rw [if_neg h, if_neg h]
    rfl

end

/-! ### Reading and storing -/

omit h1 hs in
theorem saturations_stored : saturations L (f.withScale s) (v.stored L s) = saturations L f v := by
  unfold saturations
  simp only [val_ne hL.w, val_ne hL.c, val_ne hL.s]
  rfl

theorem readPressures_stored : readPressures L (f.withScale s) (v.stored L s) = readPressures L f v := by
  unfold readPressures readPc
  simp only [saturations_stored hL, pcFactor_stored hL, pressure_stored h1 hs]
  rfl

theorem read_stored : read L (f.withScale s) (v.stored L s) = read L f v := by
  unfold read readSalt
  simp only [saturations_stored hL, readPressures_stored hL h1 hs, temperature_stored hL, zFraction_stored hL, val_ne hL.w, val_ne hL.c,
    val_ne hL.n]
  rfl

omit hs in
theorem assign_stored (fs : FluidState K) : assignNaive L (f.withScale s) fs (v.stored L s) = (assignNaive L f fs v).stored L s := by
  have g1 (p : Prop) [Decidable p] (a b : PriVars K) : (if p then a.stored L s else b.stored L s) = (if p then a else b).stored L s := by
    split_ifs <;> rfl
  have key (b : PriVars K) (p : K) (pm : PressureMeaning) (wm : WaterMeaning) (gm : GasMeaning) (bm : BrineMeaning) :
      setScaledPressure L (f.withScale s) { b.stored L s with pressure := pm, water := wm, gas := gm, brine := bm } p =
        (setScaledPressure L f { b with pressure := pm, water := wm, gas := gm, brine := bm } p).stored L s :=
    setScaled_stored (v := { b with pressure := pm, water := wm, gas := gm, brine := bm }) h1 p
  have c1 (a b c : Bool) : choosePressure (f.withScale s) a b c = choosePressure f a b c := rfl
  have c2 (a b : Bool) : chooseWater (f.withScale s) a b = chooseWater f a b := rfl
  have c3 (a b : Bool) : chooseGas (f.withScale s) a b = chooseGas f a b := rfl
  unfold assignNaive
  dsimp only
  rw [stored_set hL.t, g1]
  simp only [ws_oilActive, ws_gasActive, ws_waterActive, ws_saltPrecipitation, c1, c2, c3]
  generalize (if 0 ≤ L.temperatureIdx then v.set L.temperatureIdx fs.temperature else v) = b
  generalize choosePressure f _ _ _ = pm
  generalize chooseWater f _ _ = wm
  generalize chooseGas f _ _ = gm
  rw [key]
  cases wm <;> cases gm <;> first
    | rfl
    | exact stored_set hL.w _
    | exact stored_set hL.c _
    | exact (congrArg (fun a => PriVars.set a _ _) (stored_set hL.w _)).trans (stored_set hL.c _)

/-! ### Evaluations and Newton iterations -/

omit hL in
theorem seen_stored : seen L (f.withScale s) (v.stored L s) = seen L f v := by
  unfold seen makeEvaluation PriVars.stored
  congr 1
  funext i
  simp only [scaleDown, VarEval.scale, Bool.false_eq_true, if_false]
  by_cases hi : i = L.pressureSwitchIdx
  · rw [if_pos hi, if_pos hi, if_pos hi, h1, mul_one]
    exact div_mul_cancel₀ _ hs
  · rw [if_neg hi, if_neg hi, if_neg hi]

omit hL hs in
theorem deriv_stored (i j : ℤ) (b : Bool) :
    (makeEvaluation L (f.withScale s) (v.stored L s) i b).deriv j =
      (makeEvaluation L f v i b).deriv j * (if j = L.pressureSwitchIdx then s else 1) := by
  unfold makeEvaluation VarEval.scale
  cases b
  · simp
  · simp only [if_true]
    by_cases hj : j = i
    · subst hj
      by_cases hi : j = L.pressureSwitchIdx
      · simp only [if_pos hi, if_true, h1, one_mul]
        rfl
      · simp only [if_neg hi, if_true]
        ring
    · simp only [if_neg hj, zero_mul]

variable {C E : Type} [Fintype C] [DecidableEq C] {q : Equations K C E}

omit hL in
theorem jacobian_stored (st : C → PriVars K) (e : E) (c : C) (j : ℤ) :
    jacobianEntry L (f.withScale s) q (fun c => (st c).stored L s) e c j =
      jacobianEntry L f q st e c j * (if j = L.pressureSwitchIdx then s else 1) := by
  unfold jacobianEntry
  simp only [seen_stored h1 hs, deriv_stored h1, Finset.sum_mul, mul_assoc]

omit hL in
theorem system_stored (st : C → PriVars K) (x : C → ℤ → K) (e : E) :
    ∑ c, ∑ j ∈ Finset.range L.numEq, jacobianEntry L (f.withScale s) q (fun c => (st c).stored L s) e c j * scaleDown L s (x c) j =
      ∑ c, ∑ j ∈ Finset.range L.numEq, jacobianEntry L f q st e c j * x c j := by
  refine Finset.sum_congr rfl fun c _ => Finset.sum_congr rfl fun j _ => ?_
  rw [jacobian_stored h1 hs, scaleDown]
  split_ifs
  · rw [mul_assoc, mul_div_cancel₀ _ hs]
  · rw [mul_one]

omit hL h1 in
theorem scaleDown_injective {x y : ℤ → K} (h : scaleDown L s x = scaleDown L s y) : x = y := by
  funext i
  have := congrFun h i
  unfold scaleDown at this
  split_ifs at this
  · exact (div_left_inj' hs).mp this
  · exact this

omit hL h1 in
theorem stored_injective {a b : PriVars K} (h : a.stored L s = b.stored L s) : a = b := by
  cases a
  cases b
  simp only [PriVars.stored, PriVars.mk.injEq] at h ⊢
  exact ⟨scaleDown_injective hs h.1, h.2⟩

omit hL h1 in
theorem scaleDown_surjective (y : ℤ → K) : ∃ x, scaleDown L s x = y := by
  refine ⟨fun i => if i = L.pressureSwitchIdx then y i * s else y i, ?_⟩
  funext i
  unfold scaleDown
  dsimp only
  split_ifs
  · exact mul_div_cancel_right₀ _ hs
  · rfl

omit hL h1 in
theorem stored_surjective (b : PriVars K) : ∃ a : PriVars K, a.stored L s = b := by
  obtain ⟨x, hx⟩ := scaleDown_surjective (L := L) hs b.val
  refine ⟨{ b with val := x }, ?_⟩
  unfold PriVars.stored
  dsimp only
  rw [hx]

omit hs in
theorem step_stored {l : Limits K} {sp : SwitchParams K} (hp : 0 < s) (hd : 0 ≤ l.dpMaxRel)
    (hv : ¬(0 ≤ L.solventSaturationIdx ∧ f.solventInWater)) {st st' : C → PriVars K × Bool} {x : C → ℤ → K}
    (hi : ∀ c, InLimits l s ((st c).1.val L.pressureSwitchIdx)) :
    NewtonStep L (f.withScale s) l sp q (fun c => ((st c).1.stored L s, (st c).2)) (fun c => ((st' c).1.stored L s, (st' c).2))
        (fun c => scaleDown L s (x c)) ↔
      NewtonStep L f l sp q st st' x := by
  have hu (c : C) : updatePrimaryVariables L (f.withScale s) l sp (st c).2 ((st c).1.stored L s) (scaleDown L s (x c)) =
      some ((st' c).1.stored L s, (st' c).2) ↔ updatePrimaryVariables L f l sp (st c).2 (st c).1 (x c) = some (st' c) := by
    rw [update_stored hL h1 hp hd (hi c) hv, Option.map_eq_some_iff]
    constructor
    · rintro ⟨a, ha, hb⟩
      rw [ha]
      have h2 := congrArg Prod.fst hb
      have h3 := congrArg Prod.snd hb
      exact congrArg some (Prod.ext (stored_injective hp.ne' h2) h3)
    · intro h
      exact ⟨_, h, rfl⟩
  constructor
  · rintro ⟨h2, h3⟩
    refine ⟨fun e => ?_, fun c => (hu c).mp (h3 c)⟩
    have := h2 e
    simp only [seen_stored h1 hp.ne'] at this
    rw [← this]
    exact (system_stored h1 hp.ne' (fun c => (st c).1) x e).symm
  · rintro ⟨h2, h3⟩
    refine ⟨fun e => ?_, fun c => (hu c).mpr (h3 c)⟩
    simp only [seen_stored h1 hp.ne']
    rw [← h2 e]
    exact system_stored h1 hp.ne' (fun c => (st c).1) x e

end Verif.BlackOil.Scale
