import Verif.BlackOil.BoundLemmas
import Verif.BlackOil.UpdateProps

/-
C54: what switching the meaning of primary variables reports, and what meanings it leaves.
-/

set_option autoImplicit false
set_option linter.unusedSectionVars false
set_option linter.unusedSimpArgs false

namespace Verif.BlackOil

variable {K : Type} [Field K] [LinearOrder K] [IsStrictOrderedRing K]
variable {L : Layout} {f : Fluid K} {swMax threshold eps : K} {v : PriVars K}

/-- The cell counts as one with only water. -/
def WaterFilled (L : Layout) (f : Fluid K) (threshold : K) (v : PriVars K) : Prop := threshold ≤ readSw L v ∧ ¬f.dissolvedGasInWater

/-- The pressure is that of the gas if the gas variable says that there is gas but no oil, that of water if the water variable says that
there is water but no gas in a model without oil, and otherwise that of oil, or of gas if there is no oil. -/
def Compatible (f : Fluid K) (v : PriVars K) : Prop :=
  if f.oilActive then v.water ≠ .Rsw ∧ (v.gas = .Rv ∧ v.pressure = .Pg ∨ v.gas ≠ .Rv ∧ v.pressure = .Po)
  else v.gas = .Disabled ∧ (v.water = .Rsw ∧ v.pressure = .Pw ∨ v.water ≠ .Rsw ∧ v.pressure = .Pg)

/-! ### Lemmas -/

/-- The variables after the parts of the salt and of the solvent -/
def stage (L : Layout) (f : Fluid K) (eps : K) (v : PriVars K) : PriVars K :=
  adaptSolvent L f eps (temperature L f v) (adaptBrine L f eps v).2 (adaptBrine L f eps v).1

theorem adapt_eq (h : ¬(v.water = .Disabled ∧ v.gas = .Disabled)) : adapt L f swMax threshold eps v =
    if threshold ≤ readSw L v ∧ ¬f.dissolvedGasInWater then adaptWaterFilled L f swMax (readSw L v) (stage L f eps v)
    else
      let w := adaptWater L f eps (temperature L f v) (adaptBrine L f eps v).2 (pcFactor L f (stage L f eps v)) (readSw L v)
        (readSg L f v) (stage L f eps v)
      let g := adaptGas L f eps (temperature L f v) (pcFactor L f (stage L f eps v)) (readSw L v) (readSg L f v) w.1
      (g.1, w.2 || g.2) := by
  unfold adapt
  rw [if_neg h]
  rfl

theorem stage_frame : (stage L f eps v).water = v.water ∧ (stage L f eps v).gas = v.gas ∧ (stage L f eps v).pressure = v.pressure ∧
    ∀ i, i ≠ L.saltConcentrationIdx → i ≠ L.solventSaturationIdx → (stage L f eps v).val i = v.val i := by
  obtain ⟨a1, a2, a3, a4, a5⟩ := adaptBrine_frame (L := L) (f := f) (eps := eps) (v := v)
  obtain ⟨b1, b2, b3, b4, b5⟩ := adaptSolvent_frame (L := L) (f := f) (eps := eps) (T := temperature L f v)
    (salt := (adaptBrine L f eps v).2) (v := (adaptBrine L f eps v).1)
  unfold stage
  exact ⟨b1.trans a1, b2.trans a2, b3.trans a3, fun i h1 h2 => (b5 i h2).trans (a5 i h1)⟩

theorem WaterStep.reports {sw sg : K} {v' : PriVars K} {b : Bool} (h : WaterStep L f eps sw sg v v' b) :
    b = true ↔ v'.water ≠ v.water := by
  cases h with
  | same e => simp [e]
  | toRvw a1 a2 | toRsw a1 a2 | fromRvw a1 a2 | fromRsw a1 a2 => simp [a1, a2]

theorem GasStep.reports {sw sg : K} {v' : PriVars K} {b : Bool} (h : GasStep L f eps sw sg v v' b) :
    b = true ↔ v'.gas ≠ v.gas := by
  cases h with
  | same e => simp [e]
  | toRs a1 a2 | toRv a1 a2 | fromRs a1 a2 | fromRv a1 a2 => simp [a1, a2]

/-- What solvent saturation the solvent variable is, after its part -/
theorem adaptSolvent_value {T salt : K} (h0 : 0 ≤ L.solventSaturationIdx) (hin : f.solventInWater) :
    (adaptSolvent L f eps T salt v).solvent = .Ss → ¬ (0 : K) < -eps →
      ¬ (adaptSolvent L f eps T salt v).val L.solventSaturationIdx < -eps := by
  unfold adaptSolvent
  rw [if_pos ⟨h0, hin⟩]
  cases hso : v.solvent <;> dsimp only
  · split_ifs with h
    · simp
    · intro _ _; exact h
  · split_ifs with h
    · simp [PriVars.set]
    · rw [hso]; simp
  · rw [hso]; simp

/-- The second time, the solvent saturation is not changed. -/
theorem adaptSolvent_again {T salt T' salt' : K} {v' : PriVars K} (he : 0 ≤ eps) (h1 : v'.solvent = (adaptSolvent L f eps T salt v).solvent)
    (h2 : v'.val L.solventSaturationIdx = (adaptSolvent L f eps T salt v).val L.solventSaturationIdx) :
    solventSaturation L (adaptSolvent L f eps T' salt' v') = solventSaturation L (adaptSolvent L f eps T salt v) := by
  by_cases hc : 0 ≤ L.solventSaturationIdx ∧ f.solventInWater
  · have hv := adaptSolvent_value (eps := eps) (T := T) (salt := salt) (v := v) hc.1 hc.2
    rw [← h1, ← h2] at hv
    have e : solventSaturation L (adaptSolvent L f eps T salt v) = solventSaturation L v' := by
      unfold solventSaturation
      rw [h1, h2]
    rw [e]
    unfold adaptSolvent
    rw [if_pos hc]
    cases hso : v'.solvent <;> dsimp only
    · rw [if_neg (hv hso (by linarith))]
    · split_ifs
      · unfold solventSaturation
        simp [PriVars.set, hso]
      · rfl
  · have off (T salt : K) (w : PriVars K) : adaptSolvent L f eps T salt w = w := by
      unfold adaptSolvent
      rw [if_neg hc]
    rw [off] at h1 h2
    rw [off, off]
    unfold solventSaturation
    rw [h1, h2]

/-- The salt concentration, and the meaning of its variable, stay, if the first call did not change the meaning. -/
theorem adaptBrine_again {v' : PriVars K} (h0 : f.saltPrecipitation → 0 ≤ L.saltConcentrationIdx)
    (hb : (adaptBrine L f eps v).1.brine = v.brine) (h1 : v'.brine = v.brine)
    (h2 : 0 ≤ L.saltConcentrationIdx → v'.val L.saltConcentrationIdx = (adaptBrine L f eps v).1.val L.saltConcentrationIdx) :
    (adaptBrine L f eps v').2 = (adaptBrine L f eps v).2 ∧ (adaptBrine L f eps v').1.brine = v.brine ∧
    (0 ≤ L.saltConcentrationIdx → (adaptBrine L f eps v').1.val L.saltConcentrationIdx =
      (adaptBrine L f eps v).1.val L.saltConcentrationIdx) := by
  by_cases hp : f.saltPrecipitation
  · have h2 := h2 (h0 hp)
    cases hbr : v.brine
    · have on (w : PriVars K) (hw : w.brine = .Cs) : adaptBrine L f eps w =
          (if f.saltSol + eps < w.val L.saltConcentrationIdx then
            { w.set L.saltConcentrationIdx 0 with brine := .Sp } else w, w.val L.saltConcentrationIdx) := by
        unfold adaptBrine
        rw [if_pos hp, hw]
      rw [on v hbr] at hb h2
      rw [on v hbr, on v' (by rw [h1, hbr])]
      by_cases hx : f.saltSol + eps < v.val L.saltConcentrationIdx
      · dsimp only at hb
        rw [if_pos hx, hbr] at hb
        cases hb
      · dsimp only at hb h2 ⊢
        rw [if_neg hx] at h2
        rw [if_neg hx, h2, if_neg hx]
        exact ⟨rfl, by rw [h1, hbr], fun _ => h2⟩
    · have on (w : PriVars K) (hw : w.brine = .Sp) : adaptBrine L f eps w =
          (if w.val L.saltConcentrationIdx < -eps then
            { w.set L.saltConcentrationIdx f.saltSol with brine := .Cs } else w, f.saltSol) := by
        unfold adaptBrine
        rw [if_pos hp, hw]
      rw [on v hbr] at hb h2
      rw [on v hbr, on v' (by rw [h1, hbr])]
      by_cases hx : v.val L.saltConcentrationIdx < -eps
      · dsimp only at hb
        rw [if_pos hx, hbr] at hb
        cases hb
      · dsimp only at hb h2 ⊢
        rw [if_neg hx] at h2
        rw [if_neg hx, h2, if_neg hx]
        exact ⟨rfl, by rw [h1, hbr], fun _ => h2⟩
    · have on (w : PriVars K) (hw : w.brine = .Disabled) : adaptBrine L f eps w = (w, 0) := by
        unfold adaptBrine
        rw [if_pos hp, hw]
      rw [on v hbr] at hb h2
      rw [on v hbr, on v' (by rw [h1, hbr])]
      exact ⟨rfl, by rw [h1, hbr], fun _ => h2⟩
  · have off (w : PriVars K) : adaptBrine L f eps w = (w, 0) := by
      unfold adaptBrine
      rw [if_neg hp]
    rw [off] at hb h2
    rw [off, off]
    exact ⟨rfl, h1, h2⟩

/-! ### What is reported -/

/-- **C54** A change is reported exactly if the meaning of the water or of the gas variable was changed, and if none is reported, neither
was that of the pressure.  Missing: the variables of salt and solvent, and cells with only water of models without a gas variable; see
the theorems below. -/
theorem C54_report_partial (hw : L.waterSwitchIdx ≠ L.pressureSwitchIdx)
    (hc : WaterFilled L f threshold v → 0 ≤ L.compositionSwitchIdx) :
    ((adapt L f swMax threshold eps v).2 = true ↔
      (adapt L f swMax threshold eps v).1.water ≠ v.water ∨ (adapt L f swMax threshold eps v).1.gas ≠ v.gas) ∧
    ((adapt L f swMax threshold eps v).2 = false → (adapt L f swMax threshold eps v).1.pressure = v.pressure) := by
  by_cases hd : v.water = .Disabled ∧ v.gas = .Disabled
  · unfold adapt
    rw [if_pos hd]
    simp
  rw [adapt_eq hd]
  obtain ⟨s1, s2, s3, -⟩ := stage_frame (L := L) (f := f) (eps := eps) (v := v)
  generalize stage L f eps v = u at s1 s2 s3
  by_cases hfill : threshold ≤ readSw L v ∧ ¬f.dissolvedGasInWater
  · rw [if_pos hfill]
    have h0 := hc hfill
    obtain ⟨a1, a2, -⟩ := adaptWaterFilled_frame (L := L) (f := f) (swMax := swMax) (sw := readSw L v) (v := u)
    rw [a1, a2, s1, s3]
    have : (adaptWaterFilled L f swMax (readSw L v) u).2 = decide (v.gas ≠ .Sg) ∧
        (adaptWaterFilled L f swMax (readSw L v) u).1.gas = .Sg := by
      unfold adaptWaterFilled
      rw [← s2]
      cases hg : u.gas <;> by_cases hwa : f.waterActive <;> simp [hwa, h0, hg, PriVars.set]
    rw [this.1, this.2]
    cases v.gas <;> simp
  · rw [if_neg hfill]
    dsimp only
    obtain ⟨w1, w2, -⟩ := adaptWater_step (L := L) (f := f) (eps := eps) (T := temperature L f v)
      (salt := (adaptBrine L f eps v).2) (pcF := pcFactor L f u) (sw := readSw L v) (sg := readSg L f v) (v := u) hw
    generalize adaptWater L f eps (temperature L f v) (adaptBrine L f eps v).2 (pcFactor L f u) (readSw L v) (readSg L f v) u = w
      at w1 w2
    obtain ⟨g1, g2, -⟩ := adaptGas_step (L := L) (f := f) (eps := eps) (T := temperature L f v)
      (pcF := pcFactor L f u) (sw := readSw L v) (sg := readSg L f v) (v := w.1)
    generalize adaptGas L f eps (temperature L f v) (pcFactor L f u) (readSw L v) (readSg L f v) w.1 = g at g1 g2
    constructor
    · rw [Bool.or_eq_true, w1.reports, g1.reports, g2, w2, s1, s2]
    · intro h
      rw [Bool.or_eq_false_iff] at h
      rw [h.1] at w1
      rw [h.2] at g1
      cases w1 with
      | same e1 => cases g1 with
        | same e2 => rw [e2, e1, s3]

/-- **C54** … is violated in models without a gas variable (two phases, one of them water): if a cell is filled with water, a change is
reported by every call, and nothing is changed. -/
theorem C54_report_twophase_violated (hf : WaterFilled L f threshold v) (hg : v.gas = .Disabled) (hw : v.water ≠ .Disabled)
    (hc : L.compositionSwitchIdx < 0) :
    (adapt L f swMax threshold eps v).2 = true ∧ (adapt L f swMax threshold eps v).1.water = v.water ∧
    (adapt L f swMax threshold eps v).1.gas = v.gas ∧ (adapt L f swMax threshold eps v).1.pressure = v.pressure := by
  rw [adapt_eq (fun h => hw h.1), if_pos (show _ ∧ _ from hf)]
  obtain ⟨s1, s2, s3, -⟩ := stage_frame (L := L) (f := f) (eps := eps) (v := v)
  generalize stage L f eps v = u at s1 s2 s3
  have h0 : ¬ (0 ≤ L.compositionSwitchIdx) := not_le.2 hc
  rw [← s1, ← s2, ← s3]
  rw [← s2] at hg
  unfold adaptWaterFilled
  by_cases hwa : f.waterActive <;> simp [hwa, h0, hg, PriVars.set]

/-- Water and oil only; the cell is full of water. -/
example : WaterFilled (twoPhase ⟨0, 0, 0, 0, false, false, 0, 0⟩ 2) demoFluid 1
    ⟨fun i => if i = 0 then 1 else 100, .Sw, .Po, .Disabled, .Disabled, .Disabled⟩ ∧
    (twoPhase ⟨0, 0, 0, 0, false, false, 0, 0⟩ 2).compositionSwitchIdx < 0 := by
  unfold WaterFilled
  decide +kernel

/-- A model in which salt precipitates; the concentration is above the limit. -/
def saltFluid : Fluid ℚ := { demoFluid with saltPrecipitation := true, saltSol := 1 }
def saltCell : PriVars ℚ :=
  ⟨fun i => if i = 0 then 1 / 5 else if i = 1 then 100 else if i = 2 then 1 / 10 else 2, .Sw, .Po, .Sg, .Cs, .Disabled⟩

/-- **C54** … is violated by salt: the meaning of its variable changes, and no change is reported. -/
theorem C54_report_brine_violated :
    let a := adapt (threePhase ⟨0, 0, 0, 0, false, true, 0, 0⟩) saltFluid 1 1 0 saltCell
    a.1.brine ≠ saltCell.brine ∧ a.2 = false := by
  decide +kernel

/-- A model in which solvent dissolves in water; there is more of it than can be dissolved. -/
def solventFluid : Fluid ℚ := { demoFluid with solventInWater := true, solubilityLimit := fun _ _ _ => 1 }
def dissolvedCell : PriVars ℚ :=
  ⟨fun i => if i = 0 then 1 / 5 else if i = 1 then 100 else if i = 2 then 1 / 10 else 2, .Sw, .Po, .Sg, .Disabled, .Rsolw⟩

/-- **C54** … is violated by solvents in the same way. -/
theorem C54_report_solvent_violated :
    let a := adapt (threePhase ⟨1, 0, 0, 0, false, false, 0, 0⟩) solventFluid 1 1 0 dissolvedCell
    a.1.solvent ≠ dissolvedCell.solvent ∧ a.2 = false := by
  decide +kernel

/-! ### The pressure -/

/-- **C54** Meanings stay compatible, unless a cell is filled with water. -/
theorem C54_compatible_partial (hw : L.waterSwitchIdx ≠ L.pressureSwitchIdx) (hf : ¬WaterFilled L f threshold v)
    (hd : f.dissolvedGasInWater → ¬f.oilActive) (h : Compatible f v) : Compatible f (adapt L f swMax threshold eps v).1 := by
  by_cases hdis : v.water = .Disabled ∧ v.gas = .Disabled
  · unfold adapt
    rw [if_pos hdis]
    exact h
  rw [adapt_eq hdis, if_neg (show ¬(_ ∧ _) from hf)]
  dsimp only
  obtain ⟨s1, s2, s3, -⟩ := stage_frame (L := L) (f := f) (eps := eps) (v := v)
  generalize stage L f eps v = u at s1 s2 s3
  obtain ⟨w1, w2, -⟩ := adaptWater_step (L := L) (f := f) (eps := eps) (T := temperature L f v)
    (salt := (adaptBrine L f eps v).2) (pcF := pcFactor L f u) (sw := readSw L v) (sg := readSg L f v) (v := u) hw
  generalize adaptWater L f eps (temperature L f v) (adaptBrine L f eps v).2 (pcFactor L f u) (readSw L v) (readSg L f v) u = w
    at w1 w2
  obtain ⟨g1, g2, -⟩ := adaptGas_step (L := L) (f := f) (eps := eps) (T := temperature L f v)
    (pcF := pcFactor L f u) (sw := readSw L v) (sg := readSg L f v) (v := w.1)
  generalize adaptGas L f eps (temperature L f v) (pcFactor L f u) (readSw L v) (readSg L f v) w.1 = g at g1 g2
  have hu : Compatible f u := by unfold Compatible; rw [s1, s2, s3]; exact h
  have hwc : Compatible f w.1 := by
    generalize w.1 = w1' at *
    generalize w.2 = b at *
    unfold Compatible at hu ⊢
    rw [w2]
    cases w1 with
    | same e => rw [e]; exact hu
    | toRvw a1 a2 a3 | fromRvw a1 a2 a3 => rw [a2, a3]; rw [a1] at hu; simpa using hu
    | toRsw a1 a2 a3 a4 a5 a6 =>
      rw [if_neg (hd a6)] at hu ⊢
      exact ⟨hu.1, Or.inl ⟨a2, a3⟩⟩
    | fromRsw a1 a2 a3 =>
      split_ifs at hu ⊢
      · exact absurd a1 hu.1
      · exact ⟨hu.1, Or.inr ⟨by rw [a2]; decide, a3⟩⟩
  generalize g.1 = g1' at *
  generalize g.2 = b at *
  unfold Compatible at hwc ⊢
  rw [g2]
  cases g1 with
  | same e => rw [e]; exact hwc
  | toRs a1 a2 a3 | fromRs a1 a2 a3 => rw [a2, a3]; rw [a1] at hwc; simpa using hwc
  | toRv a1 a2 a3 | fromRv a1 a2 a3 =>
    rw [a2, a3]
    split_ifs at hwc ⊢
    · exact ⟨hwc.1, by simp⟩
    · exact absurd (a1.symm.trans hwc.1) (by decide)

/-- A cell of gas (with vaporized oil) and too much water -/
def gasCell : PriVars ℚ :=
  ⟨fun i => if i = 0 then 3 / 2 else if i = 1 then 100 else if i = 2 then 1 / 10 else 0, .Sw, .Pg, .Rv, .Disabled, .Disabled⟩

/-- **C54** … is violated if a cell is filled with water while the gas variable is a vaporization factor: it becomes a gas saturation,
and the pressure stays that of the gas. -/
theorem C54_compatible_violated :
    let L := threePhase ⟨0, 0, 0, 0, false, false, 0, 0⟩
    Compatible demoFluid gasCell ∧ ¬Compatible demoFluid (adapt L demoFluid 1 1 0 gasCell).1 := by
  unfold Compatible
  decide +kernel

example : Compatible gasFluid plainCell ∧ ¬WaterFilled (threePhase ⟨0, 0, 0, 0, false, false, 0, 0⟩) gasFluid 1 plainCell := by
  unfold Compatible WaterFilled
  decide +kernel

/-! ### No switching back -/

/-- What the fluid must satisfy -/
structure Usual (L : Layout) (f : Fluid K) : Prop where
  nodup : L.primaryVars.Nodup
  pressure : 0 ≤ L.pressureSwitchIdx
  factors : FactorsNonneg f
  scale : f.scale ≠ 0
  salt : f.saltPrecipitation → 0 ≤ L.saltConcentrationIdx

/-- The second state is the first one as far as a layout of variables goes, except for the variables which are named. -/
theorem rest_eq (hU : Usual L f) {k : ℕ} (hk : k < 15) (k4 : k = 4 ∨ k = 14) :
    0 ≤ L.all[k]'hk → (adapt L f swMax threshold eps v).1.val (L.all[k]'hk) = v.val (L.all[k]'hk) := by
  intro h0
  have ne (j : ℕ) (hj : j < 15) (h : k ≠ j) : L.all[k]'hk ≠ L.all[j]'hj := Layout.ne hU.nodup k j h hk hj h0
  exact adapt_frame _ (ne 0 (by decide) (by omega)) (ne 1 (by decide) (by omega)) (ne 2 (by decide) (by omega))
    (ne 3 (by decide) (by omega)) (ne 13 (by decide) (by omega))
    (Layout.ne hU.nodup 1 0 (by decide) (by decide) (by decide) hU.pressure).symm

theorem temperature_again (hU : Usual L f) : temperature L f (adapt L f swMax threshold eps v).1 = temperature L f v := by
  unfold temperature
  split_ifs with h
  · exact rest_eq hU (k := 14) (by decide) (Or.inr rfl) h
  · rfl

theorem zFraction_again (hU : Usual L f) : zFraction L (adapt L f swMax threshold eps v).1 = zFraction L v := by
  unfold zFraction
  split_ifs with h
  · exact rest_eq hU (k := 4) (by decide) (Or.inl rfl) h
  · rfl

theorem rsLimit_nonneg (hF : FactorsNonneg f) {T p s : K} : 0 ≤ rsLimit L f T p s v := by
  unfold rsLimit
  split_ifs
  · exact hF.extboRs _ _
  · exact hF.rsSat _ _ _ _

theorem rvLimit_nonneg (hF : FactorsNonneg f) {T p : K} : 0 ≤ rvLimit L f T p v := by
  unfold rvLimit
  split_ifs
  · exact hF.extboRv _ _
  · exact hF.rvSat _ _ _ _

theorem limit_keeps {m l e : K} (hl : 0 ≤ l) (he : 0 ≤ e) : ¬ min m (l * (1 + e)) < min m l := by
  rw [not_lt]
  exact min_le_min le_rfl (by nlinarith [mul_nonneg hl he])

/-- The part of the gas does not undo what it did: `u2` is what it left, as far as that matters here. -/
theorem adaptGas_again {T pcF pcF' sw sg sw' : K} {u u2 : PriVars K} (hU : Usual L f) (he : 0 ≤ eps)
    (hc : 0 ≤ L.compositionSwitchIdx)
    (hch : (adaptGas L f eps T pcF sw sg u).1.gas ≠ u.gas)
    (hg : u2.gas = (adaptGas L f eps T pcF sw sg u).1.gas)
    (hv : u2.val L.compositionSwitchIdx = (adaptGas L f eps T pcF sw sg u).1.val L.compositionSwitchIdx)
    (hp : u2.val L.pressureSwitchIdx = (adaptGas L f eps T pcF sw sg u).1.val L.pressureSwitchIdx)
    (hz : zFraction L u2 = zFraction L u) (hs : solventSaturation L u2 = solventSaturation L u)
    (hsw : u.gas = .Sg ∧ u2.gas = .Rv ∨ sw' = sw) {sg' : K} (hsg : u2.gas = .Sg → sg' = u2.val L.compositionSwitchIdx) :
    (adaptGas L f eps T pcF' sw' sg' u2).1.gas = u2.gas := by
  have hne : L.compositionSwitchIdx ≠ L.pressureSwitchIdx :=
    Layout.ne hU.nodup 2 1 (by decide) (by decide) (by decide) hc
  have rs2 (p s : K) : rsLimit L f T p s u2 = rsLimit L f T p s u := by unfold rsLimit; rw [hz]
  have rv2 (p : K) (w : PriVars K) (hw : zFraction L w = zFraction L u) : rvLimit L f T p u2 = rvLimit L f T p w := by
    unfold rvLimit; rw [hz, hw]
  cases hgu : u.gas
  · -- the variable was a gas saturation
    have e : adaptGas L f eps T pcF sw sg u =
      let s := 1 - sw - solventSaturation L u
      if sg < -eps ∧ 0 < s ∧ f.dissolvedGas then
        ({ u.set L.compositionSwitchIdx (min f.maxGasDissolutionFactor (rsLimit L f T (pressure L f u) s u)) with gas := .Rs }, true)
      else if 1 - sw - solventSaturation L u - sg < -eps ∧ 0 < sg ∧ f.vaporizedOil then
        let pg := pressure L f u + pcF *
          (f.pcGas 0 (sg + solventSaturation L u) sw - f.pcOil 0 (sg + solventSaturation L u) sw)
        let v' := setScaledPressure L f { u with pressure := .Pg } pg
        ({ v'.set L.compositionSwitchIdx (min f.maxOilVaporizationFactor (rvLimit L f T pg v')) with gas := .Rv }, true)
      else (u, false) := by
      unfold adaptGas
      rw [hgu]
    rw [e] at hg hv hp hch
    dsimp only at hg hv hp hch
    by_cases c1 : sg < -eps ∧ 0 < 1 - sw - solventSaturation L u ∧ f.dissolvedGas
    · rw [if_pos c1] at hg hv hp
      have hsw : sw' = sw := by
        rcases hsw with h | h
        · rw [hg] at h; exact absurd h.2 (by simp)
        · exact h
      simp only [PriVars.set, Function.update_self] at hv hg
      simp only [PriVars.set, Function.update_of_ne hne.symm] at hp
      unfold adaptGas
      rw [hg]
      dsimp only
      rw [if_neg, hg]
      rw [hv, hsw, hs, rs2]
      unfold pressure
      rw [hp]
      exact limit_keeps (rsLimit_nonneg hU.factors) he
    · rw [if_neg c1] at hg hv hp hch
      by_cases c2 : 1 - sw - solventSaturation L u - sg < -eps ∧ 0 < sg ∧ f.vaporizedOil
      · rw [if_pos c2] at hg hv hp
        simp only [PriVars.set, Function.update_self] at hv hg
        simp only [PriVars.set, Function.update_of_ne hne.symm, setScaledPressure, Function.update_self] at hp
        unfold adaptGas
        rw [hg]
        dsimp only
        rw [if_neg, hg]
        rw [hv]
        unfold pressure
        rw [hp, div_mul_cancel₀ _ hU.scale]
        rw [rv2]
        · exact limit_keeps (rvLimit_nonneg hU.factors) he
        · unfold zFraction setScaledPressure PriVars.set
          split_ifs with h0
          · exact Function.update_of_ne (Layout.ne hU.nodup 4 1 (by decide) (by decide) (by decide) h0) _ _
          · rfl
      · rw [if_neg c2] at hch
        exact absurd rfl hch
  · -- a dissolution factor
    have e : adaptGas L f eps T pcF sw sg u =
      let so := 1 - sw - solventSaturation L u
      if min f.maxGasDissolutionFactor (rsLimit L f T (pressure L f u) so u * (1 + eps)) < u.val L.compositionSwitchIdx then
        ({ u.set L.compositionSwitchIdx 0 with gas := .Sg }, true)
      else (u, false) := by
      unfold adaptGas
      rw [hgu]
    rw [e] at hg hv hp hch
    dsimp only at hg hv hp hch
    split_ifs at hg hv hp hch with c1
    · simp only [PriVars.set, Function.update_self] at hv hg
      have h0 := hsg hg
      rw [hv] at h0
      unfold adaptGas
      rw [hg]
      dsimp only
      rw [h0, if_neg, if_neg, hg]
      · rintro ⟨-, h, -⟩
        exact lt_irrefl _ h
      · rintro ⟨h, -⟩
        linarith
    · exact absurd rfl hch
  · -- a vaporization factor
    have e : adaptGas L f eps T pcF sw sg u =
      let pg := pressure L f u
      if min f.maxOilVaporizationFactor (rvLimit L f T pg u * (1 + eps)) < u.val L.compositionSwitchIdx then
        let sg2 := 1 - sw - solventSaturation L u
        let po := pg + pcF * (f.pcOil 0 (sg2 + solventSaturation L u) sw - f.pcGas 0 (sg2 + solventSaturation L u) sw)
        ((setScaledPressure L f { u with gas := .Sg, pressure := .Po } po).set L.compositionSwitchIdx sg2, true)
      else (u, false) := by
      unfold adaptGas
      rw [hgu]
    rw [e] at hg hv hp hch
    dsimp only at hg hv hp hch
    split_ifs at hg hv hp hch with c1
    · simp only [PriVars.set, setScaledPressure, Function.update_self] at hv hg
      have h0 := hsg hg
      rw [hv] at h0
      have hsw : sw' = sw := by
        rcases hsw with h | h
        · rw [hgu] at h; exact absurd h.1 (by simp)
        · exact h
      unfold adaptGas
      rw [hg]
      dsimp only
      rw [h0, hs, hsw, if_neg, if_neg, hg]
      · rintro ⟨h, -⟩
        linarith
      · rintro ⟨h, h', -⟩
        linarith
    · exact absurd rfl hch
  · unfold adaptGas at hch
    rw [hgu] at hch
    exact absurd hgu hch

/-- The solvent saturation after the parts of the salt and the solvent of a second call is that of the first call. -/
theorem stage_solvent (hU : Usual L f) (he : 0 ≤ eps) {v' : PriVars K} (h1 : v'.solvent = (stage L f eps v).solvent)
    (h2 : 0 ≤ L.solventSaturationIdx → v'.val L.solventSaturationIdx = (stage L f eps v).val L.solventSaturationIdx) :
    solventSaturation L (stage L f eps v') = solventSaturation L (stage L f eps v) := by
  by_cases h0 : 0 ≤ L.solventSaturationIdx
  · have hne : L.solventSaturationIdx ≠ L.saltConcentrationIdx :=
      Layout.ne hU.nodup 3 13 (by decide) (by decide) (by decide) h0
    obtain ⟨-, -, -, a4, a5⟩ := adaptBrine_frame (L := L) (f := f) (eps := eps) (v := v')
    refine adaptSolvent_again he (a4.trans h1) ?_
    rw [a5 _ hne]
    exact h2 h0
  · have off (w : PriVars K) : solventSaturation L w = 0 := by
      unfold solventSaturation
      rw [if_neg (fun h => h0 h.1)]
    rw [off, off]

/-- What a call which does not find the cell filled with water leaves -/
theorem adapt_parts (hU : Usual L f) (hd : ¬(v.water = .Disabled ∧ v.gas = .Disabled)) (hfill : ¬WaterFilled L f threshold v) :
    let a := (adapt L f swMax threshold eps v).1
    let u := stage L f eps v
    let w := adaptWater L f eps (temperature L f v) (adaptBrine L f eps v).2 (pcFactor L f u) (readSw L v) (readSg L f v) u
    a = (adaptGas L f eps (temperature L f v) (pcFactor L f u) (readSw L v) (readSg L f v) w.1).1 ∧
    a.solvent = u.solvent ∧ a.brine = u.brine ∧ a.water = w.1.water ∧ w.1.gas = v.gas ∧ w.1.solvent = u.solvent ∧
    WaterStep L f eps (readSw L v) (readSg L f v) u w.1 w.2 ∧
    (∀ i, i ≠ L.compositionSwitchIdx → i ≠ L.pressureSwitchIdx → a.val i = w.1.val i) ∧
    (∀ i, i ≠ L.waterSwitchIdx → i ≠ L.pressureSwitchIdx → w.1.val i = u.val i) ∧
    L.pressureSwitchIdx ≠ L.waterSwitchIdx ∧ L.pressureSwitchIdx ≠ L.compositionSwitchIdx := by
  have n1 : L.pressureSwitchIdx ≠ L.waterSwitchIdx :=
    Layout.ne hU.nodup 1 0 (by decide) (by decide) (by decide) hU.pressure
  have n2 : L.pressureSwitchIdx ≠ L.compositionSwitchIdx :=
    Layout.ne hU.nodup 1 2 (by decide) (by decide) (by decide) hU.pressure
  obtain ⟨s1, s2, s3, s4⟩ := stage_frame (L := L) (f := f) (eps := eps) (v := v)
  intro a u w
  have ea : a = (adaptGas L f eps (temperature L f v) (pcFactor L f u) (readSw L v) (readSg L f v) w.1).1 := by
    show (adapt L f swMax threshold eps v).1 = _
    rw [adapt_eq hd, if_neg (show ¬(_ ∧ _) from hfill)]
  obtain ⟨w1, w2, w3, w4, w5⟩ := adaptWater_step (L := L) (f := f) (eps := eps) (T := temperature L f v)
    (salt := (adaptBrine L f eps v).2) (pcF := pcFactor L f u) (sw := readSw L v) (sg := readSg L f v) (v := u) n1.symm
  obtain ⟨g1, g2, g3, g4, g5⟩ := adaptGas_step (L := L) (f := f) (eps := eps) (T := temperature L f v)
    (pcF := pcFactor L f u) (sw := readSw L v) (sg := readSg L f v) (v := w.1)
  rw [← ea] at g1 g2 g3 g4 g5
  exact ⟨ea, g3.trans w3, g4.trans w4, g2, w2.trans s2, w3, w1, g5, w5, n1, n2⟩

/-- Unless gas dissolves in water, the part of the water changes no pressure. -/
theorem adaptWater_pressure {T salt pcF sw sg : K} (hn : L.pressureSwitchIdx ≠ L.waterSwitchIdx) (hd : ¬f.dissolvedGasInWater)
    (hr : v.water ≠ .Rsw) :
    (adaptWater L f eps T salt pcF sw sg v).1.val L.pressureSwitchIdx = v.val L.pressureSwitchIdx := by
  unfold adaptWater
  cases hw : v.water <;> dsimp only
  · split_ifs with h1 h2
    · simp [PriVars.set, Function.update_of_ne hn]
    · exact absurd h2.2.2 hd
    · rfl
  · split_ifs with h1
    · simp [PriVars.set, Function.update_of_ne hn]
    · rfl
  · exact absurd hw hr

/-- **C54** A switch of the gas variable is not undone by a second call. -/
theorem C54_gas_stays_partial (hU : Usual L f) (he : 0 ≤ eps) (ht : 0 < threshold) (hc : v.gas ≠ .Disabled → 0 ≤ L.compositionSwitchIdx)
    (hw : v.water ≠ .Disabled → 0 ≤ L.waterSwitchIdx) (hd : f.dissolvedGasInWater → v.gas = .Disabled)
    (hr : v.water = .Rsw → f.dissolvedGasInWater)
    (hch : (adapt L f swMax threshold eps v).1.gas ≠ v.gas) :
    (adapt L f swMax threshold eps (adapt L f swMax threshold eps v).1).1.gas = (adapt L f swMax threshold eps v).1.gas := by
  have hdis : ¬(v.water = .Disabled ∧ v.gas = .Disabled) := by
    intro h
    unfold adapt at hch
    rw [if_pos h] at hch
    exact hch rfl
  obtain ⟨s1, s2, s3, s4⟩ := stage_frame (L := L) (f := f) (eps := eps) (v := v)
  by_cases hfill : WaterFilled L f threshold v
  · -- the cell was filled with water: the gas variable is a gas saturation of zero
    have e : adapt L f swMax threshold eps v = adaptWaterFilled L f swMax (readSw L v) (stage L f eps v) := by
      rw [adapt_eq hdis, if_pos (show _ ∧ _ from hfill)]
    have h0 : 0 ≤ L.compositionSwitchIdx := by
      by_contra h0
      rw [e] at hch
      apply hch
      unfold adaptWaterFilled
      rw [← s2]
      by_cases hwa : f.waterActive <;> simp only [hwa, h0, PriVars.set, if_true, if_false, and_false, Bool.false_eq_true]
    have hg : (adapt L f swMax threshold eps v).1.gas = .Sg ∧ (adapt L f swMax threshold eps v).1.val L.compositionSwitchIdx = 0 := by
      rw [e]
      unfold adaptWaterFilled
      cases hg : (stage L f eps v).gas <;> by_cases hwa : f.waterActive <;> simp [hwa, h0, hg, PriVars.set]
    generalize (adapt L f swMax threshold eps v).1 = a at hg
    obtain ⟨t1, t2, t3, t4⟩ := stage_frame (L := L) (f := f) (eps := eps) (v := a)
    have had : ¬(a.water = .Disabled ∧ a.gas = .Disabled) := by rw [hg.1]; simp
    by_cases hf2 : WaterFilled L f threshold a
    · rw [adapt_eq had, if_pos (show _ ∧ _ from hf2), hg.1]
      unfold adaptWaterFilled
      have : (stage L f eps a).gas = .Sg := t2.trans hg.1
      by_cases hwa : f.waterActive <;> simp [hwa, h0, this, PriVars.set]
    · obtain ⟨e2, -, -, -, e3, -⟩ := adapt_parts (swMax := swMax) (eps := eps) hU had hf2
      rw [e2]
      generalize adaptWater L f eps _ _ _ _ _ _ = w at e3
      unfold adaptGas
      rw [e3, hg.1]
      dsimp only
      have : readSg L f a = 0 := by unfold readSg; rw [hg.1]; exact hg.2
      rw [this, if_neg, if_neg]
      · exact e3.trans hg.1
      · rintro ⟨-, h, -⟩
        exact lt_irrefl _ h
      · rintro ⟨h, -⟩
        linarith
  · have hp := adapt_parts (swMax := swMax) (eps := eps) hU hdis hfill
    dsimp only at hp
    have hT := temperature_again (swMax := swMax) (threshold := threshold) (eps := eps) (v := v) hU
    have hz := zFraction_again (swMax := swMax) (threshold := threshold) (eps := eps) (v := v) hU
    generalize (adapt L f swMax threshold eps v).1 = a at *
    obtain ⟨ea, a1, a2, a3, wg, wso, wst, av, wv, n1, n2⟩ := hp
    generalize adaptWater L f eps (temperature L f v) (adaptBrine L f eps v).2 (pcFactor L f (stage L f eps v)) (readSw L v)
      (readSg L f v) (stage L f eps v) = w at *
    obtain ⟨g1, -⟩ := adaptGas_step (L := L) (f := f) (eps := eps) (T := temperature L f v)
      (pcF := pcFactor L f (stage L f eps v)) (sw := readSw L v) (sg := readSg L f v) (v := w.1)
    rw [← ea] at g1
    generalize hgb : (adaptGas L f eps (temperature L f v) (pcFactor L f (stage L f eps v)) (readSw L v) (readSg L f v) w.1).2 = gb at g1
    have hgd : v.gas ≠ .Disabled := by
      intro h
      rw [← wg] at h hch
      cases g1 with
      | same e => exact hch (by rw [e])
      | toRs a1 | toRv a1 | fromRs a1 | fromRv a1 => rw [h] at a1; cases a1
    have h0 := hc hgd
    have hnd : ¬f.dissolvedGasInWater := fun h => hgd (hd h)
    have had : ¬(a.water = .Disabled ∧ a.gas = .Disabled) := by
      cases g1 with
      | same e => exact absurd (by rw [e, wg]) hch
      | toRs a1 a2 | toRv a1 a2 | fromRs a1 a2 | fromRv a1 a2 => rw [a2]; simp
    have n3 : L.waterSwitchIdx ≠ L.compositionSwitchIdx :=
      (Layout.ne hU.nodup 2 0 (by decide) (by decide) (by decide) h0).symm
    -- what is read as the water saturation
    have hsw : readSw L a = readSw L v ∨ (readSw L a = 0 ∧ v.gas = .Sg ∧ a.gas = .Rv) := by
      generalize w.2 = wb at wst
      cases wst with
      | same e =>
        left
        unfold readSw
        rw [a3, e, s1]
        cases hvw : v.water <;> dsimp only
        rw [av _ n3 n1.symm, e]
        have hw0 := hw (by rw [hvw]; decide)
        exact s4 _ (Layout.ne hU.nodup 0 13 (by decide) (by decide) (by decide) hw0)
            (Layout.ne hU.nodup 0 3 (by decide) (by decide) (by decide) hw0)
      | toRvw b1 b2 b3 b4 b5 =>
        right
        have hsg : v.gas = .Sg := by
          unfold readSg at b5
          cases hvg : v.gas <;> rw [hvg] at b5 <;> dsimp only at b5
          all_goals first | rfl | (exfalso; linarith) | exact absurd hvg hgd
        refine ⟨by unfold readSw; rw [a3, b2], hsg, ?_⟩
        cases g1 with
        | same e => exact absurd (by rw [e, wg]) hch
        | toRs c1 c2 c3 c4 => linarith
        | toRv c1 c2 => exact c2
        | fromRs c1 | fromRv c1 => rw [wg, hsg] at c1; cases c1
      | toRsw b1 b2 b3 b4 b5 b6 => exact absurd b6 hnd
      | fromRvw b1 b2 b3 b4 =>
        left
        rw [s1] at b1
        unfold readSw
        rw [a3, b1, b2]
        dsimp only
        rw [av _ n3 n1.symm, b4]
      | fromRsw b1 b2 b3 b4 =>
        left
        rw [s1] at b1
        unfold readSw
        rw [a3, b1, b2]
        dsimp only
        rw [av _ n3 n1.symm, b4]
    have hnf : ¬WaterFilled L f threshold a := by
      rintro ⟨h, -⟩
      rcases hsw with e | ⟨e, -⟩
      · rw [e] at h
        exact hfill ⟨h, hnd⟩
      · linarith
    have hp2 := adapt_parts (swMax := swMax) (eps := eps) hU had hnf
    dsimp only at hp2
    have hvr : v.water ≠ .Rsw := fun h => hnd (hr h)
    have har : a.water ≠ .Rsw := by
      rw [a3]
      generalize w.2 = wb at wst
      cases wst with
      | same e => rw [e, s1]; exact hvr
      | toRvw b1 b2 | fromRvw b1 b2 | fromRsw b1 b2 => rw [b2]; decide
      | toRsw b1 b2 b3 b4 b5 b6 => exact absurd b6 hnd
    obtain ⟨t1, t2, t3, t4⟩ := stage_frame (L := L) (f := f) (eps := eps) (v := a)
    have hpw := adaptWater_pressure (L := L) (f := f) (eps := eps) (T := temperature L f a) (salt := (adaptBrine L f eps a).2)
      (pcF := pcFactor L f (stage L f eps a)) (sw := readSw L a) (sg := readSg L f a) (v := stage L f eps a) n1 hnd (by rw [t1]; exact har)
    generalize (adapt L f swMax threshold eps a).1 = a' at *
    obtain ⟨ea', -, -, -, wg', wso', wst', -, wv', -, -⟩ := hp2
    generalize adaptWater L f eps (temperature L f a) (adaptBrine L f eps a).2 (pcFactor L f (stage L f eps a)) (readSw L a)
      (readSg L f a) (stage L f eps a) = w' at *
    have c4 (k : ℕ) (hk : k < 15) (h : k ≠ 13 := by decide) (h' : k ≠ 3 := by decide) (hk0 : 0 ≤ L.all[k]'hk) :
        (stage L f eps a).val (L.all[k]'hk) = a.val (L.all[k]'hk) :=
      t4 _ (Layout.ne hU.nodup k 13 h hk (by decide) hk0) (Layout.ne hU.nodup k 3 h' hk (by decide) hk0)
    have hsol (x y : PriVars K) (h1 : x.solvent = y.solvent)
        (h2 : ∀ i, i ≠ L.waterSwitchIdx → i ≠ L.pressureSwitchIdx → x.val i = y.val i) :
        solventSaturation L x = solventSaturation L y := by
      unfold solventSaturation
      rw [h1]
      split_ifs with h
      · exact h2 _ (Layout.ne hU.nodup 3 0 (by decide) (by decide) (by decide) h.1)
          (Layout.ne hU.nodup 3 1 (by decide) (by decide) (by decide) h.1)
      · rfl
    have hzf (x y : PriVars K) (h2 : 0 ≤ L.zFractionIdx → x.val L.zFractionIdx = y.val L.zFractionIdx) :
        zFraction L x = zFraction L y := by
      unfold zFraction
      split_ifs with h
      · exact h2 h
      · rfl
    have zw (x y : PriVars K) (h2 : ∀ i, i ≠ L.waterSwitchIdx → i ≠ L.pressureSwitchIdx → x.val i = y.val i) :
        zFraction L x = zFraction L y := hzf x y fun h =>
      h2 _ (Layout.ne hU.nodup 4 0 (by decide) (by decide) (by decide) h)
          (Layout.ne hU.nodup 4 1 (by decide) (by decide) (by decide) h)
    have zs (b : PriVars K) : zFraction L (stage L f eps b) = zFraction L b := hzf _ _ fun h =>
      (stage_frame (L := L) (f := f) (eps := eps) (v := b)).2.2.2 _ (Layout.ne hU.nodup 4 13 (by decide) (by decide) (by decide) h)
        (Layout.ne hU.nodup 4 3 (by decide) (by decide) (by decide) h)
    have wa : w'.1.gas = a.gas := wg'
    have e5 : w'.1.val L.compositionSwitchIdx = a.val L.compositionSwitchIdx := by
      rw [wv' _ n3.symm n2.symm]
      exact c4 2 (by decide) (by decide) (by decide) h0
    have e6 : w'.1.val L.pressureSwitchIdx = a.val L.pressureSwitchIdx := by
      rw [hpw]
      exact c4 1 (by decide) (by decide) (by decide) hU.pressure
    rw [ea', hT]
    refine (adaptGas_again (u := w.1) hU he h0 (T := temperature L f v) (pcF := pcFactor L f (stage L f eps v)) (sw := readSw L v)
      (sg := readSg L f v) ?_ ?_ ?_ ?_ ?_ ?_ ?_ ?_).trans wa
    · rw [← ea, wg]; exact hch
    · rw [← ea]; exact wa
    · rw [← ea]; exact e5
    · rw [← ea]; exact e6
    · rw [zw _ _ wv', zs, hz, zw _ _ wv, zs]
    · rw [hsol _ _ wso' wv', hsol _ _ wso wv]
      refine stage_solvent hU he a1 fun h => ?_
      exact (av _ (Layout.ne hU.nodup 3 2 (by decide) (by decide) (by decide) h)
          (Layout.ne hU.nodup 3 1 (by decide) (by decide) (by decide) h)).trans
        (wv _ (Layout.ne hU.nodup 3 0 (by decide) (by decide) (by decide) h)
          (Layout.ne hU.nodup 3 1 (by decide) (by decide) (by decide) h))
    · rw [wg, wa]
      rcases hsw with h | ⟨-, h1, h2⟩
      · exact Or.inr h
      · exact Or.inl ⟨h1, h2⟩
    · rw [wa]
      intro h
      unfold readSg
      rw [h]
      exact e5.symm

/-- The factors with which capillary pressures are multiplied are the same if the salt variables are. -/
theorem pcFactor_congr {x y : PriVars K} (h1 : x.brine = y.brine)
    (h2 : 0 ≤ L.saltConcentrationIdx → x.val L.saltConcentrationIdx = y.val L.saltConcentrationIdx) :
    pcFactor L f x = pcFactor L f y := by
  unfold pcFactor
  cases f.pcfact with
  | none => rfl
  | some t =>
    dsimp only
    rw [h1]
    by_cases h0 : 0 ≤ L.saltConcentrationIdx
    · rw [if_pos h0, if_pos h0, h2 h0]
    · rw [if_neg h0, if_neg h0]

/-- The salt concentration and the factor of capillary pressures of a second call are those of the first call, if that did not switch the
salt variable. -/
theorem brine_stage (hU : Usual L f) {a : PriVars K} (h1 : a.brine = v.brine) (h2 : a.brine = (stage L f eps v).brine)
    (h3 : 0 ≤ L.saltConcentrationIdx → a.val L.saltConcentrationIdx = (stage L f eps v).val L.saltConcentrationIdx) :
    (adaptBrine L f eps a).2 = (adaptBrine L f eps v).2 ∧
    pcFactor L f (stage L f eps a) = pcFactor L f (stage L f eps v) := by
  have hst (x : PriVars K) : (stage L f eps x).brine = (adaptBrine L f eps x).1.brine ∧
      (0 ≤ L.saltConcentrationIdx →
        (stage L f eps x).val L.saltConcentrationIdx = (adaptBrine L f eps x).1.val L.saltConcentrationIdx) := by
    obtain ⟨-, -, -, b4, b5⟩ := adaptSolvent_frame (L := L) (f := f) (eps := eps) (T := temperature L f x)
      (salt := (adaptBrine L f eps x).2) (v := (adaptBrine L f eps x).1)
    exact ⟨b4, fun h => b5 _ (Layout.ne hU.nodup 13 3 (by decide) (by decide) (by decide) h)⟩
  obtain ⟨c1, c2, c3⟩ := adaptBrine_again (L := L) (f := f) (eps := eps) (v := v) (v' := a) hU.salt
    (by rw [← (hst v).1, ← h2, h1]) h1 (fun h => (h3 h).trans ((hst v).2 h))
  refine ⟨c1, pcFactor_congr ?_ fun h => ?_⟩
  · rw [(hst a).1, c2, ← h2, h1]
  · rw [(hst a).2 h, c3 h, (hst v).2 h]

/-- **C54** A switch of the water variable is not undone by a second call, unless the gas or salt variable is switched, too. -/
theorem C54_water_stays_partial (hU : Usual L f) (he : 0 ≤ eps) (hw : v.water ≠ .Disabled → 0 ≤ L.waterSwitchIdx)
    (hc : v.gas ≠ .Disabled → 0 ≤ L.compositionSwitchIdx)
    (hd : f.dissolvedGasInWater → v.gas = .Disabled) (hr : v.water = .Rsw → f.dissolvedGasInWater)
    (hpo : v.gas = .Disabled → f.gasActive → v.pressure ≠ .Po)
    (hg : (adapt L f swMax threshold eps v).1.water = .Rvw → (adapt L f swMax threshold eps v).1.gas = v.gas)
    (hbr : (adapt L f swMax threshold eps v).1.water ≠ .Sw → (adapt L f swMax threshold eps v).1.brine = v.brine)
    (hch : (adapt L f swMax threshold eps v).1.water ≠ v.water) :
    (adapt L f swMax threshold eps (adapt L f swMax threshold eps v).1).1.water = (adapt L f swMax threshold eps v).1.water := by
  have hdis : ¬(v.water = .Disabled ∧ v.gas = .Disabled) := by
    intro h
    unfold adapt at hch
    rw [if_pos h] at hch
    exact hch rfl
  obtain ⟨s1, s2, s3, s4⟩ := stage_frame (L := L) (f := f) (eps := eps) (v := v)
  by_cases hfill : WaterFilled L f threshold v
  · exfalso
    apply hch
    rw [adapt_eq hdis, if_pos (show _ ∧ _ from hfill), adaptWaterFilled_frame.1, s1]
  have hp := adapt_parts (swMax := swMax) (eps := eps) hU hdis hfill
  dsimp only at hp
  have hT := temperature_again (swMax := swMax) (threshold := threshold) (eps := eps) (v := v) hU
  generalize (adapt L f swMax threshold eps v).1 = a at *
  obtain ⟨ea, a1, a2, a3, wg, wso, wst, av, wv, n1, n2⟩ := hp
  obtain ⟨t1, t2, t3, t4⟩ := stage_frame (L := L) (f := f) (eps := eps) (v := a)
  have hvd : v.water ≠ .Disabled := by
    intro h
    apply hch
    rw [a3]
    generalize adaptWater L f eps (temperature L f v) (adaptBrine L f eps v).2 (pcFactor L f (stage L f eps v)) (readSw L v)
      (readSg L f v) (stage L f eps v) = w at *
    generalize w.2 = wb at wst
    cases wst with
    | same e => rw [e, s1]
    | toRvw b1 | toRsw b1 | fromRvw b1 | fromRsw b1 => rw [s1, h] at b1; cases b1
  have h0 := hw hvd
  have n3 : L.waterSwitchIdx ≠ L.compositionSwitchIdx :=
    (Layout.ne hU.nodup 0 2 (by decide) (by decide) (by decide) h0)
  have n4 : L.waterSwitchIdx ≠ L.saltConcentrationIdx :=
    (Layout.ne hU.nodup 0 13 (by decide) (by decide) (by decide) h0)
  have n5 : L.waterSwitchIdx ≠ L.solventSaturationIdx :=
    (Layout.ne hU.nodup 0 3 (by decide) (by decide) (by decide) h0)
  have had : a.water ≠ .Disabled := by
    rw [a3]
    generalize adaptWater L f eps (temperature L f v) (adaptBrine L f eps v).2 (pcFactor L f (stage L f eps v)) (readSw L v)
      (readSg L f v) (stage L f eps v) = w at *
    generalize w.2 = wb at wst
    cases wst with
    | same e => rw [e, s1]; exact hvd
    | toRvw b1 b2 | toRsw b1 b2 | fromRvw b1 b2 | fromRsw b1 b2 => rw [b2]; decide
  have hadis : ¬(a.water = .Disabled ∧ a.gas = .Disabled) := fun h => had h.1
  by_cases hfill2 : WaterFilled L f threshold a
  · rw [adapt_eq hadis, if_pos (show _ ∧ _ from hfill2), adaptWaterFilled_frame.1, t1]
  have hp2 := adapt_parts (swMax := swMax) (eps := eps) hU hadis hfill2
  dsimp only at hp2
  rw [hp2.2.2.2.1]
  clear hp2
  -- the value which the second call finds
  have tw : (stage L f eps a).val L.waterSwitchIdx = a.val L.waterSwitchIdx := t4 _ n4 n5
  have aw := av _ n3 n1.symm
  cases haw : a.water
  · -- it became a saturation
    have hval : a.val L.waterSwitchIdx = 0 ∨ (a.val L.waterSwitchIdx = 1 ∧ v.water = .Rsw) := by
      rw [aw]
      rw [haw] at a3
      generalize adaptWater L f eps (temperature L f v) (adaptBrine L f eps v).2 (pcFactor L f (stage L f eps v)) (readSw L v)
        (readSg L f v) (stage L f eps v) = w at *
      generalize w.2 = wb at wst
      cases wst with
      | same e => rw [e, s1] at a3; rw [haw] at hch; exact absurd a3 hch
      | toRvw b1 b2 | toRsw b1 b2 => rw [b2] at a3; cases a3
      | fromRvw b1 b2 b3 b4 => exact Or.inl b4
      | fromRsw b1 b2 b3 b4 => exact Or.inr ⟨b4, s1.symm.trans b1⟩
    have hrs : readSw L a = a.val L.waterSwitchIdx := by unfold readSw; rw [haw]
    unfold adaptWater
    rw [t1, haw, hrs]
    dsimp only
    rw [if_neg, if_neg]
    · rw [t1, haw]
    · rintro ⟨h, h', h''⟩
      rcases hval with e | ⟨e, hvr⟩
      · rw [e] at h'
        linarith
      · have hgd := hd h''
        have hga : a.gas = .Disabled := by
          rw [ea]
          unfold adaptGas
          rw [wg, hgd]
          exact wg.trans hgd
        unfold readSg at h
        rw [hga, hrs, e] at h
        dsimp only at h
        split_ifs at h <;> linarith
    · rintro ⟨h, -⟩
      rcases hval with e | ⟨e, -⟩ <;> rw [e] at h <;> linarith
  · -- vaporized water
    have hgas := hg haw
    have hbrine := hbr (by rw [haw]; decide)
    have hvw : v.water = .Sw := by
      rw [haw] at a3
      generalize adaptWater L f eps (temperature L f v) (adaptBrine L f eps v).2 (pcFactor L f (stage L f eps v)) (readSw L v)
        (readSg L f v) (stage L f eps v) = w at *
      generalize w.2 = wb at wst
      cases wst with
      | same e => rw [e, s1] at a3; rw [haw] at hch; exact absurd a3 hch
      | toRsw b1 b2 | fromRvw b1 b2 | fromRsw b1 b2 => rw [b2] at a3; cases a3
      | toRvw b1 b2 => exact s1.symm.trans b1
    have eaw : a = (adaptWater L f eps (temperature L f v) (adaptBrine L f eps v).2 (pcFactor L f (stage L f eps v)) (readSw L v)
        (readSg L f v) (stage L f eps v)).1 := by
      obtain ⟨g1, -⟩ := adaptGas_step (L := L) (f := f) (eps := eps) (T := temperature L f v)
        (pcF := pcFactor L f (stage L f eps v)) (sw := readSw L v) (sg := readSg L f v)
        (v := (adaptWater L f eps (temperature L f v) (adaptBrine L f eps v).2 (pcFactor L f (stage L f eps v)) (readSw L v)
          (readSg L f v) (stage L f eps v)).1)
      rw [← ea] at g1
      generalize (adaptGas L f eps _ _ _ _ _).2 = gb at g1
      cases g1 with
      | same e => exact e
      | toRs c1 c2 | toRv c1 c2 | fromRs c1 c2 | fromRv c1 c2 => rw [wg, ← hgas, c2] at c1; cases c1
    have hsalt : 0 ≤ L.saltConcentrationIdx → a.val L.saltConcentrationIdx = (stage L f eps v).val L.saltConcentrationIdx := fun h => by
      rw [eaw]
      exact wv _ (Layout.ne hU.nodup 13 0 (by decide) (by decide) (by decide) h)
        (Layout.ne hU.nodup 13 1 (by decide) (by decide) (by decide) h)
    obtain ⟨x1, x2⟩ := brine_stage hU hbrine a2 hsalt
    have x3 := stage_solvent (v := v) hU he a1 fun h => by
      rw [eaw]
      exact wv _ (Layout.ne hU.nodup 3 0 (by decide) (by decide) (by decide) h)
        (Layout.ne hU.nodup 3 1 (by decide) (by decide) (by decide) h)
    have x4 : (stage L f eps a).val L.pressureSwitchIdx = a.val L.pressureSwitchIdx :=
      t4 _ (Layout.ne hU.nodup 1 13 (by decide) (by decide) (by decide) hU.pressure)
        (Layout.ne hU.nodup 1 3 (by decide) (by decide) (by decide) hU.pressure)
    rw [x1, x2, hT]
    generalize hsv : stage L f eps v = u at *
    generalize stage L f eps a = u2 at *
    have ewr : adaptWater L f eps (temperature L f v) (adaptBrine L f eps v).2 (pcFactor L f u) (readSw L v) (readSg L f v) u =
        if readSw L v < -eps ∧ eps < readSg L f v ∧ f.vaporizedWater then
          ({ u.set L.waterSwitchIdx (f.rvwSat (temperature L f v) (gasPressureForWater L f (pcFactor L f u) (readSg L f v) u)
            (adaptBrine L f eps v).2) with water := .Rvw }, true)
        else if readSg L f v < -eps ∧ eps < readSw L v ∧ f.dissolvedGasInWater then
          let so := 1 - readSw L v - solventSaturation L u
          let pw := pressure L f u + pcFactor L f u * (f.pcWater so 0 (readSw L v) - f.pcGas so 0 (readSw L v))
          (setScaledPressure L f
            { u.set L.waterSwitchIdx (min (f.rswSat (temperature L f v) pw (adaptBrine L f eps v).2) f.maxGasDissolutionFactor) with
              water := .Rsw, pressure := .Pw } pw, true)
        else (u, false) := by
      unfold adaptWater
      rw [s1, hvw]
    rw [ewr] at eaw
    by_cases c1 : readSw L v < -eps ∧ eps < readSg L f v ∧ f.vaporizedWater
    swap
    · exfalso
      rw [if_neg c1] at eaw
      dsimp only at eaw
      split_ifs at eaw
      · rw [eaw] at haw; cases haw
      · rw [eaw, s1, hvw] at haw; cases haw
    rw [if_pos c1] at eaw
    dsimp only at eaw
    have y1 : a.val L.waterSwitchIdx = f.rvwSat (temperature L f v)
        (gasPressureForWater L f (pcFactor L f u) (readSg L f v) u) (adaptBrine L f eps v).2 := by
      rw [eaw]; simp [PriVars.set]
    have y2 : a.val L.pressureSwitchIdx = u.val L.pressureSwitchIdx := by
      rw [eaw]; simp [PriVars.set, Function.update_of_ne n1]
    have y3 : a.pressure = u.pressure := by rw [eaw]; simp [PriVars.set]
    have y4 : gasPressureForWater L f (pcFactor L f u) (readSg L f a) u2 =
        gasPressureForWater L f (pcFactor L f u) (readSg L f v) u := by
      have hpp : pressure L f u2 = pressure L f u := by unfold pressure; rw [x4, y2]
      unfold gasPressureForWater
      rw [hpp, t3, y3]
      by_cases hpo' : u.pressure = .Po
      · rw [if_pos hpo', if_pos hpo', x3]
        have : readSg L f a = readSg L f v := by
          unfold readSg
          rw [hgas]
          cases hvg : v.gas <;> dsimp only
          · have hc0 := hc (by rw [hvg]; decide)
            have : a.val L.compositionSwitchIdx = u.val L.compositionSwitchIdx := by
              rw [eaw]; simp [PriVars.set, Function.update_of_ne n3.symm]
            rw [this]
            exact s4 _ (Layout.ne hU.nodup 2 13 (by decide) (by decide) (by decide) hc0)
              (Layout.ne hU.nodup 2 3 (by decide) (by decide) (by decide) hc0)
          · by_cases hga : f.gasActive
            · exact absurd (s3 ▸ hpo') (hpo hvg hga)
            · simp [hga]
        rw [this]
      · rw [if_neg hpo', if_neg hpo']
    unfold adaptWater
    rw [t1, haw]
    dsimp only
    rw [y4, tw, y1, if_neg]
    · rw [t1, haw]
    · rw [not_lt]
      nlinarith [hU.factors.rvwSat (temperature L f v) (gasPressureForWater L f (pcFactor L f u) (readSg L f v) u) (adaptBrine L f eps v).2]
  · -- dissolved gas in water
    have hbrine := hbr (by rw [haw]; decide)
    have hvw : v.water = .Sw ∧ f.dissolvedGasInWater := by
      rw [haw] at a3
      generalize adaptWater L f eps (temperature L f v) (adaptBrine L f eps v).2 (pcFactor L f (stage L f eps v)) (readSw L v)
        (readSg L f v) (stage L f eps v) = w at *
      generalize w.2 = wb at wst
      cases wst with
      | same e => rw [e, s1] at a3; rw [haw] at hch; exact absurd a3 hch
      | toRvw b1 b2 | fromRvw b1 b2 | fromRsw b1 b2 => rw [b2] at a3; cases a3
      | toRsw b1 b2 b3 b4 b5 b6 => exact ⟨s1.symm.trans b1, b6⟩
    have hgd := hd hvw.2
    have eaw : a = (adaptWater L f eps (temperature L f v) (adaptBrine L f eps v).2 (pcFactor L f (stage L f eps v)) (readSw L v)
        (readSg L f v) (stage L f eps v)).1 := by
      rw [ea]
      unfold adaptGas
      rw [wg, hgd]
    have hsalt : 0 ≤ L.saltConcentrationIdx → a.val L.saltConcentrationIdx = (stage L f eps v).val L.saltConcentrationIdx := fun h => by
      rw [eaw]
      exact wv _ (Layout.ne hU.nodup 13 0 (by decide) (by decide) (by decide) h)
        (Layout.ne hU.nodup 13 1 (by decide) (by decide) (by decide) h)
    obtain ⟨x1, x2⟩ := brine_stage hU hbrine a2 hsalt
    have x4 : (stage L f eps a).val L.pressureSwitchIdx = a.val L.pressureSwitchIdx :=
      t4 _ (Layout.ne hU.nodup 1 13 (by decide) (by decide) (by decide) hU.pressure)
        (Layout.ne hU.nodup 1 3 (by decide) (by decide) (by decide) hU.pressure)
    rw [x1, x2, hT]
    generalize hsv : stage L f eps v = u at *
    generalize stage L f eps a = u2 at *
    have ewr : adaptWater L f eps (temperature L f v) (adaptBrine L f eps v).2 (pcFactor L f u) (readSw L v) (readSg L f v) u =
        if readSw L v < -eps ∧ eps < readSg L f v ∧ f.vaporizedWater then
          ({ u.set L.waterSwitchIdx (f.rvwSat (temperature L f v) (gasPressureForWater L f (pcFactor L f u) (readSg L f v) u)
            (adaptBrine L f eps v).2) with water := .Rvw }, true)
        else if readSg L f v < -eps ∧ eps < readSw L v ∧ f.dissolvedGasInWater then
          let so := 1 - readSw L v - solventSaturation L u
          let pw := pressure L f u + pcFactor L f u * (f.pcWater so 0 (readSw L v) - f.pcGas so 0 (readSw L v))
          (setScaledPressure L f
            { u.set L.waterSwitchIdx (min (f.rswSat (temperature L f v) pw (adaptBrine L f eps v).2) f.maxGasDissolutionFactor) with
              water := .Rsw, pressure := .Pw } pw, true)
        else (u, false) := by
      unfold adaptWater
      rw [s1, hvw.1]
    rw [ewr] at eaw
    by_cases c1 : readSw L v < -eps ∧ eps < readSg L f v ∧ f.vaporizedWater
    · exfalso
      rw [if_pos c1] at eaw
      rw [eaw] at haw
      cases haw
    rw [if_neg c1] at eaw
    by_cases c2 : readSg L f v < -eps ∧ eps < readSw L v ∧ f.dissolvedGasInWater
    swap
    · exfalso
      rw [if_neg c2] at eaw
      rw [eaw] at haw
      dsimp only at haw
      rw [s1, hvw.1] at haw
      cases haw
    rw [if_pos c2] at eaw
    dsimp only at eaw
    generalize pressure L f u + pcFactor L f u * (f.pcWater (1 - readSw L v - solventSaturation L u) 0 (readSw L v) -
      f.pcGas (1 - readSw L v - solventSaturation L u) 0 (readSw L v)) = pw at *
    have y1 : a.val L.waterSwitchIdx = min (f.rswSat (temperature L f v) pw (adaptBrine L f eps v).2) f.maxGasDissolutionFactor := by
      rw [eaw]; simp [PriVars.set, setScaledPressure, Function.update_of_ne n1.symm]
    have y2 : pressure L f u2 = pw := by
      unfold pressure
      rw [x4, eaw]
      simp [PriVars.set, setScaledPressure, div_mul_cancel₀ _ hU.scale]
    unfold adaptWater
    rw [t1, haw]
    dsimp only
    rw [y2, tw, y1, if_neg (lt_irrefl _), t1, haw]
  · exact absurd haw had

/-- Gas and oil can go into each other; the gas saturation is negative. -/
example : Usual (threePhase ⟨0, 0, 0, 0, false, false, 0, 0⟩) gasFluid ∧
    (adapt (threePhase ⟨0, 0, 0, 0, false, false, 0, 0⟩) gasFluid 1 1 0
      ⟨fun i => if i = 0 then 1 / 5 else if i = 1 then 100 else -1 / 10, .Sw, .Po, .Sg, .Disabled, .Disabled⟩).1.gas = .Rs := by
  refine ⟨⟨by decide, by decide, ⟨?_, ?_, ?_, ?_, ?_, ?_, ?_, by decide +kernel, by decide +kernel⟩, by decide +kernel, by decide⟩, by decide +kernel⟩ <;>
  intros <;> simp [gasFluid, demoFluid]

/-- A model in which water and oil go into gas; the capillary pressure of gas falls with the oil saturation. -/
def vaporFluid : Fluid ℚ :=
  { demoFluid with vaporizedWater := true, vaporizedOil := true, rvwSat := fun _ p _ => max p 0, pcGas := fun so _ _ => -so }
/-- A cell with more than enough gas and a negative water saturation -/
def vaporCell : PriVars ℚ :=
  ⟨fun i => if i = 0 then -1 / 10 else if i = 1 then 100 else 3 / 2, .Sw, .Po, .Sg, .Disabled, .Disabled⟩

example : ((adapt (threePhase ⟨0, 0, 0, 0, false, false, 0, 0⟩) { vaporFluid with vaporizedOil := false } 1 1 0 vaporCell).1.water,
    (adapt (threePhase ⟨0, 0, 0, 0, false, false, 0, 0⟩) { vaporFluid with vaporizedOil := false } 1 1 0 vaporCell).1.gas) =
    (.Rvw, .Sg) := by
  decide +kernel

/-- **C54** … is violated if both are switched: the first call makes the water variable a vaporization factor at the gas pressure which
belongs to the saturations, the second one finds the factor too large for the gas pressure at zero oil saturation which the switch of the
gas variable used, and switches back. -/
theorem C54_stays_violated :
    let L := threePhase ⟨0, 0, 0, 0, false, false, 0, 0⟩
    Usual L vaporFluid ∧ Compatible vaporFluid vaporCell ∧
    let a := (adapt L vaporFluid 1 1 0 vaporCell).1
    vaporCell.water = .Sw ∧ a.water = .Rvw ∧ (adapt L vaporFluid 1 1 0 a).1.water = .Sw ∧
      (adapt L vaporFluid 1 1 (1 / 100000) a).1.water = .Sw := by
  refine ⟨⟨by decide, by decide, ⟨?_, ?_, ?_, ?_, ?_, ?_, ?_, by decide +kernel, by decide +kernel⟩, by decide +kernel, by decide⟩, ?_, ?_⟩
  · intro a b c
    exact le_max_right _ _
  all_goals first | (intros; simp [vaporFluid, demoFluid]; done) | (unfold Compatible; decide +kernel) | decide +kernel

/-- What is left of the salt variable -/
theorem adapt_brine (hU : Usual L f) (hd : ¬(v.water = .Disabled ∧ v.gas = .Disabled)) :
    (adapt L f swMax threshold eps v).1.brine = (adaptBrine L f eps v).1.brine ∧
    (0 ≤ L.saltConcentrationIdx →
      (adapt L f swMax threshold eps v).1.val L.saltConcentrationIdx = (adaptBrine L f eps v).1.val L.saltConcentrationIdx) := by
  have ne (j : ℕ) (hj : j < 15) (h : 13 ≠ j) (h0 : 0 ≤ L.saltConcentrationIdx) : L.saltConcentrationIdx ≠ L.all[j]'hj :=
    Layout.ne hU.nodup 13 j h (by decide) hj h0
  obtain ⟨-, -, -, b4, b5⟩ := adaptSolvent_frame (L := L) (f := f) (eps := eps) (T := temperature L f v)
    (salt := (adaptBrine L f eps v).2) (v := (adaptBrine L f eps v).1)
  by_cases hf : WaterFilled L f threshold v
  · rw [adapt_eq hd, if_pos (show _ ∧ _ from hf)]
    obtain ⟨-, -, -, c4, -, c5, -⟩ := adaptWaterFilled_frame (L := L) (f := f) (swMax := swMax) (sw := readSw L v) (v := stage L f eps v)
    exact ⟨c4.trans b4, fun h => (c5 _ (ne 0 (by decide) (by decide) h) (ne 2 (by decide) (by decide) h)).trans
      (b5 _ (ne 3 (by decide) (by decide) h))⟩
  · obtain ⟨-, -, c3, -, -, -, -, c4, c5, -⟩ := adapt_parts (swMax := swMax) (eps := eps) hU hd hf
    exact ⟨c3.trans b4, fun h => ((c4 _ (ne 2 (by decide) (by decide) h) (ne 1 (by decide) (by decide) h)).trans
      (c5 _ (ne 0 (by decide) (by decide) h) (ne 1 (by decide) (by decide) h))).trans (b5 _ (ne 3 (by decide) (by decide) h))⟩

/-- **C54** A switch of the salt variable is not undone by a second call. -/
theorem C54_salt_stays (hU : Usual L f) (he : 0 ≤ eps) (hch : (adapt L f swMax threshold eps v).1.brine ≠ v.brine) :
    (adapt L f swMax threshold eps (adapt L f swMax threshold eps v).1).1.brine = (adapt L f swMax threshold eps v).1.brine := by
  by_cases hd : v.water = .Disabled ∧ v.gas = .Disabled
  · unfold adapt at hch
    rw [if_pos hd] at hch
    exact absurd rfl hch
  obtain ⟨h1, h2⟩ := adapt_brine (swMax := swMax) (threshold := threshold) (eps := eps) hU hd
  generalize (adapt L f swMax threshold eps v).1 = a at *
  by_cases hd2 : a.water = .Disabled ∧ a.gas = .Disabled
  · unfold adapt
    rw [if_pos hd2]
  rw [(adapt_brine hU hd2).1]
  rw [h1] at hch
  by_cases hs : f.saltPrecipitation
  · have h2 := h2 (hU.salt hs)
    unfold adaptBrine at h1 h2 hch
    rw [if_pos hs] at h1 h2 hch
    unfold adaptBrine
    rw [if_pos hs]
    cases hb : v.brine <;> rw [hb] at h1 h2 hch <;> dsimp only at h1 h2 hch
    · by_cases hx : f.saltSol + eps < v.val L.saltConcentrationIdx
      · rw [if_pos hx] at h1 h2 hch
        simp only [PriVars.set, Function.update_self] at h1 h2
        rw [h1, h2]
        dsimp only
        rw [if_neg (by linarith), h1]
      · rw [if_neg hx] at hch
        exact absurd hb hch
    · by_cases hx : v.val L.saltConcentrationIdx < -eps
      · rw [if_pos hx] at h1 h2 hch
        simp only [PriVars.set, Function.update_self] at h1 h2
        rw [h1, h2]
        dsimp only
        rw [if_neg (by linarith), h1]
      · rw [if_neg hx] at hch
        exact absurd hb hch
    · exact absurd hb hch
  · unfold adaptBrine at hch
    rw [if_neg hs] at hch
    exact absurd rfl hch

example : (adapt (threePhase ⟨0, 0, 0, 0, false, true, 0, 0⟩) saltFluid 1 1 0 saltCell).1.brine = .Sp := by
  decide +kernel

end Verif.BlackOil
