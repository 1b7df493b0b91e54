import Verif.BlackOil.AssignProps

/-
C79: phases appear continuously.  C80: a fluid state in equilibrium is not switched.
-/

set_option autoImplicit false
set_option linter.unusedSectionVars false
set_option linter.unusedSimpArgs false

namespace Verif.BlackOil

variable {K : Type} [Field K] [LinearOrder K] [IsStrictOrderedRing K]
variable {L : Layout} {f : Fluid K} {v : PriVars K} {fs : FluidState K} {swMax threshold eps : K}

/-! ### Phases appear continuously -/

/-- Without solvent and solid salt, only water and gas are switched. -/
theorem stage_plain (hs : L.solventSaturationIdx < 0) (hp : f.saltPrecipitation = false) : stage L f eps v = v ∧ (adaptBrine L f eps v).2 = 0 := by
  have h : ¬ (0 ≤ L.solventSaturationIdx) := not_le.2 hs
  unfold stage adaptSolvent adaptBrine
  simp [h, hp]

/-- The capillary pressure of the phase whose pressure is the variable -/
def refPc (m : PressureMeaning) (pc : K × K × K) : K := match m with | .Po => pc.1 | .Pg => pc.2.1 | .Pw => pc.2.2

theorem readPressures_congr {a b : PriVars K} (hS : saturations L f a = saturations L f b) (hF : pcFactor L f a = pcFactor L f b)
    (hp : pressure L f a - refPc a.pressure (readPc L f b) = pressure L f b - refPc b.pressure (readPc L f b)) :
    readPressures L f a = readPressures L f b := by
  have hpc : readPc L f a = readPc L f b := by unfold readPc; rw [hS, hF]
  have e (x : PriVars K) : readPressures L f x = (pressure L f x + ((readPc L f x).1 - refPc x.pressure (readPc L f x)),
      pressure L f x + ((readPc L f x).2.1 - refPc x.pressure (readPc L f x)),
      pressure L f x + ((readPc L f x).2.2 - refPc x.pressure (readPc L f x))) := by
    unfold readPressures refPc
    cases x.pressure <;> rfl
  rw [e a, e b, hpc]
  refine Prod.ext ?_ (Prod.ext ?_ ?_) <;> dsimp only <;> linarith

theorem readPc_plain (hs : L.solventSaturationIdx < 0) : readPc L f v =
    (pcFactor L f v * f.pcOil (saturations L f v).oil (saturations L f v).gas (saturations L f v).water,
      pcFactor L f v * f.pcGas (saturations L f v).oil (saturations L f v).gas (saturations L f v).water,
      pcFactor L f v * f.pcWater (saturations L f v).oil (saturations L f v).gas (saturations L f v).water) := by
  have : gasSatForPc (saturations L f v) = (saturations L f v).gas := by
    unfold gasSatForPc
    rw [(saturations_plain (f := f) (v := v) hs).2.2.2]
    simp
  unfold readPc
  dsimp only
  rw [this]

theorem solventSaturation_zero (hs : L.solventSaturationIdx < 0) : solventSaturation L v = 0 := by
  unfold solventSaturation
  rw [if_neg (fun h => not_le.2 hs h.1)]

theorem water_appears {T salt sw sg : K} (h : Fits L f v) (hc : Compatible f v) (hsc : f.scale ≠ 0)
    (hsaltIdx : 0 ≤ L.saltConcentrationIdx → L.saltConcentrationIdx ≠ L.waterSwitchIdx ∧ L.saltConcentrationIdx ≠ L.pressureSwitchIdx)
    (hw : (adaptWater L f eps T salt (pcFactor L f v) sw sg v).1.water = v.water ∨ v.water = .Rvw ∨ v.water = .Rsw) :
    saturations L f (adaptWater L f eps T salt (pcFactor L f v) sw sg v).1 = saturations L f v ∧
    readPressures L f (adaptWater L f eps T salt (pcFactor L f v) sw sg v).1 = readPressures L f v ∧
    pcFactor L f (adaptWater L f eps T salt (pcFactor L f v) sw sg v).1 = pcFactor L f v ∧
    (v.gas = .Rv → (adaptWater L f eps T salt (pcFactor L f v) sw sg v).1.pressure = v.pressure) := by
  have p0 : L.waterSwitchIdx ≠ L.pressureSwitchIdx :=
    (Layout.ne h.nodup 1 0 (by decide) (by decide) (by decide) h.pressure.1).symm
  have p2 : L.pressureSwitchIdx ≠ L.compositionSwitchIdx :=
    Layout.ne h.nodup 1 2 (by decide) (by decide) (by decide) h.pressure.1
  have w2 (k : v.water ≠ .Disabled) : L.waterSwitchIdx ≠ L.compositionSwitchIdx :=
    Layout.ne h.nodup 0 2 (by decide) (by decide) (by decide) (h.water k).1
  have hz := solventSaturation_zero (v := v) h.solvent.1
  obtain ⟨W, -, -, hbr, hval⟩ := adaptWater_step (L := L) (f := f) (eps := eps) (T := T) (salt := salt) (pcF := pcFactor L f v)
    (sw := sw) (sg := sg) (v := v) p0
  have hF : pcFactor L f (adaptWater L f eps T salt (pcFactor L f v) sw sg v).1 = pcFactor L f v := by
    exact pcFactor_congr hbr fun hs => hval _ (hsaltIdx hs).1 (hsaltIdx hs).2
  have hwhat : (adaptWater L f eps T salt (pcFactor L f v) sw sg v).1 = v ∨
      v.water = .Rvw ∧ (adaptWater L f eps T salt (pcFactor L f v) sw sg v).1 = { v.set L.waterSwitchIdx 0 with water := .Sw } ∨
      v.water = .Rsw ∧ (adaptWater L f eps T salt (pcFactor L f v) sw sg v).1 =
        setScaledPressure L f { v.set L.waterSwitchIdx 1 with water := .Sw, pressure := .Pg }
          (pressure L f v + pcFactor L f v * (f.pcGas 0 0 1 - f.pcWater 0 0 1)) := by
    cases hv : v.water
    · rw [hv] at hw
      simp only [reduceCtorEq, or_false] at hw
      left
      unfold adaptWater at hw ⊢
      rw [hv] at hw ⊢
      dsimp only at hw ⊢
      split_ifs at hw ⊢ <;> simp_all [setScaledPressure, PriVars.set]
    · unfold adaptWater
      rw [hv]
      dsimp only
      split_ifs <;> simp
    · unfold adaptWater
      rw [hv]
      dsimp only
      split_ifs <;> simp
    · left
      unfold adaptWater
      rw [hv]
  rcases hwhat with e | ⟨hv, e⟩ | ⟨hv, e⟩
  · rw [e]
    exact ⟨rfl, rfl, rfl, fun _ => rfl⟩
  · rw [e] at hF ⊢
    have hS : saturations L f { v.set L.waterSwitchIdx 0 with water := .Sw } = saturations L f v := by
      have k := w2 (by rw [hv]; decide)
      unfold saturations
      rw [hv]
      have : ¬ (0 ≤ L.solventSaturationIdx) := not_le.2 h.solvent.1
      simp [PriVars.set, k.symm, this]
    refine ⟨hS, readPressures_congr hS hF ?_, hF, fun _ => rfl⟩
    unfold pressure
    simp [PriVars.set, p0.symm]
  · have hg := h.gasInWater (h.rsw hv)
    have hgd : v.gas = .Disabled := by
      by_contra hne
      rw [(h.gas hne).2.2.2] at hg
      exact absurd hg.1 (by decide)
    have hwa := (h.water (by rw [hv]; decide)).2.2.1
    have hcp : v.pressure = .Pw := by
      unfold Compatible at hc
      rw [if_neg (by rw [hg.1]; decide)] at hc
      rcases hc.2 with k | k
      · exact k.2
      · exact absurd hv k.1
    rw [e] at hF ⊢
    have hS : saturations L f (setScaledPressure L f { v.set L.waterSwitchIdx 1 with water := .Sw, pressure := .Pg }
          (pressure L f v + pcFactor L f v * (f.pcGas 0 0 1 - f.pcWater 0 0 1))) = saturations L f v := by
      unfold saturations
      rw [hv]
      have : ¬ (0 ≤ L.solventSaturationIdx) := not_le.2 h.solvent.1
      simp [PriVars.set, setScaledPressure, this, hgd, p0]
    have hSv : saturations L f v = ⟨1, 0, 0, 0⟩ := by
      unfold saturations
      rw [hv]
      have : ¬ (0 ≤ L.solventSaturationIdx) := not_le.2 h.solvent.1
      simp [this, hgd, hg.1, hg.2, hwa]
    refine ⟨hS, readPressures_congr hS hF ?_, hF, fun k => ?_⟩
    · rw [readPc_plain h.solvent.1, hSv, hcp]
      unfold pressure
      simp only [PriVars.set, setScaledPressure, refPc, Function.update_self, div_mul_cancel₀ _ hsc]
      ring
    · rw [hgd] at k
      cases k

theorem gas_appears {T sw sg : K} (h : Fits L f v) (hsc : f.scale ≠ 0) {u : PriVars K} (hug : u.gas = v.gas)
    (hpg : v.gas = .Rv → u.pressure = .Pg)
    (hu : saturations L f u = saturations L f v) (hsw : v.gas = .Rv → sw = (saturations L f v).water)
    (hsaltIdx : 0 ≤ L.saltConcentrationIdx → L.saltConcentrationIdx ≠ L.compositionSwitchIdx ∧ L.saltConcentrationIdx ≠ L.pressureSwitchIdx)
    (hw : (adaptGas L f eps T (pcFactor L f u) sw sg u).1.gas = u.gas ∨ u.gas = .Rs ∨ u.gas = .Rv) :
    saturations L f (adaptGas L f eps T (pcFactor L f u) sw sg u).1 = saturations L f u ∧
    readPressures L f (adaptGas L f eps T (pcFactor L f u) sw sg u).1 = readPressures L f u := by
  have p2 : L.pressureSwitchIdx ≠ L.compositionSwitchIdx :=
    Layout.ne h.nodup 1 2 (by decide) (by decide) (by decide) h.pressure.1
  have p0 : L.pressureSwitchIdx ≠ L.waterSwitchIdx :=
    Layout.ne h.nodup 1 0 (by decide) (by decide) (by decide) h.pressure.1
  have w2 (k : v.gas ≠ .Disabled) : L.compositionSwitchIdx ≠ L.waterSwitchIdx :=
    Layout.ne h.nodup 2 0 (by decide) (by decide) (by decide) (h.gas k).1
  have hz := solventSaturation_zero (v := u) h.solvent.1
  obtain ⟨-, -, -, hbr, hval⟩ := adaptGas_step (L := L) (f := f) (eps := eps) (T := T) (pcF := pcFactor L f u)
    (sw := sw) (sg := sg) (v := u)
  have hF : pcFactor L f (adaptGas L f eps T (pcFactor L f u) sw sg u).1 = pcFactor L f u := by
    exact pcFactor_congr hbr fun hs => hval _ (hsaltIdx hs).1 (hsaltIdx hs).2
  have hwhat : (adaptGas L f eps T (pcFactor L f u) sw sg u).1 = u ∨
      u.gas = .Rs ∧ (adaptGas L f eps T (pcFactor L f u) sw sg u).1 = { u.set L.compositionSwitchIdx 0 with gas := .Sg } ∨
      u.gas = .Rv ∧ (adaptGas L f eps T (pcFactor L f u) sw sg u).1 =
        (setScaledPressure L f { u with gas := .Sg, pressure := .Po }
          (pressure L f u + pcFactor L f u * (f.pcOil 0 (1 - sw) sw - f.pcGas 0 (1 - sw) sw))).set L.compositionSwitchIdx (1 - sw) := by
    cases hv : u.gas
    · rw [hv] at hw
      simp only [reduceCtorEq, or_false] at hw
      left
      unfold adaptGas at hw ⊢
      rw [hv] at hw ⊢
      dsimp only at hw ⊢
      split_ifs at hw ⊢ <;> simp_all [setScaledPressure, PriVars.set]
    · unfold adaptGas
      rw [hv]
      dsimp only
      split_ifs <;> simp
    · unfold adaptGas
      rw [hv, hz]
      dsimp only
      split_ifs <;> simp
    · left
      unfold adaptGas
      rw [hv]
  rcases hwhat with e | ⟨hv, e⟩ | ⟨hv, e⟩
  · rw [e]
    exact ⟨rfl, rfl⟩
  · rw [e] at hF ⊢
    have k := w2 (by rw [← hug, hv]; decide)
    have hS : saturations L f { u.set L.compositionSwitchIdx 0 with gas := .Sg } = saturations L f u := by
      unfold saturations
      rw [hv]
      have : ¬ (0 ≤ L.solventSaturationIdx) := not_le.2 h.solvent.1
      simp [PriVars.set, k.symm, this]
    refine ⟨hS, readPressures_congr hS hF ?_⟩
    unfold pressure
    simp [PriVars.set, p2]
  · rw [hug] at hv
    have k := w2 (by rw [hv]; decide)
    have hga := (h.gas (by rw [hv]; decide)).2.2
    have hP := hpg hv
    have hS : saturations L f ((setScaledPressure L f { u with gas := .Sg, pressure := .Po }
          (pressure L f u + pcFactor L f u * (f.pcOil 0 (1 - sw) sw - f.pcGas 0 (1 - sw) sw))).set L.compositionSwitchIdx (1 - sw)) =
        saturations L f u := by
      have hsw' : sw = (saturations L f u).water := by rw [hu]; exact hsw hv
      unfold saturations at hsw' ⊢
      rw [hug, hv]
      have : ¬ (0 ≤ L.solventSaturationIdx) := not_le.2 h.solvent.1
      simp only [PriVars.set, setScaledPressure, this, Function.update_of_ne k.symm, Function.update_of_ne p0.symm, Function.update_self,
        hga.1, hga.2, if_true, false_and, if_false, sub_zero] at hsw' ⊢
      rw [← hsw']
    rw [e] at hF ⊢
    have hSu : saturations L f u = ⟨sw, 0, 1 - sw, 0⟩ := by
      obtain ⟨x1, x2, x3, x4⟩ := saturations_plain (f := f) (v := u) h.solvent.1
      have y1 : (saturations L f u).water = sw := by rw [hu]; exact (hsw hv).symm
      have y2 : (saturations L f u).gas = 1 - sw := by rw [x2, y1, hug, hv, if_pos hga.1]
      have y3 : (saturations L f u).oil = 0 := by rw [x3, y1, y2, if_pos hga.2]; ring
      generalize saturations L f u = s at *
      cases s
      dsimp only at y1 y2 y3 x4
      rw [y1, y2, y3, x4]
    refine ⟨hS, readPressures_congr hS hF ?_⟩
    rw [readPc_plain h.solvent.1, hSu, hP]
    unfold pressure
    simp only [PriVars.set, setScaledPressure, refPc, Function.update_self, Function.update_of_ne p2, div_mul_cancel₀ _ hsc]
    ring

/-- **C79** If phases appear but none vanishes, then the saturations and the pressures of all phases which are read from the variables
are the same before and after, for every capillary pressure law.  Missing: solvents (see below), cells filled with water, models in which
salt precipitates. -/
theorem C79_appear_continuously_partial (h : Fits L f v) (hc : Compatible f v) (hsc : f.scale ≠ 0) (hp : f.saltPrecipitation = false)
    (hf : ¬WaterFilled L f threshold v)
    (hw : (adapt L f swMax threshold eps v).1.water = v.water ∨ v.water = .Rvw ∨ v.water = .Rsw)
    (hg : (adapt L f swMax threshold eps v).1.gas = v.gas ∨ v.gas = .Rs ∨ v.gas = .Rv) :
    saturations L f (adapt L f swMax threshold eps v).1 = saturations L f v ∧
    readPressures L f (adapt L f swMax threshold eps v).1 = readPressures L f v := by
  by_cases hd : v.water = .Disabled ∧ v.gas = .Disabled
  · unfold adapt
    rw [if_pos hd]
    exact ⟨rfl, rfl⟩
  rw [adapt_eq hd, if_neg (show ¬(_ ∧ _) from hf), (stage_plain h.solvent.1 hp).1] at hw hg ⊢
  dsimp only at hw hg ⊢
  have hsalt (k : ℕ) (hk : k < 15) (hne : 13 ≠ k) : 0 ≤ L.saltConcentrationIdx → L.saltConcentrationIdx ≠ L.all[k]'hk :=
    fun h0 => Layout.ne h.nodup 13 k hne (by decide) hk h0
  have p0 : L.waterSwitchIdx ≠ L.pressureSwitchIdx :=
    (Layout.ne h.nodup 1 0 (by decide) (by decide) (by decide) h.pressure.1).symm
  obtain ⟨-, W2, -⟩ := adaptWater_step (L := L) (f := f) (eps := eps) (T := temperature L f v) (salt := (adaptBrine L f eps v).2)
    (pcF := pcFactor L f v) (sw := readSw L v) (sg := readSg L f v) (v := v) p0
  have G2 := (adaptGas_step (L := L) (f := f) (eps := eps) (T := temperature L f v) (pcF := pcFactor L f v) (sw := readSw L v)
    (sg := readSg L f v) (v := (adaptWater L f eps (temperature L f v) (adaptBrine L f eps v).2 (pcFactor L f v) (readSw L v)
      (readSg L f v) v).1)).2.1
  rw [G2] at hw
  obtain ⟨a1, a2, a3, a4⟩ := water_appears (T := temperature L f v) (salt := (adaptBrine L f eps v).2) (sw := readSw L v)
    (sg := readSg L f v) h hc hsc (fun h0 => ⟨hsalt 0 (by decide) (by decide) h0, hsalt 1 (by decide) (by decide) h0⟩) hw
  rw [← W2] at hg
  generalize (adaptWater L f eps (temperature L f v) (adaptBrine L f eps v).2 (pcFactor L f v) (readSw L v) (readSg L f v) v).1 = u at *
  rw [← a3] at hg ⊢
  have hoil : v.gas = .Rv → f.oilActive := fun k => (h.gas (by rw [k]; decide)).2.2.2
  have hcp : v.gas = .Rv → v.water ≠ .Rsw ∧ v.pressure = .Pg := fun k => by
    unfold Compatible at hc
    rw [if_pos (hoil k)] at hc
    rcases hc.2 with x | x
    · exact ⟨hc.1, x.2⟩
    · exact absurd k x.1
  obtain ⟨b1, b2⟩ := gas_appears (T := temperature L f v) (sw := readSw L v) (sg := readSg L f v) h hsc W2
    (fun k => (a4 k).trans (hcp k).2) a1
    (fun k => by
      have q := (hcp k).1
      rw [(saturations_plain (f := f) (v := v) h.solvent.1).1]
      unfold readSw
      have n := h.noWater
      have n2 := h.water
      have n3 := hoil k
      cases hv : v.water <;> simp_all)
    (fun h0 => ⟨hsalt 2 (by decide) (by decide) h0, hsalt 1 (by decide) (by decide) h0⟩) hg
  exact ⟨b1.trans a1, b2.trans a2⟩

/-- Gas alone with too much oil in it, while the capillary pressure is positive -/
def overCell : PriVars ℚ := ⟨fun i => if i = 0 then 1 / 5 else if i = 1 then 1 / 10 else 7, .Sw, .Pg, .Rv, .Disabled, .Disabled⟩

example : Fits threeLayout richFluid overCell ∧ Compatible richFluid overCell ∧ ¬WaterFilled threeLayout richFluid 1 overCell ∧
    (adapt threeLayout richFluid 1 1 0 overCell).1.gas = .Sg ∧
    (adapt threeLayout richFluid 1 1 0 overCell).1.val threeLayout.pressureSwitchIdx ≠ overCell.val threeLayout.pressureSwitchIdx := by
  refine ⟨⟨by decide, by decide, by decide, by decide, by decide, by decide, by decide, by decide, by decide, by decide⟩, ?_, ?_,
    by decide +kernel, by decide +kernel⟩
  · unfold Compatible; decide
  · unfold WaterFilled; decide +kernel

/-- Gas with too much oil in it, water and solvent -/
def solventGasCell : PriVars ℚ :=
  ⟨fun i => if i = 0 then 1 / 5 else if i = 1 then 1 / 10 else if i = 2 then 7 else 1 / 10, .Sw, .Pg, .Rv, .Disabled, .Ss⟩

/-- **C79** … is violated if there is solvent.  While there is no oil, the gas saturation is one minus that of water, so that the oil
saturation is that of solvent, with the opposite sign; when oil appears, the gas saturation jumps by that of solvent. -/
theorem C79_appear_solvent_violated :
    let L := threePhase ⟨1, 0, 0, 0, false, false, 0, 0⟩
    let a := (adapt L richFluid 1 1 0 solventGasCell).1
    (saturations L richFluid solventGasCell).oil = -1 / 10 ∧ (saturations L richFluid solventGasCell).gas = 4 / 5 ∧
    solventGasCell.gas = .Rv ∧ a.gas = .Sg ∧ (saturations L richFluid a).oil = 0 ∧ (saturations L richFluid a).gas = 7 / 10 := by
  decide +kernel

/-! ### A fluid state in equilibrium is not switched -/

/-- A phase which is there has not more dissolved in it than it can hold. -/
structure NotOversaturated (f : Fluid K) (salt : K) (fs : FluidState K) : Prop where
  rs : 0 < fs.so → f.dissolvedGas →
    fs.rs ≤ min f.maxGasDissolutionFactor (f.rsSat fs.temperature fs.po fs.so (max fs.so f.maxOilSaturation))
  rv : 0 < fs.sg → f.vaporizedOil →
    fs.rv ≤ min f.maxOilVaporizationFactor (f.rvSat fs.temperature fs.pg fs.so (max fs.so f.maxOilSaturation))
  rvw : 0 < fs.sg → f.vaporizedWater → fs.rvw ≤ f.rvwSat fs.temperature fs.pg salt
  rsw : 0 < fs.sw → f.dissolvedGasInWater → fs.rsw ≤ min f.maxGasDissolutionFactor (f.rswSat fs.temperature fs.pw salt)

theorem le_min_mul {x m l e : K} (h : x ≤ min m l) (hl : 0 ≤ l) (he : 0 ≤ e) : ¬ min m (l * (1 + e)) < x := by
  rw [not_lt]
  exact h.trans (min_le_min le_rfl (by nlinarith [mul_nonneg hl he]))

/-- **C80** If a physical fluid state, in which nothing is oversaturated, is stored in primary variables, then these are not switched, by
any threshold for oscillations, and nothing is changed.  Missing: the brine module (see below), cells which count as filled with water, and
what `PlainModel` excludes. -/
theorem C80_equilibrium_stays_partial (hM : PlainModel L f) (hd : f.dissolvedGasInWater → f.oilActive = false)
    (hF : FactorsNonneg f) (hmax : 0 ≤ f.maxOilSaturation) (hsalt : L.saltConcentrationIdx < 0)
    (hP : Physical f 0 fs) (hN : NotOversaturated f 0 fs)
    (hT : L.temperatureIdx < 0 → fs.temperature = f.temperature) (heps : 0 ≤ eps) (hth : fs.sw < threshold) :
    adapt L f swMax threshold eps (assignNaive L f fs v) = (assignNaive L f fs v, false) := by
  have hs0 : saltOf L v = 0 := by
    unfold saltOf
    rw [if_neg (not_le.2 hsalt)]
  rw [← hs0] at hP
  obtain ⟨m1, m2, m3, m4, m5⟩ := assign_meanings L f v fs
  obtain ⟨hw, hg⟩ := assign_indices (fs := fs) (v := v) hM
  obtain ⟨e1, e2, e3, e4, e5⟩ := assign_values (fs := fs) (v := v) hM hw
  obtain ⟨hT', -, hS, hpo, hpg, hpw⟩ := assign_core hM hd hP hT
  obtain ⟨x1, x2, x3, x4⟩ := saturations_plain (f := f) (v := assignNaive L f fs v) hM.solvent
  rw [hS] at x1 x2 x3 x4
  dsimp only at x1 x2 x3 x4
  generalize assignNaive L f fs v = u at *
  by_cases hdis : u.water = .Disabled ∧ u.gas = .Disabled
  · unfold adapt
    rw [if_pos hdis]
  have c1 := hP.sw
  have c2 := hP.so
  have c3 := hP.sg
  have c4 := hP.sum
  have q1 : ¬ 0 < fs.sw → fs.sw = 0 := fun h => le_antisymm (not_lt.1 h) c1
  have q2 : ¬ 0 < fs.so → fs.so = 0 := fun h => le_antisymm (not_lt.1 h) c2
  have q3 : ¬ 0 < fs.sg → fs.sg = 0 := fun h => le_antisymm (not_lt.1 h) c3
  have hrw : readSw L u = fs.sw := by
    unfold readSw
    cases hv : u.water <;> dsimp only
    · exact (e2 (by simp [hv])).trans (by rw [hv])
    · rw [hv] at x1
      dsimp only at x1
      rw [x1]
      simp
    · rw [hv] at x1 m2
      unfold chooseWater at m2
      split_ifs at m2 with k1 k2 k3
      simp only [Bool.and_eq_true, decide_eq_true_eq] at k3
      dsimp only at x1
      rw [x1, if_pos k3.1.1]
    · rw [hv] at x1 m2
      dsimp only at x1
      by_cases hwa : f.waterActive
      · exfalso
        apply hdis
        refine ⟨hv, ?_⟩
        rw [if_pos hwa] at x1
        rw [m3]
        unfold chooseWater oneActivePhase at m2
        split_ifs at m2 with k1 k2 k3 k4
        have a1 := hM.dissolvedGas
        have a2 := hM.vaporizedOil
        unfold chooseGas
        clear e1 e2 e3 e4 e5 hS hpo hpg hpw x2 x3 m1 m3 m4 hw hg
        cases ho : f.oilActive <;> cases hga : f.gasActive <;> simp_all
      · rw [if_neg hwa] at x1
        exact x1.symm
  have hrg : u.gas ≠ .Rv → readSg L f u = fs.sg := by
    intro hne
    unfold readSg
    cases hv : u.gas <;> dsimp only
    · exact (e3 (by simp [hv])).trans (by rw [hv])
    · rw [hv] at x2
      dsimp only at x2
      rw [x2]
      simp
    · exact absurd hv hne
    · rw [hv] at x2
      dsimp only at x2
      rw [x2, hrw]
      by_cases hwa : f.waterActive
      · simp [hwa]
      · simp [hwa, hP.noWater (by simpa using hwa)]
  have hrg0 : 0 ≤ readSg L f u := by
    by_cases hv : u.gas = .Rv
    · unfold readSg
      rw [hv]
    · rw [hrg hv]
      exact c3
  have hz := solventSaturation_zero (v := u) hM.solvent
  have hzf : ¬ (0 ≤ L.zFractionIdx) := not_le.2 hM.zFraction
  obtain ⟨hst, hb⟩ := stage_plain (f := f) (v := u) (eps := eps) hM.solvent hM.salt
  have hpcF : pcFactor L f u = 1 := by
    unfold pcFactor
    rw [hM.pcfact]
  have act2 (h : 0 < fs.sg) : f.gasActive = true := by
    by_contra hc; exact absurd (hP.noGas (by simpa using hc)) h.ne'
  rw [adapt_eq hdis, if_neg (fun h => not_le.2 hth (hrw ▸ h.1)), hst, hb, hpcF, hrw, hT']
  have hW : adaptWater L f eps fs.temperature 0 1 fs.sw (readSg L f u) u = (u, false) := by
    unfold adaptWater
    cases hv : u.water <;> dsimp only
    · rw [if_neg (fun h => absurd h.1 (by linarith)), if_neg (fun h => absurd h.1 (by linarith))]
    · rw [if_neg]
      rw [hv] at m2
      unfold chooseWater at m2
      split_ifs at m2 with k1 k2
      simp only [Bool.and_eq_true, decide_eq_true_eq] at k1 k2
      obtain ⟨⟨ga, hsg⟩, vw⟩ := k2
      have wa := (hM.vaporizedWater vw).1
      have sw0 : fs.sw = 0 := q1 fun h => k1 ⟨⟨wa, h⟩, ga, hsg⟩
      have hpp : gasPressureForWater L f 1 (readSg L f u) u = fs.pg := by
        unfold gasPressureForWater
        by_cases hpr : u.pressure = .Po
        · rw [if_pos hpr]
          have nrv : u.gas ≠ .Rv := by
            intro hrv
            rw [hrv] at m3
            rw [hpr] at m1
            unfold chooseGas at m3
            unfold choosePressure at m1
            split_ifs at m3 with n1 n2 n3
            rw [if_pos] at m1
            · cases m1
            · simp only [Bool.and_eq_true, decide_eq_true_eq, Bool.not_eq_true', Bool.and_eq_false_iff, decide_eq_false_iff_not] at n1 n3 ⊢
              refine ⟨n3, ?_⟩
              by_contra hcon
              apply n1
              refine ⟨n3.1, ?_⟩
              rw [not_or, not_not] at hcon
              exact ⟨by simpa using hcon.1, hcon.2⟩
          have oa : f.oilActive := by
            rw [hpr] at m1
            by_contra hno
            unfold choosePressure at m1
            rw [if_neg hno] at m1
            split_ifs at m1
          rw [hrg nrv, hz, e1, hpr]
          dsimp only
          have so : fs.so = 1 - fs.sg := by linarith
          have := hP.oilGas oa ga
          rw [so, sw0] at this
          simp only [sub_zero, add_zero, one_mul]
          linarith
        · rw [if_neg hpr, e1]
          cases hp2 : u.pressure
          · exact absurd hp2 hpr
          · rfl
          · exfalso
            rw [hp2] at m1
            unfold choosePressure at m1
            split_ifs at m1 with n1 n2 n3
            · simp [ga, hsg] at n3
      rw [hpp, e2 (by simp [hv]), hv, not_lt]
      have := hN.rvw hsg vw
      have := hF.rvwSat fs.temperature fs.pg 0
      nlinarith [mul_nonneg this heps]
    · rw [if_neg]
      rw [hv] at m2
      unfold chooseWater at m2
      split_ifs at m2 with k1 k2 k3
      simp only [Bool.and_eq_true, decide_eq_true_eq] at k1 k3
      obtain ⟨⟨wa, hsw⟩, dw⟩ := k3
      have ga := (hM.dissolvedGasInWater dw).2
      have oa := hd dw
      have nsg : ¬ 0 < fs.sg := fun h => k1 ⟨⟨wa, hsw⟩, ga, h⟩
      have hp2 : u.pressure = .Pw := by
        rw [m1]
        unfold choosePressure
        simp [oa, nsg, wa, hsw, dw]
      rw [e1, hp2, e2 (by simp [hv]), hv, not_lt]
      exact (hN.rsw hsw dw).trans_eq (min_comm _ _)
  rw [hW]
  have hG : adaptGas L f eps fs.temperature 1 fs.sw (readSg L f u) u = (u, false) := by
    unfold adaptGas
    cases hv : u.gas <;> dsimp only
    · rw [hrg (by rw [hv]; decide), hz]
      rw [if_neg (fun h => absurd h.1 (by linarith)), if_neg (fun h => absurd h.1 (by linarith))]
    · rw [if_neg]
      rw [hv] at m3 x2
      unfold chooseGas at m3
      split_ifs at m3 with k1 k2
      simp only [Bool.and_eq_true, decide_eq_true_eq] at k1 k2
      obtain ⟨⟨oa, hso⟩, dg⟩ := k2
      have sg0 : fs.sg = 0 := by
        rw [x2]
        simp
      have hp2 : u.pressure = .Po := by
        rw [m1]
        unfold choosePressure
        simp [sg0, oa]
      have so : fs.so = 1 - fs.sw := by linarith
      unfold rsLimit
      rw [if_neg hzf, hz, sub_zero, ← so, e1, hp2, e3 (by simp [hv]), hv]
      exact le_min_mul (hN.rs hso dg) (hF.rsSat _ _ _ _) heps
    · rw [if_neg]
      rw [hv] at m3
      unfold chooseGas at m3
      split_ifs at m3 with k1 k2 k3
      simp only [Bool.and_eq_true, decide_eq_true_eq] at k1 k3
      obtain ⟨⟨ga, hsg⟩, vo⟩ := k3
      have oa := (hM.vaporizedOil vo).1
      have so0 : fs.so = 0 := q2 fun h => k1 ⟨⟨ga, hsg⟩, oa, h⟩
      have hp2 : u.pressure = .Pg := by
        rw [m1]
        unfold choosePressure
        simp [so0, ga, hsg, vo]
      unfold rvLimit
      have := hN.rv hsg vo
      rw [so0, max_eq_right hmax] at this
      rw [if_neg hzf, e1, hp2, e3 (by simp [hv]), hv]
      exact le_min_mul this (hF.rvSat _ _ _ _) heps
  dsimp only
  rw [hG]
  rfl

/-- The same, with factors which are never negative -/
def absFluid : Fluid ℚ :=
  { richFluid with
    rsSat := fun _ p so som => |p| + |so * som|
    rvSat := fun _ p so som => |p| / 100 + |so * som|
    rvwSat := fun _ p salt => |p| / 50 + |salt| }

example : FactorsNonneg absFluid ∧ PlainModel threeLayout absFluid ∧ Physical absFluid 0 gasState ∧ NotOversaturated absFluid 0 gasState ∧
    Physical absFluid 0 richState ∧ NotOversaturated absFluid 0 richState := by
  have ab (x : ℚ) : 0 ≤ |x| := abs_nonneg x
  refine ⟨⟨fun _ p s => add_nonneg (div_nonneg (ab p) (by decide +kernel)) (ab s), fun _ _ _ => le_refl (0 : ℚ),
    fun _ p s t => add_nonneg (ab p) (ab (s * t)),
    fun _ p s t => add_nonneg (div_nonneg (ab p) (by decide +kernel)) (ab (s * t)), fun _ _ => le_refl (0 : ℚ),
    fun _ _ => le_refl (0 : ℚ), fun _ _ _ => le_refl (0 : ℚ), by decide +kernel, by decide +kernel⟩,
    ⟨by decide, by decide, by decide, by decide, by decide, by decide, by decide, by decide, by decide, by decide +kernel, by decide,
    by decide, rfl, rfl⟩, ?_, ?_, ?_, ?_⟩ <;> constructor <;> decide +kernel

/-- In brine, less water vaporizes. -/
def brineFluid : Fluid ℚ := { demoFluid with vaporizedWater := true, rvwSat := fun _ _ salt => max (1 + salt) 0 }
def brineState : FluidState ℚ := ⟨300, 0, 1 / 2, 1 / 2, 100, 100, 100, 0, 0, 3 / 2, 0, 0⟩
def brineCell : PriVars ℚ := ⟨fun i => if i = 3 then 1 else 0, .Sw, .Po, .Sg, .Disabled, .Disabled⟩

/-- **C80** … is violated with the brine module but without precipitation of salt: the fluid state gets its salt concentration from the
variables, but the switching compares with the limit for fresh water.  (In this example, salt increases the limit, and a gas which could take
more water gives water; if it decreases the limit, gas which has too much water does not.) -/
theorem C80_brine_violated :
    let L := threePhase ⟨0, 0, 0, 0, false, true, 0, 0⟩
    Physical brineFluid (saltOf L brineCell) brineState ∧ NotOversaturated brineFluid (saltOf L brineCell) brineState ∧
    (assignNaive L brineFluid brineState brineCell).water = .Rvw ∧
    (adapt L brineFluid 1 1 0 (assignNaive L brineFluid brineState brineCell)).2 = true := by
  refine ⟨?_, ?_, by decide +kernel, by decide +kernel⟩
  · constructor <;> decide +kernel
  · constructor <;> decide +kernel

end Verif.BlackOil
