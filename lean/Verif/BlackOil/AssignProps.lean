import Verif.BlackOil.FluidState
import Verif.BlackOil.SwitchProps

/-
C78: a fluid state stored in black-oil primary variables can be read back.
-/

set_option autoImplicit false
set_option linter.unusedSectionVars false
set_option linter.unusedSimpArgs false

namespace Verif.BlackOil

variable {K : Type} [Field K] [LinearOrder K] [IsStrictOrderedRing K]
variable {L : Layout} {f : Fluid K} {v : PriVars K} {fs : FluidState K}

/-! ### Specification -/

/-- What a model must be like: variables do not share an index, there are variables for the phases, what dissolves and what is dissolved
are active phases, and there is neither solvent, nor the extended black-oil module, nor solid salt. -/
structure PlainModel (L : Layout) (f : Fluid K) : Prop where
  nodup : L.primaryVars.Nodup
  pressure : 0 ≤ L.pressureSwitchIdx
  water : f.waterActive → f.oilActive ∨ f.gasActive → 0 ≤ L.waterSwitchIdx
  gas : f.oilActive → f.gasActive → 0 ≤ L.compositionSwitchIdx
  some : f.oilActive ∨ f.gasActive ∨ f.waterActive
  dissolvedGas : f.dissolvedGas → f.oilActive ∧ f.gasActive
  vaporizedOil : f.vaporizedOil → f.oilActive ∧ f.gasActive
  vaporizedWater : f.vaporizedWater → f.waterActive ∧ f.gasActive
  dissolvedGasInWater : f.dissolvedGasInWater → f.waterActive ∧ f.gasActive
  scale : f.scale ≠ 0
  solvent : L.solventSaturationIdx < 0
  zFraction : L.zFractionIdx < 0
  salt : f.saltPrecipitation = false
  pcfact : f.pcfact = none

/-- A fluid state as an initial condition gives it: saturations of the active phases, which sum up to one; pressures which differ by the
capillary pressures; and phases which are in contact are saturated with each other. -/
structure Physical (f : Fluid K) (salt : K) (fs : FluidState K) : Prop where
  sw : 0 ≤ fs.sw
  so : 0 ≤ fs.so
  sg : 0 ≤ fs.sg
  sum : fs.sw + fs.so + fs.sg = 1
  noWater : f.waterActive = false → fs.sw = 0
  noOil : f.oilActive = false → fs.so = 0
  noGas : f.gasActive = false → fs.sg = 0
  /-- the capillary pressures -/
  oilGas : f.oilActive → f.gasActive → fs.pg - fs.po = f.pcGas fs.so fs.sg fs.sw - f.pcOil fs.so fs.sg fs.sw
  oilWater : f.oilActive → f.waterActive → fs.pw - fs.po = f.pcWater fs.so fs.sg fs.sw - f.pcOil fs.so fs.sg fs.sw
  gasWater : f.gasActive → f.waterActive → fs.pw - fs.pg = f.pcWater fs.so fs.sg fs.sw - f.pcGas fs.so fs.sg fs.sw
  /-- gas in oil -/
  rs : 0 < fs.so → 0 < fs.sg → f.dissolvedGas →
    fs.rs = min f.maxGasDissolutionFactor (f.rsSat fs.temperature fs.po fs.so (max fs.so f.maxOilSaturation))
  noRs : f.dissolvedGas = false → fs.rs = 0
  /-- oil in gas -/
  rv : 0 < fs.so → 0 < fs.sg → f.vaporizedOil →
    fs.rv = min f.maxOilVaporizationFactor (f.rvSat fs.temperature fs.pg fs.so (max fs.so f.maxOilSaturation))
  noRv : f.vaporizedOil = false → fs.rv = 0
  /-- water in gas -/
  rvw : 0 < fs.sw → 0 < fs.sg → f.vaporizedWater → fs.rvw = f.rvwSat fs.temperature fs.pg salt
  noRvw : f.vaporizedWater = false → fs.rvw = 0
  /-- gas in water -/
  rsw : 0 < fs.sw → 0 < fs.sg → f.dissolvedGasInWater →
    fs.rsw = min f.maxGasDissolutionFactor (f.rswSat fs.temperature fs.pw salt)
  noRsw : f.dissolvedGasInWater = false → fs.rsw = 0

/-- The two fluid states are the same, as far as their values have a meaning: saturations, pressures of active phases and compositions
of phases which are there. -/
structure SameState (f : Fluid K) (a b : FluidState K) : Prop where
  sw : a.sw = b.sw
  so : a.so = b.so
  sg : a.sg = b.sg
  pw : f.waterActive → a.pw = b.pw
  po : f.oilActive → a.po = b.po
  pg : f.gasActive → a.pg = b.pg
  rs : 0 < a.so → a.rs = b.rs
  rv : 0 < a.sg → a.rv = b.rv
  rvw : 0 < a.sg → a.rvw = b.rvw
  rsw : 0 < a.sw → a.rsw = b.rsw

/-- The salt concentration in the variables; zero without the brine module -/
def saltOf (L : Layout) (v : PriVars K) : K := if 0 ≤ L.saltConcentrationIdx then v.val L.saltConcentrationIdx else 0

/-! ### Lemmas -/

theorem saturations_plain (h : L.solventSaturationIdx < 0) :
    (saturations L f v).water = (if f.waterActive then
      match v.water with
      | .Sw => v.val L.waterSwitchIdx
      | .Rsw => 1
      | .Disabled => 1
      | .Rvw => 0
      else (0 : K)) ∧
    (saturations L f v).gas = (if f.gasActive then
      match v.gas with
      | .Sg => v.val L.compositionSwitchIdx
      | .Rv => 1 - (saturations L f v).water
      | .Disabled => if f.waterActive then 1 - (saturations L f v).water else 1
      | .Rs => 0
      else (0 : K)) ∧
    (saturations L f v).oil = (if f.oilActive then 1 - (saturations L f v).water - (saturations L f v).gas else 0) ∧
    (saturations L f v).solvent = 0 := by
  have n2 : ¬ (0 ≤ L.solventSaturationIdx) := not_le.2 h
  unfold saturations
  simp only [n2, false_and, if_false, sub_zero]
  refine ⟨?_, ?_, ?_, trivial⟩
  · cases v.water <;> rfl
  · cases f.oilActive <;> cases f.gasActive <;> cases v.gas <;> rfl
  · cases f.oilActive <;> cases f.gasActive <;> cases v.gas <;> rfl

section
variable (L f fs v)
theorem assign_meanings :
    (assignNaive L f fs v).pressure = choosePressure f (f.gasActive && decide (0 < fs.sg)) (f.oilActive && decide (0 < fs.so))
      (f.waterActive && decide (0 < fs.sw)) ∧
    (assignNaive L f fs v).water = chooseWater f (f.gasActive && decide (0 < fs.sg)) (f.waterActive && decide (0 < fs.sw)) ∧
    (assignNaive L f fs v).gas = chooseGas f (f.gasActive && decide (0 < fs.sg)) (f.oilActive && decide (0 < fs.so)) ∧
    (assignNaive L f fs v).brine = (if f.saltPrecipitation then (if 0 < fs.saltSaturation then .Sp else .Cs) else .Disabled) ∧
    (assignNaive L f fs v).solvent = v.solvent := by
  unfold assignNaive
  dsimp only [setScaledPressure, PriVars.set]
  generalize chooseWater f _ _ = w
  generalize chooseGas f _ _ = g
  by_cases ht : 0 ≤ L.temperatureIdx
  · simp only [ht, if_true]
    cases w <;> cases g <;> simp
  · simp only [ht, if_false]
    cases w <;> cases g <;> simp
end

theorem assign_values (hM : PlainModel L f)
    (hw : (assignNaive L f fs v).water ≠ .Disabled → 0 ≤ L.waterSwitchIdx) :
    pressure L f (assignNaive L f fs v) = (match (assignNaive L f fs v).pressure with | .Po => fs.po | .Pg => fs.pg | .Pw => fs.pw) ∧
    ((assignNaive L f fs v).water ≠ .Disabled → (assignNaive L f fs v).val L.waterSwitchIdx =
      match (assignNaive L f fs v).water with | .Sw => fs.sw | .Rvw => fs.rvw | .Rsw => fs.rsw | .Disabled => 0) ∧
    ((assignNaive L f fs v).gas ≠ .Disabled → (assignNaive L f fs v).val L.compositionSwitchIdx =
      match (assignNaive L f fs v).gas with | .Sg => fs.sg | .Rs => fs.rs | .Rv => fs.rv | .Disabled => 0) ∧
    (0 ≤ L.temperatureIdx → (assignNaive L f fs v).val L.temperatureIdx = fs.temperature) ∧
    (0 ≤ L.saltConcentrationIdx → (assignNaive L f fs v).val L.saltConcentrationIdx = v.val L.saltConcentrationIdx) := by
  obtain ⟨m1, m2, m3, m4, m5⟩ := assign_meanings L f v fs
  have hs := hM.scale
  have p0 : L.pressureSwitchIdx ≠ L.waterSwitchIdx := Layout.ne hM.nodup 1 0 (by decide) (by decide) (by decide) hM.pressure
  have p2 : L.pressureSwitchIdx ≠ L.compositionSwitchIdx := Layout.ne hM.nodup 1 2 (by decide) (by decide) (by decide) hM.pressure
  have w2 : (assignNaive L f fs v).water ≠ .Disabled → L.waterSwitchIdx ≠ L.compositionSwitchIdx :=
    fun h => Layout.ne hM.nodup 0 2 (by decide) (by decide) (by decide) (hw h)
  have t0 (h : 0 ≤ L.temperatureIdx) : L.temperatureIdx ≠ L.waterSwitchIdx := Layout.ne hM.nodup 14 0 (by decide) (by decide) (by decide) h
  have t1 (h : 0 ≤ L.temperatureIdx) : L.temperatureIdx ≠ L.pressureSwitchIdx := Layout.ne hM.nodup 14 1 (by decide) (by decide) (by decide) h
  have t2 (h : 0 ≤ L.temperatureIdx) : L.temperatureIdx ≠ L.compositionSwitchIdx := Layout.ne hM.nodup 14 2 (by decide) (by decide) (by decide) h
  have s0 (h : 0 ≤ L.saltConcentrationIdx) : L.saltConcentrationIdx ≠ L.waterSwitchIdx := Layout.ne hM.nodup 13 0 (by decide) (by decide) (by decide) h
  have s1 (h : 0 ≤ L.saltConcentrationIdx) : L.saltConcentrationIdx ≠ L.pressureSwitchIdx := Layout.ne hM.nodup 13 1 (by decide) (by decide) (by decide) h
  have s2 (h : 0 ≤ L.saltConcentrationIdx) : L.saltConcentrationIdx ≠ L.compositionSwitchIdx := Layout.ne hM.nodup 13 2 (by decide) (by decide) (by decide) h
  have s14 (h : 0 ≤ L.saltConcentrationIdx) : L.saltConcentrationIdx ≠ L.temperatureIdx := Layout.ne hM.nodup 13 14 (by decide) (by decide) (by decide) h
  rw [m2] at w2 
  rw [m1, m2, m3]
  unfold pressure assignNaive
  dsimp only [setScaledPressure, PriVars.set]
  generalize chooseWater f _ _ = w at *
  generalize chooseGas f _ _ = g at *
  generalize choosePressure f _ _ _ = p at *
  refine ⟨?_, ?_, ?_, ?_, ?_⟩
  · cases w <;> cases g <;> cases p <;> simp [p0, p2, hs]
  · cases w <;> cases g <;> simp [w2]
  · cases w <;> cases g <;> simp
  · intro h
    cases w <;> cases g <;> simp [h, t0 h, t1 h, t2 h]
  · intro h
    by_cases ht : 0 ≤ L.temperatureIdx <;> cases w <;> cases g <;> simp [ht, s0 h, s1 h, s2 h, s14 h]

theorem assign_indices (hM : PlainModel L f) :
    ((assignNaive L f fs v).water ≠ .Disabled → 0 ≤ L.waterSwitchIdx) ∧
    ((assignNaive L f fs v).gas ≠ .Disabled → 0 ≤ L.compositionSwitchIdx) := by
  obtain ⟨m1, m2, m3, m4, m5⟩ := assign_meanings L f v fs
  have hw : (assignNaive L f fs v).water ≠ .Disabled → 0 ≤ L.waterSwitchIdx := by
    rw [m2]
    have a1 := hM.vaporizedWater
    have a2 := hM.dissolvedGasInWater
    have a3 := hM.water
    unfold chooseWater oneActivePhase
    cases ho : f.oilActive <;> cases hga : f.gasActive <;> cases hwa : f.waterActive <;> simp_all
  have hg : (assignNaive L f fs v).gas ≠ .Disabled → 0 ≤ L.compositionSwitchIdx := by
    rw [m3]
    have a1 := hM.dissolvedGas
    have a2 := hM.vaporizedOil
    have a3 := hM.gas
    unfold chooseGas
    cases ho : f.oilActive <;> cases hga : f.gasActive <;> simp_all
  exact ⟨hw, hg⟩

/-- What is read from the stored fluid state -/
theorem assign_core (hM : PlainModel L f) (hd : f.dissolvedGasInWater → f.oilActive = false)
    (hP : Physical f (saltOf L v) fs) (hT : L.temperatureIdx < 0 → fs.temperature = f.temperature) :
    temperature L f (assignNaive L f fs v) = fs.temperature ∧ readSalt L f (assignNaive L f fs v) = saltOf L v ∧
    saturations L f (assignNaive L f fs v) = ⟨fs.sw, fs.so, fs.sg, 0⟩ ∧
    (f.oilActive → (readPressures L f (assignNaive L f fs v)).1 = fs.po) ∧
    (f.gasActive → (readPressures L f (assignNaive L f fs v)).2.1 = fs.pg) ∧
    (f.waterActive → (readPressures L f (assignNaive L f fs v)).2.2 = fs.pw) := by
  obtain ⟨m1, m2, m3, m4, m5⟩ := assign_meanings L f v fs
  obtain ⟨hw, hg⟩ := assign_indices (fs := fs) (v := v) hM
  obtain ⟨e1, e2, e3, e4, e5⟩ := assign_values (fs := fs) (v := v) hM hw
  generalize assignNaive L f fs v = u at *
  have hT' : temperature L f u = fs.temperature := by
    unfold temperature
    split_ifs with h
    · exact e4 h
    · exact (hT (not_le.1 h)).symm
  have hsalt : readSalt L f u = saltOf L v := by
    unfold readSalt saltOf
    rw [hM.salt]
    simp only [Bool.false_eq_true, false_and, if_false]
    split_ifs with h
    · exact e5 h
    · rfl
  have hS : saturations L f u = ⟨fs.sw, fs.so, fs.sg, 0⟩ := by
    have n1 := hM.some
    have n2 : ¬ (0 ≤ L.solventSaturationIdx) := not_le.2 hM.solvent
    have a1 := hM.dissolvedGas
    have a2 := hM.vaporizedOil
    have a3 := hM.vaporizedWater
    have a4 := hM.dissolvedGasInWater
    have b1 := hP.noWater
    have b2 := hP.noOil
    have b3 := hP.noGas
    have c1 := hP.sw
    have c2 := hP.so
    have c3 := hP.sg
    have c4 := hP.sum
    have q1 : ¬ 0 < fs.sw → fs.sw = 0 := fun h => le_antisymm (not_lt.1 h) c1
    have q2 : ¬ 0 < fs.so → fs.so = 0 := fun h => le_antisymm (not_lt.1 h) c2
    have q3 : ¬ 0 < fs.sg → fs.sg = 0 := fun h => le_antisymm (not_lt.1 h) c3
    obtain ⟨x1, x2, x3, x4⟩ := saturations_plain (f := f) (v := u) hM.solvent
    have hwat : (saturations L f u).water = fs.sw := by
      rw [x1]
      unfold chooseWater oneActivePhase at m2
      cases hwa : f.waterActive
      · simp [b1 hwa]
      rw [if_pos rfl]
      cases hu : u.water
      · exact (e2 (by simp [hu])).trans (by rw [hu])
      · dsimp only
        rw [hu] at m2
        split_ifs at m2 with k1 k2
        simp only [hwa, Bool.true_and, Bool.and_eq_true, decide_eq_true_eq, not_and] at k1 k2
        exact (q1 fun h => k1 h k2.1.1 k2.1.2).symm
      · dsimp only
        rw [hu] at m2
        split_ifs at m2 with k1 k2 k3
        simp only [hwa, Bool.true_and, Bool.and_eq_true, decide_eq_true_eq, not_and] at k1 k2 k3
        have o := b2 (hd k3.2)
        have g := q3 (k1 k3.1 (a4 k3.2).2)
        linarith
      · dsimp only
        rw [hu] at m2
        split_ifs at m2 with k1 k2 k3 k4
        cases ho : f.oilActive <;> cases hga : f.gasActive <;> simp_all
    have hgas : (saturations L f u).gas = fs.sg := by
      rw [x2, hwat]
      unfold chooseGas at m3
      cases hga : f.gasActive
      · simp [b3 hga]
      rw [if_pos rfl]
      cases hu : u.gas
      · exact (e3 (by simp [hu])).trans (by rw [hu])
      · dsimp only
        rw [hu] at m3
        split_ifs at m3 with k1 k2
        simp only [hga, Bool.true_and, Bool.and_eq_true, decide_eq_true_eq, not_and] at k1 k2
        exact (q3 fun h => k1 h k2.1.1 k2.1.2).symm
      · dsimp only
        rw [hu] at m3
        split_ifs at m3 with k1 k2 k3
        simp only [hga, Bool.true_and, Bool.and_eq_true, decide_eq_true_eq, not_and] at k1 k2 k3
        have o := q2 (k1 k3.1 (a2 k3.2).1)
        linarith
      · dsimp only
        rw [hu] at m3
        split_ifs at m3 with k1 k2 k3 k4
        have o : f.oilActive = false := by simpa [hga] using k4
        have := b2 o
        split_ifs with hwa
        · linarith
        · have := b1 (by simpa using hwa)
          linarith
    have hoil : (saturations L f u).oil = fs.so := by
      rw [x3, hwat, hgas]
      split_ifs with ho
      · linarith
      · exact (b2 (by simpa using ho)).symm
    rw [← hwat, ← hgas, ← hoil, ← x4]
  have hpc : readPc L f u = (f.pcOil fs.so fs.sg fs.sw, f.pcGas fs.so fs.sg fs.sw, f.pcWater fs.so fs.sg fs.sw) := by
    unfold readPc gasSatForPc pcFactor
    rw [hS, hM.pcfact]
    simp
  have hpr : (f.oilActive → (readPressures L f u).1 = fs.po) ∧ (f.gasActive → (readPressures L f u).2.1 = fs.pg) ∧
      (f.waterActive → (readPressures L f u).2.2 = fs.pw) := by
    have o1 := hP.oilGas
    have o2 := hP.oilWater
    have o3 := hP.gasWater
    unfold readPressures
    rw [hpc, e1]
    have hph : (u.pressure = .Po → f.oilActive) ∧ (u.pressure = .Pg → f.gasActive) ∧ (u.pressure = .Pw → f.waterActive) := by
      have n1 := hM.some
      have n2 := hM.vaporizedOil
      rw [m1]
      unfold choosePressure
      clear m1 m2 m3 m4 m5 e1 e2 e3 e4 e5 hw hg hpc hS o1 o2 o3 hT' hsalt hP hd hM
      cases ho : f.oilActive <;> cases hga : f.gasActive <;> cases hwa : f.waterActive <;> simp_all <;> split_ifs <;> simp_all
    cases hu : u.pressure <;> dsimp only
    · have ho := hph.1 hu
      refine ⟨fun _ => by ring, fun h => ?_, fun h => ?_⟩
      · linarith [o1 ho h]
      · linarith [o2 ho h]
    · have ho := hph.2.1 hu
      refine ⟨fun h => ?_, fun _ => by ring, fun h => ?_⟩
      · linarith [o1 h ho]
      · linarith [o3 ho h]
    · have ho := hph.2.2 hu
      refine ⟨fun h => ?_, fun h => ?_, fun _ => by ring⟩
      · linarith [o2 h ho]
      · linarith [o3 h ho]
  exact ⟨hT', hsalt, hS, hpr⟩

/-! ### Theorems -/

/-- **C78** Storing a physical fluid state in primary variables and reading these gives the same fluid state.  Missing: models with oil
in which gas dissolves in water (see below), solvents, the extended black-oil module, precipitated salt. -/
theorem C78_assign_read_partial (hM : PlainModel L f) (hd : f.dissolvedGasInWater → f.oilActive = false)
    (hP : Physical f (saltOf L v) fs) (hT : L.temperatureIdx < 0 → fs.temperature = f.temperature) :
    SameState f (read L f (assignNaive L f fs v)) fs ∧ (read L f (assignNaive L f fs v)).temperature = fs.temperature := by
  obtain ⟨m1, m2, m3, m4, m5⟩ := assign_meanings L f v fs
  obtain ⟨hw, hg⟩ := assign_indices (fs := fs) (v := v) hM
  obtain ⟨e1, e2, e3, e4, e5⟩ := assign_values (fs := fs) (v := v) hM hw
  obtain ⟨hT', hsalt, hS, hpo, hpg, hpw⟩ := assign_core hM hd hP hT
  generalize assignNaive L f fs v = u at *
  have hz : ¬ (0 ≤ L.zFractionIdx) := not_le.2 hM.zFraction
  have act1 (h : 0 < fs.so) : f.oilActive = true := by
    by_contra hc; exact absurd (hP.noOil (by simpa using hc)) h.ne'
  have act2 (h : 0 < fs.sg) : f.gasActive = true := by
    by_contra hc; exact absurd (hP.noGas (by simpa using hc)) h.ne'
  have act3 (h : 0 < fs.sw) : f.waterActive = true := by
    by_contra hc; exact absurd (hP.noWater (by simpa using hc)) h.ne'
  refine ⟨⟨?_, ?_, ?_, hpw, hpo, hpg, ?_, ?_, ?_, ?_⟩, hT'⟩ <;> unfold read <;> dsimp only <;> rw [hS] <;> dsimp only
  · intro h
    have oa := act1 h
    rw [hT', hpo oa, if_neg hz]
    split_ifs with k1 k2
    · rw [e3 (by simp [k1]), k1]
    · by_cases hsg : 0 < fs.sg
      · exact (hP.rs h hsg k2).symm
      · exact absurd (by rw [m3]; simp [chooseGas, hsg, oa, h, k2]) k1
    · exact (hP.noRs (by simpa using k2)).symm
  · intro h
    have ga := act2 h
    rw [hT', hpg ga, if_neg hz]
    split_ifs with k1 k2 k3
    · rw [e3 (by simp [k1]), k1]
    · by_cases hso : 0 < fs.so
      · exact (hP.rv hso h k2).symm
      · exact absurd (by rw [m3]; simp [chooseGas, hso, ga, h, k2]) k1
    · exact absurd (hM.vaporizedOil k2).1 k3
    · exact (hP.noRv (by simpa using k2)).symm
  · intro h
    have ga := act2 h
    rw [hT', hpg ga, hsalt]
    split_ifs with k1 k2
    · rw [e2 (by simp [k1]), k1]
    · by_cases hsw : 0 < fs.sw
      · exact (hP.rvw hsw h k2).symm
      · exact absurd (by rw [m2]; simp [chooseWater, hsw, ga, h, k2]) k1
    · exact (hP.noRvw (by simpa using k2)).symm
  · intro h
    have wa := act3 h
    rw [hT', hpw wa, hsalt]
    split_ifs with k1 k2
    · rw [e2 (by simp [k1]), k1]
    · by_cases hsg : 0 < fs.sg
      · exact (hP.rsw h hsg k2).symm
      · exact absurd (by rw [m2]; simp [chooseWater, hsg, wa, h, k2]) k1
    · exact (hP.noRsw (by simpa using k2)).symm

/-- A fluid with all of gas dissolved in oil, oil vaporized in gas and water vaporized in gas, with capillary pressures and pressures in
thousands -/
def richFluid : Fluid ℚ :=
  { demoFluid with
    dissolvedGas := true, vaporizedOil := true, vaporizedWater := true, scale := 1000
    rsSat := fun _ p so som => p + so * som, rvSat := fun _ p so som => p / 100 + so * som, rvwSat := fun _ p salt => p / 50 + salt
    pcGas := fun _ sg _ => 10 * sg, pcWater := fun _ _ sw => -20 * (1 - sw) }

/-- The three phases in equilibrium -/
def richState : FluidState ℚ :=
  ⟨300, 1 / 5, 1 / 2, 3 / 10, 84, 100, 103, 100 + 1 / 4, 103 / 100 + 1 / 4, 103 / 50, 0, 0⟩

/-- Gas alone, undersaturated -/
def gasState : FluidState ℚ := ⟨300, 0, 0, 1, 70, 90, 100, 0, 1 / 2, 1, 0, 0⟩

def threeLayout : Layout := threePhase ⟨0, 0, 0, 0, false, false, 0, 0⟩

theorem rich_plain : PlainModel threeLayout richFluid :=
  ⟨by decide, by decide, by decide, by decide, by decide, by decide, by decide, by decide, by decide, by decide +kernel, by decide,
    by decide, rfl, rfl⟩

example : PlainModel threeLayout richFluid ∧ Physical richFluid (saltOf threeLayout plainCell) richState ∧
    (assignNaive threeLayout richFluid richState plainCell).gas = .Sg := by
  refine ⟨rich_plain, ?_, by decide +kernel⟩
  constructor <;> decide +kernel

example : Physical richFluid (saltOf threeLayout plainCell) gasState ∧
    (assignNaive threeLayout richFluid gasState plainCell).gas = .Rv ∧
    (assignNaive threeLayout richFluid gasState plainCell).water = .Rvw := by
  refine ⟨?_, by decide +kernel, by decide +kernel⟩
  constructor <;> decide +kernel

/-- Oil and water without gas, in a model in which gas dissolves in water -/
def wetFluid : Fluid ℚ := { demoFluid with dissolvedGasInWater := true, rswSat := fun _ _ _ => 1 }
def wetState : FluidState ℚ := ⟨300, 1 / 2, 1 / 2, 0, 100, 100, 100, 0, 0, 0, 1 / 2, 0⟩

/-- **C78** … is violated if there are oil and water but no gas, and gas dissolves in water: the water variable becomes the dissolution
factor, and the water saturation is read as one, and that of oil as zero. -/
theorem C78_assign_read_violated : PlainModel threeLayout wetFluid ∧ Physical wetFluid (saltOf threeLayout plainCell) wetState ∧
    (read threeLayout wetFluid (assignNaive threeLayout wetFluid wetState plainCell)).sw = 1 ∧
    (read threeLayout wetFluid (assignNaive threeLayout wetFluid wetState plainCell)).so = 0 := by
  refine ⟨?_, ?_, by decide +kernel, by decide +kernel⟩
  · exact ⟨by decide, by decide, by decide, by decide, by decide, by decide, by decide, by decide, by decide, by decide +kernel,
      by decide, by decide, rfl, rfl⟩
  · constructor <;> decide +kernel

end Verif.BlackOil
