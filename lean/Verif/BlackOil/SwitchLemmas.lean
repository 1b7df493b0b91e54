import Verif.BlackOil.UpdateLemmas
import Mathlib.Tactic.Linarith

/-
What the parts of `adaptPrimaryVariables` do to the meanings and to the values of the switched variables.
-/

set_option autoImplicit false
set_option linter.unusedSectionVars false

namespace Verif.BlackOil

variable {K : Type} [Field K] [LinearOrder K]
variable {L : Layout} {f : Fluid K} {eps T salt pcF sw sg : K} {v : PriVars K}

/-- What the part of the water may do -/
inductive WaterStep (L : Layout) (f : Fluid K) (eps sw sg : K) (v v' : PriVars K) : Bool → Prop
  | same : v' = v → WaterStep L f eps sw sg v v' false
  | toRvw : v.water = .Sw → v'.water = .Rvw → v'.pressure = v.pressure → sw < -eps → eps < sg → f.vaporizedWater →
      WaterStep L f eps sw sg v v' true
  | toRsw : v.water = .Sw → v'.water = .Rsw → v'.pressure = .Pw → sg < -eps → eps < sw → f.dissolvedGasInWater →
      WaterStep L f eps sw sg v v' true
  | fromRvw : v.water = .Rvw → v'.water = .Sw → v'.pressure = v.pressure → v'.val L.waterSwitchIdx = 0 →
      WaterStep L f eps sw sg v v' true
  | fromRsw : v.water = .Rsw → v'.water = .Sw → v'.pressure = .Pg → v'.val L.waterSwitchIdx = 1 →
      WaterStep L f eps sw sg v v' true

theorem adaptWater_step (hp : L.waterSwitchIdx ≠ L.pressureSwitchIdx) :
    WaterStep L f eps sw sg v (adaptWater L f eps T salt pcF sw sg v).1 (adaptWater L f eps T salt pcF sw sg v).2 ∧
    (adaptWater L f eps T salt pcF sw sg v).1.gas = v.gas ∧ (adaptWater L f eps T salt pcF sw sg v).1.solvent = v.solvent ∧
    (adaptWater L f eps T salt pcF sw sg v).1.brine = v.brine ∧
    ∀ i, i ≠ L.waterSwitchIdx → i ≠ L.pressureSwitchIdx → (adaptWater L f eps T salt pcF sw sg v).1.val i = v.val i := by
  unfold adaptWater
  cases hw : v.water <;> dsimp only
  · split_ifs with h1 h2
    · refine ⟨.toRvw hw rfl rfl h1.1 h1.2.1 h1.2.2, rfl, rfl, rfl, fun i h _ => ?_⟩
      simp [PriVars.set, Function.update_of_ne h]
    · refine ⟨.toRsw hw rfl rfl h2.1 h2.2.1 h2.2.2, rfl, rfl, rfl, fun i h h' => ?_⟩
      simp [PriVars.set, setScaledPressure, Function.update_of_ne h, Function.update_of_ne h']
    · exact ⟨.same rfl, rfl, rfl, rfl, fun i _ _ => rfl⟩
  · split_ifs with h1
    · refine ⟨.fromRvw hw rfl rfl (by simp [PriVars.set]), rfl, rfl, rfl, fun i h _ => ?_⟩
      simp [PriVars.set, Function.update_of_ne h]
    · exact ⟨.same rfl, rfl, rfl, rfl, fun i _ _ => rfl⟩
  · split_ifs with h1
    · refine ⟨.fromRsw hw rfl rfl (by simp [PriVars.set, setScaledPressure, Function.update_of_ne hp]), rfl, rfl, rfl,
        fun i h h' => ?_⟩
      simp [PriVars.set, setScaledPressure, Function.update_of_ne h, Function.update_of_ne h']
    · exact ⟨.same rfl, rfl, rfl, rfl, fun i _ _ => rfl⟩
  · exact ⟨.same rfl, rfl, rfl, rfl, fun i _ _ => rfl⟩

/-- What the part of the gas may do -/
inductive GasStep (L : Layout) (f : Fluid K) (eps sw sg : K) (v v' : PriVars K) : Bool → Prop
  | same : v' = v → GasStep L f eps sw sg v v' false
  | toRs : v.gas = .Sg → v'.gas = .Rs → v'.pressure = v.pressure → sg < -eps → f.dissolvedGas → GasStep L f eps sw sg v v' true
  | toRv : v.gas = .Sg → v'.gas = .Rv → v'.pressure = .Pg → 1 - sw - solventSaturation L v - sg < -eps → 0 < sg → f.vaporizedOil →
      GasStep L f eps sw sg v v' true
  | fromRs : v.gas = .Rs → v'.gas = .Sg → v'.pressure = v.pressure → v'.val L.compositionSwitchIdx = 0 →
      GasStep L f eps sw sg v v' true
  | fromRv : v.gas = .Rv → v'.gas = .Sg → v'.pressure = .Po →
      v'.val L.compositionSwitchIdx = 1 - sw - solventSaturation L v → GasStep L f eps sw sg v v' true

theorem adaptGas_step :
    GasStep L f eps sw sg v (adaptGas L f eps T pcF sw sg v).1 (adaptGas L f eps T pcF sw sg v).2 ∧
    (adaptGas L f eps T pcF sw sg v).1.water = v.water ∧ (adaptGas L f eps T pcF sw sg v).1.solvent = v.solvent ∧
    (adaptGas L f eps T pcF sw sg v).1.brine = v.brine ∧
    ∀ i, i ≠ L.compositionSwitchIdx → i ≠ L.pressureSwitchIdx → (adaptGas L f eps T pcF sw sg v).1.val i = v.val i := by
  unfold adaptGas
  cases hw : v.gas <;> dsimp only
  · split_ifs with h1 h2
    · refine ⟨.toRs hw rfl rfl h1.1 h1.2.2, rfl, rfl, rfl, fun i h _ => ?_⟩
      simp [PriVars.set, Function.update_of_ne h]
    · refine ⟨.toRv hw rfl rfl h2.1 h2.2.1 h2.2.2, rfl, rfl, rfl, fun i h h' => ?_⟩
      simp [PriVars.set, setScaledPressure, Function.update_of_ne h, Function.update_of_ne h']
    · exact ⟨.same rfl, rfl, rfl, rfl, fun i _ _ => rfl⟩
  · split_ifs with h1
    · refine ⟨.fromRs hw rfl rfl (by simp [PriVars.set]), rfl, rfl, rfl, fun i h _ => ?_⟩
      simp [PriVars.set, Function.update_of_ne h]
    · exact ⟨.same rfl, rfl, rfl, rfl, fun i _ _ => rfl⟩
  · split_ifs with h1
    · refine ⟨.fromRv hw rfl rfl (by simp [PriVars.set]), rfl, rfl, rfl, fun i h h' => ?_⟩
      simp [PriVars.set, setScaledPressure, Function.update_of_ne h, Function.update_of_ne h']
    · exact ⟨.same rfl, rfl, rfl, rfl, fun i _ _ => rfl⟩
  · exact ⟨.same rfl, rfl, rfl, rfl, fun i _ _ => rfl⟩

/-- The part of the salt changes the salt variable and its meaning only. -/
theorem adaptBrine_frame :
    (adaptBrine L f eps v).1.water = v.water ∧ (adaptBrine L f eps v).1.gas = v.gas ∧
    (adaptBrine L f eps v).1.pressure = v.pressure ∧ (adaptBrine L f eps v).1.solvent = v.solvent ∧
    ∀ i, i ≠ L.saltConcentrationIdx → (adaptBrine L f eps v).1.val i = v.val i := by
  unfold adaptBrine
  by_cases hc : f.saltPrecipitation
  · rw [if_pos hc]
    cases hb : v.brine <;> dsimp only <;> try split_ifs
    all_goals
      refine ⟨rfl, rfl, rfl, rfl, fun i h => ?_⟩
      simp [PriVars.set, Function.update_of_ne h]
  · rw [if_neg hc]
    exact ⟨rfl, rfl, rfl, rfl, fun i _ => rfl⟩

/-- The part of the solvent changes the solvent variable and its meaning only. -/
theorem adaptSolvent_frame :
    (adaptSolvent L f eps T salt v).water = v.water ∧ (adaptSolvent L f eps T salt v).gas = v.gas ∧
    (adaptSolvent L f eps T salt v).pressure = v.pressure ∧ (adaptSolvent L f eps T salt v).brine = v.brine ∧
    ∀ i, i ≠ L.solventSaturationIdx → (adaptSolvent L f eps T salt v).val i = v.val i := by
  unfold adaptSolvent
  by_cases hc : 0 ≤ L.solventSaturationIdx ∧ f.solventInWater
  · rw [if_pos hc]
    cases hb : v.solvent <;> dsimp only <;> try split_ifs
    all_goals
      refine ⟨rfl, rfl, rfl, rfl, fun i h => ?_⟩
      simp [PriVars.set, Function.update_of_ne h]
  · rw [if_neg hc]
    exact ⟨rfl, rfl, rfl, rfl, fun i _ => rfl⟩

end Verif.BlackOil
