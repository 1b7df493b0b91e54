import Verif.Names.Model
import Mathlib.Data.List.Nodup
import Mathlib.Tactic.Ring
import Mathlib.Tactic.Linarith
import Mathlib.Tactic.IntervalCases

/-
C140: Each primary variable and each equation has a name of its own.
-/

set_option autoImplicit false
set_option linter.unusedSimpArgs false
set_option linter.unusedVariables false

namespace Verif.Names

/-- Indices below `n` have names, which are not empty and which are different from each other. -/
def OwnNames (n : ℕ) (name : ℕ → Option Name) : Prop :=
  (∀ i < n, ∃ s, name i = some s ∧ s ≠ []) ∧ ∀ i < n, ∀ j < n, name i = name j → i = j

/-- Different phases have different names, and so have different components. -/
def Fluid.Distinct (F : Fluid) : Prop :=
  (∀ i < F.phases, ∀ j < F.phases, F.phaseName i = F.phaseName j → i = j) ∧
  (∀ i < F.comps, ∀ j < F.comps, F.compName i = F.compName j → i = j)

theorem digits_inj {i j : ℕ} : digits i = digits j ↔ i = j := by
  constructor
  · intro h
    exact Nat.repr_injective (String.toList_inj.mp h)
  · rintro rfl; rfl

theorem orElse_energyVar (energy : Bool) (pos i : ℕ) (t : Option Name) :
    orElse (energyVar energy pos i) t = if energy = true ∧ i = pos then some c!"temperature" else t := by
  unfold orElse energyVar
  by_cases h : energy = true ∧ i = pos <;> simp [h]

theorem orElse_energyEq (energy : Bool) (pos i : ℕ) (t : Option Name) :
    orElse (energyEq energy pos i) t = if energy = true ∧ i = pos then some c!"energy" else t := by
  unfold orElse energyEq
  by_cases h : energy = true ∧ i = pos <;> simp [h]

/-- **C140** The immiscible model (as many components as phases): each primary variable and each equation has a name of its own. -/
theorem C140_immiscible (F : Fluid) (energy : Bool) (hF : F.Distinct) (hp : 0 < F.phases) (hc : F.comps = F.phases) :
    OwnNames (immNumEq F energy) (immVar F energy) ∧ OwnNames (immNumEq F energy) (immEq F energy) := by
  obtain ⟨h1, h2⟩ := hF
  refine ⟨⟨?_, ?_⟩, ?_, ?_⟩
  · intro i hi
    simp only [immVar, orElse_energyVar]
    cases energy <;> simp [immNumEq] at hi ⊢ <;> split_ifs <;> simp <;> omega
  · intro i hi j hj h
    simp only [immVar, orElse_energyVar] at h
    cases energy <;> simp [immNumEq] at hi hj h <;> split_ifs at h <;> simp at h <;> first
      | omega
      | (have := h1 _ (by omega) _ (by omega) h; omega)
  · intro i hi
    simp only [immEq, orElse_energyEq]
    cases energy <;> simp [immNumEq] at hi ⊢ <;> (try split_ifs) <;> (try simp) <;> omega
  · intro i hi j hj h
    simp only [immEq, orElse_energyEq] at h
    cases energy <;> simp [immNumEq] at hi hj h <;> split_ifs at h <;> simp at h <;> first
      | omega
      | (have := h1 _ (by omega) _ (by omega) h; omega)

/-- **C140** The names of the immiscible model name the right quantity: the first variable is the pressure of the first phase,
the variable `p` places behind it, `ImmisciblePrimaryVariables::assignNaive`'s place for the saturation of phase `p`
(opm/models/immiscible/immiscibleprimaryvariables.hh), has the name of phase `p`, and the temperature comes last. -/
theorem C140_immiscible_quantities (F : Fluid) (energy : Bool) (hp : 0 < F.phases) :
    immVar F energy 0 = some (c!"pressure_" ++ F.phaseName 0) ∧
    (∀ p, p + 1 < F.phases → immVar F energy (1 + p) = some (c!"saturation_" ++ F.phaseName p)) ∧
    (energy = true → immVar F energy F.phases = some c!"temperature") := by
  refine ⟨?_, fun p h => ?_, fun h => ?_⟩
  · simp only [immVar, orElse_energyVar]
    rw [if_neg (by omega)]; simp
  · simp only [immVar, orElse_energyVar]
    rw [if_neg (by omega), if_neg (by omega), if_pos (by omega)]; simp
  · simp only [immVar, orElse_energyVar, h]
    simp

/-- **C140** The PVS model: each primary variable and each equation has a name of its own. -/
theorem C140_pvs (F : Fluid) (energy : Bool) (hF : F.Distinct) (hc : 0 < F.comps) :
    OwnNames (compNumEq F energy) (pvsVar F energy) ∧ OwnNames (compNumEq F energy) (compEq F energy) := by
  obtain ⟨h1, h2⟩ := hF
  refine ⟨⟨?_, ?_⟩, ?_, ?_⟩
  · intro i hi
    simp only [pvsVar, orElse_energyVar]
    cases energy <;> simp [compNumEq] at hi ⊢ <;> split_ifs <;> simp <;> omega
  · intro i hi j hj h
    simp only [pvsVar, orElse_energyVar] at h
    cases energy <;> simp [compNumEq] at hi hj h <;> split_ifs at h <;> simp [digits_inj] at h <;> first
      | omega
      | (have := h2 _ (by omega) _ (by omega) h; omega)
  · intro i hi
    simp only [compEq, orElse_energyEq]
    cases energy <;> simp [compNumEq] at hi ⊢ <;> (try split_ifs) <;> (try simp) <;> omega
  · intro i hi j hj h
    simp only [compEq, orElse_energyEq] at h
    cases energy <;> simp [compNumEq] at hi hj h <;> split_ifs at h <;> simp at h <;> first
      | omega
      | (have := h2 _ (by omega) _ (by omega) h; omega)

/-- **C140** The flash model: each primary variable and each equation has a name of its own. -/
theorem C140_flash (F : Fluid) (energy : Bool) (hF : F.Distinct) :
    OwnNames (compNumEq F energy) (flashVar F energy) ∧ OwnNames (compNumEq F energy) (compEq F energy) := by
  obtain ⟨h1, h2⟩ := hF
  refine ⟨⟨?_, ?_⟩, ?_, ?_⟩
  · intro i hi
    simp only [flashVar, orElse_energyVar]
    cases energy <;> simp [compNumEq] at hi ⊢ <;> (try split_ifs) <;> (try simp) <;> omega
  · intro i hi j hj h
    simp only [flashVar, orElse_energyVar] at h
    cases energy <;> simp [compNumEq] at hi hj h <;> split_ifs at h <;> simp at h <;> first
      | omega
      | (have := h2 _ (by omega) _ (by omega) h; omega)
  · intro i hi
    simp only [compEq, orElse_energyEq]
    cases energy <;> simp [compNumEq] at hi ⊢ <;> (try split_ifs) <;> (try simp) <;> omega
  · intro i hi j hj h
    simp only [compEq, orElse_energyEq] at h
    cases energy <;> simp [compNumEq] at hi hj h <;> split_ifs at h <;> simp at h <;> first
      | omega
      | (have := h2 _ (by omega) _ (by omega) h; omega)

/-- **C140** The flash model in terms of pressure and temperature: each primary variable has a name of its own. -/
theorem C140_ptflash (F : Fluid) (energy : Bool) (hF : F.Distinct) (hc : 0 < F.comps) :
    OwnNames (compNumEq F energy) (ptFlashVar F energy) := by
  obtain ⟨h1, h2⟩ := hF
  refine ⟨?_, ?_⟩
  · intro i hi
    simp only [ptFlashVar, orElse_energyVar]
    cases energy <;> simp [compNumEq] at hi ⊢ <;> split_ifs <;> simp <;> omega
  · intro i hi j hj h
    simp only [ptFlashVar, orElse_energyVar] at h
    cases energy <;> simp [compNumEq] at hi hj h <;> split_ifs at h <;> simp at h <;> first
      | omega
      | (have := h2 _ (by omega) _ (by omega) h; omega)

/-- **C140** The NCP model: each primary variable and each equation has a name of its own. -/
theorem C140_ncp (F : Fluid) (energy : Bool) (hF : F.Distinct) (hp : 0 < F.phases) :
    OwnNames (ncpNumEq F energy) (ncpVar F energy) ∧ OwnNames (ncpNumEq F energy) (ncpEq F energy) := by
  obtain ⟨h1, h2⟩ := hF
  refine ⟨⟨?_, ?_⟩, ?_, ?_⟩
  · intro i hi
    simp only [ncpVar, orElse_energyVar]
    cases energy <;> simp [ncpNumEq] at hi ⊢ <;> split_ifs <;> simp <;> omega
  · intro i hi j hj h
    simp only [ncpVar, orElse_energyVar] at h
    cases energy <;> simp [ncpNumEq] at hi hj h <;> split_ifs at h <;> simp at h <;> first
      | omega
      | (have := h1 _ (by omega) _ (by omega) h; omega)
      | (have := h2 _ (by omega) _ (by omega) h; omega)
  · intro i hi
    simp only [ncpEq, orElse_energyEq]
    cases energy <;> simp [ncpNumEq] at hi ⊢ <;> split_ifs <;> simp <;> omega
  · intro i hi j hj h
    simp only [ncpEq, orElse_energyEq] at h
    cases energy <;> simp [ncpNumEq] at hi hj h <;> split_ifs at h <;> simp at h <;> first
      | omega
      | (have := h1 _ (by omega) _ (by omega) h; omega)
      | (have := h2 _ (by omega) _ (by omega) h; omega)

/-- **C140** Models which do not define names: each primary variable and each equation has a name of its own, whatever their number. -/
theorem C140_base (n : ℕ) : OwnNames n baseVar ∧ OwnNames n baseEq := by
  refine ⟨⟨?_, ?_⟩, ?_, ?_⟩
  · intro i _; simp [baseVar]
  · intro i _ j _ h; simpa [baseVar, digits_inj] using h
  · intro i _; simp [baseEq]
  · intro i _ j _ h; simpa [baseEq, digits_inj] using h

/-- Water, oil and gas; the names of components are those of phases. -/
def exFluid : Fluid where
  phases := 3
  comps := 3
  phaseName := fun i => [c!"water", c!"oil", c!"gas"].getD i []
  compName := fun i => [c!"Water", c!"Oil", c!"Gas"].getD i []

/-- Beside C140: the hypotheses hold for water, oil and gas, and the names are as expected. -/
example : exFluid.Distinct ∧ 0 < exFluid.phases ∧ exFluid.comps = exFluid.phases ∧
    immVar exFluid true 2 = some c!"saturation_oil" ∧ immVar exFluid true 3 = some c!"temperature" ∧
    ncpVar exFluid false 5 = some c!"pressure_water" ∧ pvsVar exFluid false 1 = some (c!"switch_" ++ digits 0) := by
  refine ⟨⟨by decide, by decide⟩, by decide, by decide, by decide, by decide, by decide, by rfl⟩

open Verif.BlackOil

/-- The numbers of additional equations which the modules of the black-oil model support: at most one solvent, one component of the
extended black-oil model, one polymer (two equations if its molecular weight is modelled) and one equation of energy. -/
structure Usual (c : Config) (mw : Bool) : Prop where
  offset : c.offset = 0
  solvent : c.solvents ≤ 1
  extbo : c.extbos ≤ 1
  polymer : c.polymers = 0 ∨ c.polymers = if mw then 2 else 1
  energy : c.energy ≤ 1

set_option maxHeartbeats 2000000 in
/-- **C140** The black-oil model for three phases without foam, salt and MICP: each primary variable has a name of its own, if the
extended black-oil component and polymer are not used both; each equation has a name of its own if the extended black-oil component is
used neither with the solvent nor with polymer. -/
theorem C140_blackoil_partial (c : Config) (mw : Bool) (phaseName : ℕ → Name) (hc : Usual c mw) (hf : c.foam = false)
    (hb : c.brine = false) (hm : c.micps = 0) (hxp : c.extbos = 0 ∨ c.polymers = 0)
    (hn : ∀ i < 3, ∀ j < 3, phaseName i = phaseName j → i = j) :
    OwnNames (threePhase c).numEq (fun i => boVar c mw (threePhase c) i) ∧
    (c.extbos = 0 ∨ c.solvents = 0 →
      OwnNames (threePhase c).numEq (fun i => boEq phaseName c mw (threePhase c) i)) := by
  obtain ⟨s, x, p, e, f, b, o, m⟩ := c
  obtain ⟨h1, h2, h3, h4, h5⟩ := hc
  simp only at h1 h2 h3 h4 h5 hf hb hm hxp
  subst h1 hf hb hm
  have hs : s = 0 ∨ s = 1 := by omega
  have hx : x = 0 ∨ x = 1 := by omega
  have he : e = 0 ∨ e = 1 := by omega
  have hp : (mw = false ∧ p = 0) ∨ (mw = false ∧ p = 1) ∨ (mw = true ∧ p = 0) ∨ (mw = true ∧ p = 2) := by
    cases mw <;> simp_all
  have e01 : phaseName 0 ≠ phaseName 1 := fun h => by simpa using hn 0 (by omega) 1 (by omega) h
  have e02 : phaseName 0 ≠ phaseName 2 := fun h => by simpa using hn 0 (by omega) 2 (by omega) h
  have e12 : phaseName 1 ≠ phaseName 2 := fun h => by simpa using hn 1 (by omega) 2 (by omega) h
  have e10 := e01.symm
  have e20 := e02.symm
  have e21 := e12.symm
  refine ⟨⟨?_, ?_⟩, fun hxs => ⟨?_, ?_⟩⟩
  · intro i hi
    simp only [threePhase, Config.numEq, Config.numFoam, Config.numBrine] at hi
    rcases hs with rfl | rfl <;> rcases hx with rfl | rfl <;> rcases he with rfl | rfl <;>
      rcases hp with ⟨rfl, rfl⟩ | ⟨rfl, rfl⟩ | ⟨rfl, rfl⟩ | ⟨rfl, rfl⟩ <;> simp at hxp hi <;> interval_cases i <;>
      simp [boVar, threePhase, Config.numFoam, Config.numBrine]
  · intro i hi j hj h
    revert i j
    rcases hs with rfl | rfl <;> rcases hx with rfl | rfl <;> rcases he with rfl | rfl <;>
      rcases hp with ⟨rfl, rfl⟩ | ⟨rfl, rfl⟩ | ⟨rfl, rfl⟩ | ⟨rfl, rfl⟩ <;> simp at hxp <;> decide +kernel
  · intro i hi
    simp only [threePhase, Config.numEq, Config.numFoam, Config.numBrine] at hi
    rcases hs with rfl | rfl <;> rcases hx with rfl | rfl <;> rcases he with rfl | rfl <;>
      rcases hp with ⟨rfl, rfl⟩ | ⟨rfl, rfl⟩ | ⟨rfl, rfl⟩ | ⟨rfl, rfl⟩ <;> simp at hxp hxs hi <;> interval_cases i <;>
      simp [boEq, threePhase, Config.numFoam, Config.numBrine]
  · intro i hi j hj h
    simp only [threePhase, Config.numEq, Config.numFoam, Config.numBrine] at hi hj
    rcases hs with rfl | rfl <;> rcases hx with rfl | rfl <;> rcases he with rfl | rfl <;>
      rcases hp with ⟨rfl, rfl⟩ | ⟨rfl, rfl⟩ | ⟨rfl, rfl⟩ | ⟨rfl, rfl⟩ <;> simp at hxp hxs hi hj <;> interval_cases i <;>
      interval_cases j <;>
      first | rfl | (simp [boEq, threePhase, Config.numFoam, Config.numBrine, e01, e02, e12, e10, e20, e21] at h; done)

/-- A configuration of the black-oil model -/
def cfg (solvents extbos polymers energy : ℕ) (foam brine : Bool) (micps : ℕ) : Config :=
  ⟨solvents, extbos, polymers, energy, foam, brine, 0, micps⟩

/-- Beside C140: solvent, polymer and energy. -/
example : Usual (cfg 1 0 2 1 false false 0) true ∧
    boVar (cfg 1 0 2 1 false false 0) true (threePhase (cfg 1 0 2 1 false false 0)) 5 = some c!"polymer_molecularweight" := by
  refine ⟨⟨rfl, by decide, by decide, by decide, by decide⟩, by decide⟩

/-- **C140** violated: foam, salt and the components of the model of biofilms (MICP) have no names, neither as primary variables nor as
equations, whatever else is used: the assertion fails.  (If assertions are disabled, all of them have the empty name.) -/
theorem C140_blackoil_unnamed_violated (phaseName : ℕ → Name) (mw : Bool) :
    boVar (cfg 0 0 0 0 true false 0) mw (threePhase (cfg 0 0 0 0 true false 0)) 3 = none ∧
    boEq phaseName (cfg 0 0 0 0 true false 0) mw (threePhase (cfg 0 0 0 0 true false 0)) 3 = none ∧
    boVar (cfg 0 0 0 0 false true 0) mw (threePhase (cfg 0 0 0 0 false true 0)) 3 = none ∧
    boEq phaseName (cfg 0 0 0 0 false true 0) mw (threePhase (cfg 0 0 0 0 false true 0)) 3 = none ∧
    (∀ i : ℤ, 3 ≤ i → i < 8 →
      boVar (cfg 0 0 0 0 false false 5) mw (threePhase (cfg 0 0 0 0 false false 5)) i = none ∧
      boEq phaseName (cfg 0 0 0 0 false false 5) mw (threePhase (cfg 0 0 0 0 false false 5)) i = none) := by
  refine ⟨?_, ?_, ?_, ?_, ?_⟩
  · simp [boVar, threePhase, cfg, Config.numFoam, Config.numBrine]
  · simp [boEq, threePhase, cfg, Config.numFoam, Config.numBrine]
  · simp [boVar, threePhase, cfg, Config.numFoam, Config.numBrine]
  · simp [boEq, threePhase, cfg, Config.numFoam, Config.numBrine]
  · intro i h1 h2
    constructor
    · have h0 : i ≠ 0 := by omega
      have h1' : i ≠ 1 := by omega
      have h2' : i ≠ 2 := by omega
      simp [boVar, threePhase, cfg, Config.numFoam, Config.numBrine, h0, h1', h2']
    · have h3 : ¬ i < 3 := by omega
      simp [boEq, threePhase, cfg, Config.numFoam, Config.numBrine, h3]

/-- **C140** violated: with the solvent and the extended black-oil component, two equations have the same name; and with the extended
black-oil component and polymer, two names are expected for the primary variable 3, and the variable 4 has none. -/
theorem C140_blackoil_twice_violated (phaseName : ℕ → Name) :
    boEq phaseName (cfg 1 1 0 0 false false 0) false (threePhase (cfg 1 1 0 0 false false 0)) 3 =
      boEq phaseName (cfg 1 1 0 0 false false 0) false (threePhase (cfg 1 1 0 0 false false 0)) 4 ∧
    (threePhase (cfg 0 1 1 0 false false 0)).numEq = 5 ∧
    boVar (cfg 0 1 1 0 false false 0) false (threePhase (cfg 0 1 1 0 false false 0)) 4 = none := by
  refine ⟨?_, rfl, ?_⟩
  · simp [boEq, threePhase, cfg, Config.numFoam, Config.numBrine]
  · simp [boVar, threePhase, cfg, Config.numFoam, Config.numBrine]

/-- **C140** violated: for two phases, the equation of the first additional component (here: of the solvent, of polymer or of energy) is
called after the third phase, which is not present. -/
theorem C140_blackoil_two_phases_violated (phaseName : ℕ → Name) (disabled : ℕ) (mw : Bool) :
    (twoPhase (cfg 1 0 0 0 false false 0) disabled).contiSolventEqIdx = 2 ∧
    boEq phaseName (cfg 1 0 0 0 false false 0) mw (twoPhase (cfg 1 0 0 0 false false 0) disabled) 2 = some (c!"conti_" ++ phaseName 2) ∧
    (twoPhase (cfg 0 0 0 1 false false 0) disabled).contiEnergyEqIdx = 2 ∧
    boEq phaseName (cfg 0 0 0 1 false false 0) mw (twoPhase (cfg 0 0 0 1 false false 0) disabled) 2 = some (c!"conti_" ++ phaseName 2) := by
  refine ⟨?_, ?_, ?_, ?_⟩ <;> simp [boEq, twoPhase, cfg, Config.numFoam, Config.numBrine]

/-- **C140** violated: the first three equations conserve components, in the order of components, but are called after phases, in the
order of phases: if the main component of the phase `a` is `b` (`FluidSystem::solventComponentIndex`; water is the phase 0 and the
component 1, oil is the phase 1 and the component 0), the equation to which the storage in the phase `a` is added
(opm/models/blackoil/blackoillocalresidual.hh lines 125-131) is called after the phase `b`. -/
theorem C140_blackoil_swapped_violated (phaseName : ℕ → Name) (c : Config) (mw : Bool) (mainComponent : ℕ → ℕ) (a : ℕ)
    (hm : mainComponent a < 3) (ha : mainComponent a ≠ a) (hn : phaseName a ≠ phaseName (mainComponent a)) :
    boEq phaseName c mw (threePhase c) ((threePhase c).conti0EqIdx + mainComponent a) ≠ some (c!"conti_" ++ phaseName a) := by
  have h : boEq phaseName c mw (threePhase c) ((threePhase c).conti0EqIdx + mainComponent a) =
      some (c!"conti_" ++ phaseName (mainComponent a)) := by
    unfold boEq
    rw [if_pos (by constructor <;> omega)]
    simp
  rw [h]
  intro h'
  simp at h'
  exact hn h'.symm

/-- **C140** The fields which show primary variables have different names, if the names of the variables do not share their first 508
characters. -/
theorem C140_fields (n : ℕ) (var : ℕ → Name) (h : ∀ i < n, ∀ j < n, (var i).take 508 = (var j).take 508 → i = j) :
    ∀ i < n, ∀ j < n, pvField (var i) = pvField (var j) → i = j := by
  intro i hi j hj he
  apply h i hi j hj
  simpa [pvField] using he

/-- **C140** violated: variables the names of which begin with the same 508 characters get fields of the same name. -/
theorem C140_fields_violated (s : Name) (a b : Name) (hs : s.length = 508) : pvField (s ++ a) = pvField (s ++ b) := by
  simp [pvField, List.take_append, hs]

/-- **C140** If primary variables and equations have names of their own, no two fields which show the convergence of the Newton method
have the same name: each of them can be seen. -/
theorem C140_convergence (n : ℕ) (var eq : ℕ → Name) (hv : ∀ i < n, ∀ j < n, var i = var j → i = j)
    (he : ∀ i < n, ∀ j < n, eq i = eq j → i = j) : (convergenceFields n var eq).Nodup := by
  unfold convergenceFields
  rw [List.nodup_cons, List.nodup_cons, List.nodup_flatMap]
  refine ⟨?_, ?_, ?_, ?_⟩
  · simp
  · simp
  · intro i _
    simp
  · rw [List.pairwise_iff_getElem]
    intro i j hi hj hij
    simp only [List.length_range] at hi hj
    simp only [List.getElem_range, Function.onFun]
    have h1 : var i ≠ var j := fun h => absurd (hv i hi j hj h) (by omega)
    have h2 : eq i ≠ eq j := fun h => absurd (he i hi j hj h) (by omega)
    simp [List.disjoint_left, h1, h2]

/-- Beside C140: the fields of a problem with two equations. -/
example : convergenceFields 1 (fun _ => c!"p") (fun _ => c!"q") =
    [c!"relative error", c!"normalized relative error", c!"priVar_p", c!"delta_p", c!"weight_p", c!"defect_q"] := by decide

end Verif.Names
