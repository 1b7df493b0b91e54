import Verif.Flux.Content
import Verif.Flux.Darcy
import Mathlib.Tactic.Ring
import Mathlib.Tactic.Linarith
import Mathlib.Tactic.FieldSimp
import Mathlib.Algebra.BigOperators.Group.List.Basic

set_option autoImplicit false
set_option linter.unusedSectionVars false
set_option linter.unusedSimpArgs false
/-
C86, C88 and C89: what the black-oil models store, transport and exchange with the outside, and the rates given by the user.
-/
namespace Verif.Flux

variable {K : Type} [Field K] [LinearOrder K]

/-! ### Specification -/

/-- The volume of component `c` at surface conditions which comes with a unit of the main component of phase `p`. -/
def ratio (o : Options) (fs : Fluid K) : Phase → Phase → K
  | .water, .water => 1
  | .oil, .oil => 1
  | .gas, .gas => 1
  | .oil, .gas => if o.dissolvedGas then fs.rs else 0
  | .water, .gas => if o.dissolvedGasInWater then fs.rsw else 0
  | .gas, .oil => if o.vaporizedOil then fs.rv else 0
  | .gas, .water => if o.vaporizedWater then fs.rvw else 0
  | .oil, .water => 0
  | .water, .oil => 0

/-- The amount of component `c` in a unit volume of phase `p`: volume at surface conditions or mass. -/
def perVolume (o : Options) (refDensity : Phase → K) (fs : Fluid K) (p c : Phase) : K :=
  fs.invB p * ratio o fs p c * (if o.conserveSurfaceVolume then 1 else refDensity c)

/-- The sum over the active phases. -/
def sumActive (o : Options) (f : Phase → K) : K := (Phase.all.map fun p => if o.active p then f p else 0).sum

/-! ### Lemmas -/

theorem storagePhase_apply (o : Options) (porosity : K) (fs : Fluid K) (st : Amounts K) (p c : Phase) (hc : o.active c = true) :
    storagePhase o porosity fs st p c =
      st c + if o.active p then porosity * fs.saturation p * (fs.invB p * ratio o fs p c) else 0 := by
  unfold storagePhase
  cases ha : o.active p
  · have hne : c ≠ p := fun h => by rw [h, ha] at hc; exact absurd hc (by decide)
    cases o.threePhaseIndices <;> simp [Amounts.set, hne]
  · obtain ⟨act, dg, dgw, vo, vw, sv, tp⟩ := o
    cases p <;> cases c <;> cases dg <;> cases dgw <;> cases vo <;> cases vw <;> simp [Amounts.add, ratio] <;> ring

theorem evalPhaseFluxes_apply (o : Options) (ref : Phase → K) (v : K) (fs : Fluid K) (fl : Amounts K) (p c : Phase) :
    evalPhaseFluxes o ref v fs fl p c = fl c + v * perVolume o ref fs p c := by
  obtain ⟨act, dg, dgw, vo, vw, sv, tp⟩ := o
  unfold evalPhaseFluxes perVolume
  cases p <;> cases c <;> cases dg <;> cases dgw <;> cases vo <;> cases vw <;> cases sv <;> simp [Amounts.add, ratio] <;> ring

theorem adapt_apply (o : Options) (ref : Phase → K) (v : Amounts K) (c : Phase) (h : o.active c = true) :
    adapt o ref v c = v c * (if o.conserveSurfaceVolume then 1 else ref c) := by
  unfold adapt
  cases o.conserveSurfaceVolume
  · cases c <;> simp only [h, Bool.false_eq_true, if_false, if_true] <;> split_ifs <;> simp_all [Amounts.set]
  · simp

/-! ### C88 -/

/-- **C88** What is stored of a component is the sum over the phases of the pore volume they occupy times the amount of the
component per volume. -/
theorem C88_storage (o : Options) (ref : Phase → K) (porosity : K) (fs : Fluid K) (c : Phase) (hc : o.active c = true) :
    computeStorage o ref porosity fs c = sumActive o fun p => porosity * fs.saturation p * perVolume o ref fs p c := by
  unfold computeStorage
  rw [adapt_apply o ref _ c hc]
  simp only [Phase.all, List.foldl_cons, List.foldl_nil, storagePhase_apply _ _ _ _ _ _ hc, sumActive, List.map_cons, List.map_nil,
    List.sum_cons, List.sum_nil, perVolume, add_mul, ite_mul, zero_mul, zero_add, add_zero, add_assoc, mul_assoc]

/-- **C88** What flows of a component is the sum over the phases of the volume which flows times the amount of the component
per volume in the cell where the phase comes from. -/
theorem C88_flux (o : Options) (ref : Phase → Phase → K) (v : Phase → K) (up : Phase → Fluid K) (c : Phase) :
    computeFlux o ref v up c = sumActive o fun p => v p * perVolume o (ref p) (up p) p c := by
  have step : ∀ (fl : Amounts K) (p : Phase), (if o.active p = false then fl else evalPhaseFluxes o (ref p) (v p) (up p) fl p) c
      = fl c + if o.active p then v p * perVolume o (ref p) (up p) p c else 0 := by
    intro fl p
    cases o.active p <;> simp [evalPhaseFluxes_apply]
  unfold computeFlux
  simp only [Phase.all, List.foldl_cons, List.foldl_nil, sumActive, List.map_cons, List.map_nil, List.sum_cons, List.sum_nil, step]
  ring

/-- **C88** In particular, a cell which is swept by one phase only gets exactly what it stores: if a phase flows into a cell
which it fills, then what is stored after its pore volume has flowed in is what has flowed in. -/
theorem C88_consistent (o : Options) (ref : Phase → K) (porosity : K) (fs : Fluid K) (p c : Phase)
    (hc : o.active c = true) (hs : fs.saturation = fun q => if q = p then 1 else 0) :
    computeStorage o ref porosity fs c = computeFlux o (fun _ => ref) (fun q => if q = p then porosity else 0) (fun _ => fs) c := by
  rw [C88_storage o ref porosity fs c hc, C88_flux, hs]
  unfold sumActive
  congr 2
  funext q
  by_cases hq : q = p <;> simp [hq]

/-- The usual three-phase model. -/
def threePhase (surfaceVolume : Bool) : Options := ⟨fun _ => true, true, false, true, false, surfaceVolume, true⟩
def someFluid : Fluid ℚ := ⟨fun p => match p with | .water => 1/5 | .oil => 1/2 | .gas => 3/10, fun p => match p with | .water => 1 | .oil => 4/5 | .gas => 100, 50, 0, 1/1000, 0⟩
def someDensities : Phase → ℚ := fun p => match p with | .water => 1000 | .oil => 800 | .gas => 1

example : computeStorage (threePhase true) someDensities (1/2) someFluid .gas = 1/2 * (3/10 * 100 + 1/2 * (4/5) * 50) := by decide +kernel

/-! ### C86 -/

/-- What should flow over a free-flow boundary: the volume fluxes times the amounts per volume, of the fluid in the cell for
the phases which flow out, of the prescribed fluid for those which flow in. -/
def expectedRate (o : Options) (ref : Phase → K) (v : Phase → K) (inside outside : Fluid K) (c : Phase) : K :=
  sumActive o fun p => v p * perVolume o ref (if 0 < v p then inside else outside) p c

/-- **C86** If surface volumes are conserved and every phase which flows does so from the higher to the lower pressure, then
the rates at a free-flow boundary count the components as the storage terms and the fluxes between cells do.  Missing for the
full property: conservation of mass, which is the default, see `C86_mass_violated`, and gravity, see
`C86_equal_pressure_violated`. -/
theorem C86_boundary_partial (o : Options) (hsv : o.conserveSurfaceVolume = true) (ref v pIn pOut : Phase → K) (inside outside : Fluid K)
    (c : Phase) (hc : o.active c = true)
    (hout : ∀ p, 0 < v p → pOut p < pIn p) (hin : ∀ p, v p < 0 → pIn p < pOut p) :
    freeFlowRates o ref v pIn pOut inside outside c = expectedRate o ref v inside outside c := by
  have key : ∀ p, (if pOut p < pIn p then evalPhaseFluxes o ref (v p) inside (fun _ => 0) p
      else if pIn p < pOut p then evalPhaseFluxes o ref (v p) outside (fun _ => 0) p else fun _ => 0) c
      = v p * perVolume o ref (if 0 < v p then inside else outside) p c := by
    intro p
    rcases lt_trichotomy (v p) 0 with h | h | h
    · have := hin p h
      simp [not_lt.2 this.le, this, evalPhaseFluxes_apply, not_lt.2 h.le]
    · split_ifs <;> simp [evalPhaseFluxes_apply, h]
    · have := hout p h
      simp [this, evalPhaseFluxes_apply, h]
  have step : ∀ (rate : Amounts K) (p : Phase), (if o.active p = false then rate else fun c => rate c +
      (if pOut p < pIn p then evalPhaseFluxes o ref (v p) inside (fun _ => 0) p
      else if pIn p < pOut p then evalPhaseFluxes o ref (v p) outside (fun _ => 0) p else fun _ => 0) c) c
      = rate c + if o.active p then v p * perVolume o ref (if 0 < v p then inside else outside) p c else 0 := by
    intro rate p
    cases o.active p
    · simp
    · simp only [Bool.true_eq_false, if_false, if_true, key]
  unfold freeFlowRates
  rw [adapt_apply o ref _ c hc]
  simp only [hsv, if_true, Bool.false_eq_true, if_false, mul_one, Phase.all, List.foldl_cons, List.foldl_nil, expectedRate, sumActive,
    List.map_cons, List.map_nil, List.sum_cons, List.sum_nil, step]
  ring

-- oil flows out, water flows in
example : freeFlowRates (threePhase true) someDensities (fun p => match p with | .water => -2 | .oil => 3 | .gas => 0)
    (fun _ => 10) (fun p => match p with | .water => 11 | .oil => 9 | .gas => 10) someFluid someFluid .gas = 120 := by decide +kernel

/-- "The rates at a free-flow boundary count the components as the storage terms do" is FALSE if mass is conserved, which is
the default: the rates are multiplied by the reference densities twice. -/
theorem C86_mass_violated :
    ∃ (o : Options) (ref v pIn pOut : Phase → ℚ) (inside outside : Fluid ℚ), o.conserveSurfaceVolume = false ∧
      (∀ p, 0 < v p → pOut p < pIn p) ∧ (∀ p, v p < 0 → pIn p < pOut p) ∧
      ∀ c, freeFlowRates o ref v pIn pOut inside outside c = ref c * expectedRate o ref v inside outside c ∧
        (c = .water → freeFlowRates o ref v pIn pOut inside outside c ≠ expectedRate o ref v inside outside c) := by
  refine ⟨threePhase false, someDensities, fun _ => 1, fun _ => 10, fun _ => 9, someFluid, someFluid, rfl,
    fun p _ => by norm_num, fun p h => by norm_num at h, fun c => ⟨?_, ?_⟩⟩
  · cases c <;> decide +kernel
  · rintro rfl; decide +kernel

/-- The mass counted twice, in general: every rate is too large by the factor of the reference density. -/
theorem C86_mass_factor (o : Options) (hsv : o.conserveSurfaceVolume = false) (ref v pIn pOut : Phase → K) (inside outside : Fluid K)
    (c : Phase) (hc : o.active c = true)
    (hout : ∀ p, 0 < v p → pOut p < pIn p) (hin : ∀ p, v p < 0 → pIn p < pOut p) :
    freeFlowRates o ref v pIn pOut inside outside c = ref c * expectedRate o ref v inside outside c := by
  have key : ∀ p, (if pOut p < pIn p then evalPhaseFluxes o ref (v p) inside (fun _ => 0) p
      else if pIn p < pOut p then evalPhaseFluxes o ref (v p) outside (fun _ => 0) p else fun _ => 0) c
      = v p * perVolume o ref (if 0 < v p then inside else outside) p c := by
    intro p
    rcases lt_trichotomy (v p) 0 with h | h | h
    · have := hin p h
      simp [not_lt.2 this.le, this, evalPhaseFluxes_apply, not_lt.2 h.le]
    · split_ifs <;> simp [evalPhaseFluxes_apply, h]
    · have := hout p h
      simp [this, evalPhaseFluxes_apply, h]
  have step : ∀ (rate : Amounts K) (p : Phase), (if o.active p = false then rate else fun c => rate c +
      (if pOut p < pIn p then evalPhaseFluxes o ref (v p) inside (fun _ => 0) p
      else if pIn p < pOut p then evalPhaseFluxes o ref (v p) outside (fun _ => 0) p else fun _ => 0) c) c
      = rate c + if o.active p then v p * perVolume o ref (if 0 < v p then inside else outside) p c else 0 := by
    intro rate p
    cases o.active p
    · simp
    · simp only [Bool.true_eq_false, if_false, if_true, key]
  unfold freeFlowRates
  rw [adapt_apply o ref _ c hc]
  simp only [hsv, if_true, Bool.false_eq_true, if_false, mul_one, Phase.all, List.foldl_cons, List.foldl_nil, expectedRate, sumActive,
    List.map_cons, List.map_nil, List.sum_cons, List.sum_nil, step]
  ring

/-- A cell below the top of the domain. -/
def topCell : Side ℚ 1 := ⟨fun _ => 0, fun _ => -10, 100, 1, 1⟩

/-- "What flows over a free-flow boundary carries its components" is FALSE with gravity: if the pressures in the cell and on
the boundary above it are equal, water flows in, but no mass comes with it. -/
theorem C86_equal_pressure_violated :
    ∃ (v : ℚ), v = boundaryVolumeFlux true (fun _ => 1) topCell.pos (fun _ => 1) (fun _ _ => 1) topCell ⟨100, 1, 1⟩ ∧ v < 0 ∧
      expectedRate (threePhase true) someDensities (fun p => if p = .water then v else 0) someFluid someFluid .water < 0 ∧
      ∀ c, freeFlowRates (threePhase true) someDensities (fun p => if p = .water then v else 0) (fun _ => 100) (fun _ => 100)
        someFluid someFluid c = 0 := by
  refine ⟨_, rfl, by decide +kernel, by decide +kernel, fun c => by cases c <;> decide +kernel⟩

/-! ### C89 -/

variable {ι : Type}

/-- A phase: density, molar masses, amount fractions of the components and specific enthalpy, and the mean molar mass. -/
structure PhaseState (K ι : Type) where
  density : K
  molarMass : ι → K
  moleFraction : ι → K
  meanMolarMass : K
  enthalpy : K

/-- Mass of a component per volume. -/
def PhaseState.massPerVolume (s : PhaseState K ι) (i : ι) : K := s.density * (s.moleFraction i * s.molarMass i / s.meanMolarMass)
/-- Amount of a component per volume. -/
def PhaseState.molesPerVolume (s : PhaseState K ι) (i : ι) : K := s.density / s.meanMolarMass * s.moleFraction i
/-- The rates of mass and energy if a volume of the phase comes in. -/
def PhaseState.massRate (s : PhaseState K ι) (volume : K) : Eqn ι → K
  | .comp i => s.massPerVolume i * volume
  | .energy => s.density * s.enthalpy * volume
/-- The rates of amount of substance and energy if a volume of the phase comes in. -/
def PhaseState.molarRate (s : PhaseState K ι) (volume : K) : Eqn ι → K
  | .comp i => s.molesPerVolume i * volume
  | .energy => s.density * s.enthalpy * volume

/-- **C89** The NCP model: the rate is the same whether it is given as a mass rate, as a molar rate or as a volume of a
fluid. -/
theorem C89_ncp (s : PhaseState K ι) (hM : ∀ i, s.molarMass i ≠ 0) (volume : K) :
    ncpSetMassRate s.molarMass (s.massRate volume) = ncpSetMolarRate (s.molarRate volume) ∧
    ncpSetVolumetricRate s.molesPerVolume s.density s.enthalpy volume = ncpSetMolarRate (s.molarRate volume) := by
  constructor
  · funext e
    cases e with
    | comp i =>
      have := hM i
      simp only [ncpSetMassRate, ncpSetMolarRate, PhaseState.massRate, PhaseState.molarRate, PhaseState.massPerVolume, PhaseState.molesPerVolume]
      rw [div_eq_iff this]; ring
    | energy => rfl
  · funext e
    cases e with
    | comp i => rfl
    | energy => simp only [ncpSetVolumetricRate, ncpSetMolarRate, PhaseState.molarRate, enthalpyRate]; ring

/-- **C89** The immiscible and the Richards model: mass rates and volumetric rates agree, and molar rates agree with them in
the mass equations.  Missing for the full property: the energy equation of molar rates, see `C89_immiscible_violated`. -/
theorem C89_immiscible_partial (s : PhaseState K ι) (volume : K) (old : Eqn ι → K) :
    immSetVolumetricRate (fun i => s.moleFraction i * s.molarMass i / s.meanMolarMass) s.density s.enthalpy volume
      = immSetMassRate (s.massRate volume) ∧
    ∀ i, immSetMolarRate s.molarMass (s.molarRate volume) old (.comp i) = immSetMassRate (s.massRate volume) (.comp i) := by
  constructor
  · funext e
    cases e with
    | comp i => rfl
    | energy => simp only [immSetVolumetricRate, immSetMassRate, PhaseState.massRate, enthalpyRate]; ring
  · intro i
    simp only [immSetMolarRate, immSetMassRate, PhaseState.massRate, PhaseState.molarRate, PhaseState.massPerVolume, PhaseState.molesPerVolume]
    ring

/-- Liquid water. -/
def liquid : PhaseState ℚ Unit := ⟨1000, fun _ => 18/1000, fun _ => 1, 18/1000, 5⟩

/-- "Mass rates and molar rates agree" is FALSE for the immiscible and the Richards model with energy: a molar rate does not
set the energy equation, although it has to be given. -/
theorem C89_immiscible_violated :
    ∃ (s : PhaseState ℚ Unit) (old : Eqn Unit → ℚ), immSetMolarRate s.molarMass (s.molarRate 1) old ≠ immSetMassRate (s.massRate 1) :=
  ⟨liquid, fun _ => 0, fun h => by have := congrFun h .energy; revert this; decide +kernel⟩

/-- "Mass rates and molar rates agree" is FALSE for the PVS model with energy: a mass rate does not set the energy
equation. -/
theorem C89_pvs_violated :
    ∃ (s : PhaseState ℚ Unit) (old : Eqn Unit → ℚ), pvsSetMassRate s.molarMass (s.massRate 1) old ≠ ncpSetMolarRate (s.molarRate 1) :=
  ⟨liquid, fun _ => 0, fun h => by have := congrFun h .energy; revert this; decide +kernel⟩

/-- **C89** The PVS model: mass rates and molar rates agree in the equations of the components.  Missing for the full
property: the energy equation, see `C89_pvs_violated`, and volumetric rates, see `C89_volumetric_violated`. -/
theorem C89_pvs_partial (s : PhaseState K ι) (hM : ∀ i, s.molarMass i ≠ 0) (volume : K) (old : Eqn ι → K) (i : ι) :
    pvsSetMassRate s.molarMass (s.massRate volume) old (.comp i) = ncpSetMolarRate (s.molarRate volume) (.comp i) := by
  have := hM i
  simp only [pvsSetMassRate, ncpSetMolarRate, PhaseState.massRate, PhaseState.molarRate, PhaseState.massPerVolume, PhaseState.molesPerVolume]
  rw [div_eq_iff this]; ring

/-- "Volumetric rates agree with molar rates" is FALSE for the PVS and the flash model: the amount fractions are multiplied
by the mass density, so that the rate of a fluid is too large or too small by its mean molar mass. -/
theorem C89_volumetric_violated (s : PhaseState K ι) (hM : s.meanMolarMass ≠ 0) (volume : K) (i : ι) :
    pvsSetVolumetricRate s.moleFraction s.density s.enthalpy volume (.comp i) = s.meanMolarMass * s.molarRate volume (.comp i) := by
  simp only [pvsSetVolumetricRate, PhaseState.molarRate, PhaseState.molesPerVolume]
  field_simp

example : pvsSetVolumetricRate liquid.moleFraction liquid.density liquid.enthalpy 1 (.comp ()) ≠ liquid.molarRate 1 (.comp ()) := by decide +kernel

/-- **C89** The black-oil model which conserves mass: volumetric and mass rates agree.  Missing for the full property:
conservation of surface volumes, see `C89_blackoil_violated`. -/
theorem C89_blackoil_partial (ref massFraction : Phase → K) (density volume : K) :
    boSetVolumetricRate density volume massFraction = boSetMassRate false ref fun c => density * massFraction c * volume := by
  funext c; simp [boSetVolumetricRate, boSetMassRate]

/-- "Volumetric rates agree with mass rates" is FALSE for the black-oil model which conserves surface volumes: the volumetric
rate is stored as a mass rate. -/
theorem C89_blackoil_violated :
    ∃ (ref massFraction : Phase → ℚ) (density volume : ℚ), (∀ c, 0 < ref c) ∧
      boSetVolumetricRate density volume massFraction ≠ boSetMassRate true ref fun c => density * massFraction c * volume :=
  ⟨someDensities, fun c => if c = .water then 1 else 0, 1000, 1, fun c => by cases c <;> decide +kernel,
    fun h => by have := congrFun h .water; revert this; decide +kernel⟩

/-- "A molar rate can be given" is FALSE for the black-oil model without solvent: the entry of the solvent is written to,
which does not exist. -/
theorem C89_blackoil_molar_violated (numEq : ℕ) (molarMass : ℕ → K) (solventMolarMass : K) (value : ℕ → K) :
    boSetMolarRate false numEq molarMass solventMolarMass value = none := by
  simp [boSetMolarRate, accessEq, contiSolventEqIdx]

/-- **C89** With solvent the mass rates of the components and of the solvent are what one gives, times the molar masses; other
entries are what one gives.  Missing for the full property: the model without solvent, see `C89_blackoil_molar_violated`. -/
theorem C89_blackoil_molar_partial (numEq : ℕ) (h : 3 < numEq) (molarMass : ℕ → K) (solventMolarMass : K) (value : ℕ → K) :
    ∃ rate, boSetMolarRate true numEq molarMass solventMolarMass value = some rate ∧
      (∀ c < 3, rate c = molarMass c * value c) ∧ rate 3 = solventMolarMass * value 3 ∧ ∀ e, 3 < e → rate e = value e := by
  refine ⟨fun e => if e = 3 then value e * solventMolarMass else if e < 3 then value e * molarMass e else value e, ?_, ?_, ?_, ?_⟩
  · have ha : accessEq numEq (contiSolventEqIdx true 3) = some 3 := by
      have h' : ((3 : ℕ) : Int) < numEq := by exact_mod_cast h
      unfold accessEq contiSolventEqIdx
      rw [if_pos rfl, if_pos ⟨by omega, h'⟩]
      rfl
    rw [boSetMolarRate, ha, Option.map_some]
    congr 1
    funext e
    by_cases he : e = 3
    · subst he; simp
    · simp [he]
  · intro c hc
    simp only [if_neg (show c ≠ 3 by omega), if_pos hc, mul_comm]
  · simp [mul_comm]
  · intro e he
    simp only [if_neg (show e ≠ 3 by omega), if_neg (show ¬ e < 3 by omega)]

example : (boSetMolarRate true 4 (fun _ => (2:ℚ)) 3 (fun _ => 1)).isSome = true := by decide +kernel

end Verif.Flux
