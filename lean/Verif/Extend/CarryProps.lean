import Verif.Extend.Model
import Mathlib.Tactic.Ring
import Mathlib.Tactic.Linarith
import Mathlib.Tactic.NormNum
import Mathlib.Algebra.Order.Ring.Rat

set_option autoImplicit false
set_option linter.unusedSectionVars false
set_option linter.unusedSimpArgs false
/-
C120: what the additional components of the black-oil model do follows the phases which carry them.
-/
namespace Verif.Extend

variable {K : Type} [Field K] [LinearOrder K]

/-! ### Specification -/

/-- The same face, seen from the other cell. -/
def PhaseFlux.flip (f : PhaseFlux K) : PhaseFlux K := ⟨- f.volume, !f.exteriorUp⟩

/-- The same face, seen from the other cell: the volume fluxes are opposite, the upstream cells are the same (C82). -/
def Ext.flip (e : Ext K) : Ext K :=
  ⟨e.water.flip, e.oil.flip, e.gas.flip, e.solvent.flip, e.polymerShear, e.waterShear⟩

/-- What a phase carries over the face is the volume of the phase which flows times what a unit volume of the phase contains
in the cell where the phase comes from. -/
def carried (f : PhaseFlux K) (content : Iq K → K) (inside outside : Iq K) : K :=
  f.volume * content (if f.exteriorUp then outside else inside)

/-- The water which is in a cell, as volume at surface conditions. -/
def waterInPlace (q : Iq K) : K := q.porosity * q.satWater * q.invBWater

/-- The water which flows, as volume at surface conditions (`computeFlux` of the local residual without extensions). -/
def waterFlow (e : Ext K) (inside outside : Iq K) : K := carried e.water (fun q => q.invBWater) inside outside

theorem up_flip (f : PhaseFlux K) (a b : Iq K) : f.flip.up b a = f.up a b := by
  unfold PhaseFlux.up PhaseFlux.flip; cases f.exteriorUp <;> rfl

/-! ### Fluxes seen from both sides -/

/-- **C120** What leaves one cell enters the other: z fraction. -/
theorem C120_extbo_opposite (dg : Bool) (e : Ext K) (a b : Iq K) : extboFlux dg e.flip b a = - extboFlux dg e a b := by
  simp only [extboFlux, Ext.flip, up_flip]
  simp only [PhaseFlux.flip]
  split <;> ring

/-- **C120** … water, polymer and its molecular weight; … -/
theorem C120_polymer_opposite (w : K) (e : Ext K) (a b : Iq K) :
    polymerFlux (-w) e.flip b a = (- (polymerFlux w e a b).1, - (polymerFlux w e a b).2.1, - (polymerFlux w e a b).2.2) := by
  simp only [polymerFlux, Ext.flip, up_flip]
  simp only [PhaseFlux.flip, Prod.mk.injEq]
  refine ⟨by ring, by ring, by ring⟩

/-- **C120** … foam; … -/
theorem C120_foam_opposite (c : Carrier) (e : Ext K) (a b : Iq K) : foamFlux c e.flip b a = - foamFlux c e a b := by
  cases c <;> simp only [foamFlux, Ext.flux, Ext.flip, up_flip] <;> simp only [PhaseFlux.flip] <;> ring

/-- **C120** … salt; … -/
theorem C120_brine_opposite (e : Ext K) (a b : Iq K) : brineFlux e.flip b a = - brineFlux e a b := by
  simp only [brineFlux, Ext.flip, up_flip]; simp only [PhaseFlux.flip]; ring

/-- **C120** … microbes, oxygen, urea, biofilm and calcite; … -/
theorem C120_micp_opposite (e : Ext K) (a b : Iq K) (c : Micp) : micpFlux e.flip b a c = - micpFlux e a b c := by
  simp only [micpFlux, Ext.flip, up_flip]; simp only [PhaseFlux.flip]; split <;> ring

/-- **C120** … solvent, if the two cells agree which of them is upstream. -/
theorem C120_solvent_opposite_partial (sv sol : Bool) (e : Ext K) (a b : Iq K) : solventFlux sv sol e.flip b a = - solventFlux sv sol e a b := by
  simp only [solventFlux, Ext.flip, up_flip]; simp only [PhaseFlux.flip]; split <;> split <;> ring

/-! ### What is carried is what is stored -/

/-- **C120** The z component in gas and oil, without the regularisation. -/
theorem C120_extbo_partial (dg : Bool) (q : Iq K) (e : Ext K) (a b : Iq K) :
    (extboStorage dg 0 q).1 = q.porosity * q.satGas * (q.invBGas * q.yVolume)
      + (if dg then q.porosity * q.satOil * (q.invBOil * q.rs * q.xVolume) else 0) ∧
    extboFlux dg e a b = carried e.gas (fun q => q.invBGas * q.yVolume) a b
      + (if dg then carried e.oil (fun q => q.invBOil * q.rs * q.xVolume) a b else 0) := by
  simp only [extboStorage, extboFlux, carried, PhaseFlux.up]
  cases dg <;> simp <;> constructor <;> ring

/-- **C120** Foam in the phase which carries it and on the rock, unless there is next to nothing of the phase. -/
theorem C120_foam_partial (c : Carrier) (q : Iq K) (e : Ext K) (a b : Iq K) (h : floor ≤ q.porosity * (q.sat c * q.invB c)) :
    foamStorage c q = q.porosity * q.sat c * (q.invB c * q.foamConcentration) + (1 - q.porosity) * (q.foamRockDensity * q.foamAdsorbed) ∧
    foamFlux c e a b = carried (e.flux c) (fun q => q.invB c * q.foamConcentration) a b := by
  simp only [foamStorage, foamFlux, carried, PhaseFlux.up, max_eq_left h]
  constructor <;> ring

/-- **C120** Salt in the water and the precipitated salt, unless there is next to no water: without the constant which keeps
the denominator positive, the latter is the density times the volume it takes from the original pore space, of which the
fraction `1 - saltSaturation` is left. -/
theorem C120_brine_partial (prec : Bool) (q : Iq K) (e : Ext K) (a b : Iq K) (h : floor ≤ q.satWater * q.invBWater * q.porosity)
    (poro0 : K) (hp : q.porosity = poro0 * (1 - q.saltSaturation)) (hs : q.saltSaturation ≠ 1) :
    brineStorage prec 0 q = waterInPlace q * q.saltConcentration + (if prec then poro0 * q.saltSaturation * q.saltDensity else 0) ∧
    brineFlux e a b = carried e.water (fun q => q.invBWater * q.saltConcentration) a b := by
  have h1 : 1 - q.saltSaturation ≠ 0 := fun h => hs (sub_eq_zero.1 h).symm
  have h2 : q.porosity / (1 - q.saltSaturation + 0) = poro0 := by rw [add_zero, hp, mul_div_assoc, div_self h1, mul_one]
  simp only [brineStorage, brineFlux, carried, PhaseFlux.up, max_eq_left h, waterInPlace, h2]
  refine ⟨?_, by ring⟩
  split <;> ring

/-- **C120** Microbes, oxygen and urea in the water which fills the pores; biofilm and calcite do not move. -/
theorem C120_micp_partial (q : Iq K) (e : Ext K) (a b : Iq K) (h : floor ≤ q.porosity) :
    (micpStorage q .microbes = q.porosity * q.microbes ∧ micpStorage q .oxygen = q.porosity * q.oxygen ∧
      micpStorage q .urea = q.porosity * q.urea ∧ micpStorage q .biofilm = q.biofilm ∧ micpStorage q .calcite = q.calcite) ∧
    micpFlux e a b .microbes = carried e.water (fun q => q.microbes) a b ∧
    micpFlux e a b .oxygen = carried e.water (fun q => q.oxygen) a b ∧
    micpFlux e a b .urea = carried e.water (fun q => q.urea) a b ∧
    micpFlux e a b .biofilm = 0 ∧ micpFlux e a b .calcite = 0 := by
  simp [micpStorage, micpFlux, carried, PhaseFlux.up, max_eq_left h, Micp.mobile, Iq.micp]

/-- **C120** Polymer is in the part of the water which it can reach and on the rock, unless there is next to no water; it
flows like the water, apart from the corrections of its velocity. -/
theorem C120_polymer_partial (q : Iq K) (w : K) (e : Ext K) (a b : Iq K) (h : floor ≤ q.satWater * q.invBWater * q.porosity)
    (hm : floor ≤ (polymerStorage q).1) :
    (polymerStorage q).1 = waterInPlace q * (1 - q.polymerDeadPoreVolume) * q.polymerConcentration
      + (1 - q.porosity) * (q.polymerRockDensity * q.polymerAdsorption) ∧
    (polymerStorage q).2 = (polymerStorage q).1 * q.polymerMoleWeight ∧
    (polymerFlux w e a b).2.1 = carried e.water (fun q => q.invBWater * q.polymerConcentration * q.polymerViscosityCorrection) a b
      / e.polymerShear ∧
    (polymerFlux w e a b).2.2 = (polymerFlux w e a b).2.1 * (e.water.up a b).polymerMoleWeight := by
  have hm' : floor ≤ polymerAccumulation q := hm
  simp only [polymerStorage, max_eq_left hm']
  simp only [polymerAccumulation, polymerFlux, carried, PhaseFlux.up, max_eq_left h, waterInPlace]
  refine ⟨by ring, trivial, by ring, trivial⟩

/-- **C120** Solvent in its own "phase" and, if soluble, in the water, provided that both come from the same cell. -/
theorem C120_solvent_partial (sol : Bool) (q : Iq K) (e : Ext K) (a b : Iq K) (h : e.water.exteriorUp = e.solvent.exteriorUp) :
    solventStorage true sol q = q.porosity * q.solventSaturation * q.solventInvB
      + (if sol then q.porosity * q.satWater * (q.invBWater * q.rsSolw) else 0) ∧
    solventFlux true sol e a b = carried e.solvent (fun q => q.solventInvB) a b
      + (if sol then carried e.water (fun q => q.invBWater * q.rsSolw) a b else 0) := by
  simp only [solventStorage, solventFlux, carried, PhaseFlux.up, h, if_true]
  constructor <;> cases sol <;> simp <;> ring

/-- **C120** … and the same for masses, with the densities in place of the formation volume factors. -/
theorem C120_solvent_mass_partial (sol : Bool) (q : Iq K) (e : Ext K) (a b : Iq K) (h : e.water.exteriorUp = e.solvent.exteriorUp) :
    solventStorage false sol q = q.porosity * q.solventSaturation * q.solventDensity
      + (if sol then q.porosity * q.satWater * (q.densityWater * q.rsSolw) else 0) ∧
    solventFlux false sol e a b = carried e.solvent (fun q => q.solventDensity) a b
      + (if sol then carried e.water (fun q => q.densityWater * q.rsSolw) a b else 0) := by
  simp only [solventStorage, solventFlux, carried, PhaseFlux.up, h]
  constructor <;> cases sol <;> simp <;> ring

/-! ### Uniform concentrations stay uniform -/

/-- **C120** If the concentration of salt is the same everywhere and nothing precipitates, the salt equation is the water
equation times the concentration – without polymer (the flux of the water is not modified) and unless there is next to no
water. -/
theorem C120_uniform_salt_partial (c eps : K) (q : Iq K) (e : Ext K) (a b : Iq K) (h : floor ≤ q.satWater * q.invBWater * q.porosity)
    (hq : q.saltConcentration = c) (ha : a.saltConcentration = c) (hb : b.saltConcentration = c) :
    brineStorage false eps q = c * waterInPlace q ∧ brineFlux e a b = c * waterFlow e a b := by
  simp only [brineStorage, brineFlux, max_eq_left h, waterInPlace, waterFlow, carried, PhaseFlux.up, hq]
  refine ⟨by simp; ring, ?_⟩
  cases e.water.exteriorUp <;> simp [ha, hb] <;> ring

/-! ### Witnesses -/

/-- A cell with all quantities equal to one or one half. -/
def cell1 : Iq ℚ where
  porosity := 1/2
  satWater := 1/2
  satOil := 1/4
  satGas := 1/8
  invBWater := 1
  invBOil := 1
  invBGas := 100
  rs := 1
  densityWater := 1000
  solventSaturation := 1/8
  solventInvB := 100
  solventDensity := 200
  rsSolw := 1
  zFraction := 1/2
  xVolume := 1/2
  yVolume := 1/2
  polymerConcentration := 1
  polymerDeadPoreVolume := 1/10
  polymerRockDensity := 2000
  polymerAdsorption := 1/1000
  polymerViscosityCorrection := 1/2
  polymerMoleWeight := 1
  foamConcentration := 1
  foamRockDensity := 2000
  foamAdsorbed := 1/1000
  saltConcentration := 30
  saltSaturation := 1/2
  saltDensity := 2000
  microbes := 1
  oxygen := 1
  urea := 1
  biofilm := 1/100
  calcite := 1/100

-- the hypotheses above are met
example : floor ≤ cell1.satWater * cell1.invBWater * cell1.porosity ∧ floor ≤ (polymerStorage cell1).1 ∧
    (∀ c, floor ≤ cell1.porosity * (cell1.sat c * cell1.invB c)) ∧ cell1.porosity = 1 * (1 - cell1.saltSaturation) := by
  refine ⟨by simp [floor, cell1]; norm_num, ?_, fun c => ?_, by simp [cell1]; norm_num⟩
  · decide +kernel
  · cases c <;> decide +kernel

/-- Water flows to the exterior cell, solvent from it. -/
def counterFlow : Ext ℚ := ⟨⟨1, false⟩, ⟨1, false⟩, ⟨-1, true⟩, ⟨-1, true⟩, 1, 1⟩

/-- **C120, negation** If water and solvent flow in opposite directions, the dissolved solvent is taken from the cell where
the water flows to: water without dissolved solvent brings some along. -/
theorem C120_solvent_violated : ∃ (e : Ext ℚ) (a b : Iq ℚ), e.solvent.volume ≤ 0 ∧ 0 < e.water.volume ∧ a.rsSolw = 0 ∧
    e.water.exteriorUp = false ∧ e.solvent.exteriorUp = true ∧
    solventFlux true true e a b ≠ carried e.solvent (fun q => q.solventInvB) a b + carried e.water (fun q => q.invBWater * q.rsSolw) a b :=
  ⟨counterFlow, { cell1 with rsSolw := 0 }, cell1, by decide +kernel, by decide +kernel, rfl, rfl, rfl, by decide +kernel⟩

/-- **C120, negation** With masses instead of volumes at surface conditions, dissolved solvent is counted with the density of
the water: the mass is not the volume times the density of the solvent at surface conditions. -/
theorem C120_solvent_mass_violated : ∃ (ref : ℚ) (q : Iq ℚ), q.solventDensity = q.solventInvB * ref ∧
    solventStorage false true q ≠ ref * solventStorage true true q :=
  ⟨2, cell1, by decide +kernel, by decide +kernel⟩

/-- **C120, negation** The regularisation of the z equation, here with its weight 1e-6, adds z component to a cell which
contains nothing but water. -/
theorem C120_extbo_violated : ∃ q : Iq ℚ, q.satGas = 0 ∧ q.satOil = 0 ∧ (extboStorage true (1/1000000) q).1 ≠ 0 :=
  ⟨{ cell1 with satGas := 0, satOil := 0 }, rfl, rfl, by decide +kernel⟩

/-- **C120, negation** In a cell without water there is salt, polymer and – if carried by water – foam, and in one without
pore space there are microbes. -/
theorem C120_floor_violated : ∃ q : Iq ℚ, q.satWater = 0 ∧ brineStorage false 0 q ≠ 0 ∧
    (polymerStorage { q with polymerAdsorption := 0 }).1 ≠ 0 ∧ foamStorage .water { q with foamAdsorbed := 0 } ≠ 0 ∧
    micpStorage { q with porosity := 0 } .microbes ≠ 0 :=
  ⟨{ cell1 with satWater := 0 }, rfl, by decide +kernel, by decide +kernel, by decide +kernel, by decide +kernel⟩

/-- **C120, negation** With polymer, the flux of the water is divided by the shear factor, that of the salt in it is not:
a uniform concentration of salt does not stay uniform. -/
theorem C120_uniform_salt_violated : ∃ (e : Ext ℚ) (q : Iq ℚ), floor ≤ q.satWater * q.invBWater * q.porosity ∧ 0 < e.waterShear ∧
    brineStorage false 0 q = q.saltConcentration * waterInPlace q ∧
    brineFlux e q q ≠ q.saltConcentration * (polymerFlux (waterFlow e q q) e q q).1 :=
  ⟨⟨⟨1, false⟩, ⟨1, false⟩, ⟨1, false⟩, ⟨1, false⟩, 1/2, 1/2⟩, cell1, by decide +kernel, by decide +kernel, by decide +kernel,
    by decide +kernel⟩

/-- **C120, negation** The whole flux of the water component is divided by the shear factor of the water: the water vapour
`v` which the gas carries along is as well. -/
theorem C120_vapour_violated : ∃ (e : Ext ℚ) (q : Iq ℚ) (v : ℚ), v ≠ 0 ∧
    (polymerFlux (waterFlow e q q + v) e q q).1 ≠ waterFlow e q q / e.waterShear + v :=
  ⟨⟨⟨1, false⟩, ⟨1, false⟩, ⟨1, false⟩, ⟨1, false⟩, 1/2, 1/2⟩, cell1, 1, by decide +kernel, by decide +kernel⟩

end Verif.Extend
