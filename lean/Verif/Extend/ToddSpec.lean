import Verif.Extend.ToddLongstaff

set_option autoImplicit false
/-
Specification for C122: in which cells the mixing is to stay between the pure fluids, and what complete mixing means.
-/
namespace Verif.Extend.TL

/-- The parameters of a cell in which mixing takes place: all three phases are present in the model, the fractions are fractions,
densities belong to the formation volume factors, and pure viscosities and densities lie in `[lo, hi]` and `[rlo, rhi]`. -/
structure Sound (i : In) (lo hi rlo rhi : ℝ) : Prop where
  oil : i.oilActive = true
  so : 0 ≤ i.satOil
  sg : 0 ≤ i.satGas
  ss : 0 ≤ i.satSolvent
  pmisc : 0 ≤ i.pmisc ∧ i.pmisc ≤ 1
  omegaMu : 0 ≤ i.omegaMu ∧ i.omegaMu ≤ 1
  omegaRho : 0 ≤ i.omegaRho ∧ i.omegaRho ≤ 1
  lo_pos : 0 < lo
  muOil : lo ≤ i.muOil ∧ i.muOil ≤ hi
  muGas : lo ≤ i.muGas ∧ i.muGas ≤ hi
  muSolvent : lo ≤ i.muSolvent ∧ i.muSolvent ≤ hi
  rlo_pos : 0 < rlo
  rhoOil : rlo ≤ i.rhoOil ∧ i.rhoOil ≤ rhi
  rhoGas : rlo ≤ i.rhoGas ∧ i.rhoGas ≤ rhi
  rhoSolvent : rlo ≤ i.rhoSolvent ∧ i.rhoSolvent ≤ rhi
  refOil : 0 < i.refOil ∧ i.bOil * i.refOil = i.rhoOil
  refGas : 0 < i.refGas ∧ i.bGas * i.refGas = i.rhoGas
  refSolvent : 0 < i.refSolvent ∧ i.bSolvent * i.refSolvent = i.rhoSolvent
  total : cutOff < total i
  hydrocarbon : oilEffSat i + gasEffSat i = 0 ∨ cutOff < oilEffSat i + gasEffSat i

/-- The density of a mixture of two fluids, weighted by their mobile saturations. -/
noncomputable def mean2 (s1 s2 rho1 rho2 : ℝ) : ℝ := (rho1 * s1 + rho2 * s2) / (s1 + s2)

/-- The density of a mixture of oil, gas and solvent, weighted by their mobile saturations. -/
noncomputable def mean3 (i : In) : ℝ :=
  (i.rhoOil * oilEffSat i + i.rhoGas * gasEffSat i + i.rhoSolvent * solventEffSat i) / (oilEffSat i + gasEffSat i + solventEffSat i)

end Verif.Extend.TL
