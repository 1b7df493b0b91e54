import Mathlib.Analysis.SpecialFunctions.Pow.Real

/-
The mixing model of Todd and Longstaff for solvents which are miscible with oil and gas.

opm/models/blackoil/blackoilsolventmodules.hh lines 1059-1251 (`effectiveProperties`).

Simplifications: numbers are real and derivatives are left out.  Tables are replaced by their values at the pressure and saturation in
question.
-/

set_option autoImplicit false

namespace Verif.Todd

/-- `cutOff`, opm/models/blackoil/blackoilsolventmodules.hh line 798 -/
noncomputable def cutOff : ℝ := 1 / 10 ^ 12

/-- What `effectiveProperties` reads:
* which phases are active and whether solvent and oil are miscible at all;
* saturations of oil, gas and solvent;
* the values of the tables `sorwmis`, `sgcwmis` and `pmisc`, and the products of the mixing parameters for viscosity and density with
  the value of `tlPMixTable`;
* viscosities, densities and inverse formation volume factors;
* `gasDenom`: the reference density of gas, plus that of oil times `Rv` if there is oil; `oilDenom`: the same for oil with `Rs`;
  `solventRef`: the reference density of the solvent;
* the mobilities of oil and gas. -/
structure Input where
  miscible : Bool
  oil : Bool
  water : Bool
  so : ℝ
  sg : ℝ
  ss : ℝ
  sorwmis : ℝ
  sgcwmis : ℝ
  pmisc : ℝ
  mixMu : ℝ
  mixRho : ℝ
  viscOil : ℝ
  muGas : ℝ
  muSolvent : ℝ
  densOil : ℝ
  rhoGas : ℝ
  rhoSolvent : ℝ
  bo : ℝ
  bg : ℝ
  bs : ℝ
  gasDenom : ℝ
  oilDenom : ℝ
  solventRef : ℝ
  mobOil : ℝ
  mobGas : ℝ

/-- What `effectiveProperties` changes: densities, the viscosity of the solvent and the mobilities of oil and gas -/
@[ext] structure Output where
  rhoOil : ℝ
  rhoGas : ℝ
  rhoSolvent : ℝ
  muSolvent : ℝ
  mobOil : ℝ
  mobGas : ℝ

namespace Input

variable (x : Input)

/-- `oilEffSat`, opm/models/blackoil/blackoilsolventmodules.hh lines 1076-1088 -/
noncomputable def oilEff : ℝ := if x.oil then if x.water then max (x.so - x.sorwmis) 0 else x.so else 0

/-- `gasEffSat`, opm/models/blackoil/blackoilsolventmodules.hh lines 1080-1090 -/
noncomputable def gasEff : ℝ := if x.water then max (x.sg - x.sgcwmis) 0 else x.sg

/-- `solventEffSat`, opm/models/blackoil/blackoilsolventmodules.hh lines 1081-1091 -/
noncomputable def solventEff : ℝ := if x.water then max (x.ss - x.sgcwmis) 0 else x.ss

/-- `oilGasSolventEffSat`, opm/models/blackoil/blackoilsolventmodules.hh line 1093 -/
noncomputable def allEff : ℝ := x.oilEff + x.gasEff + x.solventEff

/-- `muOil`: one if there is no oil, opm/models/blackoil/blackoilsolventmodules.hh lines 1121-1126 -/
noncomputable def muOil : ℝ := if x.oil then x.viscOil else 1

/-- `muGasPow`, opm/models/blackoil/blackoilsolventmodules.hh line 1114 -/
noncomputable def gasPow : ℝ := x.muGas ^ (1 / 4 : ℝ)

/-- `muSolventPow`, opm/models/blackoil/blackoilsolventmodules.hh line 1115 -/
noncomputable def solventPow : ℝ := x.muSolvent ^ (1 / 4 : ℝ)

/-- `muOilPow`, opm/models/blackoil/blackoilsolventmodules.hh lines 1122-1128 -/
noncomputable def oilPow : ℝ := if x.oil then x.viscOil ^ (1 / 4 : ℝ) else 1

/-- `muMixSolventGas`, opm/models/blackoil/blackoilsolventmodules.hh lines 1117-1119 -/
noncomputable def mixSolventGas : ℝ :=
  if x.solventEff + x.gasEff > cutOff then
    x.muGas * (x.muSolvent / (x.gasEff / (x.solventEff + x.gasEff) * x.solventPow +
      x.solventEff / (x.solventEff + x.gasEff) * x.gasPow) ^ (4 : ℝ))
  else x.muGas

/-- `muMixOilSolvent`, opm/models/blackoil/blackoilsolventmodules.hh lines 1123-1131 -/
noncomputable def mixOilSolvent : ℝ :=
  if x.oil then
    if x.oilEff + x.solventEff > cutOff then
      x.viscOil * (x.muSolvent / (x.oilEff / (x.oilEff + x.solventEff) * x.solventPow +
        x.solventEff / (x.oilEff + x.solventEff) * x.oilPow) ^ (4 : ℝ))
    else x.viscOil
  else 1

/-- `muMixSolventGasOil`, opm/models/blackoil/blackoilsolventmodules.hh lines 1135-1138 -/
noncomputable def mixAll : ℝ :=
  if x.allEff > cutOff then
    x.muOil * (x.muSolvent * x.muGas / (x.oilEff / x.allEff * x.solventPow * x.gasPow +
      x.solventEff / x.allEff * x.oilPow * x.gasPow + x.gasEff / x.allEff * x.solventPow * x.oilPow) ^ (4 : ℝ))
  else x.muOil

/-- Interpolation of viscosities, `pow(mu, 1.0 - w) * pow(muMix, w)` (opm/models/blackoil/blackoilsolventmodules.hh lines 1133, 1140,
1141 and 1158-1160) -/
noncomputable def interpolate (w mu mix : ℝ) : ℝ := mu ^ (1 - w) * mix ^ w

/-- `muGasEffPow`, opm/models/blackoil/blackoilsolventmodules.hh line 1159 -/
noncomputable def gasEffPow : ℝ := interpolate x.mixRho x.muGas x.mixSolventGas ^ (1 / 4 : ℝ)

/-- `muOilEffPow`, opm/models/blackoil/blackoilsolventmodules.hh line 1158 -/
noncomputable def oilEffPow : ℝ := interpolate x.mixRho x.muOil x.mixOilSolvent ^ (1 / 4 : ℝ)

/-- `muSolventEffPow`, opm/models/blackoil/blackoilsolventmodules.hh line 1160 -/
noncomputable def solventEffPow : ℝ := interpolate x.mixRho x.muSolvent x.mixAll ^ (1 / 4 : ℝ)

/-- `sof`, opm/models/blackoil/blackoilsolventmodules.hh lines 1162-1168 -/
noncomputable def sof : ℝ := if x.oilEff + x.gasEff > cutOff then x.oilEff / (x.oilEff + x.gasEff) else 0

/-- `sgf`, opm/models/blackoil/blackoilsolventmodules.hh lines 1162-1168 -/
noncomputable def sgf : ℝ := if x.oilEff + x.gasEff > cutOff then x.gasEff / (x.oilEff + x.gasEff) else 0

/-- `muSolventOilGasPow`, opm/models/blackoil/blackoilsolventmodules.hh line 1170 -/
noncomputable def solventOilGasPow : ℝ := x.solventPow * (x.sgf * x.oilPow + x.sof * x.gasPow)

/-- `rhoOil`, opm/models/blackoil/blackoilsolventmodules.hh lines 1145-1147 -/
noncomputable def rhoOil : ℝ := if x.oil then x.densOil else 0

/-- `rhoMixSolventGasOil`, opm/models/blackoil/blackoilsolventmodules.hh lines 1172-1174 -/
noncomputable def rhoMix : ℝ :=
  if x.allEff > cutOff then
    x.rhoOil * x.oilEff / x.allEff + x.rhoGas * x.gasEff / x.allEff + x.rhoSolvent * x.solventEff / x.allEff
  else 0

/-- `rhoGasEff`, opm/models/blackoil/blackoilsolventmodules.hh lines 1176-1182 -/
noncomputable def rhoGasEff : ℝ :=
  if |x.solventPow - x.gasPow| < cutOff then (1 - x.mixRho) * x.rhoGas + x.mixRho * x.rhoMix
  else
    let f := x.gasPow * (x.solventPow - x.gasEffPow) / (x.gasEffPow * (x.solventPow - x.gasPow))
    x.rhoGas * f + x.rhoSolvent * (1 - f)

/-- `rhoSolventEff`, opm/models/blackoil/blackoilsolventmodules.hh lines 1184-1190 -/
noncomputable def rhoSolventEff : ℝ :=
  if |x.solventOilGasPow - x.oilPow * x.gasPow| < cutOff then (1 - x.mixRho) * x.rhoSolvent + x.mixRho * x.rhoMix
  else
    let f := (x.solventOilGasPow - x.oilPow * x.gasPow * x.solventPow / x.solventEffPow) / (x.solventOilGasPow - x.oilPow * x.gasPow)
    x.rhoSolvent * f + x.rhoGas * x.sgf * (1 - f) + x.rhoOil * x.sof * (1 - f)

/-- `rhoOilEff`, opm/models/blackoil/blackoilsolventmodules.hh lines 1230-1237; `rhoS` is what `rhoSolvent` refers to. -/
noncomputable def rhoOilEff (rhoS : ℝ) : ℝ :=
  if |x.oilPow - x.solventPow| < cutOff then (1 - x.mixRho) * x.rhoOil + x.mixRho * x.rhoMix
  else
    let f := x.oilPow * (x.oilEffPow - x.solventPow) / (x.oilEffPow * (x.oilPow - x.solventPow))
    x.rhoOil * f + rhoS * (1 - f)

/-- `bg_eff`, `bs_eff` or `bo_eff`: interpolation of inverse formation volume factors with the miscibility at this pressure
(opm/models/blackoil/blackoilsolventmodules.hh lines 1205-1206 and 1240) -/
noncomputable def blend (pmisc bEff b : ℝ) : ℝ := pmisc * bEff + (1 - pmisc) * b

/-- The viscosity which goes with an interpolated factor (opm/models/blackoil/blackoilsolventmodules.hh lines 1223, 1227 and 1248) -/
noncomputable def blendMu (pmisc bEff b muEff mu : ℝ) : ℝ := blend pmisc bEff b / (pmisc * bEff / muEff + (1 - pmisc) * b / mu)

/-- `solventDensity_` at the end of the function (opm/models/blackoil/blackoilsolventmodules.hh lines 1200-1219) -/
noncomputable def newSolventDensity : ℝ := blend x.pmisc (x.rhoSolventEff / x.solventRef) x.bs * x.solventRef

/-- The final `muGasEff` -/
noncomputable def newMuGas : ℝ :=
  blendMu x.pmisc (x.rhoGasEff / x.gasDenom) x.bg (interpolate x.mixMu x.muGas x.mixSolventGas) x.muGas

/-- The final `solventViscosity_` -/
noncomputable def newMuSolvent : ℝ :=
  blendMu x.pmisc (x.rhoSolventEff / x.solventRef) x.bs (interpolate x.mixMu x.muSolvent x.mixAll) x.muSolvent

/-- The final `rhoOilEff`.  `rhoSolvent` is a reference to the member `solventDensity_` (opm/models/blackoil/blackoilsolventmodules.hh
line 1149), which has been overwritten when it is used here (line 1219). -/
noncomputable def newRhoOilEff : ℝ := x.rhoOilEff x.newSolventDensity

/-- The final `muOilEff` -/
noncomputable def newMuOil : ℝ :=
  blendMu x.pmisc (x.newRhoOilEff / x.oilDenom) x.bo (interpolate x.mixMu x.muOil x.mixOilSolvent) x.muOil

end Input

/-- `effectiveProperties`, opm/models/blackoil/blackoilsolventmodules.hh lines 1059-1251 -/
noncomputable def effectiveProperties (x : Input) : Output :=
  if !x.miscible ∨ x.ss < cutOff then ⟨x.densOil, x.rhoGas, x.rhoSolvent, x.muSolvent, x.mobOil, x.mobGas⟩
  else
    { rhoGas := Input.blend x.pmisc (x.rhoGasEff / x.gasDenom) x.bg * x.gasDenom
      rhoSolvent := x.newSolventDensity
      mobGas := x.mobGas * (x.muGas / x.newMuGas)
      muSolvent := x.newMuSolvent
      rhoOil := if x.oil then Input.blend x.pmisc (x.newRhoOilEff / x.oilDenom) x.bo * x.oilDenom else x.densOil
      mobOil := if x.oil then x.mobOil * (x.muOil / x.newMuOil) else x.mobOil }

end Verif.Todd
