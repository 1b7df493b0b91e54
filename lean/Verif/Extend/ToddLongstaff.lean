import Mathlib.Analysis.SpecialFunctions.Pow.Real

set_option autoImplicit false
/-
Model of the Todd-Longstaff mixing of oil, gas and solvent, `BlackOilSolventIntensiveQuantities::effectiveProperties`
(opm/models/blackoil/blackoilsolventmodules.hh lines 1059-1251).  Numbers are real; only values, no derivatives.
-/
namespace Verif.Extend.TL

noncomputable section

/-- `cutOff`, opm/models/blackoil/blackoilsolventmodules.hh line 798. -/
def cutOff : ℝ := 1 / 1000000000000

/-- What the mixing uses: the active phases; saturations; the values of the tables SORWMIS and SGCWMIS at the water saturation;
the value of PMISC at the pressure; the mixing parameters for viscosities and densities, multiplied by the value of TLPMIXPA;
viscosities, densities and inverse formation volume factors without mixing; `refGas`: the reference density of the gas plus
that of the oil times Rv (without oil: the reference density of the gas), `refOil`: that of the oil plus that of the gas times
Rs, and the one of the solvent; and the mobilities computed so far. -/
structure In where
  oilActive : Bool
  waterActive : Bool
  satOil : ℝ
  satGas : ℝ
  satSolvent : ℝ
  sorwmis : ℝ
  sgcwmis : ℝ
  pmisc : ℝ
  omegaMu : ℝ
  omegaRho : ℝ
  muOil : ℝ
  muGas : ℝ
  muSolvent : ℝ
  rhoOil : ℝ
  rhoGas : ℝ
  rhoSolvent : ℝ
  bOil : ℝ
  bGas : ℝ
  bSolvent : ℝ
  refOil : ℝ
  refGas : ℝ
  refSolvent : ℝ
  mobOil : ℝ
  mobGas : ℝ

/-- What the mixing changes: densities, mobilities and the viscosity of the solvent. -/
structure Out where
  rhoOil : ℝ
  rhoGas : ℝ
  rhoSolvent : ℝ
  mobOil : ℝ
  mobGas : ℝ
  muSolvent : ℝ

/-- `oilEffSat`, opm/models/blackoil/blackoilsolventmodules.hh lines 1076-1089. -/
def oilEffSat (i : In) : ℝ :=
  let s := if i.oilActive then i.satOil else 0
  if i.waterActive && i.oilActive then max (s - i.sorwmis) 0 else s

/-- `gasEffSat`, opm/models/blackoil/blackoilsolventmodules.hh lines 1080-1090. -/
def gasEffSat (i : In) : ℝ := if i.waterActive then max (i.satGas - i.sgcwmis) 0 else i.satGas

/-- `solventEffSat`, opm/models/blackoil/blackoilsolventmodules.hh lines 1081-1091. -/
def solventEffSat (i : In) : ℝ := if i.waterActive then max (i.satSolvent - i.sgcwmis) 0 else i.satSolvent

/-- `pow(mu, 0.25)`. -/
def quarter (mu : ℝ) : ℝ := mu ^ (1 / 4 : ℝ)

/-- `muMixSolventGas`, opm/models/blackoil/blackoilsolventmodules.hh lines 1117-1119, and `muMixOilSolvent`, lines 1129-1131:
the fluid 1 with the solvent. -/
def mix2 (s1 sSolvent mu1 muSolvent : ℝ) : ℝ :=
  if cutOff < s1 + sSolvent then
    mu1 * (muSolvent / (s1 / (s1 + sSolvent) * quarter muSolvent + sSolvent / (s1 + sSolvent) * quarter mu1) ^ 4)
  else mu1

/-- `muOil`: 1 if there is no oil phase, opm/models/blackoil/blackoilsolventmodules.hh lines 1121-1126. -/
def muOil (i : In) : ℝ := if i.oilActive then i.muOil else 1

/-- `muMixOilSolvent`, opm/models/blackoil/blackoilsolventmodules.hh lines 1123-1131. -/
def muMixOilSolvent (i : In) : ℝ := if i.oilActive then mix2 (oilEffSat i) (solventEffSat i) i.muOil i.muSolvent else 1

/-- `muMixSolventGas`. -/
def muMixSolventGas (i : In) : ℝ := mix2 (gasEffSat i) (solventEffSat i) i.muGas i.muSolvent

/-- `oilGasSolventEffSat`, opm/models/blackoil/blackoilsolventmodules.hh line 1093. -/
def total (i : In) : ℝ := oilEffSat i + gasEffSat i + solventEffSat i

/-- `muMixSolventGasOil`, opm/models/blackoil/blackoilsolventmodules.hh lines 1135-1138. -/
def muMixSolventGasOil (i : In) : ℝ :=
  if cutOff < total i then
    muOil i * (i.muSolvent * i.muGas /
      (oilEffSat i / total i * quarter i.muSolvent * quarter i.muGas
        + solventEffSat i / total i * quarter (muOil i) * quarter i.muGas
        + gasEffSat i / total i * quarter i.muSolvent * quarter (muOil i)) ^ 4)
  else muOil i

/-- `pow(mu, 1 - omega) * pow(mix, omega)`, opm/models/blackoil/blackoilsolventmodules.hh lines 1133, 1140, 1141, 1158-1160. -/
def blend (omega mu mix : ℝ) : ℝ := mu ^ (1 - omega) * mix ^ omega

/-- `rhoMixSolventGasOil`, opm/models/blackoil/blackoilsolventmodules.hh lines 1172-1174; `rhoOil` is 0 without oil phase. -/
def rhoMix (i : In) : ℝ :=
  if cutOff < total i then
    (if i.oilActive then i.rhoOil else 0) * oilEffSat i / total i + i.rhoGas * gasEffSat i / total i
      + i.rhoSolvent * solventEffSat i / total i
  else 0

/-- `rhoGasEff`, opm/models/blackoil/blackoilsolventmodules.hh lines 1176-1182. -/
def rhoGasEff (i : In) : ℝ :=
  let g := quarter i.muGas
  let s := quarter i.muSolvent
  let e := quarter (blend i.omegaRho i.muGas (muMixSolventGas i))
  if |s - g| < cutOff then (1 - i.omegaRho) * i.rhoGas + i.omegaRho * rhoMix i
  else
    let f := g * (s - e) / (e * (s - g))
    i.rhoGas * f + i.rhoSolvent * (1 - f)

/-- `sof`, opm/models/blackoil/blackoilsolventmodules.hh lines 1162-1168. -/
def sof (i : In) : ℝ := if cutOff < oilEffSat i + gasEffSat i then oilEffSat i / (oilEffSat i + gasEffSat i) else 0

/-- `sgf`, opm/models/blackoil/blackoilsolventmodules.hh lines 1162-1168. -/
def sgf (i : In) : ℝ := if cutOff < oilEffSat i + gasEffSat i then gasEffSat i / (oilEffSat i + gasEffSat i) else 0

/-- `muSolventOilGasPow`, opm/models/blackoil/blackoilsolventmodules.hh line 1170. -/
def solventOilGasPow (i : In) : ℝ := quarter i.muSolvent * (sgf i * quarter (muOil i) + sof i * quarter i.muGas)

/-- `rhoSolventEff`, opm/models/blackoil/blackoilsolventmodules.hh lines 1184-1190. -/
def rhoSolventEff (i : In) : ℝ :=
  let o := quarter (muOil i)
  let g := quarter i.muGas
  let s := quarter i.muSolvent
  let e := quarter (blend i.omegaRho i.muSolvent (muMixSolventGasOil i))
  let t := solventOilGasPow i
  if |t - o * g| < cutOff then (1 - i.omegaRho) * i.rhoSolvent + i.omegaRho * rhoMix i
  else
    let f := (t - o * g * s / e) / (t - o * g)
    i.rhoSolvent * f + i.rhoGas * sgf i * (1 - f) + (if i.oilActive then i.rhoOil else 0) * sof i * (1 - f)

/-- `rhoOilEff`, opm/models/blackoil/blackoilsolventmodules.hh lines 1230-1237.  `rhoSolvent` is a reference
to `solventDensity_` (line 1149), which has been overwritten before (line 1219): `rhoSolventNow` is the value it has here. -/
def rhoOilEff (i : In) (rhoSolventNow : ℝ) : ℝ :=
  let o := quarter (muOil i)
  let s := quarter i.muSolvent
  let e := quarter (blend i.omegaRho (muOil i) (muMixOilSolvent i))
  if |o - s| < cutOff then (1 - i.omegaRho) * i.rhoOil + i.omegaRho * rhoMix i
  else
    let f := o * (e - s) / (e * (o - s))
    i.rhoOil * f + rhoSolventNow * (1 - f)

/-- The interpolation of `b / mu` between the mixed and the pure fluid,
opm/models/blackoil/blackoilsolventmodules.hh lines 1205, 1206, 1223, 1227, 1240 and 1248. -/
def interpolate (pmisc bEff muEff b mu : ℝ) : ℝ :=
  (pmisc * bEff + (1 - pmisc) * b) / (pmisc * bEff / muEff + (1 - pmisc) * b / mu)

/-- `effectiveProperties`, opm/models/blackoil/blackoilsolventmodules.hh lines 1059-1251. -/
def effectiveProperties (miscible : Bool) (i : In) : Out :=
  if miscible = false ∨ i.satSolvent < cutOff then ⟨i.rhoOil, i.rhoGas, i.rhoSolvent, i.mobOil, i.mobGas, i.muSolvent⟩
  else
    let bGasEff := rhoGasEff i / i.refGas
    let bSolventEff := rhoSolventEff i / i.refSolvent
    let solventDensity := (i.pmisc * bSolventEff + (1 - i.pmisc) * i.bSolvent) * i.refSolvent
    let bOilEff := rhoOilEff i solventDensity / i.refOil
    let muGasEff := interpolate i.pmisc bGasEff (blend i.omegaMu i.muGas (muMixSolventGas i)) i.bGas i.muGas
    let muSolventEff := interpolate i.pmisc bSolventEff (blend i.omegaMu i.muSolvent (muMixSolventGasOil i)) i.bSolvent i.muSolvent
    let muOilEff := interpolate i.pmisc bOilEff (blend i.omegaMu i.muOil (muMixOilSolvent i)) i.bOil i.muOil
    { rhoGas := (i.pmisc * bGasEff + (1 - i.pmisc) * i.bGas) * i.refGas
      rhoSolvent := solventDensity
      mobGas := i.mobGas * (i.muGas / muGasEff)
      muSolvent := muSolventEff
      rhoOil := if i.oilActive then (i.pmisc * bOilEff + (1 - i.pmisc) * i.bOil) * i.refOil else i.rhoOil
      mobOil := if i.oilActive then i.mobOil * (i.muOil / muOilEff) else i.mobOil }

end

end Verif.Extend.TL
