import Mathlib.Algebra.Field.Basic
import Mathlib.Algebra.Order.Field.Basic

set_option autoImplicit false
/-
Model of convective mixing of dissolved gas (DRSDTCON), opm/models/blackoil/blackoilconvectivemixingmodule.hh lines 144-381.
Only values, no derivatives.
-/
namespace Verif.Extend.Mix

variable {K : Type} [Field K] [LinearOrder K]

/-- The parameters of a region, opm/models/blackoil/blackoilconvectivemixingmodule.hh lines 146-151. -/
structure Info (K : Type) where
  active : Bool
  xhi : K
  psi : K

/-- `beginEpisode` for the regions of a vector, opm/models/blackoil/blackoilconvectivemixingmodule.hh lines 154-174: `none` is a region
without DRSDTCON, otherwise the two parameters. -/
def beginEpisode (control : List (Option (K × K))) (info : List (Info K)) : List (Info K) :=
  let info := if info.isEmpty then control.map (fun _ => ⟨false, 0, 0⟩) else info
  List.zipWith (fun c i => match c with
    | none => { i with active := false }
    | some (x, y) => ⟨true, x, y⟩) control info

/-- What a cell contributes: its region; of the liquid (water if there is water, else oil): the inverse formation volume factor now
and, as a function of the salt, when saturated with gas and without gas; viscosity, enthalpy, reference densities; gas content and
the saturated one; dissolved and solid salt; transmissibility multiplier. -/
structure Cell (K : Type) where
  info : Info K
  b : K
  bSat : K → K
  bPure : K → K
  visc : K
  enthalpy : K
  refLiquid : K
  refGas : K
  rs : K
  rsSat : K
  saltConcentration : K
  saltSaturation : K
  transMult : K

/-- `rho_sat`, opm/models/blackoil/blackoilconvectivemixingmodule.hh lines 301-313 and 322-334: the salt is `saltSaturation()` (lines 301 and 322). -/
def rhoSat (c : Cell K) : K := c.bSat c.saltSaturation * (c.refLiquid + c.rsSat * c.refGas)

/-- `rho`, opm/models/blackoil/blackoilconvectivemixingmodule.hh lines 311 and 332. -/
def rho (c : Cell K) : K := c.b * c.refLiquid

/-- `pressure_difference_convective_mixing`, opm/models/blackoil/blackoilconvectivemixingmodule.hh lines 336-337. -/
def pressureDifference (i j : Cell K) (distZg : K) : K := (rhoSat j + rhoSat i - rho i - rho j) / 2 * distZg

/-- `convectiveFlux` for the upstream cell, opm/models/blackoil/blackoilconvectivemixingmodule.hh lines 356-365. -/
def convectiveFlux (up : Cell K) (dp trans area : K) : K :=
  - trans * up.transMult * up.info.xhi * up.b * dp * min up.rs (up.rsSat * up.info.psi) / (up.visc * area)

/-- `addConvectiveMixingFlux`, opm/models/blackoil/blackoilconvectivemixingmodule.hh lines 271-380: what is added to the flux of gas and
of energy. -/
def mixingFlux (i j : Cell K) (distZg trans area : K) : K × K :=
  if i.info.active && j.info.active then
    let dp := pressureDifference i j distZg
    if 1 / 1000000000000 < |dp| then
      let up := if 0 < dp then j else i
      let f := convectiveFlux up dp trans area
      (f, f * (up.enthalpy * up.refGas))
    else (0, 0)
  else (0, 0)

/-- The phases. -/
inductive Phase
  | water | oil | gas
  deriving DecidableEq

/-- The density of pure liquid, opm/models/blackoil/blackoilconvectivemixingmodule.hh lines 198-227. -/
def rhoPure (c : Cell K) : K := c.bPure c.saltConcentration * c.refLiquid

/-- `modifyAvgDensity`, opm/models/blackoil/blackoilconvectivemixingmodule.hh lines 177-230. -/
def modifyAvgDensity (rhoAvg : K) (i j : Cell K) (p : Phase) : K :=
  if i.info.active && j.info.active then
    if p = .gas then rhoAvg else (rhoPure i + rhoPure j) / 2
  else rhoAvg

end Verif.Extend.Mix
