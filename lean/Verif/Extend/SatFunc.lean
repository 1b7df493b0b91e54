import Mathlib.Algebra.Order.Field.Basic

set_option autoImplicit false
/-
Model of the saturation functions of the solvent extension: `solventPreSatFuncUpdate_`
(opm/models/blackoil/blackoilsolventmodules.hh lines 808-829) and `solventPostSatFuncUpdate_`
(opm/models/blackoil/blackoilsolventmodules.hh lines 838-962), with the part of the intensive quantities which calls them
(opm/models/blackoil/blackoilintensivequantities.hh lines 234-297).  Water, oil and gas are active.  Tables are arbitrary
functions; numbers are those of an ordered field; only values, no derivatives.
-/
namespace Verif.Extend.SatFunc

variable {K : Type} [Field K] [LinearOrder K] [IsStrictOrderedRing K]

/-- `cutOff`, opm/models/blackoil/blackoilsolventmodules.hh line 798. -/
def cutOff : K := 1 / 1000000000000

/-- Which pressure is the primary variable. -/
inductive PressureMeaning
  | po
  | pg
  | pw
  deriving DecidableEq

/-- The tables and functions of the cell: capillary pressures and relative permeabilities as functions of the saturations of
water, oil and gas, `misc`, `pmisc`, `sorwmis`, `sgcwmis`, `msfnKro`, `msfnKrsg`, `sof2Krn`, `ssfnKrg`, `ssfnKrs`; the critical
saturations `sogcr` and `sgcr`; whether the solvent is miscible. -/
structure Rock (K : Type) where
  miscible : Bool
  pcWater : K → K → K → K
  pcOil : K → K → K → K
  pcGas : K → K → K → K
  krWater : K → K → K → K
  krOil : K → K → K → K
  krGas : K → K → K → K
  misc : K → K
  pmisc : K → K
  sorwmis : K → K
  sgcwmis : K → K
  msfnKro : K → K
  msfnKrsg : K → K
  sof2Krn : K → K
  ssfnKrg : K → K
  ssfnKrs : K → K
  sogcr : K
  sgcr : K

/-- What the primary variables say: the saturations of water, of hydrocarbon gas, and of the solvent (0 unless it is a primary
variable), and a pressure with its meaning. -/
structure Pv (K : Type) where
  sw : K
  sg : K
  ss : K
  meaning : PressureMeaning
  p : K

/-- The quantities of the cell after the saturation functions: saturations of the fluid state, pressures, and relative
permeabilities (kept in `mobility_` at this point) of the three phases and of the solvent. -/
structure State (K : Type) where
  sw : K
  so : K
  sg : K
  pw : K
  po : K
  pg : K
  krw : K
  kro : K
  krg : K
  krs : K

/-- `So = 1 - Sw - Sg` and the solvent, opm/models/blackoil/blackoilintensivequantities.hh lines 234-245. -/
def satOil (v : Pv K) : K := 1 - v.sw - v.sg - v.ss

/-- The gas saturation used by the saturation functions: `solventPreSatFuncUpdate_`,
opm/models/blackoil/blackoilsolventmodules.hh lines 820-828. -/
def gasForTables (v : Pv K) : K := if v.ss < cutOff then v.sg else v.sg + v.ss

/-- Pressures and relative permeabilities before `solventPostSatFuncUpdate_`,
opm/models/blackoil/blackoilintensivequantities.hh lines 258-294; no salt precipitation. -/
def pre (r : Rock K) (v : Pv K) : State K :=
  let g := gasForTables v
  let pcW := r.pcWater v.sw (satOil v) g
  let pcO := r.pcOil v.sw (satOil v) g
  let pcG := r.pcGas v.sw (satOil v) g
  let ref := match v.meaning with | .pg => pcG | .pw => pcW | .po => pcO
  { sw := v.sw, so := satOil v, sg := g, pw := v.p + (pcW - ref), po := v.p + (pcO - ref), pg := v.p + (pcG - ref),
    krw := r.krWater v.sw (satOil v) g, kro := r.krOil v.sw (satOil v) g, krg := r.krGas v.sw (satOil v) g, krs := 0 }

/-- The gas pressure with miscibility, opm/models/blackoil/blackoilsolventmodules.hh lines 863-886. -/
def miscibleGasPressure (r : Rock K) (v : Pv K) (s : State K) : K :=
  let pmisc := r.pmisc s.po
  let pcO := r.pcOil v.sw (satOil v) v.sg
  let pcG := r.pcGas v.sw (satOil v) v.sg
  let pgMisc := match v.meaning with | .pg => v.p | _ => v.p + (pcG - pcO)
  pmisc * pgMisc + (1 - pmisc) * s.pg

/-- `miscibility`, opm/models/blackoil/blackoilsolventmodules.hh lines 889-902. -/
def miscibility (r : Rock K) (v : Pv K) (s : State K) : K := r.misc (v.ss / (v.sg + v.ss)) * r.pmisc s.po

/-- `sor`, opm/models/blackoil/blackoilsolventmodules.hh lines 910-916. -/
def sor (r : Rock K) (m : K) (v : Pv K) : K := m * r.sorwmis v.sw + (1 - m) * r.sogcr

/-- `sgc`, opm/models/blackoil/blackoilsolventmodules.hh lines 917-923. -/
def sgc (r : Rock K) (m : K) (v : Pv K) : K := m * r.sgcwmis v.sw + (1 - m) * r.sgcr

/-- `F_totalGas`, opm/models/blackoil/blackoilsolventmodules.hh lines 925-936. -/
def totalGas (r : Rock K) (m : K) (v : Pv K) : K :=
  let gs := v.sg + v.ss
  let eff := max (gs + satOil v - sor r m v - sgc r m v) 0
  if cutOff < eff then max (gs - sgc r m v) 0 / eff else 0

/-- `mkrgt` and `mkro`, opm/models/blackoil/blackoilsolventmodules.hh lines 941-942. -/
def mkrgt (r : Rock K) (m : K) (v : Pv K) : K := r.msfnKrsg (totalGas r m v) * r.sof2Krn (v.sg + v.ss + satOil v)

@[inherit_doc mkrgt]
def mkro (r : Rock K) (m : K) (v : Pv K) : K := r.msfnKro (totalGas r m v) * r.sof2Krn (v.sg + v.ss + satOil v)

/-- `solventPostSatFuncUpdate_`, opm/models/blackoil/blackoilsolventmodules.hh lines 838-962. -/
def post (r : Rock K) (v : Pv K) (s : State K) : State K :=
  let s := { s with sg := v.sg }
  if v.ss < cutOff then s
  else
    let s := if r.miscible then { s with pg := miscibleGasPressure r v s } else s
    if v.sg + v.ss < cutOff then s
    else
      let s := if r.miscible then
          let m := miscibility r v s
          { s with krg := s.krg * (1 - m) + m * mkrgt r m v, kro := s.kro * (1 - m) + m * mkro r m v }
        else s
      { s with krs := s.krg * r.ssfnKrs (v.ss / (v.sg + v.ss)), krg := s.krg * r.ssfnKrg (v.sg / (v.sg + v.ss)) }

/-- The quantities after the saturation functions. -/
def update (r : Rock K) (v : Pv K) : State K := post r v (pre r v)

end Verif.Extend.SatFunc
