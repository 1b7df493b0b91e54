import Verif.Decks.Model
import Mathlib.Algebra.Order.Field.Basic

/-
The extended black-oil model: set-up of tables from `PVTSOL` and their use.
* opm/models/blackoil/blackoilextbomodules.hh lines 103-254 (`initFromState`), 581-647 (`zFractionUpdate_`) and 654-676 (`zPvtUpdate_`),
* opm/models/blackoil/blackoilintensivequantities.hh lines 299-345 and 411-444 (dissolution factors and densities).

Simplifications:
* The eight two-dimensional tables which get the same positions are one table of rows.  The tables themselves are part of opm-common: of them, only
  the sequence of calls (`appendXPos`, `appendSamplePoint`) is modelled; what they return for given arguments (`Pvt`) is left open.
* A quotient whose denominator is zero (infinite or not a number in the program) is `none`.
* Derivatives of evaluations are left out.
-/

set_option autoImplicit false

namespace Verif.Pvtsol

open Verif.Decks

variable {K : Type} [Field K] [LinearOrder K]

/-! ### Set-up -/

/-- A row of a table for a fixed fraction of solvent: columns `P`, `B_O`, `B_G`, `RS`, `RV`, `XVOL`, `YVOL`, `MU_O`, `MU_G` -/
@[ext] structure Row (K : Type) where
  p : K
  bo : K
  bg : K
  rs : K
  rv : K
  x : K
  y : K
  muO : K
  muG : K

/-- The summand `innerIdx*1.0e-10`, opm/models/blackoil/blackoilextbomodules.hh lines 181-182 -/
def Row.shift (i : ℕ) (r : Row K) : Row K := { r with rs := r.rs + i * (1 / 10 ^ 10), rv := r.rv + i * (1 / 10 ^ 10) }

/-- A quotient; `none` if the denominator is zero -/
def divide (a b : K) : Option K := if b = 0 then none else some (a / b)

/-- What is kept of the rows for one fraction of solvent: sampling points of the tables by pressure, those of the tables by dissolution factor, and
compressibilities -/
structure Column (K : Type) where
  samples : List (Row K)
  bubble : List (Row K)
  decays : Bool
  oil : Option K
  gas : Option K

/-- The loop over the rows for one fraction `z` of solvent, opm/models/blackoil/blackoilextbomodules.hh lines 173-235; `i` is the index of the next
row, `bo0` and `po0` are from the previous one. -/
def scan (z : K) : List (Row K) → ℕ → K → K → Column K
  | [], _, _, _ => ⟨[], [], false, some (-4 / 10 ^ 9), some (-8 / 100)⟩
  | r :: rest, i, bo0, po0 =>
    if bo0 > r.bo then ⟨[], [], true, divide (r.bo - bo0) (r.p - po0), some (-8 / 100)⟩
    else if bo0 = r.bo then
      ⟨[r.shift i], [], false, some (-4 / 10 ^ 9),
        match rest with
        | [] => some (-8 / 100)
        | n :: _ => if z < 1 then divide (n.bg - r.bg) ((n.rv + i * (1 / 10 ^ 10)) - (r.shift i).rv) else some (-8 / 100)⟩
    else
      let c := scan z rest (i + 1) r.bo r.p
      { c with samples := r.shift i :: c.samples, bubble := r.shift i :: c.bubble }

/-- The tables of a region: positions in direction of the fraction of solvent, and sampling points with the index of their position, in the order in
which they are appended; the limit for the fraction, and compressibilities by fraction -/
structure Region (K : Type) where
  xs : List K
  samples : List (ℕ × Row K)
  bubble : List (ℕ × Row K)
  zLim : K
  oilCmp : List (K × Option K)
  gasCmp : List (K × Option K)

/-- Tables without entries -/
def Region.empty : Region K := ⟨[], [], [], 0, [], []⟩

/-- The loop over fractions of solvent, opm/models/blackoil/blackoilextbomodules.hh lines 152-236 -/
def outer : List (K × List (Row K)) → ℕ → Region K → Region K
  | [], _, g => g
  | (z, rows) :: rest, i, g =>
    let c := scan z rows 0 0 0
    outer rest (i + 1)
      { xs := g.xs ++ [z]
        samples := g.samples ++ c.samples.map (Prod.mk i)
        bubble := g.bubble ++ c.bubble.map (Prod.mk i)
        zLim := if c.decays then z else g.zLim
        oilCmp := g.oilCmp ++ [(z, c.oil)]
        gasCmp := g.gasCmp ++ [(z, c.gas)] }

/-- One region, opm/models/blackoil/blackoilextbomodules.hh lines 141-239: limit and compressibilities start anew, tables do not. -/
def regionInit (cols : List (K × List (Row K))) (g : Region K) : Region K :=
  outer cols 0 { g with zLim := 7 / 10, oilCmp := [], gasCmp := [] }

/-- What the extension reads: for each region fractions of solvent with their rows, and densities of `SDENSITY` -/
structure Deck (K : Type) where
  active : Bool
  regions : List (List (K × List (Row K)))
  sdensity : List K

/-- `BlackOilExtboParams`, opm/models/blackoil/blackoilextboparams.hh lines 45-66 -/
structure Params (K : Type) where
  regions : List (Region K)
  density : List K

/-- `initFromState`, opm/models/blackoil/blackoilextbomodules.hh lines 103-254.  Tables of an earlier set-up stay (`resize`). -/
def pvtsolInit (assertions enabled : Bool) (d : Deck K) (p : Params K) : Res (Params K) := do
  throwIf (enabled && !d.active)
  throwIf (!enabled && d.active)
  if !d.active then .done p
  else do
    let old := resize p.regions d.regions.length Region.empty
    let regions ← fill (fun i => do
      let cols ← access d.regions i
      assertion assertions (decide (1 < cols.length))
      let g ← access old i
      .done (regionInit cols g)) d.regions.length old
    if d.sdensity.length = d.regions.length then do
      let density ← fill (access d.sdensity) d.regions.length (resize p.density d.regions.length 0)
      .done { regions := regions, density := density }
    else .threw

/-! ### Use -/

/-- What the tables of a region return: arguments are pressure and fraction of solvent; `pbubRs`: fraction of solvent and dissolution factor
(opm/models/blackoil/blackoilextbomodules.hh lines 477-545) -/
structure Pvt (K : Type) where
  muO : K → K → K
  muG : K → K → K
  bo : K → K → K
  bg : K → K → K
  rs : K → K → K
  rv : K → K → K
  x : K → K → K
  y : K → K → K
  pbubRs : K → K → K
  zLim : K
  oilCmp : K → K
  gasCmp : K → K
  rhoZ : K

/-- The meaning of the switching variable -/
inductive Meaning
  | sg | rs | rv | disabled
deriving DecidableEq

/-- The quantities of the extension -/
structure Quantities (K : Type) where
  muO : K
  muG : K
  bo : K
  bg : K
  bz : K
  rs : K
  rv : K
  x : K
  y : K

/-- The cell: pressures of oil and gas, fraction of solvent, the switching variable, and whether the cell is filled with water
(opm/models/blackoil/blackoilextbomodules.hh lines 622-627) -/
structure Cell (K : Type) where
  po : K
  pg : K
  z : K
  meaning : Meaning
  switching : K
  waterFilled : Bool

/-- `zFractionUpdate_`, opm/models/blackoil/blackoilextbomodules.hh lines 589-647; with dissolved gas, with vaporized oil -/
def zFractionUpdate (disgas vapoil : Bool) (t : Pvt K) (c : Cell K) : Quantities K :=
  let q : Quantities K :=
    { muO := t.muO c.po c.z
      muG := t.muG c.pg c.z
      bo := t.bo c.po c.z
      bg := t.bg c.pg c.z
      bz := t.bg c.po (99 / 100)
      rs := if disgas then t.rs c.po c.z else 0
      rv := if vapoil then t.rv c.pg c.z else 0
      x := t.x c.po c.z
      y := t.y c.po c.z }
  let q := if c.waterFilled then { q with rs := 0 } else q
  match c.meaning with
  | .rs =>
    let pbub := if c.z > t.zLim then t.pbubRs t.zLim c.switching else t.pbubRs c.z c.switching
    { q with
      rs := c.switching
      bo := t.bo pbub c.z + t.oilCmp c.z * (c.po - pbub)
      x := t.x pbub c.z }
  | .rv =>
    { q with
      rv := c.switching
      bg := t.bg c.po c.z + t.gasCmp c.z * (c.switching - t.rv c.po c.z)
      y := t.y c.po c.z }
  | _ => q

/-- What the fluid state holds afterwards: dissolution factors, inverse formation volume factors and densities -/
@[ext] structure Fluid (K : Type) where
  rs : K
  rv : K
  invBo : K
  invBg : K
  rhoO : K
  rhoG : K

/-- Densities of pure components at surface conditions -/
structure Surface (K : Type) where
  oil : K
  gas : K
  water : K

/-- Dissolution factors, opm/models/blackoil/blackoilintensivequantities.hh lines 309-337 -/
def composition (disgas vapoil : Bool) (rsMax rvMax : K) (c : Cell K) (q : Quantities K) : K × K :=
  (if c.meaning = .rs then c.switching else if disgas then min rsMax q.rs else 0,
    if c.meaning = .rv then c.switching else if vapoil then min rvMax q.rv else 0)

/-- Densities of oil and gas of the black-oil model, opm/models/blackoil/blackoilintensivequantities.hh lines 411-444; with vaporized water -/
def blackoilDensities (disgas vapoil vapwat : Bool) (s : Surface K) (invBo invBg rs rv rvw : K) : K × K :=
  (invBo * s.oil + (if disgas then invBo * rs * s.gas else 0),
    invBg * s.gas + (if vapoil then invBg * rv * s.oil else 0) + (if vapwat then invBg * rvw * s.water else 0))

/-- `zPvtUpdate_`, opm/models/blackoil/blackoilextbomodules.hh lines 654-676: replaces what the black-oil model has put into the fluid state. -/
def zPvtUpdate (t : Pvt K) (s : Surface K) (q : Quantities K) (f : Fluid K) : Fluid K :=
  let invBo := 1 / q.bo
  let invBg := 1 / q.bg
  { f with
    invBo := invBo
    invBg := invBg
    rhoO := invBo * (s.oil + (1 - q.x) * f.rs * s.gas + q.x * f.rs * t.rhoZ)
    rhoG := invBg * (s.gas * (1 - q.y) + q.y * t.rhoZ + s.oil * f.rv) }

/-- The update of a cell as far as oil and gas are concerned; `invBo`, `invBg` and `rvw` are those of the fluid system. -/
def update (disgas vapoil vapwat : Bool) (rsMax rvMax : K) (t : Pvt K) (s : Surface K) (invBo invBg rvw : K) (c : Cell K) : Quantities K × Fluid K :=
  let q := zFractionUpdate disgas vapoil t c
  let r := composition disgas vapoil rsMax rvMax c q
  let rho := blackoilDensities disgas vapoil vapwat s invBo invBg r.1 r.2 rvw
  (q, zPvtUpdate t s q ⟨r.1, r.2, invBo, invBg, rho.1, rho.2⟩)

end Verif.Pvtsol
