import Mathlib.Algebra.Field.Defs

/-
Set-up of the foam, brine, solvent and polymer extensions of the black-oil model from a deck:
`initFromState` of
* opm/models/blackoil/blackoilfoammodules.hh lines 94-174,
* opm/models/blackoil/blackoilbrinemodules.hh lines 93-157,
* opm/models/blackoil/blackoilsolventmodules.hh lines 105-352,
* opm/models/blackoil/blackoilpolymermodules.hh lines 98-344,
and the look-up of tables.

Simplifications:
* A deck is what the extension asks it for: whether the keyword of the extension is there, numbers of regions, and tables.  Of a container of
  tables (`TableContainer` of opm-common, not part of this repository) it is assumed that `getTable` returns a table or throws.  Records of
  keywords without tables are in lists; beyond their ends there is undefined behaviour.
* Several vectors which are resized together and filled in the same loop are one vector of records.
* Messages of exceptions are left out, and so are warnings.
* What tables contain is left open (`T`); reading a table does not throw.
-/

set_option autoImplicit false

namespace Verif.Decks

/-! ### Runs of the set-up -/

/-- How a piece of code ends: with a result, with an exception, in a failed assertion, or with undefined behaviour -/
inductive Res (α : Type) where
  | done (a : α)
  | threw
  | aborted
  | undefined
deriving DecidableEq

namespace Res

/-- Sequential composition -/
def bind {α β : Type} : Res α → (α → Res β) → Res β
  | done a, f => f a
  | threw, _ => threw
  | aborted, _ => aborted
  | undefined, _ => undefined

instance : Monad Res where
  pure := done
  bind := bind

end Res

/-- `assert`: without effect if assertions are compiled out -/
def assertion (assertions c : Bool) : Res Unit := if assertions && !c then .aborted else .done ()

/-- `if (c) throw` -/
def throwIf (c : Bool) : Res Unit := if c then .threw else .done ()

/-- `std::vector::resize` -/
def resize {α : Type} (l : List α) (n : ℕ) (d : α) : List α := l.take n ++ List.replicate (n - l.length) d

/-- The loop `for (i = 0; i < n; ++i) l[i] = get(i);` -/
def fill {α : Type} (get : ℕ → Res α) : ℕ → List α → Res (List α)
  | 0, l => .done l
  | n + 1, l => do
    let l ← fill get n l
    let a ← get n
    if n < l.length then .done (l.set n a) else .undefined

/-- A container of tables: how many there are, and which one is returned for an index -/
structure Tables (T : Type) where
  count : ℕ
  table : ℕ → Option T

/-- `getTable` -/
def Tables.get {T : Type} (t : Tables T) (i : ℕ) : Res T :=
  match t.table i with
  | some a => .done a
  | none => .threw

/-- Access to an element of a vector: also the look-ups of later evaluations, e.g. opm/models/blackoil/blackoilfoammodules.hh lines 399-439 -/
def access {T : Type} (l : List T) (i : ℕ) : Res T :=
  match l[i]? with
  | some a => .done a
  | none => .undefined

/-! ### Foam -/

/-- What the foam extension reads -/
structure FoamDeck (T R : Type) where
  active : Bool
  transport : ℕ
  tab : Bool
  numSat : ℕ
  numPvt : ℕ
  rock : List R
  foamads : Tables T
  foammob : Tables T

/-- `BlackOilFoamParams`, opm/models/blackoil/blackoilfoamparams.hh lines 76-81; `rock`: density, desorption and coefficients -/
@[ext] structure FoamParams (T R : Type) where
  transport : ℕ
  rock : List R
  ads : List T
  mob : List T

/-- `initFromState`, opm/models/blackoil/blackoilfoammodules.hh lines 94-174 -/
def foamInit {T R : Type} (enabled : Bool) (d : FoamDeck T R) (t0 : T) (r0 : R) (p : FoamParams T R) : Res (FoamParams T R) := do
  throwIf (enabled && !d.active)
  throwIf (!enabled && d.active)
  if !d.active then .done p
  else do
    throwIf !d.tab
    throwIf (d.numSat != d.rock.length)
    throwIf (d.foamads.count == 0)
    throwIf (d.numSat != d.foamads.count)
    let rock ← fill (access d.rock) d.numSat (resize p.rock d.numSat r0)
    let ads ← fill d.foamads.get d.numSat (resize p.ads d.numSat t0)
    throwIf (d.foammob.count == 0)
    throwIf (d.numPvt != d.foammob.count)
    let mob ← fill d.foammob.get d.numPvt (resize p.mob d.numPvt t0)
    .done { transport := d.transport, rock := rock, ads := ads, mob := mob }

/-! ### Brine -/

/-- What the brine extension reads; `bdensity`: the densities, `pvtwsalt`: the concentrations they belong to, `tabulate`: the function made
of both -/
structure BrineDeck (K C T : Type) where
  active : Bool
  numSat : ℕ
  numPvt : ℕ
  bdensity : List C
  pvtwsalt : List C
  tabulate : C → C → T
  permfact : Tables T
  saltsol : Tables (K × K)
  pcfact : Tables T

/-- `BlackOilBrineParams`, opm/models/blackoil/blackoilbrineparams.hh lines 39-48; `saltsol`: solubility and density.  `empty` in the vectors of
functions is a function without sampling points. -/
@[ext] structure BrineParams (K T : Type) where
  bdensity : List T
  pcfact : List T
  permfact : List T
  saltsol : List (K × K)

/-- `initFromState`, opm/models/blackoil/blackoilbrinemodules.hh lines 93-157 -/
def brineInit {K C T : Type} (assertions enabled precipitation : Bool) (d : BrineDeck K C T) (t0 : T) (k0 : K × K) (p : BrineParams K T) :
    Res (BrineParams K T) := do
  throwIf (enabled && !d.active)
  throwIf (!enabled && d.active)
  if !d.active then .done p
  else do
    let p ← (if d.bdensity.length = 0 then .done p
      else do
        assertion assertions (d.numPvt == d.bdensity.length)
        let b ← fill (fun i => do
          let y ← access d.bdensity i
          let x ← access d.pvtwsalt i
          .done (d.tabulate x y)) d.numPvt (resize p.bdensity d.numPvt t0)
        .done { p with bdensity := b })
    if !precipitation then .done p
    else do
      let f ← fill d.permfact.get d.permfact.count (resize p.permfact d.numPvt t0)
      let p := { p with permfact := f }
      let p ← (if d.saltsol.count = 0 then .done p
        else do
          assertion assertions (d.numPvt == d.saltsol.count)
          let s ← fill d.saltsol.get d.numPvt (resize p.saltsol d.numPvt k0)
          .done { p with saltsol := s })
      if d.pcfact.count = 0 then .done p
      else do
        let f ← fill d.pcfact.get d.pcfact.count (resize p.pcfact d.numSat t0)
        .done { p with pcfact := f }

/-! ### Solvent -/

/-- What the solvent extension reads; `ssfn` and `msfn` have two columns. -/
structure SolventDeck (K T : Type) where
  active : Bool
  oil : Bool
  co2 : Bool
  h2 : Bool
  disgasw : Bool
  numSat : ℕ
  ssfn : Tables (T × T)
  misc : Tables T
  sof2 : Tables T
  pmisc : Tables T
  msfn : Tables (T × T)
  sorwmis : Tables T
  sgcwmis : Tables T
  tlmixpar : List (K × K)
  tlpmixpa : Tables T

/-- `BlackOilSolventParams`, opm/models/blackoil/blackoilsolventparams.hh lines 43-75, without the objects for PVT -/
@[ext] structure SolventParams (K T : Type) where
  ssfn : List (T × T)
  sof2 : List T
  misc : List T
  pmisc : List T
  msfn : List (T × T)
  sorwmis : List T
  sgcwmis : List T
  tlmix : List (K × K)
  tlpmix : List T
  miscible : Bool
  soluble : Bool
  co2 : Bool
  h2 : Bool

/-- The functions used for tables which are not given: constant one, constant zero, and the pair of identity and its complement
(opm/models/blackoil/blackoilsolventmodules.hh lines 212-217, 241-248, 266-273, 292-299 and 343-350) -/
structure Defaults (T : Type) where
  one : T
  zero : T
  unit : T × T

/-- A vector which is resized and then filled from tables, or with a default if there are none
(opm/models/blackoil/blackoilsolventmodules.hh lines 196-300) -/
def fillOr {T : Type} (assertions : Bool) (t : Tables T) (n : ℕ) (dflt t0 : T) (l : List T) : Res (List T) :=
  if t.count = 0 then fill (fun _ => .done dflt) n (resize l n t0)
  else do
    assertion assertions (n == t.count)
    fill t.get n (resize l n t0)

/-- The part of `initFromState` for miscible runs, opm/models/blackoil/blackoilsolventmodules.hh lines 155-351; there is one region for
miscibility (line 159).  The branch which takes the table of `PMISC` for `TLPMIXPA` (lines 333-341) is in the model: it is never taken. -/
def miscibleInit {K T : Type} (assertions : Bool) (d : SolventDeck K T) (f : Defaults T) (t0 : T) (k0 : K) (p : SolventParams K T) :
    Res (SolventParams K T) := do
  let sof2 ← (if d.sof2.count = 0 then (do throwIf d.oil; .done p.sof2) else fill d.sof2.get d.numSat (resize p.sof2 d.numSat t0))
  let misc ← (if d.misc.count = 0 then .threw
    else do
      assertion assertions (1 == d.misc.count)
      fill d.misc.get 1 (resize p.misc 1 t0))
  let pmisc ← fillOr assertions d.pmisc 1 f.one t0 p.pmisc
  let msfn ← fillOr assertions d.msfn d.numSat f.unit (t0, t0) p.msfn
  let sorwmis ← fillOr assertions d.sorwmis 1 f.zero t0 p.sorwmis
  let sgcwmis ← fillOr assertions d.sgcwmis 1 f.zero t0 p.sgcwmis
  let tlmix ← (if d.tlmixpar.length = 0 then .threw
    else do
      assertion assertions (1 == d.tlmixpar.length)
      fill (access d.tlmixpar) 1 (resize p.tlmix 1 (k0, k0)))
  let tlpmix ← (if d.tlpmixpa.count != 0 then
      if d.tlpmixpa.count != 0 then (do
        assertion assertions (1 == d.tlpmixpa.count)
        fill d.tlpmixpa.get 1 (resize p.tlpmix 1 t0))
      else if pmisc.length > 0 then .done pmisc
      else .threw
    else fill (fun _ => .done f.one) 1 (resize p.tlpmix 1 t0))
  .done { p with sof2 := sof2, misc := misc, pmisc := pmisc, msfn := msfn, sorwmis := sorwmis, sgcwmis := sgcwmis, tlmix := tlmix, tlpmix := tlpmix }

/-- `initFromState`, opm/models/blackoil/blackoilsolventmodules.hh lines 105-352 -/
def solventInit {K T : Type} (assertions enabled : Bool) (d : SolventDeck K T) (f : Defaults T) (t0 : T) (k0 : K) (p : SolventParams K T) :
    Res (SolventParams K T) := do
  throwIf (enabled && !d.active)
  throwIf (!enabled && d.active)
  if !d.active then .done p
  else do
    let p := { p with co2 := d.co2, h2 := d.h2 }
    throwIf (d.co2 && d.h2)
    let p := if (d.co2 || d.h2) && d.disgasw then { p with soluble := true } else p
    let ssfn ← fill d.ssfn.get d.numSat (resize p.ssfn d.numSat (t0, t0))
    let p := { p with ssfn := ssfn, miscible := false }
    if d.misc.count = 0 then .done p else miscibleInit assertions d f t0 k0 { p with miscible := true }

/-! ### Polymer -/

/-- What the polymer extension reads.  `evalVisc` is the evaluation of a viscosity multiplier; `plyshlog`: the concentration the table is for,
logarithms of velocities, and multipliers; the maps are for `PLYMWINJ` and so on, by number of table. -/
structure PolymerDeck (K T M R V : Type) where
  active : Bool
  polymw : Bool
  numSat : ℕ
  numPvt : ℕ
  plyrock : Tables R
  plyads : Tables T
  plyvisc : Tables T
  evalVisc : T → K → K
  plymax : Tables K
  plmixpar : List K
  hasPlyshlog : Bool
  plyshlog : Tables (K × List K × List K)
  useShrate : Bool
  shrate : List K
  plyvmh : List V
  plymwinj : List (ℤ × M)
  skprwat : List (ℤ × M)
  skprpoly : List (ℤ × M)

/-- `BlackOilPolymerParams`, opm/models/blackoil/blackoilpolymerparams.hh lines 109-130; `shear`: logarithms of velocities and multipliers -/
@[ext] structure PolymerParams (K T M R V : Type) where
  rock : List R
  ads : List T
  visc : List T
  maxConcentration : List K
  mix : List K
  shear : List (List K × List K)
  shrate : List K
  hasShrate : Bool
  hasPlyshlog : Bool
  vmh : List V
  plymwinj : ℤ → Option M
  skprwat : ℤ → Option M
  skprpoly : ℤ → Option M

/-- `map[key] = value` for all entries of a container -/
def insertAll {M : Type} (m : ℤ → Option M) (l : List (ℤ × M)) : ℤ → Option M :=
  l.foldl (fun m e => fun k => if k = e.1 then some e.2 else m k) m

/-- Conversion of the multipliers of `PLYSHLOG`, opm/models/blackoil/blackoilpolymermodules.hh lines 255-260 -/
def convert {K : Type} [Field K] (refViscMult : K) (m : K) : K := (m * refViscMult - 1) / (refViscMult - 1)

/-- The default of `SHRATE`, opm/models/blackoil/blackoilpolymermodules.hh line 279 -/
def defaultShrate {K : Type} [Field K] : K := 48 / 10

section
variable {K T M R V : Type} [Field K]

/-- The shear tables, opm/models/blackoil/blackoilpolymermodules.hh lines 231-269 -/
def shearInit (assertions enabledMW : Bool) (d : PolymerDeck K T M R V) (visc : List T) (l : List (List K × List K)) :
    Res (List (List K × List K)) :=
  if d.hasPlyshlog && !enabledMW then do
    assertion assertions (d.numPvt == d.plyshlog.count)
    fill (fun i => do
      let t ← d.plyshlog.get i
      let v ← access visc i
      let ref := d.evalVisc v t.1
      .done (t.2.1, t.2.2.map (convert ref))) d.numPvt (resize l d.numPvt ([], []))
  else .done l

/-- The shear rates, opm/models/blackoil/blackoilpolymermodules.hh lines 271-288 -/
def shrateInit (enabledMW : Bool) (d : PolymerDeck K T M R V) (l : List K) : Res (List K) :=
  if d.useShrate && !enabledMW then do
    throwIf !d.hasPlyshlog
    fill (fun i => if d.shrate.length = 0 then .done defaultShrate else if d.shrate.length = d.numPvt then access d.shrate i else .threw)
      d.numPvt (resize l d.numPvt 0)
  else .done l

/-- `initFromState`, opm/models/blackoil/blackoilpolymermodules.hh lines 98-344 -/
def polymerInit (assertions enabled enabledMW : Bool) (d : PolymerDeck K T M R V) (t0 : T) (r0 : R) (v0 : V)
    (p : PolymerParams K T M R V) : Res (PolymerParams K T M R V) := do
  throwIf (enabled && !d.active)
  throwIf (!enabled && d.active)
  throwIf (enabledMW && !d.polymw)
  throwIf (!enabledMW && d.polymw)
  throwIf (enabledMW && !enabled)
  if !d.active then .done p
  else do
    let rock ← (if d.plyrock.count = 0 then .threw
      else do
        assertion assertions (d.numSat == d.plyrock.count)
        fill d.plyrock.get d.numSat (resize p.rock d.numSat r0))
    let ads ← (if d.plyads.count = 0 then .threw
      else do
        assertion assertions (d.numSat == d.plyads.count)
        fill d.plyads.get d.numSat (resize p.ads d.numSat t0))
    let visc ← (if d.plyvisc.count = 0 then (do throwIf !enabledMW; .done (resize p.visc d.numPvt t0))
      else if enabledMW then .done (resize p.visc d.numPvt t0)
      else do
        assertion assertions (d.numPvt == d.plyvisc.count)
        fill d.plyvisc.get d.numPvt (resize p.visc d.numPvt t0))
    let numMix := d.plymax.count
    let maxConcentration ← (if numMix = 0 then .threw else fill d.plymax.get numMix (resize p.maxConcentration numMix 0))
    let mix := resize p.mix numMix 0
    let mix ← (if d.plmixpar.length = 0 then (do throwIf !enabledMW; .done mix)
      else if enabledMW then .done mix
      else fill (access d.plmixpar) numMix mix)
    let shear ← shearInit assertions enabledMW d visc p.shear
    let shrate ← shrateInit enabledMW d p.shrate
    let vmh ← (if enabledMW then
        if d.plyvmh.length = 0 then .threw
        else do
          assertion assertions (d.plyvmh.length == numMix)
          fill (access d.plyvmh) numMix (resize p.vmh numMix v0)
      else .done p.vmh)
    .done
      { rock := rock
        ads := ads
        visc := visc
        maxConcentration := maxConcentration
        mix := mix
        shear := shear
        shrate := shrate
        hasShrate := d.useShrate
        hasPlyshlog := d.hasPlyshlog
        vmh := vmh
        plymwinj := if enabledMW then insertAll p.plymwinj d.plymwinj else p.plymwinj
        skprwat := if enabledMW then insertAll p.skprwat d.skprwat else p.skprwat
        skprpoly := if enabledMW then insertAll p.skprpoly d.skprpoly else p.skprpoly }

/-- `getPlymwinjTable` and its like, opm/models/blackoil/blackoilpolymermodules.hh lines 350-387 -/
def lookup (m : ℤ → Option M) (k : ℤ) : Res M :=
  match m k with
  | some a => .done a
  | none => .threw

/-- The first steps of `updateShearMultipliers` and `computeShearFactor`: nothing without `PLYSHLOG`, else the tables for viscosity and shear are
looked up (opm/models/blackoil/blackoilpolymermodules.hh lines 1044-1045, 717 and 725); the first velocity is looked at (line 728).  The early
return if polymer has no effect on viscosity at the concentration at hand (lines 720-723) is left out. -/
def shearTables (p : PolymerParams K T M R V) (pvtRegion : ℕ) : Res (Option (T × List K × List K)) :=
  if !p.hasPlyshlog then .done none
  else do
    let t ← access p.visc pvtRegion
    let s ← access p.shear pvtRegion
    let _ ← access s.1 0
    .done (some (t, s))

end

end Verif.Decks
