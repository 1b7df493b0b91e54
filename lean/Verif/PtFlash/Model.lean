import Verif.Ncp.Model
import Mathlib.Algebra.BigOperators.Group.Finset.Basic

/-!
# The model based on PT-flash calculations: primary variables, updates, compositions and saturations

The flash solver itself is part of another repository; what it returns (the liquid fraction) is an argument.
-/

set_option autoImplicit false

namespace Verif.PtFlash

open Verif.Ncp (forRange)

/-- `PVOffset` and `NumComponents`, opm/models/ptflash/flashindices.hh:42-49. -/
structure Sizes where
  off : ℕ
  comps : ℕ

/-- `pressure0Idx`, opm/models/ptflash/flashindices.hh:59. -/
def Sizes.pres0 (s : Sizes) : ℕ := s.off
/-- `z0Idx`, opm/models/ptflash/flashindices.hh:62. -/
def Sizes.z0 (s : Sizes) : ℕ := s.pres0 + 1

variable {K : Type*} [Field K] [LinearOrder K]

/-- `std::clamp`, used by `clampValue_`, opm/models/ptflash/flashnewtonmethod.hh:130-133: `none` is the undefined behaviour if the
bounds are swapped. -/
def clampValue (val lo hi : K) : Option K :=
  if hi < lo then none else some (if val < lo then lo else if hi < val then hi else val)

/-- The largest change of a mole fraction, opm/models/ptflash/flashnewtonmethod.hh:105-111. -/
def maxDeltaZ (s : Sizes) (u : ℕ → K) : K :=
  let r := (List.range (s.comps - 1)).foldl
    (fun (a : K × K) i => (max |u (s.z0 + i)| a.1, a.2 + u (s.z0 + i))) (0, 0)
  max |r.2| r.1

/-- Scaling of the mole fractions, opm/models/ptflash/flashnewtonmethod.hh:113-121. -/
def scaleZ (s : Sizes) (cur u next : ℕ → K) : ℕ → K :=
  if 1 / 5 < maxDeltaZ s u then
    forRange (s.comps - 1) s.z0 (fun i _ => cur (s.z0 + i) - 1 / 5 / maxDeltaZ s u * u (s.z0 + i)) next
  else next

/-- The tolerance `tol`, opm/models/ptflash/flashnewtonmethod.hh:124. -/
def tol : K := 1 / 100000000

/-- The final cut of a mole fraction (the bounds are constants in the right order),
opm/models/ptflash/flashnewtonmethod.hh:125-127. -/
def cutZ (val : K) : K := if val < tol then tol else if 1 - tol < val then 1 - tol else val

/-- `updatePrimaryVariables_`, opm/models/ptflash/flashnewtonmethod.hh:80-128. -/
def updatePrimaryVariables (s : Sizes) (cur u : ℕ → K) : Option (ℕ → K) :=
  let next : ℕ → K := fun k => cur k - u k
  match clampValue (next s.pres0) (cur s.pres0 * (1 - 1 / 5)) (cur s.pres0 * (1 + 1 / 5)) with
  | none => none
  | some p =>
    let next := Function.update next s.pres0 p
    let next := scaleZ s cur u next
    some (forRange (s.comps - 1) s.z0 (fun _ val => cutZ val) next)

/-- The mole fraction of a component before cutting and normalizing, opm/models/ptflash/flashintensivequantities.hh:118-125. -/
def rawZ (s : Sizes) (pv : ℕ → K) (i : ℕ) : K :=
  if i < s.comps - 1 then pv (s.z0 + i)
  else (List.range (s.comps - 1)).foldl (fun last j => last - pv (s.z0 + j)) 1

/-- The sum of the cut mole fractions, opm/models/ptflash/flashintensivequantities.hh:127-131. -/
def sumZ (s : Sizes) (pv : ℕ → K) : K :=
  (List.range s.comps).foldl (fun sum i => sum + max (rawZ s pv i) (1 / 100000000)) 0

/-- The mole fractions handed to the flash solver, opm/models/ptflash/flashintensivequantities.hh:117-133. -/
def readZ (s : Sizes) (pv : ℕ → K) (i : ℕ) : K := max (rawZ s pv i) (1 / 100000000) / sumZ s pv

/-- The saturations of oil and gas, opm/models/ptflash/flashintensivequantities.hh:213-218; `L` is the liquid fraction, `ZL` and
`ZV` are the compressibility factors. -/
def saturations (L ZL ZV : K) : K × K :=
  let so := max (L * ZL / (L * ZL + (1 - L) * ZV)) 0
  let sg := max (1 - so) 0
  (so / (so + sg), sg / (so + sg))

/-- The amount of a component in a phase, opm/models/ptflash/flashprimaryvariables.hh:128. -/
structure FluidState (K : Type*) where
  molarity : ℕ → ℕ → K
  sat : ℕ → K
  pres : ℕ → K

/-- The fractions and the sum which `assignNaive` accumulates, opm/models/ptflash/flashprimaryvariables.hh:123-132. -/
def amounts (phases comps : ℕ) (fs : FluidState K) : (ℕ → K) × K :=
  (List.range phases).foldl (fun a phase =>
    (List.range comps).foldl (fun (a : (ℕ → K) × K) i =>
      let tmp := fs.molarity phase i * fs.sat phase
      (Function.update a.1 i (a.1 i + max tmp (1 / 100000000)), a.2 + tmp)) a) (fun _ => 0, 0)

/-- `assignNaive`, opm/models/ptflash/flashprimaryvariables.hh:114-139, without the temperatures (energy module). -/
def assignNaive (s : Sizes) (phases : ℕ) (fs : FluidState K) : ℕ → K :=
  let a := amounts phases s.comps fs
  let pv : ℕ → K := forRange (s.comps - 1) s.z0 (fun i _ => a.1 i / a.2) (fun _ => 0)
  Function.update pv s.pres0 (fs.pres 0)

end Verif.PtFlash
