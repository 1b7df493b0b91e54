import Verif.Reservoir.Model
import Verif.Hybrid.Spec

/-
What flows between the cells of a reservoir, and what is in them.
-/

set_option autoImplicit false

namespace Verif.Reservoir

open Verif.Flux (Phase Options)
open Verif.Mpi Verif.Sync Verif.Overlap Verif.Newton Verif.ParNewton Verif.ParSolve.Block Verif.GridComm
open Verif.ParSim (Memory)

variable {P N E : ℕ} {G K V X : Type} [Field K] [LinearOrder K]

/-- How much of the component `c` there is per surface volume of the phase `p`: all of the phase is its own component, and other components
may be dissolved in it or vaporized into it.  Either surface volumes or masses are counted. -/
def share (o : Options) (ref : Phase → K) (a : Iq (Ev E K)) (p c : Phase) : K :=
  (match p, c with
    | .water, .water => 1
    | .oil, .oil => 1
    | .gas, .gas => 1
    | .oil, .gas => if o.dissolvedGas then a.rs.fst else 0
    | .water, .gas => if o.dissolvedGasInWater then a.rsw.fst else 0
    | .gas, .oil => if o.vaporizedOil then a.rv.fst else 0
    | .gas, .water => if o.vaporizedWater then a.rvw.fst else 0
    | .oil, .water => 0
    | .water, .oil => 0) * (if o.conserveSurfaceVolume then 1 else ref c)

/-- How much a volume of the phase `p` contains of what the equation balances: of a component, or of energy -/
def contained (r : Model G E K V X) (own : X) (e : Fin E) (c : G) (v : V) (p : Phase) : K :=
  let a := r.quantities own c v
  match r.equation e with
  | some q => (a.invB p).fst * share r.options (r.ref c) a p q
  | none => (a.enthalpy p).fst * (a.density p).fst * r.scale

/-- By how much the pressure of the phase in the second cell exceeds the one in the first cell, at the same depth -/
def excess (k : Nb K) (a b : Iq (Ev E K)) (p : Phase) : K :=
  (b.pressure p).fst - (a.pressure p).fst + ((a.density p).fst + (b.density p).fst) / 2 * k.dZg

/-- Volume per area and time of the phase `p` which flows out of the first cell, for the mobility `m`: Darcy's law -/
def volumeFlux (k : Nb K) (a b : Iq (Ev E K)) (p : Phase) (m : K) : K :=
  k.trans / k.faceArea * ((a.transMult.fst + b.transMult.fst) / 2) * m * -(excess k a b p)

/-- Heat which is conducted, per area and time -/
def conducted (k : Nb K) (a b : Iq (Ev E K)) : K :=
  let x := a.conductivity.fst * k.inAlpha
  let y := b.conductivity.fst * k.outAlpha
  (a.temperature.fst - b.temperature.fst) * (if 0 < x ∧ 0 < y then 1 / (1 / x + 1 / y) else 0) / k.faceArea

/-- What flows out of the cell `c` into the cell `c'`: each phase takes along what it contains, from where it comes from. -/
def flowing (r : Model G E K V X) (own : X) (e : Fin E) (c c' : G) (k : Nb K) (v v' : V) : K :=
  let a := r.quantities own c v
  let b := r.quantities own c' v'
  ((Phase.all.filter fun p => r.options.active p).map fun p =>
      if 0 < excess k a b p then contained r own e c' v' p * volumeFlux k a b p (b.mobility p).fst
      else contained r own e c v p * volumeFlux k a b p (a.mobility p).fst).sum
    + (if r.equation e = none then conducted k a b * r.scale else 0)

/-- What a cell contains of what the equation balances, per volume -/
def content (r : Model G E K V X) (own : X) (e : Fin E) (c : G) (v : V) : K :=
  let a := r.quantities own c v
  match r.equation e with
  | some q => a.porosity.fst * ((Phase.all.filter fun p => r.options.active p).map fun p =>
      (a.saturation p).fst * ((a.invB p).fst * share r.options (r.ref c) a p q)).sum
  | none => (a.porosity.fst * ((Phase.all.filter fun p => r.options.active p).map fun p =>
      (a.saturation p).fst * ((a.density p).fst * (a.internalEnergy p).fst)).sum + a.rockFraction.fst * a.rockEnergy.fst) * r.scale

/-- No phase hesitates: between any two neighbouring cells of the same size, each active phase is pushed into one of the directions. -/
def NoTies (r : Model G E K V X) (own : X) (Y : G → V) (c : G) : Prop :=
  ∀ n ∈ r.neighbours c, r.volume c = r.volume n.1 → ∀ p, r.options.active p = true →
    excess n.2 (r.quantities own c (Y c)) (r.quantities own n.1 (Y n.1)) p ≠ 0

/-- A connection seen from the other cell -/
def Nb.reverse (k : Nb K) : Nb K := { k with dZg := -k.dZg, inAlpha := k.outAlpha, outAlpha := k.inAlpha }

/-- A grid: it consists of the cells `cells`; every connection between two cells is there for both of them.  All components which are balanced
are active.  Time steps of size zero fail. -/
structure Sound (r : Model G E K V X) (cells : Set G) [DecidableEq G] : Prop where
  inside : ∀ c ∈ cells, ∀ n ∈ r.neighbours c, n.1 ∈ cells
  paired : ∀ c c', (((r.neighbours c).filter fun n => n.1 = c').map fun n => n.2.reverse).Perm
    (((r.neighbours c').filter fun n => n.1 = c).map Prod.snd)
  active : ∀ e q, r.equation e = some q → r.options.active q = true
  step : ∀ own c v, r.works own 0 c v = false

variable [DecidableEq G] [IsStrictOrderedRing K]

/-- Several processes simulate the reservoir: where pressures are equal, they compare the indices which the cells have on the process. -/
def Performs (r : Model G E K V X) (settings : X → K → Memory K → Settings K) (g : Grid (P + 1) G) (cell : Fin N → G)
    (machine : X → K → Memory K → (Fin (P + 1) → ℕ → V) → Machine P E K V) : Prop :=
  Hybrid.PerformsWith (r.flow fun c => (List.ofFn cell).idxOf c) (fun p => r.flow fun c => (g.cells p).idxOf c) settings g cell machine

/-- Where neighbouring cells have the same volume, the process which owns one of them has them in the same order as the single process. -/
def SameOrder (r : Model G E K V X) (g : Grid (P + 1) G) (cell : Fin N → G) : Prop :=
  ∀ c, ∀ n ∈ r.neighbours c, r.volume c = r.volume n.1 →
    ((g.cells (g.owner c)).idxOf c < (g.cells (g.owner c)).idxOf n.1 ↔ (List.ofFn cell).idxOf c < (List.ofFn cell).idxOf n.1) ∧
    ((g.cells (g.owner c)).idxOf n.1 < (g.cells (g.owner c)).idxOf c ↔ (List.ofFn cell).idxOf n.1 < (List.ofFn cell).idxOf c)

end Verif.Reservoir
