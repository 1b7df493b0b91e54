import Verif.BlackOil.PrimaryVars
import Verif.Restart.Props
import Verif.Cache.Props

set_option autoImplicit false
/-
Model of the methods `serializeOp` and of the comparison operators which go with them: objects are packed into a buffer, which
is sent to other processes or written to a file, and unpacked into objects which exist already.

A serializer object (`Opm::Serializer`, not part of the repository) calls the same method for both directions; it is modelled by a
pair of functions per type (`Codec`), given for numbers, enumerations, the vanguard and the problem, and built here for arrays,
vectors and the classes of the repository.  `B` is what buffers consist of.
-/
namespace Verif.Pack

open BlackOil

/-- What a serializer does with objects of one type: packing, and unpacking into an existing object; the second component of the
result is the rest of the buffer. -/
structure Codec (B α : Type) where
  pack : α → List B
  unpack : α → List B → Option (α × List B)

variable {B K S V P : Type} {n : ℕ}

/-- One line `serializer(x_)` of a method `serializeOp`: a member, which is packed, or unpacked in place. -/
structure Member (B S : Type) where
  pack : S → List B
  unpack : S → List B → Option (S × List B)

/-- The member of a class which is read with `get` and stored with `set`. -/
def member {α : Type} (c : Codec B α) (get : S → α) (set : S → α → S) : Member B S :=
  { pack := fun s => c.pack (get s)
    unpack := fun s b => (c.unpack (get s) b).map fun r => (set s r.1, r.2) }

/-- The statements of a method `serializeOp` are executed one after the other, in either direction. -/
def packAll : List (Member B S) → S → List B
  | [], _ => []
  | m :: ms, s => m.pack s ++ packAll ms s

@[inherit_doc packAll]
def unpackAll : List (Member B S) → S → List B → Option (S × List B)
  | [], s, b => some (s, b)
  | m :: ms, s, b => (m.unpack s b).bind fun r => unpackAll ms r.1 r.2

/-- The codec of a class whose `serializeOp` has the given statements. -/
def classCodec (ms : List (Member B S)) : Codec B S := { pack := packAll ms, unpack := unpackAll ms }

/-- Elements one after the other, as many as the object has already: arrays, and the vector of a known size. -/
def packItems {α : Type} (c : Codec B α) : List α → List B
  | [] => []
  | x :: xs => c.pack x ++ packItems c xs

@[inherit_doc packItems]
def unpackItems {α : Type} (c : Codec B α) : List α → List B → Option (List α × List B)
  | [], b => some ([], b)
  | x :: xs, b => (c.unpack x b).bind fun r => (unpackItems c xs r.2).map fun q => (r.1 :: q.1, q.2)

/-- `resize`: elements which exist are kept, missing ones are default constructed. -/
def resize {α : Type} (dflt : α) (old : List α) (m : ℕ) : List α := old.take m ++ List.replicate (m - old.length) dflt

/-- A vector: its size and its elements; when unpacking, the vector is resized first. -/
def vectorCodec {α : Type} (size : Codec B ℕ) (c : Codec B α) (dflt : α) : Codec B (List α) :=
  { pack := fun xs => size.pack xs.length ++ packItems c xs
    unpack := fun old b => (size.unpack old.length b).bind fun r => unpackItems c (resize dflt old r.1) r.2 }

/-- `BlackOilPrimaryVariables`, opm/models/blackoil/blackoilprimaryvariables.hh lines 1141-1149: the values (a `Dune::FieldVector`,
here a list of `numEq` values), their meanings, the index of the region and `pcFactor_`. -/
structure Pv (K : Type) where
  values : List K
  water : WaterMeaning
  pressure : PressureMeaning
  gas : GasMeaning
  brine : BrineMeaning
  solvent : SolventMeaning
  region : ℕ
  pcFactor : K

/-- The codecs of what is not defined in the repository. -/
structure Basic (B K : Type) where
  num : Codec B K
  int : Codec B ℤ
  size : Codec B ℕ
  water : Codec B WaterMeaning
  pressure : Codec B PressureMeaning
  gas : Codec B GasMeaning
  brine : Codec B BrineMeaning
  solvent : Codec B SolventMeaning

/-- The values: `numEq` numbers, no size. -/
def fieldVectorCodec (num : Codec B K) : Codec B (List K) := { pack := packItems num, unpack := unpackItems num }

/-- `BlackOilPrimaryVariables::serializeOp`, opm/models/blackoil/blackoilprimaryvariables.hh lines 981-992. -/
def pvCodec (c : Basic B K) : Codec B (Pv K) := classCodec [
  member (fieldVectorCodec c.num) (·.values) (fun s x => { s with values := x }),
  member c.water (·.water) (fun s x => { s with water := x }),
  member c.pressure (·.pressure) (fun s x => { s with pressure := x }),
  member c.gas (·.gas) (fun s x => { s with gas := x }),
  member c.brine (·.brine) (fun s x => { s with brine := x }),
  member c.solvent (·.solvent) (fun s x => { s with solvent := x }),
  member c.size (·.region) (fun s x => { s with region := x })]

/-- `BlackOilPrimaryVariables::operator==`, opm/models/blackoil/blackoilprimaryvariables.hh lines 994-1003. -/
def pvEq [DecidableEq K] (x y : Pv K) : Bool :=
  x.values == y.values && x.water == y.water && x.pressure == y.pressure && x.gas == y.gas && x.brine == y.brine &&
    x.solvent == y.solvent && x.region == y.region

/-- `BlockVectorWrapper::serializeOp`, opm/models/discretization/common/fvbasediscretization.hh lines 375-379; `dflt` is a default
constructed object. -/
def blockCodec (c : Basic B K) (dflt : Pv K) : Codec B (List (Pv K)) := vectorCodec c.size (pvCodec c) dflt

/-- `std::equal` with the ends of both ranges. -/
def equalRange {α : Type} (eq : α → α → Bool) : List α → List α → Bool
  | [], [] => true
  | x :: xs, y :: ys => eq x y && equalRange eq xs ys
  | _, _ => false

/-- `BlockVectorWrapper::operator==`, opm/models/discretization/common/fvbasediscretization.hh lines 369-373. -/
def blockEq [DecidableEq K] (x y : List (Pv K)) : Bool := equalRange pvEq x y

/-- `FvBaseDiscretization::serializeOp` and the helper of the discretization without adaptation,
opm/models/discretization/common/fvbasediscretization.hh lines 1814-1820 and 1956-1965: the solutions of all time levels, one after
the other, as many as there are in the object. -/
def modelCodec (c : Basic B K) (dflt : Pv K) : Codec B (List (List (Pv K))) :=
  { pack := packItems (blockCodec c dflt), unpack := unpackItems (blockCodec c dflt) }

/-- `FvBaseDiscretization::operator==`, opm/models/discretization/common/fvbasediscretization.hh lines 1822-1830. -/
def modelEq [DecidableEq K] (x y : List (List (Pv K))) : Bool := equalRange blockEq x y

/-- The simulator: vanguard, solutions of the model, problem, and the clock with everything that goes with it,
opm/models/utils/simulator.hh lines 979-1006. -/
structure Simulator (K V P : Type) where
  vanguard : V
  model : List (List (Pv K))
  problem : P
  sim : TimeLoop.Sim K

/-- `Simulator::serializeOp`, opm/models/utils/simulator.hh lines 964-976. -/
def simulatorCodec (c : Basic B K) (dflt : Pv K) (cv : Codec B V) (cp : Codec B P) : Codec B (Simulator K V P) := classCodec [
  member cv (·.vanguard) (fun s x => { s with vanguard := x }),
  member (modelCodec c dflt) (·.model) (fun s x => { s with model := x }),
  member cp (·.problem) (fun s x => { s with problem := x }),
  member c.int (·.sim.episodeIdx) (fun s x => { s with sim := { s.sim with episodeIdx := x } }),
  member c.num (·.sim.episodeStart) (fun s x => { s with sim := { s.sim with episodeStart := x } }),
  member c.num (·.sim.episodeLength) (fun s x => { s with sim := { s.sim with episodeLength := x } }),
  member c.num (·.sim.startTime) (fun s x => { s with sim := { s.sim with startTime := x } }),
  member c.num (·.sim.time) (fun s x => { s with sim := { s.sim with time := x } }),
  member c.int (·.sim.timeStepIdx) (fun s x => { s with sim := { s.sim with timeStepIdx := x } })]

/-- What unpacking a model does to its solutions and to its cache of intensive quantities
(opm/models/discretization/common/fvbasediscretization.hh lines 1814-1820): the entries the solutions have are replaced, the cache and
its flags are not touched. -/
def load {PV IQ : Type} (s : Cache.State PV IQ) (new : ℕ → ℕ → PV) : Cache.State PV IQ := { s with sol := new }

end Verif.Pack
