import Verif.ForcedSteps.Model
import Verif.Util.Chars
import Mathlib.Data.Int.Notation

set_option autoImplicit false
/-
Model of restart files: `/repo/opm/models/io/restart.hh`, and of what the simulator
(`/repo/opm/models/utils/simulator.hh`), the discretization
(`/repo/opm/models/discretization/common/fvbasediscretization.hh`) and the black-oil model
(`/repo/opm/models/blackoil/blackoilmodel.hh`) write to and read from them.

Files are lists of characters, streams are those of `Verif.ForcedSteps` (unread characters, eof bit, fail bit).
-/
namespace Verif.Restart

open ForcedSteps

/-- A text format for numbers: how a number is written, which characters can be part of a number, and how the
characters are converted back. -/
structure Format (K : Type) where
  fmt : K → List Char
  numChar : Char → Bool
  conv : List Char → Option K
  zero : K

/-- What is needed of a format: the text of a number is not empty, is read as one token, and is converted back to the
number.  (For double precision numbers with 20 digits the last point is `Numbers.C20_twenty_digits_suffice`.) -/
structure Format.Lawful {K : Type} (F : Format K) : Prop where
  nonempty : ∀ x, F.fmt x ≠ []
  chars : ∀ x, ∀ c ∈ F.fmt x, F.numChar c = true ∧ blank c = false
  blankSep : ∀ c, blank c = true → F.numChar c = false
  roundTrip : ∀ x, F.conv (F.fmt x) = some x

/-- `std::istream::good`. -/
def Stream.good (s : Stream) : Bool := !s.eof && !s.fail

/-- `std::getline(is, buf)`; the result is the line which was read (empty if nothing could be read: all buffers of the
library are empty at that point or not looked at). -/
def getline (s : Stream) : List Char × Stream :=
  if s.eof || s.fail then ([], { s with fail := true })
  else
    let l := s.rest.takeWhile (· ≠ '\n')
    let r := s.rest.dropWhile (· ≠ '\n')
    if r.isEmpty then (l, ⟨[], true, l.isEmpty⟩) else (l, ⟨r.tail, false, false⟩)

/-- `is >> x`: the new value of `x`. -/
def readInto {K : Type} (F : Format K) (x : K) (s : Stream) : K × Stream :=
  match extract F.numChar F.conv F.zero s with
  | (some y, s') => (y, s')
  | (none, s') => (x, s')

/-- Errors (exceptions) while reading. -/
inductive Err where
  | eof            -- "Encountered unexpected EOF in restart file."
  | section        -- "Could not start section ..."
  | unread         -- "Encountered unread values while deserializing"
  | corrupted      -- "Restart file is corrupted"
  | entity         -- "Could not deserialize degree of freedom ..."
  | file           -- the file cannot be opened or is empty
  deriving DecidableEq

/-- `serializeSectionBegin`, opm/models/io/restart.hh:125-126. -/
def sectionBegin (cookie : List Char) : List Char := cookie ++ c!"\n"

/-- `serializeSectionEnd`, opm/models/io/restart.hh:131-132. -/
def sectionEnd : List Char := c!"\n"

/-- `deserializeSectionBegin`, opm/models/io/restart.hh:206-214. -/
def readSectionBegin (cookie : List Char) (s : Stream) : Except Err Stream :=
  if Stream.good s then
    let (buf, s') := getline s
    if buf ≠ cookie then .error .section else .ok s'
  else .error .eof

/-- `deserializeSectionEnd`, opm/models/io/restart.hh:219-228. -/
def readSectionEnd (s : Stream) : Except Err Stream :=
  let (dummy, s') := getline s
  if dummy.all blank then .ok s' else .error .unread

deriving instance DecidableEq for Except

variable {K : Type}

/-! ### the clock -/

/-- What the simulator saves of its clock, opm/models/utils/simulator.hh:927-940. -/
structure Clock (K : Type) where
  episodeIdx : ℤ
  episodeStart : K
  episodeLength : K
  startTime : K
  time : K
  timeStepIdx : ℤ
  deriving DecidableEq

/-- `Simulator::serialize(restarter)`, opm/models/utils/simulator.hh:928-940. -/
def writeClock (FI : Format ℤ) (FK : Format K) (c : Clock K) : List Char :=
  sectionBegin c!"Simulator" ++
  (FI.fmt c.episodeIdx ++ c!" " ++ FK.fmt c.episodeStart ++ c!" " ++ FK.fmt c.episodeLength ++ c!" " ++
   FK.fmt c.startTime ++ c!" " ++ FK.fmt c.time ++ c!" " ++ FI.fmt c.timeStepIdx ++ c!" ") ++
  sectionEnd

/-- `Simulator::deserialize(restarter)`, opm/models/utils/simulator.hh:950-962. -/
def readClock (FI : Format ℤ) (FK : Format K) (old : Clock K) (s : Stream) : Except Err (Clock K × Stream) := do
  let s ← readSectionBegin c!"Simulator" s
  let (a, s) := readInto FI old.episodeIdx s
  let (b, s) := readInto FK old.episodeStart s
  let (c, s) := readInto FK old.episodeLength s
  let (d, s) := readInto FK old.startTime s
  let (e, s) := readInto FK old.time s
  let (f, s) := readInto FI old.timeStepIdx s
  let s ← readSectionEnd s
  .ok (⟨a, b, c, d, e, f⟩, s)

/-! ### entities -/

/-- `serializeEntity`, opm/models/discretization/common/fvbasediscretization.hh:1439-1455. -/
def writeValues (F : Format K) : List K → List Char
  | [] => []
  | x :: xs => F.fmt x ++ c!" " ++ writeValues F xs

/-- `deserializeEntity`, opm/models/discretization/common/fvbasediscretization.hh:1464-1476: reads into the list of the old values. -/
def readValues (F : Format K) : List K → Stream → Except Err (List K × Stream)
  | [], s => .ok ([], s)
  | x :: xs, s =>
    if Stream.good s then
      let (y, s') := readInto F x s
      match readValues F xs s' with
      | .ok (ys, s'') => .ok (y :: ys, s'')
      | .error e => .error e
    else .error .entity

/-- The loop of `serializeEntities`, opm/models/io/restart.hh:153-156. -/
def writeEntityLines {E : Type} (write : E → List Char) : List E → List Char
  | [] => []
  | e :: es => write e ++ c!"\n" ++ writeEntityLines write es

/-- `serializeEntities`, opm/models/io/restart.hh:139-159. -/
def writeEntities {E : Type} (cookie : List Char) (write : E → List Char) (es : List E) : List Char :=
  sectionBegin cookie ++ writeEntityLines write es ++ sectionEnd

/-- The loop of `deserializeEntities`, opm/models/io/restart.hh:249-257. -/
def readEntityLines {E : Type} (read : E → Stream → Except Err E) : List E → Stream → Except Err (List E × Stream)
  | [], s => .ok ([], s)
  | e :: es, s =>
    if Stream.good s then
      let (line, s') := getline s
      match read e ⟨line, false, false⟩ with
      | .error x => .error x
      | .ok e' =>
        match readEntityLines read es s' with
        | .error x => .error x
        | .ok (es', s'') => .ok (e' :: es', s'')
    else .error .corrupted

/-- `deserializeEntities`, opm/models/io/restart.hh:235-259. -/
def readEntities {E : Type} (cookie : List Char) (read : E → Stream → Except Err E) (old : List E) (s : Stream) :
    Except Err (List E × Stream) := do
  let s ← readSectionBegin cookie s
  let (es, s) ← readEntityLines read old s
  let s ← readSectionEnd s
  .ok (es, s)

/-- The degree of freedom of a plain model is the list of its primary variables. -/
def readDof (F : Format K) (old : List K) (s : Stream) : Except Err (List K) :=
  match readValues F old s with
  | .ok (ys, _) => .ok ys
  | .error e => .error e

/-! ### whole files -/

/-- A restart file of a plain model: `Simulator::serialize`, opm/models/utils/simulator.hh:906-920, with `serializeBegin`
(opm/models/io/restart.hh:102-116) and a problem which saves nothing. -/
def writeFile (FI : Format ℤ) (FK : Format K) (magic cookie : List Char) (c : Clock K) (dofs : List (List K)) : List Char :=
  sectionBegin magic ++ sectionEnd ++ writeClock FI FK c ++ writeEntities cookie (writeValues FK) dofs

/-- Reading it: `run`, opm/models/utils/simulator.hh:655-666 with `deserializeBegin` (opm/models/io/restart.hh:172-194). -/
def readFile (FI : Format ℤ) (FK : Format K) (magic cookie : List Char) (oldClock : Clock K) (old : List (List K))
    (file : Option (List Char)) : Except Err (Clock K × List (List K)) :=
  match file with
  | none => .error .file
  | some cs =>
    if cs.isEmpty then .error .file
    else do
      let s ← readSectionBegin magic ⟨cs, false, false⟩
      let s ← readSectionEnd s
      let (c, s) ← readClock FI FK oldClock s
      let (es, _) ← readEntities cookie (readDof FK) old s
      .ok (c, es)

/-! ### degrees of freedom of the black-oil model -/

/-- Primary variables of the black-oil model: the values and their meanings (opm/models/blackoil/blackoilprimaryvariables.hh). -/
structure BoDof (K : Type) where
  vals : List K
  gas : ℤ
  water : ℤ
  pressure : ℤ
  pvtRegion : ℤ
  brine : ℤ        -- not saved
  solvent : ℤ      -- not saved
  deriving DecidableEq

/-- The values written by the extension modules: solvent saturation, z-fraction, polymer concentration and molecular
weight, temperature (opm/models/blackoil/blackoilsolventmodules.hh:582-590, opm/models/blackoil/blackoilextbomodules.hh:451-459,
opm/models/blackoil/blackoilpolymermodules.hh:576-584, opm/models/blackoil/blackoilenergymodules.hh:299-306).  `extra` are the indices of the primary variables
of the enabled modules, in this order.  There is nothing between the numbers. -/
def writeExtras (F : Format K) (vals : List K) : List ℕ → List Char
  | [] => []
  | i :: is => (match vals[i]? with | some x => F.fmt x | none => []) ++ writeExtras F vals is

/-- `BlackOilModel::serializeEntity`, opm/models/blackoil/blackoilmodel.hh:468-492. -/
def writeBo (FI : Format ℤ) (FK : Format K) (extra : List ℕ) (d : BoDof K) : List Char :=
  writeValues FK d.vals ++ writeValues FI [d.gas, d.water, d.pressure, d.pvtRegion] ++ writeExtras FK d.vals extra

/-- The modules read their values back into the primary variables (e.g. opm/models/blackoil/blackoilpolymermodules.hh:587-600). -/
def readExtras (F : Format K) : List ℕ → List K → Stream → List K
  | [], vals, _ => vals
  | i :: is, vals, s =>
    match vals[i]? with
    | some x => let (y, s') := readInto F x s; readExtras F is (vals.set i y) s'
    | none => readExtras F is vals s

/-- `BlackOilModel::deserializeEntity`, opm/models/blackoil/blackoilmodel.hh:502-546.  The solution of the previous time level, which the
modules also set, is overwritten by opm/models/discretization/ecfv/ecfvdiscretization.hh:226. -/
def readBo (FI : Format ℤ) (FK : Format K) (extra : List ℕ) (old : BoDof K) (s : Stream) : Except Err (BoDof K) :=
  match readValues FK old.vals s with
  | .error e => .error e
  | .ok (vals, s) =>
    let (g, s) := readInto FI 0 s
    let (w, s) := readInto FI 0 s
    let (p, s) := readInto FI 0 s
    let (r, s) := readInto FI 0 s
    if Stream.good s then
      .ok { old with vals := readExtras FK extra vals s, gas := g, water := w, pressure := p, pvtRegion := r }
    else .error .entity

end Verif.Restart
