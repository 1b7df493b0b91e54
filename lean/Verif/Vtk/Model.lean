import Verif.Restart.IntFormat
import Verif.Restart.Model

set_option autoImplicit false
/-
Model of the writer of visualisation files, `VtkMultiWriter` (opm/models/io/vtkmultiwriter.hh), as it is used by
`FvBaseProblem::writeOutput` (opm/models/discretization/common/fvbaseproblem.hh lines 783-801).

The writer is a state machine of two threads: the main thread, which executes a list of outputs and destroys the writer, and the
worker of the tasklet runner (opm/models/parallel/tasklets.hh), which writes the data if output is asynchronous.  That `barrier`
returns only when the dispatched tasklet has run, and that without worker `dispatch` runs it at once, are C23 and C26.

The meta file is an output file stream: what is written goes to a buffer, which is written to the disk when the stream is
repositioned, flushed or closed.  Simplifications: the buffer (8191 characters in libstdc++) is never full; opening and writing
files succeeds; writing the data file and its entry in the meta file is one step; attaching data is not a step of its own
(buffers are referred to, not copied: the worker writes what they contain when it runs).
-/
namespace Verif.Vtk

open ForcedSteps Restart

/-- A call of `writeOutput`: the time, the contents of the fields, and whether the output is discarded (`endWrite(true)`). -/
structure Output (K D : Type) where
  time : K
  fields : D
  discard : Bool
  deriving DecidableEq

/-- How the writer has been constructed: on which process, whether asynchronous, the name of the simulation; how times are printed,
and the name (without directory) of the file which the Dune writer creates for a given name. -/
structure Config (K : Type) where
  rank : ℕ
  async : Bool
  simName : List Char
  fmtTime : K → List Char
  fileOf : List Char → List Char

/-- Where the main thread is. -/
inductive Pc (K D : Type) where
  | idle                          -- between two calls
  | barrier (e : Output K D)      -- in `beginWrite`, line 187
  | fill (e : Output K D)         -- `beginWrite` has returned; `prepareOutputFields`, `appendOutputFields`
  | finalize (e : Output K D)     -- at the begin of `endWrite`
  | tell (e : Output K D)         -- at the begin of `finishMultiFile_`
  | footer (e : Output K D)       -- line 511
  | seek (e : Output K D)         -- line 513
  | destroy                       -- in the destructor, line 144
  | closed                        -- the destructor has returned
  deriving DecidableEq

/-- The writer. `disk` is the contents of the meta file, `buf` what is to be written at `pos`; `mark` is the local variable of
`finishMultiFile_`; `pending`: the tasklet has been dispatched and has not run; `data`: the data files written so far, with
contents; `past`: the outputs which are over (ghost). -/
structure State (K D : Type) where
  todo : List (Output K D)
  past : List (Output K D)
  pc : Pc K D
  isOpen : Bool
  disk : List Char
  buf : List Char
  pos : ℕ
  mark : ℕ
  num : ℕ
  curTime : K
  curName : List Char
  fields : D
  pending : Bool
  data : List (List Char × D)
  deriving DecidableEq

variable {K D : Type}

/-- The constructor, opm/models/io/vtkmultiwriter.hh lines 117-140; times and fields are uninitialised. -/
def init (prog : List (Output K D)) (t : K) (d : D) : State K D :=
  { todo := prog, past := [], pc := .idle, isOpen := false, disk := [], buf := [], pos := 0, mark := 0, num := 0, curTime := t,
    curName := [], fields := d, pending := false, data := [] }

/-- Writing to the stream; nothing happens if it is not open. -/
def emit (cs : List Char) (s : State K D) : State K D := if s.isOpen then { s with buf := s.buf ++ cs } else s

/-- Text written at a position of a file. -/
def overwrite (d : List Char) (p : ℕ) (b : List Char) : List Char := d.take p ++ b ++ d.drop (p + b.length)

/-- `flush`. -/
def flush (s : State K D) : State K D :=
  if s.isOpen then { s with disk := overwrite s.disk s.pos s.buf, pos := s.pos + s.buf.length, buf := [] } else s

/-- `seekp`. -/
def seekp (p : ℕ) (s : State K D) : State K D := if s.isOpen then { flush s with pos := p } else s

/-- What `startMultiFile_` writes, opm/models/io/vtkmultiwriter.hh lines 496-501. -/
def header : List Char :=
  c!"<?xml version=\"1.0\"?>\n<VTKFile type=\"Collection\"\n         version=\"0.1\"\n         byte_order=\"LittleEndian\"\n         compressor=\"vtkZLibDataCompressor\">\n <Collection>\n"

/-- What `finishMultiFile_` writes, opm/models/io/vtkmultiwriter.hh lines 511-512. -/
def closing : List Char := c!" </Collection>\n</VTKFile>\n"

/-- `startMultiFile_`, opm/models/io/vtkmultiwriter.hh lines 490-503: opening truncates the file. -/
def startMultiFile (c : Config K) (s : State K D) : State K D :=
  if c.rank = 0 then emit header { s with isOpen := true, disk := [], buf := [], pos := 0 } else s

/-- A number with at least five digits, `std::setw(5) << std::setfill('0')`. -/
def padded (n : ℕ) : List Char := List.replicate (5 - (dec n n).length) '0' ++ dec n n

/-- `fileName_`, opm/models/io/vtkmultiwriter.hh lines 478-485. -/
def fileName (c : Config K) (n : ℕ) : List Char := c.simName ++ '-' :: padded n

/-- The line of a data set, opm/models/io/vtkmultiwriter.hh lines 93-94. -/
def entry (c : Config K) (t : K) (name : List Char) : List Char :=
  c!"   <DataSet timestep=\"" ++ c.fmtTime t ++ c!"\" file=\"" ++ c.fileOf name ++ c!"\"/>\n"

/-- `WriteDataTasklet::run`, opm/models/io/vtkmultiwriter.hh lines 74-95. -/
def work (c : Config K) (s : State K D) : State K D :=
  emit (entry c s.curTime s.curName) { s with data := s.data ++ [(c.fileOf s.curName, s.fields)], pending := false }

/-- A step of the main thread; `none`: it has to wait, or there is nothing left to do. -/
def mainStep (c : Config K) (s : State K D) : Option (State K D) :=
  match s.pc with
  | .idle =>
    match s.todo with
    | [] => some { s with pc := .destroy }
    | e :: rest => -- `beginWrite`, lines 181-183
      some { (if s.isOpen then s else startMultiFile c s) with todo := rest, pc := .barrier e }
  | .barrier e => -- lines 187-194
    if s.pending then none
    else some { s with curTime := e.time, curName := fileName c s.num, num := s.num + 1, pc := .fill e }
  | .fill e => some { s with fields := e.fields, pc := .finalize e }
  | .finalize e => -- `endWrite`, lines 391-396
    if e.discard then some { s with num := s.num - 1, pc := .tell e }
    else if c.async then some { s with pending := true, pc := .tell e }
    else some { work c s with pc := .tell e }
  | .tell e => -- `finishMultiFile_`, line 510
    some { s with mark := s.pos + s.buf.length, pc := .footer e }
  | .footer e => some { emit closing s with pc := .seek e }
  | .seek e => some { seekp s.mark s with pc := .idle, past := s.past ++ [e] }
  | .destroy => -- lines 144-149
    if s.pending then none
    else some { seekp (s.pos + s.buf.length) (emit closing s) with pc := .closed }
  | .closed => none

/-- A step of the worker. -/
def workerStep (c : Config K) (s : State K D) : Option (State K D) := if s.pending then some (work c s) else none

/-- Which thread does the next step. -/
inductive Thread where
  | main
  | worker
  deriving DecidableEq

/-- A step of a thread. -/
def step (c : Config K) : Thread → State K D → Option (State K D)
  | .main, s => mainStep c s
  | .worker, s => workerStep c s

/-- A schedule. -/
def exec (c : Config K) : State K D → List Thread → Option (State K D)
  | s, [] => some s
  | s, t :: ts => (step c t s).bind fun s' => exec c s' ts

/-! ### restart files -/

/-- `serialize`, opm/models/io/vtkmultiwriter.hh lines 408-436: the text which is written, and the writer afterwards. -/
def serialize (F : Format ℤ) (c : Config K) (s : State K D) : List Char × State K D :=
  let s1 := seekp (s.pos + s.buf.length) s
  let text := if s.isOpen then s1.disk else []
  (sectionBegin c!"VTKMultiWriter" ++ F.fmt s.num ++ c!"\n" ++
    (if c.rank = 0 then
      F.fmt text.length ++ c!"  " ++ F.fmt (if s.isOpen then s.pos + s.buf.length else 0) ++ c!"\n" ++ text
     else []) ++ sectionEnd, s1)

/-- `is.read(tmp, n)`. -/
def readChars (n : ℕ) (s : Stream) : List Char × Stream :=
  if s.eof || s.fail then ([], { s with fail := true })
  else if s.rest.length < n then (s.rest, ⟨[], true, true⟩) else (s.rest.take n, ⟨s.rest.drop n, false, false⟩)

/-- `deserialize`, opm/models/io/vtkmultiwriter.hh lines 442-475. -/
def deserialize (F : Format ℤ) (c : Config K) (s : State K D) (is : Stream) : Except Err (State K D × Stream) := do
  let is ← readSectionBegin c!"VTKMultiWriter" is
  let (n, is) := readInto F s.num is
  if c.rank = 0 then
    let (_, is) := getline is
    let (len, is) := readInto F 0 is
    let (p, is) := readInto F 0 is
    let (_, is) := getline is
    if 0 < len then
      let (text, is) := readChars len.toNat is
      let is ← readSectionEnd is
      .ok ({ s with num := n.toNat, isOpen := true, disk := text, buf := [], pos := p.toNat }, is)
    else
      let is ← readSectionEnd is
      .ok ({ s with num := n.toNat, isOpen := false }, is)
  else
    let (_, is) := getline is
    let is ← readSectionEnd is
    .ok ({ s with num := n.toNat }, is)

end Verif.Vtk
