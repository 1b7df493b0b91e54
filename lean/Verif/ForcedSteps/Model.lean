import Mathlib.Data.List.Basic

set_option autoImplicit false
/-
Model of reading the file of predetermined time steps, `/repo/opm/models/utils/simulator.hh`:136-143.

    std::ifstream is(predetTimeStepFile);
    while (!is.eof()) { Scalar dt; is >> dt; forcedTimeSteps_.push_back(dt); }

The standard stream is modelled by its unread characters and its state bits.  How the characters of a number are
converted is a parameter (`conv`, `none` if they are not a number).
-/
namespace Verif.ForcedSteps

/-- An input stream: `std::ifstream`. -/
structure Stream where
  rest : List Char
  eof : Bool
  fail : Bool
  deriving DecidableEq

/-- `std::isspace` in the default locale. -/
def blank (c : Char) : Bool := c == ' ' || c == '\n' || c == '\t' || c == '\r' || c == '\x0b' || c == '\x0c'

/-- Opening a file; `none` stands for a file which does not exist. -/
def openFile : Option (List Char) → Stream
  | none => ⟨[], false, true⟩
  | some cs => ⟨cs, false, false⟩

variable {K : Type}

/-- `is >> dt` for a floating point number.  The result is `none` if `dt` is left uninitialised: the stream was not
good, or only blanks were left.  Characters are accumulated as long as they can be part of a number (`numChar`); if
this consumes everything, the end-of-file bit is set.  If the conversion fails, zero is stored, the failure bit is
set, and (libstdc++) the offending characters stay consumed. -/
def extract (numChar : Char → Bool) (conv : List Char → Option K) (zero : K) (s : Stream) : Option K × Stream :=
  if s.eof || s.fail then (none, { s with fail := true })
  else
    let r := s.rest.dropWhile blank
    if r.isEmpty then (none, ⟨[], true, true⟩)
    else
      let tok := r.takeWhile numChar
      let r' := r.dropWhile numChar
      match conv tok with
      | some x => (some x, ⟨r', r'.isEmpty, false⟩)
      | none => (some zero, ⟨r', r'.isEmpty, true⟩)

/-- State of the loop: the stream and the values appended so far. -/
abbrev LoopState (K : Type) := Stream × List (Option K)

/-- One pass of the loop, opm/models/utils/simulator.hh:138-142. -/
def pass (numChar : Char → Bool) (conv : List Char → Option K) (zero : K) (st : LoopState K) : LoopState K :=
  let (x, s) := extract numChar conv zero st.1
  (s, st.2 ++ [x])

/-- The loop stops when the end-of-file bit is set: the result of at most `n` passes, `none` if the loop has not
stopped. -/
def readLoop (numChar : Char → Bool) (conv : List Char → Option K) (zero : K) : ℕ → LoopState K → Option (List (Option K))
  | 0, st => if st.1.eof then some st.2 else none
  | n + 1, st => if st.1.eof then some st.2 else readLoop numChar conv zero n (pass numChar conv zero st)

/-- `forcedTimeSteps_` after at most `n` passes through the loop. -/
def readFile (numChar : Char → Bool) (conv : List Char → Option K) (zero : K) (n : ℕ) (f : Option (List Char)) :
    Option (List (Option K)) :=
  readLoop numChar conv zero n (openFile f, [])

end Verif.ForcedSteps
