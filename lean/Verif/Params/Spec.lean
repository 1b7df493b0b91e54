import Verif.Params.Model

set_option autoImplicit false
/-
Vocabulary in which the properties of the parameter system are stated.  Nothing in here refers to the parsing
functions of the model.
-/
namespace Verif.Params

/-- A piece of an option name between dashes: a letter followed by letters and digits. -/
def IsSegment (s : Str) : Prop :=
  ∃ c cs, s = c :: cs ∧ c.isAlpha = true ∧ ∀ x ∈ cs, x.isAlphanum = true

/-- First character in upper case. -/
def capitalize : Str → Str
  | [] => []
  | c :: cs => c.toUpper :: cs

/-- The option spelling `raw` (`my-opt`) denotes the parameter `name` (`MyOpt`): non-empty segments separated
by single dashes, each segment capitalised. -/
def Denotes (raw name : Str) : Prop :=
  ∃ (seg : Str) (segs : List Str), IsSegment seg ∧ (∀ s ∈ segs, IsSegment s) ∧
    raw = seg ++ segs.flatMap (fun s => '-' :: s) ∧
    name = capitalize seg ++ segs.flatMap capitalize

/-- The command line argument `arg` is `--raw=value`, and `raw` denotes `name`. -/
def IsOption (arg : Str) (kv : Str × Str) : Prop :=
  ∃ raw, Denotes raw kv.1 ∧ arg = '-' :: '-' :: raw ++ '=' :: kv.2

/-- Parameter names as the simulators use them: CamelCase, an upper-case letter followed by letters and
digits. -/
def IsParamName (s : Str) : Prop :=
  ∃ c cs, s = c :: cs ∧ c.isUpper = true ∧ ∀ x ∈ cs, x.isAlphanum = true

/-- Writing one character inside of double quotes. -/
def escapeChar (c : Char) : Str :=
  if c = '\n' then ['\\', 'n'] else if c = '\r' then ['\\', 'r'] else if c = '\t' then ['\\', 't']
  else if c = '"' then ['\\', '"'] else if c = '\\' then ['\\', '\\'] else [c]

/-- Writing a text as a quoted value. -/
def quote (s : Str) : Str := '"' :: s.flatMap escapeChar ++ ['"']

/-- All characters are blanks. -/
def Blank (s : Str) : Prop := ∀ c ∈ s, isSpace c = true

/-- Nothing but an optional comment. -/
def Trailing (s : Str) : Prop := ∃ ws rest, Blank ws ∧ s = ws ++ rest ∧
  (rest = [] ∨ ∃ c r, rest = c :: r ∧ (c = '#' ∨ c = ';'))

/-- A value without quotes: non-empty, no blanks, and not the start of a quoted value or of a comment. -/
def IsBareValue (v : Str) : Prop :=
  (∀ c ∈ v, isSpace c = false) ∧ ∃ c cs, v = c :: cs ∧ c ≠ '"' ∧ c ≠ '#' ∧ c ≠ ';'

/-- The documented syntax of a parameter line, `key = value`, with blanks around, and optionally followed by
a comment: `key` denotes `name`. -/
inductive IsAssignment : Str → Str → Str → Prop where
  | bare {ws0 raw name ws1 ws2 v tail : Str} :
      Blank ws0 → Denotes raw name → Blank ws1 → Blank ws2 → IsBareValue v →
      (tail = [] ∨ ∃ c r, tail = c :: r ∧ isSpace c = true ∧ Trailing tail) →
      IsAssignment (ws0 ++ raw ++ ws1 ++ '=' :: ws2 ++ v ++ tail) name v
  | quoted {ws0 raw name ws1 ws2 v tail : Str} :
      Blank ws0 → Denotes raw name → Blank ws1 → Blank ws2 → Trailing tail →
      IsAssignment (ws0 ++ raw ++ ws1 ++ '=' :: ws2 ++ quote v ++ tail) name v

/-- A line which carries no assignment: blank, or a comment. -/
def IsIgnored (line : Str) : Prop := Trailing line

/-- A file of well-formed lines: the list of assignments it contains, in order. -/
inductive FileAssigns : List Str → List (Str × Str) → Prop where
  | nil : FileAssigns [] []
  | ignored {line rest kvs} : IsIgnored line → FileAssigns rest kvs → FileAssigns (line :: rest) kvs
  | assign {line name v rest kvs} : IsAssignment line name v → FileAssigns rest kvs →
      FileAssigns (line :: rest) ((name, v) :: kvs)

/-- The characters of a text which are not blanks, in order. -/
def visible (s : Str) : Str := s.filter (fun c => !isSpace c)

/-- The value that the documentation promises for a parameter: command line first, then the parameter file,
then the default. -/
def precedence (cmdLine file : Str → Option Str) (default : Str) (name : Str) : Str :=
  match cmdLine name with
  | some v => v
  | none => match file name with
    | some v => v
    | none => default

/-- `kvs` as a partial function (used for lists in which no key occurs twice). -/
def assigned (kvs : List (Str × Str)) (name : Str) : Option Str :=
  (kvs.find? (fun kv => kv.1 == name)).map Prod.snd

/-! Histories of registration calls -/

/-- A call that changes the registry. -/
inductive RegOp where
  | register (name : Str) (info : ParamInfo)
  | setDefault (name : Str) (value : Str)
  | hide (name : Str)
  | endRegistration
  deriving DecidableEq

/-- Is this call the registration of `name`? -/
def RegOp.registers (name : Str) : RegOp → Option ParamInfo
  | .register n i => if n = name then some i else none
  | _ => none

/-- Is this call an override of the default of `name`? -/
def RegOp.overrides (name : Str) : RegOp → Option Str
  | .setDefault n v => if n = name then some v else none
  | _ => none

/-- The first registration of `name` before registration was closed. -/
def firstRegistration (hist : List RegOp) (name : Str) : Option ParamInfo :=
  (hist.takeWhile (fun op => op ≠ .endRegistration)).findSome? (RegOp.registers name)

/-- The most recent override of the default of `name` since it was first registered. -/
def lastOverride (hist : List RegOp) (name : Str) : Option Str :=
  ((hist.dropWhile (fun op => (op.registers name).isNone)).reverse).findSome? (RegOp.overrides name)

/-- The default value in force after a history of calls (`none`: not a known parameter). -/
def defaultAfter (hist : List RegOp) (name : Str) : Option Str :=
  match firstRegistration hist name with
  | none => none
  | some info => some ((lastOverride hist name).getD info.default)

/-- One call of a history, by the model's functions. -/
def applyOp (s : Store) : RegOp → Option Err × Store
  | .register n i => s.register n i
  | .setDefault n v => s.setDefault n v
  | .hide n => s.hide n
  | .endRegistration => s.endRegistration

/-- The store after a history of calls that started with an empty store (errors are caught by the caller). -/
def runOps (hist : List RegOp) : Store := hist.foldl (fun s op => (applyOp s op).2) Store.init

end Verif.Params
