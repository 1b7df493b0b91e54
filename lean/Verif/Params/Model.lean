import Verif.Util.Chars

set_option autoImplicit false
/-
Model of the run-time parameter system, `/repo/opm/models/utils/parametersystem.hh`, and of the
parameter-handling part of `/repo/opm/models/utils/start.hh`.

Strings are lists of characters.  Character classification (`isspace`, `isalpha`, …) is that of the "C"
locale; characters outside ASCII are classified as "none of these" (in C++ the behaviour is undefined for
negative `char` values).  Values are modelled as text: the conversion of the text to `int`, `double`, …
(Dune's `ParameterTree::get<T>`, `std::from_chars`) is not part of this model.
-/

namespace Verif.Params
open Verif

abbrev Str := List Char

/-- Reasons for an exception or for an error message. -/
inductive Err where
  | emptyName | firstNotLetter | invalidName
  | expectedQuote | endOfQuoted | unknownEscape | outOfRange
  | seenTwice | missingValue | illegalParameter
  | registrationClosed | registrationOpen | notRegistered | mismatch | alreadyClosed
  deriving DecidableEq, Repr

/-- `std::isspace` in the "C" locale. -/
def isSpace (c : Char) : Bool :=
  c == ' ' || c == '\t' || c == '\n' || c == '\x0b' || c == '\x0c' || c == '\r'

/-- `removeLeadingSpace_`, opm/models/utils/parametersystem.hh:466-473. -/
def removeLeadingSpace (s : Str) : Str := s.dropWhile isSpace

/-- The loop of `transformKey_` behind the first character, opm/models/utils/parametersystem.hh:492-503. -/
def transformTail : Str → Except Err Str
  | [] => .ok []
  | c :: rest =>
    if c = '-' then
      match rest with
      | [] => .error .invalidName
      | d :: rest' =>
        if d.isAlpha then
          match transformTail rest' with
          | .ok r => .ok (d.toUpper :: r)
          | .error e => .error e
        else .error .invalidName
    else if c.isAlphanum then
      match transformTail rest with
      | .ok r => .ok (c :: r)
      | .error e => .error e
    else .error .invalidName

/-- `transformKey_` with `capitalizeFirstLetter = true` (the only way it is called),
opm/models/utils/parametersystem.hh:475-506. -/
def transformKey : Str → Except Err Str
  | [] => .error .emptyName
  | c :: rest =>
    if c.isAlpha then
      match transformTail rest with
      | .ok r => .ok (c.toUpper :: r)
      | .error e => .error e
    else .error .firstNotLetter

/-- The character at which `parseKey_` stops, opm/models/utils/parametersystem.hh:512. -/
def stopsKey (c : Char) : Bool := isSpace c || c == '='

/-- `parseKey_`, opm/models/utils/parametersystem.hh:508-518: (key, rest of the line). -/
def parseKey (s : Str) : Str × Str :=
  (s.takeWhile (fun c => !stopsKey c), s.dropWhile (fun c => !stopsKey c))

/-- The loop of `parseQuotedValue_` behind the opening quote, opm/models/utils/parametersystem.hh:528-555.  The end of the
string without a closing quote makes `s.substr(i+1)` throw `std::out_of_range` (line 554). -/
def parseQuotedTail : Str → Except Err (Str × Str)
  | [] => .error .outOfRange
  | '\\' :: [] => .error .endOfQuoted
  | '\\' :: e :: rest =>
    let decoded : Option Char :=
      if e = 'n' then some '\n'
      else if e = 'r' then some '\r'
      else if e = 't' then some '\t'
      else if e = '"' then some '"'
      else if e = '\\' then some '\\'
      else none
    match decoded with
    | none => .error .unknownEscape
    | some d =>
      match parseQuotedTail rest with
      | .ok (v, r) => .ok (d :: v, r)
      | .error er => .error er
  | c :: rest =>
    if c = '"' then .ok ([], rest)
    else
      match parseQuotedTail rest with
      | .ok (v, r) => .ok (c :: v, r)
      | .error er => .error er

/-- `parseQuotedValue_`, opm/models/utils/parametersystem.hh:521-556: (value, rest of the line). -/
def parseQuotedValue : Str → Except Err (Str × Str)
  | '"' :: rest => parseQuotedTail rest
  | _ => .error .expectedQuote

/-- `parseUnquotedValue_`, opm/models/utils/parametersystem.hh:558-568. -/
def parseUnquotedValue (s : Str) : Str × Str :=
  (s.takeWhile (fun c => !isSpace c), s.dropWhile (fun c => !isSpace c))

/-- The value part of a parameter line, opm/models/utils/parametersystem.hh:734-738 (`curLine[0]` of an empty string is the
terminating zero). -/
def parseValue (s : Str) : Except Err Str :=
  if s.head? = some '"' then
    match parseQuotedValue s with
    | .ok (v, _) => .ok v
    | .error e => .error e
  else .ok (parseUnquotedValue s).1

/-- A `std::map<std::string, α>`: association list, at most one entry per key is ever visible. -/
abbrev Dict (α : Type) := List (Str × α)

/-- `map.find(key)`. -/
def Dict.get {α : Type} (d : Dict α) (k : Str) : Option α :=
  match d with
  | [] => none
  | (k', v) :: rest => if k' = k then some v else Dict.get rest k

/-- `map[key] = value`: replaces an existing entry in place, appends otherwise. -/
def Dict.set {α : Type} (d : Dict α) (k : Str) (v : α) : Dict α :=
  match d with
  | [] => [(k, v)]
  | (k', v') :: rest => if k' = k then (k', v) :: rest else (k', v') :: Dict.set rest k v

/-- One line of a parameter file, opm/models/utils/parametersystem.hh:705-743: `none` for blank and comment lines, otherwise
the canonical key and the value.

The three `std::runtime_error(...)` objects at lines 724-725, 730-731 and 742-743 are constructed but NOT
thrown, so they have no effect; `curLine.substr(1)` (line 727) throws `std::out_of_range` on an empty rest. -/
def parseLine (line : Str) : Except Err (Option (Str × Str)) :=
  let l := removeLeadingSpace line
  match l with
  | [] => .ok none
  | c :: _ =>
    if c = '#' || c = ';' then .ok none
    else
      let (key, rest) := parseKey l
      match transformKey key with
      | .error e => .error e
      | .ok canonical =>
        -- lines 723-725: no check is performed
        match removeLeadingSpace rest with
        | [] => .error .outOfRange
        | _ :: rest1 =>
          -- lines 727-731: no check is performed
          match parseValue (removeLeadingSpace rest1) with
          | .ok v => .ok (some (canonical, v))
          | .error e => .error e

/-- The loop of `parseParameterFile`, opm/models/utils/parametersystem.hh:698-749, over the lines of the file.  Returns the
parameter tree and the error which ended the loop early, if any (the entries stored before stay). -/
def parseLines (overwrite : Bool) : List Str → List Str → Dict Str → Option Err × Dict Str
  | [], _, tree => (none, tree)
  | line :: rest, seen, tree =>
    match parseLine line with
    | .error e => (some e, tree)
    | .ok none => parseLines overwrite rest seen tree
    | .ok (some (key, value)) =>
      if key ∈ seen then (some .seenTwice, tree)
      else
        let tree' := if overwrite || (tree.get key).isNone then tree.set key value else tree
        parseLines overwrite rest (key :: seen) tree'

/-- `parseParameterFile`, opm/models/utils/parametersystem.hh:693-750.  The order in which the code checks `transformKey_` /
duplicate / value differs slightly (a duplicate key with a broken value reports the duplicate); both are
errors. -/
def parseParameterFile (overwrite : Bool) (lines : List Str) (tree : Dict Str) : Option Err × Dict Str :=
  parseLines overwrite lines [] tree

/-- Result of parsing the command line. -/
inductive CmdStatus where
  | ok                 -- returns ""
  | help               -- returns "Help called"
  | message (e : Err)  -- returns a non-empty error message
  | thrown (e : Err)   -- leaves with an exception (`transformKey_`)
  deriving DecidableEq, Repr

/-- The main loop of `parseCommandLineOptions`, opm/models/utils/parametersystem.hh:609-684, with the default callback
`noPositionalParameters_` (452-461), which rejects every positional argument. -/
def parseArgs : List Str → List Str → Dict Str → CmdStatus × Dict Str
  | [], _, tree => (.ok, tree)
  | arg :: rest, seen, tree =>
    match arg with
    | '-' :: '-' :: s =>
      if s.length < 2 then (.message .illegalParameter, tree)      -- strlen(argv[i]) < 4
      else
        match s with
        | [] => (.message .illegalParameter, tree)
        | c :: _ =>
          if !c.isAlpha then (.message .firstNotLetter, tree)        -- line 641
          else
            let (key, s') := parseKey s
            match transformKey key with
            | .error e => (.thrown e, tree)
            | .ok name =>
              if name ∈ seen then (.message .seenTwice, tree)
              else
                match s' with
                | '=' :: value => parseArgs rest (name :: seen) (tree.set name value)
                | _ => (.message .missingValue, tree)
    | _ => (.message .illegalParameter, tree)

/-- `parseCommandLineOptions`, opm/models/utils/parametersystem.hh:587-685, `handleHelp` iff the help preamble is non-empty.
`args` are the arguments without the program name. -/
def parseCommandLine (handleHelp : Bool) (args : List Str) (tree : Dict Str) : CmdStatus × Dict Str :=
  if handleHelp && args.any (fun a => a == c!"-h" || a == c!"--help" || a == c!"--help-all")
  then (.help, tree)
  else parseArgs args [] tree

/-- The command line option that `printParamUsage_` prints for a CamelCase name,
opm/models/utils/parametersystem.hh:294-300. -/
def optionName (name : Str) : Str :=
  '-' :: name.flatMap (fun c => if c.isUpper then ['-', c.toLower] else [c.toLower])

/-- `ParamInfo`, opm/models/utils/parametersystem.hh:88-104 (`typeTagName` is never set). -/
structure ParamInfo where
  typeName : Str
  usage : Str
  default : Str
  hidden : Bool := false
  deriving DecidableEq, Repr

/-- `ParamInfo::operator==`, opm/models/utils/parametersystem.hh:97-103; the names agree because both are looked up under the
same name. -/
def ParamInfo.same (a b : ParamInfo) : Bool := a.typeName == b.typeName && a.usage == b.usage

/-- `MetaData::Storage_`, opm/models/utils/parametersystem.hh:193-205.  The list of registration finalizers only holds the
names of the parameters which `endRegistration` retrieves. -/
structure Store where
  tree : Dict Str
  registry : Dict ParamInfo
  finalizers : List Str
  isOpen : Bool
  deriving DecidableEq, Repr

/-- `MetaData::clear`, opm/models/utils/parametersystem.hh:180-186. -/
def Store.init : Store := { tree := [], registry := [], finalizers := [], isOpen := true }

/-- `Register`, opm/models/utils/parametersystem.hh:984-1018. -/
def Store.register (s : Store) (name : Str) (info : ParamInfo) : Option Err × Store :=
  if !s.isOpen then (some .registrationClosed, s)
  else
    let s1 := { s with finalizers := s.finalizers ++ [name] }
    match s1.registry.get name with
    | some old => if old.same info then (none, s1) else (some .mismatch, s1)
    | none => (none, { s1 with registry := s1.registry.set name { info with hidden := false } })

/-- `SetDefault`, opm/models/utils/parametersystem.hh:891-901.  `v` is the text `oss << new_value`. -/
def Store.setDefault (s : Store) (name : Str) (v : Str) : Option Err × Store :=
  match s.registry.get name with
  | none => (some .notRegistered, s)
  | some info => (none, { s with registry := s.registry.set name { info with default := v } })

/-- `Hide`, opm/models/utils/parametersystem.hh:1027-1043. -/
def Store.hide (s : Store) (name : Str) : Option Err × Store :=
  if !s.isOpen then (some .registrationClosed, s)
  else match s.registry.get name with
    | none => (some .notRegistered, s)
    | some info => (none, { s with registry := s.registry.set name { info with hidden := true } })

/-- `Get(errorIfNotRegistered = true)`, opm/models/utils/parametersystem.hh:840-888, as the text from which the value is
converted. -/
def Store.get (s : Store) (name : Str) : Except Err Str :=
  if s.isOpen then .error .registrationOpen
  else match s.registry.get name with
    | none => .error .notRegistered
    | some info => .ok ((s.tree.get name).getD info.default)

/-- `Get(errorIfNotRegistered = false)`, opm/models/utils/parametersystem.hh:840-888: no check, and `mutableRegistry()[name]`
inserts an empty entry for an unknown name (line 859). -/
def Store.getUnchecked (s : Store) (name : Str) : Str × Store :=
  match s.registry.get name with
  | some info => ((s.tree.get name).getD info.default, s)
  | none =>
    ((s.tree.get name).getD [],
      { s with registry := s.registry.set name { typeName := [], usage := [], default := [] } })

/-- `IsSet(errorIfNotRegistered = true)`, opm/models/utils/parametersystem.hh:948-965. -/
def Store.isSet (s : Store) (name : Str) : Except Err Bool :=
  if s.isOpen then .error .registrationOpen
  else match s.registry.get name with
    | none => .error .notRegistered
    | some _ => .ok (s.tree.get name).isSome

/-- `endRegistration`, opm/models/utils/parametersystem.hh:1052-1067.  The retrieval of every registered parameter (1063-1065)
can only fail if the text of a value does not convert, which is outside this model. -/
def Store.endRegistration (s : Store) : Option Err × Store :=
  if !s.isOpen then (some .alreadyClosed, s)
  else (none, { s with isOpen := false, finalizers := [] })

/-- `getLists`, opm/models/utils/parametersystem.hh:910-934: the keys given at run time which nobody registered. -/
def Store.unusedKeys (s : Store) : List Str :=
  (s.tree.map Prod.fst).filter (fun k => (s.registry.get k).isNone)

/-- The name of the parameter which names the parameter file, opm/models/utils/start.hh:81,150. -/
def parameterFileKey : Str := c!"ParameterFile"

/-- Exit status of `setupParameters_`, opm/models/utils/start.hh:105-204. -/
inductive SetupStatus where
  | ok | help | failed | thrown (e : Err)
  deriving DecidableEq, Repr

/-- `setupParameters_`, opm/models/utils/start.hh:105-204, after registration (`registerParams` was handled before).  `files`
maps a file name to its lines, `none` if it cannot be opened. -/
def setupParameters (allowUnused handleHelp : Bool) (args : List Str) (files : Str → Option (List Str))
    (s : Store) : SetupStatus × Store :=
  match parseCommandLine handleHelp args s.tree with
  | (.help, t) => (.help, { s with tree := t })
  | (.message _, t) => (.failed, { s with tree := t })
  | (.thrown e, t) => (.thrown e, { s with tree := t })
  | (.ok, t) =>
    let (fileName, s1) := Store.getUnchecked { s with tree := t } parameterFileKey
    let afterFile : SetupStatus × Store :=
      if fileName = [] then (.ok, s1)
      else match files fileName with
        | none => (.failed, s1)
        | some lines =>
          match parseParameterFile false lines s1.tree with
          | (some e, t') => (.thrown e, { s1 with tree := t' })
          | (none, t') => (.ok, { s1 with tree := t' })
    match afterFile with
    | (.ok, s2) =>
      -- getLists throws while registration is open (line 915)
      if s2.isOpen then (.thrown .registrationOpen, s2)
      else if !allowUnused && !s2.unusedKeys.isEmpty then (.failed, s2)
      else (.ok, s2)
    | r => r

/-- What `start` ends with. -/
inductive StartOutcome where
  | exit (code : Nat)   -- returns without running the simulator
  | runs                -- constructs the simulator and calls run()
  deriving DecidableEq, Repr

/-- The numeric status which `setupParameters_` returns (opm/models/utils/start.hh:136-148, 166, 200, 203). -/
def SetupStatus.code : SetupStatus → Int
  | .ok => 0
  | .help => -1
  | .failed => 1
  | .thrown _ => 1   -- not returned: the exception is caught by `start` (line 388), which returns 1

/-- `start`, opm/models/utils/start.hh:277-410, for a problem for which the values of `EndTime` and `InitialTimeStepSize`
were specified (`endTimeSet`, `dtSet`: not below -1e50).  Exceptions make `start` return 1 (line 397). -/
def start (setup : SetupStatus) (endTimeSet dtSet : Bool) : StartOutcome :=
  match setup with
  | .thrown _ => .exit 1
  | st =>
    if st.code = 1 then .exit 1
    else if st.code = 2 then .exit 0
    else if !endTimeSet then .exit 1
    else if !dtSet then .exit 1
    else .runs

/-- One round of the loop of `breakLines_`, opm/models/utils/parametersystem.hh:229-262.  State of the loop variables; `ttyPos`
is shifted by one (`tty1 = ttyPos + 1`) so that -1 need not be represented. -/
structure BreakState where
  result : Str
  start : Nat
  pos : Nat
  lastBreak : Nat
  tty : Nat
  deriving DecidableEq, Repr

/-- Result of `std::string::substr(pos, n)`; throws for `pos > size`. -/
def substr (s : Str) (pos n : Nat) : Option Str :=
  if pos ≤ s.length then some ((s.drop pos).take n) else none

/-- The loop body including the increments `++inPos, ++ttyPos`, for `pos < msg.size()`,
opm/models/utils/parametersystem.hh:229-262.  The inserted indentation consists of blanks (257-259).  `none` stands for the
`std::out_of_range` exception of `substr`. -/
def breakStep (msg : Str) (indent width : Nat) (st : BreakState) (c : Char) : Option BreakState :=
  if c = '\n' then
    match substr msg st.start (st.pos - st.start + 1) with
    | none => none
    | some piece =>
      -- ttyPos = -1, then ++ttyPos: 0
      some { result := st.result ++ piece, start := st.pos + 1, pos := st.pos + 1,
             lastBreak := st.pos + 2, tty := 0 }
  else
    let lastBreak := if isSpace c then st.pos else st.lastBreak
    if width ≤ st.tty then
      let pad : Str := '\n' :: List.replicate indent ' '
      if st.start < lastBreak then
        match substr msg st.start (lastBreak - st.start) with
        | none => none
        | some piece =>
          some { result := st.result ++ piece ++ pad, start := lastBreak + 1, pos := lastBreak + 1 + 1,
                 lastBreak := lastBreak + 1, tty := indent + 1 }
      else
        match substr msg st.start (st.pos - st.start) with
        | none => none
        | some piece =>
          some { result := st.result ++ piece ++ pad, start := st.pos, pos := st.pos + 1,
                 lastBreak := st.pos, tty := indent + 1 }
    else some { st with pos := st.pos + 1, lastBreak := lastBreak, tty := st.tty + 1 }

/-- The whole loop with a bound on the number of rounds (`breakRounds` below is always enough). -/
def breakLoop (msg : Str) (indent width : Nat) : Nat → BreakState → Option BreakState
  | 0, st => some st
  | fuel + 1, st =>
    match msg[st.pos]? with
    | none => some st
    | some c =>
      match breakStep msg indent width st c with
      | none => none
      | some st' => breakLoop msg indent width fuel st'

/-- Number of rounds after which the loop has certainly ended (see `breakLoop_done`). -/
def breakRounds (msg : Str) : Nat := (msg.length + 2) * (msg.length + 2)

/-- `breakLines_`, opm/models/utils/parametersystem.hh:220-267; `none` if `substr` throws. -/
def breakLines (msg : Str) (indent width : Nat) : Option Str :=
  match breakLoop msg indent width (breakRounds msg) ⟨[], 0, 0, 0, 0⟩ with
  | none => none
  | some st =>
    match substr msg st.start msg.length with
    | none => none
    | some piece => some (st.result ++ piece)

/-- `printParamList_`, opm/models/utils/parametersystem.hh:391-408, for one key: `key="value"`, optionally followed by the
default as a comment. -/
def printParam (key value default : Str) (printDefault : Bool) : Str :=
  key ++ '=' :: '"' :: value ++ '"' ::
    (if printDefault then c!" # default: \"" ++ default ++ ['"'] else [])

end Verif.Params
