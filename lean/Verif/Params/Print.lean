import Verif.Params.Model

set_option autoImplicit false
/-
Model of what is printed about parameters: the list of values and of unused parameters, and the help message.  Lines are without the
newline at their end.  The registry is a `std::map`, which is visited in the order of the names; here it is visited in the order of
registration, which changes the order of lines only.
-/
namespace Verif.Params

/-- `getFlattenedKeyList_` and the loop of `printValues`, opm/models/utils/parametersystem.hh lines 371-387 and 760-774: the keys given at
run time which are registered.  Names of parameters contain no dot, so there are no sub-structures. -/
def Store.runTimeKeys (s : Store) : List Str := (s.tree.map Prod.fst).filter fun k => (s.registry.get k).isSome

/-- opm/models/utils/parametersystem.hh lines 776-785: the registered keys which were not given at run time. -/
def Store.compileTimeKeys (s : Store) : List Str := (s.registry.map Prod.fst).filter fun k => (s.tree.get k).isNone

/-- `printParamList_`, opm/models/utils/parametersystem.hh lines 390-407, one key. -/
def Store.valueLine (s : Store) (printDefaults : Bool) (k : Str) : Str :=
  let default := ((s.registry.get k).map ParamInfo.default).getD []
  printParam k ((s.tree.get k).getD default) default printDefaults

/-- The line of a key nobody registered, opm/models/utils/parametersystem.hh lines 799-801 and 831-834. -/
def Store.unusedLine (s : Store) (k : Str) : Str := printParam k ((s.tree.get k).getD []) [] false

/-- `printValues`, opm/models/utils/parametersystem.hh lines 758-803. -/
def Store.printValues (s : Store) : List Str :=
  (if 0 < s.runTimeKeys.length then
    c!"# [known parameters which were specified at run-time]" :: s.runTimeKeys.map (s.valueLine true) else []) ++
  ((if 0 < s.compileTimeKeys.length then
    c!"# [parameters which were specified at compile-time]" :: s.compileTimeKeys.map (s.valueLine false) else []) ++
  (if 0 < s.unusedKeys.length then
    c!"# [unused run-time specified parameters]" :: s.unusedKeys.map s.unusedLine else []))

/-- `printUnused`, opm/models/utils/parametersystem.hh lines 815-837: whether something was printed, and what. -/
def Store.printUnused (s : Store) : Bool × List Str :=
  if 0 < s.unusedKeys.length then (true, c!"# [unused run-time specified parameters]" :: s.unusedKeys.map s.unusedLine)
  else (false, [])

/-- What `start` prints about parameters on the first process, opm/models/utils/start.hh lines 353-374; `n` is the value of
`PrintParameters`, `tty` tells whether the standard output is a terminal. -/
def Store.printed (s : Store) (n : Int) (tty : Bool) : List Str :=
  if n ≠ 0 then
    let (sep, out) := if n == 1 || !tty then (true, s.printValues) else s.printUnused
    out ++ (if sep then [c!"# [end of parameters]"] else [])
  else
    let (sep, out) := s.printUnused
    out ++ (if sep then [c!"# [end of parameters]"] else [])

/-- The kinds of types which `printParamUsage_` distinguishes, opm/models/utils/parametersystem.hh lines 307-336. -/
inductive Kind
  | string
  | scalar
  | integer
  | boolean
  | flag
  | other
  deriving DecidableEq

/-- The text after the name of the option, opm/models/utils/parametersystem.hh lines 307-336. -/
def Kind.suffix : Kind → Str
  | .string => c!"=STRING"
  | .scalar => c!"=SCALAR"
  | .integer => c!"=INTEGER"
  | .boolean => c!"=BOOLEAN"
  | .flag => []
  | .other => c!"=VALUE"

/-- The text of the default value, opm/models/utils/parametersystem.hh lines 352-366. -/
def Kind.showDefault (k : Kind) (default : Str) : Str :=
  match k with
  | .boolean => if default = c!"0" then c!"false" else c!"true"
  | .string => '"' :: default ++ ['"']
  | _ => default

/-- The text of one entry of the help message before it is wrapped, opm/models/utils/parametersystem.hh lines 287-368. -/
def usageMessage (kind : Str → Kind) (name : Str) (info : ParamInfo) : Str :=
  let k := kind info.typeName
  let start := c!"    " ++ optionName name ++ k.suffix ++ c!"  "
  let m := start ++ List.replicate (50 - start.length) ' ' ++ info.usage
  if k = .flag then m
  else m ++ (if m.getLast? = some '.' then [] else ['.']) ++ c!" Default: " ++ k.showDefault info.default

/-- `getTtyWidth_`, opm/models/utils/parametersystem.hh lines 269-285; `cols` is what the system says of a terminal. -/
def ttyWidth (tty : Bool) (cols : Nat) : Nat := if tty then max 80 cols else 10000

/-- `printParamUsage_`, opm/models/utils/parametersystem.hh lines 287-373; `none` is an exception. -/
def usageEntry (kind : Str → Kind) (width : Nat) (name : Str) (info : ParamInfo) : Option Str :=
  breakLines (usageMessage kind name info) 52 width

/-- The entries of `printUsage`, opm/models/utils/parametersystem.hh lines 446-449. -/
def Store.usageEntries (s : Store) (kind : Str → Kind) (width : Nat) (showAll : Bool) : List (Option Str) :=
  (s.registry.filter fun p => showAll || !p.2.hidden).map fun p => usageEntry kind width p.1 p.2

end Verif.Params
