import Mathlib.Data.List.Basic
set_option autoImplicit false
/-!
# Buffers for MPI messages

Models `MpiBuffer`, opm/models/parallel/mpibuffer.hh 44-234: who owns the memory of a
buffer, and what is sent.
-/
namespace Buffers

/-- A buffer object: `data_` (`none` is the null pointer, a number names an allocated
array) and `dataSize_`, opm/models/parallel/mpibuffer.hh 226-227. -/
structure Buffer where
  data : Option ℕ
  size : ℕ
  deriving DecidableEq, Repr

/-- The heap: which arrays are allocated (with their length), the number of the next
one, and the live buffer objects by name. -/
structure State where
  live : List (ℕ × ℕ)
  next : ℕ
  objects : List (ℕ × Buffer)
  deriving DecidableEq, Repr

/-- Nothing allocated, no buffers. -/
def empty : State := ⟨[], 0, []⟩

/-- What a program can do with buffers. -/
inductive Op
  /-- the default constructor, opm/models/parallel/mpibuffer.hh 48-55 -/
  | make (name : ℕ)
  /-- the constructor with a size, opm/models/parallel/mpibuffer.hh 57-64 -/
  | makeSized (name n : ℕ)
  /-- the copy constructor, opm/models/parallel/mpibuffer.hh 66 -/
  | copy (name src : ℕ)
  /-- `resize`, opm/models/parallel/mpibuffer.hh 74-80 -/
  | resize (name n : ℕ)
  /-- the destructor, opm/models/parallel/mpibuffer.hh 68-69 -/
  | destroy (name : ℕ)
  deriving DecidableEq, Repr

/-- the buffer object with a name -/
def find (s : State) (name : ℕ) : Option Buffer :=
  (s.objects.find? fun o => o.1 = name).map (·.2)

/-- `new DataType[n]` -/
def alloc (s : State) (n : ℕ) : State × ℕ :=
  ({ s with live := (s.next, n) :: s.live, next := s.next + 1 }, s.next)

/-- `delete[]`: nothing for the null pointer, an error (`none`) for an array that is
not allocated. -/
def free (s : State) : Option ℕ → Option State
  | none => some s
  | some p =>
    if s.live.any (fun a => a.1 = p) then
      some { s with live := s.live.filter fun a => a.1 ≠ p }
    else none

/-- One operation; `none` is undefined behaviour.  Names of new objects must be new, and
only existing objects can be used: other operations cannot be written in a program. -/
def step (s : State) : Op → Option State
  | .make name => some { s with objects := (name, ⟨none, 0⟩) :: s.objects }
  | .makeSized name n =>
    let a := alloc s n
    some { a.1 with objects := (name, ⟨some a.2, n⟩) :: a.1.objects }
  | .copy name src =>
    match find s src with
    | none => none
    | some b => some { s with objects := (name, b) :: s.objects }
  | .resize name n =>
    match find s name with
    | none => none
    | some b =>
      match free s b.data with
      | none => none
      | some s =>
        let a := alloc s n
        some { a.1 with
          objects := a.1.objects.map fun o => if o.1 = name then (name, ⟨some a.2, n⟩) else o }
  | .destroy name =>
    match find s name with
    | none => none
    | some b =>
      match free s b.data with
      | none => none
      | some s => some { s with objects := s.objects.filter fun o => o.1 ≠ name }

/-- Whether an operation can be written: new objects have new names, the other
operations are applied to existing objects. -/
def Allowed (s : State) : Op → Prop
  | .make name => find s name = none
  | .makeSized name _ => find s name = none
  | .copy name src => find s name = none ∧ find s src ≠ none
  | .resize name _ => find s name ≠ none
  | .destroy name => find s name ≠ none

/-- A run of a program. -/
inductive Run : State → List Op → Option State → Prop
  | done (s : State) : Run s [] (some s)
  | next (s s' : State) (op : Op) (ops : List Op) (r : Option State) :
      Allowed s op → step s op = some s' → Run s' ops r → Run s (op :: ops) r
  | crash (s : State) (op : Op) (ops : List Op) :
      Allowed s op → step s op = none → Run s (op :: ops) none

/-- The element types that have an MPI type of their own; all others are sent as bytes,
opm/models/parallel/mpibuffer.hh 181-215.  The number is the size in bytes. -/
inductive Elem
  | builtin (bytes : ℕ)
  | other (bytes : ℕ)
  deriving DecidableEq, Repr

/-- `mpiDataSize_`: the number of MPI items in a message,
opm/models/parallel/mpibuffer.hh 217-224. -/
def mpiCount (e : Elem) (n : ℕ) : ℕ :=
  match e with
  | .builtin _ => n
  | .other bytes => n * bytes

/-- The bytes of one MPI item. -/
def mpiItemBytes : Elem → ℕ
  | .builtin bytes => bytes
  | .other _ => 1

/-- The size of an element in bytes. -/
def elemBytes : Elem → ℕ
  | .builtin bytes => bytes
  | .other bytes => bytes

/-- The count handed to `MPI_Isend` and `MPI_Recv`: `static_cast<int>` of
`mpiDataSize_`; `none` if it does not fit
(opm/models/parallel/mpibuffer.hh 88-94, 114-120). -/
def messageCount (e : Elem) (n : ℕ) : Option ℕ :=
  if mpiCount e n < 2 ^ 31 then some (mpiCount e n) else none

end Buffers
