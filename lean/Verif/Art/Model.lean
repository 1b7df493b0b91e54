import Mathlib.Algebra.Order.Field.Basic
import Mathlib.Algebra.Order.Group.Unbundled.Abs
import Verif.Fracture.Model
set_option autoImplicit false

/-!
# Grids with fractures: the converter from ART to DGF and the vanguard which reads the result

Simplifications: a file is the list of its lines; how the first two numbers of the line of a vertex
are read is a function given from outside; numbers are not bounded; a failed assertion and undefined
behaviour are both `none`; the text of the DGF file and the way Dune reads it are left out (the data
it carries are passed on), vertices of the grid may be numbered differently from the file.
-/

namespace Verif.Art

/-- `std::isspace` in the C locale. -/
def isSpace (c : Char) : Bool :=
  c == ' ' || c == '\t' || c == '\n' || c == '\r' || c == '\x0b' || c == '\x0c'

/-- Comments are removed, cites `art2dgf/art2dgf.cc lines 71-75`. -/
def stripComment (l : List Char) : List Char := l.takeWhile fun c => c != '%'

/-- Leading white space is removed, cites `art2dgf/art2dgf.cc lines 77-83`. -/
def stripLeading (l : List Char) : List Char := l.dropWhile isSpace

/-- The loop which counts trailing white space: the character behind the last one, which is the
terminating zero, is looked at first.  Cites `art2dgf/art2dgf.cc lines 86-89`. -/
def trailing (l : List Char) : ℕ → ℕ → ℕ
  | 0, n => n
  | fuel + 1, n =>
    if n < l.length && isSpace (l.getD (l.length - n) '\x00') then trailing l fuel (n + 1) else n

/-- Trailing white space, cites `art2dgf/art2dgf.cc lines 85-90`. -/
def stripTrailing (l : List Char) : List Char := l.take (l.length - trailing l (l.length + 1) 0)

/-- A line without comments and white space, cites `art2dgf/art2dgf.cc lines 71-90`. -/
def clean (l : List Char) : List Char := stripTrailing (stripLeading (stripComment l))

/-- The value of a decimal digit. -/
def digit (c : Char) : ℕ := c.toNat - '0'.toNat

/-- The value of digits. -/
def value (ds : List Char) : ℕ := ds.foldl (fun a c => 10 * a + digit c) 0

/-- Extracting an unsigned number from a stream (`operator>>`); `none` if there is none.  (No signs
and no limit of the size.) -/
def readNat (l : List Char) : Option (ℕ × List Char) :=
  let l := l.dropWhile isSpace
  let ds := l.takeWhile Char.isDigit
  if ds = [] then none else some (value ds, l.dropWhile Char.isDigit)

/-- Extracting a signed number. -/
def readInt (l : List Char) : Option (ℤ × List Char) :=
  match l.dropWhile isSpace with
  | '-' :: rest =>
    let ds := rest.takeWhile Char.isDigit
    if ds = [] then none else some (-(value ds : ℤ), rest.dropWhile Char.isDigit)
  | rest =>
    let ds := rest.takeWhile Char.isDigit
    if ds = [] then none else some ((value ds : ℤ), rest.dropWhile Char.isDigit)

/-- Extracting a word. -/
def readWord (l : List Char) : List Char × List Char :=
  let l := l.dropWhile isSpace
  (l.takeWhile fun c => !isSpace c, l.dropWhile fun c => !isSpace c)

/-- All numbers up to the first failure, cites `art2dgf/art2dgf.cc lines 128-136`; the first argument
bounds the number of rounds by the length of the line. -/
def readNats : ℕ → List Char → List ℕ
  | 0, _ => []
  | fuel + 1, l =>
    match readNat l with
    | none => []
    | some (n, rest) => n :: readNats fuel rest

/-- The data attached to an edge or element and its indices, cites
`art2dgf/art2dgf.cc lines 119-136` and `art2dgf/art2dgf.cc lines 153-170`. -/
def readRecord (l : List Char) : Option (ℤ × List ℕ) :=
  match readInt l with
  | none => none
  | some (d, rest) =>
    let w := readWord rest
    if w.1 = [':'] then some (d, readNats w.2.length w.2) else none

/-- The section of the file, cites `art2dgf/art2dgf.cc line 55`. -/
inductive Mode
  | vertex | edge | element | finished
  deriving DecidableEq, Repr

variable {K : Type}

/-- What has been read so far, cites `art2dgf/art2dgf.cc lines 56-59`. -/
structure State (K : Type) where
  mode : Mode
  vertices : List ((K × K) × Bool)
  edges : List (ℕ × ℕ)
  fractures : List (ℕ × ℕ)
  elements : List (List ℕ)
  deriving DecidableEq

/-- The state at the beginning. -/
def State.initial : State K := ⟨.vertex, [], [], [], []⟩

/-- A vertex is marked as one of a fracture, cites `art2dgf/art2dgf.cc lines 146-147`. -/
def mark (vs : List ((K × K) × Bool)) (i : ℕ) : List ((K × K) × Bool) :=
  vs.modify i fun p => (p.1, true)

/-- The vertex is added if it is not there yet, cites `art2dgf/art2dgf.cc lines 176-185`. -/
def addVertex (vs : List ℕ) (v : ℕ) : List ℕ := if v ∈ vs then vs else vs ++ [v]

/-- The vertices of an element, cites `art2dgf/art2dgf.cc lines 173-197`. -/
def elementVertices (es : List (ℕ × ℕ)) : List ℕ :=
  es.foldl (fun vs e => addVertex (addVertex vs e.1) e.2) []

variable [Field K] [LinearOrder K]

/-- The determinant which shows the direction of rotation, cites
`art2dgf/art2dgf.cc lines 202-206`. -/
def det (a b c : K × K) : K := (b.1 - a.1) * (c.2 - a.2) - (b.2 - a.2) * (c.1 - a.1)

/-- The vertices in mathematically positive order, cites `art2dgf/art2dgf.cc lines 199-209`; `eps` is
the smallest determinant which is allowed. -/
def orient (eps : K) (vs : List ((K × K) × Bool)) : List ℕ → Option (List ℕ)
  | a :: b :: c :: rest =>
    match vs[a]?, vs[b]?, vs[c]? with
    | some p, some q, some r =>
      let d := det p.1 q.1 r.1
      if |d| > eps then some (if d < 0 then a :: c :: b :: rest else a :: b :: c :: rest) else none
    | _, _, _ => none
  | _ => none

/-- One line of the file, cites `art2dgf/art2dgf.cc lines 67-216`; `parse` reads the coordinates of a
vertex. -/
def step (parse : List Char → K × K) (eps : K) (s : State K) (line : List Char) :
    Option (State K) :=
  let l := clean line
  if l = ['$'] then
    some { s with mode := match s.mode with
      | .vertex => .edge
      | .edge => .element
      | .element => .finished
      | .finished => .finished }
  else if l = [] then some s
  else
    match s.mode with
    | .vertex => some { s with vertices := s.vertices ++ [(parse l, false)] }
    | .edge =>
      match readRecord l with
      | some (d, [i, j]) =>
        if i < s.vertices.length ∧ j < s.vertices.length then
          if d < 0 then
            some { s with edges := s.edges ++ [(i, j)], fractures := s.fractures ++ [(i, j)],
                          vertices := mark (mark s.vertices i) j }
          else some { s with edges := s.edges ++ [(i, j)] }
        else none
      | _ => none
    | .element =>
      match readRecord l with
      | some (_, [i, j, k]) =>
        match s.edges[i]?, s.edges[j]?, s.edges[k]? with
        | some e, some f, some g =>
          match orient eps s.vertices (elementVertices [e, f, g]) with
          | some vs => some { s with elements := s.elements ++ [vs] }
          | none => none
        | _, _, _ => none
      | _ => none
    | .finished => none

/-- All lines of the file. -/
def readAll (parse : List Char → K × K) (eps : K) : List (List Char) → State K → Option (State K)
  | [], s => some s
  | l :: rest, s => (step parse eps s l).bind (readAll parse eps rest)

/-- The content of the DGF file: vertices with their mark (if there are fractures at all) and
simplices, cites `art2dgf/art2dgf.cc lines 218-260`. -/
structure Dgf (K : Type) where
  vertices : List ((K × K) × Bool)
  hasParameters : Bool
  simplices : List (List ℕ)
  deriving DecidableEq

/-- `Art2DGF::convert`, cites `art2dgf/art2dgf.cc lines 48-263`. -/
def convert (parse : List Char → K × K) (eps : K) (lines : List (List Char)) : Option (Dgf K) :=
  (readAll parse eps lines State.initial).map fun s =>
    ⟨s.vertices, !s.fractures.isEmpty, s.elements⟩

/-- The edges of a triangle in the reference element of Dune. -/
def triangleEdges : List ℕ → List (ℕ × ℕ)
  | [a, b, c] => [(a, b), (a, c), (b, c)]
  | _ => []

/-- `addFractures_` of the vanguard: the edges of the elements both of whose vertices have a positive
parameter; `number` is the index of a vertex of the file in the grid.  Cites
`opm/models/io/dgfvanguard.hh lines 138-183`. -/
def addFractures (dgf : Dgf K) (number : ℕ → ℕ) : Fracture.Mapper :=
  if dgf.hasParameters then
    (dgf.simplices.flatMap triangleEdges).foldl (fun m e =>
      if (dgf.vertices[e.1]?.map Prod.snd) = some true ∧
          (dgf.vertices[e.2]?.map Prod.snd) = some true then
        m.add (number e.1) (number e.2)
      else m) .empty
  else .empty

/-- The edges after one global refinement of a triangle: every edge is divided at its midpoint and
the midpoints are connected.  Cites `opm/models/io/dgfvanguard.hh lines 92-93` (the refinement is
that of the grid, which is not part of the repository). -/
def refinedEdges (number : ℕ → ℕ) (mid : ℕ → ℕ → ℕ) : List ℕ → List (ℕ × ℕ)
  | [a, b, c] =>
    [(number a, mid a b), (mid a b, number b), (number a, mid a c), (mid a c, number c),
      (number b, mid b c), (mid b c, number c),
      (mid a b, mid a c), (mid a b, mid b c), (mid a c, mid b c)]
  | _ => []

end Verif.Art
