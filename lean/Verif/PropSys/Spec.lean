import Mathlib.Logic.Relation
import Verif.PropSys.Model
set_option autoImplicit false
/-!
# What a user expects from the property system
-/
namespace PropSys
variable {Tag : Type}

/-- The tags `t` inherits from directly, in the order they are listed. -/
def bases (h : Hierarchy Tag) (t : Tag) : List Tag := (h.inherits t).getD []

/-- The tags `t` refers to: the ones it inherits from and the ones it splices in. -/
def Refers (h : Hierarchy Tag) (t u : Tag) : Prop := u ∈ bases h t ∨ u ∈ h.splices t

/-- `u` is `t` or one of the tags `t` inherits from, directly or indirectly. -/
def InheritsFrom (h : Hierarchy Tag) : Tag → Tag → Prop :=
  Relation.ReflTransGen (fun a b => b ∈ bases h a)

/-- `u` can be reached from `t` by inheritance and splicing. -/
def Reaches (h : Hierarchy Tag) : Tag → Tag → Prop :=
  Relation.ReflTransGen (Refers h)

/-- The type tags form a proper hierarchy: no tag inherits from or splices itself
directly or indirectly, and no tag lists zero tags to inherit from. -/
structure Proper (h : Hierarchy Tag) : Prop where
  acyclic : WellFounded (fun u t => Refers h t u)
  nonempty : ∀ t ps, h.inherits t = some ps → ps ≠ []

/-- The tag at a position of a list of hierarchies.  The first number of a
position selects a tag of the list, every further number one of the tags the
tag selected so far inherits from. -/
def tagAt (h : Hierarchy Tag) : List Tag → List ℕ → Option Tag
  | _, [] => none
  | ts, [i] => ts[i]?
  | ts, i :: p => (ts[i]?).bind fun t => tagAt h (bases h t) p

/-- Positions are visited in lexicographic order: a tag before the tags it
inherits from, and everything that is reached via a tag before everything that
is reached via the tags listed behind it. -/
def Before (p q : List ℕ) : Prop := List.Lex (· < ·) p q

/-- `d` is the first tag that defines the property if the tags in `ts` and
everything they inherit from are visited in order. -/
def FirstDefining (h : Hierarchy Tag) (defined : Tag → Bool) (ts : List Tag) (d : Tag) : Prop :=
  ∃ p, tagAt h ts p = some d ∧ defined d = true ∧
    ∀ q e, Before q p → tagAt h ts q = some e → defined e = false

/-- The hierarchy of the test program, tests/test_propertysystem.cc 51-63. -/
inductive Car | vehicle | compactCar | truck | tank | sedan | pickup | hummer
  deriving DecidableEq, Repr

/-- `InheritsFrom` of the tags, tests/test_propertysystem.cc 51-63. -/
def carTags : Hierarchy Car where
  inherits := fun
    | .vehicle => none
    | .compactCar | .truck | .tank => some [.vehicle]
    | .sedan => some [.compactCar]
    | .pickup => some [.truck, .sedan]
    | .hummer => some [.pickup, .tank, .sedan]
  splices := fun _ => []

/-- `AutomaticTransmission` is false for a vehicle and true for a sedan,
tests/test_propertysystem.cc 84, 137. -/
def automatic : Car → Bool
  | .vehicle | .sedan => true
  | _ => false

/-- `GasUsage`, tests/test_propertysystem.cc 116, 123, 130, 135. -/
def gasUsage : Car → Bool
  | .compactCar | .truck | .tank | .sedan => true
  | _ => false

end PropSys
