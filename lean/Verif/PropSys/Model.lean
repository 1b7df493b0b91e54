import Mathlib.Data.List.Basic
set_option autoImplicit false
/-!
# The property system: resolving properties along a hierarchy of type tags

Models `opm/models/utils/propertysystem.hh`.  The code is a set of class
templates; "running" it means instantiating them.  A template whose
instantiation does not terminate, or for which no specialisation exists, makes
the program ill-formed.  The model is therefore a family of inductive
relations: a derivation of `GetDefined … l r` says that instantiating the
template for the tag list `l` is possible and yields `r`; if there is no
derivation, the program does not compile.
-/
namespace PropSys

/-- What a program declares about its type tags.

* `inherits t`: the member `InheritsFrom` of the type tag `t`, a tuple of type
  tags; `none` if the tag has no such member
  (`hasParentTypeTag`, opm/models/utils/propertysystem.hh 63-71);
* `splices t`: the tuple of type tags `Splices<TypeTag, t>::type`, the empty
  tuple unless specialised (opm/models/utils/propertysystem.hh 42-46).

Simplification: `Splices<TypeTag, t>::type` may itself be computed from
properties of `TypeTag`; here it is given.  (The `TypeTag` is fixed.) -/
structure Hierarchy (Tag : Type) where
  inherits : Tag → Option (List Tag)
  splices : Tag → List Tag

variable {Tag : Type}

/-- `isDefinedProperty` decides whether `Property<TypeTag, t>` is a
specialisation that defines the property; here `defined t` gives the answer, and
the definition found is named by the tag it was attached to.  `none` is
`UndefinedProperty`.  `std::conditional_t` picks the definition of the first tag
if there is one (opm/models/utils/propertysystem.hh 52-60, 115-116, 132-133). -/
def pick (defined : Tag → Bool) (t : Tag) (next : Option Tag) : Option Tag :=
  if defined t then some t else next

/-- `GetDefined` and `GetNextTypeTag`, opm/models/utils/propertysystem.hh 77-134:
one constructor for each combination of the two specialisations of `GetDefined`
(a single tag, a tag followed by others) with the two of `GetNextTypeTag` that
apply to it (the tag has a member `InheritsFrom` or not).  There is none for the
empty tuple.  Note that `std::conditional_t` needs the type of the rest of the
search also if the property is already found. -/
inductive GetDefined (h : Hierarchy Tag) (defined : Tag → Bool) :
    List Tag → Option Tag → Prop
  | lastDerived (t : Tag) (ps : List Tag) (r : Option Tag) :
      h.inherits t = some ps → GetDefined h defined ps r →
      GetDefined h defined [t] (pick defined t r)
  | lastRoot (t : Tag) :
      h.inherits t = none → GetDefined h defined [t] (pick defined t none)
  | firstDerived (t u : Tag) (args ps : List Tag) (r : Option Tag) :
      h.inherits t = some ps → GetDefined h defined (ps ++ u :: args) r →
      GetDefined h defined (t :: u :: args) (pick defined t r)
  | firstRoot (t u : Tag) (args : List Tag) (r : Option Tag) :
      h.inherits t = none → GetDefined h defined (u :: args) r →
      GetDefined h defined (t :: u :: args) (pick defined t r)

mutual
/-- `GetDefinedSplice`, opm/models/utils/propertysystem.hh 170-200.  For a single
tag its own splices come behind those found further up, for a tag followed by
others they come first; both branches of `std::conditional_t` agree if the tuple
of splices is empty (`isDefinedSplice`, lines 160-168). -/
inductive GetDefinedSplice (h : Hierarchy Tag) : List Tag → List Tag → Prop
  | last (t : Tag) (r : List Tag) :
      GetNextSplice h (t :: h.splices t) r →
      GetDefinedSplice h [t] (r ++ h.splices t)
  | first (t u : Tag) (args r : List Tag) :
      GetNextSplice h (t :: u :: args ++ h.splices t) r →
      GetDefinedSplice h (t :: u :: args) (h.splices t ++ r)
/-- `GetNextSpliceTypeTag`, opm/models/utils/propertysystem.hh 144-158. -/
inductive GetNextSplice (h : Hierarchy Tag) : List Tag → List Tag → Prop
  | lastDerived (t : Tag) (ps r : List Tag) :
      h.inherits t = some ps → GetDefinedSplice h ps r → GetNextSplice h [t] r
  | lastRoot (t : Tag) : h.inherits t = none → GetNextSplice h [t] []
  | firstDerived (t u : Tag) (args ps r : List Tag) :
      h.inherits t = some ps → GetDefinedSplice h (ps ++ u :: args) r →
      GetNextSplice h (t :: u :: args) r
  | firstRoot (t u : Tag) (args r : List Tag) :
      h.inherits t = none → GetDefinedSplice h (u :: args) r →
      GetNextSplice h (t :: u :: args) r
end

/-- `GetPropImpl`, opm/models/utils/propertysystem.hh 202-212, reached through
`GetProp`, `GetPropType` and `getPropValue` (lines 225-248): the tags searched
are the type tag and then the splices; `static_assert` rejects a property which
nothing defines. -/
inductive GetProp (h : Hierarchy Tag) (defined : Tag → Bool) : Tag → Tag → Prop
  | found (t d : Tag) (splices : List Tag) :
      GetDefinedSplice h [t] splices →
      GetDefined h defined (t :: splices) (some d) →
      GetProp h defined t d

/-- `GetSplicePropImpl`, opm/models/utils/propertysystem.hh 214-219.  Its
`static_assert` compares with `std::tuple<>`, so it never rejects anything. -/
inductive GetSpliceProp (h : Hierarchy Tag) (defined : Tag → Bool) :
    Tag → Tag → Option Tag → Prop
  | found (t s : Tag) (r : Option Tag) :
      GetDefined h defined [t, s] r → GetSpliceProp h defined t s r

end PropSys
