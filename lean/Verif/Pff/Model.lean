import Mathlib.Data.List.Basic
set_option autoImplicit false
/-!
# The prefetch friendly grid vector

Models `PffGridVector`, opm/models/utils/pffgridvector.hh 47-125.
-/
namespace Pff
variable {Elem Data : Type}

/-- What the container gets to see: the elements in the order of the grid's iterator, the
number of degrees of freedom of the stencil of an element, the index of an element, and
the number of elements the grid view reports (`gridView_.size(0)`). -/
structure Grid (Elem : Type) where
  elements : List Elem
  numDof : Elem → ℕ
  index : Elem → ℕ
  numElements : ℕ

/-- The members `data_` and `elemData_`, opm/models/utils/pffgridvector.hh 123-124.  An
entry of `elemData` is a pointer into `data`, given by its offset; `none` is null. -/
structure Container (Data : Type) where
  data : List Data
  elemData : List (Option ℕ)

/-- `computeNumLocalDofs_`, opm/models/utils/pffgridvector.hh 106-118. -/
def numLocalDofs (g : Grid Elem) : ℕ := g.elements.foldl (fun r e => r + g.numDof e) 0

/-- The inner loop of `update`, opm/models/utils/pffgridvector.hh 80-82: `distFn` may
change the entry it is given depending on the element and the local index.  `none` if the
entry is outside the array. -/
def fill (dist : Data → Elem → ℕ → Data) (e : Elem) (ptr n : ℕ) (data : List Data) :
    Option (List Data) :=
  (List.range n).foldl
    (fun d i => d.bind fun d =>
      match d[ptr + i]? with
      | none => none
      | some x => some (d.set (ptr + i) (dist x e i))) (some data)

/-- The loop over the elements, opm/models/utils/pffgridvector.hh 74-87.  `none` if an
element's index is outside the array, or a degree of freedom is. -/
def loop (g : Grid Elem) (dist : Data → Elem → ℕ → Data) :
    List Elem → ℕ → Container Data → Option (Container Data)
  | [], _, c => some c
  | e :: es, ptr, c =>
    if g.index e < c.elemData.length then
      match fill dist e ptr (g.numDof e) c.data with
      | none => none
      | some data =>
        loop g dist es (ptr + g.numDof e)
          { data := data, elemData := c.elemData.set (g.index e) (some ptr) }
    else none

/-- `std::vector::resize`. -/
def resize {α : Type} (l : List α) (n : ℕ) (x : α) : List α :=
  l.take n ++ List.replicate (n - l.length) x

/-- `update`, opm/models/utils/pffgridvector.hh 61-88.  `none` is undefined behaviour;
taking the address of the first entry of an empty array is, too (line 72). -/
def update [Inhabited Data] (g : Grid Elem) (dist : Data → Elem → ℕ → Data)
    (c : Container Data) : Option (Container Data) :=
  let c' : Container Data :=
    { data := resize c.data (numLocalDofs g) default
      elemData := resize c.elemData g.numElements none }
  if c'.data.length = 0 then none else loop g dist g.elements 0 c'

/-- `get`, opm/models/utils/pffgridvector.hh 99-103; `none` is undefined behaviour. -/
def get (g : Grid Elem) (c : Container Data) (e : Elem) (i : ℕ) : Option Data :=
  match c.elemData[g.index e]? with
  | some (some ptr) => c.data[ptr + i]?
  | _ => none

end Pff
