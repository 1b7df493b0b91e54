import Mathlib.Data.Nat.Notation
set_option autoImplicit false
/-!
# The allocator for aligned memory

Models `opm/models/utils/alignedallocator.hh` on a machine with 64 bit addresses.
-/
namespace Aligned

/-- The number of values of `std::size_t`. -/
def sizeRange : ℕ := 2 ^ 64

/-- `is_alignment` and `is_alignment_constant`, opm/models/utils/alignedallocator.hh
52-60. -/
def isAlignment (v : ℕ) : Bool := v > 0 && (v &&& (v - 1)) == 0

/-- `alignment_of`: the smaller one of the size of the type and the padding in front of it
in a structure that starts with a character, opm/models/utils/alignedallocator.hh 62-77. -/
def alignmentOf (sizeT sizeOffsetObject : ℕ) : ℕ :=
  if sizeT < sizeOffsetObject - sizeT then sizeT else sizeOffsetObject - sizeT

/-- `max_align`, opm/models/utils/alignedallocator.hh 79-82. -/
def maxAlign (a b : ℕ) : ℕ := if a > b then a else b

/-- `max_size`, opm/models/utils/alignedallocator.hh 84-87, 169-172. -/
def maxSize (sizeT : ℕ) : ℕ := (sizeRange - 1) / sizeT

/-- A block of memory. -/
structure Block where
  address : ℕ
  bytes : ℕ
  deriving DecidableEq, Repr

/-- What `allocate` does. -/
inductive Outcome
  | block (b : Block)
  | null
  | badAlloc
  | assertion
  deriving DecidableEq, Repr

/-- `posix_memalign(alignment, bytes)`: a block or a failure. -/
abbrev MemAlign := ℕ → ℕ → Option Block

/-- `aligned_alloc`, opm/models/utils/alignedallocator.hh 92-104; the assertion is
checked by the caller below. -/
def alignedAlloc (os : MemAlign) (alignment bytes : ℕ) : Option Block :=
  os (if alignment < 8 then 8 else alignment) bytes

/-- `allocate`, opm/models/utils/alignedallocator.hh 155-163; `alignment` is the
template argument, `sizeT` and `alignT` belong to the type.  The product is computed
modulo 2^64. -/
def allocate (os : MemAlign) (sizeT alignT alignment n : ℕ) : Outcome :=
  let a := maxAlign alignment alignT
  if !isAlignment a then .assertion
  else
    match alignedAlloc os a (sizeT * n % sizeRange) with
    | some b => .block b
    | none => if n > 0 then .badAlloc else .null

end Aligned
