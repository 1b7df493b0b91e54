import Verif.MpiUtil.Model
set_option autoImplicit false
/-!
# What is assumed of MPI, and what gathering strings should do
-/
namespace MpiUtil

/-- What the MPI standard promises: unpacking what was packed gives it back and reads
what was written, and the reported sizes are upper bounds.  (The bytes behind the
packed ones do not matter.) -/
structure Faithful (m : Packing) : Prop where
  number : ∀ n rest, n < 2 ^ 32 → m.unpackU (m.packU n ++ rest) = (n, (m.packU n).length)
  chars : ∀ s rest, m.unpackC s.length (m.packC s ++ rest) = (s, (m.packC s).length)
  sizeU : ∀ n, n < 2 ^ 32 → (m.packU n).length ≤ m.sizeU
  sizeC : ∀ s, (m.packC s).length ≤ s.length * m.sizeC

/-- What all implementations in use do beyond that: the reported sizes are exact.
Only needed for builds with assertions. -/
structure Exact (m : Packing) : Prop where
  sizeU : ∀ n, n < 2 ^ 32 → (m.packU n).length = m.sizeU
  sizeC : ∀ s, (m.packC s).length = s.length * m.sizeC

/-- The strings which are not empty, in order. -/
def nonEmpty (strings : List (List Byte)) : List (List Byte) :=
  strings.filter fun s => s ≠ []

/-- The packing of MPI on a little-endian machine: four bytes for a number, one for a
character. -/
def littleEndian : Packing where
  sizeU := 4
  sizeC := 1
  packU n := [UInt8.ofNat n, UInt8.ofNat (n / 256), UInt8.ofNat (n / 256 ^ 2),
    UInt8.ofNat (n / 256 ^ 3)]
  packC s := s
  unpackU b := (((b.getD 0 0).toNat + 256 * (b.getD 1 0).toNat + 256 ^ 2 * (b.getD 2 0).toNat
    + 256 ^ 3 * (b.getD 3 0).toNat), 4)
  unpackC n b := (b.take n, n)

end MpiUtil
