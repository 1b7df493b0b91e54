import Mathlib.Data.List.Basic
set_option autoImplicit false
/-!
# Gathering strings from all processes

Models `opm/models/parallel/mpiutil.hh`: the packing of strings and
`gatherStrings`.
-/
namespace MpiUtil

/-- A byte; strings are lists of bytes. -/
abbrev Byte := UInt8

/-- What MPI provides: the sizes `MPI_Pack_size` reports for one `unsigned` and one
`char`, and the way `MPI_Pack`/`MPI_Unpack` represent one unsigned number and a
run of characters.  Unpacking returns the value and the number of bytes read
(opm/models/parallel/mpiutil.hh 47-53, 64-75, 92, 103). -/
structure Packing where
  sizeU : ℕ
  sizeC : ℕ
  packU : ℕ → List Byte
  packC : List Byte → List Byte
  unpackU : List Byte → ℕ × ℕ
  unpackC : ℕ → List Byte → List Byte × ℕ

/-- The largest `int`. -/
def intMax : ℕ := 2 ^ 31 - 1

/-- The number of values of an `unsigned int`. -/
def uintRange : ℕ := 2 ^ 32

/-- A number stored in an `int`; `none` if it does not fit (signed overflow or a
narrowing conversion that changes the value). -/
def toInt (n : ℕ) : Option ℕ := if n ≤ intMax then some n else none

/-- `MPI_Pack` into a buffer: the bytes go to `offset`, which is advanced.  `none` if
the buffer is too small (MPI reports an error, which by default aborts). -/
def writeAt (buf : List Byte) (offset : ℕ) (bytes : List Byte) : Option (List Byte × ℕ) :=
  if offset + bytes.length ≤ buf.length then
    some (buf.take offset ++ bytes ++ buf.drop (offset + bytes.length), offset + bytes.length)
  else none

/-- `Packer<std::string>::size`, opm/models/parallel/mpiutil.hh 82-85. -/
def packedSize (m : Packing) (s : List Byte) : Option ℕ :=
  toInt (m.sizeU + s.length * m.sizeC)

/-- `Packer<std::string>::pack`, opm/models/parallel/mpiutil.hh 87-94: the length as an
`unsigned int`, and the characters if there are any. -/
def pack (m : Packing) (s : List Byte) (buf : List Byte) (offset : ℕ) :
    Option (List Byte × ℕ) :=
  let size := s.length % uintRange
  match writeAt buf offset (m.packU size) with
  | none => none
  | some (buf, offset) =>
    if size > 0 then writeAt buf offset (m.packC (s.take size)) else some (buf, offset)

/-- `Packer<std::string>::unpack`, opm/models/parallel/mpiutil.hh 96-107. -/
def unpack (m : Packing) (buf : List Byte) (offset : ℕ) : List Byte × ℕ :=
  let u := m.unpackU (buf.drop offset)
  let offset := offset + u.2
  if u.1 > 0 then
    let c := m.unpackC u.1 (buf.drop offset)
    (c.1, offset + c.2)
  else ([], offset)

/-- The message of one process, opm/models/parallel/mpiutil.hh 157-162.  `asserts` says
whether the program is compiled with assertions. -/
def message (m : Packing) (asserts : Bool) (s : List Byte) : Option (List Byte) :=
  match packedSize m s with
  | none => none
  | some size =>
    match pack m s (List.replicate size 0) 0 with
    | none => none
    | some (buf, offset) => if asserts && offset != size then none else some buf

/-- `std::partial_sum` into the displacements, which start with zero,
opm/models/parallel/mpiutil.hh 169-170. -/
def displacements (acc : ℕ) : List ℕ → Option (List ℕ)
  | [] => some [acc]
  | n :: ns =>
    match toInt (acc + n) with
    | none => none
    | some acc' =>
      match displacements acc' ns with
      | none => none
      | some ds => some (acc :: ds)

/-- `MPI_Allgatherv`, opm/models/parallel/mpiutil.hh 173-177: the message of every
process is put at its displacement. -/
def receive (buf : List Byte) : List (ℕ × List Byte) → Option (List Byte)
  | [] => some buf
  | (d, msg) :: rest =>
    match writeAt buf d msg with
    | none => none
    | some (buf, _) => receive buf rest

/-- The loop that unpacks, opm/models/parallel/mpiutil.hh 179-189; the second argument
lists the displacement of every process and the one behind it. -/
def unpackAll (m : Packing) (asserts : Bool) (buf : List Byte) :
    List (ℕ × ℕ) → Option (List (List Byte))
  | [] => some []
  | (d, next) :: rest =>
    let r := unpack m buf d
    if asserts && r.2 != next then none
    else
      match unpackAll m asserts buf rest with
      | none => none
      | some ss => some (if r.1.isEmpty then ss else r.1 :: ss)

/-- The messages of all processes; `none` if one of them fails. -/
def messages (m : Packing) (asserts : Bool) : List (List Byte) → Option (List (List Byte))
  | [] => some []
  | s :: ss =>
    match message m asserts s, messages m asserts ss with
    | some b, some bs => some (b :: bs)
    | _, _ => none

/-- `gatherStrings`, opm/models/parallel/mpiutil.hh 152-190, run by all processes
together; `strings` lists their arguments by rank.  The two collective calls give all
processes the same sizes and the same buffer, and the rest of the function does not
depend on the rank, so there is one result for all of them.  `none` if some process
fails. -/
def gatherStrings (m : Packing) (asserts : Bool) (strings : List (List Byte)) :
    Option (List (List Byte)) :=
  match messages m asserts strings with
  | none => none
  | some msgs =>
    match displacements 0 (msgs.map List.length) with
    | none => none
    | some displ =>
      match receive (List.replicate (displ.getLastD 0) 0) (displ.zip msgs) with
      | none => none
      | some buf => unpackAll m asserts buf (displ.zip displ.tail)

/-- `gatherStrings` of a build without MPI, opm/models/parallel/mpiutil.hh 198-205. -/
def gatherStringsSerial (s : List Byte) : List (List Byte) :=
  if s.isEmpty then [] else [s]

end MpiUtil
