import Verif.Mpi.Model
import Mathlib.Data.List.Basic
import Mathlib.Data.Fin.Basic
import Mathlib.Order.Defs.LinearOrder

/-
Numbering the degrees of freedom of all processes: opm/simulators/linalg/globalindices.hh, and what it uses of
opm/simulators/linalg/foreignoverlapfrombcrsmatrix.hh.

Indices are natural numbers here and an absent index (-1 in the code) is `none`.  The computations of `int`s do not overflow.
Only the build with MPI is modelled (`HAVE_MPI`).
-/

set_option autoImplicit false

namespace Verif.GlobalIdx

open Verif.Mpi

/-- An entry of the border list, `Opm::Linear::BorderIndex` (opm/simulators/linalg/overlaptypes.hh:101-114): a native index, the
index of the same degree of freedom on another process, that process, and the distance from its border. -/
structure BorderIndex (P : ℕ) where
  localIdx : ℕ
  peerIdx : ℕ
  peerRank : Fin P
  borderDistance : ℕ
deriving DecidableEq

/-- What one process gets from its grid: for each native index whether it is black-listed, the border list, and the processes it
has to communicate with (a `std::set`, thus iterated in increasing order). -/
structure Part (P : ℕ) where
  blackList : List Bool
  borderList : List (BorderIndex P)
  peerSet : List (Fin P)

/-- `createLocalIndices_` (opm/simulators/linalg/foreignoverlapfrombcrsmatrix.hh:434-452): native indices which are not black-listed are numbered from
`localIdx` on; the others get -1. -/
def createLocalIndices : ℕ → List Bool → List (Option ℕ)
  | _, [] => []
  | localIdx, false :: r => some localIdx :: createLocalIndices (localIdx + 1) r
  | localIdx, true :: r => none :: createLocalIndices localIdx r

variable {P : ℕ}

/-- `nativeToLocal` (opm/simulators/linalg/foreignoverlapfrombcrsmatrix.hh:294-295).  Indices outside of the array, which are undefined behaviour, give
`none` here. -/
def Part.nativeToLocal (d : Part P) (nativeIdx : ℕ) : Option ℕ := ((createLocalIndices 0 d.blackList)[nativeIdx]?).join

/-- `numLocal_` (opm/simulators/linalg/foreignoverlapfrombcrsmatrix.hh:451) -/
def Part.numLocal (d : Part P) : ℕ := (createLocalIndices 0 d.blackList).reduceOption.length

/-- `minBorderDist` in the constructor (opm/simulators/linalg/foreignoverlapfrombcrsmatrix.hh:119-126): the distance which all entries of the border
list get in the foreign overlap (350-365), whatever their own is. -/
def Part.minBorderDist (overlapSize : ℕ) (d : Part P) : ℕ := (d.borderList.map (·.borderDistance)).foldl min overlapSize

/-- `computeMasterRanks_` (opm/simulators/linalg/foreignoverlapfrombcrsmatrix.hh:615-637): the lowest rank among the process and those which have the
index at the border distance zero.  Further entries of the foreign overlap, which are added by the extension of the overlap
(382-429), have a larger distance. -/
def Part.masterRank (overlapSize : ℕ) (d : Part P) (myRank : Fin P) (localIdx : ℕ) : Fin P :=
  if d.minBorderDist overlapSize = 0 then
    ((d.borderList.filter (fun e => d.nativeToLocal e.localIdx = some localIdx)).map (·.peerRank)).foldl min myRank
  else myRank

/-- The members of `GlobalIndices` which are used here: `domesticOffset_` and the two maps
(opm/simulators/linalg/globalindices.hh:57-60,334-342). -/
structure State where
  offset : ℕ
  toGlobal : ℕ → Option ℕ
  toDomestic : ℕ → Option ℕ

/-- Before `buildGlobalIndices_` -/
def State.empty : State := { offset := 0, toGlobal := fun _ => none, toDomestic := fun _ => none }

/-- `addIndex` (opm/simulators/linalg/globalindices.hh:123-130) -/
def State.addIndex (s : State) (domesticIdx globalIdx : ℕ) : State :=
  { s with
    toGlobal := Function.update s.toGlobal domesticIdx (some globalIdx)
    toDomestic := Function.update s.toDomestic globalIdx (some domesticIdx) }

/-- Messages: the offset (an `int`) or a `PeerIndexGlobalIndex` (opm/simulators/linalg/overlaptypes.hh:69-73).  Both are untyped
for MPI; a process which receives the wrong kind of message ignores it here. -/
inductive Msg where
  | offset (n : ℕ)
  | border (peerIdx globalIdx : ℕ)

/-- The loop over the local indices which numbers those the process is the master of (opm/simulators/linalg/globalindices.hh:230-241): the state and
`numMaster` after it. -/
def addMasters (overlapSize : ℕ) (d : Part P) (myRank : Fin P) (s : State) : State × ℕ :=
  (List.range d.numLocal).foldl
    (fun a i => if d.masterRank overlapSize myRank i = myRank then (a.1.addIndex i (s.offset + a.2), a.2 + 1) else a) (s, 0)

/-- The body of `receiveBorderIndex` after `MPI_Recv` (opm/simulators/linalg/globalindices.hh:170-174) -/
def receiveBorderIndex (d : Part P) : Msg → State → State
  | .border peerIdx globalIdx, s =>
    match d.nativeToLocal peerIdx with
    | some domesticIdx => s.addIndex domesticIdx globalIdx
    | none => s
  | .offset _, s => s

/-- The entries for which `sendBorderTo_` sends a message (opm/simulators/linalg/globalindices.hh:285-306): entries with the peer at distance zero of
which the process is the master.  `assert(localIdx >= 0)` is a precondition. -/
def sendEntries (overlapSize : ℕ) (d : Part P) (myRank peerRank : Fin P) : List (BorderIndex P) :=
  d.borderList.filter fun e =>
    e.peerRank = peerRank ∧ e.borderDistance = 0 ∧
      ∃ localIdx ∈ d.nativeToLocal e.localIdx, d.masterRank overlapSize myRank localIdx = myRank

/-- The message of `sendBorderIndex` (opm/simulators/linalg/globalindices.hh:135-150).  `domesticToGlobal` dereferences `end()` if the index has no
global one, which is undefined behaviour; 0 here. -/
def borderMsg (d : Part P) (e : BorderIndex P) (s : State) : Msg :=
  .border e.peerIdx (((d.nativeToLocal e.localIdx).bind s.toGlobal).getD 0)

/-- `sendBorderTo_` (opm/simulators/linalg/globalindices.hh:285-306) -/
def sendBorderTo (overlapSize : ℕ) (d : Part P) (myRank peerRank : Fin P) : List (Op (Fin P) State Msg) :=
  (sendEntries overlapSize d myRank peerRank).map fun e => .send peerRank (borderMsg d e)

/-- The entries for which `receiveBorderFrom_` receives a message (opm/simulators/linalg/globalindices.hh:308-327) -/
def recvEntries (overlapSize : ℕ) (d : Part P) (myRank peerRank : Fin P) : List (BorderIndex P) :=
  d.borderList.filter fun e =>
    e.peerRank = peerRank ∧ e.borderDistance = 0 ∧
      ∃ localIdx ∈ d.nativeToLocal e.localIdx, d.masterRank overlapSize myRank localIdx = peerRank

/-- `receiveBorderFrom_` (opm/simulators/linalg/globalindices.hh:308-327) -/
def receiveBorderFrom (overlapSize : ℕ) (d : Part P) (myRank peerRank : Fin P) : List (Op (Fin P) State Msg) :=
  (recvEntries overlapSize d myRank peerRank).map fun _ => .recv peerRank (receiveBorderIndex d)

/-- Retrieving the offset from the next lower rank (opm/simulators/linalg/globalindices.hh:213-228) -/
def getOffset (p : Fin P) : List (Op (Fin P) State Msg) :=
  if h : p.val = 0 then [.compute fun s => { s with offset := 0 }]
  else [.recv ⟨p.val - 1, by omega⟩ fun m s => match m with | .offset n => { s with offset := n } | .border _ _ => s]

/-- Passing the offset on to the next higher rank (opm/simulators/linalg/globalindices.hh:243-254) -/
def passOffset (overlapSize : ℕ) (d : Part P) (p : Fin P) : List (Op (Fin P) State Msg) :=
  if h : p.val + 1 < P then [.send ⟨p.val + 1, h⟩ fun s => .offset (s.offset + (addMasters overlapSize d p s).2)] else []

/-- `buildGlobalIndices_` (opm/simulators/linalg/globalindices.hh:204-283) of one process -/
def program (overlapSize : ℕ) (d : Part P) (p : Fin P) : List (Op (Fin P) State Msg) :=
  getOffset p ++ [.compute fun s => (addMasters overlapSize d p s).1] ++ passOffset overlapSize d p
    ++ (d.peerSet.filter (· < p)).flatMap (receiveBorderFrom overlapSize d p)
    ++ (d.peerSet.filter (p < ·)).flatMap (sendBorderTo overlapSize d p)
    ++ (d.peerSet.filter (p < ·)).flatMap (receiveBorderFrom overlapSize d p)
    ++ (d.peerSet.filter (· < p)).flatMap (sendBorderTo overlapSize d p)

end Verif.GlobalIdx
