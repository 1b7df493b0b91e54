import Verif.Mpi.Rounds
import Mathlib.Algebra.Group.Defs

/-
Vectors with copies of the entries of other processes: opm/simulators/linalg/overlappingblockvector.hh.

One process sees the overlap by means of `Opm::Linear::DomesticOverlapFromBCRSMatrix`
(opm/simulators/linalg/domesticoverlapfrombcrsmatrix.hh), whose answers are data here.  Domestic indices are natural numbers and
-1 is `none`; using -1 as an index of a vector, which is undefined behaviour, does nothing here.
-/

set_option autoImplicit false

namespace Verif.Sync

open Verif.Mpi

/-- The answers of the overlap of one process which are used by vectors: `numDomestic`, `domesticToGlobal`, `globalToDomestic`,
`domesticToNative`, `nativeToDomestic`, `masterRank`, the indices of `foreignOverlapOffsetToDomesticIdx` for each peer, and `peerSet`
(opm/simulators/linalg/domesticoverlapfrombcrsmatrix.hh:145-146,236-237,262-309,343-358). -/
structure Overlap (P : ℕ) where
  numDomestic : ℕ
  domesticToGlobal : ℕ → ℕ
  globalToDomestic : ℕ → Option ℕ
  domesticToNative : ℕ → Option ℕ
  nativeToDomestic : ℕ → Option ℕ
  masterRank : ℕ → Fin P
  foreignOverlap : Fin P → List ℕ
  peerSet : List (Fin P)

/-- A vector: its entries and the buffers with the indices of the entries which are sent and received
(opm/simulators/linalg/overlappingblockvector.hh:350-354). -/
structure Vector (P : ℕ) (K : Type) where
  entries : ℕ → K
  indicesSend : Fin P → List (Option ℕ)
  indicesRecv : Fin P → List (Option ℕ)

/-- Messages: indices or values. -/
inductive Msg (K : Type) where
  | indices (l : List ℕ)
  | values (l : List K)

variable {P : ℕ} {K : Type}

/-- `createBuffers_` (opm/simulators/linalg/overlappingblockvector.hh:216-292): the global indices of the foreign overlap with each peer are sent to it, and
those which are received are translated to domestic ones, after the waits also those which were sent.  The messages with the
number of indices, which precede those with the indices, are left out. -/
def createBuffers (o : Fin P → Overlap P) : Round (Fin P) (Vector P K) (Msg K) where
  send p q _ := .indices (((o p).foreignOverlap q).map (o p).domesticToGlobal)
  recv p q m v :=
    match m with
    | .indices l =>
      { v with
        indicesRecv := Function.update v.indicesRecv q (l.map (o p).globalToDomestic)
        indicesSend := Function.update v.indicesSend q
          (((o p).foreignOverlap q).map fun i => (o p).globalToDomestic ((o p).domesticToGlobal i)) }
    | .values _ => v

/-- The values of `sendEntries_` (opm/simulators/linalg/overlappingblockvector.hh:294-303) -/
def sendEntries [Zero K] (v : Vector P K) (q : Fin P) : Msg K :=
  .values ((v.indicesSend q).map fun i => i.elim 0 v.entries)

/-- The loop of `receiveFromMaster_` (opm/simulators/linalg/overlappingblockvector.hh:326-332) over the received indices and values -/
def receiveFromMaster (o : Overlap P) (q : Fin P) (v : ℕ → K) (l : List (Option ℕ × K)) : ℕ → K :=
  l.foldl (fun v x =>
    match x.1 with
    | some i => if o.masterRank i = q then Function.update v i x.2 else v
    | none => v) v

/-- The loop of `receiveAdd_` (opm/simulators/linalg/overlappingblockvector.hh:343-347) -/
def receiveAdd [Add K] (v : ℕ → K) (l : List (Option ℕ × K)) : ℕ → K :=
  l.foldl (fun v x =>
    match x.1 with
    | some i => Function.update v i (v i + x.2)
    | none => v) v

/-- `sync` (opm/simulators/linalg/overlappingblockvector.hh:175-187, 305-333) -/
def sync [Zero K] (o : Fin P → Overlap P) : Round (Fin P) (Vector P K) (Msg K) where
  send _ q v := sendEntries v q
  recv p q m v :=
    match m with
    | .values l => { v with entries := receiveFromMaster (o p) q v.entries ((v.indicesRecv q).zip l) }
    | .indices _ => v

/-- `syncAdd` (opm/simulators/linalg/overlappingblockvector.hh:193-205, 335-348) -/
def syncAdd [Zero K] [Add K] : Round (Fin P) (Vector P K) (Msg K) where
  send _ q v := sendEntries v q
  recv _ q m v :=
    match m with
    | .values l => { v with entries := receiveAdd v.entries ((v.indicesRecv q).zip l) }
    | .indices _ => v

/-- The loops of `assign` and `assignAddBorder` over the domestic rows (opm/simulators/linalg/overlappingblockvector.hh:114-120, 138-144) -/
def fromNative [Zero K] (o : Overlap P) (native : ℕ → K) (i : ℕ) : K :=
  match o.domesticToNative i with
  | none => 0
  | some n => native n

/-- `assignTo` (opm/simulators/linalg/overlappingblockvector.hh:156-169) -/
def assignTo [Zero K] (o : Overlap P) (v : ℕ → K) (nativeRowIdx : ℕ) : K :=
  match o.nativeToDomestic nativeRowIdx with
  | none => 0
  | some i => v i

/-- A new vector with the given entries: no buffers yet. -/
def fresh (entries : ℕ → K) : Vector P K := { entries := entries, indicesSend := fun _ => [], indicesRecv := fun _ => [] }

/-- The constructor, `assign` with the given native vectors, and further synchronisations. -/
def assignProgram [Zero K] (o : Fin P → Overlap P) : Fin P → List (Op (Fin P) (Vector P K) (Msg K)) :=
  program (fun p => (o p).peerSet) [createBuffers o, sync o]

/-- The constructor and `assignAddBorder`. -/
def assignAddBorderProgram [Zero K] [Add K] (o : Fin P → Overlap P) : Fin P → List (Op (Fin P) (Vector P K) (Msg K)) :=
  program (fun p => (o p).peerSet) [createBuffers o, syncAdd]

end Verif.Sync
