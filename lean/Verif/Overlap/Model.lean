import Verif.GlobalIdx.Model
import Verif.Sync.Model
import Verif.Mpi.Compose

/-
The overlap of the processes: opm/simulators/linalg/foreignoverlapfrombcrsmatrix.hh,
opm/simulators/linalg/domesticoverlapfrombcrsmatrix.hh, opm/simulators/linalg/blacklist.hh and
opm/simulators/linalg/overlaptypes.hh.

Indices are natural numbers here and -1 is `none`; `int`s and `unsigned`s do not overflow.  Arrays and maps are functions; an
index outside of an array, which is undefined behaviour, reads `none` here.  A message with the number of items and the message
with the items which follows it are one message.  Only the build with MPI is modelled (`HAVE_MPI`).
-/

set_option autoImplicit false

namespace Verif.Overlap

open Verif.Mpi Verif.GlobalIdx

variable {P : ℕ}

/-- What one process passes to the constructor of the overlap: which native indices are black-listed, the border list, the
columns of each row of the native matrix, and the lists `peerBlackLists_` of the black list (opm/simulators/linalg/blacklist.hh:47-53,77-78), pairs
of the index of the peer and the own index, with the processes for which there is one. -/
structure Native (P : ℕ) where
  blackList : List Bool
  borderList : List (BorderIndex P)
  cols : ℕ → List ℕ
  blackPeers : List (Fin P)
  peerBlackList : Fin P → List (ℕ × ℕ)

/-- The data for the numbering of the degrees of freedom, given the set of peers. -/
def Native.part (d : Native P) (peerSet : List (Fin P)) : Part P :=
  { blackList := d.blackList, borderList := d.borderList, peerSet := peerSet }

/-- `nativeToLocal` (opm/simulators/linalg/foreignoverlapfrombcrsmatrix.hh:294-295) -/
def Native.nativeToLocal (d : Native P) (nativeIdx : ℕ) : Option ℕ := (d.part []).nativeToLocal nativeIdx

/-- `numLocal` (opm/simulators/linalg/foreignoverlapfrombcrsmatrix.hh:279-280) -/
def Native.numLocal (d : Native P) : ℕ := (d.part []).numLocal

/-- `localToNative` (opm/simulators/linalg/foreignoverlapfrombcrsmatrix.hh:300-304), filled by `createLocalIndices_` (434-452) -/
def Native.localToNative (d : Native P) (localIdx : ℕ) : Option ℕ :=
  ((List.range d.blackList.length).filter fun i => d.blackList[i]? = some false)[localIdx]?

/-- `minBorderDist` in the constructor (opm/simulators/linalg/foreignoverlapfrombcrsmatrix.hh:120-126) -/
def Native.minBorderDist (d : Native P) (overlapSize : ℕ) : ℕ := (d.part []).minBorderDist overlapSize

/-- `neighborPeerSet_.update(borderList)` (opm/simulators/linalg/foreignoverlapfrombcrsmatrix.hh:105, opm/simulators/linalg/overlaptypes.hh:148-162): a `std::set`, iterated in
increasing order. -/
def Native.neighborPeers (d : Native P) : List (Fin P) :=
  (List.finRange P).filter fun q => ∃ e ∈ d.borderList, e.peerRank = q

/-- `isBorder` (opm/simulators/linalg/foreignoverlapfrombcrsmatrix.hh:149-150): `localBorderIndices_` is set up in the constructor (91-101). -/
def Native.isBorder (d : Native P) (localIdx : ℕ) : Prop := ∃ e ∈ d.borderList, d.nativeToLocal e.localIdx = some localIdx

instance (d : Native P) (l : ℕ) : Decidable (d.isBorder l) := inferInstanceAs (Decidable (∃ e ∈ d.borderList, _))

/-- `localToPeerIdx_` (opm/simulators/linalg/foreignoverlapfrombcrsmatrix.hh:454-464).  It is called with a local index and compares it with the native
ones of the border list. -/
def Native.localToPeerIdx (d : Native P) (localIdx : ℕ) (peerRank : Fin P) : Option ℕ :=
  (d.borderList.find? fun e => e.localIdx = localIdx ∧ e.peerRank = peerRank).map (·.peerIdx)

/-- `IndexRankDist` (opm/simulators/linalg/overlaptypes.hh:79-84), the entries of a seed list -/
structure Seed (P : ℕ) where
  index : ℕ
  peerRank : Fin P
  borderDistance : ℕ
deriving DecidableEq

/-- The members of the foreign overlap which change while it is set up: `foreignOverlapByLocalIndex_`, `peerSet_` and the seed
list. -/
structure Foreign (P : ℕ) where
  byLocal : ℕ → Fin P → Option ℕ
  peers : Fin P → Prop
  seeds : List (Seed P)

/-- The start of the extension (opm/simulators/linalg/foreignoverlapfrombcrsmatrix.hh:105-130): `initialSeedList.update(borderList)` (opm/simulators/linalg/overlaptypes.hh:125-143)
and `peerSet_ = neighborPeerSet_`. -/
def Foreign.init (d : Native P) : Foreign P :=
  { byLocal := fun _ _ => none
    peers := fun q => q ∈ d.neighborPeers
    seeds := d.borderList.map fun e => ⟨e.localIdx, e.peerRank, e.borderDistance⟩ }

/-- The list `borderIndices[peer]` which `addNonNeighborOverlapIndices_` sends to a neighbour
(opm/simulators/linalg/foreignoverlapfrombcrsmatrix.hh:480-507). -/
def borderHandles (d : Native P) (neighbor : Fin P) (s : Foreign P) : List (BorderIndex P) :=
  s.seeds.filterMap fun e =>
    match d.nativeToLocal e.index with
    | none => none
    | some l =>
      if d.isBorder l ∧ s.byLocal l neighbor = some 0 ∧ neighbor ≠ e.peerRank then
        (d.localToPeerIdx l neighbor).map fun peerIdx => ⟨l, peerIdx, e.peerRank, e.borderDistance⟩
      else none

/-- What is done with one of the entries which a neighbour sent (opm/simulators/linalg/foreignoverlapfrombcrsmatrix.hh:560-596). -/
def receiveHandle (borderDist : ℕ) (s : Foreign P) (h : BorderIndex P) : Foreign P :=
  let localIdx := h.peerIdx
  if (s.byLocal localIdx h.peerRank).isSome then s
  else if s.seeds.any (fun e => e.index = localIdx ∧ e.peerRank = h.peerRank) then s
  else
    { s with
      seeds := s.seeds ++ [⟨localIdx, h.peerRank, borderDist⟩]
      peers := fun q => s.peers q ∨ q = h.peerRank }

/-- `addNonNeighborOverlapIndices_` (opm/simulators/linalg/foreignoverlapfrombcrsmatrix.hh:466-610) -/
def addNonNeighborOverlapIndices (d : Fin P → Native P) (borderDist : ℕ) :
    Round (Fin P) (Foreign P) (List (BorderIndex P)) where
  send p q s := borderHandles (d p) q s
  recv _ _ m s := m.foldl (receiveHandle borderDist) s

/-- Adding a seed of the current level to the overlap (opm/simulators/linalg/foreignoverlapfrombcrsmatrix.hh:361-367). -/
def addSeed (d : Native P) (distance : ℕ) (s : Foreign P) (e : Seed P) : Foreign P :=
  match d.nativeToLocal e.index with
  | none => s
  | some l =>
    if (s.byLocal l e.peerRank).isSome then s
    else { s with byLocal := Function.update s.byLocal l (Function.update (s.byLocal l) e.peerRank (some distance)) }

/-- Adding all seeds of the current level to the overlap (opm/simulators/linalg/foreignoverlapfrombcrsmatrix.hh:357-368). -/
def addSeeds (d : Native P) (distance : ℕ) (s : Foreign P) : Foreign P := s.seeds.foldl (addSeed d distance) s

/-- One column in the search of the next seeds (opm/simulators/linalg/foreignoverlapfrombcrsmatrix.hh:392-423). -/
def addColumn (d : Native P) (byLocal : ℕ → Fin P → Option ℕ) (e : Seed P) (next : List (Seed P)) (nativeColIdx : ℕ) :
    List (Seed P) :=
  match d.nativeToLocal nativeColIdx with
  | none => next
  | some localColIdx =>
    if (byLocal localColIdx e.peerRank).isSome then next
    else if next.any (fun t => t.index = nativeColIdx ∧ t.peerRank = e.peerRank) then next
    else next ++ [⟨nativeColIdx, e.peerRank, e.borderDistance + 1⟩]

/-- One row in the search of the next seeds (opm/simulators/linalg/foreignoverlapfrombcrsmatrix.hh:381-424) -/
def addRow (d : Native P) (byLocal : ℕ → Fin P → Option ℕ) (next : List (Seed P)) (e : Seed P) : List (Seed P) :=
  match d.nativeToLocal e.index with
  | none => next
  | some _ => (d.cols e.index).foldl (addColumn d byLocal e) next

/-- The seeds of the next level (opm/simulators/linalg/foreignoverlapfrombcrsmatrix.hh:377-424) -/
def nextSeeds (d : Native P) (s : Foreign P) : List (Seed P) := s.seeds.foldl (addRow d s.byLocal) []

/-- What `extendForeignOverlap_` does at one level after the communication (opm/simulators/linalg/foreignoverlapfrombcrsmatrix.hh:357-427). -/
def afterLevel (d : Native P) (overlapSize borderDistance : ℕ) (s : Foreign P) : Foreign P :=
  let s := addSeeds d borderDistance s
  if overlapSize ≤ borderDistance then s else { s with seeds := nextSeeds d s }

/-- The border distances of the levels of `extendForeignOverlap_` (opm/simulators/linalg/foreignoverlapfrombcrsmatrix.hh:348-429), which calls itself with
the distance increased by one until it is the size of the overlap. -/
def levels (d : Native P) (overlapSize : ℕ) : List ℕ :=
  List.range' (d.minBorderDist overlapSize) (overlapSize + 1 - d.minBorderDist overlapSize)

/-- `extendForeignOverlap_` (opm/simulators/linalg/foreignoverlapfrombcrsmatrix.hh:345-429), which the constructor calls -/
def foreignProgram (d : Fin P → Native P) (overlapSize : ℕ) (p : Fin P) : List (Op (Fin P) (Foreign P) (List (BorderIndex P))) :=
  (levels (d p) overlapSize).flatMap fun dist =>
    roundProgram (fun p => (d p).neighborPeers) (addNonNeighborOverlapIndices d dist) p ++
      [.compute (afterLevel (d p) overlapSize dist)]

/-- `computeMasterRanks_` (opm/simulators/linalg/foreignoverlapfrombcrsmatrix.hh:615-637) -/
def masterRank (d : Native P) (s : Foreign P) (myRank : Fin P) (localIdx : ℕ) : Fin P :=
  if d.isBorder localIdx then
    ((List.finRange P).filter fun q => s.byLocal localIdx q = some 0).foldl min myRank
  else myRank

/-- The indices of `foreignOverlapByRank_[peerRank]` in their order, as `groupForeignOverlapByRank_` makes it
(opm/simulators/linalg/foreignoverlapfrombcrsmatrix.hh:642-660). -/
def foreignWith (d : Native P) (s : Foreign P) (peerRank : Fin P) : List ℕ :=
  (List.range d.numLocal).filter fun l => (s.byLocal l peerRank).isSome

open Classical in
/-- The peers in the order in which a `std::set` is iterated (opm/simulators/linalg/foreignoverlapfrombcrsmatrix.hh:260-261). -/
noncomputable def Foreign.peerSet (s : Foreign P) : List (Fin P) := (List.finRange P).filter fun q => s.peers q

/-! ### The domestic overlap -/

/-- The members of the domestic overlap: the maps of `GlobalIndices` with their size (opm/simulators/linalg/globalindices.hh:123-130,334-342),
`domesticOverlapWithPeer_`, `domesticOverlapByIndex_` and `borderDistance_` (opm/simulators/linalg/domesticoverlapfrombcrsmatrix.hh:569-572), and
`nativeToDomesticMap_` of the black list (opm/simulators/linalg/blacklist.hh:180). -/
structure Domestic (P : ℕ) where
  numDomestic : ℕ
  toGlobal : ℕ → Option ℕ
  toDomestic : ℕ → Option ℕ
  withPeer : Fin P → List ℕ
  byIndex : ℕ → Fin P → Option ℕ
  borderDistance : ℕ → Option ℕ
  blackMap : ℕ → Option ℕ

/-- The start of `buildDomesticOverlap_` (opm/simulators/linalg/domesticoverlapfrombcrsmatrix.hh:377-386), with the numbering of the local indices.  The
border distance of local indices is zero; that of others `INT_MAX`, `none` here, until they are received. -/
def Domestic.init (d : Native P) (g : State) : Domestic P :=
  { numDomestic := d.numLocal
    toGlobal := g.toGlobal
    toDomestic := g.toDomestic
    withPeer := fun _ => []
    byIndex := fun _ _ => none
    borderDistance := fun i => if i < d.numLocal then some 0 else none
    blackMap := fun _ => none }

/-- `addIndex` (opm/simulators/linalg/globalindices.hh:123-130) of an index which is new. -/
def Domestic.addIndex (s : Domestic P) (globalIdx : ℕ) : Domestic P :=
  { s with
    toGlobal := Function.update s.toGlobal s.numDomestic (some globalIdx)
    toDomestic := Function.update s.toDomestic globalIdx (some s.numDomestic)
    numDomestic := s.numDomestic + 1 }

/-- Messages: the overlap as pairs of global indices and border distances, or pairs of global and native indices.  The numbers
of peers, which nobody reads, are left out. -/
inductive Msg where
  | overlap (l : List (ℕ × ℕ))
  | black (l : List (ℕ × ℕ))

/-- The indices of `sendIndicesToPeer_` (opm/simulators/linalg/domesticoverlapfrombcrsmatrix.hh:447-481) -/
def sendIndices (d : Native P) (f : Foreign P) (peerRank : Fin P) (s : Domestic P) : List (ℕ × ℕ) :=
  (foreignWith d f peerRank).map fun l => ((s.toGlobal l).getD 0, (f.byLocal l peerRank).getD 0)

/-- The body of the loop of `receiveIndicesFromPeer_` (opm/simulators/linalg/domesticoverlapfrombcrsmatrix.hh:504-533) -/
def receiveIndex (peerRank : Fin P) (s : Domestic P) (x : ℕ × ℕ) : Domestic P :=
  let s := if (s.toDomestic x.1).isSome then s else s.addIndex x.1
  match s.toDomestic x.1 with
  | none => s
  | some i =>
    { s with
      byIndex := Function.update s.byIndex i (Function.update (s.byIndex i) peerRank (some x.2))
      withPeer := Function.update s.withPeer peerRank (s.withPeer peerRank ++ [i])
      borderDistance := Function.update s.borderDistance i (some ((s.borderDistance i).elim x.2 (min x.2))) }

/-- `buildDomesticOverlap_` (opm/simulators/linalg/domesticoverlapfrombcrsmatrix.hh:377-410) -/
def buildDomesticOverlap (d : Fin P → Native P) (f : Fin P → Foreign P) : Round (Fin P) (Domestic P) Msg where
  send p q s := .overlap (sendIndices (d p) (f p) q s)
  recv _ q m s := match m with
    | .overlap l => l.foldl (receiveIndex q) s
    | .black _ => s

/-- The lowest of some ranks; `updateMasterRanks_` starts with the largest number (opm/simulators/linalg/domesticoverlapfrombcrsmatrix.hh:424-427), which is
`none` here. -/
def minRank (l : List (Fin P)) : Option (Fin P) := l.foldl (fun m q => some (m.elim q (min q))) none

/-- `updateMasterRanks_` (opm/simulators/linalg/domesticoverlapfrombcrsmatrix.hh:412-445).  An index which no peer has sent would keep the largest number;
it gets the own rank here. -/
noncomputable def domesticMasterRank (d : Native P) (f : Foreign P) (s : Domestic P) (myRank : Fin P) (i : ℕ) : Fin P :=
  if i < d.numLocal then masterRank d f myRank i
  else (minRank (f.peerSet.filter fun q => i ∈ s.withPeer q)).getD myRank

/-- `nativeToDomestic` (opm/simulators/linalg/domesticoverlapfrombcrsmatrix.hh:302-308) -/
def nativeToDomestic (d : Native P) (nativeIdx : ℕ) : Option ℕ := d.nativeToLocal nativeIdx

/-- `updateNativeToDomesticMap` (opm/simulators/linalg/blacklist.hh:80-103, 130-176): pairs of the global index and the native index of the peer. -/
def updateNativeToDomesticMap (d : Fin P → Native P) : Round (Fin P) (Domestic P) Msg where
  send p q s := .black (((d p).peerBlackList q).map fun x =>
    (((nativeToDomestic (d p) x.2).bind s.toGlobal).getD 0, x.1))
  recv _ _ m s := match m with
    | .black l => { s with blackMap := l.foldl (fun b x => Function.update b x.2 (s.toDomestic x.1)) s.blackMap }
    | .overlap _ => s

/-- The answers of the overlap of one process (opm/simulators/linalg/domesticoverlapfrombcrsmatrix.hh:136-137,236-237,274-308,343-356). -/
noncomputable def answers (d : Native P) (f : Foreign P) (myRank : Fin P) (s : Domestic P) : Sync.Overlap P :=
  { numDomestic := s.numDomestic
    domesticToGlobal := fun i => (s.toGlobal i).getD 0
    globalToDomestic := s.toDomestic
    domesticToNative := d.localToNative
    nativeToDomestic := nativeToDomestic d
    masterRank := domesticMasterRank d f s myRank
    foreignOverlap := foreignWith d f
    peerSet := f.peerSet }

/-! ### The constructor -/

/-- The members which one process sets up: of the foreign overlap, of the global indices, and of the domestic overlap with the black
list. -/
structure Process (P : ℕ) where
  foreign : Foreign P
  globals : State
  domestic : Domestic P

/-- The messages of all parts; MPI does not tell them apart, and a message of the wrong kind is ignored here. -/
inductive AnyMsg (P : ℕ) where
  | seeds (l : List (BorderIndex P))
  | number (m : GlobalIdx.Msg)
  | indices (m : Msg)

/-- What the foreign overlap gets from a message -/
def AnyMsg.toSeeds : AnyMsg P → Option (List (BorderIndex P))
  | .seeds l => some l
  | _ => none

/-- What the global indices get from a message -/
def AnyMsg.toNumber : AnyMsg P → Option GlobalIdx.Msg
  | .number m => some m
  | _ => none

/-- An operation of the foreign overlap -/
def liftForeign : Op (Fin P) (Foreign P) (List (BorderIndex P)) → Op (Fin P) (Process P) (AnyMsg P) :=
  Op.lift Process.foreign (fun f s => { s with foreign := f }) AnyMsg.seeds AnyMsg.toSeeds

/-- An operation of the global indices -/
def liftGlobals : Op (Fin P) State GlobalIdx.Msg → Op (Fin P) (Process P) (AnyMsg P) :=
  Op.lift Process.globals (fun f s => { s with globals := f }) AnyMsg.number AnyMsg.toNumber

/-- A round of the domestic overlap, which reads the foreign overlap -/
def liftDomestic (r : (Fin P → Foreign P) → Round (Fin P) (Domestic P) Msg) : Round (Fin P) (Process P) (AnyMsg P) where
  send p q s := .indices ((r fun _ => s.foreign).send p q s.domestic)
  recv p q m s := match m with
    | .indices m => { s with domestic := (r fun _ => s.foreign).recv p q m s.domestic }
    | _ => s

/-- The constructor of `DomesticOverlapFromBCRSMatrix` (opm/simulators/linalg/domesticoverlapfrombcrsmatrix.hh:64-89) with those of
`ForeignOverlapFromBCRSMatrix` and `GlobalIndices`.  The peers of the later parts are those of the border list here; that these
are the ones the foreign overlap has then is a theorem.  `check` is left out. -/
def construct (d : Fin P → Native P) (overlapSize : ℕ) (p : Fin P) : List (Op (Fin P) (Process P) (AnyMsg P)) :=
  (foreignProgram d overlapSize p).map liftForeign
    ++ (GlobalIdx.program overlapSize ((d p).part (d p).neighborPeers) p).map liftGlobals
    ++ [.compute fun s => { s with domestic := Domestic.init (d p) s.globals }]
    ++ roundProgram (fun p => (d p).neighborPeers) (liftDomestic (buildDomesticOverlap d)) p
    ++ roundProgram (fun p => (d p).blackPeers) (liftDomestic fun _ => updateNativeToDomesticMap d) p

/-- Before the constructor: nothing is known about the domestic overlap. -/
def Process.start (d : Native P) (any : Domestic P) : Process P :=
  { foreign := Foreign.init d, globals := State.empty, domestic := any }

/-- The answers of the overlap which a process has set up -/
noncomputable def Process.answers (d : Native P) (myRank : Fin P) (s : Process P) : Sync.Overlap P :=
  Overlap.answers d s.foreign myRank s.domestic

end Verif.Overlap
