import Verif.Overlap.VertexConstructed
import Verif.Sync.Props
import Mathlib.Data.List.Dedup
import Mathlib.Data.Fin.VecNotation

/-
C142: the overlaps of grids whose degrees of freedom are the vertices.
-/

set_option autoImplicit false
set_option linter.unusedSectionVars false

namespace Verif.Overlap.Vertex

open Verif.Mpi Verif.GlobalIdx Verif.Overlap

variable {P : ℕ} {G : Type} {verts : Fin P → List G} {d : Fin P → Native P} {overlapSize : ℕ}

/-- **C142** Extending the foreign overlaps never deadlocks.  Then each process knows, for each of its vertices, all other processes
whose vertices are at most `overlapSize` steps away, through the vertices of whatever processes, with the number of steps, and has
these processes as peers, which are just those the later parts of the construction need. -/
theorem C142_foreign (v : Valid verts d) (s : System (Fin P) (Foreign P) (List (BorderIndex P)))
    (h : Reach (start (foreignProgram d overlapSize) fun p => Foreign.init (d p)) s) :
    (Finished s → ∀ p, (s.state p).peerSet = peers verts d overlapSize p ∧
      ∀ l r m, (s.state p).byLocal l r = some m ↔ r ≠ p ∧ m ≤ overlapSize ∧ ∃ x, (verts p)[l]? = some x ∧ Dist verts d r m x) ∧
      (¬Finished s → ∃ t, Step true s t) := by
  obtain ⟨h1, h2⟩ := (settles_foreign v).correct s h
  refine ⟨fun hf p => ?_, h2⟩
  rw [h1 hf p]
  exact ⟨found_peerSet v p, fun l r m => found_byLocal v p r l m⟩

/-- **C142** Whatever the grid and its distribution, for any size of the overlap, whatever the MPI library buffers and however the
processes are scheduled: setting up the overlaps never deadlocks, and when all processes are through the vertices are numbered
consecutively and each process has exactly the vertices of its overlap, with the right masters, distances and indices. -/
theorem C142_construct (v : Valid verts d) (any : Fin P → Domestic P) (s : System (Fin P) (Process P) (AnyMsg P))
    (h : Reach (start (constructWith d overlapSize (peers verts d overlapSize)) fun p => Process.start (d p) (any p)) s) :
    (Finished s → ∃ (count : ℕ) (number : G → ℕ), Set.BijOn number (all verts) {n | n < count} ∧
      Constructed verts d overlapSize number s.state) ∧ (¬Finished s → ∃ t, Step true s t) := by
  obtain ⟨count, number, τ, hτ, hbij, hc⟩ := settles_constructed (overlapSize := overlapSize) v any
  obtain ⟨h1, h2⟩ := hτ.correct s h
  refine ⟨fun hf => ⟨count, number, hbij, ?_⟩, h2⟩
  rw [show s.state = τ from funext (h1 hf)]
  exact hc

/-- **C142** Setting up the overlaps comes to an end. -/
theorem C142_terminates (v : Valid verts d) (any : Fin P → Domestic P) (s : System (Fin P) (Process P) (AnyMsg P))
    (h : Reach (start (constructWith d overlapSize (peers verts d overlapSize)) fun p => Process.start (d p) (any p)) s) :
    (∀ t, Next s t → remaining t < remaining s) ∧ ∃ t, Relation.ReflTransGen (Step true) s t ∧ Finished t := by
  obtain ⟨count, number, τ, hτ, -, -⟩ := settles_constructed (overlapSize := overlapSize) v any
  exact ⟨fun t ht => remaining_lt ht, hτ.can_finish s h⟩

/-- **C142** The overlaps which the processes have set up meet what vectors need (see C50). -/
theorem C142_coherent (v : Valid verts d) (any : Fin P → Domestic P) (s : System (Fin P) (Process P) (AnyMsg P))
    (h : Reach (start (constructWith d overlapSize (peers verts d overlapSize)) fun p => Process.start (d p) (any p)) s)
    (hf : Finished s) :
    Sync.Coherent (fun p => (s.state p).answers (d p) p) ∧ Sync.Complete (fun p => (s.state p).answers (d p) p) := by
  obtain ⟨count, number, τ, hτ, hbij, hc⟩ := settles_constructed (overlapSize := overlapSize) v any
  obtain ⟨h1, -⟩ := hτ.correct s h
  rw [show s.state = τ from funext (h1 hf)]
  exact coherent_of_constructed v hbij.injOn hc

/-- **C142** Assigning native vectors gives each process, for each vertex of its overlap, the value which the process of the lowest
rank with this vertex has for it. -/
theorem C142_assign {K : Type} [Zero K] (v : Valid verts d) (any : Fin P → Domestic P)
    (s : System (Fin P) (Process P) (AnyMsg P))
    (h : Reach (start (constructWith d overlapSize (peers verts d overlapSize)) fun p => Process.start (d p) (any p)) s)
    (hf : Finished s) (native : Fin P → ℕ → K) (w : System (Fin P) (Sync.Vector P K) (Sync.Msg K))
    (hw : Reach (start (Sync.assignProgram fun p => (s.state p).answers (d p) p)
      fun p => Sync.fresh (Sync.fromNative ((s.state p).answers (d p) p) (native p))) w) :
    (Finished w → ∃ number : G → ℕ, Set.InjOn number (all verts) ∧ ∀ p,
      (∀ x ∈ all verts, Sync.Holds ((s.state p).answers (d p) p) (number x) ↔ InOverlap verts d overlapSize p x) ∧
      ∀ i < ((s.state p).answers (d p) p).numDomestic, ∃ x ∈ all verts, ((s.state p).answers (d p) p).domesticToGlobal i = number x ∧
        ∀ r j, IsLowest verts x r → (verts r)[j]? = some x → (w.state p).entries i = native r j) ∧
      (¬Finished w → ∃ t, Step true w t) := by
  obtain ⟨count, number, τ, hτ, hbij, hc⟩ := settles_constructed (overlapSize := overlapSize) v any
  obtain ⟨h1, -⟩ := hτ.correct s h
  rw [show s.state = τ from funext (h1 hf)] at hw ⊢
  obtain ⟨hco, -⟩ := coherent_of_constructed v hbij.injOn hc
  obtain ⟨k1, k2⟩ := Sync.C50_sync hco (fun p => Sync.fromNative ((τ p).answers (d p) p) (native p)) w hw
  refine ⟨fun hfin => ⟨number, hbij.injOn, fun p => ⟨hc.holds p, fun i hi => ?_⟩⟩, k2⟩
  obtain ⟨x, hx, e, hm⟩ := hc.vertex p i hi
  refine ⟨x, hx, e, fun r j hr hj => ?_⟩
  have hrm : ((τ p).answers (d p) p).masterRank i = r := le_antisymm (hm.2 _ hr.1) (hr.2 _ hm.1)
  obtain ⟨l, hl, hl', hval⟩ := k1 hfin p i hi
  simp only [hrm] at hl hl' hval
  rw [e] at hl'
  have hnat := (hc.native r j l).2 ⟨hl, x, hj, hl'⟩
  have hback := (hc.back r j l).2 hnat
  rw [← hval]
  unfold Sync.fromNative
  rw [hback]

/-- **C142** Assigning native vectors with `assignAddBorder` gives each process, for each vertex of its overlap, the sum of the values
which all processes with this vertex have for it. -/
theorem C142_add {K : Type} [AddCommMonoid K] (v : Valid verts d) (any : Fin P → Domestic P)
    (s : System (Fin P) (Process P) (AnyMsg P))
    (h : Reach (start (constructWith d overlapSize (peers verts d overlapSize)) fun p => Process.start (d p) (any p)) s)
    (hf : Finished s) (native : Fin P → ℕ → K) (w : System (Fin P) (Sync.Vector P K) (Sync.Msg K))
    (hw : Reach (start (Sync.assignAddBorderProgram fun p => (s.state p).answers (d p) p)
      fun p => Sync.fresh (Sync.fromNative ((s.state p).answers (d p) p) (native p))) w) :
    (Finished w → ∃ number : G → ℕ, Set.InjOn number (all verts) ∧ ∀ p,
      (∀ x ∈ all verts, Sync.Holds ((s.state p).answers (d p) p) (number x) ↔ InOverlap verts d overlapSize p x) ∧
      ∀ i < ((s.state p).answers (d p) p).numDomestic, ∃ x ∈ all verts, ((s.state p).answers (d p) p).domesticToGlobal i = number x ∧
        ∀ value : Fin P → K, (∀ q j, (verts q)[j]? = some x → value q = native q j) → (∀ q, x ∉ verts q → value q = 0) →
          (w.state p).entries i = ∑ q, value q) ∧
      (¬Finished w → ∃ t, Step true w t) := by
  obtain ⟨count, number, τ, hτ, hbij, hc⟩ := settles_constructed (overlapSize := overlapSize) v any
  obtain ⟨h1, -⟩ := hτ.correct s h
  rw [show s.state = τ from funext (h1 hf)] at hw ⊢
  obtain ⟨hco, hcomp⟩ := coherent_of_constructed v hbij.injOn hc
  obtain ⟨k1, k2⟩ := Sync.C50_assignAddBorder hco hcomp native w hw
  refine ⟨fun hfin => ⟨number, hbij.injOn, fun p => ⟨hc.holds p, fun i hi => ?_⟩⟩, k2⟩
  obtain ⟨x, hx, e, -⟩ := hc.vertex p i hi
  refine ⟨x, hx, e, fun value hv hv0 => ?_⟩
  rw [k1 hfin p i hi]
  refine Finset.sum_congr rfl fun q _ => ?_
  simp only [e]
  unfold Sync.contribution
  have hiff : ∀ n, (∃ i < ((τ q).answers (d q) q).numDomestic, ((τ q).answers (d q) q).domesticToGlobal i = number x ∧
      ((τ q).answers (d q) q).domesticToNative i = some n) ↔ (verts q)[n]? = some x := by
    intro n
    constructor
    · rintro ⟨i, hi, h1, h2⟩
      obtain ⟨-, y, hy, e'⟩ := (hc.native q n i).1 ((hc.back q n i).1 h2)
      rw [h1] at e'
      rw [hbij.injOn hx ⟨q, List.mem_of_getElem? hy⟩ e']
      exact hy
    · intro hn
      have := (toLocal v q n n).2 ⟨rfl, lt_of_get hn⟩
      obtain ⟨h1, y, hy, e'⟩ := (hc.native q n n).1 this
      rw [hn] at hy
      injection hy with hy
      subst hy
      exact ⟨n, h1, e', (hc.back q n n).2 this⟩
  split_ifs with hex
  · exact (hv q _ ((hiff _).1 hex.choose_spec)).symm
  · rw [hv0 q]
    intro hq
    obtain ⟨n, hn⟩ := exists_get hq
    exact hex ⟨n, (hiff n).2 hn⟩

/-! ### Grids -/

/-- What the constructors get for a distributed grid without ghost vertices: the border list has an entry for each vertex of the
process and each other process which has the vertex, as the data handle collects them
(opm/simulators/linalg/vertexborderlistfromgrid.hh:60-64,87-112).  The order of the entries is chosen here. -/
def ofGrid [DecidableEq G] (verts : Fin P → List G) (cols : Fin P → ℕ → List ℕ) (p : Fin P) : Native P :=
  { blackList := List.replicate (verts p).length false
    borderList := (((List.finRange P).filter (· ≠ p)).flatMap fun q => (List.range (verts p).length).flatMap fun i =>
      ((List.range (verts q).length).filter fun j => (verts p)[i]? = (verts q)[j]?).map fun j => ⟨i, j, q, 0⟩).dedup
    cols := cols p
    blackPeers := []
    peerBlackList := fun _ => [] }

theorem ofGrid_valid [DecidableEq G] (verts : Fin P → List G) (cols : Fin P → ℕ → List ℕ) (h : ∀ p, (verts p).Nodup)
    (hc : ∀ p, ∀ i < (verts p).length, ∀ j < (verts p).length, j ∈ cols p i → i ∈ cols p j) : Valid verts (ofGrid verts cols) where
  nodup := h
  black p := ⟨0, by simp [ofGrid]⟩
  border p e := by
    unfold ofGrid
    simp only [List.mem_dedup, List.mem_flatMap, List.mem_filter, List.mem_finRange, true_and, decide_eq_true_eq, List.mem_range,
      List.mem_map]
    constructor
    · rintro ⟨q, hq, i, hi, j, ⟨hj, hij⟩, rfl⟩
      exact ⟨rfl, hq, _, List.getElem?_eq_getElem hi, by rw [← hij, List.getElem?_eq_getElem hi]⟩
    · rintro ⟨h0, hq, x, h1, h2⟩
      refine ⟨e.peerRank, hq, e.localIdx, lt_of_get h1, e.peerIdx, ⟨lt_of_get h2, h1.trans h2.symm⟩, ?_⟩
      cases e
      simp only at h0
      subst h0
      rfl
  borderNodup p := List.nodup_dedup _
  blackPeers _ := rfl
  symmetric := hc

/-- Three processes in a row: the middle one has two vertices, one of which it shares with each of the others. -/
def rowVerts : Fin 3 → List ℕ := ![[0, 1], [1, 2], [2, 3]]

/-- The vertices of a process are next to each other. -/
def rowCols : Fin 3 → ℕ → List ℕ := fun _ _ => [0, 1]

theorem row_valid : Valid rowVerts (ofGrid rowVerts rowCols) :=
  ofGrid_valid rowVerts rowCols (by decide) (by decide)

/-- The process 0 has the process 2 as a peer, although they share no vertex: the process 1 told them. -/
example : 2 ∈ peers rowVerts (ofGrid rowVerts rowCols) 1 0 ∧ 2 ∉ (ofGrid rowVerts rowCols 0).neighborPeers := by
  refine ⟨?_, by decide⟩
  rw [mem_peers]
  exact ⟨by decide, 1, by decide, 1, le_rfl, Walk.step 0 2 1 (Walk.start 2 (by decide)) ⟨1, 1, 0, by decide, by decide, by decide⟩⟩

/-! ### Ghost vertices -/

/-- The same grid, but the process 1 has a ghost vertex, which has the lowest index and is black-listed
(opm/simulators/linalg/vertexborderlistfromgrid.hh:66-76).  Its other vertices have the native indices 1 and 2. -/
def ghost : Fin 3 → Native 3 :=
  ![{ blackList := [false, false], borderList := [⟨1, 1, 1, 0⟩], cols := fun _ => [0, 1], blackPeers := [], peerBlackList := fun _ => [] },
    { blackList := [true, false, false], borderList := [⟨1, 1, 0, 0⟩, ⟨2, 0, 2, 0⟩],
      cols := fun i => if i = 1 ∨ i = 2 then [1, 2] else [0], blackPeers := [], peerBlackList := fun _ => [] },
    { blackList := [false, false], borderList := [⟨0, 2, 1, 0⟩], cols := fun _ => [0, 1], blackPeers := [], peerBlackList := fun _ => [] }]

/-- The border lists are those of the grid. -/
example : (∀ p, ∀ e ∈ (ghost p).borderList, e.peerRank ≠ p ∧ e.borderDistance = 0 ∧
    (⟨e.peerIdx, e.localIdx, p, 0⟩ : BorderIndex 3) ∈ (ghost e.peerRank).borderList) := by decide

theorem ghost_settles : Settles (foreignProgram ghost 1) (fun p => Foreign.init (ghost p)) (stage ghost 1 2) := by
  have key : ∀ k, Settles (fun p => ((List.range k).filter fun x => decide ((ghost p).minBorderDist 1 ≤ x)).flatMap fun dist =>
        roundProgram (fun p => (ghost p).neighborPeers) (addNonNeighborOverlapIndices ghost dist) p ++
          [.compute (afterLevel (ghost p) 1 dist)]) (fun p => Foreign.init (ghost p)) (stage ghost 1 k) := by
    have hmin : ∀ p, (ghost p).minBorderDist 1 = 0 := by decide
    intro k
    induction k with
    | zero => exact Settles.nil
    | succ k ih =>
      have h1 := settles_round (neighbors_nodup (d := ghost)) (by decide) (by decide) (addNonNeighborOverlapIndices ghost k)
        (stage ghost 1 k)
      have h2 := Settles.compute (M := List (BorderIndex 3))
        (σ := runRound (fun p => (ghost p).neighborPeers) (stage ghost 1 k) (addNonNeighborOverlapIndices ghost k))
        (fun p => afterLevel (ghost p) 1 k)
      have h3 := ih.append (h1.append h2)
      have e : stage ghost 1 (k + 1) = fun p => afterLevel (ghost p) 1 k
          (runRound (fun p => (ghost p).neighborPeers) (stage ghost 1 k) (addNonNeighborOverlapIndices ghost k) p) := by
        funext p
        rw [stage]
        dsimp only
        rw [if_pos (by rw [hmin]; omega)]
      rw [e]
      convert h3 using 2 with p
      rw [List.range_succ, List.filter_append, List.flatMap_append]
      congr 1
      rw [List.filter_cons_of_pos (by simp [hmin])]
      simp
  have h := key 2
  have e : foreignProgram ghost 1 = fun p => ((List.range 2).filter fun x => decide ((ghost p).minBorderDist 1 ≤ x)).flatMap fun dist =>
        roundProgram (fun p => (ghost p).neighborPeers) (addNonNeighborOverlapIndices ghost dist) p ++
          [.compute (afterLevel (ghost p) 1 dist)] := by
    funext p
    unfold foreignProgram
    rw [levels_eq]
  rw [e]
  exact h

/-- **C142, violated** With ghost vertices which have lower indices than others, the processes do not find their overlaps: what is
communicated mixes up local and native indices.  Here the vertices of the process 0 are one step away from the vertex 0 of the process 2, but the
process 2 does not learn about this; moreover, it takes a process for the master of the vertex which it should have a copy of which
is not the one of the lowest rank: whatever is received afterwards, it never is the process 0. -/
theorem C142_ghost_violated (s : System (Fin 3) (Foreign 3) (List (BorderIndex 3)))
    (h : Reach (start (foreignProgram ghost 1) fun p => Foreign.init (ghost p)) s) (hf : Finished s) :
    (s.state 1).byLocal 1 0 = some 1 ∧ (ghost 1).localToNative 1 = some 2 ∧ (⟨0, 2, 1, 0⟩ : BorderIndex 3) ∈ (ghost 2).borderList ∧
      (s.state 2).byLocal 0 0 = none ∧ ¬(s.state 2).peers 0 ∧
      ∀ (D : Domestic 3) (i : ℕ), ¬i < (ghost 2).numLocal → domesticMasterRank (ghost 2) (s.state 2) D 2 i ≠ 0 := by
  have e : s.state = stage ghost 1 2 := funext ((ghost_settles.correct s h).1 hf)
  rw [e]
  have hp : ¬(stage ghost 1 2 2).peers 0 := by
    have hh : ∀ k < 2, handles ghost (stage ghost 1 k) 2 = [] := by decide +kernel
    have hstep : ∀ k < 2, (stage ghost 1 (k + 1) 2).peers = (stage ghost 1 k 2).peers := by
      intro k hk
      rw [stage]
      dsimp only
      rw [runRound_handles, hh k hk, List.foldl_nil]
      split_ifs
      · exact afterLevel_peers _ _ _
      · rfl
    rw [hstep 1 (by omega), hstep 0 (by omega)]
    show ¬(0 : Fin 3) ∈ (ghost 2).neighborPeers
    decide
  refine ⟨by decide +kernel, by decide, by decide, by decide +kernel, hp, ?_⟩
  intro D i hi
  unfold domesticMasterRank
  rw [if_neg hi]
  have hm : ∀ m, minRank ((stage ghost 1 2 2).peerSet.filter fun q => decide (i ∈ D.withPeer q)) = some m → m ≠ 0 := by
    intro m hm
    by_cases hne : ((stage ghost 1 2 2).peerSet.filter fun q => decide (i ∈ D.withPeer q)) = []
    · rw [hne] at hm; cases hm
    · obtain ⟨m', h1, h2, -⟩ := minRank_spec _ hne
      rw [hm] at h1
      have := Option.some.inj h1
      subst this
      rintro rfl
      have := (List.mem_filter.1 h2).1
      unfold Foreign.peerSet at this
      rw [List.mem_filter] at this
      exact hp (by simpa using this.2)
  cases hmr : minRank ((stage ghost 1 2 2).peerSet.filter fun q => decide (i ∈ D.withPeer q)) with
  | none => decide
  | some m => exact hm m hmr

end Verif.Overlap.Vertex
