import Verif.Sync.Lemmas
import Mathlib.Data.Rat.Defs
import Mathlib.Tactic.FinCases

/-
C50: synchronising vectors with copies on several processes.
-/

set_option autoImplicit false
set_option linter.unusedSectionVars false

namespace Verif.Sync

open Verif.Mpi

variable {P : ℕ} {K : Type} {o : Fin P → Overlap P}

theorem runRounds_two {S M : Type} (peers : Fin P → List (Fin P)) (σ : Fin P → S) (r r' : Round (Fin P) S M) :
    runRounds peers σ [r, r'] = runRound peers (runRound peers σ r) r' := rfl

/-- **C50** Whatever values the processes have, whatever the MPI library buffers and in whatever order messages are sent and
received: when all have finished `sync`, each copy of an unknown has the value which its master had before. -/
theorem C50_sync [Zero K] (c : Coherent o) (e : Fin P → ℕ → K) (s : System (Fin P) (Vector P K) (Msg K))
    (h : Reach (start (program (fun p => (o p).peerSet) [createBuffers o, sync o]) fun p => fresh (e p)) s) :
    (Finished s → ∀ p, ∀ i < (o p).numDomestic,
      IsCopy (o ((o p).masterRank i)) (e ((o p).masterRank i)) ((o p).domesticToGlobal i) ((s.state p).entries i)) ∧
      (¬Finished s → ∃ t, Step true s t) := by
  obtain ⟨h1, h2⟩ := rounds_correct (fun p => (o p).peerSet) c.nodup c.symm c.irrefl _ _ s h
  refine ⟨fun hf p i hi => ?_, h2⟩
  rw [h1 hf p, runRounds_two]
  have := sync_entry c _ (fun p => (createBuffers_buffers c e p).1) p i hi
  rwa [(createBuffers_buffers c e _).2] at this

/-- **C50** After `sync` all copies of an unknown have the same value. -/
theorem C50_consistent [Zero K] (c : Coherent o) (e : Fin P → ℕ → K) (s : System (Fin P) (Vector P K) (Msg K))
    (h : Reach (start (program (fun p => (o p).peerSet) [createBuffers o, sync o]) fun p => fresh (e p)) s) (hf : Finished s)
    (p q : Fin P) (i j : ℕ) (hi : i < (o p).numDomestic) (hj : j < (o q).numDomestic)
    (hij : (o p).domesticToGlobal i = (o q).domesticToGlobal j) : (s.state p).entries i = (s.state q).entries j := by
  obtain ⟨a, ha, ha', ha''⟩ := (C50_sync c e s h).1 hf p i hi
  obtain ⟨b, hb, hb', hb''⟩ := (C50_sync c e s h).1 hf q j hj
  rw [← ha'', ← hb'']
  have hm := c.agree p q i hi j hj hij
  revert ha ha'
  rw [hm]
  intro ha ha'
  rw [global_inj c ha hb (ha'.trans (hij.trans hb'.symm))]

/-- **C50** Several synchronisations with computations in between: from any values, once the buffers are set up, a further `sync`
does the same. -/
theorem C50_sync_again [Zero K] (c : Coherent o) (σ : Fin P → Vector P K) (hb : ∀ p, Buffers o p (σ p))
    (s : System (Fin P) (Vector P K) (Msg K)) (h : Reach (start (program (fun p => (o p).peerSet) [sync o]) σ) s) :
    (Finished s → ∀ p, Buffers o p (s.state p) ∧ ∀ i < (o p).numDomestic,
      IsCopy (o ((o p).masterRank i)) (σ ((o p).masterRank i)).entries ((o p).domesticToGlobal i) ((s.state p).entries i)) ∧
      (¬Finished s → ∃ t, Step true s t) := by
  obtain ⟨h1, h2⟩ := rounds_correct (fun p => (o p).peerSet) c.nodup c.symm c.irrefl _ _ s h
  refine ⟨fun hf p => ?_, h2⟩
  have e : s.state p = runRound (fun p => (o p).peerSet) σ (sync o) p := h1 hf p
  rw [e]
  exact ⟨(sync_round c σ hb p).2, fun i hi => sync_entry c σ hb p i hi⟩

/-- **C50** When all processes have finished `assignAddBorder` each copy of an unknown is the sum of what all processes
contribute to it: each native value is counted exactly once, wherever the copy is. -/
theorem C50_assignAddBorder [AddCommMonoid K] (c : Coherent o) (hc : Complete o) (native : Fin P → ℕ → K)
    (s : System (Fin P) (Vector P K) (Msg K))
    (h : Reach (start (assignAddBorderProgram o) fun p => fresh (fromNative (o p) (native p))) s) :
    (Finished s → ∀ p, ∀ i < (o p).numDomestic,
      (s.state p).entries i = ∑ q, contribution (o q) (native q) ((o p).domesticToGlobal i)) ∧
      (¬Finished s → ∃ t, Step true s t) := by
  obtain ⟨h1, h2⟩ := rounds_correct (fun p => (o p).peerSet) c.nodup c.symm c.irrefl _ _ s h
  refine ⟨fun hf p i hi => ?_, h2⟩
  rw [h1 hf p, runRounds_two]
  exact syncAdd_entry c hc native _ (fun p => (createBuffers_buffers c _ p).1) (fun p => (createBuffers_buffers c _ p).2) p i hi

/-- **C50** Synchronising comes to an end. -/
theorem C50_terminates [Zero K] (c : Coherent o) (e : Fin P → ℕ → K) (s : System (Fin P) (Vector P K) (Msg K))
    (h : Reach (start (program (fun p => (o p).peerSet) [createBuffers o, sync o]) fun p => fresh (e p)) s) :
    (∀ t, Next s t → remaining t < remaining s) ∧ ∃ t, Relation.ReflTransGen (Step true) s t ∧ Finished t :=
  ⟨fun _ ht => remaining_lt ht, rounds_can_finish (fun p => (o p).peerSet) c.nodup c.symm c.irrefl _ _ s h⟩

/-! ### An example

Three processes in a row with two cells each, and an overlap of one cell: the process `p` has the cells `2 p` and `2 p + 1`, and
copies of the next cells to the left and to the right. -/

/-- The global indices of the domestic ones: first the own cells, then those of the peers. -/
def rowCells (p : Fin 3) : List ℕ :=
  if p = 0 then [0, 1, 2] else if p = 1 then [2, 3, 1, 4] else [4, 5, 3]

def row (p : Fin 3) : Overlap 3 :=
  { numDomestic := (rowCells p).length
    domesticToGlobal := fun i => (rowCells p).getD i 0
    globalToDomestic := fun g => if g ∈ rowCells p then some ((rowCells p).idxOf g) else none
    domesticToNative := fun i => if i < 2 then some i else none
    nativeToDomestic := fun i => if i < 2 then some i else none
    masterRank := fun i => ⟨(rowCells p).getD i 0 / 2 % 3, by omega⟩
    foreignOverlap := fun q => if q.val + 1 = p.val then [0] else if p.val + 1 = q.val then [1] else []
    peerSet := if p = 0 then [1] else if p = 1 then [0, 2] else [1] }

theorem rowCells_nodup : ∀ p, (rowCells p).Nodup := by decide

theorem row_coherent : Coherent row where
  nodup := by decide
  symm := by decide
  irrefl := by decide
  index := by
    intro p g i
    show (if g ∈ rowCells p then some ((rowCells p).idxOf g) else none) = some i ↔
      i < (rowCells p).length ∧ (rowCells p).getD i 0 = g
    constructor
    · intro h
      split_ifs at h with hg
      injection h with h
      have hl := List.idxOf_lt_length_iff.2 hg
      rw [← h]
      refine ⟨hl, ?_⟩
      simp [List.getD, List.getElem?_eq_getElem hl]
    · rintro ⟨hi, rfl⟩
      have e : (rowCells p).getD i 0 = (rowCells p)[i] := by simp [List.getD, List.getElem?_eq_getElem hi]
      rw [e, if_pos (List.getElem_mem hi), List.Nodup.idxOf_getElem (rowCells_nodup p)]
  listed := by
    unfold Holds
    decide
  agree := by
    intro p q i _ j _ h
    have h' : (rowCells p).getD i 0 = (rowCells q).getD j 0 := h
    apply Fin.ext
    show (rowCells p).getD i 0 / 2 % 3 = (rowCells q).getD j 0 / 2 % 3
    rw [h']
  master := by decide

theorem row_complete : Complete row := by
  unfold Complete Holds
  decide

/-- The hypotheses of `C50_sync` and `C50_assignAddBorder` are met. -/
example (e : Fin 3 → ℕ → ℚ) (s : System (Fin 3) (Vector 3 ℚ) (Msg ℚ))
    (h : Reach (start (program (fun p => (row p).peerSet) [createBuffers row, sync row]) fun p => fresh (e p)) s)
    (hf : Finished s) : (s.state 0).entries 2 = e 1 0 := by
  obtain ⟨i, hi, hg, hv⟩ := (C50_sync row_coherent e s h).1 hf 0 2 (by decide)
  have hm : (row 0).masterRank 2 = 1 := by decide
  rw [hm] at hi hg hv
  have : i = 0 := global_inj row_coherent (p := 1) hi (by decide) (hg.trans (by decide))
  rw [← hv, this]

end Verif.Sync
