import Verif.Overlap.Border
import Verif.Overlap.Props
import Verif.Mpi.Starve

/-
C104: the border list of cells.
-/

set_option autoImplicit false
set_option linter.unusedSectionVars false

namespace Verif.Overlap

open Verif.GlobalIdx Verif.Mpi

variable {P : ℕ} {G : Type} [DecidableEq G] {m : Mesh P G}

theorem index_iff (v : m.Valid) {p : Fin P} {c : G} (hc : c ∈ m.cells p) (i : ℕ) : (m.cells p)[i]? = some c ↔ i = m.index p c := by
  unfold Mesh.index
  have hl := List.idxOf_lt_length_iff.2 hc
  constructor
  · intro h
    obtain ⟨h1, h2⟩ := List.getElem?_eq_some_iff.1 h
    rw [← h2, List.Nodup.idxOf_getElem (v.nodup p)]
  · rintro rfl
    rw [List.getElem?_eq_getElem hl]
    simp

theorem scatter_all {p q : Fin P} (l : List G) (h : ∀ c ∈ l, m.isInteriorNeighbor p c) :
    m.scatterBorder p (l.map fun c => (q, m.index q c)) l = l.map fun c => ⟨m.index p c, m.index q c, q, 1⟩ := by
  induction l with
  | nil => rfl
  | cons c l ih =>
    rw [List.map_cons, Mesh.scatterBorder, if_pos (h c (by simp)), List.map_cons]
    simp only
    rw [ih (fun c hc => h c (List.mem_cons_of_mem _ hc))]

/-- The full claim of **C104**: the border list, the black list and the lists for the peers say what the grid is. -/
def BorderListCorrect (m : Mesh P G) : Prop := Valid m.toGrid m.native

/-- **C104** If each own cell of which another process has a copy has an own neighbour, the lists are right.  What is missing: they
are wrong otherwise, see `C104_isolated_violated` and `C104_single_violated`. -/
theorem C104_border_partial (v : m.Valid) (h : ∀ p q, ∀ c ∈ m.shared p q, m.isInteriorNeighbor p c) : BorderListCorrect m := by
  have hb : ∀ p, m.borderList p = (List.finRange P).flatMap fun q =>
      (m.shared p q).map fun c => (⟨m.index p c, m.index q c, q, 1⟩ : BorderIndex P) := by
    intro p
    unfold Mesh.borderList Mesh.gather
    congr 1
    funext q
    exact scatter_all _ (h p q)
  have hmem : ∀ p e, e ∈ m.borderList p ↔ ∃ c ∈ m.shared p e.peerRank, e = ⟨m.index p c, m.index e.peerRank c, e.peerRank, 1⟩ := by
    intro p e
    rw [hb, List.mem_flatMap]
    constructor
    · rintro ⟨q, -, h⟩
      obtain ⟨c, hc, rfl⟩ := List.mem_map.1 h
      exact ⟨c, hc, rfl⟩
    · rintro ⟨c, hc, he⟩
      exact ⟨e.peerRank, List.mem_finRange _, List.mem_map.2 ⟨c, hc, he.symm⟩⟩
  have hown : ∀ p q c, c ∈ m.shared p q → c ∈ m.cells p ∧ c ∈ m.cells q := by
    intro p q c hc
    obtain ⟨-, ho, hq⟩ := (v.shared p q c).1 hc
    exact ⟨ho ▸ v.owned q c hq, hq⟩
  have hpeer : ∀ p q, q ∈ m.peerSet p ↔ ∃ c, c ∈ m.shared p q := by
    intro p q
    unfold Mesh.peerSet
    rw [List.mem_filter, decide_eq_true_eq]
    constructor
    · rintro ⟨-, e, he, rfl⟩
      obtain ⟨c, hc, -⟩ := (hmem p e).1 he
      exact ⟨c, hc⟩
    · rintro ⟨c, hc⟩
      exact ⟨List.mem_finRange _, _, (hmem p ⟨m.index p c, m.index q c, q, 1⟩).2 ⟨c, hc, rfl⟩, rfl⟩
  refine ⟨v.nodup, v.owned, v.reciprocal, ?_, ?_, ?_, ?_, ?_, v.cols⟩
  · intro p
    refine ⟨by simp [Mesh.native], fun i c hc => ?_⟩
    unfold Native.IsLocal Mesh.native
    simp only
    rw [List.getElem?_map, hc]
    simp
  · intro p e
    show e ∈ m.borderList p ↔ _
    rw [hmem]
    constructor
    · rintro ⟨c, hc, he⟩
      obtain ⟨h1, h2⟩ := hown p _ c hc
      obtain ⟨h3, h4, -⟩ := (v.shared p _ c).1 hc
      refine ⟨by rw [he], h3, c, h4, (index_iff v h1 _).2 (by rw [he]), (index_iff v h2 _).2 (by rw [he])⟩
    · rintro ⟨h1, h2, c, h3, h4, h5⟩
      have hc : c ∈ m.shared p e.peerRank := (v.shared _ _ _).2 ⟨h2, h3, List.mem_of_getElem? h5⟩
      refine ⟨c, hc, ?_⟩
      have e1 := (index_iff v (List.mem_of_getElem? h4) _).1 h4
      have e2 := (index_iff v (List.mem_of_getElem? h5) _).1 h5
      rw [← e1, ← e2, ← h1]
  · intro p
    show (m.borderList p).Nodup
    rw [hb, List.nodup_flatMap]
    constructor
    · intro q _
      refine List.Nodup.map_on ?_ (v.sharedNodup p q)
      intro c hc c' hc' e
      have := congrArg BorderIndex.localIdx e
      simp only at this
      have h1 := (index_iff v (hown p q c hc).1 _).2 rfl
      have h2 := (index_iff v (hown p q c' hc').1 _).2 rfl
      rw [this, h2] at h1
      exact (Option.some.inj h1).symm
    · refine List.Pairwise.imp ?_ (List.nodup_finRange P)
      intro q q' hne e he he'
      obtain ⟨c, -, rfl⟩ := List.mem_map.1 he
      obtain ⟨c', -, e'⟩ := List.mem_map.1 he'
      exact hne (congrArg BorderIndex.peerRank e').symm
  · intro p; rfl
  · intro p q x
    show x ∈ m.peerBlackList p q ↔ _
    have hz : x ∈ m.peerBlackList p q ↔ ∃ c ∈ m.shared p q, x = (m.index q c, m.index p c) := by
      unfold Mesh.peerBlackList
      split_ifs with hq
      · unfold Mesh.gather
        rw [List.zipWith_map_right]
        simp only [List.zipWith_self]
        rw [List.mem_map]
        exact ⟨fun ⟨c, hc, e⟩ => ⟨c, hc, e.symm⟩, fun ⟨c, hc, e⟩ => ⟨c, hc, e.symm⟩⟩
      · constructor
        · intro hx; simp at hx
        · rintro ⟨c, hc, -⟩; exact absurd ((hpeer p q).2 ⟨c, hc⟩) hq
    rw [hz]
    constructor
    · rintro ⟨c, hc, rfl⟩
      obtain ⟨h1, h2⟩ := hown p _ c hc
      obtain ⟨h3, h4, -⟩ := (v.shared p _ c).1 hc
      exact ⟨h3, c, h4, (index_iff v h1 _).2 rfl, (index_iff v h2 _).2 rfl⟩
    · rintro ⟨h2, c, h3, h4, h5⟩
      refine ⟨c, (v.shared _ _ _).2 ⟨h2, h3, List.mem_of_getElem? h5⟩, ?_⟩
      have e1 := (index_iff v (List.mem_of_getElem? h4) _).1 h4
      have e2 := (index_iff v (List.mem_of_getElem? h5) _).1 h5
      rw [← e1, ← e2]

/-! ### Cells without own neighbours -/

/-- Five cells in a row: the process 0 owns the cells 0, 3 and 4, the process 1 the cells 1 and 2. -/
def fiveMesh : Mesh 2 ℕ :=
  { owner := fun c => if c = 1 ∨ c = 2 then 1 else 0
    cells := fun p => if p = 0 then [0, 3, 4, 1, 2] else [1, 2, 0, 3]
    neighbors := fun c => if c = 0 then [1] else if c = 4 then [3] else [c - 1, c + 1]
    shared := fun p q => if p = 0 ∧ q = 1 then [0, 3] else if p = 1 ∧ q = 0 then [1, 2] else []
    cols := fun _ _ => [] }

theorem fiveMesh_valid : fiveMesh.Valid where
  nodup := by decide
  owned := by decide
  reciprocal := by decide
  sharedNodup := by decide
  shared := by
    intro p q c
    fin_cases p <;> fin_cases q <;> simp [fiveMesh] <;> omega
  cols := by intro p i j hj; simp [fiveMesh] at hj

/-- **C104** is false in general: the process 0 owns the cell 0, which has no own neighbour.  Its data stays in the buffer and is read
for the cell 3, of which the border list then says that it is the cell 0 of the other process. -/
theorem C104_isolated_violated : fiveMesh.Valid ∧ ¬BorderListCorrect fiveMesh ∧
    ∃ e ∈ fiveMesh.borderList 0, (fiveMesh.cells 0)[e.localIdx]? = some 3 ∧ (fiveMesh.cells e.peerRank)[e.peerIdx]? = some 0 := by
  refine ⟨fiveMesh_valid, fun h => ?_, ⟨1, 2, 1, 1⟩, by decide, by decide, by decide⟩
  obtain ⟨-, -, c, -, h1, h2⟩ := (h.border 0 ⟨1, 2, 1, 1⟩).1 (by decide)
  have e1 : (fiveMesh.cells 0)[1]? = some 3 := by decide
  have e2 : (fiveMesh.cells 1)[2]? = some 0 := by decide
  have h3 := (e1.symm.trans h1).trans (h2.symm.trans e2)
  cases h3

/-- Three cells in a row: the process 0 owns the first one, the process 1 the others. -/
def threeMesh : Mesh 2 ℕ :=
  { owner := fun c => if c = 0 then 0 else 1
    cells := fun p => if p = 0 then [0, 1] else [1, 2, 0]
    neighbors := fun c => if c = 0 then [1] else if c = 2 then [1] else [0, 2]
    shared := fun p q => if p = 0 ∧ q = 1 then [0] else if p = 1 ∧ q = 0 then [1] else []
    cols := fun _ _ => [] }

theorem threeMesh_valid : threeMesh.Valid where
  nodup := by decide
  owned := by decide
  reciprocal := by decide
  sharedNodup := by decide
  shared := by
    intro p q c
    fin_cases p <;> fin_cases q <;> simp [threeMesh] <;> omega
  cols := by intro p i j hj; simp [threeMesh] at hj

/-- **C104** is false if a process has a single cell: its border list is empty, and that of its neighbour is not.  Setting up the
overlaps then never comes to an end, whatever the MPI library buffers: every execution ends in a deadlock. -/
theorem C104_single_violated : threeMesh.Valid ∧ ¬BorderListCorrect threeMesh ∧
    ∀ (any : Fin 2 → Domestic 2) (s : System (Fin 2) (Process 2) (AnyMsg 2)),
      Reach (start (construct threeMesh.native 1) fun p => Process.start (threeMesh.native p) (any p)) s →
      ¬Finished s ∧ ∃ t, Reach s t ∧ ¬Finished t ∧ ∀ u, ¬Next t u := by
  refine ⟨threeMesh_valid, fun h => ?_, fun any s hs => ?_⟩
  · have := (h.border 0 ⟨0, 2, 1, 1⟩).2 ⟨rfl, by decide, 0, by decide, by decide, by decide⟩
    revert this
    decide
  · have hlt : numSends 1 (construct threeMesh.native 1 0) < numRecvs 0 (construct threeMesh.native 1 1) := by
      have h1 : numSends 1 (construct threeMesh.native 1 0) = 1 := by rfl
      have h2 : numRecvs 0 (construct threeMesh.native 1 1) = 4 := by rfl
      omega
    obtain ⟨t, ht, hu⟩ := exists_stuck s
    exact ⟨starved hlt s hs, t, ht, starved hlt t (hs.trans ht), hu⟩

/-! ### An example

Three processes in a row with two cells each; see also `Verif.Sync.row`. -/

def rowMesh : Mesh 3 ℕ :=
  { owner := fun c => if c < 2 then 0 else if c < 4 then 1 else 2
    cells := fun p => if p = 0 then [0, 1, 2] else if p = 1 then [1, 2, 3, 4] else [3, 4, 5]
    neighbors := fun c => if c = 0 then [1] else if c = 5 then [4] else [c - 1, c + 1]
    shared := fun p q => if p = 0 ∧ q = 1 then [1] else if p = 1 ∧ q = 0 then [2] else if p = 1 ∧ q = 2 then [3]
      else if p = 2 ∧ q = 1 then [4] else []
    cols := fun p i =>
      if p = 0 then [[0, 1], [0, 1, 2], [1, 2]].getD i [] else
        if p = 1 then [[0, 1], [0, 1, 2], [1, 2, 3], [2, 3]].getD i [] else [[0, 1], [0, 1, 2], [1, 2]].getD i [] }

theorem rowMesh_valid : rowMesh.Valid where
  nodup := by decide
  owned := by decide
  reciprocal := by decide
  sharedNodup := by decide
  shared := by
    intro p q c
    fin_cases p <;> fin_cases q <;> simp [rowMesh] <;> (try split_ifs) <;> (try simp) <;> omega
  cols := by
    intro p i j
    fin_cases p <;> rcases i with _ | _ | _ | _ | i <;> simp [rowMesh] <;> omega

theorem rowMesh_correct : Valid rowMesh.toGrid rowMesh.native :=
  C104_border_partial rowMesh_valid (by decide)

/-- The hypotheses of `C102_construct` and `C103_coherent` are met. -/
example (any : Fin 3 → Domestic 3) :
    ∃ s, Reach (start (construct rowMesh.native 2) fun p => Process.start (rowMesh.native p) (any p)) s ∧ Finished s ∧
      Sync.Coherent (fun p => (s.state p).answers (rowMesh.native p) p) := by
  obtain ⟨-, -, τ, hτ, -⟩ := settles_constructed rowMesh_correct (overlapSize := 2) (by decide) any
  obtain ⟨s, hr, hf, -⟩ := hτ.exists_finished
  exact ⟨s, hr, hf, (C103_coherent rowMesh_correct (by decide) any s hr hf).1⟩

/-- The process 0 has a copy of the cell 3 with an overlap of size two, but not of the cell 4. -/
example : InOverlap rowMesh.toGrid rowMesh.native 2 0 3 ∧ ¬InOverlap rowMesh.toGrid rowMesh.native 1 0 3 := by
  constructor
  · right
    refine ⟨2, 1, by decide, by decide, Near.step 0 1 2 ?_ (by decide) (by unfold Native.IsLocal; decide)⟩
    exact Near.border ⟨1, 2, 0, 1⟩ (by decide) rfl (by unfold Native.IsLocal; decide)
  · rintro (h | ⟨i, k, hk, hi, hn⟩)
    · revert h; decide
    · have hk0 : k = 0 := by omega
      subst hk0
      have hi2 : i = 2 := (index_iff rowMesh_valid (p := 1) (c := 3) (by decide) i).1 hi
      subst hi2
      obtain ⟨e, he, h1, h2⟩ := (near_zero (d := rowMesh.native 1) 0 2 (by unfold Native.IsLocal; decide)).1 hn
      have : ∀ e ∈ (rowMesh.native 1).borderList, e.peerRank = 0 → e.localIdx = 1 := by decide
      have := this e he h2
      omega

end Verif.Overlap
