import Verif.ParSolve.Props

/-
How many sweeps of the preconditioner an overlap is wide enough for.
-/

set_option autoImplicit false
set_option linter.unusedSectionVars false

namespace Verif.ParSolve

open Verif.Mpi Verif.Sync Verif.Overlap Verif.OverlapMatrix Verif.Criteria

variable {P N : ℕ} {G K : Type} [Field K] [LinearOrder K] [IsStrictOrderedRing K]

/-- **C148** With two processes the overlap is wide enough for as many sweeps as its size. -/
theorem C148_two {g : Grid (1 + 1) G} {d : Fin (1 + 1) → Overlap.Native (1 + 1)} {overlapSize n : ℕ} (v : Valid g d) (hn : n ≤ overlapSize) :
    Wide g d overlapSize (fun p => (d p).cols) n := by
  have key : ∀ k c c', c ∈ g.all → Steps g (fun p => (d p).cols) k c c' → g.owner c' = g.owner c ∨
      ∃ i k', k' + 1 ≤ k ∧ (g.cells (g.owner c'))[i]? = some c' ∧ Near (d (g.owner c')) (g.owner c) k' i := by
    intro k c c' hc h
    induction h with
    | none => exact Or.inl rfl
    | more k i j c c1 c2 h hi hj hcol ih =>
      by_cases h2 : g.owner c2 = g.owner c
      · exact Or.inl h2
      · right
        rcases ih hc with h1 | ⟨i', k', hk', hi', hN⟩
        · rw [h1] at hj
          obtain ⟨l, hl⟩ := List.getElem?_of_mem (v.owned _ c2 (List.mem_of_getElem? hj))
          refine ⟨l, 0, by omega, hl, ?_⟩
          have hb := (v.border (g.owner c2) ⟨l, j, g.owner c, 1⟩).2 ⟨rfl, fun e => h2 e.symm, c2, rfl, hl, hj⟩
          exact Near.border _ hb rfl (((v.black _).2 l c2 hl).2 rfl)
        · by_cases h1 : g.owner c1 = g.owner c
          · rw [h1] at hj
            obtain ⟨l, hl⟩ := List.getElem?_of_mem (v.owned _ c2 (List.mem_of_getElem? hj))
            refine ⟨l, 0, by omega, hl, ?_⟩
            have hb := (v.border (g.owner c2) ⟨l, j, g.owner c, 1⟩).2 ⟨rfl, fun e => h2 e.symm, c2, rfl, hl, hj⟩
            exact Near.border _ hb rfl (((v.black _).2 l c2 hl).2 rfl)
          · have e : g.owner c2 = g.owner c1 := by
              have h3 : ∀ x y z : Fin 2, ¬x = z → ¬y = z → x = y := by decide
              exact h3 _ _ _ h2 h1
            have hii : i' = i := index_eq v.nodup hi' hi
            subst hii
            rw [e]
            exact ⟨j, k' + 1, by omega, hj, Near.step _ _ _ hN hcol (((v.black _).2 j c2 hj).2 e)⟩
  intro c hc k hk c' h
  rcases key k c c' hc h with h | ⟨i, k', hk', hi, hN⟩
  · exact Or.inl h
  · exact Or.inr ⟨i, k', by omega, hi, hN⟩

/-! ### Three processes -/

/-- Three processes with two cells each: the row 0, 1, 2, 4, 5, where the cells 2 and 3 belong to the process in the middle -/
def thinMesh : Mesh 3 ℕ :=
  { owner := fun c => if c < 2 then 0 else if c < 4 then 1 else 2
    cells := fun p => if p = 0 then [0, 1, 2] else if p = 1 then [1, 2, 3, 4] else [2, 4, 5]
    neighbors := fun c => if c = 0 then [1] else if c = 1 then [0, 2] else if c = 2 then [1, 3, 4] else if c = 3 then [2]
      else if c = 4 then [2, 5] else [4]
    shared := fun p q => if p = 0 ∧ q = 1 then [1] else if p = 1 ∧ q = 0 then [2] else if p = 1 ∧ q = 2 then [2]
      else if p = 2 ∧ q = 1 then [4] else []
    cols := fun p i => if p = 1 then [[0, 1], [0, 1, 2, 3], [1, 2], [1, 3]].getD i [] else [[0, 1], [0, 1, 2], [1, 2]].getD i [] }

theorem thinMesh_valid : thinMesh.Valid where
  nodup := by decide
  owned := by decide
  reciprocal := by decide
  sharedNodup := by decide
  shared := by
    intro p q c
    fin_cases p <;> fin_cases q <;> simp [thinMesh] <;> (try split_ifs) <;> (try simp) <;> omega
  cols := by
    intro p i j
    fin_cases p <;> rcases i with _ | _ | _ | _ | i <;> simp [thinMesh] <;> omega

theorem thinMesh_correct : Valid thinMesh.toGrid thinMesh.native := C104_border_partial thinMesh_valid (by decide)

/-- A matrix for these cells -/
def thinMatrix (p : Fin 3) : NativeMatrix ℚ :=
  { numRows := (thinMesh.cells p).length
    cols := thinMesh.cols p
    value := fun n m => if n = m then 2 else -1 }

theorem thinMatrix_native : OverlapMatrix.Native thinMesh.toGrid thinMatrix := by
  intro p
  refine ⟨rfl, fun n => ⟨?_, fun m hm => thinMesh_correct.cols p n m hm⟩⟩
  show (thinMesh.cols p n).Nodup
  fin_cases p <;> rcases n with _ | _ | _ | _ | n <;> simp [thinMesh]

theorem thin_enumerates : Enumerates thinMesh.toGrid (fun k : Fin 6 => (k : ℕ)) := by
  refine ⟨Fin.val_injective, fun c => ⟨fun h => ?_, ?_⟩⟩
  · have h' : c ∈ thinMesh.cells (thinMesh.owner c) := h
    have : c < 6 := by
      by_contra hc
      have e : thinMesh.owner c = 2 := by
        simp only [thinMesh]
        rw [if_neg (by omega), if_neg (by omega)]
      rw [e] at h'
      have h2 : c ∈ ([2, 4, 5] : List ℕ) := h'
      simp only [List.mem_cons, List.not_mem_nil, or_false] at h2
      omega
    exact ⟨⟨c, this⟩, rfl⟩
  · rintro ⟨k, rfl⟩
    show (k : ℕ) ∈ thinMesh.cells (thinMesh.owner k)
    revert k
    decide

/-- The first process does not get a copy of the cell of the third one, whatever the size of the overlap. -/
theorem thin_overlap (overlapSize : ℕ) : ¬InOverlap thinMesh.toGrid thinMesh.native overlapSize 0 4 := by
  have hnear : ∀ k i, ¬Near (thinMesh.native 2) 0 k i := by
    intro k i h
    induction h with
    | border e h hr hl =>
      have : ∀ e ∈ (thinMesh.native 2).borderList, e.peerRank ≠ 0 := by decide
      exact this e h hr
    | step _ _ _ _ _ _ ih => exact ih
  rintro (h | ⟨i, k, -, -, h⟩)
  · revert h; decide
  · exact hnear k i h

/-- **C148** With three processes no overlap may be wide enough for two sweeps. -/
theorem C148_thin (overlapSize : ℕ) : ¬Wide (P := 2) thinMesh.toGrid thinMesh.native overlapSize (fun p => (thinMesh.native p).cols) 2 := by
  intro h
  refine thin_overlap overlapSize (h 1 (by show 1 ∈ thinMesh.cells (thinMesh.owner 1); decide) 2 le_rfl 4 ?_)
  exact Steps.more 1 1 3 1 2 4 (Steps.more 0 1 2 1 1 2 (Steps.none 1) (by decide) (by decide) (by decide)) (by decide) (by decide) (by decide)

theorem seqJac_zero (numRows : ℕ) (m : OverlapMatrix.Matrix (P + 1) K) (w : K) (n : ℕ) :
    seqJac numRows m w (fun _ => 0) n (fun _ => 0) = fun _ => 0 := by
  induction n with
  | zero => rfl
  | succ n ih =>
    rw [seqJac_succ, ih]
    funext i
    simp [sweep, mv]

/-- What one sweep without relaxation does for this matrix: the value of a cell becomes half the sum of its neighbours' values. -/
theorem thin_sweep {X : ℕ → ℚ} {c : ℕ} {y : ℚ} (h : IsSweep (P := 2) thinMesh.toGrid thinMatrix 1 (fun _ => 0) X c y) :
    (c = 0 → y = X 1 / 2) ∧ (c = 1 → y = (X 0 + X 2) / 2) ∧ (c = 2 → y = (X 1 + X 3 + X 4) / 2) := by
  obtain ⟨z, diag, ⟨n, hn, hz⟩, ⟨n', m', h1, h2, -, hd⟩, rfl⟩ := h
  have e1 : n' = n := index_eq (P := 2) thinMesh_correct.nodup h1 hn
  have e2 : m' = n := index_eq (P := 2) thinMesh_correct.nodup h2 hn
  subst e1
  subst e2
  have ed : diag = 2 := by rw [← hd]; simp [thinMatrix]
  subst ed
  refine ⟨?_, ?_, ?_⟩
  · rintro rfl
    have : m' = 0 := index_eq (P := 2) thinMesh_correct.nodup (c := 0) hn (by decide)
    subst this
    rw [hz]
    simp [thinMatrix, thinMesh]
    ring
  · rintro rfl
    have : m' = 1 := index_eq (P := 2) thinMesh_correct.nodup (c := 1) hn (by decide)
    subst this
    rw [hz]
    simp [thinMatrix, thinMesh]
    ring
  · rintro rfl
    have : m' = 1 := index_eq (P := 2) thinMesh_correct.nodup (c := 2) hn (by decide)
    subst this
    rw [hz]
    simp [thinMatrix, thinMesh]
    ring

/-- **C148** is false for two sweeps with three processes: whatever the size of the overlap, the preconditioner then takes vectors on
which all processes agree to others than the one process does: the value of the cell 1 is zero instead of one fourth. -/
theorem C148_sweeps_violated {overlapSize : ℕ} (hs : 0 < overlapSize) (anyIdx : Fin 3 → Domestic 3)
    (s : System (Fin 3) (Process 3) (AnyMsg 3))
    (h : Reach (start (construct thinMesh.native overlapSize) fun p => Process.start (thinMesh.native p) (anyIdx p)) s) (hf : Finished s)
    (m : Fin 3 → OverlapMatrix.Matrix 3 ℚ)
    (b : Fin 3 → ℕ → ℚ) (par : Parameters ℚ) (horder : par.order = 2) (hrelax : par.relaxation = 1)
    (all : Krylov.System (Σ p, Fin (sizes (P := 2) (answers thinMesh.native s.state) p)) ℚ (CombinedState ℚ))
    (hall : Parallel (P := 2) (answers thinMesh.native s.state) thinMesh.native overlapSize m b par all)
    (one : Krylov.System (Σ _ : Fin (0 + 1), Fin 6) ℚ (CombinedState ℚ))
    (hone : Whole (P := 2) thinMesh.toGrid thinMatrix b (fun k : Fin 6 => (k : ℕ)) par one) :
    ∃ (y r : (Σ p, Fin (sizes (P := 2) (answers thinMesh.native s.state) p)) → ℚ) (Y R : (Σ _ : Fin (0 + 1), Fin 6) → ℚ),
      (∀ p (i : ℕ) (k : Fin 6), (thinMesh.cells p)[i]? = some (k : ℕ) → thinMesh.owner k = p →
        assignTo (answers thinMesh.native s.state p) (part (P := 2) _ y p) i = Y ⟨0, k⟩ ∧
        assignTo (answers thinMesh.native s.state p) (part (P := 2) _ r p) i = R ⟨0, k⟩) ∧
      assignTo (answers thinMesh.native s.state 0) (part (P := 2) _ (all.precondition 0 y r) 0) 1 = 0 ∧
      one.precondition 0 Y R ⟨0, 1⟩ = 1 / 4 := by
  obtain ⟨count, number, τ, hτ, hbij, hc, hfor⟩ := settles_constructed thinMesh_correct hs anyIdx
  obtain ⟨h1, -⟩ := hτ.correct s h
  have es : s.state = τ := funext (h1 hf)
  clear h h1
  obtain ⟨rest, state, chan⟩ := s
  simp only at es
  subst es
  have L := labelled_of_constructed thinMesh_correct hs hbij.injOn hc hfor
  let Y : (Σ _ : Fin (0 + 1), Fin 6) → ℚ := fun i => if i.2 = 4 then 1 else 0
  have same : ∀ (X : (Σ _ : Fin (0 + 1), Fin 6) → ℚ) (p : Fin 3) (i : ℕ) (k : Fin 6), (thinMesh.cells p)[i]? = some (k : ℕ) →
      thinMesh.owner k = p →
      assignTo (answers thinMesh.native state p) (part (P := 2) _ (fun i => X (copyOf (P := 2) L thin_enumerates i)) p) i = X ⟨0, k⟩ := by
    intro X p i k hi ho
    have := (sameOutcome_copy (P := 2) L thin_enumerates (.returned true X 0)).2.2 p i k hi
    rw [if_pos ho] at this
    exact this
  refine ⟨fun i => Y (copyOf (P := 2) L thin_enumerates i), fun _ => 0, Y, fun _ => 0, fun p i k hi ho => ⟨same Y p i k hi ho, ?_⟩, ?_, ?_⟩
  · exact same (fun _ => 0) p i k hi ho
  · have hp := hall.precondition 0 (fun i => Y (copyOf (P := 2) L thin_enumerates i)) fun _ => 0
    rw [horder] at hp
    have hzero : ∀ (q : Fin 3), part (P := 2) (answers thinMesh.native state) (fun _ => (0 : ℚ)) q = fun _ => 0 := by
      intro q; funext i; simp [part]
    have hY : part (P := 2) (answers thinMesh.native state) (fun i => Y (copyOf (P := 2) L thin_enumerates i)) 0 = fun _ => 0 := by
      funext i
      unfold part
      split_ifs with hi
      · have hspec := copyOf_spec (P := 2) L thin_enumerates ⟨0, ⟨i, hi⟩⟩
        have hno := thin_overlap overlapSize
        rw [← hc.holds 0 4 (by show 4 ∈ thinMesh.cells (thinMesh.owner 4); decide)] at hno
        refine if_neg fun e => hno ⟨i, hi, ?_⟩
        rw [e] at hspec
        exact hspec
      · rfl
    have := gives_sync (P := 2) L _ (fun c y => c = 1 → y = 0) hp (fun p i hi c hall ei ho e => by
      subst e
      have ho' : p = 0 := ho.symm
      subst ho'
      rw [hY, hzero, seqJac_zero])
    have hcell : (thinMesh.cells 0)[1]? = some ((1 : Fin 6) : ℕ) := by decide
    obtain ⟨l, hl⟩ := L.own 0 1 _ hcell (by decide)
    obtain ⟨hlt, c, hc', ho, e⟩ := (L.native 0 1 l).1 hl
    have hc0 : c = 1 := by
      have : (thinMesh.cells 0)[1]? = some c := hc'
      rw [hcell] at this
      injection this with this
      exact this.symm
    subst hc0
    unfold assignTo
    rw [hl]
    simp only [part, dif_pos hlt]
    exact this 0 ⟨l, hlt⟩ 1 (by show 1 ∈ thinMesh.cells (thinMesh.owner 1); decide) e rfl
  · obtain ⟨X, h0, h2, hX⟩ := hone.precondition 0 Y fun _ => 0
    rw [horder] at h2 hX
    rw [hrelax] at hX
    choose X' hX' using fun j => exists_onCells (P := 2) thin_enumerates (X j)
    have s1 := fun k => thin_sweep (hX 0 (by omega) (X' 0) (fun _ => 0) (hX' 0) (fun _ => rfl) k)
    have s2 := fun k => thin_sweep (hX 1 (by omega) (X' 1) (fun _ => 0) (hX' 1) (fun _ => rfl) k)
    have y1 := hX' 0 1
    have y3 := hX' 0 3
    have y4 := hX' 0 4
    have x0 := hX' 1 0
    have x2 := hX' 1 2
    have b0 := (s1 0).1 rfl
    have b2 := (s1 2).2.2 rfl
    have b1 := (s2 1).2.1 rfl
    rw [h0] at y1 y3 y4
    rw [show Y ⟨0, 1⟩ = 0 by decide] at y1
    rw [show Y ⟨0, 3⟩ = 0 by decide] at y3
    rw [show Y ⟨0, 4⟩ = 1 by decide] at y4
    have y1' : X' 0 1 = 0 := y1
    have y3' : X' 0 3 = 0 := y3
    have y4' : X' 0 4 = 1 := y4
    have x0' : X' 1 0 = X (0 + 1) ⟨0, 0⟩ := x0
    have x2' : X' 1 2 = X (0 + 1) ⟨0, 2⟩ := x2
    rw [y1'] at b0
    rw [y1', y3', y4'] at b2
    rw [x0', x2', b0, b2] at b1
    rw [← h2]
    exact b1.trans (by norm_num)

theorem thin_diagonal (c : ℕ) (h : c ∈ thinMesh.toGrid.all) : ∃ x, Entry thinMesh.toGrid thinMatrix c c x := by
  obtain ⟨k, rfl⟩ := (thin_enumerates.2 c).1 h
  have : ∀ k : Fin 6, ∃ n, n < 4 ∧ (thinMesh.cells (thinMesh.owner k))[n]? = some (k : ℕ) ∧ n ∈ thinMesh.cols (thinMesh.owner k) n := by
    decide
  obtain ⟨n, -, h1, h2⟩ := this k
  exact ⟨_, n, n, h1, h1, h2, rfl⟩

/-- The hypotheses of `C148_sweeps_violated` are met. -/
example (anyIdx : Fin 3 → Domestic 3) (m : Fin 3 → OverlapMatrix.Matrix 3 ℚ) (b : Fin 3 → ℕ → ℚ) (par : Parameters ℚ) :
    ∃ s all one, Reach (start (construct thinMesh.native 2) fun p => Process.start (thinMesh.native p) (anyIdx p)) s ∧ Finished s ∧
      Parallel (P := 2) (answers thinMesh.native s.state) thinMesh.native 2 m b par all ∧
      Whole (P := 2) thinMesh.toGrid thinMatrix b (fun k : Fin 6 => (k : ℕ)) par one := by
  obtain ⟨count, number, τ, hτ, hbij, hc, hfor⟩ := settles_constructed thinMesh_correct (overlapSize := 2) (by decide) anyIdx
  obtain ⟨s, hr, hf, es⟩ := hτ.exists_finished
  obtain ⟨⟨all, hall⟩, one, hone⟩ := C148_exists (P := 2) (a := thinMatrix) thinMesh_correct (by decide) anyIdx s hr hf m
    thin_enumerates thin_diagonal b par
  exact ⟨s, all, one, hr, hf, hall, hone⟩

/-! ### Several sweeps -/

/-- Two processes in a row with two cells each -/
def pairMesh : Mesh 2 ℕ :=
  { owner := fun c => if c < 2 then 0 else 1
    cells := fun p => if p = 0 then [0, 1, 2] else [1, 2, 3]
    neighbors := fun c => if c = 0 then [1] else if c = 3 then [2] else [c - 1, c + 1]
    shared := fun p q => if p = 0 ∧ q = 1 then [1] else if p = 1 ∧ q = 0 then [2] else []
    cols := fun _ i => [[0, 1], [0, 1, 2], [1, 2]].getD i [] }

theorem pairMesh_valid : pairMesh.Valid where
  nodup := by decide
  owned := by decide
  reciprocal := by decide
  sharedNodup := by decide
  shared := by
    intro p q c
    fin_cases p <;> fin_cases q <;> simp [pairMesh] <;> (try split_ifs) <;> (try simp) <;> omega
  cols := by
    intro p i j
    fin_cases p <;> rcases i with _ | _ | _ | i <;> simp [pairMesh] <;> omega

/-- The overlap of size two of two processes is wide enough for two sweeps, and process 0 needs all of it: the cell 3 is two steps away from its
cells. -/
example : Wide (P := 1) pairMesh.toGrid pairMesh.native 2 (fun p => (pairMesh.native p).cols) 2 ∧
    Steps pairMesh.toGrid (fun p => (pairMesh.native p).cols) 2 1 3 ∧ 3 ∉ pairMesh.cells 0 :=
  ⟨C148_two (C104_border_partial pairMesh_valid (by decide)) le_rfl,
    Steps.more 1 1 2 1 2 3 (Steps.more 0 1 2 1 1 2 (Steps.none 1) (by decide) (by decide) (by decide)) (by decide) (by decide) (by decide),
    by decide⟩

end Verif.ParSolve
