import Verif.ParSolve.Spec
import Verif.Krylov.Copies
import Verif.Criteria.Props
import Verif.ScalarProduct.Props
import Verif.Sync.Props

/-
Lemmas on the parallel linear solver.
-/

set_option autoImplicit false
set_option linter.unusedSectionVars false

namespace Verif.ParSolve

open Verif.Mpi Verif.Sync Verif.Overlap Verif.OverlapMatrix Verif.Criteria

variable {P N : ℕ} {G K : Type} [Field K] [LinearOrder K] [IsStrictOrderedRing K]
variable {g : Grid (P + 1) G} {number : G → ℕ} {o : Fin (P + 1) → Sync.Overlap (P + 1)} {black : Fin (P + 1) → ℕ → Option ℕ}
  {a : Fin (P + 1) → NativeMatrix K} {cell : Fin N → G} {d : Fin (P + 1) → Overlap.Native (P + 1)} {overlapSize : ℕ}

theorem isProduct_unique (hn : ∀ p, (g.cells p).Nodup) {X : G → K} {c : G} {y z : K} (h : IsProduct g a X c y)
    (h' : IsProduct g a X c z) : y = z := by
  obtain ⟨n, h1, rfl⟩ := h
  obtain ⟨n', h2, rfl⟩ := h'
  obtain ⟨l1, e1⟩ := List.getElem?_eq_some_iff.1 h1
  obtain ⟨l2, e2⟩ := List.getElem?_eq_some_iff.1 h2
  have : n = n' := (List.Nodup.getElem_inj_iff (hn (g.owner c))).1 (e1.trans e2.symm)
  rw [this]

theorem index_eq (hn : ∀ p, (g.cells p).Nodup) {p : Fin (P + 1)} {i j : ℕ} {c : G} (h1 : (g.cells p)[i]? = some c)
    (h2 : (g.cells p)[j]? = some c) : i = j := by
  obtain ⟨l1, e1⟩ := List.getElem?_eq_some_iff.1 h1
  obtain ⟨l2, e2⟩ := List.getElem?_eq_some_iff.1 h2
  exact (List.Nodup.getElem_inj_iff (hn p)).1 (e1.trans e2.symm)

theorem entry_unique (hn : ∀ p, (g.cells p).Nodup) {c c' : G} {x y : K} (h : Entry g a c c' x) (h' : Entry g a c c' y) : x = y := by
  obtain ⟨n, m, h1, h2, -, rfl⟩ := h
  obtain ⟨n', m', h1', h2', -, rfl⟩ := h'
  rw [index_eq hn h1 h1', index_eq hn h2 h2']

theorem isSweep_unique (hn : ∀ p, (g.cells p).Nodup) {w : K} {D Y : G → K} {c : G} {y z : K} (h : IsSweep g a w D Y c y)
    (h' : IsSweep g a w D Y c z) : y = z := by
  obtain ⟨u, x, h1, h2, rfl⟩ := h
  obtain ⟨u', x', h1', h2', rfl⟩ := h'
  rw [isProduct_unique hn h1 h1', entry_unique hn h2 h2']

theorem isResidual_unique (hn : ∀ p, (g.cells p).Nodup) {b : Fin (P + 1) → ℕ → K} {c : G} {y z : K} (h : IsResidual g b c y)
    (h' : IsResidual g b c z) : y = z := by
  obtain ⟨n, h1, rfl⟩ := h
  obtain ⟨n', h1', rfl⟩ := h'
  rw [index_eq hn h1 h1']

/-- The cell of each domestic index -/
theorem exists_copy (L : Labelled g number o black) (hE : Enumerates g cell) (i : Σ p, Fin (sizes o p)) :
    ∃ k, (o i.1).domesticToGlobal i.2 = number (cell k) := by
  obtain ⟨c, hc, e, -⟩ := L.cell i.1 i.2 i.2.2
  obtain ⟨k, rfl⟩ := (hE.2 c).1 hc
  exact ⟨k, e⟩

/-- The entry on one process of which an entry of the vectors of all processes is a copy -/
noncomputable def copyOf (L : Labelled g number o black) (hE : Enumerates g cell) (i : Σ p, Fin (sizes o p)) :
    Σ _ : Fin (0 + 1), Fin N := ⟨0, (exists_copy L hE i).choose⟩

theorem copyOf_spec (L : Labelled g number o black) (hE : Enumerates g cell) (i : Σ p, Fin (sizes o p)) :
    (o i.1).domesticToGlobal i.2 = number (cell (copyOf L hE i).2) := (exists_copy L hE i).choose_spec

theorem mem_all (hE : Enumerates g cell) (k : Fin N) : cell k ∈ g.all := (hE.2 _).2 ⟨k, rfl⟩

theorem copyOf_eq (L : Labelled g number o black) (hE : Enumerates g cell) {p : Fin (P + 1)} {i : ℕ} (hi : i < (o p).numDomestic)
    {k : Fin N} (e : (o p).domesticToGlobal i = number (cell k)) : copyOf L hE ⟨p, ⟨i, hi⟩⟩ = ⟨0, k⟩ := by
  have h := copyOf_spec L hE ⟨p, ⟨i, hi⟩⟩
  have := L.inj (mem_all hE _) (mem_all hE k) (h.symm.trans e)
  have e2 := hE.1 this
  have e1 : (copyOf L hE ⟨p, ⟨i, hi⟩⟩).1 = 0 := rfl
  exact Sigma.ext e1 (heq_of_eq e2)

/-- The owner of a cell has it. -/
theorem copyOf_surjective (L : Labelled g number o black) (hE : Enumerates g cell) (j : Σ _ : Fin (0 + 1), Fin N) :
    ∃ i, copyOf L hE i = j := by
  obtain ⟨z, k⟩ := j
  have hz : z = (0 : Fin 1) := Subsingleton.elim (α := Fin 1) _ _
  subst hz
  obtain ⟨n, hn⟩ := List.getElem?_of_mem (show cell k ∈ g.cells (g.owner (cell k)) from mem_all hE k)
  obtain ⟨l, hl⟩ := L.own (g.owner (cell k)) n (cell k) hn rfl
  obtain ⟨hlt, c, hc, -, e⟩ := (L.native _ n l).1 hl
  rw [hn] at hc
  injection hc with hc
  subst hc
  exact ⟨⟨_, ⟨l, hlt⟩⟩, copyOf_eq L hE hlt e⟩

/-- A function on the cells with given values -/
theorem exists_onCells (hE : Enumerates g cell) (X : (Σ _ : Fin (0 + 1), Fin N) → K) : ∃ X' : G → K, ∀ k, X' (cell k) = X ⟨0, k⟩ := by
  classical
  refine ⟨fun c => if h : ∃ k, cell k = c then X ⟨0, h.choose⟩ else 0, fun k => ?_⟩
  have h : ∃ k', cell k' = cell k := ⟨k, rfl⟩
  simp only [dif_pos h]
  rw [hE.1 h.choose_spec]

theorem consistent_copy (L : Labelled g number o black) (hE : Enumerates g cell) {X : (Σ _ : Fin (0 + 1), Fin N) → K} {X' : G → K}
    (h : ∀ k, X' (cell k) = X ⟨0, k⟩) : Consistent g number o X' (part o fun i => X (copyOf L hE i)) := by
  intro p i hi c hc e
  obtain ⟨k, rfl⟩ := (hE.2 c).1 hc
  simp only [part, dif_pos hi]
  rw [copyOf_eq L hE hi e, h]

/-- What is right for own cells is right for all after `sync`. -/
theorem gives_sync (L : Labelled g number o black) (f : Fin (P + 1) → (ℕ → K) → ℕ → K) (R : G → K → Prop) {y0 : Fin (P + 1) → ℕ → K}
    {x : Vec P (sizes o) K} (hx : Gives o (preconditionProgram o f) y0 x)
    (hR : ∀ p, ∀ i < (o p).numDomestic, ∀ c ∈ g.all, (o p).domesticToGlobal i = number c → g.owner c = p → R c (f p (y0 p) i)) :
    ∀ p (i : Fin (o p).numDomestic), ∀ c ∈ g.all, (o p).domesticToGlobal i = number c → R c (x ⟨p, i⟩) := by
  obtain ⟨τ, hτ, hres⟩ := settles_sync L y0 f R hR
  obtain ⟨u, hu, hf, e⟩ := hx
  intro p i c hc ei
  rw [e p i, (hτ.correct u hu).1 hf p]
  exact hres p i i.2 c hc ei

theorem copy_operator (L : Labelled g number o black) (hE : Enumerates g cell) (hN : OverlapMatrix.Native g a)
    {m : Fin (P + 1) → OverlapMatrix.Matrix (P + 1) K} (hd : Distributed g number o a m) (X : (Σ _ : Fin (0 + 1), Fin N) → K)
    {AX : (Σ _ : Fin (0 + 1), Fin N) → K}
    (hA : ∀ X' : G → K, (∀ k, X' (cell k) = X ⟨0, k⟩) → ∀ k, IsProduct g a X' (cell k) (AX ⟨0, k⟩)) {y0 : Fin (P + 1) → ℕ → K}
    {y : Vec P (sizes o) K} (hy : Gives o (applyProgram o m (part o fun i => X (copyOf L hE i))) y0 y) :
    y = fun i => AX (copyOf L hE i) := by
  obtain ⟨X', hX⟩ := exists_onCells hE X
  have hc := consistent_copy L hE hX
  funext ⟨p, i⟩
  have h := gives_sync L (fun p _ => mv (o p).numDomestic (m p) (part o (fun i => X (copyOf L hE i)) p))
    (fun c y => IsProduct g a X' c y) hy (fun p i hi c hall ei ho => mv_own L hN hd hc hi hall ei ho) p i _
    (mem_all hE _) (copyOf_spec L hE ⟨p, i⟩)
  exact isProduct_unique L.nodup h (hA X' hX _)

/-- A process has all cells which are at most `n` steps away from its own ones. -/
def Covered (g : Grid (P + 1) G) (number : G → ℕ) (o : Fin (P + 1) → Sync.Overlap (P + 1)) (cols : Fin (P + 1) → ℕ → List ℕ) (n : ℕ) : Prop :=
  ∀ c ∈ g.all, ∀ k ≤ n, ∀ c', Steps g cols k c c' → Holds (o (g.owner c)) (number c')

theorem steps_mem {P : ℕ} {g : Grid P G} {cols : Fin P → ℕ → List ℕ} (howned : ∀ p, ∀ c ∈ g.cells p, c ∈ g.all) {k : ℕ} {c c' : G} (hc : c ∈ g.all)
    (h : Steps g cols k c c') : c' ∈ g.all := by
  cases h with
  | none => exact hc
  | more k n m c c' c'' h hn hm hcol => exact howned _ _ (List.mem_of_getElem? hm)

/-- The product for a row all of whose columns the process has -/
theorem mv_row (L : Labelled g number o black) (hN : OverlapMatrix.Native g a) {s : Fin (P + 1) → OverlapMatrix.Matrix (P + 1) K}
    (hd : Distributed g number o a s) {X : G → K} {x : ℕ → K} {p : Fin (P + 1)} {i : ℕ} (hi : i < (o p).numDomestic) {c : G}
    (hc : c ∈ g.all) (ei : (o p).domesticToGlobal i = number c)
    (hcols : ∀ n m c', (g.cells (g.owner c))[n]? = some c → (g.cells (g.owner c))[m]? = some c' → m ∈ (a (g.owner c)).cols n →
      ∃ j < (o p).numDomestic, (o p).domesticToGlobal j = number c' ∧ x j = X c') :
    IsProduct g a X c (mv (o p).numDomestic (s p) x i) := by
  classical
  obtain ⟨n, hn⟩ := List.getElem?_of_mem (show c ∈ g.cells (g.owner c) from hc)
  refine ⟨n, hn, ?_⟩
  set q := g.owner c with hq
  have hrow := (hN q).2 n
  have hcell : ∀ m ∈ (a q).cols n, ∃ c', (g.cells q)[m]? = some c' := fun m hm => ⟨_, List.getElem?_eq_getElem (hrow.2 m hm)⟩
  have hex : ∀ m ∈ (a q).cols n, ∃ j c', (g.cells q)[m]? = some c' ∧ j < (o p).numDomestic ∧ (o p).domesticToGlobal j = number c' ∧
      x j = X c' := by
    intro m hm
    obtain ⟨c', hc'⟩ := hcell m hm
    obtain ⟨j, h1, h2, h3⟩ := hcols n m c' hn hc' hm
    exact ⟨j, c', hc', h1, h2, h3⟩
  rw [← List.sum_toFinset _ hrow.1]
  unfold mv
  symm
  refine Finset.sum_bij (fun m hm => (hex m (List.mem_toFinset.1 hm)).choose) ?_ ?_ ?_ ?_
  · intro m hm
    obtain ⟨c', hc', hj, ej, -⟩ := (hex m (List.mem_toFinset.1 hm)).choose_spec
    rw [Finset.mem_filter, Finset.mem_range]
    exact ⟨hj, ((hd p i hi _ hj c hc c' (L.owned q c' (List.mem_of_getElem? hc')) ei ej _).2
      ⟨n, m, hn, hc', List.mem_toFinset.1 hm, rfl⟩).1⟩
  · intro m hm m' hm' e
    obtain ⟨c', hc', hj, ej, -⟩ := (hex m (List.mem_toFinset.1 hm)).choose_spec
    obtain ⟨c2, hc2, hj2, ej2, -⟩ := (hex m' (List.mem_toFinset.1 hm')).choose_spec
    rw [e] at ej
    have := L.inj (L.owned q c' (List.mem_of_getElem? hc')) (L.owned q c2 (List.mem_of_getElem? hc2)) (ej.symm.trans ej2)
    subst this
    exact index_unique L hc' hc2
  · intro j hj
    rw [Finset.mem_filter, Finset.mem_range] at hj
    obtain ⟨c', hc', ej, -⟩ := L.cell p j hj.1
    obtain ⟨n', m, h1, h2, hm, -⟩ := (hd p i hi j hj.1 c hc c' hc' ei ej _).1 ⟨hj.2, rfl⟩
    have := index_unique L h1 hn
    subst this
    refine ⟨m, List.mem_toFinset.2 hm, ?_⟩
    obtain ⟨c2, hc2, hj2, ej2, -⟩ := (hex m hm).choose_spec
    rw [h2] at hc2
    injection hc2 with hc2
    subst hc2
    exact global_inj L.coherent hj2 hj.1 (ej2.trans ej.symm)
  · intro m hm
    obtain ⟨c', hc', hj, ej, hx⟩ := (hex m (List.mem_toFinset.1 hm)).choose_spec
    have hv := ((hd p i hi _ hj c hc c' (L.owned q c' (List.mem_of_getElem? hc')) ei ej _).2
      ⟨n, m, hn, hc', List.mem_toFinset.1 hm, rfl⟩).2
    rw [hx, hv]
    exact congrArg (fun z => Option.elim z 0 fun c' => (a q).value n m * X c') hc'

theorem seqJac_succ (numRows : ℕ) (m : OverlapMatrix.Matrix (P + 1) K) (w : K) (r : ℕ → K) (n : ℕ) (x : ℕ → K) :
    seqJac numRows m w r (n + 1) x = sweep numRows m w r (seqJac numRows m w r n x) := by
  induction n generalizing x with
  | zero => rfl
  | succ n ih =>
    show seqJac numRows m w r (n + 1) (sweep numRows m w r x) = _
    rw [ih]
    rfl

/-- After `j` sweeps the entries of cells are right if the process has all cells which are at most `j` steps away from them. -/
theorem seqJac_right (L : Labelled g number o black) (hN : OverlapMatrix.Native g a) {s : Fin (P + 1) → OverlapMatrix.Matrix (P + 1) K}
    (hd : Distributed g number o a s) {w : K} {order : ℕ} (hcov : Covered g number o (fun p => (a p).cols) order) {c : G} (hc : c ∈ g.all)
    (X : ℕ → G → K) (D : G → K) {x r : ℕ → K}
    (hX : ∀ j < order, ∀ c' ∈ g.all, IsSweep g a w D (X j) c' (X (j + 1) c'))
    (hx : ∀ i < (o (g.owner c)).numDomestic, ∀ c' ∈ g.all, (o (g.owner c)).domesticToGlobal i = number c' → x i = X 0 c')
    (hr : ∀ i < (o (g.owner c)).numDomestic, ∀ c' ∈ g.all, (o (g.owner c)).domesticToGlobal i = number c' → r i = D c')
    (j : ℕ) : ∀ k, k + j ≤ order → ∀ c', Steps g (fun p => (a p).cols) k c c' → ∀ i < (o (g.owner c)).numDomestic,
      (o (g.owner c)).domesticToGlobal i = number c' → seqJac (o (g.owner c)).numDomestic (s (g.owner c)) w r j x i = X j c' := by
  induction j with
  | zero =>
    intro k _ c' hs i hi ei
    exact hx i hi c' (steps_mem L.owned hc hs) ei
  | succ j ih =>
    intro k hk c' hs i hi ei
    have hall := steps_mem L.owned hc hs
    obtain ⟨z, diag, hz, hdiag, e⟩ := hX j (by omega) c' hall
    rw [seqJac_succ]
    unfold sweep
    rw [ih k (by omega) c' hs i hi ei, hr i hi c' hall ei, ((hd _ i hi i hi _ hall _ hall ei ei diag).2 hdiag).2, e]
    have hp := mv_row L hN hd (X := X j) (x := seqJac (o (g.owner c)).numDomestic (s (g.owner c)) w r j x) hi hall ei
      fun n m c'' hn hm hcol => by
        have hs' := Steps.more k n m c c' c'' hs hn hm hcol
        obtain ⟨l, hl, el⟩ := hcov c hc (k + 1) (by omega) c'' hs'
        exact ⟨l, hl, el, ih (k + 1) (by omega) c'' hs' l hl el⟩
    rw [isProduct_unique L.nodup hz hp]

theorem copy_precondition (L : Labelled g number o black) (hE : Enumerates g cell) (hN : OverlapMatrix.Native g a)
    {m : Fin (P + 1) → OverlapMatrix.Matrix (P + 1) K} (hd : Distributed g number o a m) {order : ℕ}
    (hcov : Covered g number o (fun p => (a p).cols) order)
    (w : K) (Y D : (Σ _ : Fin (0 + 1), Fin N) → K)
    {Z : (Σ _ : Fin (0 + 1), Fin N) → K} (hZ : AreSweeps g a cell w order D Y Z)
    {y : Vec P (sizes o) K} (hy : Gives o (preconditionProgram o fun p =>
      seqJac (o p).numDomestic (m p) w (part o (fun i => D (copyOf L hE i)) p) order) (part o fun i => Y (copyOf L hE i)) y) :
    y = fun i => Z (copyOf L hE i) := by
  obtain ⟨X, h0, h1, hX⟩ := hZ
  choose X' hX' using fun j => exists_onCells hE (X j)
  obtain ⟨D', hD⟩ := exists_onCells hE D
  subst h0
  have hcY := consistent_copy L hE (hX' 0)
  have hcD := consistent_copy L hE hD
  funext ⟨p, i⟩
  have h := gives_sync L _ (fun c y => y = X' order c) hy (fun p i hi c hall ei ho => ?_) p i _
    (mem_all hE _) (copyOf_spec L hE ⟨p, i⟩)
  · rw [h, hX', h1]
    rfl
  · subst ho
    refine seqJac_right L hN hd hcov hall X' D' (fun j hj c' hc' => ?_) (fun l hl c' hc' el => hcY _ l hl c' hc' el)
      (fun l hl c' hc' el => hcD _ l hl c' hc' el) order 0 (by omega) c (Steps.none c) i hi ei
    obtain ⟨k, rfl⟩ := (hE.2 c').1 hc'
    rw [hX' (j + 1) k]
    exact hX j hj (X' j) D' (hX' j) hD k

/-- One step leads to a cell which the process has in its grid. -/
theorem wide_one (v : Valid g d) (hs : 0 < overlapSize) (cols : Fin (P + 1) → ℕ → List ℕ) : Wide g d overlapSize cols 1 := by
  intro c hc k hk c' h
  have key : ∀ c', c' ∈ g.cells (g.owner c) → InOverlap g d overlapSize (g.owner c) c' := by
    intro c' hc'
    by_cases ho : g.owner c' = g.owner c
    · exact Or.inl ho
    · right
      obtain ⟨j, hj⟩ := List.getElem?_of_mem hc'
      obtain ⟨i, hi⟩ := List.getElem?_of_mem (v.owned _ c' hc')
      refine ⟨i, 0, hs, hi, ?_⟩
      have hb := (v.border (g.owner c') ⟨i, j, g.owner c, 1⟩).2 ⟨rfl, fun e => ho e.symm, c', rfl, hi, hj⟩
      exact Near.border _ hb rfl (((v.black _).2 i c' hi).2 rfl)
  cases h with
  | none => exact key c hc
  | more k n m c c1 c'' h hn hm hcol =>
    have : k = 0 := by omega
    subst this
    cases h
    exact key _ (List.mem_of_getElem? hm)

theorem Wide.mono {cols : Fin (P + 1) → ℕ → List ℕ} {m n : ℕ} (h : Wide g d overlapSize cols n) (hm : m ≤ n) :
    Wide g d overlapSize cols m := fun c hc k hk c' hs => h c hc k (hk.trans hm) c' hs

theorem copy_sync (L : Labelled g number o black) (hE : Enumerates g cell) (X : (Σ _ : Fin (0 + 1), Fin N) → K)
    {y : Vec P (sizes o) K}
    (hy : Gives o (program (fun p => (o p).peerSet) [createBuffers o, sync o]) (part o fun i => X (copyOf L hE i)) y) :
    y = fun i => X (copyOf L hE i) := by
  obtain ⟨u, hu, hf, e⟩ := hy
  funext ⟨p, i⟩
  rw [e p i]
  obtain ⟨j, hj, ej, hv⟩ := (C50_sync L.coherent _ u hu).1 hf p i i.2
  rw [← hv]
  simp only [part, dif_pos hj]
  rw [copyOf_eq L hE hj (ej.trans (copyOf_spec L hE ⟨p, i⟩))]
  rfl

theorem copy_rhs (L : Labelled g number o black) (hcomp : Complete o) (hE : Enumerates g cell) {b : Fin (P + 1) → ℕ → K}
    {B : (Σ _ : Fin (0 + 1), Fin N) → K} (hB : ∀ k, IsResidual g b (cell k) (B ⟨0, k⟩)) {y : Vec P (sizes o) K}
    (hy : Gives o (assignAddBorderProgram o) (fun p => fromNative (o p) (b p)) y) : y = fun i => B (copyOf L hE i) := by
  obtain ⟨u, hu, hf, e⟩ := hy
  funext ⟨p, i⟩
  rw [e p i, (C50_assignAddBorder L.coherent hcomp b u hu).1 hf p i i.2]
  set k := (copyOf L hE ⟨p, i⟩).2 with hk
  have ek : (o p).domesticToGlobal i = number (cell k) := copyOf_spec L hE ⟨p, i⟩
  have hB' := hB k
  obtain ⟨n, hn, en⟩ := hB'
  have eB : B (copyOf L hE ⟨p, i⟩) = b (g.owner (cell k)) n := en
  rw [eB, ek]
  -- the native index which stands for the cell
  have native : ∀ q n', (∃ j < (o q).numDomestic, (o q).domesticToGlobal j = number (cell k) ∧ (o q).domesticToNative j = some n') →
      q = g.owner (cell k) ∧ n' = n := by
    rintro q n' ⟨j, hj, ej, en'⟩
    obtain ⟨-, c, hc, ho, e'⟩ := (L.native q n' j).1 ((L.back q n' j).1 en')
    have := L.inj (L.owned q c (List.mem_of_getElem? hc)) (mem_all hE k) (e'.symm.trans ej)
    subst this
    subst ho
    exact ⟨rfl, index_eq L.nodup hc hn⟩
  rw [Finset.sum_eq_single (g.owner (cell k))]
  · unfold contribution
    have hex : ∃ n', ∃ j < (o (g.owner (cell k))).numDomestic, (o (g.owner (cell k))).domesticToGlobal j = number (cell k) ∧
        (o (g.owner (cell k))).domesticToNative j = some n' := by
      obtain ⟨l, hl⟩ := L.own (g.owner (cell k)) n (cell k) hn rfl
      obtain ⟨hlt, c, hc, -, e'⟩ := (L.native _ n l).1 hl
      rw [hn] at hc
      injection hc with hc
      subst hc
      exact ⟨n, l, hlt, e', (L.back _ n l).2 hl⟩
    rw [dif_pos hex, (native _ _ hex.choose_spec).2]
  · intro q _ hq
    unfold contribution
    rw [dif_neg]
    rintro ⟨n', h⟩
    exact hq (native q n' h).1
  · intro h
    exact absurd (Finset.mem_univ _) h

theorem copy_dot (L : Labelled g number o black) (hE : Enumerates g cell) (v : Valid g d) (hs : 0 < overlapSize)
    (ho : ∀ p, (o p).nativeToDomestic = nativeToDomestic (d p)) (X Y : (Σ _ : Fin (0 + 1), Fin N) → K) (p : Fin (P + 1)) :
    ScalarProduct.dot (· * ·) overlapSize (Overlap.parts d) (part o fun i => X (copyOf L hE i)) (part o fun i => Y (copyOf L hE i)) p =
      ∑ k, X ⟨0, k⟩ * Y ⟨0, k⟩ := by
  have rep : ∀ (X : (Σ _ : Fin (0 + 1), Fin N) → K) (X' : G → K), (∀ k, X' (cell k) = X ⟨0, k⟩) →
      ScalarProduct.Represents (Overlap.parts d) (dof g) (part o fun i => X (copyOf L hE i)) (fun c => c.elim 0 X') := by
    intro X X' h p k i hk
    have hnat : (o p).nativeToDomestic i = some k := by
      rw [ho]
      exact (GlobalIdx.nativeToLocal_eq (Overlap.parts d p) i k).2 hk
    obtain ⟨hlt, c, hc, -, e⟩ := (L.native p i k).1 hnat
    rw [consistent_copy L hE h p k hlt c (L.owned p c (List.mem_of_getElem? hc)) e]
    simp only [dof, hc, Option.elim_some]
  obtain ⟨X', hX⟩ := exists_onCells hE X
  obtain ⟨Y', hY⟩ := exists_onCells hE Y
  rw [ScalarProduct.C49_dot _ (parts_valid v hs) (rep X X' hX) (rep Y Y' hY) p]
  have hset : GlobalIdx.present (Overlap.parts d) (dof g) = Set.range fun k => some (cell k) := by
    ext c
    rw [present_iff v]
    constructor
    · rintro ⟨x, hx, rfl⟩
      obtain ⟨k, rfl⟩ := (hE.2 x).1 hx
      exact ⟨k, rfl⟩
    · rintro ⟨k, rfl⟩
      exact ⟨cell k, mem_all hE k, rfl⟩
  rw [hset, finsum_mem_range (fun k k' e => hE.1 (Option.some.inj e)), finsum_eq_sum_of_fintype]
  exact Finset.sum_congr rfl fun k _ => by simp only [Option.elim_some]; rw [hX, hY]

/-- The errors are the same if each entry has a copy. -/
theorem errors_surjective {copy : (Σ p, Fin (sizes o p)) → Σ _ : Fin (0 + 1), Fin N} (hsur : ∀ j, ∃ i, copy i = j) (s : CombinedState K)
    (D R : (Σ _ : Fin (0 + 1), Fin N) → K) :
    combinedUpdateErrors (P := P) (n := sizes o) s (fun i => D (copy i)) (fun i => R (copy i)) =
      combinedUpdateErrors (P := 0) (n := fun _ => N) s D R := by
  have h1 : (combinedUpdateErrors (P := P) (n := sizes o) s (fun i => D (copy i)) (fun i => R (copy i))).residualError =
      (combinedUpdateErrors (P := 0) (n := fun _ => N) s D R).residualError := by
    rw [combined_error, combined_error]
    refine eq_of_forall_ge_iff fun y => ?_
    by_cases hy : 0 ≤ y
    · rw [global_le _ _ hy, global_le _ _ hy]
      constructor
      · intro h z k
        obtain ⟨⟨p, i⟩, e⟩ := hsur ⟨z, k⟩
        rw [← e]
        exact h p i
      · intro h p i
        exact h _ _
    · exact ⟨fun h => absurd ((global_nonneg _).trans h) hy, fun h => absurd ((global_nonneg _).trans h) hy⟩
  have h2 : (combinedUpdateErrors (P := P) (n := sizes o) s (fun i => D (copy i)) (fun i => R (copy i))).stagnates =
      (combinedUpdateErrors (P := 0) (n := fun _ => N) s D R).stagnates := by
    rw [Bool.eq_iff_iff, combined_stagnates, combined_stagnates]
    constructor
    · intro h z k
      obtain ⟨⟨p, i⟩, e⟩ := hsur ⟨z, k⟩
      rw [← e]
      exact h p i
    · intro h p i
      exact h _ _
  unfold combinedUpdateErrors at h1 h2 ⊢
  simp only at h1 h2
  rw [h1, h2]

theorem copy_errors (L : Labelled g number o black) (hE : Enumerates g cell) (s : CombinedState K)
    (D R : (Σ _ : Fin (0 + 1), Fin N) → K) :
    combinedUpdateErrors (P := P) (n := sizes o) s (fun i => D (copyOf L hE i)) (fun i => R (copyOf L hE i)) =
      combinedUpdateErrors (P := 0) (n := fun _ => N) s D R :=
  errors_surjective (copyOf_surjective L hE) s D R

end Verif.ParSolve
