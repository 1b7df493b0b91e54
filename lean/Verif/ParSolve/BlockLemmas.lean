import Verif.ParSolve.BlockSpec
import Verif.ParSolve.Lemmas

/-
Lemmas on the parallel linear solver for blocks.
-/

set_option autoImplicit false
set_option linter.unusedSectionVars false

namespace Verif.ParSolve.Block

open Verif.Mpi Verif.Sync Verif.Overlap Verif.OverlapMatrix Verif.Criteria

variable {P N n : ℕ} {G K : Type} [Field K] [LinearOrder K] [IsStrictOrderedRing K]
variable {g : Grid (P + 1) G} {number : G → ℕ} {o : Fin (P + 1) → Sync.Overlap (P + 1)} {black : Fin (P + 1) → ℕ → Option ℕ}
  {a : Fin (P + 1) → NativeMatrix (Mat n K)} {cell : Fin N → G} {d : Fin (P + 1) → Overlap.Native (P + 1)} {overlapSize : ℕ}

theorem isProduct_unique (hn : ∀ p, (g.cells p).Nodup) {X : G → Blk n K} {c : G} {y z : Blk n K} (h : IsProduct g a X c y)
    (h' : IsProduct g a X c z) : y = z := by
  obtain ⟨l, h1, rfl⟩ := h
  obtain ⟨l', h2, rfl⟩ := h'
  rw [index_eq hn h1 h2]

theorem block_flat (f : Fin N → Blk n K) (k : Fin N) : block (flat f) k = f k := by
  funext j
  simp only [block, flat, Equiv.symm_apply_apply]

/-- The scalar entry on one process of which an entry of the vectors of all processes is a copy -/
noncomputable def copyAt (L : Labelled g number o black) (hE : Enumerates g cell) (i : Σ p, Fin (sizes n o p)) :
    Σ _ : Fin (0 + 1), Fin (N * n) :=
  ⟨0, finProdFinEquiv ((copyOf L hE ⟨i.1, (finProdFinEquiv.symm i.2).1⟩).2, (finProdFinEquiv.symm i.2).2)⟩

theorem copyAt_mk (L : Labelled g number o black) (hE : Enumerates g cell) (p : Fin (P + 1)) (i : Fin (o p).numDomestic) (j : Fin n) :
    copyAt L hE ⟨p, finProdFinEquiv (i, j)⟩ = ⟨0, finProdFinEquiv ((copyOf L hE ⟨p, i⟩).2, j)⟩ := by
  simp only [copyAt, Equiv.symm_apply_apply]

theorem copyAt_eq (L : Labelled g number o black) (hE : Enumerates g cell) {p : Fin (P + 1)} {i : ℕ} (hi : i < (o p).numDomestic)
    {k : Fin N} (e : (o p).domesticToGlobal i = number (cell k)) (j : Fin n) :
    copyAt L hE ⟨p, finProdFinEquiv (⟨i, hi⟩, j)⟩ = ⟨0, finProdFinEquiv (k, j)⟩ := by
  rw [copyAt_mk, copyOf_eq L hE hi e]

theorem copyAt_surjective (L : Labelled g number o black) (hE : Enumerates g cell) (j : Σ _ : Fin (0 + 1), Fin (N * n)) :
    ∃ i, copyAt L hE i = j := by
  obtain ⟨z, k⟩ := j
  have hz : z = (0 : Fin 1) := Subsingleton.elim (α := Fin 1) _ _
  subst hz
  obtain ⟨⟨p, i⟩, hi⟩ := copyOf_surjective L hE ⟨0, (finProdFinEquiv.symm k).1⟩
  refine ⟨⟨p, finProdFinEquiv (i, (finProdFinEquiv.symm k).2)⟩, ?_⟩
  rw [copyAt_mk, hi]
  show (⟨0, finProdFinEquiv (finProdFinEquiv.symm k)⟩ : Σ _ : Fin (0 + 1), Fin (N * n)) = _
  rw [Equiv.apply_symm_apply]

/-- Entries are known if those of all blocks are. -/
theorem ext_blocks {x y : Vec P (sizes n o) K} (h : ∀ p (i : Fin (o p).numDomestic) j, x ⟨p, finProdFinEquiv (i, j)⟩ = y ⟨p, finProdFinEquiv (i, j)⟩) :
    x = y := by
  funext ⟨p, e⟩
  have := h p (finProdFinEquiv.symm e).1 (finProdFinEquiv.symm e).2
  rwa [Prod.mk.eta, Equiv.apply_symm_apply] at this

theorem part_copy (L : Labelled g number o black) (hE : Enumerates g cell) (X : (Σ _ : Fin (0 + 1), Fin (N * n)) → K) {p : Fin (P + 1)} {i : ℕ}
    (hi : i < (o p).numDomestic) {k : Fin N} (e : (o p).domesticToGlobal i = number (cell k)) :
    part o (fun i => X (copyAt L hE i)) p i = block X k := by
  funext j
  simp only [part, dif_pos hi, block]
  rw [copyAt_eq L hE hi e]

/-- A function on the cells with given blocks -/
theorem exists_onCells (hE : Enumerates g cell) (X : (Σ _ : Fin (0 + 1), Fin (N * n)) → K) :
    ∃ X' : G → Blk n K, ∀ k, X' (cell k) = block X k := by
  classical
  refine ⟨fun c => if h : ∃ k, cell k = c then block X h.choose else 0, fun k => ?_⟩
  have h : ∃ k', cell k' = cell k := ⟨k, rfl⟩
  simp only [dif_pos h]
  rw [hE.1 h.choose_spec]

theorem consistent_copy (L : Labelled g number o black) (hE : Enumerates g cell) {X : (Σ _ : Fin (0 + 1), Fin (N * n)) → K} {X' : G → Blk n K}
    (h : ∀ k, X' (cell k) = block X k) : Consistent g number o X' (part o fun i => X (copyAt L hE i)) := by
  intro p i hi c hc e
  obtain ⟨k, rfl⟩ := (hE.2 c).1 hc
  rw [part_copy L hE X hi e, h]

/-- What is right for own cells is right for all after `sync`. -/
theorem gives_sync (L : Labelled g number o black) (f : Fin (P + 1) → (ℕ → Blk n K) → ℕ → Blk n K) (R : G → Blk n K → Prop)
    {y0 : Fin (P + 1) → ℕ → Blk n K} {x : Vec P (sizes n o) K} (hx : Gives o (preconditionProgram o f) y0 x)
    (hR : ∀ p, ∀ i < (o p).numDomestic, ∀ c ∈ g.all, (o p).domesticToGlobal i = number c → g.owner c = p → R c (f p (y0 p) i)) :
    ∀ p (i : Fin (o p).numDomestic), ∀ c ∈ g.all, (o p).domesticToGlobal i = number c → R c fun j => x ⟨p, finProdFinEquiv (i, j)⟩ := by
  obtain ⟨τ, hτ, hres⟩ := settles_sync L y0 f R hR
  obtain ⟨u, hu, hf, e⟩ := hx
  intro p i c hc ei
  have : (fun j => x ⟨p, finProdFinEquiv (i, j)⟩) = (τ p).entries i := by
    funext j
    rw [e p i, (hτ.correct u hu).1 hf p]
  rw [this]
  exact hres p i i.2 c hc ei

/-- The product for a row all of whose columns the process has -/
theorem mv_row (L : Labelled g number o black) (hN : OverlapMatrix.Native g a) {s : Fin (P + 1) → OverlapMatrix.Matrix (P + 1) (Mat n K)}
    (hd : Distributed g number o a s) {X : G → Blk n K} {x : ℕ → Blk n K} {p : Fin (P + 1)} {i : ℕ} (hi : i < (o p).numDomestic) {c : G}
    (hc : c ∈ g.all) (ei : (o p).domesticToGlobal i = number c)
    (hcols : ∀ l m c', (g.cells (g.owner c))[l]? = some c → (g.cells (g.owner c))[m]? = some c' → m ∈ (a (g.owner c)).cols l →
      ∃ j < (o p).numDomestic, (o p).domesticToGlobal j = number c' ∧ x j = X c') :
    IsProduct g a X c (mv (o p).numDomestic (s p) x i) := by
  classical
  obtain ⟨l, hn⟩ := List.getElem?_of_mem (show c ∈ g.cells (g.owner c) from hc)
  refine ⟨l, hn, ?_⟩
  set q := g.owner c with hq
  have hrow := (hN q).2 l
  have hcell : ∀ m ∈ (a q).cols l, ∃ c', (g.cells q)[m]? = some c' := fun m hm => ⟨_, List.getElem?_eq_getElem (hrow.2 m hm)⟩
  have hex : ∀ m ∈ (a q).cols l, ∃ j c', (g.cells q)[m]? = some c' ∧ j < (o p).numDomestic ∧ (o p).domesticToGlobal j = number c' ∧
      x j = X c' := by
    intro m hm
    obtain ⟨c', hc'⟩ := hcell m hm
    obtain ⟨j, h1, h2, h3⟩ := hcols l m c' hn hc' hm
    exact ⟨j, c', hc', h1, h2, h3⟩
  rw [← List.sum_toFinset _ hrow.1]
  unfold mv
  symm
  refine Finset.sum_bij (fun m hm => (hex m (List.mem_toFinset.1 hm)).choose) ?_ ?_ ?_ ?_
  · intro m hm
    obtain ⟨c', hc', hj, ej, -⟩ := (hex m (List.mem_toFinset.1 hm)).choose_spec
    rw [Finset.mem_filter, Finset.mem_range]
    exact ⟨hj, ((hd p i hi _ hj c hc c' (L.owned q c' (List.mem_of_getElem? hc')) ei ej _).2
      ⟨l, m, hn, hc', List.mem_toFinset.1 hm, rfl⟩).1⟩
  · intro m hm m' hm' e
    obtain ⟨c', hc', hj, ej, -⟩ := (hex m (List.mem_toFinset.1 hm)).choose_spec
    obtain ⟨c2, hc2, hj2, ej2, -⟩ := (hex m' (List.mem_toFinset.1 hm')).choose_spec
    rw [e] at ej
    have := L.inj (L.owned q c' (List.mem_of_getElem? hc')) (L.owned q c2 (List.mem_of_getElem? hc2)) (ej.symm.trans ej2)
    subst this
    exact index_unique L hc' hc2
  · intro j hj
    rw [Finset.mem_filter, Finset.mem_range] at hj
    obtain ⟨c', hc', ej, -⟩ := L.cell p j hj.1
    obtain ⟨l', m, h1, h2, hm, -⟩ := (hd p i hi j hj.1 c hc c' hc' ei ej _).1 ⟨hj.2, rfl⟩
    have := index_unique L h1 hn
    subst this
    refine ⟨m, List.mem_toFinset.2 hm, ?_⟩
    obtain ⟨c2, hc2, hj2, ej2, -⟩ := (hex m hm).choose_spec
    rw [h2] at hc2
    injection hc2 with hc2
    subst hc2
    exact global_inj L.coherent hj2 hj.1 (ej2.trans ej.symm)
  · intro m hm
    obtain ⟨c', hc', hj, ej, hx⟩ := (hex m (List.mem_toFinset.1 hm)).choose_spec
    have hv := ((hd p i hi _ hj c hc c' (L.owned q c' (List.mem_of_getElem? hc')) ei ej _).2
      ⟨l, m, hn, hc', List.mem_toFinset.1 hm, rfl⟩).2
    rw [hx, hv]
    exact congrArg (fun z => Option.elim z 0 fun c' => ((a q).value l m).mulVec (X c')) hc'

/-- The product for an own row -/
theorem mv_own (L : Labelled g number o black) (hN : OverlapMatrix.Native g a) {s : Fin (P + 1) → OverlapMatrix.Matrix (P + 1) (Mat n K)}
    (hd : Distributed g number o a s) {X : G → Blk n K} {x : Fin (P + 1) → ℕ → Blk n K} (hx : Consistent g number o X x) {p : Fin (P + 1)} {i : ℕ}
    (hi : i < (o p).numDomestic) {c : G} (hc : c ∈ g.all) (ei : (o p).domesticToGlobal i = number c) (ho : g.owner c = p) :
    IsProduct g a X c (mv (o p).numDomestic (s p) (x p) i) := by
  refine mv_row L hN hd hi hc ei fun l m c' hl hm hcol => ?_
  subst ho
  obtain ⟨j, hj⟩ := column_some L _ m (((hN _).2 l).2 m hcol)
  obtain ⟨hjn, c2, hc2, ej⟩ := (column_iff L _ m j).1 hj
  rw [hm] at hc2
  injection hc2 with hc2
  subst hc2
  exact ⟨j, hjn, ej, hx _ j hjn c' (L.owned _ c' (List.mem_of_getElem? hm)) ej⟩

theorem copy_operator (L : Labelled g number o black) (hE : Enumerates g cell) (hN : OverlapMatrix.Native g a)
    {m : Fin (P + 1) → OverlapMatrix.Matrix (P + 1) (Mat n K)} (hd : Distributed g number o a m) (X : (Σ _ : Fin (0 + 1), Fin (N * n)) → K)
    {AX : (Σ _ : Fin (0 + 1), Fin (N * n)) → K}
    (hA : ∀ X' : G → Blk n K, (∀ k, X' (cell k) = block X k) → ∀ k, IsProduct g a X' (cell k) (block AX k)) {y0 : Fin (P + 1) → ℕ → Blk n K}
    {y : Vec P (sizes n o) K} (hy : Gives o (applyProgram o m (part o fun i => X (copyAt L hE i))) y0 y) :
    y = fun i => AX (copyAt L hE i) := by
  obtain ⟨X', hX⟩ := exists_onCells hE X
  have hc := consistent_copy L hE hX
  refine ext_blocks fun p i j => ?_
  have h := gives_sync L (fun p _ => mv (o p).numDomestic (m p) (part o (fun i => X (copyAt L hE i)) p))
    (fun c y => IsProduct g a X' c y) hy (fun p i hi c hall ei ho => mv_own L hN hd hc hi hall ei ho) p i _
    (mem_all hE _) (copyOf_spec L hE ⟨p, i⟩)
  rw [copyAt_mk]
  exact congrFun (isProduct_unique L.nodup h (hA X' hX _)) j

theorem seqJac_succ (numRows : ℕ) (m : OverlapMatrix.Matrix (P + 1) (Mat n K)) (w : K) (r : ℕ → Blk n K) (l : ℕ) (x : ℕ → Blk n K) :
    seqJac numRows m w r (l + 1) x = sweep numRows m w r (seqJac numRows m w r l x) := by
  induction l generalizing x with
  | zero => rfl
  | succ l ih =>
    show seqJac numRows m w r (l + 1) (sweep numRows m w r x) = _
    rw [ih]
    rfl

/-- After `j` sweeps the entries of cells are right if the process has all cells which are at most `j` steps away from them. -/
theorem seqJac_right (L : Labelled g number o black) (hN : OverlapMatrix.Native g a) {s : Fin (P + 1) → OverlapMatrix.Matrix (P + 1) (Mat n K)}
    (hd : Distributed g number o a s) {w : K} {order : ℕ} (hcov : Covered g number o (fun p => (a p).cols) order) {c : G} (hc : c ∈ g.all)
    (X : ℕ → G → Blk n K) (D : G → Blk n K) {x r : ℕ → Blk n K}
    (hX : ∀ j < order, ∀ c' ∈ g.all, IsSweep g a w D (X j) c' (X (j + 1) c'))
    (hx : ∀ i < (o (g.owner c)).numDomestic, ∀ c' ∈ g.all, (o (g.owner c)).domesticToGlobal i = number c' → x i = X 0 c')
    (hr : ∀ i < (o (g.owner c)).numDomestic, ∀ c' ∈ g.all, (o (g.owner c)).domesticToGlobal i = number c' → r i = D c')
    (j : ℕ) : ∀ k, k + j ≤ order → ∀ c', Steps g (fun p => (a p).cols) k c c' → ∀ i < (o (g.owner c)).numDomestic,
      (o (g.owner c)).domesticToGlobal i = number c' → seqJac (o (g.owner c)).numDomestic (s (g.owner c)) w r j x i = X j c' := by
  induction j with
  | zero =>
    intro k _ c' hs i hi ei
    exact hx i hi c' (steps_mem L.owned hc hs) ei
  | succ j ih =>
    intro k hk c' hs i hi ei
    have hall := steps_mem L.owned hc hs
    obtain ⟨z, diag, hz, hdiag, e⟩ := hX j (by omega) c' hall
    rw [seqJac_succ]
    unfold sweep
    rw [ih k (by omega) c' hs i hi ei, hr i hi c' hall ei, ((hd _ i hi i hi _ hall _ hall ei ei diag).2 hdiag).2, e]
    have hp := mv_row L hN hd (X := X j) (x := seqJac (o (g.owner c)).numDomestic (s (g.owner c)) w r j x) hi hall ei
      fun l' m c'' hn hm hcol => by
        have hs' := Steps.more k l' m c c' c'' hs hn hm hcol
        obtain ⟨l, hl, el⟩ := hcov c hc (k + 1) (by omega) c'' hs'
        exact ⟨l, hl, el, ih (k + 1) (by omega) c'' hs' l hl el⟩
    rw [isProduct_unique L.nodup hz hp]

theorem copy_precondition (L : Labelled g number o black) (hE : Enumerates g cell) (hN : OverlapMatrix.Native g a)
    {m : Fin (P + 1) → OverlapMatrix.Matrix (P + 1) (Mat n K)} (hd : Distributed g number o a m) {order : ℕ}
    (hcov : Covered g number o (fun p => (a p).cols) order) (w : K) (Y D : (Σ _ : Fin (0 + 1), Fin (N * n)) → K)
    {Z : (Σ _ : Fin (0 + 1), Fin (N * n)) → K} (hZ : AreSweeps g a cell w order D Y Z)
    {y : Vec P (sizes n o) K} (hy : Gives o (preconditionProgram o fun p =>
      seqJac (o p).numDomestic (m p) w (part o (fun i => D (copyAt L hE i)) p) order) (part o fun i => Y (copyAt L hE i)) y) :
    y = fun i => Z (copyAt L hE i) := by
  obtain ⟨X, h0, h1, hX⟩ := hZ
  choose X' hX' using fun j => exists_onCells hE (X j)
  obtain ⟨D', hD⟩ := exists_onCells hE D
  subst h0
  have hcY := consistent_copy L hE (hX' 0)
  have hcD := consistent_copy L hE hD
  refine ext_blocks fun p i j => ?_
  have h := gives_sync L _ (fun c y => y = X' order c) hy (fun p i hi c hall ei ho => ?_) p i _
    (mem_all hE _) (copyOf_spec L hE ⟨p, i⟩)
  · rw [copyAt_mk]
    have h' := congrFun h j
    rw [hX', h1] at h'
    exact h'
  · subst ho
    refine seqJac_right L hN hd hcov hall X' D' (fun j hj c' hc' => ?_) (fun l hl c' hc' el => hcY _ l hl c' hc' el)
      (fun l hl c' hc' el => hcD _ l hl c' hc' el) order 0 (by omega) c (Steps.none c) i hi ei
    obtain ⟨k, rfl⟩ := (hE.2 c').1 hc'
    rw [hX' (j + 1) k]
    exact hX j hj (X' j) D' (hX' j) hD k

theorem copy_sync (L : Labelled g number o black) (hE : Enumerates g cell) (X : (Σ _ : Fin (0 + 1), Fin (N * n)) → K)
    {y : Vec P (sizes n o) K}
    (hy : Gives o (program (fun p => (o p).peerSet) [createBuffers o, sync o]) (part o fun i => X (copyAt L hE i)) y) :
    y = fun i => X (copyAt L hE i) := by
  obtain ⟨u, hu, hf, e⟩ := hy
  refine ext_blocks fun p i b => ?_
  rw [e p i]
  obtain ⟨j, hj, ej, hv⟩ := (C50_sync L.coherent _ u hu).1 hf p i i.2
  rw [← hv, part_copy L hE X hj (ej.trans (copyOf_spec L hE ⟨p, i⟩)), copyAt_mk]
  rfl

theorem copy_rhs (L : Labelled g number o black) (hcomp : Complete o) (hE : Enumerates g cell) {b : Fin (P + 1) → ℕ → Blk n K}
    {B : (Σ _ : Fin (0 + 1), Fin (N * n)) → K} (hB : ∀ k, IsResidual g b (cell k) (block B k)) {y : Vec P (sizes n o) K}
    (hy : Gives o (assignAddBorderProgram o) (fun p => fromNative (o p) (b p)) y) : y = fun i => B (copyAt L hE i) := by
  obtain ⟨u, hu, hf, e⟩ := hy
  refine ext_blocks fun p i j => ?_
  rw [e p i, (C50_assignAddBorder L.coherent hcomp b u hu).1 hf p i i.2, copyAt_mk]
  set k := (copyOf L hE ⟨p, i⟩).2 with hk
  have ek : (o p).domesticToGlobal i = number (cell k) := copyOf_spec L hE ⟨p, i⟩
  have hB' := hB k
  obtain ⟨l, hn, en⟩ := hB'
  have eB : B ⟨0, finProdFinEquiv (k, j)⟩ = b (g.owner (cell k)) l j := congrFun en j
  rw [eB, ek]
  refine congrFun ?_ j
  -- the native index which stands for the cell
  have native : ∀ q n', (∃ j < (o q).numDomestic, (o q).domesticToGlobal j = number (cell k) ∧ (o q).domesticToNative j = some n') →
      q = g.owner (cell k) ∧ n' = l := by
    rintro q n' ⟨j, hj, ej, en'⟩
    obtain ⟨-, c, hc, ho, e'⟩ := (L.native q n' j).1 ((L.back q n' j).1 en')
    have := L.inj (L.owned q c (List.mem_of_getElem? hc)) (mem_all hE k) (e'.symm.trans ej)
    subst this
    subst ho
    exact ⟨rfl, index_eq L.nodup hc hn⟩
  rw [Finset.sum_eq_single (g.owner (cell k))]
  · unfold contribution
    have hex : ∃ n', ∃ j < (o (g.owner (cell k))).numDomestic, (o (g.owner (cell k))).domesticToGlobal j = number (cell k) ∧
        (o (g.owner (cell k))).domesticToNative j = some n' := by
      obtain ⟨l', hl⟩ := L.own (g.owner (cell k)) l (cell k) hn rfl
      obtain ⟨hlt, c, hc, -, e'⟩ := (L.native _ l l').1 hl
      rw [hn] at hc
      injection hc with hc
      subst hc
      exact ⟨l, l', hlt, e', (L.back _ l l').2 hl⟩
    rw [dif_pos hex, (native _ _ hex.choose_spec).2]
  · intro q _ hq
    unfold contribution
    rw [dif_neg]
    rintro ⟨n', h⟩
    exact hq (native q n' h).1
  · intro h
    exact absurd (Finset.mem_univ _) h

/-- The errors are the same if each entry has a copy. -/
theorem errors_surjective_general {W : ℕ} {M : Fin (P + 1) → ℕ} {copy : (Σ p, Fin (M p)) → Σ _ : Fin (0 + 1), Fin W} (hsur : ∀ j, ∃ i, copy i = j) (s : CombinedState K)
    (D R : (Σ _ : Fin (0 + 1), Fin W) → K) :
    combinedUpdateErrors (P := P) (n := M) s (fun i => D (copy i)) (fun i => R (copy i)) =
      combinedUpdateErrors (P := 0) (n := fun _ => W) s D R := by
  have h1 : (combinedUpdateErrors (P := P) (n := M) s (fun i => D (copy i)) (fun i => R (copy i))).residualError =
      (combinedUpdateErrors (P := 0) (n := fun _ => W) s D R).residualError := by
    rw [combined_error, combined_error]
    refine eq_of_forall_ge_iff fun y => ?_
    by_cases hy : 0 ≤ y
    · rw [global_le _ _ hy, global_le _ _ hy]
      constructor
      · intro h z k
        obtain ⟨⟨p, i⟩, e⟩ := hsur ⟨z, k⟩
        rw [← e]
        exact h p i
      · intro h p i
        exact h _ _
    · exact ⟨fun h => absurd ((global_nonneg _).trans h) hy, fun h => absurd ((global_nonneg _).trans h) hy⟩
  have h2 : (combinedUpdateErrors (P := P) (n := M) s (fun i => D (copy i)) (fun i => R (copy i))).stagnates =
      (combinedUpdateErrors (P := 0) (n := fun _ => W) s D R).stagnates := by
    rw [Bool.eq_iff_iff, combined_stagnates, combined_stagnates]
    constructor
    · intro h z k
      obtain ⟨⟨p, i⟩, e⟩ := hsur ⟨z, k⟩
      rw [← e]
      exact h p i
    · intro h p i
      exact h _ _
  unfold combinedUpdateErrors at h1 h2 ⊢
  simp only at h1 h2
  rw [h1, h2]

theorem copy_dot (L : Labelled g number o black) (hE : Enumerates g cell) (v : Valid g d) (hs : 0 < overlapSize)
    (ho : ∀ p, (o p).nativeToDomestic = nativeToDomestic (d p)) (X Y : (Σ _ : Fin (0 + 1), Fin (N * n)) → K) (p : Fin (P + 1)) :
    ScalarProduct.dot dotProduct overlapSize (Overlap.parts d) (part o fun i => X (copyAt L hE i)) (part o fun i => Y (copyAt L hE i)) p =
      ∑ i, X i * Y i := by
  have rep : ∀ (X : (Σ _ : Fin (0 + 1), Fin (N * n)) → K) (X' : G → Blk n K), (∀ k, X' (cell k) = block X k) →
      ScalarProduct.Represents (Overlap.parts d) (dof g) (part o fun i => X (copyAt L hE i)) (fun c => c.elim 0 X') := by
    intro X X' h p k i hk
    have hnat : (o p).nativeToDomestic i = some k := by
      rw [ho]
      exact (GlobalIdx.nativeToLocal_eq (Overlap.parts d p) i k).2 hk
    obtain ⟨hlt, c, hc, -, e⟩ := (L.native p i k).1 hnat
    rw [consistent_copy L hE h p k hlt c (L.owned p c (List.mem_of_getElem? hc)) e]
    simp only [dof, hc, Option.elim_some]
  obtain ⟨X', hX⟩ := exists_onCells hE X
  obtain ⟨Y', hY⟩ := exists_onCells hE Y
  rw [ScalarProduct.C49_dot _ (parts_valid v hs) (rep X X' hX) (rep Y Y' hY) p]
  have hset : GlobalIdx.present (Overlap.parts d) (dof g) = Set.range fun k => some (cell k) := by
    ext c
    rw [present_iff v]
    constructor
    · rintro ⟨x, hx, rfl⟩
      obtain ⟨k, rfl⟩ := (hE.2 x).1 hx
      exact ⟨k, rfl⟩
    · rintro ⟨k, rfl⟩
      exact ⟨cell k, mem_all hE k, rfl⟩
  rw [hset, finsum_mem_range (fun k k' e => hE.1 (Option.some.inj e)), finsum_eq_sum_of_fintype]
  simp only [Option.elim_some, hX, hY]
  rw [Fintype.sum_sigma]
  simp only [dotProduct, block]
  rw [← Fintype.sum_prod_type (f := fun kj : Fin N × Fin n => X ⟨0, finProdFinEquiv kj⟩ * Y ⟨0, finProdFinEquiv kj⟩)]
  rw [Equiv.sum_comp finProdFinEquiv (fun e : Fin (N * n) => X ⟨0, e⟩ * Y ⟨0, e⟩)]
  simp

/-- The errors are the same if each entry has a copy. -/
theorem copy_errors (L : Labelled g number o black) (hE : Enumerates g cell) (s : CombinedState K)
    (D R : (Σ _ : Fin (0 + 1), Fin (N * n)) → K) :
    combinedUpdateErrors (P := P) (n := sizes n o) s (fun i => D (copyAt L hE i)) (fun i => R (copyAt L hE i)) =
      combinedUpdateErrors (P := 0) (n := fun _ => N * n) s D R :=
  errors_surjective_general (copyAt_surjective L hE) s D R

end Verif.ParSolve.Block
