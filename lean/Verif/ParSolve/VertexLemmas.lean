import Verif.ParSolve.VertexSpec
import Verif.ParSolve.Lemmas
import Verif.OverlapMatrix.VertexLemmas

/-
Lemmas on the parallel linear solver if processes share vertices.
-/

set_option autoImplicit false
set_option linter.unusedSectionVars false

namespace Verif.ParSolve.Vertex

open Verif.Mpi Verif.Sync Verif.Overlap.Vertex Verif.OverlapMatrix Verif.OverlapMatrix.Vertex Verif.Criteria

variable {P N : ℕ} {G K : Type} [Field K] [LinearOrder K] [IsStrictOrderedRing K]
variable {verts : Fin (P + 1) → List G} {number : G → ℕ} {o : Fin (P + 1) → Sync.Overlap (P + 1)} {black : Fin (P + 1) → ℕ → Option ℕ}
  {a : Fin (P + 1) → NativeMatrix K} {vert : Fin N → G} {d : Fin (P + 1) → Overlap.Native (P + 1)} {overlapSize : ℕ}

theorem entry_unique (L : Labelled verts d overlapSize number o black) {u v : G} {x y : K} (h : Entry verts a u v x)
    (h' : Entry verts a u v y) : x = y := by
  rw [((entry_iff L _ _ _).1 h).2, ((entry_iff L _ _ _).1 h').2]

theorem exists_copy (L : Labelled verts d overlapSize number o black) (hE : Enumerates verts vert) (i : Σ p, Fin (sizes o p)) :
    ∃ k, (o i.1).domesticToGlobal i.2 = number (vert k) := by
  obtain ⟨u, hu, e, -⟩ := L.vertex i.1 i.2 i.2.2
  obtain ⟨k, rfl⟩ := (hE.2 u).1 hu
  exact ⟨k, e⟩

/-- The entry on one process of which an entry of the vectors of all processes is a copy -/
noncomputable def copyOf (L : Labelled verts d overlapSize number o black) (hE : Enumerates verts vert) (i : Σ p, Fin (sizes o p)) :
    Σ _ : Fin (0 + 1), Fin N := ⟨0, (exists_copy L hE i).choose⟩

theorem copyOf_spec (L : Labelled verts d overlapSize number o black) (hE : Enumerates verts vert) (i : Σ p, Fin (sizes o p)) :
    (o i.1).domesticToGlobal i.2 = number (vert (copyOf L hE i).2) := (exists_copy L hE i).choose_spec

theorem mem_all (hE : Enumerates verts vert) (k : Fin N) : vert k ∈ all verts := (hE.2 _).2 ⟨k, rfl⟩

theorem copyOf_eq (L : Labelled verts d overlapSize number o black) (hE : Enumerates verts vert) {p : Fin (P + 1)} {i : ℕ}
    (hi : i < (o p).numDomestic) {k : Fin N} (e : (o p).domesticToGlobal i = number (vert k)) :
    copyOf L hE ⟨p, ⟨i, hi⟩⟩ = ⟨0, k⟩ := by
  have h := copyOf_spec L hE ⟨p, ⟨i, hi⟩⟩
  have := L.inj (mem_all hE _) (mem_all hE k) (h.symm.trans e)
  have e2 := hE.1 this
  have e1 : (copyOf L hE ⟨p, ⟨i, hi⟩⟩).1 = 0 := rfl
  exact Sigma.ext e1 (heq_of_eq e2)

theorem copyOf_surjective (L : Labelled verts d overlapSize number o black) (hE : Enumerates verts vert)
    (j : Σ _ : Fin (0 + 1), Fin N) : ∃ i, copyOf L hE i = j := by
  obtain ⟨z, k⟩ := j
  have hz : z = (0 : Fin 1) := Subsingleton.elim (α := Fin 1) _ _
  subst hz
  obtain ⟨p, hp⟩ := mem_all hE k
  obtain ⟨n, hn⟩ := List.getElem?_of_mem hp
  obtain ⟨hlt, e⟩ := local_index L hn
  exact ⟨⟨_, ⟨n, hlt⟩⟩, copyOf_eq L hE hlt e⟩

/-- A function on the vertices with given values -/
theorem exists_onVerts (hE : Enumerates verts vert) (X : (Σ _ : Fin (0 + 1), Fin N) → K) : ∃ X' : G → K, ∀ k, X' (vert k) = X ⟨0, k⟩ := by
  classical
  refine ⟨fun c => if h : ∃ k, vert k = c then X ⟨0, h.choose⟩ else 0, fun k => ?_⟩
  have h : ∃ k', vert k' = vert k := ⟨k, rfl⟩
  simp only [dif_pos h]
  rw [hE.1 h.choose_spec]

theorem consistent_copy (L : Labelled verts d overlapSize number o black) (hE : Enumerates verts vert)
    {X : (Σ _ : Fin (0 + 1), Fin N) → K} {X' : G → K} (h : ∀ k, X' (vert k) = X ⟨0, k⟩) :
    Consistent verts number o X' (part o fun i => X (copyOf L hE i)) := by
  intro p i hi c hc e
  obtain ⟨k, rfl⟩ := (hE.2 c).1 hc
  simp only [ParSolve.part, dif_pos hi]
  rw [copyOf_eq L hE hi e, h]

/-- What is right on the masters of vertices is right everywhere after `sync`. -/
theorem gives_sync (L : Labelled verts d overlapSize number o black) (f : Fin (P + 1) → (ℕ → K) → ℕ → K) (R : G → K → Prop)
    {y0 : Fin (P + 1) → ℕ → K} {x : Vec P (sizes o) K} (hx : Gives o (preconditionProgram o f) y0 x)
    (hR : ∀ p, ∀ i < (o p).numDomestic, ∀ u, (o p).domesticToGlobal i = number u → IsLowest verts u p → R u (f p (y0 p) i)) :
    ∀ p (i : Fin (o p).numDomestic), ∀ u ∈ all verts, (o p).domesticToGlobal i = number u → R u (x ⟨p, i⟩) := by
  obtain ⟨τ, hτ, hres⟩ := settles_sync L y0 f R hR
  obtain ⟨u, hu, hf, e⟩ := hx
  intro p i c hc ei
  rw [e p i, (hτ.correct u hu).1 hf p]
  exact hres p i i.2 c hc ei

/-- The vertices next to one which is few steps away are in the overlap. -/
theorem next_walk (hN : OverlapMatrix.Vertex.Native verts d a) {p : Fin (P + 1)} {k : ℕ} {u : G} (hw : Walk verts d p k u) (q : Fin (P + 1)) (n m : ℕ) (z : G)
    (hn : (verts q)[n]? = some u) (hm : (verts q)[m]? = some z) (hmem : m ∈ (a q).cols n) : Walk verts d p (k + 1) z := by
  refine Walk.step k u z hw ⟨q, n, m, hn, hm, ?_⟩
  rw [← ((hN q).2 n).2]
  exact hmem

theorem copy_operator (L : Labelled verts d overlapSize number o black) (hs : 0 < overlapSize) (hE : Enumerates verts vert) (hN : OverlapMatrix.Vertex.Native verts d a)
    {m : Fin (P + 1) → OverlapMatrix.Matrix (P + 1) K} (hd : Distributed verts number o a m) (X : (Σ _ : Fin (0 + 1), Fin N) → K)
    {AX : (Σ _ : Fin (0 + 1), Fin N) → K}
    (hA : ∀ X' : G → K, (∀ k, X' (vert k) = X ⟨0, k⟩) → ∀ k, IsProduct verts a X' (vert k) (AX ⟨0, k⟩)) {y0 : Fin (P + 1) → ℕ → K}
    {y : Vec P (sizes o) K} (hy : Gives o (applyProgram o m (ParSolve.part o fun i => X (copyOf L hE i))) y0 y) :
    y = fun i => AX (copyOf L hE i) := by
  obtain ⟨X', hX⟩ := exists_onVerts hE X
  have hc := consistent_copy L hE hX
  funext ⟨p, i⟩
  have h := gives_sync L (fun p _ => mv (o p).numDomestic (m p) (ParSolve.part o (fun i => X (copyOf L hE i)) p))
    (fun c y => IsProduct verts a X' c y) hy (fun p i hi c ei hl => isProduct_congr
      (fun q n m z hn hm hmem => if_pos ⟨1, hs, next_walk hN (Walk.start c hl.1) q n m z hn hm hmem⟩)
      (mv_own L hN hd hc hi ⟨p, hl.1⟩ ei)) p i _
    (mem_all hE _) (copyOf_spec L hE ⟨p, i⟩)
  exact OverlapMatrix.Vertex.isProduct_unique h (hA X' hX _)

theorem walk_mem {p : Fin (P + 1)} {k : ℕ} {u : G} (h : Walk verts d p k u) : u ∈ all verts := by
  cases h with
  | start _ h => exact ⟨p, h⟩
  | step k u v h e =>
    obtain ⟨q, i, j, -, hj, -⟩ := e
    exact ⟨q, List.mem_of_getElem? hj⟩

/-- After `j` sweeps the entries of vertices which are not more than `overlapSize - j` steps away are right. -/
theorem seqJac_right (L : Labelled verts d overlapSize number o black) (hN : OverlapMatrix.Vertex.Native verts d a) {s : Fin (P + 1) → OverlapMatrix.Matrix (P + 1) K}
    (hd : Distributed verts number o a s) {w : K} {order : ℕ} {p : Fin (P + 1)}
    (X : ℕ → G → K) (D : G → K) {x r : ℕ → K}
    (hX : ∀ j < order, ∀ u ∈ all verts, IsSweep verts a w D (X j) u (X (j + 1) u))
    (hx : ∀ i < (o p).numDomestic, ∀ u ∈ all verts, (o p).domesticToGlobal i = number u → x i = X 0 u)
    (hr : ∀ i < (o p).numDomestic, ∀ u ∈ all verts, (o p).domesticToGlobal i = number u → r i = D u)
    (j : ℕ) (hj : j ≤ order) : ∀ k, k + j ≤ overlapSize → ∀ u, Walk verts d p k u → ∀ i < (o p).numDomestic,
      (o p).domesticToGlobal i = number u → seqJac (o p).numDomestic (s p) w r j x i = X j u := by
  classical
  induction j with
  | zero =>
    intro k _ u hs i hi ei
    exact hx i hi u (walk_mem hs) ei
  | succ j ih =>
    intro k hk u hs i hi ei
    have hall := walk_mem hs
    obtain ⟨z, diag, hz, hdiag, e⟩ := hX j (by omega) u hall
    rw [seqJac_succ]
    unfold sweep
    rw [ih (by omega) k (by omega) u hs i hi ei, hr i hi u hall ei, ((hd _ i hi i hi _ hall _ hall ei ei diag).2 hdiag).2, e]
    -- the vector as a function of the vertices
    set y := seqJac (o p).numDomestic (s p) w r j x with hy
    have hp := mv_local L hN hd (p := p) (x := y)
      (X := fun v => if h : ∃ l < (o p).numDomestic, (o p).domesticToGlobal l = number v then y h.choose else 0)
      (fun l hl v _ el => by
        have h : ∃ l < (o p).numDomestic, (o p).domesticToGlobal l = number v := ⟨l, hl, el⟩
        rw [dif_pos h, global_inj L.coherent hl h.choose_spec.1 (el.trans h.choose_spec.2.symm)]) hi hall ei
    have hp' : IsProduct verts a (X j) u (mv (o p).numDomestic (s p) y i) := by
      refine isProduct_congr (fun q n m v hn hm hmem => ?_) hp
      have hw := next_walk hN hs q n m v hn hm hmem
      have hov : InOverlap verts d overlapSize p v := ⟨k + 1, by omega, hw⟩
      have h : ∃ l < (o p).numDomestic, (o p).domesticToGlobal l = number v := (L.holds p v (walk_mem hw)).2 hov
      rw [if_pos hov, dif_pos h]
      exact ih (by omega) (k + 1) (by omega) v hw _ h.choose_spec.1 h.choose_spec.2
    rw [OverlapMatrix.Vertex.isProduct_unique hz hp']

theorem copy_precondition (L : Labelled verts d overlapSize number o black) (hE : Enumerates verts vert) (hN : OverlapMatrix.Vertex.Native verts d a)
    {m : Fin (P + 1) → OverlapMatrix.Matrix (P + 1) K} (hd : Distributed verts number o a m) {order : ℕ} (ho : order ≤ overlapSize)
    (w : K) (Y D : (Σ _ : Fin (0 + 1), Fin N) → K)
    {Z : (Σ _ : Fin (0 + 1), Fin N) → K} (hZ : AreSweeps verts a vert w order D Y Z)
    {y : Vec P (sizes o) K} (hy : Gives o (preconditionProgram o fun p =>
      seqJac (o p).numDomestic (m p) w (ParSolve.part o (fun i => D (copyOf L hE i)) p) order) (ParSolve.part o fun i => Y (copyOf L hE i)) y) :
    y = fun i => Z (copyOf L hE i) := by
  obtain ⟨X, h0, h1, hX⟩ := hZ
  choose X' hX' using fun j => exists_onVerts hE (X j)
  obtain ⟨D', hD⟩ := exists_onVerts hE D
  subst h0
  have hcY := consistent_copy L hE (hX' 0)
  have hcD := consistent_copy L hE hD
  funext ⟨p, i⟩
  have h := gives_sync L _ (fun c y => y = X' order c) hy (fun p i hi c ei hl => ?_) p i _
    (mem_all hE _) (copyOf_spec L hE ⟨p, i⟩)
  · rw [h, hX', h1]
    rfl
  · refine seqJac_right L hN hd X' D' (fun j hj c' hc' => ?_) (fun l hl c' hc' el => hcY _ l hl c' hc' el)
      (fun l hl c' hc' el => hcD _ l hl c' hc' el) order le_rfl 0 (by omega) c (Walk.start c hl.1) i hi ei
    obtain ⟨k, rfl⟩ := (hE.2 c').1 hc'
    rw [hX' (j + 1) k]
    exact hX j hj (X' j) D' (hX' j) hD k

theorem copy_sync (L : Labelled verts d overlapSize number o black) (hE : Enumerates verts vert) (X : (Σ _ : Fin (0 + 1), Fin N) → K)
    {y : Vec P (sizes o) K}
    (hy : Gives o (program (fun p => (o p).peerSet) [createBuffers o, sync o]) (ParSolve.part o fun i => X (copyOf L hE i)) y) :
    y = fun i => X (copyOf L hE i) := by
  obtain ⟨u, hu, hf, e⟩ := hy
  funext ⟨p, i⟩
  rw [e p i]
  obtain ⟨j, hj, ej, hv⟩ := (C50_sync L.coherent _ u hu).1 hf p i i.2
  rw [← hv]
  simp only [ParSolve.part, dif_pos hj]
  rw [copyOf_eq L hE hj (ej.trans (copyOf_spec L hE ⟨p, i⟩))]
  rfl

/-- Right hand sides are added up. -/
theorem copy_rhs (L : Labelled verts d overlapSize number o black) (hcomp : Complete o) (hE : Enumerates verts vert) {b : Fin (P + 1) → ℕ → K}
    {B : (Σ _ : Fin (0 + 1), Fin N) → K} (hB : ∀ k, IsResidual verts b (vert k) (B ⟨0, k⟩)) {y : Vec P (sizes o) K}
    (hy : Gives o (assignAddBorderProgram o) (fun p => fromNative (o p) (b p)) y) : y = fun i => B (copyOf L hE i) := by
  obtain ⟨u, hu, hf, e⟩ := hy
  funext ⟨p, i⟩
  rw [e p i, (C50_assignAddBorder L.coherent hcomp b u hu).1 hf p i i.2]
  set k := (copyOf L hE ⟨p, i⟩).2 with hk
  have ek : (o p).domesticToGlobal i = number (vert k) := copyOf_spec L hE ⟨p, i⟩
  obtain ⟨value, h1, h2, h3⟩ := hB k
  have eB : B (copyOf L hE ⟨p, i⟩) = ∑ q, value q := h3
  rw [eB, ek]
  refine Finset.sum_congr rfl fun q _ => ?_
  unfold contribution
  split_ifs with hex
  · obtain ⟨j, hj, ej, en⟩ := hex.choose_spec
    obtain ⟨-, c, hc, e'⟩ := (L.native q _ j).1 ((L.back q _ j).1 en)
    have := L.inj (owned hc) (mem_all hE k) (e'.symm.trans ej)
    subst this
    exact (h1 q _ hc).symm
  · symm
    refine h2 q fun hmem => hex ?_
    obtain ⟨n, hn⟩ := List.getElem?_of_mem hmem
    obtain ⟨hlt, en⟩ := local_index L hn
    exact ⟨n, n, hlt, en, (L.back q n n).2 (L.same q n _ hn)⟩

theorem copy_dot (L : Labelled verts d overlapSize number o black) (hE : Enumerates verts vert) (v : Valid verts d)
    (X Y : (Σ _ : Fin (0 + 1), Fin N) → K) (p : Fin (P + 1)) :
    ScalarProduct.dot (· * ·) overlapSize (parts verts d overlapSize) (ParSolve.part o fun i => X (copyOf L hE i))
      (ParSolve.part o fun i => Y (copyOf L hE i)) p = ∑ k, X ⟨0, k⟩ * Y ⟨0, k⟩ := by
  have rep : ∀ (X : (Σ _ : Fin (0 + 1), Fin N) → K) (X' : G → K), (∀ k, X' (vert k) = X ⟨0, k⟩) →
      ScalarProduct.Represents (parts verts d overlapSize) (dof verts) (ParSolve.part o fun i => X (copyOf L hE i)) (fun c => c.elim 0 X') := by
    intro X X' h p k i hk
    have hnat := (GlobalIdx.nativeToLocal_eq (parts verts d overlapSize p) i k).2 hk
    obtain ⟨rfl, hlt⟩ := (toLocal v p i k).1 hnat
    have hc : (verts p)[k]? = some (verts p)[k] := List.getElem?_eq_getElem hlt
    obtain ⟨hl, e⟩ := local_index L hc
    rw [consistent_copy L hE h p k hl _ (owned hc) e]
    simp only [dof, hc, Option.elim_some]
  obtain ⟨X', hX⟩ := exists_onVerts hE X
  obtain ⟨Y', hY⟩ := exists_onVerts hE Y
  rw [ScalarProduct.C49_dot _ (parts_valid v) (rep X X' hX) (rep Y Y' hY) p]
  have hset : GlobalIdx.present (parts verts d overlapSize) (dof verts) = Set.range fun k => some (vert k) := by
    ext c
    rw [present_iff v]
    constructor
    · rintro ⟨x, hx, rfl⟩
      obtain ⟨k, rfl⟩ := (hE.2 x).1 hx
      exact ⟨k, rfl⟩
    · rintro ⟨k, rfl⟩
      exact ⟨vert k, mem_all hE k, rfl⟩
  rw [hset, finsum_mem_range (fun k k' e => hE.1 (Option.some.inj e)), finsum_eq_sum_of_fintype]
  exact Finset.sum_congr rfl fun k _ => by simp only [Option.elim_some]; rw [hX, hY]

theorem copy_errors (L : Labelled verts d overlapSize number o black) (hE : Enumerates verts vert) (s : CombinedState K)
    (D R : (Σ _ : Fin (0 + 1), Fin N) → K) :
    combinedUpdateErrors (P := P) (n := sizes o) s (fun i => D (copyOf L hE i)) (fun i => R (copyOf L hE i)) =
      combinedUpdateErrors (P := 0) (n := fun _ => N) s D R :=
  errors_surjective (copyOf_surjective L hE) s D R

end Verif.ParSolve.Vertex
