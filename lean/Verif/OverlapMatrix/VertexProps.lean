import Verif.OverlapMatrix.VertexLemmas
import Verif.Overlap.VertexProps

/-
C175: the matrices of processes which share vertices, and the products with them.
-/

set_option autoImplicit false
set_option linter.unusedSectionVars false

namespace Verif.OverlapMatrix.Vertex

open Verif.Mpi Verif.Sync Verif.Overlap Verif.Overlap.Vertex

variable {P : ℕ} {G K : Type} {verts : Fin P → List G} {d : Fin P → Overlap.Native P} {overlapSize : ℕ} {a : Fin P → NativeMatrix K}

/-- **C175** After the overlaps have been set up, the matrix which each process gets from the native ones is its part of the matrix of
the whole grid: for any two vertices of its overlap it has an entry exactly if some process has assembled one, with the sum of what
all processes have assembled as its value.  This holds for any size of the overlap, however the processes are scheduled, whatever the MPI
library buffers and whatever the values were before; and processes do not wait forever. -/
theorem C175_matrix [AddCommMonoid K] (v : Valid verts d) (anyIdx : Fin P → Domestic P) (hN : Native verts d a)
    (s : System (Fin P) (Process P) (AnyMsg P))
    (h : Reach (start (constructWith d overlapSize (peers verts d overlapSize)) fun p => Process.start (d p) (anyIdx p)) s)
    (hf : Finished s) (any : Fin P → ℕ → ℕ → K) (w : System (Fin P) (Matrix P K) (Msg K))
    (hw : Reach (start (matrixProgram (answers d s.state) (blackMaps s.state) a) fun p =>
      Matrix.start (answers d s.state p) (blackMaps s.state p) (a p) (any p)) w) :
    (Finished w → ∃ number : G → ℕ, Set.InjOn number (all verts) ∧ Constructed verts d overlapSize number s.state ∧
      Distributed verts number (answers d s.state) a w.state) ∧ (¬Finished w → ∃ t, Step true w t) := by
  obtain ⟨count, number, τ, hτ, hbij, hc⟩ := settles_constructed (overlapSize := overlapSize) v anyIdx
  obtain ⟨h1, -⟩ := hτ.correct s h
  have es : s.state = τ := funext (h1 hf)
  rw [es] at hw ⊢
  have L := labelled_of_constructed v hbij.injOn hc
  obtain ⟨μ, hμ, hdist⟩ := settles_matrix L hN any
  obtain ⟨k1, k2⟩ := hμ.correct w hw
  refine ⟨fun hfin => ⟨number, hbij.injOn, hc, ?_⟩, k2⟩
  rw [show w.state = μ from funext (k1 hfin)]
  exact hdist

/-- **C175** Setting up and assigning the matrices comes to an end. -/
theorem C175_terminates [AddCommMonoid K] (v : Valid verts d) (anyIdx : Fin P → Domestic P) (hN : Native verts d a)
    (s : System (Fin P) (Process P) (AnyMsg P))
    (h : Reach (start (constructWith d overlapSize (peers verts d overlapSize)) fun p => Process.start (d p) (anyIdx p)) s)
    (hf : Finished s) (any : Fin P → ℕ → ℕ → K) (w : System (Fin P) (Matrix P K) (Msg K))
    (hw : Reach (start (matrixProgram (answers d s.state) (blackMaps s.state) a) fun p =>
      Matrix.start (answers d s.state p) (blackMaps s.state p) (a p) (any p)) w) :
    (∀ t, Next w t → remaining t < remaining w) ∧ ∃ t, Relation.ReflTransGen (Step true) w t ∧ Finished t := by
  obtain ⟨count, number, τ, hτ, hbij, hc⟩ := settles_constructed (overlapSize := overlapSize) v anyIdx
  obtain ⟨h1, -⟩ := hτ.correct s h
  have es : s.state = τ := funext (h1 hf)
  rw [es] at hw
  obtain ⟨μ, hμ, -⟩ := settles_matrix (labelled_of_constructed v hbij.injOn hc) hN any
  exact ⟨fun t ht => remaining_lt ht, hμ.can_finish w hw⟩

open Classical in
/-- What the product of the overlapping operator is for any size of the overlap: on all processes which have a vertex the value of the product
of the matrix of the whole grid with what the master of the vertex has of the argument -/
theorem apply_masked [Semiring K] (v : Valid verts d) (anyIdx : Fin P → Domestic P) (hN : Native verts d a)
    (s : System (Fin P) (Process P) (AnyMsg P))
    (h : Reach (start (constructWith d overlapSize (peers verts d overlapSize)) fun p => Process.start (d p) (anyIdx p)) s)
    (hf : Finished s) (any : Fin P → ℕ → ℕ → K) (w : System (Fin P) (Matrix P K) (Msg K))
    (hw : Reach (start (matrixProgram (answers d s.state) (blackMaps s.state) a) fun p =>
      Matrix.start (answers d s.state p) (blackMaps s.state p) (a p) (any p)) w) (hfw : Finished w)
    (y0 x : Fin P → ℕ → K) (u : System (Fin P) (Sync.Vector P K) (Sync.Msg K))
    (hu : Reach (start (applyProgram (answers d s.state) w.state x) fun p => fresh (y0 p)) u) :
    ∃ number : G → ℕ, Set.InjOn number (all verts) ∧ Constructed verts d overlapSize number s.state ∧
      ∀ X : G → K, Consistent verts number (answers d s.state) X x →
        (Finished u → ∀ p, ∀ i < (answers d s.state p).numDomestic, ∀ c ∈ all verts,
          (answers d s.state p).domesticToGlobal i = number c → ∃ r, IsLowest verts c r ∧
            IsProduct verts a (fun z => if InOverlap verts d overlapSize r z then X z else 0) c ((u.state p).entries i)) ∧
        (¬Finished u → ∃ t, Step true u t) := by
  obtain ⟨count, number, τ, hτ, hbij, hc⟩ := settles_constructed (overlapSize := overlapSize) v anyIdx
  obtain ⟨h1, -⟩ := hτ.correct s h
  have es : s.state = τ := funext (h1 hf)
  rw [es] at hw hu ⊢
  have L := labelled_of_constructed v hbij.injOn hc
  obtain ⟨μ, hμ, hdist⟩ := settles_matrix L hN any
  obtain ⟨k1, -⟩ := hμ.correct w hw
  rw [show w.state = μ from funext (k1 hfw)] at hu
  refine ⟨number, hbij.injOn, hc, fun X hX => ?_⟩
  obtain ⟨υ, hυ, hres⟩ := settles_sync L y0 (fun p _ => mv (answers d τ p).numDomestic (μ p) (x p))
    (fun c y => ∃ r, IsLowest verts c r ∧ IsProduct verts a (fun z => if InOverlap verts d overlapSize r z then X z else 0) c y)
    (fun p i hi c ei hl => ⟨p, hl, mv_own L hN hdist hX hi ⟨p, hl.1⟩ ei⟩)
  obtain ⟨m1, m2⟩ := hυ.correct u hu
  refine ⟨fun hfin p i hi c hc ei => ?_, m2⟩
  rw [m1 hfin p]
  exact hres p i hi c hc ei

/-- The process of the lowest rank with a vertex has the vertices next to it in its overlap. -/
theorem next_inOverlap (hN : Native verts d a) (hs : 0 < overlapSize) {r : Fin P} {c : G} (hl : c ∈ verts r) (q : Fin P) (n m : ℕ) (z : G)
    (hn : (verts q)[n]? = some c) (hm : (verts q)[m]? = some z) (hmem : m ∈ (a q).cols n) : InOverlap verts d overlapSize r z := by
  refine ⟨1, hs, Walk.step 0 c z (Walk.start c hl) ⟨q, n, m, hn, hm, ?_⟩⟩
  rw [← ((hN q).2 n).2]
  exact hmem

/-- **C175** (the property without the restriction to positive overlap sizes is violated, see below.)  The product of the overlapping
operator: whatever the partition of the grid, for every positive size of the overlap and every schedule, if the argument has the
same value for a vertex on all processes which have it, the result has, on all processes which have the vertex, the value of the product
with the matrix of the whole grid. -/
theorem C175_apply_partial [Semiring K] (v : Valid verts d) (hs : 0 < overlapSize) (anyIdx : Fin P → Domestic P) (hN : Native verts d a)
    (s : System (Fin P) (Process P) (AnyMsg P))
    (h : Reach (start (constructWith d overlapSize (peers verts d overlapSize)) fun p => Process.start (d p) (anyIdx p)) s)
    (hf : Finished s) (any : Fin P → ℕ → ℕ → K) (w : System (Fin P) (Matrix P K) (Msg K))
    (hw : Reach (start (matrixProgram (answers d s.state) (blackMaps s.state) a) fun p =>
      Matrix.start (answers d s.state p) (blackMaps s.state p) (a p) (any p)) w) (hfw : Finished w)
    (y0 x : Fin P → ℕ → K) (u : System (Fin P) (Sync.Vector P K) (Sync.Msg K))
    (hu : Reach (start (applyProgram (answers d s.state) w.state x) fun p => fresh (y0 p)) u) :
    ∃ number : G → ℕ, Set.InjOn number (all verts) ∧ Constructed verts d overlapSize number s.state ∧
      ∀ X : G → K, Consistent verts number (answers d s.state) X x →
        (Finished u → ∀ p, ∀ i < (answers d s.state p).numDomestic, ∀ c ∈ all verts,
          (answers d s.state p).domesticToGlobal i = number c → IsProduct verts a X c ((u.state p).entries i)) ∧
        (¬Finished u → ∃ t, Step true u t) := by
  obtain ⟨number, hinj, hc, hall⟩ := apply_masked v anyIdx hN s h hf any w hw hfw y0 x u hu
  refine ⟨number, hinj, hc, fun X hX => ⟨fun hfin p i hi c hc ei => ?_, (hall X hX).2⟩⟩
  obtain ⟨r, hl, hp⟩ := (hall X hX).1 hfin p i hi c hc ei
  refine isProduct_congr (fun q n m z hn hm hmem => ?_) hp
  exact if_pos (next_inOverlap hN hs hl.1 q n m z hn hm hmem)

/-- **C175** The same for `applyscaleadd`: a multiple of the product is added. -/
theorem C175_applyscaleadd_partial [Semiring K] (v : Valid verts d) (hs : 0 < overlapSize) (anyIdx : Fin P → Domestic P)
    (hN : Native verts d a) (s : System (Fin P) (Process P) (AnyMsg P))
    (h : Reach (start (constructWith d overlapSize (peers verts d overlapSize)) fun p => Process.start (d p) (anyIdx p)) s)
    (hf : Finished s) (any : Fin P → ℕ → ℕ → K) (w : System (Fin P) (Matrix P K) (Msg K))
    (hw : Reach (start (matrixProgram (answers d s.state) (blackMaps s.state) a) fun p =>
      Matrix.start (answers d s.state p) (blackMaps s.state p) (a p) (any p)) w) (hfw : Finished w) (alpha : K)
    (y0 x : Fin P → ℕ → K) (u : System (Fin P) (Sync.Vector P K) (Sync.Msg K))
    (hu : Reach (start (applyScaleAddProgram (answers d s.state) w.state alpha x) fun p => fresh (y0 p)) u) :
    ∃ number : G → ℕ, Set.InjOn number (all verts) ∧ Constructed verts d overlapSize number s.state ∧
      ∀ X Y : G → K, Consistent verts number (answers d s.state) X x → Consistent verts number (answers d s.state) Y y0 →
        (Finished u → ∀ p, ∀ i < (answers d s.state p).numDomestic, ∀ c ∈ all verts,
          (answers d s.state p).domesticToGlobal i = number c →
            ∃ z, IsProduct verts a X c z ∧ (u.state p).entries i = Y c + alpha * z) ∧
        (¬Finished u → ∃ t, Step true u t) := by
  obtain ⟨count, number, τ, hτ, hbij, hc⟩ := settles_constructed (overlapSize := overlapSize) v anyIdx
  obtain ⟨h1, -⟩ := hτ.correct s h
  have es : s.state = τ := funext (h1 hf)
  rw [es] at hw hu ⊢
  have L := labelled_of_constructed v hbij.injOn hc
  obtain ⟨μ, hμ, hdist⟩ := settles_matrix L hN any
  obtain ⟨k1, -⟩ := hμ.correct w hw
  rw [show w.state = μ from funext (k1 hfw)] at hu
  refine ⟨number, hbij.injOn, hc, fun X Y hX hY => ?_⟩
  obtain ⟨υ, hυ, hres⟩ := settles_sync L y0 (fun p y i => y i + alpha * mv (answers d τ p).numDomestic (μ p) (x p) i)
    (fun c y => ∃ z, IsProduct verts a X c z ∧ y = Y c + alpha * z)
    (fun p i hi c ei hl => ⟨_, isProduct_congr (fun q n m z hn hm hmem => if_pos (next_inOverlap hN hs hl.1 q n m z hn hm hmem))
      (mv_own L hN hdist hX hi ⟨p, hl.1⟩ ei), by rw [hY p i hi c ⟨p, hl.1⟩ ei]⟩)
  obtain ⟨m1, m2⟩ := hυ.correct u hu
  refine ⟨fun hfin p i hi c hc ei => ?_, m2⟩
  rw [m1 hfin p]
  exact hres p i hi c hc ei

/-! ### An example -/

/-- Each process has assembled the matrix of an element of a row of three, all of whose entries are one. -/
def rowMatrix (_ : Fin 3) : NativeMatrix ℤ := { numRows := 2, cols := fun _ => [0, 1], value := fun _ _ => 1 }

theorem rowMatrix_native : Native rowVerts (ofGrid rowVerts rowCols) rowMatrix := by
  intro p
  refine ⟨?_, fun n => ⟨by simp [rowMatrix], rfl⟩⟩
  fin_cases p <;> decide

/-- At the vertex 1, the product with a constant vector is 4: two processes have assembled a row with two entries. -/
theorem row_product : IsProduct rowVerts rowMatrix (fun _ => 1) 1 4 := by
  refine ⟨![2, 2, 0], ?_, by decide, by decide⟩
  intro q n hn
  fin_cases q <;> rcases n with _ | _ | n <;> simp [rowVerts] at hn <;> simp [rowVerts, rowMatrix]

/-- The hypotheses of the theorems are met: overlaps, matrices and products can be computed, for any size of the overlap. -/
theorem row_run (overlapSize : ℕ) (anyIdx : Fin 3 → Domestic 3) (any : Fin 3 → ℕ → ℕ → ℤ) (y0 : Fin 3 → ℕ → ℤ) :
    ∃ s w u, Reach (start (constructWith (ofGrid rowVerts rowCols) overlapSize (peers rowVerts (ofGrid rowVerts rowCols) overlapSize)) fun p =>
        Process.start (ofGrid rowVerts rowCols p) (anyIdx p)) s ∧ Finished s ∧
      Reach (start (matrixProgram (answers (ofGrid rowVerts rowCols) s.state) (blackMaps s.state) rowMatrix) fun p =>
        Matrix.start (answers (ofGrid rowVerts rowCols) s.state p) (blackMaps s.state p) (rowMatrix p) (any p)) w ∧ Finished w ∧
      Reach (start (applyProgram (answers (ofGrid rowVerts rowCols) s.state) w.state fun _ _ => 1) fun p => fresh (y0 p)) u ∧ Finished u := by
  obtain ⟨count, number, τ, hτ, hbij, hc⟩ := settles_constructed (overlapSize := overlapSize) row_valid anyIdx
  obtain ⟨s, hr, hf, es⟩ := hτ.exists_finished
  have L := labelled_of_constructed row_valid hbij.injOn hc
  obtain ⟨μ, hμ, hdist⟩ := settles_matrix L rowMatrix_native any
  rw [← es] at hμ
  obtain ⟨w, hw, hfw, ew⟩ := hμ.exists_finished
  obtain ⟨υ, hυ, -⟩ := settles_sync L y0 (fun p _ => mv (answers (ofGrid rowVerts rowCols) τ p).numDomestic (μ p) fun _ => 1) (fun _ _ => True)
    (fun _ _ _ _ _ _ => trivial)
  rw [← es, ← ew] at hυ
  obtain ⟨u, hu, hfu, -⟩ := hυ.exists_finished
  exact ⟨s, w, u, hr, hf, hw, hfw, hu, hfu⟩

/-- With an overlap of one layer all processes which have the vertex 1 get the product at it. -/
example (anyIdx : Fin 3 → Domestic 3) (any : Fin 3 → ℕ → ℕ → ℤ) (y0 : Fin 3 → ℕ → ℤ)
    (s : System (Fin 3) (Process 3) (AnyMsg 3)) (h : Reach (start (constructWith (ofGrid rowVerts rowCols) 1 (peers rowVerts (ofGrid rowVerts rowCols) 1)) fun p =>
      Process.start (ofGrid rowVerts rowCols p) (anyIdx p)) s) (hf : Finished s) (w : System (Fin 3) (Matrix 3 ℤ) (Msg ℤ))
    (hw : Reach (start (matrixProgram (answers (ofGrid rowVerts rowCols) s.state) (blackMaps s.state) rowMatrix) fun p =>
        Matrix.start (answers (ofGrid rowVerts rowCols) s.state p) (blackMaps s.state p) (rowMatrix p) (any p)) w) (hfw : Finished w)
    (u : System (Fin 3) (Sync.Vector 3 ℤ) (Sync.Msg ℤ))
    (hu : Reach (start (applyProgram (answers (ofGrid rowVerts rowCols) s.state) w.state fun _ _ => 1) fun p => fresh (y0 p)) u)
    (hfu : Finished u) : ∃ number : ℕ → ℕ, Set.InjOn number (all rowVerts) ∧
      ∀ p, ∀ i < (answers (ofGrid rowVerts rowCols) s.state p).numDomestic,
        (answers (ofGrid rowVerts rowCols) s.state p).domesticToGlobal i = number 1 → (u.state p).entries i = 4 := by
  obtain ⟨number, hinj, -, hall⟩ := C175_apply_partial row_valid (by decide) anyIdx rowMatrix_native s h hf any w hw hfw y0 _ u hu
  refine ⟨number, hinj, fun p i hi ei => ?_⟩
  exact isProduct_unique ((hall (fun _ => 1) fun _ _ _ _ _ _ => rfl).1 hfu p i hi 1 ⟨0, by decide⟩ ei) row_product

open Classical in
/-- **C175, violated** Without an overlap, the overlapping operator is not the matrix of the whole grid: the master of a vertex which is shared
does not know the vertices next to it of the other process, and leaves out their columns.  For the row of three elements the product with a
constant vector at the vertex 1 is 4, but all processes get 3. -/
theorem C175_apply_violated (anyIdx : Fin 3 → Domestic 3) (any : Fin 3 → ℕ → ℕ → ℤ) (y0 : Fin 3 → ℕ → ℤ)
    (s : System (Fin 3) (Process 3) (AnyMsg 3)) (h : Reach (start (constructWith (ofGrid rowVerts rowCols) 0 (peers rowVerts (ofGrid rowVerts rowCols) 0)) fun p =>
      Process.start (ofGrid rowVerts rowCols p) (anyIdx p)) s) (hf : Finished s) (w : System (Fin 3) (Matrix 3 ℤ) (Msg ℤ))
    (hw : Reach (start (matrixProgram (answers (ofGrid rowVerts rowCols) s.state) (blackMaps s.state) rowMatrix) fun p =>
        Matrix.start (answers (ofGrid rowVerts rowCols) s.state p) (blackMaps s.state p) (rowMatrix p) (any p)) w) (hfw : Finished w)
    (u : System (Fin 3) (Sync.Vector 3 ℤ) (Sync.Msg ℤ))
    (hu : Reach (start (applyProgram (answers (ofGrid rowVerts rowCols) s.state) w.state fun _ _ => 1) fun p => fresh (y0 p)) u)
    (hfu : Finished u) : ∃ number : ℕ → ℕ, Set.InjOn number (all rowVerts) ∧
      Constructed rowVerts (ofGrid rowVerts rowCols) 0 number s.state ∧ IsProduct rowVerts rowMatrix (fun _ => 1) 1 4 ∧
      ∀ p, ∀ i < (answers (ofGrid rowVerts rowCols) s.state p).numDomestic,
        (answers (ofGrid rowVerts rowCols) s.state p).domesticToGlobal i = number 1 → (u.state p).entries i = 3 := by
  obtain ⟨number, hinj, hc, hall⟩ := apply_masked row_valid anyIdx rowMatrix_native s h hf any w hw hfw y0 _ u hu
  refine ⟨number, hinj, hc, row_product, fun p i hi ei => ?_⟩
  obtain ⟨r, hl, hp⟩ := (hall (fun _ => 1) fun _ _ _ _ _ _ => rfl).1 hfu p i hi 1 ⟨0, by decide⟩ ei
  have hr : r = 0 := le_antisymm (hl.2 0 (by decide)) (Fin.zero_le r)
  subst hr
  have hov : ∀ z, InOverlap rowVerts (ofGrid rowVerts rowCols) 0 0 z ↔ z ∈ rowVerts 0 := by
    intro z
    constructor
    · rintro ⟨k, hk, hw⟩
      have : k = 0 := by omega
      subst this
      cases hw with
      | start _ h => exact h
    · intro h
      exact ⟨0, le_rfl, Walk.start z h⟩
  refine isProduct_unique hp ⟨![2, 1, 0], ?_, by decide, by decide⟩
  intro q n hn
  simp only [hov]
  fin_cases q <;> rcases n with _ | _ | n <;> simp [rowVerts] at hn <;> simp [rowVerts, rowMatrix]

end Verif.OverlapMatrix.Vertex
