import Verif.OverlapMatrix.Lemmas
import Verif.Overlap.BorderProps
import Mathlib.Algebra.BigOperators.Group.Finset.Sigma

/-
Theorems about the matrices of all processes and the products with them.
-/

set_option autoImplicit false
set_option linter.unusedSectionVars false

namespace Verif.OverlapMatrix

open Verif.Mpi Verif.Sync Verif.Overlap

variable {P : ℕ} {G K : Type} {g : Grid P G} {d : Fin P → Overlap.Native P} {overlapSize : ℕ} {a : Fin P → NativeMatrix K}

/-- What a process knows after the overlaps have been set up, as matrices and vectors use it -/
noncomputable abbrev answers (d : Fin P → Overlap.Native P) (s : Fin P → Process P) (p : Fin P) : Sync.Overlap P := (s p).answers (d p) p

/-- `blackList().nativeToDomestic` (opm/simulators/linalg/blacklist.hh:86-99) -/
abbrev blackMaps (s : Fin P → Process P) (p : Fin P) : ℕ → Option ℕ := (s p).domestic.blackMap

/-- What the constructors of the overlaps have set up is what matrices need. -/
theorem labelled_of_constructed (v : Valid g d) (hs : 0 < overlapSize) {number : G → ℕ} (hinj : Set.InjOn number g.all)
    {s : Fin P → Process P} (c : Constructed g d overlapSize number s) (hf : ∀ p, (s p).foreign = searched (d p) overlapSize) :
    Labelled g number (answers d s) (blackMaps s) := by
  obtain ⟨co, comp⟩ := coherent_of_constructed v hs hinj c hf
  refine ⟨co, hinj, v.nodup, fun p c hc => v.owned p c hc, c.cell, c.native, c.back, ?_, c.copies, c.copied, ?_⟩
  · intro p i x hx ho
    have hall : x ∈ g.all := v.owned p x (List.mem_of_getElem? hx)
    obtain ⟨l, hl, e⟩ := (c.holds p x hall).2 (Or.inl ho)
    exact ⟨l, (c.native p i l).2 ⟨hl, x, hx, ho, e⟩⟩
  · intro p q hq l hl
    have hl' := ((co.listed p q hq).2 l hl)
    have hne : p ≠ q := fun e => co.irrefl p (e ▸ hq)
    have := ((comp p q hne l hl'.1).2 ⟨hq, hl⟩).1
    exact Option.isSome_iff_exists.1 this

/-- **C105** After the overlaps have been set up, the matrix which each process gets from the native ones is its part of the matrix of
the whole grid: for any two cells of its overlap it has an entry exactly if the owner of the row has one, with the same value.  This
holds however the processes are scheduled, whatever the MPI library buffers and whatever the values were before; and processes
do not wait forever. -/
theorem C105_matrix [AddCommMonoid K] (v : Valid g d) (hs : 0 < overlapSize) (anyIdx : Fin P → Domestic P) (hN : Native g a)
    (s : System (Fin P) (Process P) (AnyMsg P)) (h : Reach (start (construct d overlapSize) fun p => Process.start (d p) (anyIdx p)) s)
    (hf : Finished s) (any : Fin P → ℕ → ℕ → K) (w : System (Fin P) (Matrix P K) (Msg K))
    (hw : Reach (start (matrixProgram (answers d s.state) (blackMaps s.state) a) fun p =>
      Matrix.start (answers d s.state p) (blackMaps s.state p) (a p) (any p)) w) :
    (Finished w → ∃ number : G → ℕ, Set.InjOn number g.all ∧ Constructed g d overlapSize number s.state ∧
      Distributed g number (answers d s.state) a w.state) ∧ (¬Finished w → ∃ t, Step true w t) := by
  obtain ⟨count, number, τ, hτ, hbij, hc, hfor⟩ := settles_constructed v hs anyIdx
  obtain ⟨h1, -⟩ := hτ.correct s h
  have es : s.state = τ := funext (h1 hf)
  rw [es] at hw ⊢
  have L := labelled_of_constructed v hs hbij.injOn hc hfor
  obtain ⟨μ, hμ, hdist⟩ := settles_matrix L hN any
  obtain ⟨k1, k2⟩ := hμ.correct w hw
  refine ⟨fun hfin => ⟨number, hbij.injOn, hc, ?_⟩, k2⟩
  rw [show w.state = μ from funext (k1 hfin)]
  exact hdist

/-- **C105** Setting up the matrices comes to an end. -/
theorem C105_terminates [AddCommMonoid K] (v : Valid g d) (hs : 0 < overlapSize) (anyIdx : Fin P → Domestic P) (hN : Native g a)
    (s : System (Fin P) (Process P) (AnyMsg P)) (h : Reach (start (construct d overlapSize) fun p => Process.start (d p) (anyIdx p)) s)
    (hf : Finished s) (any : Fin P → ℕ → ℕ → K) (w : System (Fin P) (Matrix P K) (Msg K))
    (hw : Reach (start (matrixProgram (answers d s.state) (blackMaps s.state) a) fun p =>
      Matrix.start (answers d s.state p) (blackMaps s.state p) (a p) (any p)) w) :
    (∀ t, Next w t → remaining t < remaining w) ∧ ∃ t, Relation.ReflTransGen (Step true) w t ∧ Finished t := by
  obtain ⟨count, number, τ, hτ, hbij, hc, hfor⟩ := settles_constructed v hs anyIdx
  obtain ⟨h1, -⟩ := hτ.correct s h
  have es : s.state = τ := funext (h1 hf)
  rw [es] at hw
  have L := labelled_of_constructed v hs hbij.injOn hc hfor
  obtain ⟨μ, hμ, -⟩ := settles_matrix L hN any
  exact ⟨fun t ht => remaining_lt ht, hμ.can_finish w hw⟩

/-! ### Products -/

/-- The vectors have the same value for a cell on all processes. -/
def Consistent (g : Grid P G) (number : G → ℕ) (o : Fin P → Sync.Overlap P) (X : G → K) (x : Fin P → ℕ → K) : Prop :=
  ∀ p, ∀ i < (o p).numDomestic, ∀ c ∈ g.all, (o p).domesticToGlobal i = number c → x p i = X c

section
variable {number : G → ℕ} {o : Fin P → Sync.Overlap P} {black : Fin P → ℕ → Option ℕ}

/-- The product for an own row -/
theorem mv_own [Semiring K] (L : Labelled g number o black) (hN : Native g a) {s : Fin P → Matrix P K} (hd : Distributed g number o a s)
    {X : G → K} {x : Fin P → ℕ → K} (hx : Consistent g number o X x) {p : Fin P} {i : ℕ} (hi : i < (o p).numDomestic) {c : G}
    (hc : c ∈ g.all) (ei : (o p).domesticToGlobal i = number c) (ho : g.owner c = p) :
    IsProduct g a X c (mv (o p).numDomestic (s p) (x p) i) := by
  classical
  obtain ⟨n, hn⟩ := List.getElem?_of_mem (show c ∈ g.cells (g.owner c) from hc)
  refine ⟨n, hn, ?_⟩
  subst ho
  set p := g.owner c with hp
  have hcols := (hN p).2 n
  rw [← List.sum_toFinset _ hcols.1]
  unfold mv
  symm
  refine Finset.sum_bij (fun m _ => (columnIndex (o p) (black p) m).getD 0) ?_ ?_ ?_ ?_
  · intro m hm
    rw [List.mem_toFinset] at hm
    obtain ⟨j, hj⟩ := column_some L p m (hcols.2 m hm)
    obtain ⟨hjn, c', hc', ej⟩ := (column_iff L p m j).1 hj
    rw [hj, Option.getD_some, Finset.mem_filter, Finset.mem_range]
    exact ⟨hjn, ((hd p i hi j hjn c hc c' (L.owned p c' (List.mem_of_getElem? hc')) ei ej _).2 ⟨n, m, hn, hc', hm, rfl⟩).1⟩
  · intro m hm m' hm' e
    rw [List.mem_toFinset] at hm hm'
    obtain ⟨j, hj⟩ := column_some L p m (hcols.2 m hm)
    obtain ⟨j', hj'⟩ := column_some L p m' (hcols.2 m' hm')
    rw [hj, hj', Option.getD_some, Option.getD_some] at e
    subst e
    obtain ⟨-, c', hc', ej⟩ := (column_iff L p m j).1 hj
    obtain ⟨-, c2, hc2, ej2⟩ := (column_iff L p m' j).1 hj'
    have := L.inj (L.owned p c' (List.mem_of_getElem? hc')) (L.owned p c2 (List.mem_of_getElem? hc2)) (ej.symm.trans ej2)
    subst this
    exact index_unique L hc' hc2
  · intro j hj
    rw [Finset.mem_filter, Finset.mem_range] at hj
    obtain ⟨c', hc', ej, -⟩ := L.cell p j hj.1
    obtain ⟨n', m, h1, h2, hm, -⟩ := (hd p i hi j hj.1 c hc c' hc' ei ej _).1 ⟨hj.2, rfl⟩
    have := index_unique L h1 hn
    subst this
    refine ⟨m, List.mem_toFinset.2 hm, ?_⟩
    rw [(column_iff L p m j).2 ⟨hj.1, c', h2, ej⟩, Option.getD_some]
  · intro m hm
    rw [List.mem_toFinset] at hm
    obtain ⟨j, hj⟩ := column_some L p m (hcols.2 m hm)
    obtain ⟨hjn, c', hc', ej⟩ := (column_iff L p m j).1 hj
    have hall := L.owned p c' (List.mem_of_getElem? hc')
    rw [hj, Option.getD_some, hx p j hjn c' hall ej, hc', Option.elim_some,
      ((hd p i hi j hjn c hc c' hall ei ej _).2 ⟨n, m, hn, hc', hm, rfl⟩).2]

/-- A computation which is right for own cells, followed by `sync`, gives a result which is right for all cells of the overlap. -/
theorem settles_sync [Zero K] (L : Labelled g number o black) (y0 : Fin P → ℕ → K) (f : Fin P → (ℕ → K) → ℕ → K)
    (R : G → K → Prop)
    (hR : ∀ p, ∀ i < (o p).numDomestic, ∀ c ∈ g.all, (o p).domesticToGlobal i = number c → g.owner c = p → R c (f p (y0 p) i)) :
    ∃ τ, Settles (fun p => roundProgram (fun p => (o p).peerSet) (createBuffers o) p
        ++ [Op.compute fun y : Sync.Vector P K => { y with entries := f p y.entries }]
        ++ roundProgram (fun p => (o p).peerSet) (sync o) p) (fun p => fresh (y0 p)) τ ∧
      ∀ p, ∀ i < (o p).numDomestic, ∀ c ∈ g.all, (o p).domesticToGlobal i = number c → R c ((τ p).entries i) := by
  have h1 := Settles.rounds (σ := fun p => fresh (y0 p)) (peers := fun p => (o p).peerSet) L.coherent.nodup
    L.coherent.symm L.coherent.irrefl [createBuffers o]
  set τ1 := runRound (fun p => (o p).peerSet) (fun p => fresh (y0 p)) (createBuffers o) with hτ1
  have : Nonempty (Sync.Msg K) := ⟨.values []⟩
  set fc : Fin P → Sync.Vector P K → Sync.Vector P K := fun p y => { y with entries := f p y.entries } with hfc
  set τ2 : Fin P → Sync.Vector P K := fun p => fc p (τ1 p) with hτ2
  have h2 : Settles (M := Sync.Msg K) (fun p => [.compute (fc p)]) τ1 τ2 := Settles.compute fc
  have h3 := Settles.rounds (σ := τ2) (peers := fun p => (o p).peerSet) L.coherent.nodup
    L.coherent.symm L.coherent.irrefl [sync o]
  refine ⟨runRound (fun p => (o p).peerSet) τ2 (sync o), ?_, ?_⟩
  · have h := (h1.append h2).append h3
    have e : (fun p => (program (fun p => (o p).peerSet) [createBuffers o] p ++ [Op.compute (fc p)]) ++
        program (fun p => (o p).peerSet) [sync o] p) =
        fun p => roundProgram (fun p => (o p).peerSet) (createBuffers o) p ++ [Op.compute (fc p)] ++
          roundProgram (fun p => (o p).peerSet) (sync o) p := by
      funext p
      simp [program]
    rw [e] at h
    exact h
  · intro p i hi c hc ei
    have b1 := createBuffers_buffers L.coherent y0
    have b2 : ∀ p, Sync.Buffers o p (τ2 p) := fun p => ⟨(b1 p).1.send, (b1 p).1.recv⟩
    obtain ⟨l, hl, el, hv⟩ := sync_entry L.coherent τ2 b2 p i hi
    obtain ⟨b, hb, eb, ob⟩ := L.cell p i hi
    have := L.inj hc hb (ei.symm.trans eb)
    subst this
    rw [← hv]
    rw [ob] at hl el ⊢
    have hr := hR (g.owner c) l hl c hc (el.trans ei) rfl
    have he : (τ2 (g.owner c)).entries l = f (g.owner c) (y0 (g.owner c)) l := by
      show f (g.owner c) (τ1 (g.owner c)).entries l = _
      rw [hτ1, (b1 (g.owner c)).2]
    rw [he]
    exact hr

end

/-- **C106** The product of the overlapping operator: whatever the partition of the grid, the sizes of the overlap and the schedule, if
the argument has the same value for a cell on all processes which have it, the result has, on all processes which have the
cell, the value of the product with the matrix of the whole grid. -/
theorem C106_apply [Semiring K] (v : Valid g d) (hs : 0 < overlapSize) (anyIdx : Fin P → Domestic P) (hN : Native g a)
    (s : System (Fin P) (Process P) (AnyMsg P)) (h : Reach (start (construct d overlapSize) fun p => Process.start (d p) (anyIdx p)) s)
    (hf : Finished s) (any : Fin P → ℕ → ℕ → K) (w : System (Fin P) (Matrix P K) (Msg K))
    (hw : Reach (start (matrixProgram (answers d s.state) (blackMaps s.state) a) fun p =>
      Matrix.start (answers d s.state p) (blackMaps s.state p) (a p) (any p)) w) (hfw : Finished w)
    (y0 x : Fin P → ℕ → K) (u : System (Fin P) (Sync.Vector P K) (Sync.Msg K))
    (hu : Reach (start (applyProgram (answers d s.state) w.state x) fun p => fresh (y0 p)) u) :
    ∃ number : G → ℕ, Set.InjOn number g.all ∧ Constructed g d overlapSize number s.state ∧
      ∀ X : G → K, Consistent g number (answers d s.state) X x →
        (Finished u → ∀ p, ∀ i < (answers d s.state p).numDomestic, ∀ c ∈ g.all,
          (answers d s.state p).domesticToGlobal i = number c → IsProduct g a X c ((u.state p).entries i)) ∧
        (¬Finished u → ∃ t, Step true u t) := by
  obtain ⟨count, number, τ, hτ, hbij, hc, hfor⟩ := settles_constructed v hs anyIdx
  obtain ⟨h1, -⟩ := hτ.correct s h
  have es : s.state = τ := funext (h1 hf)
  rw [es] at hw hu ⊢
  have L := labelled_of_constructed v hs hbij.injOn hc hfor
  obtain ⟨μ, hμ, hdist⟩ := settles_matrix L hN any
  obtain ⟨k1, -⟩ := hμ.correct w hw
  rw [show w.state = μ from funext (k1 hfw)] at hu
  refine ⟨number, hbij.injOn, hc, fun X hX => ?_⟩
  obtain ⟨υ, hυ, hres⟩ := settles_sync L y0 (fun p _ => mv (answers d τ p).numDomestic (μ p) (x p)) (fun c y => IsProduct g a X c y)
    (fun p i hi c hc ei ho => mv_own L hN hdist hX hi hc ei ho)
  obtain ⟨m1, m2⟩ := hυ.correct u hu
  refine ⟨fun hfin p i hi c hc ei => ?_, m2⟩
  rw [m1 hfin p]
  exact hres p i hi c hc ei

/-- **C106** The same for `applyscaleadd`: a multiple of the product is added. -/
theorem C106_applyscaleadd [Semiring K] (v : Valid g d) (hs : 0 < overlapSize) (anyIdx : Fin P → Domestic P) (hN : Native g a)
    (s : System (Fin P) (Process P) (AnyMsg P)) (h : Reach (start (construct d overlapSize) fun p => Process.start (d p) (anyIdx p)) s)
    (hf : Finished s) (any : Fin P → ℕ → ℕ → K) (w : System (Fin P) (Matrix P K) (Msg K))
    (hw : Reach (start (matrixProgram (answers d s.state) (blackMaps s.state) a) fun p =>
      Matrix.start (answers d s.state p) (blackMaps s.state p) (a p) (any p)) w) (hfw : Finished w) (alpha : K)
    (y0 x : Fin P → ℕ → K) (u : System (Fin P) (Sync.Vector P K) (Sync.Msg K))
    (hu : Reach (start (applyScaleAddProgram (answers d s.state) w.state alpha x) fun p => fresh (y0 p)) u) :
    ∃ number : G → ℕ, Set.InjOn number g.all ∧ Constructed g d overlapSize number s.state ∧
      ∀ X Y : G → K, Consistent g number (answers d s.state) X x → Consistent g number (answers d s.state) Y y0 →
        (Finished u → ∀ p, ∀ i < (answers d s.state p).numDomestic, ∀ c ∈ g.all,
          (answers d s.state p).domesticToGlobal i = number c →
            ∃ z, IsProduct g a X c z ∧ (u.state p).entries i = Y c + alpha * z) ∧
        (¬Finished u → ∃ t, Step true u t) := by
  obtain ⟨count, number, τ, hτ, hbij, hc, hfor⟩ := settles_constructed v hs anyIdx
  obtain ⟨h1, -⟩ := hτ.correct s h
  have es : s.state = τ := funext (h1 hf)
  rw [es] at hw hu ⊢
  have L := labelled_of_constructed v hs hbij.injOn hc hfor
  obtain ⟨μ, hμ, hdist⟩ := settles_matrix L hN any
  obtain ⟨k1, -⟩ := hμ.correct w hw
  rw [show w.state = μ from funext (k1 hfw)] at hu
  refine ⟨number, hbij.injOn, hc, fun X Y hX hY => ?_⟩
  obtain ⟨υ, hυ, hres⟩ := settles_sync L y0 (fun p y i => y i + alpha * mv (answers d τ p).numDomestic (μ p) (x p) i)
    (fun c y => ∃ z, IsProduct g a X c z ∧ y = Y c + alpha * z)
    (fun p i hi c hc ei ho => ⟨_, mv_own L hN hdist hX hi hc ei ho, by rw [hY p i hi c hc ei]⟩)
  obtain ⟨m1, m2⟩ := hυ.correct u hu
  refine ⟨fun hfin p i hi c hc ei => ?_, m2⟩
  rw [m1 hfin p]
  exact hres p i hi c hc ei

/-! ### An example -/

/-- The matrix of the Laplacian on the row of cells of `rowMesh` -/
def rowMatrix (p : Fin 3) : NativeMatrix ℤ :=
  { numRows := (rowMesh.cells p).length
    cols := rowMesh.cols p
    value := fun n m => if n = m then 2 else -1 }

theorem rowMatrix_native : Native rowMesh.toGrid rowMatrix := by
  intro p
  refine ⟨rfl, fun n => ⟨?_, fun m hm => rowMesh_correct.cols p n m hm⟩⟩
  show (rowMesh.cols p n).Nodup
  fin_cases p <;> rcases n with _ | _ | _ | _ | n <;> simp [rowMesh]

/-- The hypotheses of the theorems are met: overlaps, matrices and a product can be computed. -/
example (anyIdx : Fin 3 → Domestic 3) (any : Fin 3 → ℕ → ℕ → ℤ) (y0 : Fin 3 → ℕ → ℤ) :
    ∃ s w u, Reach (start (construct rowMesh.native 2) fun p => Process.start (rowMesh.native p) (anyIdx p)) s ∧ Finished s ∧
      Reach (start (matrixProgram (answers rowMesh.native s.state) (blackMaps s.state) rowMatrix) fun p =>
        Matrix.start (answers rowMesh.native s.state p) (blackMaps s.state p) (rowMatrix p) (any p)) w ∧ Finished w ∧
      Reach (start (applyProgram (answers rowMesh.native s.state) w.state fun _ _ => 1) fun p => fresh (y0 p)) u ∧ Finished u ∧
      ∃ number : ℕ → ℕ, ∀ p, ∀ i < (answers rowMesh.native s.state p).numDomestic, ∀ c ∈ rowMesh.toGrid.all,
        (answers rowMesh.native s.state p).domesticToGlobal i = number c →
          IsProduct rowMesh.toGrid rowMatrix (fun _ => 1) c ((u.state p).entries i) := by
  obtain ⟨count, number, τ, hτ, hbij, hc, hfor⟩ := settles_constructed rowMesh_correct (overlapSize := 2) (by decide) anyIdx
  obtain ⟨s, hr, hf, es⟩ := hτ.exists_finished
  have L := labelled_of_constructed rowMesh_correct (by decide) hbij.injOn hc hfor
  obtain ⟨μ, hμ, hdist⟩ := settles_matrix L rowMatrix_native any
  rw [← es] at hμ
  obtain ⟨w, hw, hfw, -⟩ := hμ.exists_finished
  obtain ⟨υ, hυ, -⟩ := settles_sync L y0 (fun p _ => mv (answers rowMesh.native τ p).numDomestic (w.state p) fun _ => 1) (fun _ _ => True)
    (fun _ _ _ _ _ _ _ => trivial)
  obtain ⟨u, hu, hfu, -⟩ := hυ.exists_finished
  have hu' : Reach (start (applyProgram (answers rowMesh.native s.state) w.state fun _ _ => 1) fun p => fresh (y0 p)) u := by
    rw [es]; exact hu
  obtain ⟨number', -, -, hn⟩ := C106_apply rowMesh_correct (by decide) anyIdx rowMatrix_native s hr hf any w hw hfw y0 _ u hu'
  exact ⟨s, w, u, hr, hf, hw, hfw, hu', hfu, number', (hn (fun _ => 1) (fun _ _ _ _ _ _ => rfl)).1 hfu⟩

end Verif.OverlapMatrix
