import Verif.ParSolve.Lemmas

/-
Theorems about the parallel linear solver.
-/

set_option autoImplicit false
set_option linter.unusedSectionVars false

namespace Verif.ParSolve

open Verif.Mpi Verif.Sync Verif.Overlap Verif.OverlapMatrix Verif.Criteria

variable {P N : ℕ} {G K : Type} [Field K] [LinearOrder K] [IsStrictOrderedRing K]
variable {g : Grid (P + 1) G} {a : Fin (P + 1) → NativeMatrix K} {cell : Fin N → G} {d : Fin (P + 1) → Overlap.Native (P + 1)}
  {overlapSize : ℕ}

theorem copies_of {number : G → ℕ} {o : Fin (P + 1) → Sync.Overlap (P + 1)} {black : Fin (P + 1) → ℕ → Option ℕ}
    (L : Labelled g number o black) (hcomp : Complete o) (hE : Enumerates g cell) (v : Valid g d) (hs : 0 < overlapSize)
    (ho : ∀ p, (o p).nativeToDomestic = nativeToDomestic (d p)) (hN : OverlapMatrix.Native g a)
    {m : Fin (P + 1) → OverlapMatrix.Matrix (P + 1) K} (hd : Distributed g number o a m) {b : Fin (P + 1) → ℕ → K} {par : Parameters K}
    (hcov : Covered g number o (fun p => (a p).cols) par.order)
    {all : Krylov.System (Σ p, Fin (sizes o p)) K (CombinedState K)} (hall : Parallel o d overlapSize m b par all)
    {one : Krylov.System (Σ _ : Fin (0 + 1), Fin N) K (CombinedState K)} (hone : Whole g a b cell par one) :
    Krylov.Copies (copyOf L hE) one all := by
  have hrhs : all.rhs = fun i => one.rhs (copyOf L hE i) := copy_rhs L hcomp hE hone.rhs hall.rhs
  have hzero : part o (fun _ => (0 : K)) = part o fun i => (fun _ => (0 : K)) (copyOf L hE i) := rfl
  have hdot : ∀ X Y, all.dot (fun i => X (copyOf L hE i)) (fun i => Y (copyOf L hE i)) = one.dot X Y := by
    intro X Y
    rw [hall.dot _ _ 0, hone.dot]
    exact copy_dot L hE v hs ho X Y 0
  refine ⟨hone.nodup, hone.complete, hall.nodup, hall.complete, ?_, ?_, ?_, ?_, hdot, ?_, ?_, ?_, ?_, hrhs, ?_, ?_⟩
  · intro X
    obtain ⟨y0, hy⟩ := hall.operator fun i => X (copyOf L hE i)
    exact copy_operator L hE hN hd X (hone.operator X) hy
  · rw [hone.pre]
    obtain ⟨h1, h2⟩ := hall.pre (fun _ => 0) all.rhs
    rw [hrhs] at h1 h2 ⊢
    exact Prod.ext (copy_sync L hE (fun _ => 0) h1) (copy_sync L hE one.rhs h2)
  · intro k Y D
    have h := hall.precondition k (fun i => Y (copyOf L hE i)) fun i => D (copyOf L hE i)
    exact copy_precondition L hE hN hd hcov par.relaxation Y D (hone.precondition k Y D) h
  · intro X
    rw [hone.post]
    exact copy_sync L hE X (hall.post _)
  · intro s X R
    rw [hall.criterion, hone.criterion]
    simp only [combined]
    rw [copy_errors L hE]
  · intro s X D R
    rw [hall.criterion, hone.criterion]
    exact copy_errors L hE s D R
  · rw [hall.criterion, hone.criterion]; rfl
  · rw [hall.criterion, hone.criterion]; rfl
  · rw [hall.breakdownEps, hone.breakdownEps]
  · rw [hall.maxIterations, hone.maxIterations]

theorem sameOutcome_copy {number : G → ℕ} {o : Fin (P + 1) → Sync.Overlap (P + 1)} {black : Fin (P + 1) → ℕ → Option ℕ}
    (L : Labelled g number o black) (hE : Enumerates g cell) (r : Krylov.Outcome (Σ _ : Fin (0 + 1), Fin N) K) :
    SameOutcome g o cell (r.copy (copyOf L hE)) r := by
  cases r with
  | breakdown n => rfl
  | returned b X n =>
    refine ⟨rfl, rfl, fun p i k hk => ?_⟩
    unfold assignTo
    cases h : (o p).nativeToDomestic i with
    | none =>
      rw [if_neg]
      intro ho
      obtain ⟨l, hl⟩ := L.own p i _ hk ho
      rw [h] at hl
      exact absurd hl (by simp)
    | some l =>
      obtain ⟨hlt, c, hc, ho, e⟩ := (L.native p i l).1 h
      rw [hk] at hc
      injection hc with hc
      subst hc
      rw [if_pos ho]
      simp only [part, dif_pos hlt]
      rw [copyOf_eq L hE hlt e]

/-- **C148** The parallel solver does what the solver does on one process which has the whole grid: however the cells are distributed,
whatever the size of the overlap (at least one), the schedule and the MPI library's buffers, it breaks down in the same iteration or
comes to the same verdict after the same number of iterations, and each process gets the values of the one process for its own
cells.  With the Jacobi preconditioner, and as many sweeps as the overlap is wide enough for. -/
theorem C148_solve_partial (v : Valid g d) (hs : 0 < overlapSize) (anyIdx : Fin (P + 1) → Domestic (P + 1)) (hN : OverlapMatrix.Native g a)
    (s : System (Fin (P + 1)) (Process (P + 1)) (AnyMsg (P + 1)))
    (h : Reach (start (construct d overlapSize) fun p => Process.start (d p) (anyIdx p)) s) (hf : Finished s)
    (any : Fin (P + 1) → ℕ → ℕ → K) (w : System (Fin (P + 1)) (OverlapMatrix.Matrix (P + 1) K) (OverlapMatrix.Msg K))
    (hw : Reach (start (matrixProgram (answers d s.state) (blackMaps s.state) a) fun p =>
      Matrix.start (answers d s.state p) (blackMaps s.state p) (a p) (any p)) w) (hfw : Finished w)
    (hE : Enumerates g cell) (b : Fin (P + 1) → ℕ → K) (par : Parameters K)
    (hwide : Wide g d overlapSize (fun p => (a p).cols) par.order)
    (all : Krylov.System (Σ p, Fin (sizes (answers d s.state) p)) K (CombinedState K))
    (hall : Parallel (answers d s.state) d overlapSize w.state b par all)
    (one : Krylov.System (Σ _ : Fin (0 + 1), Fin N) K (CombinedState K)) (hone : Whole g a b cell par one) (st : CombinedState K) :
    SameOutcome g (answers d s.state) cell (Krylov.apply all st) (Krylov.apply one st) := by
  obtain ⟨count, number, τ, hτ, hbij, hc, hfor⟩ := settles_constructed v hs anyIdx
  obtain ⟨h1, -⟩ := hτ.correct s h
  have es : s.state = τ := funext (h1 hf)
  clear h h1
  obtain ⟨rest, state, chan⟩ := s
  simp only at es
  subst es
  have L := labelled_of_constructed v hs hbij.injOn hc hfor
  obtain ⟨-, hcomp⟩ := coherent_of_constructed v hs hbij.injOn hc hfor
  obtain ⟨μ, hμ, hdist⟩ := settles_matrix L hN any
  obtain ⟨k1, -⟩ := hμ.correct w hw
  rw [show w.state = μ from funext (k1 hfw)] at hall
  rw [Krylov.apply_copy (copies_of L hcomp hE v hs (fun _ => rfl) hN hdist
    (fun c hc' k hk c' hst => (hc.holds _ c' (steps_mem L.owned hc' hst)).2 (hwide c hc' k hk c' hst)) hall hone) st]
  exact sameOutcome_copy L hE _

/-! ### The hypotheses are met -/

theorem gives_of_settles {o : Fin (P + 1) → Sync.Overlap (P + 1)}
    {prog : Fin (P + 1) → List (Op (Fin (P + 1)) (Sync.Vector (P + 1) K) (Sync.Msg K))} {y0 : Fin (P + 1) → ℕ → K}
    {τ : Fin (P + 1) → Sync.Vector (P + 1) K} (h : Settles prog (fun p => fresh (y0 p)) τ) : ∃ x, Gives o prog y0 x := by
  obtain ⟨u, hu, hf, -⟩ := h.exists_finished
  exact ⟨fun i => (u.state i.1).entries i.2, u, hu, hf, fun _ _ => rfl⟩

theorem exists_sum (hE : Enumerates g cell) (X : (Σ _ : Fin (0 + 1), Fin N) → K) (k : Fin N) :
    ∃ y, ∀ X' : G → K, (∀ k, X' (cell k) = X ⟨0, k⟩) → (∀ p, ∀ c ∈ g.cells p, c ∈ g.all) → IsProduct g a X' (cell k) y := by
  obtain ⟨n, hn⟩ := List.getElem?_of_mem (show cell k ∈ g.cells (g.owner (cell k)) from mem_all hE k)
  obtain ⟨X0, h0⟩ := exists_onCells hE X
  refine ⟨(((a (g.owner (cell k))).cols n).map fun m => ((g.cells (g.owner (cell k)))[m]?).elim 0
    fun c' => (a (g.owner (cell k))).value n m * X0 c').sum, fun X' hX ho => ⟨n, hn, ?_⟩⟩
  congr 1
  refine List.map_congr_left fun m _ => ?_
  cases hm : (g.cells (g.owner (cell k)))[m]? with
  | none => rfl
  | some c =>
    obtain ⟨j, rfl⟩ := (hE.2 c).1 (ho _ _ (List.mem_of_getElem? hm))
    simp only [Option.elim_some]
    rw [h0, hX]

/-- **C148** There is something to say: on one process the system is as it should be if each row has a diagonal entry, and all processes can
finish all calls of the solver. -/
theorem C148_exists (v : Valid g d) (hs : 0 < overlapSize) (anyIdx : Fin (P + 1) → Domestic (P + 1))
    (s : System (Fin (P + 1)) (Process (P + 1)) (AnyMsg (P + 1)))
    (h : Reach (start (construct d overlapSize) fun p => Process.start (d p) (anyIdx p)) s) (hf : Finished s)
    (m : Fin (P + 1) → OverlapMatrix.Matrix (P + 1) K) (hE : Enumerates g cell) (hdiag : ∀ c ∈ g.all, ∃ x, Entry g a c c x)
    (b : Fin (P + 1) → ℕ → K) (par : Parameters K) :
    (∃ all, Parallel (answers d s.state) d overlapSize m b par all) ∧
      ∃ one : Krylov.System (Σ _ : Fin (0 + 1), Fin N) K (CombinedState K), Whole g a b cell par one := by
  classical
  obtain ⟨count, number, τ, hτ, hbij, hc, hfor⟩ := settles_constructed v hs anyIdx
  obtain ⟨h1, -⟩ := hτ.correct s h
  have es : s.state = τ := funext (h1 hf)
  rw [es]
  have L := labelled_of_constructed v hs hbij.injOn hc hfor
  set o := answers d τ with ho
  have hround : ∀ y0 f, ∃ x, Gives o (preconditionProgram (K := K) o f) y0 x := by
    intro y0 f
    obtain ⟨τ', hτ', -⟩ := settles_sync L y0 f (fun _ _ => True) (fun _ _ _ _ _ _ _ => trivial)
    exact gives_of_settles hτ'
  have hrounds : ∀ rs y0, ∃ x, Gives (K := K) o (program (fun p => (o p).peerSet) rs) y0 x := fun rs y0 =>
    gives_of_settles (Settles.rounds L.coherent.nodup L.coherent.symm L.coherent.irrefl rs)
  constructor
  · choose op hop using fun x : Vec P (sizes o) K => hround (fun _ _ => 0) (fun p _ => mv (o p).numDomestic (m p) (part o x p))
    choose prec hprec using fun (x r : Vec P (sizes o) K) => hround (part o x) fun p =>
      seqJac (o p).numDomestic (m p) par.relaxation (part o r p) par.order
    choose syn hsyn using fun x : Vec P (sizes o) K => hrounds [createBuffers o, sync o] (part o x)
    obtain ⟨rhs, hrhs⟩ := hrounds [createBuffers o, syncAdd] fun p => fromNative (o p) (b p)
    refine ⟨{ indices := (Finset.univ : Finset (Σ p, Fin (sizes o p))).toList, operator := op, pre := fun x r => (syn x, syn r)
              precondition := fun _ x r => prec x r, post := syn
              dot := fun x y => ScalarProduct.dot (· * ·) overlapSize (Overlap.parts d) (part o x) (part o y) 0
              criterion := combined par.tiny par.tolerance par.absTolerance par.maxError, rhs := rhs, breakdownEps := par.breakdownEps
              maxIterations := par.maxIterations }, ?_⟩
    exact
      { nodup := Finset.nodup_toList _
        complete := fun i => Finset.mem_toList.2 (Finset.mem_univ i)
        rhs := hrhs
        operator := fun x => ⟨_, hop x⟩
        precondition := fun _ y r => hprec y r
        pre := fun x r => ⟨hsyn x, hsyn r⟩
        post := hsyn
        dot := fun _ _ _ => rfl
        criterion := rfl
        breakdownEps := rfl
        maxIterations := rfl }
  · choose op hop using fun (X : (Σ _ : Fin (0 + 1), Fin N) → K) (k : Fin N) => exists_sum (a := a) hE X k
    choose diag hd using fun k => hdiag (cell k) (mem_all hE k)
    choose n hn using fun k => List.getElem?_of_mem (show cell k ∈ g.cells (g.owner (cell k)) from mem_all hE k)
    refine ⟨{ indices := (Finset.univ : Finset (Σ _ : Fin (0 + 1), Fin N)).toList, operator := fun X i => op X i.2
              pre := fun x r => (x, r)
              precondition := fun _ Y D => (fun Y i => Y ⟨0, i.2⟩ + par.relaxation * ((diag i.2)⁻¹ * (D ⟨0, i.2⟩ - op Y i.2)))^[par.order] Y
              post := fun x => x
              dot := fun x y => ∑ k, x ⟨0, k⟩ * y ⟨0, k⟩
              criterion := combined (P := 0) (n := fun _ => N) par.tiny par.tolerance par.absTolerance par.maxError
              rhs := fun i => b (g.owner (cell i.2)) (n i.2), breakdownEps := par.breakdownEps
              maxIterations := par.maxIterations }, ?_⟩
    exact
      { nodup := Finset.nodup_toList _
        complete := fun i => Finset.mem_toList.2 (Finset.mem_univ i)
        rhs := fun k => ⟨n k, hn k, rfl⟩
        operator := fun X X' hX k => hop X k X' hX L.owned
        precondition := fun _ Y D => ⟨fun j => (fun Y i => Y ⟨0, i.2⟩ + par.relaxation * ((diag i.2)⁻¹ * (D ⟨0, i.2⟩ - op Y i.2)))^[j] Y,
          rfl, rfl, fun j _ Y' D' hY hD k => ⟨op _ k, diag k, hop _ k Y' hY L.owned, hd k, by
            rw [hY, hD]
            simp only [Function.iterate_succ_apply']⟩⟩
        pre := fun _ _ => rfl
        post := fun _ => rfl
        dot := fun _ _ => rfl
        criterion := rfl
        breakdownEps := rfl
        maxIterations := rfl }

/-! ### The default order of the preconditioners -/

/-- **C148** is false if the order is zero, which is the default of `PreconditionerOrder`
(opm/simulators/linalg/linalgparameters.hh line 74): the Jacobi preconditioner then does no sweep, and unless a solution of zero is
good enough the solver breaks down in its first iteration, whatever the linear system and the partition. -/
theorem C148_order_violated (v : Valid g d) (hs : 0 < overlapSize) (anyIdx : Fin (P + 1) → Domestic (P + 1))
    (hN : OverlapMatrix.Native g a) (s : System (Fin (P + 1)) (Process (P + 1)) (AnyMsg (P + 1)))
    (h : Reach (start (construct d overlapSize) fun p => Process.start (d p) (anyIdx p)) s) (hf : Finished s)
    (any : Fin (P + 1) → ℕ → ℕ → K) (w : System (Fin (P + 1)) (OverlapMatrix.Matrix (P + 1) K) (OverlapMatrix.Msg K))
    (hw : Reach (start (matrixProgram (answers d s.state) (blackMaps s.state) a) fun p =>
      Matrix.start (answers d s.state p) (blackMaps s.state p) (a p) (any p)) w) (hfw : Finished w)
    (hE : Enumerates g cell) (b : Fin (P + 1) → ℕ → K) (par : Parameters K) (horder : par.order = 0) (heps : 0 ≤ par.breakdownEps)
    (hmax : 0 < par.maxIterations)
    (all : Krylov.System (Σ p, Fin (sizes (answers d s.state) p)) K (CombinedState K))
    (hall : Parallel (answers d s.state) d overlapSize w.state b par all) (st : CombinedState K) :
    Krylov.apply all st = .breakdown 0 ∨ Krylov.apply all st = .returned true (fun _ => 0) 0 := by
  obtain ⟨count, number, τ, hτ, hbij, hc, hfor⟩ := settles_constructed v hs anyIdx
  obtain ⟨h1, -⟩ := hτ.correct s h
  have es : s.state = τ := funext (h1 hf)
  clear h h1
  obtain ⟨rest, state, chan⟩ := s
  simp only at es
  subst es
  have L := labelled_of_constructed v hs hbij.injOn hc hfor
  obtain ⟨-, hcomp⟩ := coherent_of_constructed v hs hbij.injOn hc hfor
  obtain ⟨μ, hμ, hdist⟩ := settles_matrix L hN any
  obtain ⟨k1, -⟩ := hμ.correct w hw
  rw [show w.state = μ from funext (k1 hfw)] at hall
  -- the residual on one process
  choose n hn using fun k => List.getElem?_of_mem (show cell k ∈ g.cells (g.owner (cell k)) from mem_all hE k)
  have hrhs : all.rhs = fun i => (fun i : Σ _ : Fin (0 + 1), Fin N => b (g.owner (cell i.2)) (n i.2)) (copyOf L hE i) :=
    copy_rhs L hcomp hE (B := fun i => b (g.owner (cell i.2)) (n i.2)) (fun k => ⟨n k, hn k, rfl⟩) hall.rhs
  obtain ⟨p1, p2⟩ := hall.pre (fun _ => 0) all.rhs
  have e1 : (all.pre (fun _ => 0) all.rhs).1 = fun _ => 0 := copy_sync L hE (fun _ => 0) p1
  have e3 : ∀ k r, all.precondition k (fun _ => 0) r = fun _ => 0 := by
    intro k r
    have hp := hall.precondition k (fun _ => 0) r
    rw [horder] at hp
    funext ⟨p, i⟩
    exact gives_sync L _ (fun _ y => y = 0) hp (fun p i hi c _ _ _ => by simp only [seqJac, part, dite_eq_ite, ite_self]) p i _
      (mem_all hE _) (copyOf_spec L hE ⟨p, i⟩)
  have e4 : all.operator (fun _ => 0) = fun _ => 0 := by
    obtain ⟨y0, hy⟩ := hall.operator fun _ => 0
    refine copy_operator L hE hN hdist (fun _ => 0) (AX := fun _ => 0) (fun X' hX k => ?_) hy
    refine ⟨n k, hn k, (List.sum_eq_zero ?_).symm⟩
    intro x hx
    obtain ⟨j, -, rfl⟩ := List.mem_map.1 hx
    cases hm : (g.cells (g.owner (cell k)))[j]? with
    | none => rfl
    | some c =>
      obtain ⟨j', rfl⟩ := (hE.2 c).1 (L.owned _ _ (List.mem_of_getElem? hm))
      rw [Option.elim_some, hX, mul_zero]
  have e5 : all.dot all.rhs (fun _ => 0) = 0 := by
    rw [hrhs, hall.dot _ _ 0]
    refine (copy_dot L hE v hs (fun _ => rfl) (fun i => b (g.owner (cell i.2)) (n i.2)) (fun _ => (0 : K)) 0).trans ?_
    simp
  unfold Krylov.apply
  have hst : (Krylov.start all st).x = fun _ => 0 := e1
  have hy : (Krylov.start all st).y = fun _ => 0 := e1
  have hi : (Krylov.start all st).iterations = 0 := rfl
  simp only
  split_ifs with hconv
  · right; rw [hst]
  · left
    obtain ⟨k, hk⟩ : ∃ k, all.maxIterations = k + 1 := ⟨_, (Nat.succ_pred_eq_of_pos (hall.maxIterations ▸ hmax)).symm⟩
    rw [hk]
    unfold Krylov.loop Krylov.body
    simp only [hy, e3, e4, e5, abs_zero, hall.breakdownEps, heps, if_true, hi, ite_self]

/-! ### An example -/

/-- The Laplacian on the row of cells of `rowMesh`, with rational numbers -/
def rowMatrix (p : Fin 3) : NativeMatrix ℚ :=
  { numRows := (rowMesh.cells p).length
    cols := rowMesh.cols p
    value := fun n m => if n = m then 2 else -1 }

theorem rowMatrix_native : OverlapMatrix.Native rowMesh.toGrid rowMatrix := by
  intro p
  refine ⟨rfl, fun n => ⟨?_, fun m hm => rowMesh_correct.cols p n m hm⟩⟩
  show (rowMesh.cols p n).Nodup
  fin_cases p <;> rcases n with _ | _ | _ | _ | n <;> simp [rowMesh]

theorem row_enumerates : Enumerates rowMesh.toGrid (fun k : Fin 6 => (k : ℕ)) := by
  refine ⟨Fin.val_injective, fun c => ⟨fun h => ?_, ?_⟩⟩
  · have h' : c ∈ rowMesh.cells (rowMesh.owner c) := h
    have : c < 6 := by
      by_contra hc
      have e : rowMesh.owner c = 2 := by
        simp only [rowMesh]
        rw [if_neg (by omega), if_neg (by omega)]
      rw [e] at h'
      have h2 : c ∈ ([3, 4, 5] : List ℕ) := h'
      simp only [List.mem_cons, List.not_mem_nil, or_false] at h2
      omega
    exact ⟨⟨c, this⟩, rfl⟩
  · rintro ⟨k, rfl⟩
    show (k : ℕ) ∈ rowMesh.cells (rowMesh.owner k)
    revert k
    decide

theorem row_diagonal (c : ℕ) (h : c ∈ rowMesh.toGrid.all) : ∃ x, Entry rowMesh.toGrid rowMatrix c c x := by
  obtain ⟨k, rfl⟩ := (row_enumerates.2 c).1 h
  have : ∀ k : Fin 6, ∃ n, n < 4 ∧ (rowMesh.cells (rowMesh.owner k))[n]? = some (k : ℕ) ∧ n ∈ rowMesh.cols (rowMesh.owner k) n := by
    decide
  obtain ⟨n, -, h1, h2⟩ := this k
  exact ⟨_, n, n, h1, h1, h2, rfl⟩

/-- The hypotheses of the theorems are met: three processes with the Laplacian on a row of six cells, any right hand side, and any
parameters of the solver with at most one sweep. -/
example (anyIdx : Fin 3 → Domestic 3) (any : Fin 3 → ℕ → ℕ → ℚ) (b : Fin 3 → ℕ → ℚ) (par : Parameters ℚ) (horder : par.order ≤ 1)
    (st : CombinedState ℚ) :
    ∃ s w all one, Reach (start (construct rowMesh.native 1) fun p => Process.start (rowMesh.native p) (anyIdx p)) s ∧ Finished s ∧
      Reach (start (matrixProgram (answers rowMesh.native s.state) (blackMaps s.state) rowMatrix) fun p =>
        Matrix.start (answers rowMesh.native s.state p) (blackMaps s.state p) (rowMatrix p) (any p)) w ∧ Finished w ∧
      Parallel (P := 2) (answers rowMesh.native s.state) rowMesh.native 1 w.state b par all ∧
      Whole (P := 2) rowMesh.toGrid rowMatrix b (fun k : Fin 6 => (k : ℕ)) par one ∧
      SameOutcome (P := 2) rowMesh.toGrid (answers rowMesh.native s.state) (fun k : Fin 6 => (k : ℕ)) (Krylov.apply all st)
        (Krylov.apply one st) := by
  obtain ⟨count, number, τ, hτ, hbij, hc, hfor⟩ := settles_constructed rowMesh_correct (overlapSize := 1) (by decide) anyIdx
  obtain ⟨s, hr, hf, es⟩ := hτ.exists_finished
  have L := labelled_of_constructed rowMesh_correct (by decide) hbij.injOn hc hfor
  obtain ⟨μ, hμ, -⟩ := settles_matrix L rowMatrix_native any
  rw [← es] at hμ
  obtain ⟨w, hw, hfw, -⟩ := hμ.exists_finished
  obtain ⟨⟨all, hall⟩, one, hone⟩ := C148_exists (P := 2) (a := rowMatrix) rowMesh_correct (by decide) anyIdx s hr hf w.state
    row_enumerates row_diagonal b par
  exact ⟨s, w, all, one, hr, hf, hw, hfw, hall, hone, C148_solve_partial (P := 2) rowMesh_correct (by decide) anyIdx rowMatrix_native s hr hf any w
    hw hfw row_enumerates b par ((wide_one rowMesh_correct (by decide) _).mono horder) all hall one hone st⟩

end Verif.ParSolve
