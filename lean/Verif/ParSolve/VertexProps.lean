import Verif.ParSolve.VertexLemmas
import Verif.ParSolve.Props
import Verif.OverlapMatrix.VertexProps

/-
C177: the parallel linear solver for discretizations whose degrees of freedom are vertices.
-/

set_option autoImplicit false
set_option linter.unusedSectionVars false

namespace Verif.ParSolve.Vertex

open Verif.Mpi Verif.Sync Verif.Overlap Verif.Overlap.Vertex Verif.OverlapMatrix Verif.OverlapMatrix.Vertex Verif.Criteria

variable {P N : ℕ} {G K : Type} [Field K] [LinearOrder K] [IsStrictOrderedRing K]
variable {verts : Fin (P + 1) → List G} {a : Fin (P + 1) → NativeMatrix K} {vert : Fin N → G} {d : Fin (P + 1) → Overlap.Native (P + 1)}
  {overlapSize : ℕ}

theorem copies_of {number : G → ℕ} {o : Fin (P + 1) → Sync.Overlap (P + 1)} {black : Fin (P + 1) → ℕ → Option ℕ}
    (L : Labelled verts d overlapSize number o black) (hcomp : Complete o) (hE : Enumerates verts vert) (v : Valid verts d)
    (hs : 0 < overlapSize) (hN : OverlapMatrix.Vertex.Native verts d a)
    {m : Fin (P + 1) → OverlapMatrix.Matrix (P + 1) K} (hd : Distributed verts number o a m) {b : Fin (P + 1) → ℕ → K} {par : Parameters K}
    (hord : par.order ≤ overlapSize)
    {all : Krylov.System (Σ p, Fin (sizes o p)) K (CombinedState K)}
    (hall : ParallelOn o (Overlap.Vertex.parts verts d overlapSize) overlapSize m b par all)
    {one : Krylov.System (Σ _ : Fin (0 + 1), Fin N) K (CombinedState K)} (hone : Whole verts a b vert par one) :
    Krylov.Copies (copyOf L hE) one all := by
  have hrhs : all.rhs = fun i => one.rhs (copyOf L hE i) := copy_rhs L hcomp hE hone.rhs hall.rhs
  have hdot : ∀ X Y, all.dot (fun i => X (copyOf L hE i)) (fun i => Y (copyOf L hE i)) = one.dot X Y := by
    intro X Y
    rw [hall.dot _ _ 0, hone.dot]
    exact copy_dot L hE v X Y 0
  refine ⟨hone.nodup, hone.complete, hall.nodup, hall.complete, ?_, ?_, ?_, ?_, hdot, ?_, ?_, ?_, ?_, hrhs, ?_, ?_⟩
  · intro X
    obtain ⟨y0, hy⟩ := hall.operator fun i => X (copyOf L hE i)
    exact copy_operator L hs hE hN hd X (hone.operator X) hy
  · rw [hone.pre]
    obtain ⟨h1, h2⟩ := hall.pre (fun _ => 0) all.rhs
    rw [hrhs] at h1 h2 ⊢
    exact Prod.ext (copy_sync L hE (fun _ => 0) h1) (copy_sync L hE one.rhs h2)
  · intro k Y D
    have h := hall.precondition k (fun i => Y (copyOf L hE i)) fun i => D (copyOf L hE i)
    exact copy_precondition L hE hN hd hord par.relaxation Y D (hone.precondition k Y D) h
  · intro X
    rw [hone.post]
    exact copy_sync L hE X (hall.post _)
  · intro s X R
    rw [hall.criterion, hone.criterion]
    simp only [combined]
    rw [copy_errors L hE]
  · intro s X D R
    rw [hall.criterion, hone.criterion]
    exact copy_errors L hE s D R
  · rw [hall.criterion, hone.criterion]; rfl
  · rw [hall.criterion, hone.criterion]; rfl
  · rw [hall.breakdownEps, hone.breakdownEps]
  · rw [hall.maxIterations, hone.maxIterations]

theorem sameOutcome_copy {number : G → ℕ} {o : Fin (P + 1) → Sync.Overlap (P + 1)} {black : Fin (P + 1) → ℕ → Option ℕ}
    (L : Labelled verts d overlapSize number o black) (hE : Enumerates verts vert) (r : Krylov.Outcome (Σ _ : Fin (0 + 1), Fin N) K) :
    SameOutcome verts o vert (r.copy (copyOf L hE)) r := by
  cases r with
  | breakdown n => rfl
  | returned b X n =>
    refine ⟨rfl, rfl, fun p i k hk => ?_⟩
    obtain ⟨hlt, e⟩ := local_index L hk
    unfold assignTo
    rw [L.same p i _ hk]
    simp only [ParSolve.part, dif_pos hlt]
    rw [copyOf_eq L hE hlt e]

/-- **C177** The parallel solver does what the solver does on one process which has the whole grid: however the elements are distributed
and whichever processes share a vertex, whatever the size of the overlap (at least one), the schedule and the MPI library's buffers, it breaks
down in the same iteration or comes to the same verdict after the same number of iterations, and each process gets the values
of the one process for all its vertices.  With the Jacobi preconditioner, and at most as many sweeps as the overlap has layers. -/
theorem C177_solve_partial (v : Valid verts d) (hs : 0 < overlapSize) (anyIdx : Fin (P + 1) → Domestic (P + 1))
    (hN : OverlapMatrix.Vertex.Native verts d a) (s : System (Fin (P + 1)) (Process (P + 1)) (AnyMsg (P + 1)))
    (h : Reach (start (constructWith d overlapSize (peers verts d overlapSize)) fun p => Process.start (d p) (anyIdx p)) s) (hf : Finished s)
    (any : Fin (P + 1) → ℕ → ℕ → K) (w : System (Fin (P + 1)) (OverlapMatrix.Matrix (P + 1) K) (OverlapMatrix.Msg K))
    (hw : Reach (start (matrixProgram (answers d s.state) (blackMaps s.state) a) fun p =>
      Matrix.start (answers d s.state p) (blackMaps s.state p) (a p) (any p)) w) (hfw : Finished w)
    (hE : Enumerates verts vert) (b : Fin (P + 1) → ℕ → K) (par : Parameters K) (hord : par.order ≤ overlapSize)
    (all : Krylov.System (Σ p, Fin (sizes (answers d s.state) p)) K (CombinedState K))
    (hall : ParallelOn (answers d s.state) (fun p => (d p).part (peers verts d overlapSize p)) overlapSize w.state b par all)
    (one : Krylov.System (Σ _ : Fin (0 + 1), Fin N) K (CombinedState K)) (hone : Whole verts a b vert par one) (st : CombinedState K) :
    SameOutcome verts (answers d s.state) vert (Krylov.apply all st) (Krylov.apply one st) := by
  obtain ⟨count, number, τ, hτ, hbij, hc⟩ := settles_constructed (overlapSize := overlapSize) v anyIdx
  obtain ⟨h1, -⟩ := hτ.correct s h
  have es : s.state = τ := funext (h1 hf)
  clear h h1
  obtain ⟨rest, state, chan⟩ := s
  simp only at es
  subst es
  have L := labelled_of_constructed v hbij.injOn hc
  obtain ⟨-, hcomp⟩ := coherent_of_constructed v hbij.injOn hc
  obtain ⟨μ, hμ, hdist⟩ := settles_matrix L hN any
  obtain ⟨k1, -⟩ := hμ.correct w hw
  rw [show w.state = μ from funext (k1 hfw)] at hall
  rw [Krylov.apply_copy (copies_of L hcomp hE v hs hN hdist hord hall hone) st]
  exact sameOutcome_copy L hE _

/-! ### The hypotheses are met -/

theorem exists_product (hn : ∀ p, (verts p).Nodup) (hE : Enumerates verts vert) (X : (Σ _ : Fin (0 + 1), Fin N) → K) (k : Fin N) :
    ∃ y, ∀ X' : G → K, (∀ k, X' (vert k) = X ⟨0, k⟩) → IsProduct verts a X' (vert k) y := by
  classical
  obtain ⟨X0, h0⟩ := exists_onVerts hE X
  set row : Fin (P + 1) → K := fun q => if h : ∃ n, (verts q)[n]? = some (vert k) then
    (((a q).cols h.choose).map fun m => ((verts q)[m]?).elim 0 fun v => (a q).value h.choose m * X0 v).sum else 0 with hrow
  refine ⟨∑ q, row q, fun X' hX => ⟨row, fun q n hn' => ?_, fun q hq => ?_, rfl⟩⟩
  · have h : ∃ n, (verts q)[n]? = some (vert k) := ⟨n, hn'⟩
    have e : h.choose = n := by
      obtain ⟨l1, e1⟩ := List.getElem?_eq_some_iff.1 h.choose_spec
      obtain ⟨l2, e2⟩ := List.getElem?_eq_some_iff.1 hn'
      exact (hn q).getElem_inj_iff.1 (e1.trans e2.symm)
    simp only [hrow]
    rw [dif_pos h, e]
    congr 1
    refine List.map_congr_left fun m _ => ?_
    cases hm : (verts q)[m]? with
    | none => rfl
    | some c =>
      obtain ⟨j, rfl⟩ := (hE.2 c).1 (owned hm)
      simp only [Option.elim_some]
      rw [h0, hX]
  · simp only [hrow]
    rw [dif_neg]
    rintro ⟨n, h⟩
    exact hq (List.mem_of_getElem? h)

theorem exists_residual (hn : ∀ p, (verts p).Nodup) (b : Fin (P + 1) → ℕ → K) (u : G) : ∃ x, IsResidual verts b u x := by
  classical
  set value : Fin (P + 1) → K := fun q => if h : ∃ n, (verts q)[n]? = some u then b q h.choose else 0 with hval
  refine ⟨∑ q, value q, value, fun q n hn' => ?_, fun q hq => ?_, rfl⟩
  · have h : ∃ n, (verts q)[n]? = some u := ⟨n, hn'⟩
    have e : h.choose = n := by
      obtain ⟨l1, e1⟩ := List.getElem?_eq_some_iff.1 h.choose_spec
      obtain ⟨l2, e2⟩ := List.getElem?_eq_some_iff.1 hn'
      exact (hn q).getElem_inj_iff.1 (e1.trans e2.symm)
    simp only [hval]
    rw [dif_pos h, e]
  · simp only [hval]
    rw [dif_neg]
    rintro ⟨n, h⟩
    exact hq (List.mem_of_getElem? h)

/-- **C177** There is something to say: on one process the system is as it should be if each row has a diagonal entry, and all processes can
finish all calls of the solver. -/
theorem C177_exists (v : Valid verts d) (anyIdx : Fin (P + 1) → Domestic (P + 1))
    (s : System (Fin (P + 1)) (Process (P + 1)) (AnyMsg (P + 1)))
    (h : Reach (start (constructWith d overlapSize (peers verts d overlapSize)) fun p => Process.start (d p) (anyIdx p)) s) (hf : Finished s)
    (m : Fin (P + 1) → OverlapMatrix.Matrix (P + 1) K) (hE : Enumerates verts vert) (hdiag : ∀ u ∈ all verts, ∃ x, Entry verts a u u x)
    (b : Fin (P + 1) → ℕ → K) (par : Parameters K) :
    (∃ all, ParallelOn (answers d s.state) (fun p => (d p).part (peers verts d overlapSize p)) overlapSize m b par all) ∧
      ∃ one : Krylov.System (Σ _ : Fin (0 + 1), Fin N) K (CombinedState K), Whole verts a b vert par one := by
  classical
  obtain ⟨count, number, τ, hτ, hbij, hc⟩ := settles_constructed (overlapSize := overlapSize) v anyIdx
  obtain ⟨h1, -⟩ := hτ.correct s h
  have es : s.state = τ := funext (h1 hf)
  rw [es]
  have L := labelled_of_constructed v hbij.injOn hc
  set o := answers d τ with ho
  have hround : ∀ y0 f, ∃ x, Gives o (preconditionProgram (K := K) o f) y0 x := by
    intro y0 f
    obtain ⟨τ', hτ', -⟩ := settles_sync L y0 f (fun _ _ => True) (fun _ _ _ _ _ _ => trivial)
    exact gives_of_settles hτ'
  have hrounds : ∀ rs y0, ∃ x, Gives (K := K) o (program (fun p => (o p).peerSet) rs) y0 x := fun rs y0 =>
    gives_of_settles (Settles.rounds L.coherent.nodup L.coherent.symm L.coherent.irrefl rs)
  constructor
  · choose op hop using fun x : Vec P (sizes o) K => hround (fun _ _ => 0) (fun p _ => mv (o p).numDomestic (m p) (ParSolve.part o x p))
    choose prec hprec using fun (x r : Vec P (sizes o) K) => hround (ParSolve.part o x) fun p =>
      seqJac (o p).numDomestic (m p) par.relaxation (ParSolve.part o r p) par.order
    choose syn hsyn using fun x : Vec P (sizes o) K => hrounds [createBuffers o, sync o] (ParSolve.part o x)
    obtain ⟨rhs, hrhs⟩ := hrounds [createBuffers o, Sync.syncAdd] fun p => fromNative (o p) (b p)
    refine ⟨{ indices := (Finset.univ : Finset (Σ p, Fin (sizes o p))).toList, operator := op, pre := fun x r => (syn x, syn r)
              precondition := fun _ x r => prec x r, post := syn
              dot := fun x y => ScalarProduct.dot (· * ·) overlapSize (fun p => (d p).part (peers verts d overlapSize p))
                (ParSolve.part o x) (ParSolve.part o y) 0
              criterion := combined par.tiny par.tolerance par.absTolerance par.maxError, rhs := rhs, breakdownEps := par.breakdownEps
              maxIterations := par.maxIterations }, ?_⟩
    exact
      { nodup := Finset.nodup_toList _
        complete := fun i => Finset.mem_toList.2 (Finset.mem_univ i)
        rhs := hrhs
        operator := fun x => ⟨_, hop x⟩
        precondition := fun _ y r => hprec y r
        pre := fun x r => ⟨hsyn x, hsyn r⟩
        post := hsyn
        dot := fun _ _ _ => rfl
        criterion := rfl
        breakdownEps := rfl
        maxIterations := rfl }
  · choose op hop using fun (X : (Σ _ : Fin (0 + 1), Fin N) → K) (k : Fin N) => exists_product (a := a) v.nodup hE X k
    choose diag hd using fun k => hdiag (vert k) (mem_all hE k)
    choose res hres using fun k => exists_residual v.nodup b (vert k)
    refine ⟨{ indices := (Finset.univ : Finset (Σ _ : Fin (0 + 1), Fin N)).toList, operator := fun X i => op X i.2
              pre := fun x r => (x, r)
              precondition := fun _ Y D => (fun Y i => Y ⟨0, i.2⟩ + par.relaxation * ((diag i.2)⁻¹ * (D ⟨0, i.2⟩ - op Y i.2)))^[par.order] Y
              post := fun x => x
              dot := fun x y => ∑ k, x ⟨0, k⟩ * y ⟨0, k⟩
              criterion := combined (P := 0) (n := fun _ => N) par.tiny par.tolerance par.absTolerance par.maxError
              rhs := fun i => res i.2, breakdownEps := par.breakdownEps
              maxIterations := par.maxIterations }, ?_⟩
    exact
      { nodup := Finset.nodup_toList _
        complete := fun i => Finset.mem_toList.2 (Finset.mem_univ i)
        rhs := fun k => hres k
        operator := fun X X' hX k => hop X k X' hX
        precondition := fun _ Y D => ⟨fun j => (fun Y i => Y ⟨0, i.2⟩ + par.relaxation * ((diag i.2)⁻¹ * (D ⟨0, i.2⟩ - op Y i.2)))^[j] Y,
          rfl, rfl, fun j _ Y' D' hY hD k => ⟨op _ k, diag k, hop _ k Y' hY, hd k, by
            rw [hY, hD]
            simp only [Function.iterate_succ_apply']⟩⟩
        pre := fun _ _ => rfl
        post := fun _ => rfl
        dot := fun _ _ => rfl
        criterion := rfl
        breakdownEps := rfl
        maxIterations := rfl }

/-! ### The default order of the preconditioners -/

/-- **C177** is of no use if the order is zero, which is the default of `PreconditionerOrder`
(opm/simulators/linalg/linalgparameters.hh line 74): unless a solution of zero is good enough the solver breaks down in its first
iteration, whatever the linear system and the partition. -/
theorem C177_order_violated (v : Valid verts d) (hs : 0 < overlapSize) (anyIdx : Fin (P + 1) → Domestic (P + 1))
    (hN : OverlapMatrix.Vertex.Native verts d a) (s : System (Fin (P + 1)) (Process (P + 1)) (AnyMsg (P + 1)))
    (h : Reach (start (constructWith d overlapSize (peers verts d overlapSize)) fun p => Process.start (d p) (anyIdx p)) s) (hf : Finished s)
    (any : Fin (P + 1) → ℕ → ℕ → K) (w : System (Fin (P + 1)) (OverlapMatrix.Matrix (P + 1) K) (OverlapMatrix.Msg K))
    (hw : Reach (start (matrixProgram (answers d s.state) (blackMaps s.state) a) fun p =>
      Matrix.start (answers d s.state p) (blackMaps s.state p) (a p) (any p)) w) (hfw : Finished w)
    (hE : Enumerates verts vert) (b : Fin (P + 1) → ℕ → K) (par : Parameters K) (horder : par.order = 0) (heps : 0 ≤ par.breakdownEps)
    (hmax : 0 < par.maxIterations)
    (all : Krylov.System (Σ p, Fin (sizes (answers d s.state) p)) K (CombinedState K))
    (hall : ParallelOn (answers d s.state) (fun p => (d p).part (peers verts d overlapSize p)) overlapSize w.state b par all)
    (st : CombinedState K) :
    Krylov.apply all st = .breakdown 0 ∨ Krylov.apply all st = .returned true (fun _ => 0) 0 := by
  obtain ⟨count, number, τ, hτ, hbij, hc⟩ := settles_constructed (overlapSize := overlapSize) v anyIdx
  obtain ⟨h1, -⟩ := hτ.correct s h
  have es : s.state = τ := funext (h1 hf)
  clear h h1
  obtain ⟨rest, state, chan⟩ := s
  simp only at es
  subst es
  have L := labelled_of_constructed v hbij.injOn hc
  obtain ⟨-, hcomp⟩ := coherent_of_constructed v hbij.injOn hc
  obtain ⟨μ, hμ, hdist⟩ := settles_matrix L hN any
  obtain ⟨k1, -⟩ := hμ.correct w hw
  rw [show w.state = μ from funext (k1 hfw)] at hall
  -- the residual on one process
  choose res hres using fun k => exists_residual v.nodup b (vert k)
  have hrhs : all.rhs = fun i => (fun i : Σ _ : Fin (0 + 1), Fin N => res i.2) (copyOf L hE i) :=
    copy_rhs L hcomp hE (B := fun i => res i.2) (fun k => hres k) hall.rhs
  obtain ⟨p1, p2⟩ := hall.pre (fun _ => 0) all.rhs
  have e1 : (all.pre (fun _ => 0) all.rhs).1 = fun _ => 0 := copy_sync L hE (fun _ => 0) p1
  have e3 : ∀ k r, all.precondition k (fun _ => 0) r = fun _ => 0 := by
    intro k r
    have hp := hall.precondition k (fun _ => 0) r
    rw [horder] at hp
    funext ⟨p, i⟩
    exact gives_sync L _ (fun _ y => y = 0) hp (fun p i hi c _ _ => by simp only [seqJac, ParSolve.part, dite_eq_ite, ite_self]) p i _
      (mem_all hE _) (copyOf_spec L hE ⟨p, i⟩)
  have e4 : all.operator (fun _ => 0) = fun _ => 0 := by
    obtain ⟨y0, hy⟩ := hall.operator fun _ => 0
    refine copy_operator L hs hE hN hdist (fun _ => 0) (AX := fun _ => 0) (fun X' hX k => ?_) hy
    refine ⟨fun _ => 0, fun q n _ => (List.sum_eq_zero ?_).symm, fun _ _ => rfl, by simp⟩
    intro x hx
    obtain ⟨j, -, rfl⟩ := List.mem_map.1 hx
    cases hm : (verts q)[j]? with
    | none => rfl
    | some c =>
      obtain ⟨j', rfl⟩ := (hE.2 c).1 (owned hm)
      rw [Option.elim_some, hX, mul_zero]
  have e5 : all.dot all.rhs (fun _ => 0) = 0 := by
    rw [hrhs, hall.dot _ _ 0]
    refine (copy_dot L hE v (fun i => res i.2) (fun _ => (0 : K)) 0).trans ?_
    simp
  unfold Krylov.apply
  have hst : (Krylov.start all st).x = fun _ => 0 := e1
  have hy : (Krylov.start all st).y = fun _ => 0 := e1
  have hi : (Krylov.start all st).iterations = 0 := rfl
  simp only
  split_ifs with hconv
  · right; rw [hst]
  · left
    obtain ⟨k, hk⟩ : ∃ k, all.maxIterations = k + 1 := ⟨_, (Nat.succ_pred_eq_of_pos (hall.maxIterations ▸ hmax)).symm⟩
    rw [hk]
    unfold Krylov.loop Krylov.body
    simp only [hy, e3, e4, e5, abs_zero, hall.breakdownEps, heps, if_true, hi, ite_self]

/-! ### An example -/

/-- The matrix of the Laplacian for an element of the row of three elements, and a part of the identity -/
def rowLaplace (_ : Fin 3) : NativeMatrix ℚ :=
  { numRows := 2, cols := fun _ => [0, 1], value := fun n m => if n = m then 2 else -1 }

theorem rowLaplace_native : OverlapMatrix.Vertex.Native rowVerts (ofGrid rowVerts rowCols) rowLaplace := by
  intro p
  refine ⟨?_, fun n => ⟨by simp [rowLaplace], rfl⟩⟩
  fin_cases p <;> decide

theorem row_enumerates : Enumerates rowVerts (fun k : Fin 4 => (k : ℕ)) := by
  refine ⟨Fin.val_injective, fun u => ⟨?_, ?_⟩⟩
  · rintro ⟨p, hp⟩
    have : u < 4 := by
      fin_cases p <;> simp [rowVerts] at hp <;> omega
    exact ⟨⟨u, this⟩, rfl⟩
  · rintro ⟨k, rfl⟩
    show ∃ p, (k : ℕ) ∈ rowVerts p
    revert k
    decide

theorem row_diagonal (u : ℕ) (h : u ∈ all rowVerts) : ∃ x, Entry rowVerts rowLaplace u u x := by
  classical
  have hpart : ∃ q y, Part rowVerts rowLaplace q u u y := by
    obtain ⟨p, hp⟩ := h
    obtain ⟨n, hn⟩ := List.getElem?_of_mem hp
    refine ⟨p, _, n, n, hn, hn, ?_, rfl⟩
    have : n < 2 := by
      obtain ⟨hl, -⟩ := List.getElem?_eq_some_iff.1 hn
      revert hl
      fin_cases p <;> simp [rowVerts]
    show n ∈ [0, 1]
    simp only [List.mem_cons, List.not_mem_nil, or_false]
    omega
  refine ⟨_, hpart, fun q => if h : ∃ y, Part rowVerts rowLaplace q u u y then h.choose else 0, fun q y hy => ?_, fun q hq => ?_, rfl⟩
  · have h' : ∃ y, Part rowVerts rowLaplace q u u y := ⟨y, hy⟩
    simp only [dif_pos h']
    obtain ⟨n, m, h1, h2, -, e⟩ := h'.choose_spec
    obtain ⟨n', m', h1', h2', -, e'⟩ := hy
    have nd := row_valid.nodup q
    have inj : ∀ {i j : ℕ}, (rowVerts q)[i]? = some u → (rowVerts q)[j]? = some u → i = j := by
      intro i j hi hj
      obtain ⟨l1, e1⟩ := List.getElem?_eq_some_iff.1 hi
      obtain ⟨l2, e2⟩ := List.getElem?_eq_some_iff.1 hj
      exact nd.getElem_inj_iff.1 (e1.trans e2.symm)
    rw [← e, ← e', inj h1 h1', inj h2 h2']
  · dsimp only
    rw [dif_neg]
    rintro ⟨y, hy⟩
    exact hq y hy

/-- The hypotheses of the theorems are met: three processes with the Laplacian on a row of three elements, any right hand side, any number of
layers and any parameters of the solver with at most as many sweeps. -/
example (overlapSize : ℕ) (hs : 0 < overlapSize) (anyIdx : Fin 3 → Domestic 3) (any : Fin 3 → ℕ → ℕ → ℚ) (b : Fin 3 → ℕ → ℚ)
    (par : Parameters ℚ) (horder : par.order ≤ overlapSize) (st : CombinedState ℚ) :
    ∃ s w all one, Reach (start (constructWith (ofGrid rowVerts rowCols) overlapSize (peers rowVerts (ofGrid rowVerts rowCols) overlapSize)) fun p =>
        Process.start (ofGrid rowVerts rowCols p) (anyIdx p)) s ∧ Finished s ∧
      Reach (start (matrixProgram (answers (ofGrid rowVerts rowCols) s.state) (blackMaps s.state) rowLaplace) fun p =>
        Matrix.start (answers (ofGrid rowVerts rowCols) s.state p) (blackMaps s.state p) (rowLaplace p) (any p)) w ∧ Finished w ∧
      ParallelOn (P := 2) (answers (ofGrid rowVerts rowCols) s.state)
        (fun p => (ofGrid rowVerts rowCols p).part (peers rowVerts (ofGrid rowVerts rowCols) overlapSize p)) overlapSize w.state b par all ∧
      Whole (P := 3) rowVerts rowLaplace b (fun k : Fin 4 => (k : ℕ)) par one ∧
      SameOutcome (P := 2) rowVerts (answers (ofGrid rowVerts rowCols) s.state) (fun k : Fin 4 => (k : ℕ)) (Krylov.apply all st)
        (Krylov.apply one st) := by
  obtain ⟨count, number, τ, hτ, hbij, hc⟩ := settles_constructed (overlapSize := overlapSize) row_valid anyIdx
  obtain ⟨s, hr, hf, es⟩ := hτ.exists_finished
  have L := labelled_of_constructed row_valid hbij.injOn hc
  obtain ⟨μ, hμ, -⟩ := settles_matrix L rowLaplace_native any
  rw [← es] at hμ
  obtain ⟨w, hw, hfw, -⟩ := hμ.exists_finished
  obtain ⟨⟨all, hall⟩, one, hone⟩ := C177_exists (P := 2) (a := rowLaplace) row_valid anyIdx s hr hf w.state row_enumerates row_diagonal b par
  exact ⟨s, w, all, one, hr, hf, hw, hfw, hall, hone, C177_solve_partial (P := 2) row_valid hs anyIdx rowLaplace_native s hr hf any w
    hw hfw row_enumerates b par horder all hall one hone st⟩

end Verif.ParSolve.Vertex
