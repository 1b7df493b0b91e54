import Verif.ParNewton.LoopLemmas
import Mathlib.Tactic.FinCases
import Mathlib.Tactic.NormNum

/-
Theorems about the Newton method on several processes.
-/

set_option autoImplicit false
set_option linter.unusedSectionVars false

namespace Verif.ParNewton

open Verif.Mpi Verif.Sync Verif.Overlap Verif.OverlapMatrix Verif.Newton Verif.Criteria Verif.ParSolve.Block Verif.GridComm
open Verif.ParSolve (Enumerates Wide Steps Covered mem_all steps_mem wide_one row_enumerates)

variable {P N E : ℕ} {G K V : Type} [Field K] [LinearOrder K] [IsStrictOrderedRing K] [Inhabited V]
variable {g : Grid (P + 1) G} {cell : Fin N → G} {eqs : Equations G E K V} {set : Settings K} {d : Fin (P + 1) → Overlap.Native (P + 1)}
  {overlapSize : ℕ} {face : Interface (P + 1) G} {M : Machine P E K V}

/-- The set-up on several processes: the grid is distributed properly, all processes have finished to set up their overlaps, the grid can
update copies, and the machine runs the code for these equations, with an overlap which is wide enough for the sweeps of the Jacobi
preconditioner.  For one sweep it always is (`wide_one`). -/
structure Started (eqs : Equations G E K V) (set : Settings K) (g : Grid (P + 1) G) (cell : Fin N → G) (M : Machine P E K V) : Prop where
  loc : Local eqs
  enumerates : Enumerates g cell
  exists_overlap : ∃ (d : Fin (P + 1) → Overlap.Native (P + 1)) (overlapSize : ℕ) (face : Interface (P + 1) G)
    (anyIdx : Fin (P + 1) → Domestic (P + 1)) (s : System (Fin (P + 1)) (Process (P + 1)) (AnyMsg (P + 1))),
      Valid g d ∧ 0 < overlapSize ∧ Wide g d overlapSize (fun p => (d p).cols) set.solver.order ∧
      Pattern eqs g (fun p => (d p).cols) ∧ Ghosts g face ∧
      Reach (start (construct d overlapSize) fun p => Process.start (d p) (anyIdx p)) s ∧ Finished s ∧
      Runs eqs set g d overlapSize (answers d s.state) (blackMaps s.state) face M

theorem setup_of_started (h : Started eqs set g cell M) : ∃ (d : Fin (P + 1) → Overlap.Native (P + 1)) (overlapSize : ℕ) (number : G → ℕ)
    (o : Fin (P + 1) → Sync.Overlap (P + 1)) (black : Fin (P + 1) → ℕ → Option ℕ) (face : Interface (P + 1) G),
      Setup eqs set g d overlapSize number o black face M cell := by
  obtain ⟨d, overlapSize, face, anyIdx, s, v, hs, hw, hp, hg, hr, hf, hR⟩ := h.exists_overlap
  obtain ⟨count, number, τ, hτ, hbij, hc, hfor⟩ := settles_constructed v hs anyIdx
  obtain ⟨h1, -⟩ := hτ.correct s hr
  have es : s.state = τ := funext (h1 hf)
  rw [es] at hR
  obtain ⟨-, hcomp⟩ := coherent_of_constructed v hs hbij.injOn hc hfor
  have L := labelled_of_constructed v hs hbij.injOn hc hfor
  exact ⟨d, overlapSize, number, _, _, face, h.loc, v, hs,
    fun c hc' k hk c' hst => (hc.holds _ c' (steps_mem L.owned hc' hst)).2 (hw c hc' k hk c' hst), h.enumerates, hp, hg, hR, L, hcomp,
    fun _ => rfl⟩

theorem rel_start {s : Fin (P + 1) → ℕ → V} {x : ℕ → V} (hown : HaveOwn g cell s x) (error lastError : Fl K) :
    Rel g cell (fun p => { sol := s p, error := error, lastError := lastError, iterations := 0 })
      { sol := x, error := error, lastError := lastError, iterations := 0 } :=
  ⟨fun _ => rfl, fun _ => rfl, fun _ => rfl, hown⟩

/-- **C161** The Newton method on several processes does what it does on one process which has the whole grid: however the cells are
distributed and whatever the schedules of messages, all processes succeed or fail as the one process does, after the same number of
iterations and with the same error, no process waits for ever, and each process has the values of the one process for its own cells.  At
first copies can have any values, but cached intensive quantities have to be those which cells have on the one process when the constraints
have been applied. -/
theorem C161_newton_partial (h : Started eqs set g cell M) {s : Fin (P + 1) → ℕ → V} {x : ℕ → V} (hown : HaveOwn g cell s x)
    (hfresh : Fresh g cell M.cache (constrain eqs cell x)) (error lastError : Fl K) (fuel : ℕ) :
    SameEnd g cell (apply M s error lastError fuel) (Newton.apply (single eqs cell set) x error lastError fuel) := by
  obtain ⟨d, overlapSize, number, o, black, face, S⟩ := setup_of_started h
  exact loop_same S fuel 0 _ _ (rel_start hown error lastError) fun _ => hfresh

/-- **C161** After a success with more than one iteration, copies have the values of their owners as well. -/
theorem C161_copies (h : Started eqs set g cell M) {s : Fin (P + 1) → ℕ → V} {x : ℕ → V} (hown : HaveOwn g cell s x)
    (hfresh : Fresh g cell M.cache (constrain eqs cell x)) (error lastError : Fl K) (fuel : ℕ) (r : Fin (P + 1) → Newton.Outcome × NState K V)
    (hr : apply M s error lastError fuel = some (.finished r)) (hs : ∃ p, (r p).1 = .success) (hn : ∃ p, (r p).2.iterations ≠ 1) :
    ∃ y, HaveAll g cell (fun p => (r p).2.sol) y := by
  obtain ⟨d, overlapSize, number, o, black, face, S⟩ := setup_of_started h
  have hsame := C161_newton_partial h hown hfresh error lastError fuel
  rw [hr] at hsame
  cases hone : Newton.apply (single eqs cell set) x error lastError fuel with
  | none => rw [hone] at hsame; exact hsame.elim
  | some q =>
    obtain ⟨out, t⟩ := q
    rw [hone] at hsame
    obtain ⟨p, hp⟩ := hs
    obtain ⟨p', hp'⟩ := hn
    have e : out = .success := (hsame.1 p).1.symm.trans hp
    subst e
    refine ⟨t.sol, loop_copies S fuel 0 _ _ (rel_start hown error lastError) (fun _ => hfresh) (fun h => ?_) r t hr hone ?_⟩
    · exact absurd h (by simp)
    · rw [← (hsame.1 p').2.2.2]; exact hp'

/-- **C161** After a success with one iteration, own cells have been updated by what the linear solver has found, but copies by zero
(unless their values are prescribed). -/
theorem C161_stale (h : Started eqs set g cell M) {s : Fin (P + 1) → ℕ → V} {x : ℕ → V} (hown : HaveOwn g cell s x)
    (hfresh : Fresh g cell M.cache (constrain eqs cell x)) (error lastError : Fl K) (fuel : ℕ) (r : Fin (P + 1) → Newton.Outcome × NState K V)
    (hr : apply M s error lastError fuel = some (.finished r)) (hs : ∃ p, (r p).1 = .success) (hn : ∃ p, (r p).2.iterations = 1)
    (p : Fin (P + 1)) (i : ℕ) (k : Fin N) (hk : (g.cells p)[i]? = some (cell k)) (ho : g.owner (cell k) ≠ p) :
    (r p).2.sol i = (eqs.constraint (cell k)).getD (eqs.update (cell k) (x k) 0) := by
  obtain ⟨d, overlapSize, number, o, black, face, S⟩ := setup_of_started h
  have hsame := C161_newton_partial h hown hfresh error lastError fuel
  rw [hr] at hsame
  cases hone : Newton.apply (single eqs cell set) x error lastError fuel with
  | none => rw [hone] at hsame; exact hsame.elim
  | some q =>
    obtain ⟨out, t⟩ := q
    rw [hone] at hsame
    obtain ⟨p1, hp1⟩ := hs
    obtain ⟨p2, hp2⟩ := hn
    have e : out = .success := (hsame.1 p1).1.symm.trans hp1
    subst e
    exact loop_stale S fuel 0 _ _ (rel_start hown error lastError) rfl hfresh r t hr hone ((hsame.1 p2).2.2.2.symm.trans hp2) p i k hk ho

/-- **C161** After a success, all processes have the prescribed values for cells with constraints, also for copies. -/
theorem C161_constraints (h : Started eqs set g cell M) (s : Fin (P + 1) → ℕ → V) (error lastError : Fl K) (fuel : ℕ)
    (r : Fin (P + 1) → Newton.Outcome × NState K V) (hr : apply M s error lastError fuel = some (.finished r)) (p : Fin (P + 1))
    (hs : (r p).1 = .success) (i : ℕ) (c : G) (hi : (g.cells p)[i]? = some c) (v : V) (hv : eqs.constraint c = some v) :
    (r p).2.sol i = v := by
  obtain ⟨d, overlapSize, number, o, black, face, S⟩ := setup_of_started h
  exact loop_constrained S.runs fuel 0 _ (.inl fun _ => rfl) r hr p hs i c hi v hv

/-- **C161** Two distributions of the same grid: the Newton method ends in the same way, after as many iterations, with the same error and
the same values of all cells. -/
theorem C161_distributions {P' : ℕ} {g' : Grid (P' + 1) G} {M' : Machine P' E K V} (h : Started eqs set g cell M)
    (h' : Started eqs set g' cell M') {s : Fin (P + 1) → ℕ → V} {s' : Fin (P' + 1) → ℕ → V} {x : ℕ → V} (hown : HaveOwn g cell s x)
    (hown' : HaveOwn g' cell s' x) (hfresh : Fresh g cell M.cache (constrain eqs cell x)) (hfresh' : Fresh g' cell M'.cache (constrain eqs cell x)) (error lastError : Fl K)
    (fuel : ℕ) (r : Fin (P + 1) → Newton.Outcome × NState K V) (hr : apply M s error lastError fuel = some (.finished r)) :
    ∃ r', apply M' s' error lastError fuel = some (.finished r') ∧ ∀ p p',
      (r p).1 = (r' p').1 ∧ (r p).2.iterations = (r' p').2.iterations ∧ (r p).2.error = (r' p').2.error ∧
        ∀ (i i' : ℕ) (k : Fin N), (g.cells p)[i]? = some (cell k) → g.owner (cell k) = p → (g'.cells p')[i']? = some (cell k) →
          g'.owner (cell k) = p' → (r p).2.sol i = (r' p').2.sol i' := by
  have h1 := C161_newton_partial h hown hfresh error lastError fuel
  have h2 := C161_newton_partial h' hown' hfresh' error lastError fuel
  rw [hr] at h1
  cases hone : Newton.apply (single eqs cell set) x error lastError fuel with
  | none => rw [hone] at h1; exact h1.elim
  | some q =>
    obtain ⟨out, t⟩ := q
    rw [hone] at h1 h2
    cases hr' : apply M' s' error lastError fuel with
    | none => rw [hr'] at h2; exact h2.elim
    | some e =>
      cases e with
      | deadlock => rw [hr'] at h2; exact h2.elim
      | finished r' =>
        rw [hr'] at h2
        refine ⟨r', rfl, fun p p' => ?_⟩
        obtain ⟨a1, a2, a3, a4⟩ := h1.1 p
        obtain ⟨b1, b2, b3, b4⟩ := h2.1 p'
        refine ⟨a1.trans b1.symm, a4.trans b4.symm, a2.trans b2.symm, fun i i' k hi ho hi' ho' => ?_⟩
        exact (h1.2 p i k hi ho).trans (h2.2 p' i' k hi' ho').symm

/-! ### The hypotheses are met -/

/-- Any grid which is distributed properly can update copies. -/
theorem exists_ghosts (v : Valid g d) : ∃ face, Ghosts g face := by
  classical
  refine ⟨{ peers := fun p => (List.finRange (P + 1)).filter (· ≠ p)
            sent := fun p q => if q = p then [] else (g.cells q).filter (g.owner · = p)
            index := fun p c => (g.cells p).idxOf c }, ?_, ?_, ?_⟩
  · refine ⟨fun p => (List.nodup_finRange _).filter _, fun p q => ?_, fun p => ?_, fun p => ?_, fun p q => ?_, fun p q e he => ?_⟩
    · simp only [List.mem_filter, List.mem_finRange, true_and, decide_eq_true_eq]; exact ne_comm
    · simp
    · intro c hc c' _ e
      exact (List.idxOf_inj (show c ∈ g.cells p from hc)).1 e
    · dsimp only
      split_ifs
      · exact List.nodup_nil
      · exact (v.nodup q).filter _
    · dsimp only at he ⊢
      split_ifs at he with h
      · exact absurd he (by simp)
      · simp only [List.mem_filter, decide_eq_true_eq] at he
        refine ⟨by simp [h], ?_, he.1⟩
        show e ∈ g.cells p
        rw [← he.2]
        exact v.owned q e he.1
  · refine ⟨fun p e he => v.owned p e he, fun p q e => ?_⟩
    dsimp only
    split_ifs with h
    · simp [h]
    · simp only [List.mem_filter, decide_eq_true_eq, Set.mem_ofPred_eq]
      exact ⟨fun h' => ⟨h'.2.symm, h, h'.1⟩, fun h' => ⟨h'.2.2, h'.1.symm⟩⟩
  · intro p i c hc
    obtain ⟨hi, rfl⟩ := List.getElem?_eq_some_iff.1 hc
    exact (v.nodup p).idxOf_getElem i hi

open Classical in
/-- **C161** There is something to say: for any equations and any distribution of the grid for which the columns of the matrices are the
stencils, the processes can set everything up and finish all calls. -/
theorem C161_exists (hl : Local eqs) (hE : Enumerates g cell) (v : Valid g d) (hs : 0 < overlapSize)
    (hwide : Wide g d overlapSize (fun p => (d p).cols) set.solver.order)
    (hp : Pattern eqs g fun p => (d p).cols) : ∃ M : Machine P E K V, Started eqs set g cell M ∧ M.cache = fun _ _ => none := by
  let anyIdx : Fin (P + 1) → Domestic (P + 1) := fun _ => ⟨0, fun _ => none, fun _ => none, fun _ => [], fun _ _ => none, fun _ => none, fun _ => none⟩
  obtain ⟨face, hg⟩ := exists_ghosts v
  obtain ⟨count, number, τ, hτ, hbij, hc, hfor⟩ := settles_constructed v hs anyIdx
  obtain ⟨s, hr, hf, es⟩ := hτ.exists_finished
  have L : Labelled g number (answers d s.state) (blackMaps s.state) := by
    rw [es]
    exact labelled_of_constructed v hs hbij.injOn hc hfor
  set o := answers d s.state with ho
  -- the exchange of values
  have hsync : ∀ x : Fin (P + 1) → ℕ → V, ∃ y, ∃ t, Reach (start (communicate face scatterGhostSync) x) t ∧ Finished t ∧ y = t.state := by
    intro x
    obtain ⟨t, h1, h2, -⟩ := (Settles.rounds (σ := x) (peers := face.peers) hg.proper.nodup (fun p q => hg.proper.symm p q)
      hg.proper.irrefl [{ send := fun p q c => gather (face.index p) (face.sent p q) c
                          recv := fun q p m c => scatterGhostSync (face.index q) ((face.sent p q).zip m) c }]).exists_finished
    exact ⟨_, t, h1, h2, rfl⟩
  choose sync hsync using hsync
  have hres : ∀ b : Fin (P + 1) → ℕ → Blk E K, ∃ R, Gives o (assignAddBorderProgram o) (fun p => fromNative (o p) (b p)) R := fun b =>
    gives_of_settles (Settles.rounds L.coherent.nodup L.coherent.symm L.coherent.irrefl [createBuffers o, syncAdd])
  choose res hres using hres
  have hsolve : ∀ (a : Fin (P + 1) → NativeMatrix (Mat E K)) (b : Fin (P + 1) → ℕ → Blk E K), ∃ m all,
      (∀ p, (a p).numRows = (g.cells p).length ∧ (a p).cols = (d p).cols) →
        Assigned o (blackMaps s.state) a m ∧ Parallel o d overlapSize m b set.solver all := by
    intro a b
    by_cases ha : ∀ p, (a p).numRows = (g.cells p).length ∧ (a p).cols = (d p).cols
    · have hN : OverlapMatrix.Native g a := fun p => ⟨(ha p).1, fun n => by
        rw [(ha p).2]
        exact ⟨hp.nodup p n, hp.range p n⟩⟩
      obtain ⟨μ, hμ, -⟩ := settles_matrix L hN fun _ _ _ => (0 : Mat E K)
      obtain ⟨w, hw, hfw, -⟩ := hμ.exists_finished
      have hdiag : ∀ c ∈ g.all, ∃ x, Entry g a c c x := by
        intro c hc
        obtain ⟨n, hn⟩ := List.getElem?_of_mem hc
        obtain ⟨m, hm, hm'⟩ := (hp.own _ n c hn rfl c).1 (hl.self c)
        exact ⟨_, n, m, hn, hm', by rw [(ha _).2]; exact hm, rfl⟩
      obtain ⟨⟨all, hall⟩, -⟩ := C179_exists v hs anyIdx s hr hf w.state hE hdiag b set.solver
      exact ⟨w.state, all, fun _ => ⟨.first a _ w hw hfw, hall⟩⟩
    · exact ⟨fun p => Matrix.start (o p) (blackMaps s.state p) (a p) fun _ _ => 0,
        { indices := [], operator := id, pre := fun x r => (x, r), precondition := fun _ x _ => x, post := id, dot := fun _ _ => 0
          criterion := combined 0 0 0 0, rhs := fun _ => 0, breakdownEps := 0, maxIterations := 0 }, fun h => absurd h ha⟩
  choose mat all hsolve using hsolve
  let X : Fin (P + 1) → (ℕ → V) → G → V := fun p x c => x ((g.cells p).idxOf c)
  have hX : ∀ p x Y, Sees (g.cells p) x Y → ∀ c ∈ g.cells p, g.owner c = p → eqs.row c Y = eqs.row c (X p x) := by
    intro p x Y hY c hc ho
    refine hl.row c _ _ fun c' hc' => ?_
    obtain ⟨n, hn⟩ := List.getElem?_of_mem hc
    obtain ⟨m, -, hm⟩ := (hp.own p n c hn ho c').1 hc'
    obtain ⟨hi, rfl⟩ := List.getElem?_eq_some_iff.1 hm
    show _ = x _
    rw [hY m _ hm, (v.nodup p).idxOf_getElem m hi]
  refine ⟨{ env := fun p =>
              { numGridDof := (g.cells p).length, numTotalDof := (g.cells p).length
                volume := fun i => ((g.cells p)[i]?).elim 0 eqs.volume, weight := fun i j => if h : j < E then ((g.cells p)[i]?).elim 0 (fun c => eqs.weight c ⟨j, h⟩) else 0
                constraints := fun i => ((g.cells p)[i]?).elim none eqs.constraint, beginIterationOk := set.beginOk, endIterationOk := set.endOk
                linearize := fun _ _ => .caught, solve := fun _ _ => .caught
                updatePrimaryVariables := fun i w u => ((g.cells p)[i]?).elim w fun c => eqs.update c w u
                subtract := fun w _ => w, tolerance := set.tolerance, maxError := set.maxError
                maxIterations := set.maxIterations, targetIterations := set.targetIterations }
            cache := fun _ _ => none
            syncOverlap := fun _ x => sync x
            linearize := fun _ p x =>
              if ∀ c ∈ g.cells p, g.owner c = p → (eqs.row c (X p x)).isSome = true then
                some ({ numRows := (g.cells p).length, cols := (d p).cols
                        value := fun i m => ((g.cells p)[i]?).elim 0 fun c => (eqs.row c (X p x)).elim 0 fun r =>
                          ((g.cells p)[m]?).elim 0 r.2 },
                      fun i => ((g.cells p)[i]?).elim 0 fun c => (eqs.row c (X p x)).elim 0 fun r => r.1)
              else none
            residual := fun _ b p i => assignTo (o p) (part o (res b) p) i
            solve := fun _ a b => match Krylov.apply (all a b) set.criterion with
              | .breakdown _ => none
              | .returned converged x _ => some (converged, fun p => assignTo (o p) (part o x p)) },
    ⟨hl, hE, d, overlapSize, face, anyIdx, s, v, hs, hwide, hp, hg, hr, hf, ?_⟩, rfl⟩
  refine
    { numGridDof := fun _ => rfl, numTotalDof := fun _ => rfl, volume := fun p i c hc => ?_, weight := fun p i c hc j => ?_
      update := fun p i c hc w u => ?_, constraints := fun p i c hc => ?_, tolerance := fun _ => rfl, maxError := fun _ => rfl
      maxIterations := fun _ => rfl, targetIterations := fun _ => rfl, beginOk := fun n => ?_, endOk := fun n => ?_
      syncOverlap := fun _ x => hsync x, linearized := fun n p x a b h => ?_, failed := fun n p x h => ?_
      residual := fun _ b => ⟨res b, hres b, fun _ _ => rfl⟩
      solve := fun _ a b ha => ⟨mat a b, all a b, (hsolve a b ha).1, (hsolve a b ha).2, rfl⟩ }
  · show ((g.cells p)[i]?).elim 0 eqs.volume = _
    rw [hc]; rfl
  · show (if h : (j : ℕ) < E then ((g.cells p)[i]?).elim 0 (fun c => eqs.weight c ⟨j, h⟩) else 0) = _
    rw [dif_pos j.2, hc]; rfl
  · show ((g.cells p)[i]?).elim w (fun c => eqs.update c w u) = _
    rw [hc]; rfl
  · show ((g.cells p)[i]?).elim none eqs.constraint = _
    rw [hc]; rfl
  · exact ⟨fun h _ => h, fun h => h 0⟩
  · exact ⟨fun h _ => h, fun h => h 0⟩
  · simp only at h
    split_ifs at h with hsome
    simp only [Option.some.injEq, Prod.mk.injEq] at h
    obtain ⟨rfl, rfl⟩ := h
    refine ⟨rfl, rfl, fun i c hi ho' => ?_⟩
    obtain ⟨⟨r, J⟩, hrow⟩ := Option.isSome_iff_exists.1 (hsome c (List.mem_of_getElem? hi) ho')
    refine ⟨J, fun Y hY => ?_, fun m _ c' hc' => ?_⟩
    · rw [hX p x Y hY c (List.mem_of_getElem? hi) ho', hrow]
      simp only [hi, Option.elim_some, hrow]
    · simp only [hi, Option.elim_some, hrow, hc']
  · simp only at h
    split_ifs at h with hsome
    push Not at hsome
    obtain ⟨c, hc, ho', hnone⟩ := hsome
    refine ⟨c, hc, fun Y hY => ?_⟩
    rw [hX p x Y hY c hc ho']
    simpa using hnone

/-! ### Copies can be left behind -/

/-- The equations `X c = 0`, two for each cell of the row of cells of `rowMesh` -/
def rowEquations : Equations ℕ 2 ℚ (Blk 2 ℚ) where
  stencil c := if c = 0 then [0, 1] else if c = 5 then [4, 5] else [c - 1, c, c + 1]
  row c X := some (X c, fun c' => if c' = c then 1 else 0)
  volume _ := 1
  weight _ _ := 1
  update _ v w := v - w

def rowSettings : Settings ℚ where
  tolerance := 1
  maxError := 10
  maxIterations := 10
  targetIterations := 10
  beginOk _ := true
  endOk _ := true
  solver := { tolerance := 0, absTolerance := 0, maxError := 10, tiny := 1 / 1000, breakdownEps := 0, maxIterations := 10, relaxation := 1, order := 1 }
  criterion := { stagnates := false, residualError := 0, initialResidualError := 0, lastResidualError := 0 }

theorem rowEquations_local : Local rowEquations where
  nodup c := by
    simp only [rowEquations]
    split_ifs with h1 h2
    · simp
    · simp
    · simp; omega
  self c := by
    simp only [rowEquations]
    split_ifs with h1 h2
    · simp [h1]
    · simp [h2]
    · simp
  row c X Y h := by
    have : c ∈ rowEquations.stencil c := by
      simp only [rowEquations]
      split_ifs with h1 h2
      · simp [h1]
      · simp [h2]
      · simp
    simp only [rowEquations, h c this]

theorem rowEquations_pattern : Pattern (P := 2) rowEquations rowMesh.toGrid fun p => (rowMesh.native p).cols where
  nodup p n := (ParSolve.rowMatrix_native p).2 n |>.1
  range p n := (ParSolve.rowMatrix_native p).2 n |>.2
  own := by
    intro p n c hc ho c'
    have hc' : (rowMesh.cells p)[n]? = some c := hc
    have hn : n < 4 := by
      have := (List.getElem?_eq_some_iff.1 hc').1
      have : (rowMesh.cells p).length ≤ 4 := by fin_cases p <;> decide
      omega
    have key : ∀ p : Fin 3, ∀ n < 4, ∀ c < 6, (rowMesh.cells p)[n]? = some c → rowMesh.owner c = p →
        rowEquations.stencil c = (rowMesh.cols p n).filterMap fun m => (rowMesh.cells p)[m]? := by
      decide
    have hlt : c < 6 := by
      have : ∀ p : Fin 3, ∀ c ∈ rowMesh.cells p, c < 6 := by decide
      exact this p c (List.mem_of_getElem? hc')
    rw [key p n hn c hlt hc' ho, List.mem_filterMap]
    rfl

theorem row_product (x : ℕ → Blk 2 ℚ) (y : (Σ _ : Fin (0 + 1), Fin (6 * 2)) → ℚ) (k : Fin 6) :
    product rowEquations (fun k : Fin 6 => (k : ℕ)) x y k = block y k := by
  have hsum : ∀ (l : List ℕ) (f : ℕ → Blk 2 ℚ) (c : ℕ), l.Nodup → c ∈ l →
      (l.map fun c' => (if c' = c then (1 : Mat 2 ℚ) else 0).mulVec (f c')).sum = f c := by
    intro l f c hl hc
    have hzero : ∀ l : List ℕ, c ∉ l → (l.map fun c' => (if c' = c then (1 : Mat 2 ℚ) else 0).mulVec (f c')).sum = 0 := by
      intro l hl
      refine List.sum_eq_zero fun z hz => ?_
      obtain ⟨c', hc', rfl⟩ := List.mem_map.1 hz
      rw [if_neg (show ¬c' = c from fun e => hl (e ▸ hc')), _root_.Matrix.zero_mulVec]
    induction l with
    | nil => exact absurd hc (by simp)
    | cons a l ih =>
      rw [List.map_cons, List.sum_cons]
      by_cases e : a = c
      · rw [if_pos e, _root_.Matrix.one_mulVec, hzero l (fun h => (List.nodup_cons.1 hl).1 (e ▸ h)), add_zero, e]
      · rw [if_neg e, _root_.Matrix.zero_mulVec, zero_add]
        exact ih (List.nodup_cons.1 hl).2 ((List.mem_cons.1 hc).resolve_left (Ne.symm e))
  unfold product
  simp only [rowAt, rowEquations, Option.elim_some]
  have := hsum (rowEquations.stencil k) (@onCells 6 ℕ (Blk 2 ℚ) ⟨0⟩ (fun k : Fin 6 => (k : ℕ)) fun j => block y j) k (rowEquations_local.nodup _)
    (rowEquations_local.self _)
  rw [@onCells_apply 2 6 ℕ rowMesh.toGrid _ (Blk 2 ℚ) ⟨0⟩ row_enumerates _ k] at this
  exact this

/-- The linear solver finds the solution at once. -/
theorem row_solve : Krylov.apply (linearSystem rowEquations (fun k : Fin 6 => (k : ℕ)) rowSettings.solver fun _ => 1) rowSettings.criterion =
    .returned true (fun _ => 1) 0 := by
  set sys := linearSystem rowEquations (fun k : Fin 6 => (k : ℕ)) rowSettings.solver fun _ => 1 with hsys
  have hflat : ∀ y : (Σ _ : Fin (0 + 1), Fin (6 * 2)) → ℚ, flat (fun k => block y k) = y := fun y => by
    funext ⟨p, k⟩
    have : p = 0 := Fin.ext (by have := p.2; simp only [Fin.val_zero]; omega)
    subst this
    show y ⟨0, finProdFinEquiv (finProdFinEquiv.symm k)⟩ = _
    rw [Equiv.apply_symm_apply]
  have hop : ∀ y, sys.operator y = y := fun y => by
    rw [hsys]
    simp only [linearSystem, row_product]
    exact hflat y
  have hpre : ∀ k y r, sys.precondition k y r = r := fun k y r => by
    rw [hsys]
    simp only [linearSystem, rowSettings, Function.iterate_one, row_product]
    refine Eq.trans ?_ (hflat r)
    congr 1
    funext k
    have : ((rowAt rowEquations (fun k : Fin 6 => (k : ℕ)) (fun _ => 1) k).elim 0 fun r => r.2 k) = 1 := by
      simp [rowAt, rowEquations]
    rw [this, inv_one, _root_.Matrix.one_mulVec, one_smul]
    abel
  have hrhs : sys.rhs = fun _ => 1 := by
    funext i
    exact congrFun (onCells_apply row_enumerates (fun _ => (1 : Blk 2 ℚ)) (finProdFinEquiv.symm i.2).1) (finProdFinEquiv.symm i.2).2
  have hdot : sys.dot (fun _ => 1) (fun _ => 1) = 12 := by
    show ∑ k : (Σ _ : Fin (0 + 1), Fin (6 * 2)), (1 : ℚ) * 1 = 12
    simp
  have hn : sys.indices.Nodup := Finset.nodup_toList _
  have hc : ∀ i, i ∈ sys.indices := fun i => Finset.mem_toList.2 (Finset.mem_univ i)
  have hstart : (Krylov.start sys rowSettings.criterion).x = (fun _ => 0) ∧ (Krylov.start sys rowSettings.criterion).r = (fun _ => 1) :=
    ⟨rfl, hrhs⟩
  have hconv : sys.criterion.converged (Krylov.start sys rowSettings.criterion).criterion = false := by
    have key : ∀ e : ℚ, combinedConverged (0 : ℚ) 0
        { stagnates := false, residualError := max e (1 / 1000), initialResidualError := max e (1 / 1000)
          lastResidualError := max e (1 / 1000) } = false := by
      intro e
      have h1 : (0 : ℚ) < max e (1 / 1000) := lt_of_lt_of_le (by norm_num) (le_max_right _ _)
      unfold combinedConverged residualReduction
      simp only [Bool.or_eq_false_iff, decide_eq_false_iff_not, not_le]
      exact ⟨div_pos h1 (lt_of_lt_of_le h1 (le_max_right _ _)), h1⟩
    exact key _
  have hupd : ∀ s x z, sys.criterion.converged (sys.criterion.update s x z fun _ => 0) = true := by
    intro s x z
    show combinedConverged (0 : ℚ) 0 (combinedUpdateErrors s z fun _ => 0) = true
    have : (combinedUpdateErrors (P := 0) (n := fun _ => 6 * 2) s z fun _ => (0 : ℚ)).residualError = 0 := by
      show Criteria.commMax (fun p => (combinedLoop (P := 0) (n := fun _ => 6 * 2) z (fun _ => (0 : ℚ)) p).1) = 0
      have h0 : (fun p => (combinedLoop (P := 0) (n := fun _ => 6 * 2) z (fun _ => (0 : ℚ)) p).1) = fun _ => 0 := by
        funext p
        rw [combinedLoop_fst]
        exact List.foldl_fixed' (fun _ => by simp) _
      rw [h0]
      simp [Criteria.commMax]
    unfold combinedConverged
    rw [this]
    simp
  unfold Krylov.apply
  simp only [hconv, Bool.false_eq_true, if_false]
  show Krylov.loop sys 10 _ = _
  unfold Krylov.loop Krylov.body
  simp only [Krylov.loopP_eq _ hn hc, Krylov.loopHS_eq _ hn hc, hop, hpre, hrhs, hstart.1, hstart.2]
  have e1 : (Krylov.start sys rowSettings.criterion).rho = 1 := rfl
  have e2 : (Krylov.start sys rowSettings.criterion).omega = 1 := rfl
  have e3 : (Krylov.start sys rowSettings.criterion).alpha = 1 := rfl
  have e4 : (Krylov.start sys rowSettings.criterion).p = fun _ => 0 := rfl
  have e5 : (Krylov.start sys rowSettings.criterion).v = fun _ => 0 := rfl
  have e6 : (Krylov.start sys rowSettings.criterion).iterations = 0 := rfl
  have e7 : sys.breakdownEps = 0 := rfl
  have e8 : ∀ x, sys.post x = x := fun _ => rfl
  have e9 : ∀ b : ℚ, ((fun _ => 1) + b • ((fun _ => 0) - (1 : ℚ) • fun _ => 0) : (Σ _ : Fin (0 + 1), Fin (6 * 2)) → ℚ) = fun _ => 1 := fun b => by
    funext i; simp
  have e10 : ((fun _ => 1) - (1 : ℚ) • (fun _ => 1) : (Σ _ : Fin (0 + 1), Fin (6 * 2)) → ℚ) = fun _ => 0 := by
    funext i; simp
  have e11 : ((fun _ => 0) + (1 : ℚ) • (fun _ => 1) : (Σ _ : Fin (0 + 1), Fin (6 * 2)) → ℚ) = fun _ => 1 := by
    funext i; simp
  have e12 : (12 : ℚ) / 12 = 1 := by norm_num
  simp only [e1, e2, e3, e4, e5, e6, e7, e8, e9, hdot, e12, e10, e11, hupd, if_true]
  norm_num

/-- One process needs one iteration. -/
theorem row_single (error lastError : Fl ℚ) : ∃ t, Newton.apply (single rowEquations (fun k : Fin 6 => (k : ℕ)) rowSettings) (fun _ => 1)
    error lastError 2 = some (.success, t) ∧ t.iterations = 1 ∧ ∀ k : Fin 6, t.sol k = 0 := by
  set env := single rowEquations (fun k : Fin 6 => (k : ℕ)) rowSettings with henv
  have hrow : ∀ k : Fin 6, rowAt rowEquations (fun k : Fin 6 => (k : ℕ)) (fun _ => (1 : Blk 2 ℚ)) k =
      some (1, fun c' => if c' = (k : ℕ) then 1 else 0) := by
    intro k
    simp only [rowAt, rowEquations]
    rw [onCells_apply row_enumerates (fun _ => (1 : Blk 2 ℚ)) k]
  have hlin : env.linearize 0 (fun _ => 1) = .residual fun i => if i < 6 then [.num 1, .num 1] else [] := by
    simp only [henv, single]
    rw [if_pos (fun k => by rw [hrow]; rfl)]
    congr 1
    funext i
    split_ifs with h
    · rw [hrow]; rfl
    · rfl
  obtain ⟨e, he, hy⟩ := computeError_spec env (fun _ => 1) rfl (fun i => if i < 6 then [.num 1, .num 1] else [])
    (fun i hi => by
      have hi' : i < 6 := hi
      simp only [if_pos hi']
      rfl)
  have he1 : e = 1 := by
    refine eq_of_forall_ge_iff fun y => ?_
    rw [hy]
    constructor
    · rintro ⟨-, h⟩
      have := h 0 (by show 0 < 6; decide) ⟨by show (0 : ℚ) < 1; norm_num, rfl⟩ 0
      have e : env.weight 0 (0 : Fin 2) = 1 := rfl
      rw [e] at this
      simpa using this
    · intro h
      refine ⟨le_trans (by norm_num) h, fun i hi _ l => ?_⟩
      have hi' : i < 6 := hi
      have e : env.weight i l = 1 := by
        show (if h : i < 6 ∧ (l : ℕ) < 2 then (1 : ℚ) else 0) = 1
        rw [dif_pos ⟨hi', l.2⟩]
      rw [e]
      simpa using h
  subst he1
  have hsolve : env.solve 0 (fun _ => 1) = .update (fun i => if h : i < 6 then 1 else 0) true := by
    simp only [henv, single, row_solve]
    rfl
  have happ : applyConstraints env (fun _ => (1 : Blk 2 ℚ)) = fun _ => 1 := applyConstraints_none env (fun i => by
    show (if h : i < 6 then none else none) = none
    split_ifs <;> rfl) _
  have hpass : Newton.pass env { sol := fun _ => 1, error := error, lastError := lastError, iterations := 0 } =
      .again { sol := updateSolution env (fun _ => 1) (fun _ => 1) (fun i => if h : i < 6 then 1 else 0), error := .num 1, lastError := error
               iterations := 1 } := by
    unfold Newton.pass
    simp only [happ, hlin, he, hsolve]
    have h1 : env.beginIterationOk 0 = true := rfl
    have h2 : (Fl.num env.maxError).lt (.num 1) = false := by
      show decide ((10 : ℚ) < 1) = false
      decide
    have h3 : proceed env { sol := fun _ => (1 : Blk 2 ℚ), error := .num 1, lastError := error, iterations := 0 } = true := rfl
    simp only [h1, h2, h3]
    rfl
  have hconv : ∀ x, converged env { sol := x, error := .num 1, lastError := error, iterations := 1 } = true := by
    intro x
    show decide ((1 : ℚ) ≤ 1) = true
    decide
  refine ⟨{ sol := updateSolution env (fun _ => 1) (fun _ => 1) (fun i => if h : i < 6 then 1 else 0), error := .num 1, lastError := error
            iterations := 1 }, ?_, rfl, fun k => ?_⟩
  · unfold Newton.apply Newton.loop
    rw [if_pos (show proceed env _ = true from rfl), hpass]
    simp only
    unfold Newton.loop
    have : proceed env { sol := updateSolution env (fun _ => 1) (fun _ => 1) (fun i => if h : i < 6 then 1 else 0), error := .num 1
                         lastError := error, iterations := 1 } = false := by
      unfold proceed
      rw [if_neg (by simp), if_pos (hconv _)]
    rw [this]
    simp only [Bool.false_eq_true, if_false]
    unfold afterLoop
    rw [if_pos (hconv _)]
  · have hk : (k : ℕ) < 6 := k.2
    have hk' : (k : ℕ) < env.numGridDof := hk
    have hc : env.constraints k = none := by
      show (if h : (k : ℕ) < 6 then none else none) = none
      split_ifs <;> rfl
    simp only [updateSolution, if_pos hk', hc]
    show (if h : (k : ℕ) < 6 then (1 : Blk 2 ℚ) - (if h : (k : ℕ) < 6 then 1 else 0) else 1) = 0
    rw [dif_pos hk, dif_pos hk, sub_self]

/-- **C161** is false for copies: although all values are consistent at first, there are equations, settings and a distribution of the grid
for which all processes succeed, but the values which they have for the same cell are different then. -/
theorem C161_stale_violated : ∃ (eqs : Equations ℕ 2 ℚ (Blk 2 ℚ)) (set : Settings ℚ) (x : ℕ → Blk 2 ℚ), (∃ M : Machine 2 2 ℚ (Blk 2 ℚ),
    Started eqs set rowMesh.toGrid (fun k : Fin 6 => (k : ℕ)) M ∧ M.cache = fun _ _ => none) ∧
      ∀ M : Machine 2 2 ℚ (Blk 2 ℚ), Started eqs set rowMesh.toGrid (fun k : Fin 6 => (k : ℕ)) M → (M.cache = fun _ _ => none) →
        ∀ s, HaveAll rowMesh.toGrid (fun k : Fin 6 => (k : ℕ)) s x → ∀ error lastError, ∃ r,
          apply M s error lastError 2 = some (.finished r) ∧ (∀ p, (r p).1 = .success) ∧
            ¬∃ y, HaveAll rowMesh.toGrid (fun k : Fin 6 => (k : ℕ)) (fun p => (r p).2.sol) y := by
  refine ⟨rowEquations, rowSettings, fun _ => 1,
    C161_exists (P := 2) (overlapSize := 1) (d := rowMesh.native) rowEquations_local row_enumerates rowMesh_correct (by decide)
      (wide_one rowMesh_correct (by decide) _) rowEquations_pattern, fun M hM hcache s hs error lastError => ?_⟩
  have hfresh : Fresh rowMesh.toGrid (fun k : Fin 6 => (k : ℕ)) M.cache (constrain rowEquations (fun k : Fin 6 => (k : ℕ)) fun _ => 1) := by
    intro p i k _ w hw
    rw [hcache] at hw
    exact absurd hw (by simp)
  have hown := haveOwn_of_all hs
  have hsame := C161_newton_partial hM hown hfresh error lastError 2
  obtain ⟨t, ht, hit, hsol⟩ := row_single error lastError
  rw [ht] at hsame
  cases hr : apply M s error lastError 2 with
  | none => rw [hr] at hsame; exact hsame.elim
  | some e =>
    cases e with
    | deadlock => rw [hr] at hsame; exact hsame.elim
    | finished r =>
      rw [hr] at hsame
      refine ⟨r, rfl, fun p => (hsame.1 p).1, ?_⟩
      rintro ⟨y, hy⟩
      have h1 := hsame.2 0 1 1 (by decide) (by decide)
      have h2 := C161_stale hM hown hfresh error lastError 2 r hr ⟨0, (hsame.1 0).1⟩ ⟨0, (hsame.1 0).2.2.2.trans hit⟩ 1 0 1 (by decide)
        (by decide)
      have h3 := hy 0 1 1 (by decide)
      have h4 := hy 1 0 1 (by decide)
      rw [hsol] at h1
      simp only at h1 h2 h3 h4
      rw [h1] at h3
      rw [h2, ← h3] at h4
      simp [rowEquations] at h4

/-- The example above and `C161_newton_partial` -/
example (error lastError : Fl ℚ) : ∃ (M : Machine 2 2 ℚ (Blk 2 ℚ)) (s : Fin 3 → ℕ → Blk 2 ℚ),
    Started rowEquations rowSettings rowMesh.toGrid (fun k : Fin 6 => (k : ℕ)) M ∧
      HaveOwn rowMesh.toGrid (fun k : Fin 6 => (k : ℕ)) s (fun _ => 1) ∧ Fresh rowMesh.toGrid (fun k : Fin 6 => (k : ℕ)) M.cache (constrain rowEquations (fun k : Fin 6 => (k : ℕ)) fun _ => 1) ∧
      ∃ r, apply M s error lastError 2 = some (.finished r) ∧ ∀ p, (r p).1 = .success ∧ (r p).2.iterations = 1 := by
  obtain ⟨M, hM, hc⟩ := C161_exists (P := 2) (overlapSize := 1) (d := rowMesh.native) (set := rowSettings) rowEquations_local
    row_enumerates rowMesh_correct (by decide) (wide_one rowMesh_correct (by decide) _) rowEquations_pattern
  have hfresh : Fresh rowMesh.toGrid (fun k : Fin 6 => (k : ℕ)) M.cache (constrain rowEquations (fun k : Fin 6 => (k : ℕ)) fun _ => 1) := by
    intro p i k _ w hw
    rw [hc] at hw
    exact absurd hw (by simp)
  have hown : HaveOwn rowMesh.toGrid (fun k : Fin 6 => (k : ℕ)) (fun _ _ => (1 : Blk 2 ℚ)) fun _ => 1 := fun _ _ _ _ _ => rfl
  refine ⟨M, fun _ _ => 1, hM, hown, hfresh, ?_⟩
  have hsame := C161_newton_partial hM hown hfresh error lastError 2
  obtain ⟨t, ht, hit, -⟩ := row_single error lastError
  rw [ht] at hsame
  cases hr : apply M (fun _ _ => 1) error lastError 2 with
  | none => rw [hr] at hsame; exact hsame.elim
  | some e =>
    cases e with
    | deadlock => rw [hr] at hsame; exact hsame.elim
    | finished r =>
      rw [hr] at hsame
      exact ⟨r, rfl, fun p => ⟨(hsame.1 p).1, (hsame.1 p).2.2.2.trans hit⟩⟩

end Verif.ParNewton
