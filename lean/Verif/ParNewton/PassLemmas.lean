import Verif.ParNewton.Lemmas

/-
One pass of the Newton method on several processes does what it does on one process.
-/

set_option autoImplicit false
set_option linter.unusedSectionVars false
set_option linter.unusedSimpArgs false

namespace Verif.ParNewton

open Verif.Mpi Verif.Sync Verif.Overlap Verif.OverlapMatrix Verif.Newton Verif.Criteria Verif.ParSolve.Block Verif.GridComm
open Verif.ParSolve (Enumerates Wide Steps Covered mem_all steps_mem wide_one row_enumerates)

variable {P N E : ℕ} {G K V : Type} [Field K] [LinearOrder K] [IsStrictOrderedRing K]
variable {g : Grid (P + 1) G} {number : G → ℕ} {o : Fin (P + 1) → Sync.Overlap (P + 1)} {black : Fin (P + 1) → ℕ → Option ℕ}
variable {cell : Fin N → G} {eqs : Equations G E K V} {set : Settings K} {d : Fin (P + 1) → Overlap.Native (P + 1)} {overlapSize : ℕ}
  {face : Interface (P + 1) G} {M : Machine P E K V}

/-- Everything about the set-up -/
structure Setup (eqs : Equations G E K V) (set : Settings K) (g : Grid (P + 1) G) (d : Fin (P + 1) → Overlap.Native (P + 1)) (overlapSize : ℕ)
    (number : G → ℕ) (o : Fin (P + 1) → Sync.Overlap (P + 1)) (black : Fin (P + 1) → ℕ → Option ℕ) (face : Interface (P + 1) G)
    (M : Machine P E K V) (cell : Fin N → G) : Prop where
  loc : Local eqs
  valid : Valid g d
  size : 0 < overlapSize
  covered : Covered g number o (fun p => (d p).cols) set.solver.order
  enumerates : Enumerates g cell
  pattern : Pattern eqs g fun p => (d p).cols
  ghosts : Ghosts g face
  runs : Runs eqs set g d overlapSize o black face M
  labelled : Labelled g number o black
  complete : Complete o
  native : ∀ p, (o p).nativeToDomestic = nativeToDomestic (d p)

variable [Inhabited V]

/-- The linearization -/
theorem linearize_fits (S : Setup eqs set g d overlapSize number o black face M cell) (n : ℕ) {y : Fin (P + 1) → ℕ → V} {x : ℕ → V}
    (h : HaveAll g cell y x) :
    ((∀ p, (M.linearize n p (y p)).isSome = true) ↔ ∀ k, (rowAt eqs cell x k).isSome = true) ∧
      ∀ a b, (∀ p, M.linearize n p (y p) = some (a p, b p)) → Fits eqs g cell (fun p => (d p).cols) a b x := by
  have hsee := sees_of_haveAll S.valid S.enumerates h
  refine ⟨⟨fun hs k => ?_, fun hs p => ?_⟩, fun a b hab p => ?_⟩
  · obtain ⟨i, hi⟩ := List.getElem?_of_mem (show cell k ∈ g.cells (g.owner (cell k)) from mem_all S.enumerates k)
    obtain ⟨⟨a, b⟩, hab⟩ := Option.isSome_iff_exists.1 (hs (g.owner (cell k)))
    obtain ⟨-, -, h3⟩ := S.runs.linearized n _ _ a b hab
    obtain ⟨J, hJ, -⟩ := h3 i _ hi rfl
    unfold rowAt
    rw [hJ _ (hsee _)]
    rfl
  · cases hl : M.linearize n p (y p) with
    | some _ => rfl
    | none =>
      obtain ⟨c, hc, hrow⟩ := S.runs.failed n p _ hl
      obtain ⟨i, hi⟩ := List.getElem?_of_mem hc
      obtain ⟨k, rfl⟩ := exists_cell S.valid S.enumerates hi
      have := hs k
      unfold rowAt at this
      rw [hrow _ (hsee p)] at this
      exact absurd this (by simp)
  · obtain ⟨h1, h2, h3⟩ := S.runs.linearized n p _ _ _ (hab p)
    refine ⟨h1, h2, fun i k hi ho => ?_⟩
    obtain ⟨J, hJ, hv⟩ := h3 i _ hi ho
    exact ⟨J, hJ _ (hsee p), hv⟩

/-- The residual which the Newton method looks at -/
theorem residual_spec (S : Setup eqs set g d overlapSize number o black face M cell) (n : ℕ) {a : Fin (P + 1) → NativeMatrix (Mat E K)}
    {b : Fin (P + 1) → ℕ → Blk E K} {x : ℕ → V} (h : Fits eqs g cell (fun p => (d p).cols) a b x) (p : Fin (P + 1)) (i : ℕ) (k : Fin N)
    (hi : (g.cells p)[i]? = some (cell k)) :
    M.residual n b p i = if g.owner (cell k) = p then (rowAt eqs cell x k).elim 0 fun r => r.1 else 0 := by
  obtain ⟨R, hR, e⟩ := S.runs.residual n b
  have W := whole_of_fits S.loc S.valid S.enumerates S.pattern h set.solver
  have hcopy := copy_rhs S.labelled S.complete S.enumerates W.rhs hR
  have hs := sameOutcome_copy S.labelled S.enumerates (Krylov.Outcome.returned true (linearSystem eqs cell set.solver x).rhs 0)
  have := hs.2.2 p i k hi
  rw [e, hcopy]
  simp only [linearSystem, block_flat] at this
  exact this

/-- The error is the same. -/
theorem error_eq (S : Setup eqs set g d overlapSize number o black face M cell) (n : ℕ) {a : Fin (P + 1) → NativeMatrix (Mat E K)}
    {b : Fin (P + 1) → ℕ → Blk E K} {x : ℕ → V} (h : Fits eqs g cell (fun p => (d p).cols) a b x) :
    (commMax fun q => computeError (M.env q) fun i => List.ofFn fun j => .num (M.residual n b q i j)) =
      computeError (single eqs cell set)
        fun i => if h : i < N then List.ofFn fun j => .num ((rowAt eqs cell x ⟨i, h⟩).elim 0 (fun r => r.1) j) else [] := by
  obtain ⟨e1, h1, hy1⟩ := computeError_spec (single eqs cell set)
    (fun i => if h : i < N then (rowAt eqs cell x ⟨i, h⟩).elim 0 fun r => r.1 else 0) rfl
    (fun i => if h : i < N then List.ofFn fun j => .num ((rowAt eqs cell x ⟨i, h⟩).elim 0 (fun r => r.1) j) else [])
    (fun i hi => by
      have hi' : i < N := hi
      simp only [dif_pos hi'])
  have hloc : ∀ q, ∃ e, computeError (M.env q) (fun i => List.ofFn fun j => .num (M.residual n b q i j)) = .num e ∧ ∀ y, e ≤ y ↔ 0 ≤ y ∧
      ∀ i < (M.env q).numGridDof, 0 < (M.env q).volume i ∧ (M.env q).constraints i = none → ∀ j : Fin E, |M.residual n b q i j * (M.env q).weight i j| ≤ y := fun q =>
    computeError_spec (M.env q) (fun i => M.residual n b q i)
      (by rw [S.runs.numTotalDof, S.runs.numGridDof]) _ fun _ _ => rfl
  choose e he hy using hloc
  obtain ⟨z, hz, hzy⟩ := commMax_spec _ e he
  rw [hz, h1]
  congr 1
  refine eq_of_forall_ge_iff fun y => ?_
  rw [hzy, hy1]
  simp only [hy]
  constructor
  · intro H
    refine ⟨(H 0).1, fun i hi hv l => ?_⟩
    have hi' : i < N := hi
    have hil : i < N ∧ (l : ℕ) < E := ⟨hi', l.2⟩
    simp only [single, dif_pos hi', dif_pos hil] at hv ⊢
    obtain ⟨j, hj⟩ := List.getElem?_of_mem (show cell ⟨i, hi'⟩ ∈ g.cells (g.owner (cell ⟨i, hi'⟩)) from mem_all S.enumerates _)
    have hlt : j < (M.env (g.owner (cell ⟨i, hi'⟩))).numGridDof := by
      rw [S.runs.numGridDof]
      exact (List.getElem?_eq_some_iff.1 hj).1
    have := (H (g.owner (cell ⟨i, hi'⟩))).2 j hlt (by rw [S.runs.volume _ j _ hj, S.runs.constraints _ j _ hj]; exact hv) l
    rw [residual_spec S n h _ j _ hj, if_pos rfl, S.runs.weight _ j _ hj] at this
    exact this
  · rintro ⟨h0, H⟩ q
    refine ⟨h0, fun i hi hv l => ?_⟩
    rw [S.runs.numGridDof] at hi
    have hi2 := List.getElem?_eq_getElem hi
    obtain ⟨k, hk⟩ := exists_cell S.valid S.enumerates hi2
    rw [← hk] at hi2
    rw [residual_spec S n h _ i _ hi2]
    by_cases ho : g.owner (cell k) = q
    · rw [if_pos ho, S.runs.weight _ i _ hi2]
      rw [S.runs.volume _ i _ hi2, S.runs.constraints _ i _ hi2] at hv
      have hkN : (k : ℕ) < N := k.2
      have hkl : (k : ℕ) < N ∧ (l : ℕ) < E := ⟨hkN, l.2⟩
      have := H k hkN (by simp only [single, dif_pos hkN]; exact hv) l
      simp only [single, dif_pos hkN, dif_pos hkl] at this
      exact this
    · rw [if_neg ho, Pi.zero_apply, zero_mul, abs_zero]
      exact h0

/-- The linear solver -/
theorem solve_spec (S : Setup eqs set g d overlapSize number o black face M cell) (n : ℕ) {a : Fin (P + 1) → NativeMatrix (Mat E K)}
    {b : Fin (P + 1) → ℕ → Blk E K} {x : ℕ → V} (h : Fits eqs g cell (fun p => (d p).cols) a b x) :
    match Krylov.apply (linearSystem eqs cell set.solver x) set.criterion with
    | .breakdown _ => M.solve n a b = none
    | .returned converged X _ => ∃ u, M.solve n a b = some (converged, u) ∧
        ∀ p (i : ℕ) k, (g.cells p)[i]? = some (cell k) → u p i = if g.owner (cell k) = p then block X k else 0 := by
  obtain ⟨m, all, hm, hall, e⟩ := S.runs.solve n a b fun p => ⟨(h p).1, (h p).2.1⟩
  have hN := native_of_fits S.pattern h
  obtain ⟨hd, -⟩ := assigned_spec S.labelled hm hN
  have W := whole_of_fits S.loc S.valid S.enumerates S.pattern h set.solver
  have hk := Krylov.apply_copy (copies_of S.labelled S.complete S.enumerates S.valid S.size S.native hN hd
    (by rw [show (fun p => (a p).cols) = fun p => (d p).cols from funext fun p => (h p).2.1]; exact S.covered) hall W) set.criterion
  have hs := sameOutcome_copy S.labelled S.enumerates (Krylov.apply (linearSystem eqs cell set.solver x) set.criterion)
  rw [← hk] at hs
  rw [e]
  revert hs
  cases Krylov.apply (linearSystem eqs cell set.solver x) set.criterion with
  | breakdown n =>
    cases Krylov.apply all set.criterion with
    | breakdown n' => intro _; rfl
    | returned _ _ _ => intro hs; exact hs.elim
  | returned c X n =>
    cases Krylov.apply all set.criterion with
    | breakdown n' => intro hs; exact hs.elim
    | returned c' X' n' =>
      intro hs
      obtain ⟨rfl, -, hs⟩ := hs
      exact ⟨_, rfl, hs⟩

/-- The processes are where the single process is. -/
structure Rel (g : Grid (P + 1) G) (cell : Fin N → G) (st : State P K V) (s : NState K V) : Prop where
  error : ∀ p, (st p).error = s.error
  lastError : ∀ p, (st p).lastError = s.lastError
  iterations : ∀ p, (st p).iterations = s.iterations
  sol : HaveOwn g cell (fun p => (st p).sol) s.sol

theorem vote_same {α : Type} {f : Fin (P + 1) → Bool} {c : Bool} (h : ∀ p, f p = c) (yes no mixed : α) :
    vote f yes no mixed = if c then yes else no := by
  unfold vote
  cases c with
  | true => rw [if_pos h]; rfl
  | false =>
    rw [if_neg fun h' => by have := h 0; rw [h' 0] at this; exact absurd this (by simp), if_pos h]; rfl

theorem proceed_eq (S : Setup eqs set g d overlapSize number o black face M cell) {st : State P K V} {s : NState K V}
    (e1 : ∀ p, (st p).error = s.error) (e2 : ∀ p, (st p).lastError = s.lastError) (e3 : ∀ p, (st p).iterations = s.iterations)
    (p : Fin (P + 1)) : proceed (M.env p) (st p) = proceed (single eqs cell set) s := by
  unfold proceed converged
  rw [e1, e2, e3, S.runs.tolerance, S.runs.maxIterations]
  rfl

/-- Results of passes which correspond to each other -/
def SamePass (g : Grid (P + 1) G) (cell : Fin N → G) : Result P K V → PassResult K V → Prop
  | .again st, .again s => Rel g cell st s ∧ 0 < s.iterations
  | .leave st, .leave s => Rel g cell st s ∧ HaveAll g cell (fun p => (st p).sol) s.sol
  | .failure st, .failure s => Rel g cell st s
  | _, _ => False

theorem endIteration_again_same (S : Setup eqs set g d overlapSize number o black face M cell) {st : State P K V} {s : NState K V}
    (h : Rel g cell st s) : SamePass g cell (endIteration M st .again) (Newton.endIteration (single eqs cell set) s .again) := by
  unfold endIteration Newton.endIteration
  simp only
  have hr : Rel g cell (fun p => { st p with iterations := (st p).iterations + 1 }) { s with iterations := s.iterations + 1 } :=
    ⟨h.error, h.lastError, fun p => by simp only; rw [h.iterations], h.sol⟩
  have hok : (∀ p, (M.env p).endIterationOk ((st p).iterations + 1) = true) ↔ (single eqs cell set).endIterationOk (s.iterations + 1) = true := by
    show _ ↔ set.endOk _ = true
    rw [S.runs.endOk]
    simp only [h.iterations]
  by_cases hc : (single eqs cell set).endIterationOk (s.iterations + 1) = true
  · rw [if_pos (hok.2 hc), if_pos hc]
    exact ⟨hr, Nat.succ_pos _⟩
  · rw [if_neg (fun h => hc (hok.1 h)), if_neg hc]
    exact hr

theorem endIteration_leave_same (S : Setup eqs set g d overlapSize number o black face M cell) {st : State P K V} {s : NState K V}
    (h : Rel g cell st s) (ha : HaveAll g cell (fun p => (st p).sol) s.sol) :
    SamePass g cell (endIteration M st .leave) (Newton.endIteration (single eqs cell set) s .leave) := by
  unfold endIteration Newton.endIteration
  simp only
  have hr : Rel g cell (fun p => { st p with iterations := (st p).iterations + 1 }) { s with iterations := s.iterations + 1 } :=
    ⟨h.error, h.lastError, fun p => by simp only; rw [h.iterations], h.sol⟩
  have hok : (∀ p, (M.env p).endIterationOk ((st p).iterations + 1) = true) ↔ (single eqs cell set).endIterationOk (s.iterations + 1) = true := by
    show _ ↔ set.endOk _ = true
    rw [S.runs.endOk]
    simp only [h.iterations]
  by_cases hc : (single eqs cell set).endIterationOk (s.iterations + 1) = true
  · rw [if_pos (hok.2 hc), if_pos hc]
    exact ⟨hr, ha⟩
  · rw [if_neg (fun h => hc (hok.1 h)), if_neg hc]
    exact hr

theorem haveOwn_of_all {α : Type} {y : Fin (P + 1) → ℕ → α} {x : ℕ → α} (h : HaveAll g cell y x) : HaveOwn g cell y x :=
  fun p i k hk _ => h p i k hk

theorem seen_all {st : State P K V} {x : ℕ → V} (it : ℕ) (e3 : ∀ p, (st p).iterations = it)
    (hall : HaveAll g cell (fun p => (st p).sol) x) (hf : it = 0 → Fresh g cell M.cache x) : HaveAll g cell (seen M st) x := by
  intro p i k hk
  unfold seen
  rw [e3]
  by_cases h0 : it = 0
  · rw [if_pos h0]
    cases hc : M.cache p i with
    | none => exact hall p i k hk
    | some w => exact hf h0 p i k hk w hc
  · rw [if_neg h0]
    exact hall p i k hk

theorem applyConstraints_none {W : Type} (env : Newton.Env K V W) (h : ∀ i, env.constraints i = none) (x : Newton.Vec V) :
    applyConstraints env x = x := by
  funext i
  simp [applyConstraints, h]

theorem constrain_none (h : eqs.constraint = fun _ => none) (x : ℕ → V) : constrain eqs cell x = x := by
  funext i
  simp [constrain, h]

theorem applyConstraints_single (x : ℕ → V) : applyConstraints (single eqs cell set) x = constrain eqs cell x := by
  funext i
  unfold applyConstraints constrain single
  by_cases h : i < N <;> simp [h]

theorem applyConstraints_all (R : Runs eqs set g d overlapSize o black face M) {y : Fin (P + 1) → ℕ → V} {x : ℕ → V}
    (h : HaveAll g cell y x) : HaveAll g cell (fun p => applyConstraints (M.env p) (y p)) (constrain eqs cell x) := by
  intro p i k hk
  simp only [applyConstraints, constrain, R.constraints p i _ hk, dif_pos k.2, h p i k hk]

theorem pass_same (S : Setup eqs set g d overlapSize number o black face M cell) (n : ℕ) {st : State P K V} {s : NState K V}
    (h : Rel g cell st s) (hf : s.iterations = 0 → Fresh g cell M.cache (constrain eqs cell s.sol)) :
    SamePass g cell (pass M n st) (Newton.pass (single eqs cell set) s) := by
  have hall := sync_all S.valid S.ghosts S.runs n h.sol
  unfold pass Newton.pass
  simp only
  have hbegin : (∀ p, (M.env p).beginIterationOk (st p).iterations = true) ↔ (single eqs cell set).beginIterationOk s.iterations = true := by
    show _ ↔ set.beginOk _ = true
    rw [S.runs.beginOk]
    simp only [h.iterations]
  by_cases hb : (single eqs cell set).beginIterationOk s.iterations = true
  swap
  · rw [if_pos (fun h' => hb (hbegin.1 h')), if_pos (show (!(single eqs cell set).beginIterationOk s.iterations) = true by simpa using hb)]
    exact ⟨h.error, h.lastError, h.iterations, haveOwn_of_all hall⟩
  rw [if_neg (not_not.2 (hbegin.2 hb)), if_neg (show ¬ (!(single eqs cell set).beginIterationOk s.iterations) = true by simp [hb])]
  simp only [applyConstraints_single]
  have hcon := applyConstraints_all S.runs hall
  set x1 := constrain eqs cell s.sol with hx1
  set st1 : State P K V := fun p =>
    { st p with lastError := (st p).error, sol := applyConstraints (M.env p) (M.syncOverlap n (fun q => (st q).sol) p) } with hst1
  have hseen : HaveAll g cell (seen M st1) x1 := seen_all s.iterations h.iterations hcon hf
  obtain ⟨hsome, hfits⟩ := linearize_fits S n hseen
  by_cases hl : ∀ k, (rowAt eqs cell x1 k).isSome = true
  swap
  · have e : (single eqs cell set).linearize s.iterations x1 = .caught := by
      show (if _ then _ else _) = _
      rw [if_neg hl]
    rw [if_pos (fun h' => hl (hsome.1 h')), e]
    exact ⟨h.error, h.error, h.iterations, haveOwn_of_all hcon⟩
  have e : (single eqs cell set).linearize s.iterations x1 =
      .residual fun i => if h : i < N then List.ofFn fun j => .num ((rowAt eqs cell x1 ⟨i, h⟩).elim 0 (fun r => r.1) j) else [] := by
    show (if _ then _ else _) = _
    rw [if_pos hl]
  rw [if_neg (not_not.2 (hsome.2 hl)), e]
  simp only
  set a := fun p => ((M.linearize n p (seen M st1 p)).map Prod.fst).getD { numRows := 0, cols := fun _ => [], value := fun _ _ => 0 } with ha
  set b := fun p => ((M.linearize n p (seen M st1 p)).map Prod.snd).getD fun _ => 0 with hbdef
  have hfit : Fits eqs g cell (fun p => (d p).cols) a b x1 := by
    refine hfits a b fun p => ?_
    obtain ⟨⟨a', b'⟩, hab⟩ := Option.isSome_iff_exists.1 (hsome.2 hl p)
    simp only [ha, hbdef, hab, Option.map_some, Option.getD_some]
  rw [error_eq S n hfit]
  set err := computeError (single eqs cell set)
    fun i => if h : i < N then List.ofFn fun j => .num ((rowAt eqs cell x1 ⟨i, h⟩).elim 0 (fun r => r.1) j) else [] with herr
  have hv1 : ∀ p, (fun p => (Fl.num (M.env p).maxError).lt err) p = (Fl.num (single eqs cell set).maxError).lt err := fun p => by
    simp only [S.runs.maxError]
    rfl
  have hv2 : ∀ p, (fun p => !proceed (M.env p)
      ({ sol := applyConstraints (M.env p) (M.syncOverlap n (fun q => (st q).sol) p), error := err, lastError := (st p).error
         iterations := (st p).iterations } : NState K V)) p =
      !proceed (single eqs cell set) ({ sol := x1, error := err, lastError := s.error, iterations := s.iterations } : NState K V) :=
    fun p => by
      simp only
      rw [proceed_eq S (s := ({ sol := x1, error := err, lastError := s.error, iterations := s.iterations } : NState K V))
        (st := fun p => { sol := applyConstraints (M.env p) (M.syncOverlap n (fun q => (st q).sol) p), error := err, lastError := (st p).error
                          iterations := (st p).iterations }) (fun _ => rfl) h.error h.iterations p]
  rw [vote_same hv1, vote_same hv2]
  split_ifs with hmax hpro
  · exact ⟨fun _ => rfl, h.error, h.iterations, haveOwn_of_all hcon⟩
  · exact endIteration_leave_same S ⟨fun _ => rfl, h.error, h.iterations, haveOwn_of_all hcon⟩ hcon
  have hsolve := solve_spec S n hfit
  have es : (single eqs cell set).solve s.iterations x1 =
      match Krylov.apply (linearSystem eqs cell set.solver x1) set.criterion with
      | .breakdown _ => .caught
      | .returned false _ _ => .notConverged
      | .returned true u _ => .update (fun i => if h : i < N then block u ⟨i, h⟩ else 0) true := rfl
  rw [es]
  revert hsolve
  cases Krylov.apply (linearSystem eqs cell set.solver x1) set.criterion with
  | breakdown m =>
    intro hsolve
    simp only at hsolve ⊢
    rw [hsolve]
    exact ⟨fun _ => rfl, h.error, h.iterations, haveOwn_of_all hcon⟩
  | returned c X m =>
    intro hsolve
    obtain ⟨u, hu, hX⟩ := hsolve
    rw [hu]
    cases c with
    | false => exact ⟨fun _ => rfl, h.error, h.iterations, haveOwn_of_all hcon⟩
    | true =>
      simp only [Bool.not_true, Bool.false_eq_true, if_false]
      refine endIteration_again_same S ⟨fun _ => rfl, h.error, h.iterations, ?_⟩
      intro p i k hk ho
      have hlt : i < (M.env p).numGridDof := by
        rw [S.runs.numGridDof]
        exact (List.getElem?_eq_some_iff.1 hk).1
      have hkN : (k : ℕ) < N := k.2
      have hkN' : (k : ℕ) < (single eqs cell set).numGridDof := hkN
      have hck : (single eqs cell set).constraints k = eqs.constraint (cell k) := by
        show (if h : (k : ℕ) < N then _ else _) = _
        rw [dif_pos hkN]
      simp only [updateSolution, if_pos hlt, if_pos hkN', S.runs.constraints p i _ hk, hck]
      cases eqs.constraint (cell k) with
      | some v => rfl
      | none =>
        simp only
        rw [S.runs.update p i _ hk, hX p i k hk, if_pos ho, hall p i k hk]
        show _ = (if h : (k : ℕ) < N then eqs.update (cell ⟨k, h⟩) _ _ else _)
        rw [dif_pos hkN, dif_pos hkN]

end Verif.ParNewton
