import Verif.ParNewton.PassLemmas

/-
The loop of the Newton method on several processes, from what `Verif.ParNewton.PassLemmas` says of one pass.
-/

set_option autoImplicit false
set_option linter.unusedSectionVars false
set_option linter.unusedSimpArgs false

namespace Verif.ParNewton

open Verif.Mpi Verif.Sync Verif.Overlap Verif.OverlapMatrix Verif.Newton Verif.Criteria Verif.ParSolve.Block Verif.GridComm
open Verif.ParSolve (Enumerates Wide Steps Covered mem_all steps_mem wide_one row_enumerates)

variable {P N E : ℕ} {G K V : Type} [Field K] [LinearOrder K] [IsStrictOrderedRing K]
variable {g : Grid (P + 1) G} {number : G → ℕ} {o : Fin (P + 1) → Sync.Overlap (P + 1)} {black : Fin (P + 1) → ℕ → Option ℕ}
variable {cell : Fin N → G} {eqs : Equations G E K V} {set : Settings K} {d : Fin (P + 1) → Overlap.Native (P + 1)} {overlapSize : ℕ}
  {face : Interface (P + 1) G} {M : Machine P E K V} [Inhabited V]

theorem afterLoop_same (S : Setup eqs set g d overlapSize number o black face M cell) {st : State P K V} {s : NState K V}
    (h : Rel g cell st s) :
    SameEnd g cell (some (.finished fun p => afterLoop (M.env p) (st p))) (some (afterLoop (single eqs cell set) s)) := by
  have hc : ∀ p, converged (M.env p) (st p) = converged (single eqs cell set) s := fun p => by
    unfold converged
    rw [h.error, S.runs.tolerance]
    rfl
  unfold afterLoop
  by_cases h' : converged (single eqs cell set) s = true
  · simp only [hc, h', if_true]
    exact ⟨fun p => ⟨rfl, h.error p, h.lastError p, h.iterations p⟩, h.sol⟩
  · simp only [hc, h', if_false]
    refine ⟨fun p => ⟨rfl, h.error p, h.lastError p, ?_⟩, h.sol⟩
    show (M.env p).targetIterations * 2 = set.targetIterations * 2
    rw [S.runs.targetIterations]

theorem loop_same (S : Setup eqs set g d overlapSize number o black face M cell) (fuel : ℕ) : ∀ (n : ℕ) (st : State P K V) (s : NState K V),
    Rel g cell st s → (s.iterations = 0 → Fresh g cell M.cache (constrain eqs cell s.sol)) →
      SameEnd g cell (loop M fuel n st) (Newton.loop (single eqs cell set) fuel s) := by
  induction fuel with
  | zero => intro n st s h hf; trivial
  | succ fuel ih =>
    intro n st s h hf
    unfold loop Newton.loop
    rw [vote_same (proceed_eq S h.error h.lastError h.iterations)]
    by_cases hp : proceed (single eqs cell set) s = true
    · rw [if_pos hp, if_pos hp]
      have := pass_same S n h hf
      revert this
      cases pass M n st with
      | again st' =>
        cases Newton.pass (single eqs cell set) s with
        | again s' =>
          rintro ⟨h1, h2⟩
          exact ih (n + 1) st' s' h1 fun h0 => absurd h0 (Nat.pos_iff_ne_zero.1 h2)
        | leave s' => exact fun h => h.elim
        | failure s' => exact fun h => h.elim
        | thrown s' => exact fun h => h.elim
      | leave st' =>
        cases Newton.pass (single eqs cell set) s with
        | leave s' =>
          rintro ⟨h1, -⟩
          exact afterLoop_same S h1
        | again s' => exact fun h => h.elim
        | failure s' => exact fun h => h.elim
        | thrown s' => exact fun h => h.elim
      | failure st' =>
        cases Newton.pass (single eqs cell set) s with
        | failure s' =>
          intro h1
          refine ⟨fun p => ⟨rfl, h1.error p, h1.lastError p, ?_⟩, h1.sol⟩
          show (M.env p).targetIterations * 2 = set.targetIterations * 2
          rw [S.runs.targetIterations]
        | again s' => exact fun h => h.elim
        | leave s' => exact fun h => h.elim
        | thrown s' => exact fun h => h.elim
      | deadlock =>
        cases Newton.pass (single eqs cell set) s <;> exact fun h => h.elim
    · rw [if_neg hp, if_neg hp]
      exact afterLoop_same S h

/-! ### Copies -/

theorem pass_leave_iterations {env : Newton.Env K V (Blk E K)} {s s' : NState K V} (h : Newton.pass env s = .leave s') :
    s'.iterations = s.iterations + 1 ∧ 0 < s.iterations := by
  have hp : ∀ e l x, proceed env { sol := x, error := e, lastError := l, iterations := s.iterations } = false → 0 < s.iterations := by
    intro e l x hx
    by_contra h0
    unfold proceed at hx
    rw [if_pos (by simp only; omega)] at hx
    exact absurd hx (by simp)
  unfold Newton.pass Newton.endIteration at h
  cases hl : env.linearize s.iterations (applyConstraints env s.sol) with
  | caught => simp only [hl] at h; split_ifs at h
  | other => simp only [hl] at h; split_ifs at h
  | residual r =>
    cases hs : env.solve s.iterations (applyConstraints env s.sol) with
    | update u fin =>
      simp only [hl, hs] at h
      split_ifs at h with h1 h2 h3
      injection h with h; rw [← h]; exact ⟨rfl, hp _ _ _ (by simpa using h3)⟩
    | _ =>
      simp only [hl, hs] at h
      split_ifs at h with h1 h2 h3
      injection h with h; rw [← h]; exact ⟨rfl, hp _ _ _ (by simpa using h3)⟩

theorem pass_again_iterations {env : Newton.Env K V (Blk E K)} {s s' : NState K V} (h : Newton.pass env s = .again s') :
    s'.iterations = s.iterations + 1 ∧ proceed env { s' with iterations := s.iterations } = true := by
  unfold Newton.pass Newton.endIteration at h
  cases hl : env.linearize s.iterations (applyConstraints env s.sol) with
  | caught => simp only [hl] at h; split_ifs at h
  | other => simp only [hl] at h; split_ifs at h
  | residual r =>
    cases hs : env.solve s.iterations (applyConstraints env s.sol) with
    | update u fin =>
      simp only [hl, hs] at h
      split_ifs at h with h1 h2 h3 h4 h5
      injection h with h
      subst h
      refine ⟨rfl, ?_⟩
      simp only [Bool.not_eq_true', Bool.not_eq_false] at h3
      rw [← h3]
      rfl
    | _ =>
      simp only [hl, hs] at h
      split_ifs at h

theorem converged_afterLoop {env : Newton.Env K V (Blk E K)} {s t : NState K V} {out : Newton.Outcome} (h : afterLoop env s = (out, t))
    (hs : out = .success) : converged env s = true ∧ t = s := by
  unfold afterLoop at h
  split_ifs at h with hc
  · exact ⟨hc, (Prod.ext_iff.1 h).2.symm⟩
  · rw [hs] at h
    exact absurd (Prod.ext_iff.1 h).1 (by simp)

/-- A successful method with more than one iteration has left the loop without an update. -/
theorem loop_copies (S : Setup eqs set g d overlapSize number o black face M cell) (fuel : ℕ) : ∀ (n : ℕ) (st : State P K V) (s : NState K V),
    Rel g cell st s → (s.iterations = 0 → Fresh g cell M.cache (constrain eqs cell s.sol)) → (2 ≤ s.iterations → converged (single eqs cell set) s = false) →
      ∀ r t, loop M fuel n st = some (.finished r) → Newton.loop (single eqs cell set) fuel s = some (.success, t) → t.iterations ≠ 1 →
        HaveAll g cell (fun p => (r p).2.sol) t.sol := by
  induction fuel with
  | zero => intro n st s h hf hc r t h1; exact absurd h1 (by simp [loop])
  | succ fuel ih =>
    intro n st s h hf hc r t h1 h2 ht
    unfold loop at h1
    unfold Newton.loop at h2
    rw [vote_same (proceed_eq S h.error h.lastError h.iterations)] at h1
    by_cases hp : proceed (single eqs cell set) s = true
    · rw [if_pos hp] at h1 h2
      have := pass_same S n h hf
      revert this h1 h2
      cases pass M n st with
      | again st' =>
        cases hq : Newton.pass (single eqs cell set) s with
        | again s' =>
          rintro h1 h2 ⟨k1, k2⟩
          obtain ⟨e1, e2⟩ := pass_again_iterations hq
          refine ih (n + 1) st' s' k1 (fun h0 => absurd h0 (Nat.pos_iff_ne_zero.1 k2)) (fun h0 => ?_) r t h1 h2 ht
          unfold proceed at e2
          simp only at e2
          rw [if_neg (by omega)] at e2
          by_contra hcon
          rw [Bool.not_eq_false] at hcon
          rw [if_pos (show converged (single eqs cell set) { s' with iterations := s.iterations } = true from hcon)] at e2
          exact absurd e2 (by simp)
        | leave s' => exact fun _ _ h => h.elim
        | failure s' => exact fun _ _ h => h.elim
        | thrown s' => exact fun _ _ h => h.elim
      | leave st' =>
        cases Newton.pass (single eqs cell set) s with
        | leave s' =>
          rintro h1 h2 ⟨k1, k2⟩
          simp only [Option.some.injEq, Ended.finished.injEq] at h1 h2
          obtain ⟨c1, rfl⟩ := converged_afterLoop h2 rfl
          subst h1
          intro p i k hk
          have hcp : converged (M.env p) (st' p) = true := by
            rw [← c1]
            unfold converged
            rw [k1.error, S.runs.tolerance]
            rfl
          simp only [afterLoop, hcp, if_true]
          exact k2 p i k hk
        | again s' => exact fun _ _ h => h.elim
        | failure s' => exact fun _ _ h => h.elim
        | thrown s' => exact fun _ _ h => h.elim
      | failure st' =>
        cases Newton.pass (single eqs cell set) s with
        | failure s' =>
          intro h1 h2
          simp only [Option.some.injEq, Prod.mk.injEq] at h2
          exact absurd h2.1 (by simp)
        | again s' => exact fun _ _ h => h.elim
        | leave s' => exact fun _ _ h => h.elim
        | thrown s' => exact fun _ _ h => h.elim
      | deadlock =>
        cases Newton.pass (single eqs cell set) s <;> exact fun _ _ h => h.elim
    · rw [if_neg hp] at h1 h2
      simp only [Option.some.injEq] at h2
      have : s.iterations ≠ 0 := fun h0 => hp (by unfold proceed; rw [if_pos (by omega)])
      obtain ⟨c1, rfl⟩ := converged_afterLoop h2 rfl
      rw [hc (by omega)] at c1
      exact absurd c1 (by simp)

/-- The first pass, if the update is the last thing which happens -/
theorem pass_stale (S : Setup eqs set g d overlapSize number o black face M cell) (n : ℕ) {st st' : State P K V} {s : NState K V}
    (h : Rel g cell st s) (hf : s.iterations = 0 → Fresh g cell M.cache (constrain eqs cell s.sol)) (hp : pass M n st = .again st') (p : Fin (P + 1)) (i : ℕ)
    (k : Fin N) (hk : (g.cells p)[i]? = some (cell k)) (ho : g.owner (cell k) ≠ p) : (st' p).sol i = (eqs.constraint (cell k)).getD (eqs.update (cell k) (s.sol k) 0) := by
  have hall := sync_all S.valid S.ghosts S.runs n h.sol
  unfold pass at hp
  simp only at hp
  have hcon := applyConstraints_all S.runs hall
  have hst : ∀ (w : State P K V) (y : State P K V → Result P K V), (∀ x, y x = .again st' → st' = x) → endIteration M w y = .again st' →
      (st' p).sol = (w p).sol := by
    intro w y hy he
    unfold endIteration at he
    simp only at he
    split_ifs at he
    rw [hy _ he]
  have hleave : ∀ w : State P K V, endIteration M w .leave ≠ .again st' := by
    intro w he
    unfold endIteration at he
    simp only at he
    split_ifs at he
  set st1 : State P K V := fun p =>
    { st p with lastError := (st p).error, sol := applyConstraints (M.env p) (M.syncOverlap n (fun q => (st q).sol) p) } with hst1
  have hseen : HaveAll g cell (seen M st1) (constrain eqs cell s.sol) := seen_all s.iterations h.iterations hcon hf
  obtain ⟨hsome, hfits⟩ := linearize_fits S n hseen
  unfold vote at hp
  split_ifs at hp with g1 g2 g3 g4 g5 g6
  · exact absurd hp (hleave _)
  set a := fun p => ((M.linearize n p (seen M st1 p)).map Prod.fst).getD { numRows := 0, cols := fun _ => [], value := fun _ _ => 0 } with ha
  set b := fun p => ((M.linearize n p (seen M st1 p)).map Prod.snd).getD fun _ => 0 with hbdef
  have hfit : Fits eqs g cell (fun p => (d p).cols) a b (constrain eqs cell s.sol) := by
    refine hfits a b fun p => ?_
    obtain ⟨⟨a', b'⟩, hab⟩ := Option.isSome_iff_exists.1 (g2 p)
    simp only [ha, hbdef, hab, Option.map_some, Option.getD_some]
  have hsolve := solve_spec S n hfit
  revert hsolve
  cases Krylov.apply (linearSystem eqs cell set.solver (constrain eqs cell s.sol)) set.criterion with
  | breakdown m =>
    intro hsolve
    simp only at hsolve
    rw [hsolve] at hp
    exact absurd hp (by simp)
  | returned c X m =>
    intro hsolve
    obtain ⟨u, hu, hX⟩ := hsolve
    rw [hu] at hp
    cases c with
    | false => exact absurd hp (by simp)
    | true =>
      simp only at hp
      rw [hst _ .again (fun x hx => by injection hx with hx; exact hx.symm) hp]
      have hlt : i < (M.env p).numGridDof := by
        rw [S.runs.numGridDof]
        exact (List.getElem?_eq_some_iff.1 hk).1
      simp only [updateSolution, if_pos hlt, S.runs.constraints p i _ hk]
      cases eqs.constraint (cell k) with
      | some v => rfl
      | none =>
        simp only [Option.getD_none]
        rw [S.runs.update p i _ hk, hX p i k hk, if_neg ho, hall p i k hk]

/-- All processes have the prescribed values for their cells with constraints. -/
def Constrained (eqs : Equations G E K V) (g : Grid (P + 1) G) (st : State P K V) : Prop :=
  ∀ p (i : ℕ) c, (g.cells p)[i]? = some c → ∀ v, eqs.constraint c = some v → (st p).sol i = v

theorem pass_constrained (R : Runs eqs set g d overlapSize o black face M) (n : ℕ) {st st' : State P K V}
    (h : pass M n st = .again st' ∨ pass M n st = .leave st') : Constrained eqs g st' := by
  have hend : ∀ (w : State P K V) (k : State P K V → Result P K V), Constrained eqs g w →
      (∀ x, k x = .again st' ∨ k x = .leave st' → st' = x) → (endIteration M w k = .again st' ∨ endIteration M w k = .leave st') →
        Constrained eqs g st' := by
    intro w k hw hk he
    unfold endIteration at he
    simp only at he
    split_ifs at he
    · rw [hk _ he]; exact hw
    · simp at he
  have happ : ∀ y : Fin (P + 1) → ℕ → V, ∀ p (i : ℕ) c, (g.cells p)[i]? = some c → ∀ v, eqs.constraint c = some v →
      applyConstraints (M.env p) (y p) i = v := by
    intro y p i c hc v hv
    simp only [applyConstraints, R.constraints p i c hc, hv, Option.getD_some]
  unfold pass vote at h
  simp only at h
  split_ifs at h with g1 g2 g3 g4 g5 g6
  all_goals first | (simp at h; done) | skip
  · refine hend _ _ ?_ ?_ h
    · intro p i c hc v hv; exact happ _ p i c hc v hv
    · intro x hx; simpa [eq_comm] using hx
  · split at h
    · simp at h
    · simp at h
    · refine hend _ _ ?_ ?_ h
      · intro p i c hc v hv
        have hlt : i < (M.env p).numGridDof := by
          rw [R.numGridDof]
          exact (List.getElem?_eq_some_iff.1 hc).1
        simp only [updateSolution, if_pos hlt, R.constraints p i c hc, hv]
      · intro x hx; simpa [eq_comm] using hx

theorem loop_constrained (R : Runs eqs set g d overlapSize o black face M) (fuel : ℕ) : ∀ (n : ℕ) (st : State P K V),
    (∀ p, (st p).iterations = 0) ∨ Constrained eqs g st → ∀ r, loop M fuel n st = some (.finished r) → ∀ p, (r p).1 = .success →
      ∀ (i : ℕ) c, (g.cells p)[i]? = some c → ∀ v, eqs.constraint c = some v → (r p).2.sol i = v := by
  induction fuel with
  | zero => intro n st _ r h; exact absurd h (by simp [loop])
  | succ fuel ih =>
    intro n st hst r h p hp i c hc v hv
    have hafter : ∀ w : State P K V, Constrained eqs g w → (∀ q, r q = afterLoop (M.env q) (w q)) → (r p).2.sol i = v := by
      intro w hw hr
      rw [hr p]
      unfold afterLoop
      split_ifs <;> exact hw p i c hc v hv
    unfold loop vote at h
    split_ifs at h with g1 g2
    · cases hq : pass M n st with
      | again st' =>
        simp only [hq] at h
        exact ih (n + 1) st' (.inr (pass_constrained R n (.inl hq))) r h p hp i c hc v hv
      | leave st' =>
        simp only [hq, Option.some.injEq, Ended.finished.injEq] at h
        exact hafter st' (pass_constrained R n (.inr hq)) fun q => by rw [← h]
      | failure st' =>
        simp only [hq, Option.some.injEq, Ended.finished.injEq] at h
        rw [← h] at hp
        exact absurd hp (by simp)
      | deadlock => simp [hq] at h
    · simp only [Option.some.injEq, Ended.finished.injEq] at h
      rcases hst with h0 | hcon
      · have := g2 0
        unfold proceed at this
        beta_reduce at this
        rw [if_pos (by rw [h0]; omega)] at this
        exact absurd this (by simp)
      · exact hafter st hcon fun q => by rw [← h]
    · simp at h

/-- The number of iterations does not become smaller. -/
theorem loop_iterations (env : Newton.Env K V (Blk E K)) (fuel : ℕ) : ∀ (s t : NState K V), Newton.loop env fuel s = some (.success, t) →
    s.iterations ≤ t.iterations := by
  induction fuel with
  | zero => intro s t h; exact absurd h (by simp [Newton.loop])
  | succ fuel ih =>
    intro s t h
    unfold Newton.loop at h
    split_ifs at h with hp
    · cases hq : Newton.pass env s with
      | again s' =>
        simp only [hq] at h
        have := (pass_again_iterations hq).1
        exact le_trans (by omega) (ih s' t h)
      | leave s' =>
        simp only [hq, Option.some.injEq] at h
        obtain ⟨-, rfl⟩ := converged_afterLoop h rfl
        have := (pass_leave_iterations hq).1
        omega
      | failure s' => simp only [hq, Option.some.injEq, Prod.mk.injEq] at h; exact absurd h.1 (by simp)
      | thrown s' => simp only [hq, Option.some.injEq, Prod.mk.injEq] at h; exact absurd h.1 (by simp)
    · simp only [Option.some.injEq] at h
      obtain ⟨-, rfl⟩ := converged_afterLoop h rfl
      exact le_rfl

/-- A successful method with one iteration has left the loop after an update. -/
theorem loop_stale (S : Setup eqs set g d overlapSize number o black face M cell) (fuel n : ℕ) (st : State P K V) (s : NState K V)
    (h : Rel g cell st s) (h0 : s.iterations = 0) (hf : Fresh g cell M.cache (constrain eqs cell s.sol)) (r : Fin (P + 1) → Newton.Outcome × NState K V)
    (t : NState K V) (h1 : loop M fuel n st = some (.finished r)) (h2 : Newton.loop (single eqs cell set) fuel s = some (.success, t))
    (ht : t.iterations = 1) (p : Fin (P + 1)) (i : ℕ) (k : Fin N) (hk : (g.cells p)[i]? = some (cell k)) (ho : g.owner (cell k) ≠ p) :
    (r p).2.sol i = (eqs.constraint (cell k)).getD (eqs.update (cell k) (s.sol k) 0) := by
  cases fuel with
  | zero => exact absurd h1 (by simp [loop])
  | succ fuel =>
    have hp : proceed (single eqs cell set) s = true := by unfold proceed; rw [if_pos (by omega)]
    have hpass := pass_same S n h fun _ => hf
    have hstale := fun st' hq => pass_stale (st' := st') S n h (fun _ => hf) hq p i k hk ho
    unfold loop at h1
    unfold Newton.loop at h2
    rw [vote_same (proceed_eq S h.error h.lastError h.iterations), if_pos hp] at h1
    rw [if_pos hp] at h2
    cases hq : Newton.pass (single eqs cell set) s with
    | leave s' => exact absurd (pass_leave_iterations hq).2 (by omega)
    | failure s' => simp only [hq, Option.some.injEq, Prod.mk.injEq] at h2; exact absurd h2.1 (by simp)
    | thrown s' => simp only [hq, Option.some.injEq, Prod.mk.injEq] at h2; exact absurd h2.1 (by simp)
    | again s' =>
      cases hq' : pass M n st with
      | leave st' => rw [hq, hq'] at hpass; exact hpass.elim
      | failure st' => rw [hq, hq'] at hpass; exact hpass.elim
      | deadlock => rw [hq, hq'] at hpass; exact hpass.elim
      | again st' =>
        rw [hq, hq'] at hpass
        simp only [hq'] at h1
        simp only [hq] at h2
        rw [← hstale st' hq']
        obtain ⟨k1, -⟩ := hpass
        obtain ⟨e1, -⟩ := pass_again_iterations hq
        cases fuel with
        | zero => exact absurd h1 (by simp [loop])
        | succ fuel =>
          unfold loop at h1
          unfold Newton.loop at h2
          rw [vote_same (proceed_eq S k1.error k1.lastError k1.iterations)] at h1
          by_cases hp' : proceed (single eqs cell set) s' = true
          · exfalso
            rw [if_pos hp'] at h2
            cases hw : Newton.pass (single eqs cell set) s' with
            | again s'' =>
              simp only [hw] at h2
              have := loop_iterations _ _ _ _ h2
              have := (pass_again_iterations hw).1
              omega
            | leave s'' =>
              simp only [hw, Option.some.injEq] at h2
              obtain ⟨-, rfl⟩ := converged_afterLoop h2 rfl
              have := (pass_leave_iterations hw).1
              omega
            | failure s'' => simp only [hw, Option.some.injEq, Prod.mk.injEq] at h2; exact absurd h2.1 (by simp)
            | thrown s'' => simp only [hw, Option.some.injEq, Prod.mk.injEq] at h2; exact absurd h2.1 (by simp)
          · rw [if_neg hp'] at h1
            simp only [Option.some.injEq, Ended.finished.injEq] at h1
            rw [← h1]
            simp only [afterLoop]
            split_ifs <;> rfl

end Verif.ParNewton
