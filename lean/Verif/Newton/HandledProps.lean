import Verif.Newton.Props

/-
C11, C12: failures which the Newton method handles, and the unknowns of auxiliary equations.
-/

set_option autoImplicit false

namespace Verif.Newton

variable {K V W : Type} [Field K] [LinearOrder K]

theorem pass_thrown (env : Env K V W) (st st' : NState K V) (h : pass env st = .thrown st') :
    ∃ k x, env.linearize k x = .other ∨ env.solve k x = .other := by
  have hend : ∀ (s : NState K V) (f : NState K V → PassResult K V), (∀ a b, f a ≠ .thrown b) → endIteration env s f ≠ .thrown st' := by
    intro s f hf
    unfold endIteration
    dsimp only
    split
    · exact hf _ _
    · intro h; cases h
  unfold pass at h
  split at h
  · cases h
  · dsimp only at h
    split at h
    · cases h
    · next hl => exact ⟨_, _, .inl hl⟩
    · split at h
      · cases h
      · split at h
        · exact absurd h (hend _ _ fun _ _ h => by cases h)
        · split at h
          · cases h
          · next hs => exact ⟨_, _, .inr hs⟩
          · cases h
          · split at h
            · cases h
            · exact absurd h (hend _ _ fun _ _ h => by cases h)

/-- **C11** An exception leaves the Newton method only if the linearizer or the linear solver throws one which it does not handle: all
other failures, also those of the problem at the begin and at the end of an iteration, make it report a failure, after which the time step
is repeated (C15). -/
theorem C11_handled (env : Env K V W) (s0 : Vec V) (e le : Fl K) (fuel : ℕ) (st : NState K V)
    (h : apply env s0 e le fuel = some (.thrown, st)) : ∃ k x, env.linearize k x = .other ∨ env.solve k x = .other := by
  unfold apply at h
  generalize ({ sol := s0, error := e, lastError := le, iterations := 0 } : NState K V) = a at h
  induction fuel generalizing a with
  | zero => cases h
  | succ n ih =>
    have hafter : ∀ s : NState K V, (afterLoop env s).1 ≠ .thrown := by
      intro s
      unfold afterLoop
      split <;> simp
    unfold loop at h
    split at h
    · split at h
      · exact ih _ h
      · injection h with h
        exact absurd (congrArg Prod.fst h) (hafter _)
      · injection h with h
        exact absurd (congrArg Prod.fst h) (by simp)
      · next hp => exact pass_thrown env _ _ hp
    · injection h with h
      exact absurd (congrArg Prod.fst h) (hafter _)

/-- **C11** If the problem fails at the begin of the first iteration, the Newton method reports a failure, and the solution is as before. -/
theorem C11_begin (env : Env K V W) (s0 : Vec V) (e le : Fl K) (fuel : ℕ) (h : env.beginIterationOk 0 = false) :
    apply env s0 e le (fuel + 1) = some (.failure, ⟨s0, e, le, env.targetIterations * 2⟩) := by
  simp [apply, loop, proceed, pass, h, failedState]

/-- **C12** The unknowns of auxiliary equations are updated by subtraction, constraints or not, and nothing else is touched. -/
theorem C12_auxiliary_updated (env : Env K V W) (next current : Vec V) (u : Vec W) (i : ℕ) (h : env.numGridDof ≤ i) :
    (i < env.numTotalDof → updateSolution env next current u i = env.subtract (current i) (u i)) ∧
      (env.numTotalDof ≤ i → updateSolution env next current u i = next i) := by
  unfold updateSolution
  rw [if_neg (not_lt.2 h)]
  exact ⟨fun h' => if_pos h', fun h' => if_neg (not_lt.2 h')⟩

/-- One cell and one auxiliary unknown; the linear solver fails with an exception which is not handled in the second iteration. -/
def unlucky (begin : Bool) : Env ℚ ℚ ℚ where
  numGridDof := 1
  numTotalDof := 2
  volume := fun _ => 1
  weight := fun _ _ => 1
  constraints := fun _ => none
  beginIterationOk := fun _ => begin
  endIterationOk := fun _ => true
  linearize := fun _ x => .residual fun i => [.num (x i)]
  solve := fun k x => if k = 0 then .update (fun i => x i / 2) true else .other
  updatePrimaryVariables := fun _ x d => x - d
  subtract := fun x d => x - d
  tolerance := 1 / 10
  maxError := 100
  maxIterations := 10
  targetIterations := 5

example : (apply (unlucky true) (fun _ => 8) .nan .nan 10).map Prod.fst = some .thrown ∧
    (apply (unlucky true) (fun _ => 8) .nan .nan 10).map (fun r => (r.2.sol 0, r.2.sol 1)) = some (4, 4) ∧
    (apply (unlucky false) (fun _ => 8) .nan .nan 10).map Prod.fst = some .failure := by
  refine ⟨by decide +kernel, by decide +kernel, by decide +kernel⟩

end Verif.Newton
