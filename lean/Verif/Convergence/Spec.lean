import Verif.Convergence.Model

/-
What the fields for analysing convergence mean.
-/
set_option autoImplicit false

namespace Verif.Convergence

variable {K : Type} [Field K] [LinearOrder K]

/-- `e` is the largest of the weighted changes from `u` to `v` of the first `n` variables. -/
def LargestChange (n : ℕ) (weight u v : ℕ → K) (e : K) : Prop :=
  (∀ j < n, weight j * |u j - v j| ≤ e) ∧ (e = 0 ∧ (∀ j < n, u j = v j) ∨ ∃ j < n, e = weight j * |u j - v j|)

/-- All times in a list are different, and in order of time. -/
def Increasing (l : List K) : Prop := l.Pairwise (· < ·)

end Verif.Convergence
