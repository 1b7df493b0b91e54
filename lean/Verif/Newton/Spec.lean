import Verif.Newton.Model

set_option autoImplicit false
/-
Vocabulary for the properties of the Newton method.
-/
namespace Verif.Newton
variable {K V W : Type} [Field K] [LinearOrder K]

/-- Does equation `eq` of degree of freedom `dof` count?  Degrees of freedom of the grid with a positive volume
which are not constrained. -/
def Counts (env : Env K V W) (dof : ℕ) : Prop :=
  dof < env.numGridDof ∧ dof < env.numTotalDof ∧ 0 < env.volume dof ∧ env.constraints dof = none

/-- The weighted residual is small everywhere: every equation of every degree of freedom which counts has a
defined residual whose weighted absolute value is at most the tolerance. -/
def SmallResidual (env : Env K V W) (r : Vec (List (Fl K))) : Prop :=
  ∀ dof, Counts env dof → ∀ (eq : ℕ) (x : Fl K), (r dof)[eq]? = some x →
    ∃ a, x = .num a ∧ |a * env.weight dof eq| ≤ env.tolerance

/-- No entry which counts is undefined. -/
def Defined (env : Env K V W) (r : Vec (List (Fl K))) : Prop :=
  ∀ dof, Counts env dof → ∀ (eq : ℕ) (x : Fl K), (r dof)[eq]? = some x → x ≠ Fl.nan

end Verif.Newton
