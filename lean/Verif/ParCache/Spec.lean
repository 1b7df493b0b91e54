import Verif.ParCache.Model
import Verif.ParBalance.Spec

set_option autoImplicit false

namespace Verif.ParCache

open Verif.TimeLoop Verif.ParSim Verif.ParNewton

variable {P N E : ℕ} {G K V X : Type} [Field K] [LinearOrder K] [IsStrictOrderedRing K] [Inhabited V]

/-- The simulation on several processes which store intensive quantities -/
def severalCached (task : Task G E K V X) (machine : X → K → Memory K → (Fin (P + 1) → ℕ → V) → ParNewton.Machine P E K V)
    (filled : X → K → Memory K → Fin (P + 1) → ℕ → Bool) (h : Hooks K (Fin (P + 1) → ℕ → V) X) :
    Problem K (St K (Fin (P + 1) → ℕ → V) X) :=
  problem (fun own => cachedSolver (machine own) (filled own) task.fuel) h

end Verif.ParCache
