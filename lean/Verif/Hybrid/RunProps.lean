import Verif.Hybrid.Props
import Verif.ParRestart.Props

/-
Cached intensive quantities and restart files of simulations on several processes, each of which uses several threads.
-/

set_option autoImplicit false
set_option linter.unusedSectionVars false

namespace Verif.Hybrid

open Verif.TimeLoop Verif.Overlap Verif.Newton Verif.ParNewton Verif.Restart Verif.ParRestart
open Verif.ParSim (Task Memory Hooks SameHooks Same several one St)
open Verif.ParCache (severalCached)

section
variable {P N E : ℕ} {G C K V X : Type} [DecidableEq G] [Field K] [LinearOrder K] [IsStrictOrderedRing K] [Inhabited V]
variable {f : Flow G C E K V X} {settings : X → K → Memory K → Settings K} {fuel : ℕ} {g : Grid (P + 1) G} {cell : Fin N → G}
  {machine : X → K → Memory K → (Fin (P + 1) → ℕ → V) → Machine P E K V}

/-- **C184** (partial) The same with stored intensive quantities, whichever of them are stored: after any number of steps of the time loop the
processes are at the same point as one process with one thread which stores nothing, and have its values, also for copies.  Missing: time
steps for which one Newton iteration is enough (`C182_violated`). -/
theorem C184_cached_partial (hM : Performs f settings g cell machine) (filled : X → K → Memory K → Fin (P + 1) → ℕ → Bool)
    {h : Hooks K (Fin (P + 1) → ℕ → V) X} {h1 : Hooks K (ℕ → V) X} (hh : SameHooks g cell h h1) (sim : Sim K) (own : X) (mem : Memory K)
    {y0 y1 : Fin (P + 1) → ℕ → V} {x0 x1 : ℕ → V} (e0 : HaveAll g cell y0 x0) (e1 : HaveAll g cell y1 x1) (n : ℕ)
    (hit : ∀ j < n, ParBalance.Integrates (one (task f settings fuel) cell h1)
        (run (one (task f settings fuel) cell h1) j (start sim ⟨own, x0, x1, mem⟩)) →
      (run (one (task f settings fuel) cell h1) (j + 1) (start sim ⟨own, x0, x1, mem⟩)).prob.memory.iterations ≠ 1) :
    let c := run (severalCached (task f settings fuel) machine filled h) n (start sim ⟨own, y0, y1, mem⟩)
    let c1 := run (one (task f settings fuel) cell h1) n (start sim ⟨own, x0, x1, mem⟩)
    Same g cell c c1 ∧ HaveAll g cell c.prob.sol0 c1.prob.sol0 ∧ HaveAll g cell c.prob.sol1 c1.prob.sol1 := by
  obtain ⟨⟨d, _, _, _, _, v, -⟩, -⟩ := hM.2 own 0 mem y0
  exact ParCache.C182_cached_partial hM.1 v.owned (C184_performs hM) filled hh sim own mem e0 e1 n hit

end

section
variable {P N E m : ℕ} {G C K X : Type} [DecidableEq G] [Field K] [LinearOrder K] [IsStrictOrderedRing K] [Inhabited K]
variable {f : Flow G C E K (Fin m → K) X} {settings : X → K → Memory K → Settings K} {fuel : ℕ} {g : Grid (P + 1) G} {cell : Fin N → G}
  {machine machine' : X → K → Memory K → (Fin (P + 1) → ℕ → Fin m → K) → Machine P E K (Fin m → K)}

/-- **C184** (partial) A simulation continues from restart files also with other numbers of threads and with the other linearizer: what
is proved in `C183_continues_partial` holds, whatever threads the first and the new processes use.  Missing: as there. -/
theorem C184_continues_partial (hM : Performs f settings g cell machine) (hM' : Performs f settings g cell machine')
    {h : Hooks K (Fin (P + 1) → ℕ → Fin m → K) X} {h1 : Hooks K (ℕ → Fin m → K) X} (hh : SameHooks g cell h h1) (hf : Forgetful h)
    (ht : Patient (task f settings fuel))
    (y : Setup P K) (hI : y.integer.Lawful) (hK : y.number.Lawful) (hsize : ∀ p, y.numElements p = (g.cells p).length)
    (sim fresh : Sim K) (hidx : 0 ≤ sim.timeStepIdx) (own : X) (mem mem' : Memory K) {y0 : Fin (P + 1) → ℕ → Fin m → K} {x0 : ℕ → Fin m → K}
    (e0 : HaveOwn g cell y0 x0) (s : Fin (P + 1) → ℕ → Fin m → K) (n : ℕ) (disk : Disk) (order : List (Fin (P + 1))) (hall : ∀ p, p ∈ order) :
    let c := run (several (task f settings fuel) machine h) n (start sim ⟨own, y0, y0, mem⟩)
    c.pc = .restart → h.writeRestart c.prob.own c.prob.sol0 c.prob.memory c.sim = some (c.prob.own, []) →
    c.trace.getLast? ≠ some .endEpisode →
    fresh.endTime = c.sim.endTime → fresh.finishedFlag = c.sim.finishedFlag → fresh.dt = c.sim.dt →
    ∃ r, restartAll y (writeAll y c disk order) c.sim.time fresh c.prob.own mem' s = some r ∧
      ∀ k,
        let a := run (several (task f settings fuel) machine h) (n + 1 + k) (start sim ⟨own, y0, y0, mem⟩)
        let b := run (several (task f settings fuel) machine' h) k r
        a.pc = b.pc ∧ a.sim = b.sim ∧ a.prob.own = b.prob.own ∧ a.trace = c.trace ++ b.trace ∧
          OwnAlike g a.prob.sol0 b.prob.sol0 ∧ OwnAlike g a.prob.sol1 b.prob.sol1 := by
  obtain ⟨⟨d, _, _, _, _, v, -⟩, -⟩ := hM.2 own 0 mem y0
  exact C183_continues_partial hM.1 v.owned (C184_performs hM) (C184_performs hM') hh hf ht y hI hK hsize sim fresh hidx own mem mem' e0 s n disk order
    hall

end

end Verif.Hybrid
