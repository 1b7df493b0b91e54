import Verif.RestartSim.Model
import Verif.Bounds.Lemmas
import Verif.TimeLoop.Props

/-
Lemmas for C166.
-/

set_option autoImplicit false
set_option linter.unusedSectionVars false

namespace Verif.RestartSim

open Verif.TimeLoop Verif.Balance Verif.Restart

section
variable {K σ : Type} [Field K] [LinearOrder K]

/-- What is known of the flag of the time loop and of the episode between the beginning of an episode and the restart file. -/
structure Mid (c : Conf K σ) : Prop where
  inside : c.pc = .beginStep ∨ c.pc = .integrate ∨ c.pc = .endStep ∨ c.pc = .output ∨ c.pc = .advance ∨ c.pc = .select → c.episodeBegins = false
  select : c.pc = .select → c.sim.episodeIsOver = false
  restart : c.pc = .restart → c.trace.getLast? = some .endEpisode ∨ (c.episodeBegins = false ∧ c.sim.episodeIsOver = false)

theorem mid_step (P : Problem K σ) (c : Conf K σ) (h : Mid c) : Mid (step P c) := by
  obtain ⟨pc, sim, pr, eb, t⟩ := c
  obtain ⟨h1, h2, h3⟩ := h
  cases pc <;> simp only [step, call] <;> simp only [reduceCtorEq, false_or, or_false, true_or, or_true, true_implies, false_implies] at h1 h2 h3
  all_goals (repeat' split) <;> constructor <;> simp_all [Sim.episodeIsOver]

theorem mid_run (P : Problem K σ) (sim : Sim K) (p : σ) (n : ℕ) : Mid (run P n (start sim p)) :=
  run_inv Mid (mid_step P) ⟨by simp [start], by simp [start], by simp [start]⟩ n

/-- Steps were completed before the restart file is written. -/
def Stepped (c : Conf K σ) : Prop := c.pc = .endEp ∨ c.pc = .select ∨ c.pc = .restart → completedSteps c.trace ≠ []

theorem stepped_step (P : Problem K σ) (c : Conf K σ) (h : Stepped c) : Stepped (step P c) := by
  obtain ⟨pc, sim, pr, eb, t⟩ := c
  unfold Stepped at *
  cases pc <;> simp only [step, call] <;> simp only [reduceCtorEq, false_or, or_false, true_or, or_true, true_implies, false_implies] at h
  all_goals (repeat' split) <;> simp_all [completedSteps_append, completedSteps]

theorem stepped_run (P : Problem K σ) (sim : Sim K) (p : σ) (n : ℕ) : Stepped (run P n (start sim p)) :=
  run_inv Stepped (stepped_step P) (by simp [Stepped, start]) n

end

section
variable {K W M C X : Type} {m p : ℕ} [Field K] [LinearOrder K] [IsStrictOrderedRing K] [AddCommGroup M] [Module K M]

theorem values_length (n : ℕ) (s : ℕ → Fin p → K) : (values n s).length = n := by simp [values]

theorem values_width (n : ℕ) (s : ℕ → Fin p → K) : ∀ d ∈ values n s, d.length = p := by
  intro d hd
  simp only [values, List.mem_map] at hd
  obtain ⟨i, -, rfl⟩ := hd
  simp

theorem assign_values (n : ℕ) (s t : ℕ → Fin p → K) (h : ∀ i, n ≤ i → t i = s i) : assign (values n s) t = s := by
  funext i k
  unfold assign values
  by_cases hi : i < n
  · simp [hi]
  · simp [hi, h i (by omega)]

/-- Entries of no degree of freedom never change. -/
theorem run_beyond (f : Physics K (Fin p → K) M C X m) (q : Numerics K (Fin p → K) W M X m) (h : Hooks K (Fin p → K) X) (sim : Sim K) (own : X)
    (s0 : ℕ → Fin p → K) (n i : ℕ) (hi : f.numCells ≤ i) : (run (problem f q h) n (start sim ⟨own, s0, s0⟩)).prob.sol0 i = s0 i := by
  have := Bounds.run_good (f := f) (q := q) (I := fun i x => f.numCells ≤ i → x = s0 i)
    (fun _ _ _ _ i hi _ _ _ h => absurd h (by omega)) h sim ⟨own, s0, s0⟩ ⟨fun _ _ => rfl, fun _ _ => rfl⟩ n
  exact this.1 i hi

/-- What a process has read. -/
theorem restart_ok (f : Physics K (Fin p → K) M C X m) (q : Numerics K (Fin p → K) W M X m) (h : Hooks K (Fin p → K) X)
    (y : Style K) (hI : y.integer.Lawful) (hK : y.number.Lawful) (hm : '\n' ∉ y.magic) (hc : '\n' ∉ y.cookie)
    (sim fresh : Sim K) (own own' : X) (s0 s : ℕ → Fin p → K) (hs : ∀ i, f.numCells ≤ i → s i = s0 i) (n : ℕ)
    (c : Conf K (St (Fin p → K) X)) (e : c = run (problem f q h) n (start sim ⟨own, s0, s0⟩)) :
    restart y f.numCells (file y f.numCells c) fresh own' s = .ok (restarted (save c.sim) fresh ⟨own', c.prob.sol0, c.prob.sol0⟩) := by
  have hr := C58_file_round_trip hI hK y.magic y.cookie hm hc (save c.sim) (save fresh) p (values f.numCells c.prob.sol0) (values f.numCells s)
    (by rw [values_length, values_length]) (values_width _ _) (values_width _ _)
  have ha : assign (values f.numCells c.prob.sol0) s = c.prob.sol0 :=
    assign_values _ _ _ fun i hi => by rw [hs i hi, e]; exact (run_beyond f q h sim own s0 n i hi).symm
  unfold restart file
  rw [hr]
  simp only [ha]

end

end Verif.RestartSim
