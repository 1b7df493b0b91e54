import Mathlib.Tactic.Linarith
import Verif.Threads.Model
set_option autoImplicit false
/-!
# C110: the number of threads
-/
namespace Threads

/-- A number of threads the OpenMP runtime can report: at least one, and an `int`. -/
def Sane (s : State) : Prop := 1 ≤ s.ompMax ∧ s.ompMax < 2 ^ 31

/-- After a successful initialisation, with whatever setting, the number of threads is
what was asked for if that is positive and OpenMP is available, what the runtime would
use otherwise, and one without OpenMP; in particular it is at least one, and every
thread of a parallel region (which has at most that many) has an index below it. -/
theorem C110_count (b : Build) (query : Bool) (param : ℤ) (s : State) (hs : Sane s)
    (hp : param < 2 ^ 31) (ok : (init b query param s).2 = false) :
    let n := maxThreads (init b query param s).1
    (b = .serial → query = true → n = 1) ∧
    (b.hasOpenMP = true → query = true → 0 < param → (n : ℤ) = param) ∧
    (b.hasOpenMP = true → (query = false ∨ param < 0) → n = s.ompMax) ∧
    ((query = true ∨ b.hasOpenMP = true) → 1 ≤ n ∧
      ∀ i, (b.hasOpenMP = true → i < (init b query param s).1.ompMax) → threadId b i < n) := by
  obtain ⟨h1, h2⟩ := hs
  have small : ∀ m : ℕ, m < 2 ^ 31 → ((m : ℤ) % 2 ^ 32).toNat = m := by
    intro m hm; omega
  cases b <;> cases query <;> simp only [init, Build.hasOpenMP, if_true, if_false,
    Bool.false_eq_true, threadId] at ok ⊢
  · refine ⟨fun _ h => by simp at h, fun h => by simp at h, fun h => by simp at h, ?_⟩
    rintro (h | h) <;> simp at h
  · by_cases hb : param ≠ 1 ∧ param ≠ -1
    · simp [hb] at ok
    · simp [hb, maxThreads]
  · simp only [maxThreads, small _ h2]
    refine ⟨fun h => by simp at h, fun _ h => by simp at h, fun _ _ => trivial, fun _ => ⟨h1, ?_⟩⟩
    intro i hi; exact hi trivial
  · by_cases hb : param ≠ 1
    · simp [hb] at ok
    · have : param = 1 := by simpa using hb
      subst this
      simp [maxThreads]
  · simp only [maxThreads, small _ h2]
    refine ⟨fun h => by simp at h, fun _ h => by simp at h, fun _ _ => trivial, fun _ => ⟨h1, ?_⟩⟩
    intro i hi; exact hi trivial
  · by_cases h0 : param = 0
    · simp [h0] at ok
    · by_cases hpos : param > 0
      · have hlt : param.toNat < 2 ^ 31 := by omega
        simp only [h0, hpos, if_true, if_false, Bool.false_eq_true, maxThreads, small _ hlt]
        refine ⟨fun h => by simp at h, fun _ _ _ => by omega, fun _ h => ?_, fun _ => ⟨by omega, ?_⟩⟩
        · rcases h with h | h
          · simp at h
          · omega
        · intro i hi; exact hi trivial
      · simp only [h0, hpos, if_true, if_false, Bool.false_eq_true, maxThreads, small _ h2]
        refine ⟨fun h => by simp at h, fun _ _ h => by first | omega | exact absurd h hpos | exact h.elim, fun _ _ => trivial, fun _ => ⟨h1, ?_⟩⟩
        intro i hi; exact hi trivial

/-- Zero threads are always rejected; without OpenMP everything but 1 and -1 is, and
with the interface checks everything but 1. -/
theorem C110_rejects (b : Build) (param : ℤ) (s : State) :
    (init b true param s).2 = true ↔
      match b with
      | .serial => param ≠ 1 ∧ param ≠ -1
      | .checked => param ≠ 1
      | .openmp => param = 0 := by
  cases b <;> simp only [init, Build.hasOpenMP, if_true, if_false, Bool.false_eq_true]
  · by_cases h : param ≠ 1 ∧ param ≠ -1 <;> simp [h]
  · by_cases h : param ≠ 1
    · simp [h]
    · simp [h]
  · by_cases h : param = 0
    · simp [h]
    · by_cases h' : param > 0 <;> simp [h, h']

/-- The full property would also say that a rejected setting leaves a usable number of
threads.  It is false: the rejected value has already been stored.  After the exception
for zero threads the manager reports zero threads, and after the one for -2 without
OpenMP it reports more than four billion. -/
theorem C110_rejected_violated :
    ((init .openmp true 0 (start 4)).2 = true ∧ maxThreads (init .openmp true 0 (start 4)).1 = 0) ∧
    ((init .serial true (-2) (start 1)).2 = true ∧
      maxThreads (init .serial true (-2) (start 1)).1 = 4294967294) := by
  decide

/-- The documentation allows positive numbers and -1.  With OpenMP any other negative
number is accepted too and treated like -1. -/
theorem C110_negative_violated (param : ℤ) (hn : param < 0) (s : State) :
    init .openmp true param s = init .openmp true (-1) s ∧ (init .openmp true param s).2 = false := by
  have h0 : param ≠ 0 := by omega
  have h1 : ¬ param > 0 := by omega
  simp [init, Build.hasOpenMP, h0, h1]

/-- Non-vacuity: four threads asked for on a machine with eight. -/
example : Sane (start 8) ∧ (init .openmp true 4 (start 8)).2 = false ∧
    maxThreads (init .openmp true 4 (start 8)).1 = 4 := by
  refine ⟨⟨by decide, by decide⟩, by decide, by decide⟩

end Threads
