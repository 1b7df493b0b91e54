import Verif.Adapt.Model
import Mathlib.Tactic.Linarith
import Mathlib.Tactic.NormNum
import Mathlib.Tactic.Positivity
import Mathlib.Algebra.Order.Field.Rat

set_option autoImplicit false
set_option linter.unusedSectionVars false

namespace Verif.Adapt

variable {K : Type*} [Field K] [LinearOrder K] [IsStrictOrderedRing K]

/-! ## C101: grid adaptation -/

/-- The saturation of a phase varies strongly (by more than 20 % of the mean of the extremes). -/
def Strong (sats : List K) : Prop := 1 / 5 < indicator sats
/-- The saturation of a phase hardly varies. -/
def Weak (sats : List K) : Prop := indicator sats < 1 / 40

/-- The number of marked elements. -/
def numMarked (marks : List (List Int)) : ℕ := (marks.map fun ms => ms.countP (· ≠ 0)).sum

theorem markElem_single (level : ℕ) (sats : List K) (count : ℕ) :
    markElem ⟨level, [sats]⟩ count = (if 1 / 5 < indicator sats ∧ level < 2 then ((1 : Int), count + 1)
      else if indicator sats < 1 / 40 then (-1, count + 1) else (0, count)) := rfl

theorem markElems_single (es : List (Elem K)) (h : ∀ e ∈ es, e.sats.length = 1) (count : ℕ) :
    (markElems es count).2 = count + (markElems es count).1.countP (· ≠ 0) := by
  induction es generalizing count with
  | nil => simp [markElems]
  | cons e es ih =>
    obtain ⟨sats, hs⟩ := List.length_eq_one_iff.mp (h e (List.mem_cons_self ..))
    obtain ⟨level, ss⟩ := e
    simp only at hs
    subst hs
    simp only [markElems]
    rw [ih (fun e he => h e (List.mem_cons_of_mem _ he)), markElem_single]
    split
    · simp; omega
    · split
      · simp; omega
      · simp

theorem markElems_marks (es : List (Elem K)) (count : ℕ) (i : ℕ) (hi : i < es.length) :
    (markElems es count).1[i]? = some (markElem es[i] 0).1 := by
  have hfst : ∀ (l : List (List K)) (lev : ℕ) (a b : Int × ℕ), a.1 = b.1 →
      (l.foldl (markPhase lev) a).1 = (l.foldl (markPhase lev) b).1 := by
    intro l lev
    induction l with
    | nil => intro a b h; exact h
    | cons s l ih =>
      intro a b h
      rw [List.foldl_cons, List.foldl_cons]
      apply ih
      unfold markPhase
      split
      · rfl
      · split <;> rfl
  induction es generalizing count i with
  | nil => simp at hi
  | cons e es ih =>
    simp only [markElems]
    cases i with
    | zero =>
      simp only [List.getElem?_cons_zero, List.getElem_cons_zero]
      unfold markElem
      rw [hfst e.sats e.level (0, count) (0, 0) rfl]
    | succ i =>
      simp only [List.getElem?_cons_succ, List.getElem_cons_succ]
      exact ih _ i (by simpa using hi)

/-- With a single phase the number returned is the number of elements which are marked, on all processes. -/
theorem C101_number_partial (procs : List (List (Elem K))) (h : ∀ es ∈ procs, ∀ e ∈ es, e.sats.length = 1) :
    (markForGridAdaptation procs).2 = numMarked (markForGridAdaptation procs).1 := by
  unfold markForGridAdaptation numMarked
  simp only [List.map_map]
  congr 1
  refine List.map_congr_left fun es hes => ?_
  simp only [Function.comp]
  rw [markElems_single es (h es hes) 0, zero_add]

/-- With any number of phases an element is marked according to its last phase: for refinement if the saturation of
that phase varies strongly and the element has been refined less than twice, for coarsening if it hardly varies. -/
theorem C101_last_phase_partial (es : List (Elem K)) (count i : ℕ) (hi : i < es.length) (first : List (List K))
    (last : List K) (hs : es[i].sats = first ++ [last]) :
    ((markElems es count).1[i]? = some 1 ↔ Strong last ∧ es[i].level < 2) ∧
    ((markElems es count).1[i]? = some (-1) ↔ ¬ (Strong last ∧ es[i].level < 2) ∧ Weak last) := by
  rw [markElems_marks es count i hi]
  unfold markElem Strong Weak
  rw [hs, List.foldl_append]
  simp only [List.foldl_cons, List.foldl_nil]
  generalize List.foldl (markPhase es[i].level) (0, 0) first = st
  unfold markPhase
  by_cases h1 : 1 / 5 < indicator last ∧ es[i].level < 2
  · rw [if_pos h1]
    exact ⟨⟨fun _ => h1, fun _ => rfl⟩, ⟨fun h => absurd (Option.some.inj h) (by simp), fun h => absurd h1 h.1⟩⟩
  · rw [if_neg h1]
    by_cases h2 : indicator last < 1 / 40
    · rw [if_pos h2]
      exact ⟨⟨fun h => absurd (Option.some.inj h) (by simp), fun h => absurd h h1⟩, ⟨fun _ => ⟨h1, h2⟩, fun _ => rfl⟩⟩
    · rw [if_neg h2]
      exact ⟨⟨fun h => absurd (Option.some.inj h) (by simp), fun h => absurd h h1⟩,
        ⟨fun h => absurd (Option.some.inj h) (by simp), fun h => absurd h.2 h2⟩⟩

/-- With two phases the number returned can be twice that of the marked elements: here one element is marked, and two
are reported. -/
theorem C101_number_violated : ∃ (procs : List (List (Elem ℚ))),
    numMarked (markForGridAdaptation procs).1 = 1 ∧ (markForGridAdaptation procs).2 = 2 :=
  ⟨[[⟨0, [[1 / 4, 3 / 4], [3 / 4, 1 / 4]]⟩]], by decide +kernel, by decide +kernel⟩

/-- An element in which the saturation of one phase varies strongly is not refined if the other phase hides it: the
element contains the front of a phase (saturations 0 and 0.1), but the mark for its refinement is overwritten. -/
theorem C101_front_not_refined_violated : ∃ (e : Elem ℚ), e.level = 0 ∧
    (∃ sats ∈ e.sats, Strong sats) ∧ (markElems [e] 0).1 = [0] ∧ (markForGridAdaptation [[e]]).2 = 1 := by
  refine ⟨⟨0, [[0, 1 / 10], [1, 9 / 10]]⟩, rfl, ⟨_, List.mem_cons_self .., ?_⟩, by decide +kernel, by decide +kernel⟩
  unfold Strong
  decide +kernel

/-- If only one process marks elements, all processes return the same positive number. -/
example : (markForGridAdaptation [[⟨0, [[(1 / 4 : ℚ), 3 / 4]]⟩], []]) = ([[1], []], 1) := by decide +kernel

end Verif.Adapt
