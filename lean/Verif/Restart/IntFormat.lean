import Verif.Restart.Model
import Mathlib.Algebra.Order.Ring.Int
import Mathlib.Tactic.Ring
import Mathlib.Tactic.IntervalCases
/-
A concrete text format: integers in decimal notation, as `operator<<` writes them.  It shows that the laws required of
formats can be met.
-/

set_option autoImplicit false

namespace Verif.Restart

open ForcedSteps

/-- The character of a digit. -/
def digit (d : ℕ) : Char := Char.ofNat (48 + d)

/-- Decimal digits of `n` (`fuel` bounds the number of digits). -/
def dec : ℕ → ℕ → List Char
  | 0, n => [digit (n % 10)]
  | fuel + 1, n => if n < 10 then [digit n] else dec fuel (n / 10) ++ [digit (n % 10)]

/-- Value of a list of digits. -/
def decVal (cs : List Char) : ℕ := cs.foldl (fun n c => 10 * n + (c.toNat - 48)) 0

/-- Decimal notation of integers. -/
def intFormat : Format ℤ where
  fmt z := if z < 0 then '-' :: dec z.natAbs z.natAbs else dec z.natAbs z.natAbs
  numChar c := c.isDigit || c == '-'
  conv cs := match cs with
    | '-' :: ds => if ds.isEmpty || !ds.all Char.isDigit then none else some (-(decVal ds))
    | ds => if ds.isEmpty || !ds.all Char.isDigit then none else some (decVal ds)
  zero := 0

theorem digit_ok (d : ℕ) (h : d < 10) :
    (digit d).isDigit = true ∧ (digit d).toNat - 48 = d ∧ blank (digit d) = false ∧ digit d ≠ '-' := by
  interval_cases d <;> decide

theorem dec_ok (fuel n : ℕ) (h : n ≤ fuel) :
    dec fuel n ≠ [] ∧ (∀ c ∈ dec fuel n, c.isDigit = true ∧ blank c = false ∧ c ≠ '-') ∧ decVal (dec fuel n) = n := by
  induction fuel generalizing n with
  | zero =>
    obtain rfl : n = 0 := by omega
    obtain ⟨h1, h2, h3, h4⟩ := digit_ok 0 (by decide)
    exact ⟨by simp [dec], by simpa [dec] using ⟨h1, h3, h4⟩, rfl⟩
  | succ fuel ih =>
    rw [dec]
    split
    · rename_i hn
      obtain ⟨h1, h2, h3, h4⟩ := digit_ok n hn
      exact ⟨by simp, by simpa using ⟨h1, h3, h4⟩, by simpa [decVal] using h2⟩
    · obtain ⟨h1, h2, h3⟩ := ih (n / 10) (by omega)
      obtain ⟨g1, g2, g3, g4⟩ := digit_ok (n % 10) (by omega)
      refine ⟨by simp, ?_, ?_⟩
      · intro c hc
        simp only [List.mem_append, List.mem_singleton] at hc
        rcases hc with hc | rfl
        · exact h2 c hc
        · exact ⟨g1, g3, g4⟩
      · simp only [decVal, List.foldl_append, List.foldl_cons, List.foldl_nil] at h3 ⊢
        rw [h3, g2]
        omega

theorem intFormat_lawful : intFormat.Lawful where
  nonempty z := by
    obtain ⟨h1, _, _⟩ := dec_ok z.natAbs z.natAbs le_rfl
    simp only [intFormat]; split <;> simp [h1]
  chars z := by
    obtain ⟨_, h2, _⟩ := dec_ok z.natAbs z.natAbs le_rfl
    intro c hc
    simp only [intFormat] at hc ⊢
    split at hc
    · simp only [List.mem_cons] at hc
      rcases hc with rfl | hc
      · exact ⟨rfl, rfl⟩
      · simp [h2 c hc]
    · simp [h2 c hc]
  blankSep c hc := by
    simp [blank] at hc
    rcases hc with ((((h | h) | h) | h) | h) | h <;> subst h <;> rfl
  roundTrip z := by
    obtain ⟨h1, h2, h3⟩ := dec_ok z.natAbs z.natAbs le_rfl
    have hall : (dec z.natAbs z.natAbs).all Char.isDigit = true := List.all_eq_true.2 fun c hc => (h2 c hc).1
    have hemp : (dec z.natAbs z.natAbs).isEmpty = false := by simpa using h1
    by_cases hz : z < 0
    · have e : intFormat.fmt z = '-' :: dec z.natAbs z.natAbs := by simp [intFormat, hz]
      have : intFormat.conv ('-' :: dec z.natAbs z.natAbs) = some (-((decVal (dec z.natAbs z.natAbs) : ℕ) : ℤ)) := by
        simp only [intFormat, hall, hemp]
        rfl
      rw [e, this, h3]
      congr 1
      omega
    · have e : intFormat.fmt z = dec z.natAbs z.natAbs := by simp [intFormat, hz]
      have hneg : ∀ ds', dec z.natAbs z.natAbs ≠ '-' :: ds' := by
        intro ds' hd
        exact absurd rfl (h2 '-' (by rw [hd]; simp)).2.2
      have : intFormat.conv (dec z.natAbs z.natAbs) = some ((decVal (dec z.natAbs z.natAbs) : ℕ) : ℤ) := by
        simp only [intFormat, hall, hemp, Bool.not_true, Bool.or_self, Bool.false_eq_true, if_false]
      rw [e, this, h3]
      congr 1
      omega

end Verif.Restart
