import Mathlib.Tactic.Linarith
import Mathlib.Algebra.Ring.Parity
import Mathlib.Algebra.Order.Ring.Nat
import Verif.Aligned.Model
set_option autoImplicit false
/-!
# C112: aligned memory
-/
namespace Aligned

/-- A power of two. -/
def PowerOfTwo (v : ℕ) : Prop := ∃ k, v = 2 ^ k

/-- What POSIX promises: `posix_memalign` with a power of two of at least the size of a
pointer returns, if anything, a block of the requested size whose address is a multiple
of the alignment. -/
def Posix (os : MemAlign) : Prop :=
  ∀ a n b, PowerOfTwo a → 8 ≤ a → os a n = some b → b.bytes = n ∧ a ∣ b.address

theorem and_pred_eq_zero (v : ℕ) : v > 0 → (v &&& (v - 1)) = 0 → PowerOfTwo v := by
  induction v using Nat.strongRecOn with
  | _ v ih =>
    intro h0 h
    rcases Nat.even_or_odd' v with ⟨w, rfl | rfl⟩
    · have hw : w > 0 := by omega
      have : (w &&& (w - 1)) = 0 := by
        have hd : (2 * w &&& (2 * w - 1)) / 2 = (w &&& (w - 1)) := by
          rw [Nat.and_div_two]
          congr 1 <;> omega
        rw [← hd, h]
      obtain ⟨k, hk⟩ := ih w (by omega) hw this
      exact ⟨k + 1, by rw [hk, Nat.pow_succ]; omega⟩
    · have hd : (2 * w + 1 &&& (2 * w + 1 - 1)) / 2 = w := by
        rw [Nat.and_div_two]
        have h1 : (2 * w + 1) / 2 = w := by omega
        have h2 : (2 * w + 1 - 1) / 2 = w := by omega
        rw [h1, h2, Nat.and_self]
      rw [h] at hd
      have : w = 0 := by omega
      subst this
      exact ⟨0, rfl⟩

theorem power_and_pred (k : ℕ) : (2 ^ k &&& (2 ^ k - 1)) = 0 := by
  induction k with
  | zero => rfl
  | succ k ih =>
    have hpos : 0 < 2 ^ k := Nat.pow_pos (by omega)
    have hd : (2 ^ (k + 1) &&& (2 ^ (k + 1) - 1)) / 2 = 0 := by
      rw [Nat.and_div_two]
      have h1 : 2 ^ (k + 1) / 2 = 2 ^ k := by rw [Nat.pow_succ]; omega
      have h2 : (2 ^ (k + 1) - 1) / 2 = 2 ^ k - 1 := by rw [Nat.pow_succ]; omega
      rw [h1, h2, ih]
    have hm : (2 ^ (k + 1) &&& (2 ^ (k + 1) - 1)) % 2 = 0 := by
      rw [Nat.and_mod_two_pow (n := 1)]
      have : 2 ^ (k + 1) % 2 ^ 1 = 0 := by rw [Nat.pow_succ]; omega
      rw [this]; simp
    omega

/-- The test for admissible alignments accepts exactly the powers of two. -/
theorem C112_powers (v : ℕ) : isAlignment v = true ↔ PowerOfTwo v := by
  unfold isAlignment
  simp only [Bool.and_eq_true, decide_eq_true_eq, beq_iff_eq]
  constructor
  · exact fun h => and_pred_eq_zero v h.1 h.2
  · rintro ⟨k, rfl⟩
    exact ⟨Nat.pow_pos (by omega), power_and_pred k⟩

/-- The alignment computed for a type is its real alignment: the structure consists of a
character, padding up to the alignment, and the object. -/
theorem C112_natural (sizeT alignT : ℕ) (ha : 0 < alignT) (hs : 0 < sizeT) (hd : alignT ∣ sizeT) :
    alignmentOf sizeT (alignT + sizeT) = alignT := by
  unfold alignmentOf
  have := Nat.le_of_dvd hs hd
  split <;> omega

theorem dvd_max_left {a b : ℕ} (ha : PowerOfTwo a) (hb : PowerOfTwo b) : a ∣ maxAlign a b := by
  obtain ⟨i, rfl⟩ := ha
  obtain ⟨j, rfl⟩ := hb
  unfold maxAlign
  split
  · exact Nat.dvd_refl _
  · rename_i h
    exact Nat.pow_dvd_pow 2 ((Nat.pow_le_pow_iff_right (a := 2) (by omega)).1 (by omega))

theorem dvd_max_right {a b : ℕ} (ha : PowerOfTwo a) (hb : PowerOfTwo b) : b ∣ maxAlign a b := by
  obtain ⟨i, rfl⟩ := ha
  obtain ⟨j, rfl⟩ := hb
  unfold maxAlign
  split
  · rename_i h
    exact Nat.pow_dvd_pow 2 ((Nat.pow_le_pow_iff_right (a := 2) (by omega)).1 (by omega))
  · exact Nat.dvd_refl _

theorem power_max {a b : ℕ} (ha : PowerOfTwo a) (hb : PowerOfTwo b) : PowerOfTwo (maxAlign a b) := by
  unfold maxAlign
  split
  · exact ha
  · exact hb

theorem power_eight {a : ℕ} (ha : PowerOfTwo a) :
    PowerOfTwo (if a < 8 then 8 else a) ∧ a ∣ (if a < 8 then 8 else a) := by
  obtain ⟨i, rfl⟩ := ha
  by_cases h : 2 ^ i < 8
  · rw [if_pos h]
    refine ⟨⟨3, rfl⟩, ?_⟩
    have h8 : (8 : ℕ) = 2 ^ 3 := rfl
    rw [h8] at h ⊢
    exact Nat.pow_dvd_pow 2 (Nat.le_of_lt ((Nat.pow_lt_pow_iff_right (by omega)).1 h))
  · rw [if_neg h]
    exact ⟨⟨i, rfl⟩, Nat.dvd_refl _⟩

/-- Proved part: for at most `max_size` objects, `allocate` returns a block that holds them
and is aligned as requested and as the type needs, or reports that there is no memory, or
returns null, which only happens for zero objects. -/
theorem C112_allocate_partial (os : MemAlign) (hos : Posix os) (sizeT alignT alignment n : ℕ)
    (hs : 0 < sizeT) (ha : PowerOfTwo alignment) (hT : PowerOfTwo alignT)
    (hn : n ≤ maxSize sizeT) :
    match allocate os sizeT alignT alignment n with
    | .block b => n * sizeT ≤ b.bytes ∧ alignment ∣ b.address ∧ alignT ∣ b.address
    | .null => n = 0
    | .badAlloc => True
    | .assertion => False := by
  have hp := power_max ha hT
  have hmod : sizeT * n % sizeRange = n * sizeT := by
    rw [Nat.mul_comm, Nat.mod_eq_of_lt]
    unfold maxSize at hn
    have := (Nat.le_div_iff_mul_le hs).1 hn
    unfold sizeRange at *
    omega
  unfold allocate
  dsimp only
  rw [(C112_powers _).2 hp]
  simp only [Bool.not_true, Bool.false_eq_true, if_false, hmod]
  have h8 := power_eight hp
  cases hb : alignedAlloc os (maxAlign alignment alignT) (n * sizeT) with
  | some b =>
    unfold alignedAlloc at hb
    have := hos _ _ b h8.1 (by split <;> omega) hb
    refine ⟨by rw [this.1], ?_, ?_⟩
    · exact Nat.dvd_trans (dvd_max_left ha hT) (Nat.dvd_trans h8.2 this.2)
    · exact Nat.dvd_trans (dvd_max_right ha hT) (Nat.dvd_trans h8.2 this.2)
  | none =>
    by_cases h0 : n > 0
    · simp [h0]
    · simp only [h0, if_false]; omega

/-- An operating system that always has memory, at address zero. -/
def plenty : MemAlign := fun _ n => some ⟨0, n⟩

/-- The full property has no restriction on the number of objects.  It is false: the size
in bytes is computed without a check for overflow, so for too many objects a block of a
few bytes is returned as if it could hold them. -/
theorem C112_allocate_violated :
    Posix plenty ∧ allocate plenty 16 8 8 (2 ^ 60) = .block ⟨0, 0⟩ := by
  refine ⟨?_, by decide⟩
  intro a n b _ _ h
  simp only [plenty, Option.some.injEq] at h
  subst h
  exact ⟨rfl, Nat.dvd_zero a⟩

/-- Non-vacuity: ten objects of 24 bytes, aligned to 16 bytes. -/
example : Posix plenty ∧ PowerOfTwo 16 ∧ PowerOfTwo 8 ∧ 10 ≤ maxSize 24 ∧
    allocate plenty 24 8 16 10 = .block ⟨0, 240⟩ :=
  ⟨C112_allocate_violated.1, ⟨4, rfl⟩, ⟨3, rfl⟩, by decide, by decide⟩

end Aligned
