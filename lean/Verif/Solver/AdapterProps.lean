import Verif.Solver.Adapter
import Mathlib.Data.Matrix.Basic
import Mathlib.Algebra.BigOperators.Group.List.Basic
import Mathlib.Tactic.Common

/-
The sparse matrix adapter is a matrix.
-/

set_option autoImplicit false

namespace Verif.Solver

variable {n : ℕ} {K : Type}

/-- The matrix has the pattern. -/
def HasPattern (a : Adapter n K) (pattern : List (List ℕ)) : Prop := ∃ m, a.istl = some m ∧ m.pattern = pattern

/-- A position of the pattern -/
def Inside (pattern : List (List ℕ)) (r c : ℕ) : Prop := ∃ l, pattern[r]? = some l ∧ c ∈ l

theorem has_iff {m : Istl n K} {r c : ℕ} : m.Has r c ↔ Inside m.pattern r c := by
  unfold Istl.Has Inside
  rw [List.getD_eq_getElem?_getD]
  cases m.pattern[r]? <;> simp

/-- What is added to a matrix: positions and blocks -/
abbrev Entry (n : ℕ) (K : Type) := ℕ × ℕ × Block n K

def addAll [Add K] (a : Adapter n K) (l : List (Entry n K)) : Option (Adapter n K) :=
  l.foldlM (fun a e => a.addToBlock e.1 e.2.1 e.2.2) a

theorem block_eq {a : Adapter n K} {m : Istl n K} (h : a.istl = some m) (r c : ℕ) :
    a.block r c = if m.Has r c then m.value r c else none := by
  simp [Adapter.block, h]

/-- **C144.** A block which has been set reads as it was set; other blocks stay.  Setting works exactly for the positions of the pattern. -/
theorem C144_setBlock (a : Adapter n K) (pattern : List (List ℕ)) (h : HasPattern a pattern) (r c : ℕ) (v : Block n K) :
    (Inside pattern r c → ∃ a', a.setBlock r c v = some a' ∧ HasPattern a' pattern ∧ a'.block r c = some v ∧
      ∀ r' c', (r', c') ≠ (r, c) → a'.block r' c' = a.block r' c') ∧
    (¬Inside pattern r c → a.setBlock r c v = none) := by
  obtain ⟨m, hm, rfl⟩ := h
  simp only [Adapter.setBlock, hm, Option.bind_some]
  rw [← has_iff]
  constructor
  · intro hh
    refine ⟨_, if_pos hh, ⟨_, rfl, rfl⟩, ?_, ?_⟩
    · rw [block_eq rfl]
      exact (if_pos hh).trans (if_pos ⟨rfl, rfl⟩)
    · intro r' c' hne
      rw [block_eq rfl, block_eq hm]
      have : ¬(r' = r ∧ c' = c) := fun e => hne (by rw [e.1, e.2])
      simp only [this, if_false]
      rfl
  · intro hh; exact if_neg hh

/-- **C144.** After the matrix has been cleared and blocks have been added, every block is the sum of those which were added there, so that
the order in which they are added does not matter.  Adding works exactly for positions of the pattern. -/
theorem C144_sum [AddCommMonoid K] (rows cols : ℕ) (pattern : List (List ℕ)) (hr : pattern.length = rows)
    (hc : ∀ l ∈ pattern, l.Nodup ∧ ∀ c ∈ l, c < cols) (l : List (Entry n K)) (hl : ∀ e ∈ l, Inside pattern e.1 e.2.1) :
    ∃ a, ((Adapter.make rows cols).reserve pattern >>= Adapter.clear >>= fun a => addAll a l) = some a ∧ a.rows = rows ∧ a.cols = cols ∧
      HasPattern a pattern ∧
      ∀ r c, a.block r c = (open Classical in if Inside pattern r c then
        some ((l.filter fun e => e.1 = r ∧ e.2.1 = c).map fun e => e.2.2).sum else none) := by
  classical
  have main : ∀ (l : List (Entry n K)), (∀ e ∈ l, Inside pattern e.1 e.2.1) → ∀ (a : Adapter n K) (f : ℕ → ℕ → Block n K), HasPattern a pattern →
      (∀ r c, a.block r c = if Inside pattern r c then some (f r c) else none) →
      ∃ a', addAll a l = some a' ∧ a'.rows = a.rows ∧ a'.cols = a.cols ∧ HasPattern a' pattern ∧ ∀ r c, a'.block r c = if Inside pattern r c then
        some (f r c + ((l.filter fun e => e.1 = r ∧ e.2.1 = c).map fun e => e.2.2).sum) else none := by
    intro l
    induction l with
    | nil => intro _ a f ha hf; exact ⟨a, rfl, rfl, rfl, ha, by simpa using hf⟩
    | cons e l ih =>
      intro hl a f ha hf
      have hin := hl e (by simp)
      obtain ⟨a', h1, h2, h3, h4⟩ := (C144_setBlock a pattern ha e.1 e.2.1 (f e.1 e.2.1 + e.2.2)).1 hin
      have hrc : a'.rows = a.rows ∧ a'.cols = a.cols := by
        obtain ⟨m, hm, rfl⟩ := ha
        simp only [Adapter.setBlock, hm, Option.bind_some] at h1
        split at h1
        · cases h1; exact ⟨rfl, rfl⟩
        · cases h1
      have hadd : a.addToBlock e.1 e.2.1 e.2.2 = some a' := by
        unfold Adapter.addToBlock
        rw [hf, if_pos hin, Option.bind_some, h1]
      obtain ⟨b, hb, hbr, hbc, hbp, hbv⟩ := ih (fun e he => hl e (by simp [he])) a'
        (fun r c => if (r, c) = (e.1, e.2.1) then f e.1 e.2.1 + e.2.2 else f r c) h2 (by
          intro r c
          by_cases hrc : (r, c) = (e.1, e.2.1)
          · obtain ⟨rfl, rfl⟩ := Prod.mk.inj hrc
            rw [h3, if_pos hin, if_pos rfl]
          · rw [h4 r c hrc, hf r c, if_neg hrc])
      refine ⟨b, ?_, hbr.trans hrc.1, hbc.trans hrc.2, hbp, ?_⟩
      · unfold addAll at hb ⊢
        rw [List.foldlM_cons, hadd]; exact hb
      · intro r c
        rw [hbv r c]
        congr 2
        by_cases hrc : (r, c) = (e.1, e.2.1)
        · obtain ⟨rfl, rfl⟩ := Prod.mk.inj hrc
          simp [add_assoc]
        · have : ¬(e.1 = r ∧ e.2.1 = c) := fun h => hrc (by rw [h.1, h.2])
          rw [if_neg hrc, List.filter_cons_of_neg (by simpa using this)]
  have hres : (Adapter.make rows cols : Adapter n K).reserve pattern = some ⟨rows, cols, some ⟨pattern, fun _ _ => none⟩⟩ := if_pos ⟨hr, hc⟩
  obtain ⟨a, h1, h2, h3, h4, h5⟩ := main l hl ⟨rows, cols, some ⟨pattern, fun r c => if (⟨pattern, fun _ _ => none⟩ : Istl n K).Has r c then some 0 else none⟩⟩
    (fun _ _ => 0) ⟨_, rfl, rfl⟩ (by
      intro r c
      rw [block_eq rfl]
      by_cases hh : Inside pattern r c
      · rw [if_pos hh, if_pos (has_iff.mpr hh)]
        exact if_pos (has_iff (m := ⟨pattern, fun _ _ => none⟩).mpr hh)
      · rw [if_neg hh, if_neg (fun h => hh (has_iff.mp h))])
  refine ⟨a, ?_, h2, h3, h4, ?_⟩
  · rw [hres]; exact h1
  · intro r c; rw [h5 r c]; simp

/-- **C144.** Clearing a row sets the block on the diagonal, if there is one, to the given multiple of the identity and the others of the row
to zero; other rows stay. -/
theorem C144_clearRow [Zero K] (a : Adapter n K) (pattern : List (List ℕ)) (h : HasPattern a pattern) (row : ℕ) (hrow : row < pattern.length)
    (diag : K) :
    ∃ a', a.clearRow row diag = some a' ∧ HasPattern a' pattern ∧
      (∀ c, Inside pattern row c → ∃ v, a'.block row c = some v ∧ ∀ i j, v i j = if c = row ∧ i = j then diag else 0) ∧
      ∀ r c, r ≠ row → a'.block r c = a.block r c := by
  obtain ⟨m, hm, rfl⟩ := h
  simp only [Adapter.clearRow, hm, Option.bind_some]
  refine ⟨_, if_pos hrow, ⟨_, rfl, rfl⟩, ?_, ?_⟩
  · intro c hc
    have hh : m.Has row c := has_iff.mpr hc
    refine ⟨if c = row then Matrix.diagonal fun _ => diag else 0, ?_, ?_⟩
    · rw [block_eq rfl]
      exact (if_pos hh).trans (if_pos ⟨rfl, hh⟩)
    · intro i j
      by_cases hcr : c = row
      · simp [hcr, Matrix.diagonal_apply]
      · simp [hcr]
  · intro r c hne
    rw [block_eq rfl, block_eq hm]
    simp only [hne, false_and, if_false]
    rfl

/-- **C144.** Nothing can be read or changed before the pattern is given, and a new pattern forgets the old matrix. -/
theorem C144_pattern [Zero K] [Add K] (rows cols : ℕ) (r c : ℕ) (v : Block n K) :
    ((Adapter.make rows cols : Adapter n K).block r c = none ∧ (Adapter.make rows cols : Adapter n K).clear = none ∧
      (Adapter.make rows cols : Adapter n K).setBlock r c v = none ∧ (Adapter.make rows cols : Adapter n K).addToBlock r c v = none) ∧
    ∀ (a a' : Adapter n K) (pattern : List (List ℕ)), a.reserve pattern = some a' → HasPattern a' pattern ∧ pattern.length = a.rows ∧
      (∀ r c, Inside pattern r c → r < a.rows ∧ c < a.cols) ∧ a'.rows = a.rows ∧ a'.cols = a.cols := by
  refine ⟨⟨rfl, rfl, rfl, rfl⟩, ?_⟩
  intro a a' pattern h
  unfold Adapter.reserve at h
  split at h
  · rename_i hc
    cases h
    refine ⟨⟨_, rfl, rfl⟩, hc.1, ?_, rfl, rfl⟩
    rintro r c ⟨l, hl, hcl⟩
    exact ⟨hc.1 ▸ (List.getElem?_eq_some_iff.mp hl).1, (hc.2 l (List.mem_of_getElem? hl)).2 c hcl⟩
  · cases h

/-- A pattern with three blocks, to one of which two blocks are added -/
example : ∃ a : Adapter 1 ℤ, ((Adapter.make 2 2).reserve [[0, 1], [1]] >>= Adapter.clear >>=
    fun a => addAll a [(0, 1, fun _ _ => 2), (1, 1, fun _ _ => 5), (0, 1, fun _ _ => 3)]) = some a ∧
    (a.block 0 1 = some fun _ _ => 5) ∧ a.block 1 0 = none := by
  classical
  obtain ⟨a, h, _, _, _, hb⟩ := C144_sum (n := 1) (K := ℤ) 2 2 [[0, 1], [1]] rfl (by simp)
    [(0, 1, fun _ _ => 2), (1, 1, fun _ _ => 5), (0, 1, fun _ _ => 3)] (by simp [Inside])
  refine ⟨a, h, ?_, ?_⟩
  · rw [hb, if_pos (by simp [Inside])]
    congr 1
  · rw [hb, if_neg (by simp [Inside])]

end Verif.Solver
