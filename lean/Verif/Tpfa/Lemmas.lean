import Verif.Tpfa.Model
import Mathlib.Algebra.BigOperators.Group.List.Basic
import Mathlib.Algebra.BigOperators.Group.Finset.Basic
import Mathlib.Tactic.Abel
import Mathlib.Tactic.Module
/-
What `linearize_` adds to each block.
-/

set_option autoImplicit false
set_option linter.unusedSectionVars false

namespace Verif.Tpfa

variable {K V M C : Type} [Field K] [AddCommGroup V] [AddCommGroup M] [Module K V] [Module K M]

def resVal (i : ℕ) : Upd V M → V
  | .res k v => if i = k then v else 0
  | .mat _ _ _ => 0

def matVal (i j : ℕ) : Upd V M → M
  | .res _ _ => 0
  | .mat k l m => if i = k ∧ j = l then m else 0

theorem applyAll_res (us : List (Upd V M)) : ∀ (s : System V M) i,
    (applyAll s us).res i = s.res i + (us.map (resVal i)).sum := by
  induction us with
  | nil => intro s i; simp [applyAll]
  | cons u us ih =>
    intro s i
    have := ih (Upd.apply s u) i
    simp only [applyAll, List.foldl_cons] at this ⊢
    rw [this, List.map_cons, List.sum_cons, ← add_assoc]
    congr 1
    cases u with
    | res k v => simp only [Upd.apply, resVal]; split <;> simp
    | mat k l m => simp [Upd.apply, resVal]

theorem applyAll_mat (us : List (Upd V M)) : ∀ (s : System V M) i j,
    (applyAll s us).mat i j = s.mat i j + (us.map (matVal i j)).sum := by
  induction us with
  | nil => intro s i j; simp [applyAll]
  | cons u us ih =>
    intro s i j
    have := ih (Upd.apply s u) i j
    simp only [applyAll, List.foldl_cons] at this ⊢
    rw [this, List.map_cons, List.sum_cons, ← add_assoc]
    congr 1
    cases u with
    | mat k l m => simp only [Upd.apply, matVal]; split <;> simp
    | res k v => simp [Upd.apply, matVal]

theorem sum_flatMap {A B X : Type} [AddCommMonoid X] (l : List A) (f : A → List B) (g : B → X) :
    ((l.flatMap f).map g).sum = (l.map fun a => ((f a).map g).sum).sum := by
  induction l with
  | nil => simp
  | cons a l ih => simp [List.flatMap_cons, ih]

theorem sum_ite_mem {X : Type} [AddCommMonoid X] (l : List ℕ) (hn : l.Nodup) (i : ℕ) (f : ℕ → X) :
    (l.map fun k => if i = k then f k else 0).sum = if i ∈ l then f i else 0 := by
  induction l with
  | nil => simp
  | cons a l ih =>
    rw [List.nodup_cons] at hn
    rw [List.map_cons, List.sum_cons, ih hn.2]
    by_cases h : i = a
    · subst h; simp [hn.1]
    · simp [h]

/-- The residual of a cell without its boundary faces. -/
def cellRes (p : Net K V M C) (i : ℕ) : V :=
  ((p.nb i).map fun e => p.area e.2 • (p.flux i e.1 e.2).1).sum +
    (p.volume i / p.dt) • ((p.storage i).1 - p.oldStorage i) - p.volume i • (p.source i).1

/-- The outflow of a cell through its boundary faces. -/
def boundaryRes (p : Net K V M C) (i : ℕ) : V :=
  (p.boundary.map fun b => if i = b.cell ∧ b.none = false then b.area • b.flux.1 else 0).sum

/-- The diagonal block of a cell without its boundary faces. -/
def cellDiag (p : Net K V M C) (i : ℕ) : M :=
  ((p.nb i).map fun e => p.area e.2 • (p.flux i e.1 e.2).2).sum + (p.volume i / p.dt) • (p.storage i).2 -
    p.volume i • (p.source i).2

def boundaryDiag (p : Net K V M C) (i : ℕ) : M :=
  (p.boundary.map fun b => if i = b.cell ∧ b.none = false then b.area • b.flux.2 else 0).sum

/-- What the fluxes out of cell `j` add to the row of cell `i`. -/
def offDiag (p : Net K V M C) (i j : ℕ) : M :=
  ((p.nb j).map fun e => if i = e.1 then - (p.area e.2 • (p.flux j e.1 e.2).2) else 0).sum

theorem cellUpdates_res (p : Net K V M C) (i k : ℕ) :
    ((cellUpdates p k).map (resVal i)).sum = if i = k then cellRes p k else 0 := by
  simp only [cellUpdates, fluxUpdates, storageUpdates, sourceUpdates, List.map_append, List.sum_append, sum_flatMap,
    List.map_cons, List.map_nil, List.sum_cons, List.sum_nil, resVal, Prod.smul_fst, cellRes]
  by_cases h : i = k
  · subst h
    simp only [if_true, add_zero, neg_smul]
    abel
  · simp [h]

theorem cellUpdates_mat (p : Net K V M C) (i j k : ℕ) :
    ((cellUpdates p k).map (matVal i j)).sum =
      if j = k then (if i = k then cellDiag p k else 0) + offDiag p i k else 0 := by
  simp only [cellUpdates, fluxUpdates, storageUpdates, sourceUpdates, List.map_append, List.sum_append, sum_flatMap,
    List.map_cons, List.map_nil, List.sum_cons, List.sum_nil, matVal, Prod.smul_snd, cellDiag, offDiag]
  by_cases h : j = k
  · subst h
    simp only [and_true, if_true, add_zero, zero_add, neg_smul, one_smul]
    by_cases hi : i = j
    · subst hi
      simp only [if_true]
      have : ((p.nb i).map fun a => p.area a.2 • (p.flux i a.1 a.2).2 + if i = a.1 then -(p.area a.2 • (p.flux i a.1 a.2).2) else 0).sum
          = ((p.nb i).map fun e => p.area e.2 • (p.flux i e.1 e.2).2).sum +
            ((p.nb i).map fun e => if i = e.1 then -(p.area e.2 • (p.flux i e.1 e.2).2) else 0).sum := by
        rw [← List.sum_map_add]
      rw [this]
      abel
    · simp [hi]
  · simp [h]

theorem boundaryUpdates_res (p : Net K V M C) (i : ℕ) :
    ((boundaryUpdates p).map (resVal i)).sum = boundaryRes p i := by
  simp only [boundaryUpdates, sum_flatMap, boundaryRes]
  congr 1
  apply List.map_congr_left
  intro b _
  cases hb : b.none <;> simp [resVal]

theorem boundaryUpdates_mat (p : Net K V M C) (i j : ℕ) :
    ((boundaryUpdates p).map (matVal i j)).sum = if i = j then boundaryDiag p i else 0 := by
  simp only [boundaryUpdates, sum_flatMap, boundaryDiag]
  by_cases h : i = j
  · subst h
    rw [if_pos rfl]
    congr 1
    apply List.map_congr_left
    intro b _
    cases hb : b.none <;> simp [matVal]
  · rw [if_neg h]
    apply List.sum_eq_zero
    intro x hx
    simp only [List.mem_map] at hx
    obtain ⟨b, _, rfl⟩ := hx
    cases hb : b.none
    · have : ¬ (i = b.cell ∧ j = b.cell) := by rintro ⟨h1, h2⟩; exact h (h1.trans h2.symm)
      simp [matVal, this]
    · simp

theorem linearizeCells_res (p : Net K V M C) (cells : List ℕ) (hn : cells.Nodup) (s : System V M) (i : ℕ) :
    (linearizeCells p cells s).res i = s.res i + ((if i ∈ cells then cellRes p i else 0) + boundaryRes p i) := by
  rw [linearizeCells, applyAll_res, List.map_append, List.sum_append, sum_flatMap, boundaryUpdates_res]
  simp only [cellUpdates_res]
  rw [sum_ite_mem cells hn i (cellRes p)]

theorem linearizeCells_mat (p : Net K V M C) (cells : List ℕ) (hn : cells.Nodup) (s : System V M) (i j : ℕ) :
    (linearizeCells p cells s).mat i j = s.mat i j +
      ((if j ∈ cells then (if i = j then cellDiag p j else 0) + offDiag p i j else 0) +
        if i = j then boundaryDiag p i else 0) := by
  rw [linearizeCells, applyAll_mat, List.map_append, List.sum_append, sum_flatMap, boundaryUpdates_mat]
  simp only [cellUpdates_mat]
  rw [sum_ite_mem cells hn j (fun k => (if i = k then cellDiag p k else 0) + offDiag p i k)]

theorem linearizeFull_res (p : Net K V M C) (s : System V M) (i : ℕ) (hi : i < p.numCells) :
    (linearizeFull p s).res i = cellRes p i + boundaryRes p i := by
  rw [linearizeFull, linearizeDomain, if_pos (by simp), linearizeCells_res _ _ List.nodup_range]
  simp [resetAll, hi]

theorem linearizeFull_mat (p : Net K V M C) (s : System V M) (i j : ℕ) (hj : j < p.numCells) :
    (linearizeFull p s).mat i j = (if i = j then cellDiag p j + boundaryDiag p j else 0) + offDiag p i j := by
  rw [linearizeFull, linearizeDomain, if_pos (by simp), linearizeCells_mat _ _ List.nodup_range]
  simp only [resetAll, List.mem_range, hj, if_true, zero_add]
  by_cases h : i = j
  · subst h; simp; abel
  · simp [h]

end Verif.Tpfa
