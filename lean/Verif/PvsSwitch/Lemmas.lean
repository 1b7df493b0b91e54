import Mathlib.Data.Finset.Card
import Mathlib.Data.Finset.Union
import Mathlib.Algebra.BigOperators.Group.Finset.Basic
import Mathlib.Algebra.Order.BigOperators.Group.Finset
import Verif.PvsSwitch.Model

set_option autoImplicit false

namespace Verif.PvsSwitch

open Verif.Pvs

variable {K : Type} [Field K] [LinearOrder K]
variable {fluid : ℕ → PriVars K → Option (FluidState K)} {N M : ℕ}

theorem switchLocal_eq (elements : List (List ℕ)) (sol : ℕ → PriVars K) :
    switchLocal fluid N M elements sol = elements.flatten.foldl (visit fluid N M) ⟨sol, fun _ => false, 0, true⟩ := by
  unfold switchLocal
  rw [List.foldl_flatten]

/-- what the degree of freedom `i` becomes -/
def Becomes (fluid : ℕ → PriVars K → Option (FluidState K)) (N M i : ℕ) (v v' : PriVars K) : Prop :=
  ∃ fs, fluid i v = some fs ∧ assignNaive N M fs v = some v'

/-- what holds after the degrees of freedom `l` have been visited -/
structure Inv (fluid : ℕ → PriVars K → Option (FluidState K)) (N M : ℕ) (sol : ℕ → PriVars K) (l : List ℕ) (w : Work K) : Prop where
  visited : ∀ i, w.visited i = true ↔ i ∈ l
  done : ∀ i ∈ l, Becomes fluid N M i (sol i) (w.sol i)
  rest : ∀ i, i ∉ l → w.sol i = sol i
  count : w.numSwitched = (l.toFinset.filter fun i => (sol i).presence ≠ (w.sol i).presence).card

theorem visit_failed {w : Work K} (h : w.ok = false) (i : ℕ) : visit fluid N M w i = w := by
  simp [visit, h]

theorem foldl_failed {w : Work K} (h : w.ok = false) (l : List ℕ) : l.foldl (visit fluid N M) w = w := by
  induction l with
  | nil => rfl
  | cons i l ih => rw [List.foldl_cons, visit_failed h, ih]

theorem visit_inv {sol : ℕ → PriVars K} {l : List ℕ} {w : Work K} (hw : w.ok = true) (h : Inv fluid N M sol l w) (i : ℕ) :
    ((visit fluid N M w i).ok = true ∧ Inv fluid N M sol (l ++ [i]) (visit fluid N M w i)) ∨
      ((visit fluid N M w i).ok = false ∧ ∀ v', ¬Becomes fluid N M i (sol i) v') := by
  unfold visit
  rw [if_neg (by simp [hw])]
  by_cases hv : w.visited i = true
  · left
    rw [if_pos hv]
    have hi := (h.visited i).1 hv
    refine ⟨hw, ⟨?_, ?_, ?_, ?_⟩⟩
    · intro j
      rw [h.visited, List.mem_append, List.mem_singleton]
      exact ⟨Or.inl, fun h => h.elim id (fun e => e ▸ hi)⟩
    · intro j hj
      rw [List.mem_append, List.mem_singleton] at hj
      exact h.done j (hj.elim id (fun e => e ▸ hi))
    · intro j hj
      exact h.rest j (fun h => hj (List.mem_append_left _ h))
    · rw [h.count]
      congr 1
      ext j
      simp only [Finset.mem_filter, List.mem_toFinset, List.mem_append, List.mem_singleton]
      constructor
      · rintro ⟨a, b⟩; exact ⟨Or.inl a, b⟩
      · rintro ⟨a, b⟩; exact ⟨a.elim id (fun e => e ▸ hi), b⟩
  · rw [if_neg hv]
    have hi : i ∉ l := fun hh => hv ((h.visited i).2 hh)
    have hs : w.sol i = sol i := h.rest i hi
    dsimp only
    rw [hs]
    cases hf : fluid i (sol i) with
    | none =>
      right
      refine ⟨rfl, ?_⟩
      rintro v' ⟨fs, h1, _⟩
      rw [hf] at h1; exact absurd h1 (by simp)
    | some fs =>
      dsimp only
      cases ha : assignNaive N M fs (sol i) with
      | none =>
        right
        refine ⟨rfl, ?_⟩
        rintro v' ⟨fs', h1, h2⟩
        rw [hf] at h1
        obtain rfl := Option.some.inj h1
        rw [ha] at h2; exact absurd h2 (by simp)
      | some v =>
        left
        dsimp only
        refine ⟨hw, ⟨?_, ?_, ?_, ?_⟩⟩
        · intro j
          dsimp only
          rw [List.mem_append, List.mem_singleton]
          by_cases hji : j = i
          · subst hji; simp
          · rw [Function.update_of_ne hji, h.visited]; simp [hji]
        · intro j hj
          dsimp only
          rw [List.mem_append, List.mem_singleton] at hj
          by_cases hji : j = i
          · subst hji; rw [Function.update_self]; exact ⟨fs, hf, ha⟩
          · rw [Function.update_of_ne hji]; exact h.done j (hj.elim id (fun e => absurd e hji))
        · intro j hj
          dsimp only
          have hji : j ≠ i := by rintro rfl; exact hj (by simp)
          rw [Function.update_of_ne hji]
          exact h.rest j (fun hh => hj (List.mem_append_left _ hh))
        · dsimp only
          have hold : ∀ j ∈ l, Function.update w.sol i v j = w.sol j := fun j hj =>
            Function.update_of_ne (by rintro rfl; exact hi hj) _ _
          have hset : ((l ++ [i]).toFinset.filter fun j => (sol j).presence ≠ (Function.update w.sol i v j).presence) =
              (l.toFinset.filter fun j => (sol j).presence ≠ (w.sol j).presence) ∪
                (if (sol i).presence ≠ v.presence then {i} else ∅) := by
            ext j
            simp only [Finset.mem_filter, List.mem_toFinset, List.mem_append, List.mem_singleton, Finset.mem_union]
            by_cases hji : j = i
            · subst hji
              simp only [Function.update_self, hi, or_true, true_and, false_and, false_or]
              split <;> simp_all
            · rw [Function.update_of_ne hji]
              split <;> simp [hji]
          rw [hset, Finset.card_union_of_disjoint, h.count]
          · split <;> simp
          · rw [Finset.disjoint_left]
            intro j hj hj'
            simp only [Finset.mem_filter, List.mem_toFinset] at hj
            split at hj'
            · rw [Finset.mem_singleton] at hj'; exact hi (hj' ▸ hj.1)
            · simp at hj'

theorem fold_inv {sol : ℕ → PriVars K} (l' : List ℕ) {l : List ℕ} {w : Work K} (hw : w.ok = true) (h : Inv fluid N M sol l w) :
    ((l'.foldl (visit fluid N M) w).ok = true ∧ Inv fluid N M sol (l ++ l') (l'.foldl (visit fluid N M) w)) ∨
      ((l'.foldl (visit fluid N M) w).ok = false ∧ ∃ i ∈ l', ∀ v', ¬Becomes fluid N M i (sol i) v') := by
  induction l' generalizing l w with
  | nil => left; simpa using ⟨hw, h⟩
  | cons i l' ih =>
    rw [List.foldl_cons]
    rcases visit_inv hw h i with ⟨h1, h2⟩ | ⟨h1, h2⟩
    · rcases ih h1 h2 with ⟨h3, h4⟩ | ⟨h3, j, hj, h4⟩
      · left; refine ⟨h3, ?_⟩; simpa using h4
      · right; exact ⟨h3, j, List.mem_cons_of_mem _ hj, h4⟩
    · right
      rw [foldl_failed h1]
      exact ⟨h1, i, by simp, h2⟩

theorem switchLocal_spec (elements : List (List ℕ)) (sol : ℕ → PriVars K) :
    ((switchLocal fluid N M elements sol).ok = true ∧
        Inv fluid N M sol elements.flatten (switchLocal fluid N M elements sol)) ∨
      ((switchLocal fluid N M elements sol).ok = false ∧
        ∃ i ∈ elements.flatten, ∀ v', ¬Becomes fluid N M i (sol i) v') := by
  rw [switchLocal_eq]
  have h0 : Inv fluid N M sol [] ⟨sol, fun _ => false, 0, true⟩ := ⟨by simp, by simp, by simp, by simp⟩
  simpa using fold_inv (fluid := fluid) (N := N) (M := M) elements.flatten rfl h0

end Verif.PvsSwitch
