import Mathlib.Data.List.Basic
import Mathlib.Data.List.Nodup
import Mathlib.Algebra.Order.Ring.Nat
import Mathlib.Algebra.Order.BigOperators.Group.List
import Verif.Pff.Model
set_option autoImplicit false
set_option linter.unusedSimpArgs false
/-!
# C113: data stored per element and local degree of freedom
-/
namespace Pff
variable {Elem Data : Type}

/-- The indices of the elements are those of a Dune grid view: distinct numbers below the
number of elements. -/
structure Indexed (g : Grid Elem) : Prop where
  below : ∀ e ∈ g.elements, g.index e < g.numElements
  distinct : (g.elements.map g.index).Nodup

theorem foldl_add (g : Grid Elem) (es : List Elem) : ∀ a,
    es.foldl (fun r e => r + g.numDof e) a = a + (es.map g.numDof).sum := by
  induction es with
  | nil => intro a; simp
  | cons e es ih => intro a; rw [List.foldl_cons, ih, List.map_cons, List.sum_cons]; omega

theorem numLocalDofs_eq (g : Grid Elem) : numLocalDofs g = (g.elements.map g.numDof).sum := by
  unfold numLocalDofs; rw [foldl_add]; omega

/-- one entry is changed -/
def fillStep (dist : Data → Elem → ℕ → Data) (e : Elem) (ptr : ℕ) (d : Option (List Data)) (i : ℕ) :
    Option (List Data) :=
  d.bind fun d =>
    match d[ptr + i]? with
    | none => none
    | some x => some (d.set (ptr + i) (dist x e i))

theorem fill_eq (dist : Data → Elem → ℕ → Data) (e : Elem) (ptr n : ℕ) (data : List Data)
    (h : ptr + n ≤ data.length) :
    ∃ data', fill dist e ptr n data = some data' ∧ data'.length = data.length ∧
      (∀ i, i < n → data'[ptr + i]? = (data[ptr + i]?).map fun x => dist x e i) ∧
      (∀ k, k < ptr ∨ ptr + n ≤ k → data'[k]? = data[k]?) := by
  induction n with
  | zero =>
    exact ⟨data, rfl, rfl, fun i hi => absurd hi (Nat.not_lt_zero i), fun _ _ => rfl⟩
  | succ n ih =>
    obtain ⟨d, h1, h2, h3, h4⟩ := ih (by omega)
    have hstep : fill dist e ptr (n + 1) data = fillStep dist e ptr (some d) n := by
      unfold fill at h1 ⊢
      rw [List.range_succ, List.foldl_append, h1]
      rfl
    have hlt : ptr + n < d.length := by omega
    have hn : d[ptr + n]? = data[ptr + n]? := h4 _ (Or.inr (by omega))
    have hx : data[ptr + n]? = some d[ptr + n] := by rw [← hn, List.getElem?_eq_getElem hlt]
    refine ⟨d.set (ptr + n) (dist d[ptr + n] e n), ?_, by simp [h2], ?_, ?_⟩
    · rw [hstep]
      simp [fillStep, List.getElem?_eq_getElem hlt]
    · intro i hi
      by_cases hin : i = n
      · subst hin
        rw [List.getElem?_set_self hlt, hx]
        rfl
      · rw [List.getElem?_set_ne (by omega)]
        exact h3 i (by omega)
    · intro k hk
      rw [List.getElem?_set_ne (by omega)]
      exact h4 k (by omega)

theorem loop_eq (g : Grid Elem) (dist : Data → Elem → ℕ → Data) (es : List Elem) :
    ∀ (ptr : ℕ) (c : Container Data), ptr + (es.map g.numDof).sum ≤ c.data.length →
      (∀ e ∈ es, g.index e < c.elemData.length) → (es.map g.index).Nodup →
      ∃ c', loop g dist es ptr c = some c' ∧ c'.data.length = c.data.length ∧
        (∀ k, k < ptr → c'.data[k]? = c.data[k]?) ∧
        (∀ k, (∀ e ∈ es, g.index e ≠ k) → c'.elemData[k]? = c.elemData[k]?) ∧
        (∀ e ∈ es, ∃ p, ptr ≤ p ∧ c'.elemData[g.index e]? = some (some p) ∧
          ∀ i, i < g.numDof e → ∃ x, c'.data[p + i]? = some (dist x e i)) := by
  induction es with
  | nil => intro ptr c _ _ _; exact ⟨c, rfl, rfl, fun _ _ => rfl, fun _ _ => rfl, by simp⟩
  | cons e es ih =>
    intro ptr c hlen hidx hnd
    rw [List.map_cons, List.sum_cons] at hlen
    rw [List.map_cons, List.nodup_cons] at hnd
    obtain ⟨data, f1, f2, f3, f4⟩ := fill_eq dist e ptr (g.numDof e) c.data (by omega)
    have hie := hidx e (by simp)
    obtain ⟨c', h1, h2, h3, h4, h5⟩ := ih (ptr + g.numDof e)
      { data := data, elemData := c.elemData.set (g.index e) (some ptr) }
      (by simp only; omega) (by intro e' he'; simp; exact hidx e' (by simp [he'])) hnd.2
    have hne : ∀ e' ∈ es, g.index e' ≠ g.index e := by
      intro e' he' heq
      exact hnd.1 (List.mem_map.2 ⟨e', he', heq⟩)
    refine ⟨c', ?_, ?_, ?_, ?_, ?_⟩
    · simp only [loop, if_pos hie, f1, h1]
    · rw [h2]; exact f2
    · intro k hk
      rw [h3 k (by omega)]
      exact f4 k (Or.inl hk)
    · intro k hk
      rw [h4 k (fun e' he' => hk e' (by simp [he']))]
      exact List.getElem?_set_ne (hk e (by simp))
    · intro e' he'
      rcases List.mem_cons.1 he' with rfl | he'
      · refine ⟨ptr, Nat.le_refl _, ?_, ?_⟩
        · rw [h4 _ hne]
          exact List.getElem?_set_self hie
        · intro i hi
          rw [h3 _ (by omega)]
          refine ⟨c.data[ptr + i]'(by omega), ?_⟩
          rw [f3 i hi, List.getElem?_eq_getElem (by omega)]
          rfl
      · obtain ⟨p, hp, hq⟩ := h5 e' he'
        exact ⟨p, by omega, hq⟩

theorem resize_length {α : Type} (l : List α) (n : ℕ) (x : α) : (resize l n x).length = n := by
  unfold resize; simp; omega

/-- Proved part: on a grid with at least one degree of freedom, `update` touches no memory
outside the container, and afterwards `get` returns for every element and every degree of
freedom of its stencil what the distribution function put there for that element and that
degree of freedom, from some value that was there before.  (In particular a function that
only writes is read back exactly.)  This does not depend on the contents of the container
before. -/
theorem C113_get_partial [Inhabited Data] (g : Grid Elem) (hg : Indexed g)
    (dist : Data → Elem → ℕ → Data) (c : Container Data)
    (hpos : ∃ e ∈ g.elements, 0 < g.numDof e) :
    ∃ c', update g dist c = some c' ∧
      ∀ e ∈ g.elements, ∀ i, i < g.numDof e → ∃ old, get g c' e i = some (dist old e i) := by
  have hlen : (resize c.data (numLocalDofs g) default).length = (g.elements.map g.numDof).sum := by
    rw [resize_length, numLocalDofs_eq]
  have hpos' : 0 < (g.elements.map g.numDof).sum := by
    obtain ⟨e, he, hp⟩ := hpos
    have := List.single_le_sum (l := g.elements.map g.numDof) (by simp) _
      (List.mem_map.2 ⟨e, he, rfl⟩)
    omega
  obtain ⟨c', h1, _, _, _, h5⟩ := loop_eq g dist g.elements 0
    { data := resize c.data (numLocalDofs g) default
      elemData := resize c.elemData g.numElements none }
    (by simp only [hlen]; omega) (by intro e he; simp only [resize_length]; exact hg.below e he)
    hg.distinct
  refine ⟨c', ?_, ?_⟩
  · unfold update
    dsimp only
    rw [hlen, if_neg (by omega)]
    exact h1
  · intro e he i hi
    obtain ⟨p, _, hp, hx⟩ := h5 e he
    obtain ⟨x, hx⟩ := hx i hi
    refine ⟨x, ?_⟩
    simp only [get, hp, hx]

/-- The full property includes grids without degrees of freedom, for instance a process
without elements.  It is false: the address of the first entry is taken although there is
none. -/
theorem C113_get_violated [Inhabited Data] (dist : Data → Elem → ℕ → Data) (c : Container Data)
    (g : Grid Elem) (h : g.elements = []) : update g dist c = none := by
  unfold update
  have : (resize c.data (numLocalDofs g) default).length = 0 := by
    rw [resize_length]; unfold numLocalDofs; rw [h]; rfl
  simp only [this, if_true]

/-- Three elements, visited in another order than that of their indices. -/
def threeCells : Grid (Fin 3) where
  elements := [2, 0, 1]
  numDof e := e.val + 2
  index e := e.val
  numElements := 3

/-- Non-vacuity: data that depend on the element and the local index are read back. -/
example : Indexed threeCells ∧ (∃ e ∈ threeCells.elements, 0 < threeCells.numDof e) ∧
    ((update threeCells (fun _ e i => 10 * e.val + i) ⟨[7, 7], [none]⟩).map fun c =>
      (get threeCells c 1 2, get threeCells c 2 0)) = some (some 12, some 20) := by
  refine ⟨⟨by decide, by decide⟩, by decide, by decide⟩

end Pff
