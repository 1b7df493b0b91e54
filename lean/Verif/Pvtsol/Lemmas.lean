import Verif.Pvtsol.Spec
import Verif.Decks.Lemmas
import Mathlib.Tactic.Linarith
import Mathlib.Tactic.Positivity
import Mathlib.Data.List.Infix

/-
The loop over rows.
-/

set_option autoImplicit false
set_option linter.unusedSectionVars false

namespace Verif.Pvtsol

open Verif.Decks

variable {K : Type} [Field K] [LinearOrder K]

theorem before_cons (f : Row K → K) (start : K) (r : Row K) (rows : List (Row K)) (i : ℕ) (hi : i ≤ rows.length) :
    before f start (r :: rows) (i + 1) = before f (f r) rows i := by
  cases i with
  | zero => rfl
  | succ j =>
    simp only [before, List.getElem?_cons_succ]
    rw [List.getElem?_eq_getElem (by omega)]

theorem scan_kept (z : K) : ∀ (rows : List (Row K)) (i : ℕ) (bo0 po0 : K), ∃ k, Kept z rows i bo0 po0 (scan z rows i bo0 po0) k
  | [], i, bo0, po0 => ⟨0, by constructor <;> simp [scan, shifted]⟩
  | r :: rest, i, bo0, po0 => by
    unfold scan
    by_cases h1 : bo0 > r.bo
    · rw [if_pos h1]
      refine ⟨0, ?_⟩
      constructor <;> simp [shifted, before, h1, h1.le, h1.ne]
      cases rest <;> simp [h1.ne]
    rw [if_neg h1]
    by_cases h2 : bo0 = r.bo
    · rw [if_pos h2]
      refine ⟨0, ?_⟩
      subst h2
      constructor <;> simp [shifted, before]
      cases rest with
      | nil => simp
      | cons n rest =>
        simp only [List.getElem?_cons_zero, Row.shift]
        by_cases hz : z < 1
        · simp [hz]
        · simp [hz]
    rw [if_neg h2]
    obtain ⟨k, hk⟩ := scan_kept z rest (i + 1) r.bo r.p
    have hlt : bo0 < r.bo := lt_of_le_of_ne (not_lt.1 h1) h2
    have hb := before_cons Row.bo bo0 r rest k hk.le
    have hp := before_cons Row.p po0 r rest k hk.le
    refine ⟨k + 1, ?_⟩
    constructor
    · simpa using hk.le
    · intro j hj s hs
      cases j with
      | zero =>
        simp only [List.getElem?_cons_zero, Option.some.injEq] at hs
        subst hs
        exact hlt
      | succ j =>
        rw [before_cons _ _ _ _ _ (by have := hk.le; omega)]
        exact hk.inc j (by omega) s (by simpa using hs)
    · intro s hs
      rw [hb]
      exact hk.stop s (by simpa using hs)
    · simp only [List.take_succ_cons, shifted]
      rw [hk.bubble]
    · simp only [List.take_succ_cons, shifted, List.getElem?_cons_succ, List.cons_append]
      rw [hk.samples, hb]
      have e : i + 1 + k = i + (k + 1) := by omega
      rw [e]
    · simp only [List.getElem?_cons_succ]
      rw [hb]
      exact hk.decays
    · simp only [List.getElem?_cons_succ]
      rw [hb, hp]
      exact hk.oil
    · simp only [List.getElem?_cons_succ]
      rw [hb]
      exact hk.gas

theorem shifted_append (a b : List (Row K)) (i : ℕ) : shifted i (a ++ b) = shifted i a ++ shifted (i + a.length) b := by
  induction a generalizing i with
  | nil => simp [shifted]
  | cons r a ih =>
    simp only [List.cons_append, shifted, List.length_cons]
    rw [ih, show i + 1 + a.length = i + (a.length + 1) by omega]

/-- Pressures are not shifted. -/
theorem shifted_p (l : List (Row K)) (i : ℕ) : (shifted i l).map Row.p = l.map Row.p := by
  induction l generalizing i with
  | nil => rfl
  | cons r l ih => simp [shifted, ih, Row.shift]

/-! ### The loop over fractions of solvent -/

/-- What is kept for one fraction -/
def column (c : K × List (Row K)) : Column K := scan c.1 c.2 0 0 0

theorem outer_xs : ∀ (cols : List (K × List (Row K))) (i : ℕ) (g : Region K), (outer cols i g).xs = g.xs ++ cols.map Prod.fst
  | [], _, _ => by simp [outer]
  | (z, rows) :: rest, i, g => by
    unfold outer
    simp only
    rw [outer_xs rest]
    simp

theorem outer_oil : ∀ (cols : List (K × List (Row K))) (i : ℕ) (g : Region K),
    (outer cols i g).oilCmp = g.oilCmp ++ cols.map (fun c => (c.1, (column c).oil)) ∧
    (outer cols i g).gasCmp = g.gasCmp ++ cols.map (fun c => (c.1, (column c).gas))
  | [], _, _ => by simp [outer]
  | (z, rows) :: rest, i, g => by
    unfold outer
    simp only
    rw [(outer_oil rest _ _).1, (outer_oil rest _ _).2]
    simp [column]

theorem filter_mk (l : List (Row K)) (i j : ℕ) :
    ((l.map (Prod.mk i)).filter (fun e => e.1 = j)).map Prod.snd = if i = j then l else [] := by
  by_cases h : i = j
  · subst h
    simp [List.filter_map, Function.comp_def]
  · simp [List.filter_map, Function.comp_def, h]

theorem outer_samples (j : ℕ) : ∀ (cols : List (K × List (Row K))) (i : ℕ) (g : Region K),
    ((outer cols i g).samples.filter (fun e => e.1 = j)).map Prod.snd =
        (g.samples.filter (fun e => e.1 = j)).map Prod.snd ++ (if i ≤ j then (match cols[j - i]? with | some c => (column c).samples | none => []) else []) ∧
    ((outer cols i g).bubble.filter (fun e => e.1 = j)).map Prod.snd =
        (g.bubble.filter (fun e => e.1 = j)).map Prod.snd ++ (if i ≤ j then (match cols[j - i]? with | some c => (column c).bubble | none => []) else [])
  | [], i, g => by simp [outer]
  | (z, rows) :: rest, i, g => by
    unfold outer
    simp only
    rw [(outer_samples j rest _ _).1, (outer_samples j rest _ _).2]
    simp only [List.filter_append, List.map_append, filter_mk, List.append_assoc]
    by_cases h : i = j
    · subst h
      simp [column]
    · by_cases h' : i ≤ j
      · have e : j - i = (j - (i + 1)) + 1 := by omega
        rw [if_neg h, if_neg h, if_pos (show i + 1 ≤ j by omega), if_pos h', if_pos (show i + 1 ≤ j by omega), if_pos h', e]
        simp
      · rw [if_neg h, if_neg h, if_neg (show ¬ i + 1 ≤ j by omega), if_neg h', if_neg (show ¬ i + 1 ≤ j by omega), if_neg h']
        simp

theorem outer_range : ∀ (cols : List (K × List (Row K))) (i : ℕ) (g : Region K),
    (∀ e ∈ (outer cols i g).samples, e ∈ g.samples ∨ e.1 < i + cols.length) ∧ (∀ e ∈ (outer cols i g).bubble, e ∈ g.bubble ∨ e.1 < i + cols.length)
  | [], i, g => by simp only [outer]; exact ⟨fun e he => Or.inl he, fun e he => Or.inl he⟩
  | (z, rows) :: rest, i, g => by
    unfold outer
    simp only
    obtain ⟨h1, h2⟩ := outer_range rest (i + 1)
      { xs := g.xs ++ [z]
        samples := g.samples ++ (scan z rows 0 0 0).samples.map (Prod.mk i)
        bubble := g.bubble ++ (scan z rows 0 0 0).bubble.map (Prod.mk i)
        zLim := if (scan z rows 0 0 0).decays then z else g.zLim
        oilCmp := g.oilCmp ++ [(z, (scan z rows 0 0 0).oil)]
        gasCmp := g.gasCmp ++ [(z, (scan z rows 0 0 0).gas)] }
    simp only [List.length_cons]
    constructor
    · intro e he
      rcases h1 e he with h | h
      · rw [List.mem_append] at h
        rcases h with h | h
        · exact Or.inl h
        · obtain ⟨r, -, rfl⟩ := List.mem_map.1 h
          right
          simp only
          omega
      · right; omega
    · intro e he
      rcases h2 e he with h | h
      · rw [List.mem_append] at h
        rcases h with h | h
        · exact Or.inl h
        · obtain ⟨r, -, rfl⟩ := List.mem_map.1 h
          right
          simp only
          omega
      · right; omega

theorem outer_zLim : ∀ (cols : List (K × List (Row K))) (i : ℕ) (g : Region K),
    (∃ (j : ℕ) (c : K × List (Row K)), cols[j]? = some c ∧ (column c).decays = true ∧ (outer cols i g).zLim = c.1 ∧
      ∀ (j' : ℕ) (c' : K × List (Row K)), j < j' → cols[j']? = some c' → (column c').decays = false) ∨
    ((∀ c ∈ cols, (column c).decays = false) ∧ (outer cols i g).zLim = g.zLim)
  | [], i, g => Or.inr ⟨by simp, rfl⟩
  | (z, rows) :: rest, i, g => by
    unfold outer
    simp only
    rcases outer_zLim rest (i + 1)
      { xs := g.xs ++ [z]
        samples := g.samples ++ (scan z rows 0 0 0).samples.map (Prod.mk i)
        bubble := g.bubble ++ (scan z rows 0 0 0).bubble.map (Prod.mk i)
        zLim := if (scan z rows 0 0 0).decays then z else g.zLim
        oilCmp := g.oilCmp ++ [(z, (scan z rows 0 0 0).oil)]
        gasCmp := g.gasCmp ++ [(z, (scan z rows 0 0 0).gas)] } with ⟨j, c, h1, h2, h3, h4⟩ | ⟨h1, h2⟩
    · refine Or.inl ⟨j + 1, c, by simpa using h1, h2, h3, fun j' c' hj' hc' => ?_⟩
      obtain ⟨m, rfl⟩ : ∃ m, j' = m + 1 := ⟨j' - 1, by omega⟩
      exact h4 m c' (by omega) (by simpa using hc')
    · simp only at h2
      by_cases hd : (scan z rows 0 0 0).decays = true
      · refine Or.inl ⟨0, (z, rows), rfl, hd, ?_, fun j' c' hj' hc' => ?_⟩
        · rw [h2, if_pos hd]
        · obtain ⟨m, rfl⟩ : ∃ m, j' = m + 1 := ⟨j' - 1, by omega⟩
          exact h1 c' (List.mem_of_getElem? (i := m) (by simpa using hc'))
      · refine Or.inr ⟨fun c hc => ?_, ?_⟩
        · rcases List.mem_cons.1 hc with rfl | hc
          · simpa [column] using hd
          · exact h1 c hc
        · rw [h2, if_neg hd]

theorem decays_iff (c : K × List (Row K)) : (column c).decays = true ↔ Decays c.2 := by
  obtain ⟨k, hk⟩ := scan_kept c.1 c.2 0 0 0
  unfold column
  rw [hk.decays]
  constructor
  · rintro ⟨r, h1, h2⟩
    exact ⟨k, r, hk.inc, h1, h2⟩
  · rintro ⟨m, r, h1, h2, h3⟩
    obtain ⟨hm, -⟩ := List.getElem?_eq_some_iff.1 h2
    have hmk : m = k := by
      rcases lt_trichotomy m k with h | h | h
      · exact absurd (hk.inc m h r h2) (not_lt.2 h3.le)
      · exact h
      · have e := List.getElem?_eq_getElem (l := c.2) (i := k) (by omega)
        exact absurd (h1 k h _ e) (hk.stop _ e)
    subst hmk
    exact ⟨r, h2, h3⟩

variable [IsStrictOrderedRing K]

/-- The shifts make columns strictly increasing. -/
theorem shifted_inc (f : Row K → K) (hf : ∀ (r : Row K) (i : ℕ), f (r.shift i) = f r + i * (1 / 10 ^ 10)) (l : List (Row K)) (i : ℕ)
    (h : l.Pairwise (fun a b => f a ≤ f b)) : (shifted i l).Pairwise (fun a b => f a < f b) := by
  induction l generalizing i with
  | nil => exact List.Pairwise.nil
  | cons r l ih =>
    obtain ⟨h1, h2⟩ := List.pairwise_cons.1 h
    refine List.pairwise_cons.2 ⟨fun s hs => ?_, ih (i + 1) h2⟩
    have key : ∀ (l : List (Row K)) (j : ℕ), i < j → (∀ a ∈ l, f r ≤ f a) → s ∈ shifted j l → f (r.shift i) < f s := by
      intro l
      induction l with
      | nil => intro j _ _ hs; simp [shifted] at hs
      | cons a l ih =>
        intro j hj ha hs
        simp only [shifted, List.mem_cons] at hs
        rcases hs with rfl | hs
        · rw [hf, hf]
          have h3 := ha a (by simp)
          have h4 : (i : K) < j := by exact_mod_cast hj
          have h5 : (0 : K) < 1 / 10 ^ 10 := by positivity
          have := mul_lt_mul_of_pos_right h4 h5
          linarith
        · exact ih (j + 1) (by omega) (fun b hb => ha b (by simp [hb])) hs
    exact key l (i + 1) (by omega) h1 hs

end Verif.Pvtsol
