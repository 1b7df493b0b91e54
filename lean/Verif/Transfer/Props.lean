import Verif.Transfer.Model
import Mathlib.Algebra.BigOperators.Group.List.Basic
import Mathlib.Algebra.BigOperators.Ring.List
import Mathlib.Tactic.Ring
import Mathlib.Tactic.Linarith
import Mathlib.Tactic.NormNum

set_option autoImplicit false

/-
**C139** Data attached to cells survives adaptation of the grid.
-/
namespace Verif.Transfer

variable {V : Type}

theorem son_ne (k : ℕ) (f : Cell) : k :: f ≠ f := fun h => by
  have := congrArg List.length h
  simp at this

theorem foldl_prolong (f : Cell) (l : List Cell) (hl : f ∉ l) (d : Container V) (c : Cell) :
    l.foldl (fun d s => prolongLocal d f s) d c = if c ∈ l then d f else d c := by
  induction l generalizing d with
  | nil => simp
  | cons s l ih =>
    have hs : f ≠ s := fun h => hl (by simp [h])
    rw [List.foldl_cons, ih fun h => hl (by simp [h])]
    simp only [prolongLocal, copy, if_neg hs, List.mem_cons]
    by_cases h1 : c ∈ l
    · simp [h1]
    · by_cases h2 : c = s <;> simp [h1, h2]

theorem mem_sons (n : ℕ) (f s : Cell) : s ∈ sons n f ↔ ∃ k < n, s = k :: f := by
  simp [sons, eq_comm]

theorem not_mem_sons (n : ℕ) (f : Cell) : f ∉ sons n f := by
  rw [mem_sons]
  rintro ⟨k, _, h⟩
  exact son_ne k f h.symm

/-- **C139** Sons get the data of their father; no other data is changed. -/
theorem C139_refine (n : ℕ) (d : Container V) (f c : Cell) :
    refine n d f c = if ∃ k < n, c = k :: f then d f else d c := by
  unfold refine
  rw [foldl_prolong f _ (not_mem_sons n f) d c]
  simp only [mem_sons]

/-- **C139** A father gets the data of its first son; no other data is changed. -/
theorem C139_coarsen (n : ℕ) (hn : 0 < n) (d : Container V) (f c : Cell) :
    coarsen n d f c = if c = f then d (0 :: f) else d c := by
  unfold coarsen
  obtain ⟨m, rfl⟩ : ∃ m, n = m + 1 := ⟨n - 1, by omega⟩
  rw [List.range_succ_eq_map, List.foldl_cons, List.foldl_map]
  have : ∀ (l : List ℕ) (d : Container V), l.foldl (fun d k => restrictLocal d f (Nat.succ k :: f) (Nat.succ k == 0)) d = d := by
    intro l
    induction l with
    | nil => intro d; rfl
    | cons k l ih => intro d; rw [List.foldl_cons, ih]; rfl
  rw [this]
  rfl

/-- **C139** Coarsening what was refined gives back the data. -/
theorem C139_roundtrip (n : ℕ) (hn : 0 < n) (d : Container V) (f c : Cell) (hc : ∀ k < n, c ≠ k :: f) :
    coarsen n (refine n d f) f c = d c := by
  rw [C139_coarsen n hn, C139_refine, C139_refine]
  by_cases h : c = f
  · rw [if_pos h, if_pos ⟨0, hn, rfl⟩, h]
  · rw [if_neg h, if_neg (by rintro ⟨k, h1, h2⟩; exact hc k h1 h2)]

/-- The data of a leaf is one of given values. -/
def From (vals : Set V) (g : Grid V) : Prop := ∀ c ∈ g.leaves, ∃ v ∈ vals, g.data c = some v

theorem from_step (vals : Set V) (g g' : Grid V) (e : Event) (h : From vals g) (hs : step g e = some g') : From vals g' := by
  cases e with
  | refine n f =>
    simp only [step] at hs
    split at hs
    · rename_i hf
      cases hs
      intro c hc
      simp only [C139_refine]
      by_cases hk : ∃ k < n, c = k :: f
      · rw [if_pos hk]; exact h f hf.1
      · rw [if_neg hk]
        refine h c ?_
        simp only [Finset.mem_union, Finset.mem_erase, List.mem_toFinset, mem_sons] at hc
        rcases hc with hc | hc
        · exact hc.2
        · exact absurd hc hk
    · cases hs
  | coarsen n f =>
    simp only [step] at hs
    split at hs
    · rename_i hf
      cases hs
      intro c hc
      simp only [C139_coarsen n hf.2]
      by_cases hk : c = f
      · rw [if_pos hk]; exact h _ (hf.1 _ ((mem_sons _ _ _).2 ⟨0, hf.2, rfl⟩))
      · rw [if_neg hk]
        refine h c ?_
        simp only [Finset.mem_insert, Finset.mem_sdiff] at hc
        exact (hc.resolve_left hk).1
    · cases hs

/-- **C139** However often cells are refined and coarsened, every cell has data, and only values which were there before. -/
theorem C139_values (vals : Set V) (g g' : Grid V) (es : List Event) (h : From vals g) (hr : run g es = some g') : From vals g' := by
  induction es generalizing g with
  | nil => cases hr; exact h
  | cons e es ih =>
    simp only [run] at hr
    cases hs : step g e with
    | none => rw [hs] at hr; simp at hr
    | some g1 => rw [hs] at hr; exact ih g1 (from_step vals g g1 e h hs) hr

/-- A grid of two sons with different data. -/
def two : Grid ℚ := ⟨{[0], [1]}, fun c => if c = [0] then some 1 else if c = [1] then some 5 else none⟩

example : From {1, 5} two := by
  intro c hc
  simp only [two, Finset.mem_insert, Finset.mem_singleton] at hc
  rcases hc with rfl | rfl
  · exact ⟨1, by simp, rfl⟩
  · exact ⟨5, by simp, rfl⟩

example : ((run two [.coarsen 2 [], .refine 3 [], .refine 2 [1]]).map fun g => (g.data [2], g.data [1, 1])) = some (some 1, some 1) := by
  decide +kernel

/-- **C139** If cells are only refined, each has the data of the cell it is part of. -/
theorem C139_part (g g' : Grid V) (es : List Event) (he : ∀ e ∈ es, ∃ n f, e = .refine n f) (hr : run g es = some g') :
    ∀ c ∈ g'.leaves, ∃ a ∈ g.leaves, a <:+ c ∧ g'.data c = g.data a := by
  induction es generalizing g with
  | nil => cases hr; exact fun c hc => ⟨c, hc, List.suffix_refl c, rfl⟩
  | cons e es ih =>
    obtain ⟨n, f, rfl⟩ := he e (by simp)
    simp only [run, step] at hr
    split at hr
    · rename_i hf
      intro c hc
      obtain ⟨a, ha, h1, h2⟩ := ih _ (fun e h => he e (by simp [h])) hr c hc
      simp only [C139_refine] at h2
      simp only [Finset.mem_union, Finset.mem_erase, List.mem_toFinset, mem_sons] at ha
      by_cases hk : ∃ k < n, a = k :: f
      · rw [if_pos hk] at h2
        obtain ⟨k, _, hk⟩ := hk
        refine ⟨f, hf.1, List.IsSuffix.trans ?_ h1, h2⟩
        rw [hk]; exact List.suffix_cons k f
      · rw [if_neg hk] at h2
        exact ⟨a, (ha.resolve_right hk).2, h1, h2⟩
    · simp at hr

/-- **C139** If cells are only coarsened, each has the data of a part of it. -/
theorem C139_whole (g g' : Grid V) (es : List Event) (he : ∀ e ∈ es, ∃ n f, e = .coarsen n f) (hr : run g es = some g') :
    ∀ c ∈ g'.leaves, ∃ a ∈ g.leaves, c <:+ a ∧ g'.data c = g.data a := by
  induction es generalizing g with
  | nil => cases hr; exact fun c hc => ⟨c, hc, List.suffix_refl c, rfl⟩
  | cons e es ih =>
    obtain ⟨n, f, rfl⟩ := he e (by simp)
    simp only [run, step] at hr
    split at hr
    · rename_i hf
      intro c hc
      obtain ⟨a, ha, h1, h2⟩ := ih _ (fun e h => he e (by simp [h])) hr c hc
      simp only [C139_coarsen n hf.2] at h2
      simp only [Finset.mem_insert, Finset.mem_sdiff] at ha
      by_cases hk : a = f
      · rw [if_pos hk] at h2
        refine ⟨0 :: f, hf.1 _ ((mem_sons _ _ _).2 ⟨0, hf.2, rfl⟩), List.IsSuffix.trans h1 ?_, h2⟩
        rw [hk]; exact List.suffix_cons 0 f
      · rw [if_neg hk] at h2
        exact ⟨a, (ha.resolve_left hk).1, h1, h2⟩
    · simp at hr

/-- **C139** (violated) A cell which is coarsened and refined again has the data of another place. -/
theorem C139_place_violated :
    (run two [.coarsen 2 [], .refine 2 []]).map (fun g => (g.leaves, g.data [1])) = some (two.leaves, some 1) ∧ two.data [1] = some 5 := by
  decide +kernel

/-- **C139** Refining conserves the integral of data if the sons fill their father. -/
theorem C139_integral_refine (n : ℕ) (d : Container ℚ) (f : Cell) (volume : Cell → ℚ) (hv : ((sons n f).map volume).sum = volume f) :
    ((sons n f).map fun s => volume s * (refine n d f s).getD 0).sum = volume f * (d f).getD 0 := by
  rw [← hv, ← List.sum_map_mul_right]
  congr 1
  refine List.map_congr_left fun s hs => ?_
  rw [C139_refine, if_pos ((mem_sons n f s).1 hs)]

/-- **C139** Coarsening conserves it exactly if the first son has the mean value. -/
theorem C139_integral_coarsen_partial (n : ℕ) (hn : 0 < n) (d : Container ℚ) (f : Cell) (volume : Cell → ℚ) (hf : 0 < volume f) :
    volume f * (coarsen n d f f).getD 0 = ((sons n f).map fun s => volume s * (d s).getD 0).sum ↔
      (d (0 :: f)).getD 0 = ((sons n f).map fun s => volume s * (d s).getD 0).sum / volume f := by
  rw [C139_coarsen n hn, if_pos rfl, eq_div_iff hf.ne', mul_comm]

/-- **C139** (violated) Otherwise it is not conserved. -/
theorem C139_integral_violated :
    let volume : Cell → ℚ := fun c => if c = [] then 2 else 1
    ((sons 2 []).map volume).sum = volume [] ∧
    volume [] * (coarsen 2 two.data [] []).getD 0 = 2 ∧ ((sons 2 []).map fun s => volume s * (two.data s).getD 0).sum = 6 := by decide +kernel

/-- **C139** (violated) A cell which is moved from another process has no data. -/
theorem C139_balance_violated :
    two.data [1] = some 5 ∧ (receive ⟨∅, fun _ => none⟩ two [1]).leaves = {[1]} ∧ (receive ⟨∅, fun _ => none⟩ two [1]).data [1] = none := by
  decide +kernel

end Verif.Transfer
