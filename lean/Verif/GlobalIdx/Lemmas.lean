import Verif.GlobalIdx.Spec
import Verif.Mpi.Lemmas
import Mathlib.Data.List.Sort
import Mathlib.Data.List.ReduceOption
import Mathlib.Data.List.Nodup
import Mathlib.Tactic.Linarith

set_option autoImplicit false
set_option linter.unusedSectionVars false

namespace Verif.GlobalIdx

open Verif.Mpi

variable {P : ℕ} {G : Type}

/-! ### Local indices -/

theorem createLocal_getElem (l : List Bool) (c i k : ℕ) :
    ((createLocalIndices c l)[i]?).join = some k ↔
      c ≤ k ∧ ((List.range l.length).filter fun i => l[i]? = some false)[k - c]? = some i := by
  induction l generalizing c i k with
  | nil => simp [createLocalIndices]
  | cons b r ih =>
    have hf : (List.range (b :: r).length).filter (fun i => decide ((b :: r)[i]? = some false)) =
        (if b = false then [0] else []) ++
          ((List.range r.length).filter fun i => decide (r[i]? = some false)).map Nat.succ := by
      rw [List.length_cons, List.range_succ_eq_map, List.filter_cons, List.filter_map]
      cases b <;> simp [Function.comp_def]
    rw [hf]
    cases b with
    | false =>
      rw [createLocalIndices]
      cases i with
      | zero =>
        simp only [List.getElem?_cons_zero, Option.join_some, Option.some.injEq, if_true]
        constructor
        · rintro rfl; simp
        · rintro ⟨h1, h2⟩
          rcases Nat.eq_zero_or_pos (k - c) with h | h
          · omega
          · obtain ⟨m, hm⟩ := Nat.exists_eq_succ_of_ne_zero (Nat.pos_iff_ne_zero.1 h)
            rw [hm] at h2
            simp at h2
      | succ i =>
        rw [List.getElem?_cons_succ, ih]
        simp only [if_true]
        constructor
        · rintro ⟨h1, h2⟩
          refine ⟨by omega, ?_⟩
          obtain ⟨m, hm⟩ : ∃ m, k - c = m + 1 := ⟨k - (c + 1), by omega⟩
          have hm' : k - (c + 1) = m := by omega
          rw [hm, List.cons_append, List.nil_append, List.getElem?_cons_succ, List.getElem?_map, ← hm', h2]; rfl
        · rintro ⟨h1, h2⟩
          rcases Nat.eq_zero_or_pos (k - c) with h | h
          · rw [h] at h2; simp at h2
          · obtain ⟨m, hm⟩ := Nat.exists_eq_succ_of_ne_zero (Nat.pos_iff_ne_zero.1 h)
            rw [hm, List.cons_append, List.nil_append, List.getElem?_cons_succ, List.getElem?_map] at h2
            have hm' : k - (c + 1) = m := by omega
            rw [hm']
            refine ⟨by omega, ?_⟩
            cases hx : (List.filter (fun i => decide (r[i]? = some false)) (List.range r.length))[m]? with
            | none => rw [hx] at h2; simp at h2
            | some x => rw [hx] at h2; simp only [Option.map_some, Option.some.injEq] at h2; rw [Nat.succ.inj h2]
    | true =>
      rw [createLocalIndices]
      simp only [Bool.true_eq_false, if_false, List.nil_append]
      cases i with
      | zero =>
        simp only [List.getElem?_cons_zero, Option.join_some]
        constructor
        · intro h; cases h
        · rintro ⟨h1, h2⟩
          rw [List.getElem?_map] at h2
          cases hx : (List.filter (fun i => decide (r[i]? = some false)) (List.range r.length))[k - c]? with
          | none => rw [hx] at h2; simp at h2
          | some x => rw [hx] at h2; simp at h2
      | succ i =>
        rw [List.getElem?_cons_succ, ih, List.getElem?_map]
        constructor
        · rintro ⟨h1, h2⟩; exact ⟨h1, by rw [h2]; rfl⟩
        · rintro ⟨h1, h2⟩
          refine ⟨h1, ?_⟩
          cases hx : (List.filter (fun i => decide (r[i]? = some false)) (List.range r.length))[k - c]? with
          | none => rw [hx] at h2; simp at h2
          | some x => rw [hx] at h2; simp only [Option.map_some, Option.some.injEq] at h2; rw [Nat.succ.inj h2]

theorem nativeToLocal_eq (d : Part P) (i k : ℕ) : d.nativeToLocal i = some k ↔ (locals d)[k]? = some i := by
  unfold Part.nativeToLocal
  rw [createLocal_getElem]
  simp [locals]

theorem createLocal_length (l : List Bool) (c : ℕ) :
    (createLocalIndices c l).reduceOption.length = ((List.range l.length).filter fun i => l[i]? = some false).length := by
  induction l generalizing c with
  | nil => simp [createLocalIndices]
  | cons b r ih =>
    have hf : (List.range (b :: r).length).filter (fun i => decide ((b :: r)[i]? = some false)) =
        (if b = false then [0] else []) ++
          ((List.range r.length).filter fun i => decide (r[i]? = some false)).map Nat.succ := by
      rw [List.length_cons, List.range_succ_eq_map, List.filter_cons, List.filter_map]
      cases b <;> simp [Function.comp_def]
    rw [hf]
    cases b with
    | false => rw [createLocalIndices, List.reduceOption_cons_of_some, List.length_cons, ih]; simp
    | true => rw [createLocalIndices, List.reduceOption_cons_of_none, ih]; simp

theorem numLocal_eq (d : Part P) : d.numLocal = (locals d).length := createLocal_length _ _

theorem locals_nodup (d : Part P) : (locals d).Nodup := List.Nodup.filter _ List.nodup_range

/-! ### Maps which are built with `addIndex` -/

def addAll (s : State) (l : List (ℕ × ℕ)) : State := l.foldl (fun s x => s.addIndex x.1 x.2) s

theorem addAll_append (s : State) (l l' : List (ℕ × ℕ)) : addAll s (l ++ l') = addAll (addAll s l) l' := List.foldl_append

theorem addAll_offset (s : State) (l : List (ℕ × ℕ)) : (addAll s l).offset = s.offset := by
  induction l generalizing s with
  | nil => rfl
  | cons x l ih => exact ih _

/-- Pairs of a one to one relation. -/
def OneToOne (l : List (ℕ × ℕ)) : Prop := ∀ x ∈ l, ∀ y ∈ l, x.1 = y.1 ↔ x.2 = y.2

theorem addAll_maps (l : List (ℕ × ℕ)) (h : OneToOne l) (s : State) (hs : s.toGlobal = fun _ => none)
    (hs' : s.toDomestic = fun _ => none) (k n : ℕ) :
    ((addAll s l).toGlobal k = some n ↔ (k, n) ∈ l) ∧ ((addAll s l).toDomestic n = some k ↔ (k, n) ∈ l) := by
  induction l using List.reverseRecOn generalizing k n with
  | nil => simp [addAll, hs, hs']
  | append_singleton l x ih =>
    have hl : OneToOne l := fun a ha b hb => h a (by simp [ha]) b (by simp [hb])
    have e : addAll s (l ++ [x]) = (addAll s l).addIndex x.1 x.2 := by rw [addAll_append]; rfl
    rw [e]
    unfold State.addIndex
    simp only [List.mem_append, List.mem_singleton]
    constructor
    · by_cases hk : k = x.1
      · subst hk
        rw [Function.update_self]
        constructor
        · intro hn; right; cases hn; rfl
        · rintro (hm | hm)
          · have := (h _ (List.mem_append_left _ hm) x (by simp)).1 rfl
            simp at this; rw [this]
          · rw [← hm]
      · rw [Function.update_of_ne hk, (ih hl k n).1]
        constructor
        · exact Or.inl
        · rintro (hm | hm)
          · exact hm
          · exact absurd (by rw [← hm]) hk
    · by_cases hn : n = x.2
      · subst hn
        rw [Function.update_self]
        constructor
        · intro hn; right; cases hn; rfl
        · rintro (hm | hm)
          · have := (h _ (List.mem_append_left _ hm) x (by simp)).2 rfl
            simp at this; rw [this]
          · rw [← hm]
      · rw [Function.update_of_ne hn, (ih hl k n).2]
        constructor
        · exact Or.inl
        · rintro (hm | hm)
          · exact hm
          · exact absurd (by rw [← hm]) hn

/-- The pairs which the loop over the local indices adds. -/
def masterPairs (overlapSize : ℕ) (d : Part P) (p : Fin P) (offset : ℕ) : List (ℕ × ℕ) :=
  ((List.range d.numLocal).filter fun i => d.masterRank overlapSize p i = p).zipIdx offset

theorem addMasters_eq (overlapSize : ℕ) (d : Part P) (p : Fin P) (s : State) :
    addMasters overlapSize d p s =
      (addAll s (masterPairs overlapSize d p s.offset), (masterPairs overlapSize d p s.offset).length) := by
  unfold addMasters masterPairs
  generalize List.range d.numLocal = l
  induction l using List.reverseRecOn with
  | nil => simp [addAll]
  | append_singleton l x ih =>
    rw [List.foldl_append, ih]
    simp only [List.foldl_cons, List.foldl_nil, List.filter_append, List.filter_cons, List.filter_nil, decide_eq_true_eq]
    split_ifs with h
    · rw [List.zipIdx_append, addAll_append]
      simp only [List.length_zipIdx, List.length_append, List.length_singleton, List.zipIdx_singleton]
      rfl
    · simp

end Verif.GlobalIdx
