import Verif.Params.LinesLemmas
import Mathlib.Tactic.Tauto

set_option autoImplicit false
namespace Verif.Params

theorem Dict.keys_set {α : Type} (t : Dict α) (k : Str) (v : α) (name : Str) :
    name ∈ (t.set k v).map Prod.fst ↔ name ∈ t.map Prod.fst ∨ name = k := by
  induction t with
  | nil => simp [Dict.set]
  | cons p t ih =>
    obtain ⟨k', v'⟩ := p
    simp only [Dict.set]
    split
    · next hk => subst hk; simp only [List.map_cons, List.mem_cons]; tauto
    · simp only [List.map_cons, List.mem_cons, ih]; tauto

theorem Dict.mem_of_get {α : Type} (t : Dict α) (k : Str) (v : α) (hg : t.get k = some v) :
    k ∈ t.map Prod.fst := by
  induction t with
  | nil => simp [Dict.get] at hg
  | cons p t ih =>
    obtain ⟨k', v'⟩ := p
    simp only [Dict.get] at hg
    split at hg
    · next hk => simp [hk]
    · simp only [List.map_cons, List.mem_cons]; exact Or.inr (ih hg)

theorem Dict.keys_foldl_set (l : List (Str × Str)) (name : Str) : ∀ t : Dict Str,
    name ∈ (l.foldl (fun t kv => t.set kv.1 kv.2) t).map Prod.fst ↔
      name ∈ t.map Prod.fst ∨ name ∈ l.map Prod.fst := by
  induction l with
  | nil => simp
  | cons p l ih =>
    intro t
    rw [List.foldl_cons, ih, Dict.keys_set]
    simp only [List.map_cons, List.mem_cons]
    tauto

/-- Reading a quoted value without characters that need escaping. -/
theorem parseQuotedTail_plain (v rest : Str) (h : ∀ c ∈ v, c ≠ '"' ∧ c ≠ '\\') :
    parseQuotedTail (v ++ '"' :: rest) = .ok (v, rest) := by
  induction v with
  | nil => rfl
  | cons c v ih =>
    obtain ⟨h1, h2⟩ := h c (by simp)
    have := ih (fun x hx => h x (by simp [hx]))
    rw [List.cons_append, parseQuotedTail.eq_def]
    split
    · next h => cases h
    · next h => exact absurd (List.cons.inj h).1 h2
    · next h => exact absurd (List.cons.inj h).1 h2
    · next h => cases h; simp [h1, this]

theorem parseLines_file (lines : List Str) (kvs : List (Str × Str)) (h : FileAssigns lines kvs) :
    ∀ (seen : List Str) (tree : Dict Str), (kvs.map Prod.fst).Nodup → (∀ k ∈ kvs.map Prod.fst, k ∉ seen) →
      ∃ tree', parseLines false lines seen tree = (none, tree') ∧
        (∀ name, tree'.get name = (tree.get name).or (assigned kvs name)) ∧
        (∀ name, name ∈ tree'.map Prod.fst ↔ name ∈ tree.map Prod.fst ∨ name ∈ kvs.map Prod.fst) := by
  induction h with
  | nil =>
    intro seen tree _ _
    exact ⟨tree, rfl, by simp [assigned], by simp⟩
  | ignored hi _ ih =>
    intro seen tree h1 h2
    obtain ⟨t', ht', h3⟩ := ih seen tree h1 h2
    refine ⟨t', ?_, h3⟩
    rw [parseLines, parseLine_ignored hi]
    exact ht'
  | @assign line name v rest kvs ha _ ih =>
    intro seen tree h1 h2
    simp only [List.map_cons, List.nodup_cons] at h1
    obtain ⟨t', ht', h3, h4⟩ := ih (name :: seen)
      (if false || (tree.get name).isNone then tree.set name v else tree) h1.2 (by
        intro k hk
        simp only [List.mem_cons, not_or]
        exact ⟨fun e => h1.1 (e ▸ hk), h2 k (by simp [hk])⟩)
    refine ⟨t', ?_, ?_, ?_⟩
    · rw [parseLines, parseLine_assignment ha]
      simp only [h2 name (by simp), if_false]
      exact ht'
    · intro n
      rw [h3]
      have hnone : assigned kvs name = none := by
        simp only [assigned, Option.map_eq_none_iff, List.find?_eq_none]
        intro x hx hxe
        have : x.1 = name := by simpa using hxe
        exact h1.1 (this ▸ List.mem_map_of_mem hx)
      by_cases hn : n = name
      · subst hn
        cases hg : tree.get n with
        | none => simp [Dict.get_set, assigned]
        | some w => simp [hg]
      · have hn' : ¬ name = n := fun e => hn e.symm
        cases hg : tree.get name with
        | none => simp [Dict.get_set, hn, assigned, hn']
        | some w => simp [assigned, hn']
    · intro n
      rw [h4]
      cases hg : tree.get name with
      | none => simp only [Option.isNone_none, Bool.or_true, if_true, Dict.keys_set, List.map_cons, List.mem_cons]; tauto
      | some w =>
        have := Dict.mem_of_get _ _ _ hg
        simp only [Option.isNone_some, Bool.or_self, Bool.false_eq_true, if_false, List.map_cons,
          List.mem_cons]
        constructor
        · tauto
        · rintro (h | rfl | h)
          · exact Or.inl h
          · exact Or.inl this
          · exact Or.inr h

end Verif.Params
