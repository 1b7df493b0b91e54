import Verif.Decks.Model
import Mathlib.Tactic.Ring
import Mathlib.Tactic.FieldSimp

/-
Composition of runs, and loops which fill vectors.
-/

set_option autoImplicit false

namespace Verif.Decks

variable {α β : Type}

@[simp] theorem done_bind (a : α) (f : α → Res β) : (Res.done a >>= f) = f a := rfl
@[simp] theorem threw_bind (f : α → Res β) : ((Res.threw : Res α) >>= f) = .threw := rfl
@[simp] theorem aborted_bind (f : α → Res β) : ((Res.aborted : Res α) >>= f) = .aborted := rfl
@[simp] theorem undefined_bind (f : α → Res β) : ((Res.undefined : Res α) >>= f) = .undefined := rfl

theorem bind_eq_done {x : Res α} {f : α → Res β} {b : β} : (x >>= f) = .done b ↔ ∃ a, x = .done a ∧ f a = .done b := by
  cases x <;> simp

theorem bind_eq_undefined {x : Res α} {f : α → Res β} (h : (x >>= f) = .undefined) : x = .undefined ∨ ∃ a, x = .done a ∧ f a = .undefined := by
  cases x <;> simp_all

theorem bind_eq_aborted {x : Res α} {f : α → Res β} (h : (x >>= f) = .aborted) : x = .aborted ∨ ∃ a, x = .done a ∧ f a = .aborted := by
  cases x <;> simp_all

@[simp] theorem throwIf_done (c : Bool) (u : Unit) : throwIf c = .done u ↔ c = false := by
  cases c <;> simp [throwIf]

@[simp] theorem throwIf_undefined (c : Bool) : throwIf c ≠ .undefined := by cases c <;> simp [throwIf]

@[simp] theorem throwIf_aborted (c : Bool) : throwIf c ≠ .aborted := by cases c <;> simp [throwIf]

@[simp] theorem assertion_done (a c : Bool) (u : Unit) : assertion a c = .done u ↔ (a = true → c = true) := by
  cases a <;> cases c <;> simp [assertion]

@[simp] theorem assertion_undefined (a c : Bool) : assertion a c ≠ .undefined := by cases a <;> cases c <;> simp [assertion]

theorem exists_unit {P : Unit → Prop} : (∃ u, P u) ↔ P () := ⟨fun ⟨_, h⟩ => h, fun h => ⟨_, h⟩⟩

theorem bind_undefined {x : Res α} {f : α → Res β} : (x >>= f) = .undefined ↔ x = .undefined ∨ ∃ a, x = .done a ∧ f a = .undefined := by
  cases x <;> simp

theorem bind_aborted {x : Res α} {f : α → Res β} : (x >>= f) = .aborted ↔ x = .aborted ∨ ∃ a, x = .done a ∧ f a = .aborted := by
  cases x <;> simp

theorem get_done {t : Tables α} {i : ℕ} {a : α} : t.get i = .done a ↔ t.table i = some a := by
  unfold Tables.get
  cases t.table i <;> simp

theorem get_undefined (t : Tables α) (i : ℕ) : t.get i ≠ .undefined := by
  unfold Tables.get
  cases t.table i <;> simp

theorem get_aborted (t : Tables α) (i : ℕ) : t.get i ≠ .aborted := by
  unfold Tables.get
  cases t.table i <;> simp

theorem access_done {l : List α} {i : ℕ} {a : α} : access l i = .done a ↔ l[i]? = some a := by
  unfold access
  cases l[i]? <;> simp

theorem access_undefined {l : List α} {i : ℕ} : access l i = .undefined ↔ l.length ≤ i := by
  unfold access
  cases h : l[i]? with
  | none => simpa using h
  | some a =>
    obtain ⟨hi, -⟩ := List.getElem?_eq_some_iff.1 h
    simp only [reduceCtorEq, false_iff]
    omega

theorem access_lt {l : List α} {i : ℕ} (h : i < l.length) : access l i ≠ .undefined := by
  rw [Ne, access_undefined]; omega

theorem access_aborted {l : List α} {i : ℕ} : access l i ≠ .aborted := by
  unfold access
  cases l[i]? <;> simp

theorem access_threw {l : List α} {i : ℕ} : access l i ≠ .threw := by
  unfold access
  cases l[i]? <;> simp

theorem resize_length (l : List α) (n : ℕ) (d : α) : (resize l n d).length = n := by
  unfold resize
  simp only [List.length_append, List.length_take, List.length_replicate]
  omega

/-- The values in order -/
def collect (get : ℕ → Res α) : ℕ → Res (List α)
  | 0 => .done []
  | n + 1 => do
    let l ← collect get n
    let a ← get n
    .done (l ++ [a])

theorem collect_length {get : ℕ → Res α} : ∀ {n : ℕ} {m : List α}, collect get n = .done m → m.length = n
  | 0, m, h => by simp only [collect, Res.done.injEq] at h; simp [← h]
  | n + 1, m, h => by
    simp only [collect, bind_eq_done, Res.done.injEq] at h
    obtain ⟨l, hl, a, -, rfl⟩ := h
    simp [collect_length hl]

theorem fill_collect (get : ℕ → Res α) : ∀ (n : ℕ) (l : List α), n ≤ l.length →
    fill get n l = (collect get n >>= fun m => .done (m ++ l.drop n))
  | 0, l, _ => by simp [fill, collect]
  | n + 1, l, h => by
    simp only [fill, collect]
    rw [fill_collect get n l (by omega)]
    cases hc : collect get n with
    | done m =>
      have hm := collect_length hc
      simp only [done_bind]
      cases get n with
      | done a =>
        simp only [done_bind, List.length_append, List.length_drop]
        rw [if_pos (by omega)]
        congr 1
        rw [List.set_append_right _ _ (by omega), hm, Nat.sub_self]
        have hd : l.drop n = l[n]'(by omega) :: l.drop (n + 1) := (List.cons_getElem_drop_succ).symm
        rw [hd, List.set_cons_zero, List.append_assoc]
        rfl
      | threw => rfl
      | aborted => rfl
      | undefined => rfl
    | threw => rfl
    | aborted => rfl
    | undefined => rfl

/-- A vector resized to the number of its new values does not keep anything. -/
theorem fill_resize (get : ℕ → Res α) (n : ℕ) (l : List α) (d : α) : fill get n (resize l n d) = collect get n := by
  rw [fill_collect get n _ (resize_length l n d).ge, List.drop_eq_nil_of_le (resize_length l n d).le]
  cases collect get n <;> simp

theorem collect_done {get : ℕ → Res α} : ∀ {n : ℕ} {m : List α}, collect get n = .done m ↔
    m.length = n ∧ ∀ i, i < n → ∃ a, get i = .done a ∧ m[i]? = some a
  | 0, m => by
    simp only [collect, Res.done.injEq]
    constructor
    · rintro rfl; simp
    · rintro ⟨h, -⟩; exact (List.length_eq_zero_iff.1 h).symm
  | n + 1, m => by
    simp only [collect, bind_eq_done, Res.done.injEq]
    constructor
    · rintro ⟨l, hl, a, ha, rfl⟩
      obtain ⟨h1, h2⟩ := collect_done.1 hl
      refine ⟨by simp [h1], fun i hi => ?_⟩
      by_cases hin : i < n
      · obtain ⟨b, hb, hlb⟩ := h2 i hin
        exact ⟨b, hb, by rw [List.getElem?_append_left (by omega)]; exact hlb⟩
      · have : i = n := by omega
        subst this
        exact ⟨a, ha, by rw [List.getElem?_append_right (by omega), h1]; simp⟩
    · rintro ⟨h1, h2⟩
      obtain ⟨a, ha, hma⟩ := h2 n (by omega)
      refine ⟨m.take n, collect_done.2 ⟨by simp; omega, fun i hi => ?_⟩, a, ha, ?_⟩
      · obtain ⟨b, hb, hmb⟩ := h2 i (by omega)
        exact ⟨b, hb, by rw [List.getElem?_take_of_lt hi]; exact hmb⟩
      · obtain ⟨hn, he⟩ := List.getElem?_eq_some_iff.1 hma
        rw [← he, List.take_append_getElem, List.take_of_length_le (by omega)]

theorem collect_undefined {get : ℕ → Res α} : ∀ {n : ℕ}, collect get n = .undefined → ∃ i, i < n ∧ get i = .undefined
  | 0, h => by simp [collect] at h
  | n + 1, h => by
    simp only [collect] at h
    rcases bind_eq_undefined h with h | ⟨l, -, h⟩
    · obtain ⟨i, hi, hg⟩ := collect_undefined h
      exact ⟨i, by omega, hg⟩
    · rcases bind_eq_undefined h with h | ⟨a, -, h⟩
      · exact ⟨n, by omega, h⟩
      · cases h

theorem collect_aborted {get : ℕ → Res α} : ∀ {n : ℕ}, collect get n = .aborted → ∃ i, i < n ∧ get i = .aborted
  | 0, h => by simp [collect] at h
  | n + 1, h => by
    simp only [collect] at h
    rcases bind_eq_aborted h with h | ⟨l, -, h⟩
    · obtain ⟨i, hi, hg⟩ := collect_aborted h
      exact ⟨i, by omega, hg⟩
    · rcases bind_eq_aborted h with h | ⟨a, -, h⟩
      · exact ⟨n, by omega, h⟩
      · cases h

theorem collect_get {t : Tables α} {n : ℕ} {m : List α} : collect t.get n = .done m ↔ m.length = n ∧ ∀ i, i < n → ∃ a, t.table i = some a ∧ m[i]? = some a := by
  rw [collect_done]
  simp only [get_done]

theorem collect_get_undefined (t : Tables α) (n : ℕ) : collect t.get n ≠ .undefined := fun h =>
  let ⟨_, _, h⟩ := collect_undefined h
  get_undefined _ _ h

theorem collect_get_aborted (t : Tables α) (n : ℕ) : collect t.get n ≠ .aborted := fun h =>
  let ⟨_, _, h⟩ := collect_aborted h
  get_aborted _ _ h

theorem collect_access {l m : List α} {n : ℕ} (h : collect (access l) n = .done m) : n ≤ l.length ∧ m = l.take n := by
  obtain ⟨h1, h2⟩ := collect_done.1 h
  have hn : n ≤ l.length := by
    by_contra hc
    obtain ⟨a, ha, -⟩ := h2 l.length (by omega)
    rw [access_done] at ha
    simp at ha
  refine ⟨hn, List.ext_getElem? fun i => ?_⟩
  by_cases hi : i < n
  · obtain ⟨a, ha, hm⟩ := h2 i hi
    rw [hm, List.getElem?_take_of_lt hi, access_done.1 ha]
  · rw [List.getElem?_eq_none (by omega), List.getElem?_eq_none (by simp; omega)]

theorem collect_access_le (l : List α) {n : ℕ} (h : n ≤ l.length) : collect (access l) n = .done (l.take n) := by
  refine collect_done.2 ⟨by simp [h], fun i hi => ⟨l[i]'(by omega), ?_, ?_⟩⟩
  · rw [access_done]; exact List.getElem?_eq_getElem _
  · rw [List.getElem?_take_of_lt hi]; exact List.getElem?_eq_getElem _

theorem collect_const (a : α) (n : ℕ) : collect (fun _ => .done a) n = .done (List.replicate n a) :=
  collect_done.2 ⟨by simp, fun i hi => ⟨a, rfl, by simp [hi]⟩⟩

theorem fill_done {get : ℕ → Res α} {n : ℕ} {l m : List α} (hn : n ≤ l.length) (h : fill get n l = .done m) :
    m.length = l.length ∧ (∀ i, i < n → ∃ a, get i = .done a ∧ m[i]? = some a) ∧ ∀ i, n ≤ i → m[i]? = l[i]? := by
  rw [fill_collect get n l hn] at h
  obtain ⟨k, hk, h⟩ := bind_eq_done.1 h
  obtain ⟨h1, h2⟩ := collect_done.1 hk
  cases h
  refine ⟨by simp [h1]; omega, fun i hi => ?_, fun i hi => ?_⟩
  · obtain ⟨a, ha, hb⟩ := h2 i hi
    exact ⟨a, ha, by rw [List.getElem?_append_left (by omega)]; exact hb⟩
  · rw [List.getElem?_append_right (by omega), List.getElem?_drop, h1]
    congr 1
    omega

theorem fill_undefined {get : ℕ → Res α} {n : ℕ} {l : List α} (hn : n ≤ l.length) (h : fill get n l = .undefined) :
    ∃ i, i < n ∧ get i = .undefined := by
  rw [fill_collect get n l hn] at h
  rcases bind_eq_undefined h with h | ⟨m, -, h⟩
  · exact collect_undefined h
  · cases h

theorem fillOr_done {a : Bool} {t : Tables α} {n : ℕ} {dflt t0 : α} {l m : List α} (h : fillOr a t n dflt t0 l = .done m) :
    m.length = n ∧ (a = true → t.count = 0 ∨ t.count = n) ∧
    (t.count = 0 → ∀ i, i < n → access m i = .done dflt) ∧
    (t.count ≠ 0 → ∀ i, i < n → ∃ b, t.table i = some b ∧ access m i = .done b) := by
  unfold fillOr at h
  split at h
  · rename_i h0
    rw [fill_resize, collect_const] at h
    cases h
    exact ⟨by simp, fun _ => Or.inl h0, fun _ i hi => access_done.2 (by simp [hi]), fun hn => absurd h0 hn⟩
  · rename_i h0
    simp only [bind_eq_done, assertion_done, exists_unit, fill_resize, collect_get, beq_iff_eq] at h
    obtain ⟨h1, h2, h3⟩ := h
    refine ⟨h2, fun ha => Or.inr (h1 ha).symm, fun hn => absurd hn h0, fun _ i hi => ?_⟩
    obtain ⟨b, hb, hm⟩ := h3 i hi
    exact ⟨b, hb, access_done.2 hm⟩

theorem fillOr_undefined (a : Bool) (t : Tables α) (n : ℕ) (dflt t0 : α) (l : List α) : fillOr a t n dflt t0 l ≠ .undefined := by
  intro h
  unfold fillOr at h
  split at h
  · rw [fill_resize, collect_const] at h
    cases h
  · simp [bind_undefined, fill_resize, collect_get_undefined] at h

theorem insertAll_eq {M : Type} (l : List (ℤ × M)) (m : ℤ → Option M) (k : ℤ) :
    (k ∉ l.map Prod.fst → insertAll m l k = m k) ∧ (k ∈ l.map Prod.fst → ∃ e, (k, e) ∈ l ∧ insertAll m l k = some e) := by
  unfold insertAll
  induction l generalizing m with
  | nil => simp
  | cons e l ih =>
    simp only [List.foldl_cons, List.map_cons, List.mem_cons, not_or]
    obtain ⟨h1, h2⟩ := ih (fun k => if k = e.1 then some e.2 else m k)
    constructor
    · rintro ⟨ha, hb⟩
      rw [h1 hb, if_neg ha]
    · intro h
      by_cases hl : k ∈ l.map Prod.fst
      · obtain ⟨a, ha, hb⟩ := h2 hl
        exact ⟨a, Or.inr ha, hb⟩
      · have : k = e.1 := h.resolve_right hl
        subst this
        exact ⟨e.2, Or.inl rfl, by rw [h1 hl, if_pos rfl]⟩

end Verif.Decks
