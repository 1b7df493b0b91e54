import Verif.Cache.Refresh
import Verif.Cache.Props
import Mathlib.Tactic.NormNum

/-!
# C172: refreshing the cache of intensive quantities
-/

set_option autoImplicit false

namespace Verif.Cache

variable {PV IQ : Type}

/-! ### Vocabulary -/

/-- The entry of the cache is marked as valid, and it is the one which belongs to the primary variables. -/
def Refreshed (upd : PV → IQ) (s : State PV IQ) (t d : ℕ) : Prop :=
  s.valid t d = true ∧ s.cache t d = upd (s.sol t d)

/-- Nothing about this entry has changed. -/
def SameEntry (s s' : State PV IQ) (t d : ℕ) : Prop :=
  s'.valid t d = s.valid t d ∧ s'.cache t d = s.cache t d

/-! ### Lemmas -/

theorem access_at (c : Cfg) (upd : PV → IQ) (s : State PV IQ) (t d t' d' : ℕ) :
    SameEntry s (access c upd s t d).2 t' d' ∨ (t' = t ∧ d' = d ∧ Refreshed upd (access c upd s t d).2 t' d') := by
  unfold access
  split
  · exact Or.inl ⟨rfl, rfl⟩
  · unfold updateCached
    split
    · exact Or.inl ⟨rfl, rfl⟩
    · by_cases h : t' = t ∧ d' = d
      · obtain ⟨rfl, rfl⟩ := h
        exact Or.inr ⟨rfl, rfl, by simp [Refreshed]⟩
      · left
        simp [SameEntry, setEntry_apply, h]

theorem refreshed_same (upd : PV → IQ) (s s' : State PV IQ) (t d : ℕ) (hs : s'.sol = s.sol) (h : SameEntry s s' t d)
    (hr : Refreshed upd s t d) : Refreshed upd s' t d := by
  unfold Refreshed at *
  rw [h.1, h.2, hs]; exact hr

theorem access_keeps (c : Cfg) (upd : PV → IQ) (s : State PV IQ) (t d t' d' : ℕ) (hr : Refreshed upd s t' d') :
    Refreshed upd (access c upd s t d).2 t' d' := by
  rcases access_at c upd s t d t' d' with h | h
  · exact refreshed_same upd s _ t' d' (access_sol c upd s t d) h hr
  · exact h.2.2

theorem accessAll_keeps (c : Cfg) (upd : PV → IQ) (t t' d' : ℕ) (ds : List ℕ) :
    ∀ s : State PV IQ, Refreshed upd s t' d' → Refreshed upd (accessAll c upd s t ds) t' d' := by
  induction ds with
  | nil => intro s h; exact h
  | cons d ds ih => intro s h; exact ih _ (access_keeps c upd s t d t' d' h)

theorem accessAll_other (c : Cfg) (upd : PV → IQ) (t t' d' : ℕ) (ds : List ℕ) (h : t' ≠ t ∨ d' ∉ ds) :
    ∀ s : State PV IQ, SameEntry s (accessAll c upd s t ds) t' d' := by
  induction ds with
  | nil => intro s; exact ⟨rfl, rfl⟩
  | cons d ds ih =>
    intro s
    have h1 : SameEntry s (access c upd s t d).2 t' d' := by
      rcases access_at c upd s t d t' d' with h' | h'
      · exact h'
      · rcases h with h | h
        · exact absurd h'.1 h
        · exact absurd (h'.2.1 ▸ List.mem_cons_self) h
    have h2 := ih (h.imp_right fun h hm => h (List.mem_cons_of_mem _ hm)) (access c upd s t d).2
    exact ⟨h2.1.trans h1.1, h2.2.trans h1.2⟩

/-- An entry which is not valid is refreshed as soon as it is asked for. -/
theorem access_refreshes (c : Cfg) (upd : PV → IQ) (s : State PV IQ) (t d : ℕ) (hs : store c = true)
    (h : s.valid t d = false) : Refreshed upd (access c upd s t d).2 t d := by
  simp [access, cached, h, updateCached, hs, Refreshed]

theorem accessAll_refreshes (c : Cfg) (upd : PV → IQ) (t d : ℕ) (hs : store c = true) (ds : List ℕ) :
    ∀ s : State PV IQ, d ∈ ds → (s.valid t d = false ∨ Refreshed upd s t d) →
      Refreshed upd (accessAll c upd s t ds) t d := by
  induction ds with
  | nil => intro s h; simp at h
  | cons a ds ih =>
    intro s hm h
    simp only [accessAll]
    rcases h with h | h
    · by_cases ha : a = d
      · subst ha
        exact accessAll_keeps c upd t t a ds _ (access_refreshes c upd s t a hs h)
      · have hm' : d ∈ ds := by
          rcases List.mem_cons.1 hm with h' | h'
          · exact absurd h'.symm ha
          · exact h'
        refine ih _ hm' (Or.inl ?_)
        rcases access_at c upd s t a t d with h' | h'
        · rw [h'.1]; exact h
        · exact absurd h'.2.1.symm ha
    · exact accessAll_keeps c upd t t d ds _ (access_keeps c upd s t a t d h)

theorem marks_at (c : Cfg) (t : ℕ) (hs : store c = true) (ds : List ℕ) (t' d' : ℕ) :
    ∀ s : State PV IQ,
      (ds.foldl (fun s d => invalidateEntry c s t d) s).valid t' d'
        = (if t' = t ∧ d' ∈ ds then false else s.valid t' d') ∧
      (ds.foldl (fun s d => invalidateEntry c s t d) s).cache = s.cache ∧
      (ds.foldl (fun s d => invalidateEntry c s t d) s).sol = s.sol := by
  induction ds with
  | nil => intro s; simp
  | cons d ds ih =>
    intro s
    obtain ⟨h1, h2, h3⟩ := ih (invalidateEntry c s t d)
    refine ⟨?_, ?_, ?_⟩
    · rw [List.foldl_cons, h1]
      simp only [invalidateEntry, hs, Bool.not_true, Bool.false_eq_true, if_false, setEntry_apply, List.mem_cons]
      by_cases ht : t' = t <;> by_cases hd : d' = d <;> by_cases hm : d' ∈ ds <;> simp [ht, hd, hm]
    · rw [List.foldl_cons, h2]; simp [invalidateEntry, hs]
    · rw [List.foldl_cons, h3]; simp [invalidateEntry, hs]

theorem refreshElem_sol (c : Cfg) (upd : PV → IQ) (s : State PV IQ) (t : ℕ) (e : Elem) :
    (refreshElem c upd s t e).sol = s.sol := by
  unfold refreshElem
  split
  · rfl
  · rw [accessAll_sol]
    have : ∀ (ds : List ℕ) (s : State PV IQ), (ds.foldl (fun s d => invalidateEntry c s t d) s).sol = s.sol := by
      intro ds
      induction ds with
      | nil => intro s; rfl
      | cons d ds ih => intro s; rw [List.foldl_cons, ih]; unfold invalidateEntry; split <;> rfl
    exact this _ _

theorem refreshView_sol (c : Cfg) (upd : PV → IQ) (t : ℕ) (els : List Elem) :
    ∀ s : State PV IQ, (refreshView c upd s t els).sol = s.sol := by
  induction els with
  | nil => intro s; rfl
  | cons e els ih =>
    intro s
    have := ih (refreshElem c upd s t e)
    unfold refreshView at *
    rw [List.foldl_cons, this, refreshElem_sol]

/-- An element which does not have the degree of freedom, or which is not in the interior, leaves the entry alone. -/
theorem refreshElem_other (c : Cfg) (upd : PV → IQ) (hs : store c = true) (s : State PV IQ) (t : ℕ) (e : Elem)
    (t' d : ℕ) (h : e.interior = true → d ∉ e.dofs) : SameEntry s (refreshElem c upd s t e) t' d := by
  unfold refreshElem
  split
  · exact ⟨rfl, rfl⟩
  · rename_i hi
    have hd : d ∉ e.dofs := h (by simpa using hi)
    have h1 := accessAll_other c upd 0 t' d e.dofs (Or.inr hd) (e.dofs.foldl (fun s d => invalidateEntry c s t d) s)
    obtain ⟨m1, m2, -⟩ := marks_at c t hs e.dofs t' d s
    refine ⟨h1.1.trans ?_, h1.2.trans ?_⟩
    · rw [m1, if_neg (fun h' => hd h'.2)]
    · rw [m2]

theorem refreshElem_level0 (c : Cfg) (upd : PV → IQ) (hs : store c = true) (s : State PV IQ) (e : Elem) (d : ℕ)
    (h : Refreshed upd s 0 d ∨ (e.interior = true ∧ d ∈ e.dofs)) : Refreshed upd (refreshElem c upd s 0 e) 0 d := by
  by_cases hi : e.interior = true ∧ d ∈ e.dofs
  · unfold refreshElem
    simp only [hi.1, Bool.not_true, Bool.false_eq_true, if_false]
    refine accessAll_refreshes c upd 0 d hs e.dofs _ hi.2 (Or.inl ?_)
    rw [(marks_at c 0 hs e.dofs 0 d s).1]; simp [hi.2]
  · exact refreshed_same upd s _ 0 d (refreshElem_sol c upd s 0 e)
      (refreshElem_other c upd hs s 0 e 0 d fun h1 h2 => hi ⟨h1, h2⟩) (h.resolve_right hi)

theorem refreshElem_old (c : Cfg) (upd : PV → IQ) (hs : store c = true) (s : State PV IQ) (t : ℕ) (ht : t ≠ 0) (e : Elem)
    (d : ℕ) (h : s.valid t d = false ∨ (e.interior = true ∧ d ∈ e.dofs)) :
    (refreshElem c upd s t e).valid t d = false := by
  by_cases hi : e.interior = true ∧ d ∈ e.dofs
  · unfold refreshElem
    simp only [hi.1, Bool.not_true, Bool.false_eq_true, if_false]
    rw [(accessAll_other c upd 0 t d e.dofs (Or.inl ht) _).1, (marks_at c t hs e.dofs t d s).1]
    simp [hi.2]
  · rw [(refreshElem_other c upd hs s t e t d fun h1 h2 => hi ⟨h1, h2⟩).1]
    exact h.resolve_right hi

/-! ### C172 -/

/-- Refreshing the whole grid at a time index: whatever the cache was before, each degree of freedom of the grid has
the quantities of its primary variables afterwards; the solutions and the other time indices are untouched. -/
theorem C172_whole_grid (c : Cfg) (hs : store c = true) (upd : PV → IQ) (s : State PV IQ) (t : ℕ) (elems : List Elem) :
    (∀ e ∈ elems, ∀ d ∈ e.dofs, Refreshed upd (refreshAll c upd s t elems) t d) ∧
    (refreshAll c upd s t elems).sol = s.sol ∧
    (∀ t' d, t' ≠ t → SameEntry s (refreshAll c upd s t elems) t' d) ∧
    UpToDate c upd (refreshAll c upd s t elems) t := by
  have key : ∀ (els : List Elem) (s0 : State PV IQ), Coh upd s0 t →
      let s1 := els.foldl (fun s e => accessAll c upd s t e.dofs) s0
      (∀ d, Refreshed upd s0 t d → Refreshed upd s1 t d) ∧
      (∀ e ∈ els, ∀ d ∈ e.dofs, Refreshed upd s1 t d) ∧ s1.sol = s0.sol ∧
      (∀ t' d, t' ≠ t → SameEntry s0 s1 t' d) ∧ Coh upd s1 t := by
    intro els
    induction els with
    | nil => intro s0 h; exact ⟨fun _ h => h, by simp, rfl, fun _ _ _ => ⟨rfl, rfl⟩, h⟩
    | cons e els ih =>
      intro s0 h0
      obtain ⟨k0, k1, k2, k3, k4⟩ := ih (accessAll c upd s0 t e.dofs) (accessAll_coh c upd t t e.dofs s0 h0)
      simp only [List.foldl_cons]
      refine ⟨fun d h => k0 d (accessAll_keeps c upd t t d e.dofs s0 h), ?_, ?_, ?_, k4⟩
      · intro e' he' d hd
        rcases List.mem_cons.1 he' with rfl | he'
        · refine k0 d (accessAll_refreshes c upd t d hs e'.dofs s0 hd ?_)
          cases hv : s0.valid t d
          · exact Or.inl rfl
          · exact Or.inr ⟨hv, h0 d hv⟩
        · exact k1 e' he' d hd
      · rw [k2, accessAll_sol]
      · intro t' d ht
        have a := accessAll_other c upd t t' d e.dofs (Or.inl ht) s0
        have b := k3 t' d ht
        exact ⟨b.1.trans a.1, b.2.trans a.2⟩
  have hinv : Coh upd (invalidate c s t) t := by
    intro d hv
    simp [invalidate, hs] at hv
  obtain ⟨-, k1, k2, k3, k4⟩ := key elems (invalidate c s t) hinv
  refine ⟨k1, ?_, ?_, upToDate_of_coh c upd _ t k4⟩
  · exact k2.trans (invalidate_sol c s t)
  · intro t' d ht
    have b := k3 t' d ht
    refine ⟨b.1.trans ?_, b.2.trans ?_⟩ <;> simp [invalidate, hs, ht]

/-- Refreshing part of the grid at the current time index: whatever the cache was before, the degrees of freedom of the
interior elements of the grid view have the quantities of their primary variables afterwards, and nothing else has
changed.  The full statement would say the same for every time index and for all elements of the grid view; see
`C172_time_index_violated` and `C172_overlap_violated`. -/
theorem C172_view_partial (c : Cfg) (hs : store c = true) (upd : PV → IQ) (s : State PV IQ) (elems : List Elem) :
    (∀ e ∈ elems, e.interior = true → ∀ d ∈ e.dofs, Refreshed upd (refreshView c upd s 0 elems) 0 d) ∧
    (refreshView c upd s 0 elems).sol = s.sol ∧
    (∀ d, (∀ e ∈ elems, e.interior = true → d ∉ e.dofs) → ∀ t, SameEntry s (refreshView c upd s 0 elems) t d) := by
  refine ⟨?_, refreshView_sol c upd 0 elems s, ?_⟩
  · have key : ∀ (els : List Elem) (s : State PV IQ) (d : ℕ),
        (Refreshed upd s 0 d ∨ ∃ e ∈ els, e.interior = true ∧ d ∈ e.dofs) →
          Refreshed upd (refreshView c upd s 0 els) 0 d := by
      intro els
      induction els with
      | nil => intro s d h; simpa [refreshView] using h
      | cons e els ih =>
        intro s d h
        refine ih (refreshElem c upd s 0 e) d ?_
        rcases h with h | ⟨e', he', hi, hd⟩
        · exact Or.inl (refreshElem_level0 c upd hs s e d (Or.inl h))
        · rcases List.mem_cons.1 he' with rfl | he'
          · exact Or.inl (refreshElem_level0 c upd hs s e' d (Or.inr ⟨hi, hd⟩))
          · exact Or.inr ⟨e', he', hi, hd⟩
    intro e he hi d hd
    exact key elems s d (Or.inr ⟨e, he, hi, hd⟩)
  · intro d hd t
    have key : ∀ (els : List Elem) (s : State PV IQ), (∀ e ∈ els, e.interior = true → d ∉ e.dofs) →
        SameEntry s (refreshView c upd s 0 els) t d := by
      intro els
      induction els with
      | nil => intro s _; exact ⟨rfl, rfl⟩
      | cons e els ih =>
        intro s h
        have a := refreshElem_other c upd hs s 0 e t d (h e List.mem_cons_self)
        have b := ih (refreshElem c upd s 0 e) fun e' he' => h e' (List.mem_cons_of_mem _ he')
        exact ⟨b.1.trans a.1, b.2.trans a.2⟩
    exact key elems s hd

/-- Refreshing part of the grid at another time index never refreshes anything of that time index: the entries of all
interior elements are *not* valid afterwards, even if they were before. -/
theorem C172_time_index_violated (c : Cfg) (hs : store c = true) (upd : PV → IQ) (s : State PV IQ) (t : ℕ) (ht : t ≠ 0)
    (elems : List Elem) : ∀ e ∈ elems, e.interior = true → ∀ d ∈ e.dofs,
      ¬ Refreshed upd (refreshView c upd s t elems) t d := by
  have key : ∀ (els : List Elem) (s : State PV IQ) (d : ℕ),
      (s.valid t d = false ∨ ∃ e ∈ els, e.interior = true ∧ d ∈ e.dofs) →
        (refreshView c upd s t els).valid t d = false := by
    intro els
    induction els with
    | nil => intro s d h; simpa [refreshView] using h
    | cons e els ih =>
      intro s d h
      refine ih (refreshElem c upd s t e) d ?_
      rcases h with h | ⟨e', he', hi, hd⟩
      · exact Or.inl (refreshElem_old c upd hs s t ht e d (Or.inl h))
      · rcases List.mem_cons.1 he' with rfl | he'
        · exact Or.inl (refreshElem_old c upd hs s t ht e' d (Or.inr ⟨hi, hd⟩))
        · exact Or.inr ⟨e', he', hi, hd⟩
  intro e he hi d hd h
  have := key elems s d (Or.inr ⟨e, he, hi, hd⟩)
  rw [h.1] at this
  simp at this

/-- Still, whoever asks for the quantities of an interior element at that time index gets the right ones. -/
theorem C172_asked (c : Cfg) (upd : PV → IQ) (s : State PV IQ) (t : ℕ) (elems : List Elem) :
    ∀ e ∈ elems, e.interior = true → ∀ d ∈ e.dofs,
      (access c upd (refreshView c upd s t elems) t d).1 = upd (s.sol t d) := by
  intro e he hi d hd
  have hsol := refreshView_sol c upd t elems s
  by_cases hs : store c = true
  · by_cases ht : t = 0
    · subst ht
      have h := (C172_view_partial c hs upd s elems).1 e he hi d hd
      unfold access cached
      by_cases hc : c.cache = true
      · simp [hc, h.1, h.2, hsol]
      · simp [hc, hsol]
    · have h := C172_time_index_violated c hs upd s t ht elems e he hi d hd
      unfold access cached
      by_cases hv : (refreshView c upd s t elems).valid t d = true
      · exfalso
        have key : ∀ (els : List Elem) (s : State PV IQ),
            (s.valid t d = false ∨ ∃ e ∈ els, e.interior = true ∧ d ∈ e.dofs) →
              (refreshView c upd s t els).valid t d = false := by
          intro els
          induction els with
          | nil => intro s h; simpa [refreshView] using h
          | cons e els ih =>
            intro s h
            refine ih (refreshElem c upd s t e) ?_
            rcases h with h | ⟨e', he', hi, hd⟩
            · exact Or.inl (refreshElem_old c upd hs s t ht e d (Or.inl h))
            · rcases List.mem_cons.1 he' with rfl | he'
              · exact Or.inl (refreshElem_old c upd hs s t ht e' d (Or.inr ⟨hi, hd⟩))
              · exact Or.inr ⟨e', he', hi, hd⟩
        rw [key elems s (Or.inr ⟨e, he, hi, hd⟩)] at hv
        simp at hv
      · simp [hv, hsol]
  · have hc : c.cache = false := by
      unfold store at hs
      cases h : c.cache
      · rfl
      · simp [h] at hs
    simp [access, cached, hc, hsol]

/-- An interior cell and a cell of the overlap. -/
def twoCells : List Elem := [⟨true, [0]⟩, ⟨false, [1]⟩]

/-- After the solution has been changed, a cell of the overlap keeps the quantities of the old solution even at the
current time index, and these are handed out; refreshing the whole grid would have corrected them. -/
theorem C172_overlap_violated : ∃ s : State ℚ ℚ,
    (access (euler false) (fun x => x) (refreshView (euler false) (fun x => x) s 0 twoCells) 0 1).1 ≠ s.sol 0 1 ∧
    (access (euler false) (fun x => x) (refreshAll (euler false) (fun x => x) s 0 twoCells) 0 1).1 = s.sol 0 1 := by
  refine ⟨{ sol := fun _ _ => 2, cache := fun _ _ => 1, valid := fun _ _ => true }, ?_, ?_⟩
  · decide +kernel
  · decide +kernel

/-- A stale cache of two cells, of which the first one is refreshed. -/
example : let s : State ℚ ℚ := { sol := fun _ _ => 2, cache := fun _ _ => 1, valid := fun _ _ => true }
    store (euler false) = true ∧ Refreshed (fun x => x) (refreshView (euler false) (fun x => x) s 0 twoCells) 0 0 ∧
    ¬ Refreshed (fun x => x) s 0 0 ∧ (refreshView (euler false) (fun x => x) s 1 twoCells).valid 1 0 = false ∧
    s.valid 1 0 = true := by
  refine ⟨rfl, ⟨?_, ?_⟩, fun h => absurd h.2 ?_, ?_, ?_⟩ <;> decide +kernel

end Verif.Cache
