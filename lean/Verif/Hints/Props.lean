import Verif.Hints.Model
import Mathlib.Tactic.Common

/-!
# C171: hints do not change results
-/

set_option autoImplicit false
set_option linter.unusedSectionVars false

namespace Verif.Hints

open Verif.Cache

variable {PV IQ G : Type} [Inhabited IQ]

/-! ## Specification -/

/-- The quantities of a degree of freedom, computed from the primary variables alone. -/
def plain (upd : Update PV IQ) (pv : PV) (t : ℕ) : IQ := upd pv (fun _ => none) t

/-- Whatever the cache contains is what comes out without hints. -/
def Coherent (upd : Update PV IQ) (st : State PV IQ) : Prop :=
  ∀ t d, st.valid t d = true → st.cache t d = plain upd (st.sol t d) t

/-- The context has the quantities which come out without hints. -/
def Plain (upd : Update PV IQ) (sol : ℕ → ℕ → PV) (dofs : List ℕ) (t : ℕ) (ctx : List (Slot IQ)) : Prop :=
  ∀ (i d : ℕ), dofs[i]? = some d → ∃ slot, ctx[i]? = some slot ∧ slot.iq t = plain upd (sol t d) t

/-- The state after a context, which is new, has visited elements. -/
def visits (c : Cfg) (upd : Update PV IQ) (st : State PV IQ) (vs : List (List ℕ × List ℕ)) : List (Slot IQ) × State PV IQ :=
  vs.foldl (visit c upd) ([], st)

/-! ## Proofs -/

/-- A property of pointers. -/
def Ptr (P : ℕ → Option (ℕ × ℕ) → Prop) (ctx : List (Slot IQ)) : Prop := ∀ slot ∈ ctx, ∀ t, P t (slot.hint t)

section

variable {c : Cfg} {upd : Update PV IQ}

/-- The update of quantities which are not in the cache gives the plain ones if pointers satisfy `P`, for the time indices `L`. -/
def Good (c : Cfg) (upd : Update PV IQ) (L : ℕ → Prop) (P : ℕ → Option (ℕ × ℕ) → Prop) : Prop :=
  (∀ t, P t none) ∧ (∀ (st : State PV IQ) d t, L t → P t (thermodynamicHint c st d t)) ∧
  ∀ (st : State PV IQ) (slot : Slot IQ) pv t, L t → (∀ τ, P τ (slot.hint τ)) → slot.hint t = none → upd pv (look st slot) t = plain upd pv t

variable {L : ℕ → Prop} {P : ℕ → Option (ℕ × ℕ) → Prop}

theorem hint_none {st : State PV IQ} {d t : ℕ} (h : cached c st t d = none) : thermodynamicHint c st d t = none := by
  unfold thermodynamicHint
  split
  · rfl
  · simp [h]

theorem cached_coherent {st : State PV IQ} (h : Coherent upd st) {t d : ℕ} {q : IQ} (hq : cached c st t d = some q) :
    q = plain upd (st.sol t d) t := by
  unfold cached at hq
  split at hq
  · exact absurd hq (by simp)
  · rename_i hv
    simp only [Option.some.injEq] at hq
    rw [← hq]
    refine h t d ?_
    simp only [Bool.or_eq_true, Bool.not_eq_true', not_or, Bool.not_eq_false] at hv
    exact hv.2

theorem updateCached_coherent {st : State PV IQ} (h : Coherent upd st) {t d : ℕ} :
    Coherent upd (updateCached c st (plain upd (st.sol t d) t) t d) ∧
      (updateCached c st (plain upd (st.sol t d) t) t d).sol = st.sol := by
  unfold updateCached
  split
  · exact ⟨h, rfl⟩
  · refine ⟨fun t' d' hv => ?_, rfl⟩
    change setEntry st.cache t d _ t' d' = plain upd (st.sol t' d') t'
    change setEntry st.valid t d true t' d' = true at hv
    unfold setEntry at hv ⊢
    by_cases ht : t' = t
    · subst ht
      rw [Function.update_self] at hv ⊢
      by_cases hd : d' = d
      · subst hd
        rw [Function.update_self]
      · rw [Function.update_of_ne hd] at hv ⊢
        exact h t' d' hv
    · rw [Function.update_of_ne ht] at hv ⊢
      exact h t' d' hv

theorem updateDof_spec (hg : Good c upd L P) {st : State PV IQ} (h : Coherent upd st) {slot : Slot IQ} (hp : ∀ τ, P τ (slot.hint τ))
    (t d : ℕ) (hL : L t) :
    (updateDof c upd t d slot st).1.iq t = plain upd (st.sol t d) t ∧
    (∀ τ, τ ≠ t → (updateDof c upd t d slot st).1.iq τ = slot.iq τ) ∧
    (∀ τ, P τ ((updateDof c upd t d slot st).1.hint τ)) ∧
    Coherent upd (updateDof c upd t d slot st).2 ∧ (updateDof c upd t d slot st).2.sol = st.sol := by
  have hp' : ∀ τ, P τ (Function.update slot.hint t (thermodynamicHint c st d t) τ) := by
    intro τ
    by_cases hτ : τ = t
    · subst hτ
      rw [Function.update_self]
      exact hg.2.1 st d τ hL
    · rw [Function.update_of_ne hτ]
      exact hp τ
  unfold updateDof
  simp only
  cases hc : cached c st t d with
  | some q =>
    simp only
    refine ⟨?_, fun τ hτ => Function.update_of_ne hτ _ _, hp', h, trivial⟩
    rw [Function.update_self]
    exact cached_coherent h hc
  | none =>
    simp only
    have hq : upd (st.sol t d) (look st { slot with hint := Function.update slot.hint t (thermodynamicHint c st d t) }) t =
        plain upd (st.sol t d) t := by
      refine hg.2.2 st _ _ t hL hp' ?_
      change Function.update slot.hint t (thermodynamicHint c st d t) t = none
      rw [Function.update_self]
      exact hint_none hc
    rw [hq]
    refine ⟨Function.update_self _ _ _, fun τ hτ => Function.update_of_ne hτ _ _, hp', updateCached_coherent h⟩

theorem updateLevel_spec (hg : Good c upd L P) (t : ℕ) (hL : L t) (dofs : List ℕ) :
    ∀ (ctx : List (Slot IQ)) (st : State PV IQ), Coherent upd st → Ptr P ctx → dofs.length ≤ ctx.length →
      Plain upd st.sol dofs t (updateLevel c upd t dofs ctx st).1 ∧
      (∀ τ, τ ≠ t → ∀ i : ℕ, ((updateLevel c upd t dofs ctx st).1[i]?).map (fun s => s.iq τ) = (ctx[i]?).map fun s => s.iq τ) ∧
      (updateLevel c upd t dofs ctx st).1.length = ctx.length ∧
      Ptr P (updateLevel c upd t dofs ctx st).1 ∧
      Coherent upd (updateLevel c upd t dofs ctx st).2 ∧ (updateLevel c upd t dofs ctx st).2.sol = st.sol := by
  induction dofs with
  | nil =>
    intro ctx st h hp _
    exact ⟨fun i d hd => by simp at hd, fun _ _ _ => rfl, rfl, hp, h, rfl⟩
  | cons d ds ih =>
    intro ctx st h hp hl
    cases ctx with
    | nil => simp at hl
    | cons slot ctx =>
      obtain ⟨h1, h2, h3, h4, h5⟩ := updateDof_spec hg h (hp slot (by simp)) t d hL
      obtain ⟨i1, i2, i3, i4, i5, i6⟩ := ih ctx (updateDof c upd t d slot st).2 h4 (fun s hs => hp s (by simp [hs])) (by simpa using hl)
      simp only [updateLevel]
      refine ⟨?_, ?_, by simp [i3], ?_, i5, i6.trans h5⟩
      · intro i d' hd'
        cases i with
        | zero =>
          simp only [List.getElem?_cons_zero, Option.some.injEq] at hd'
          subst hd'
          exact ⟨_, rfl, h1⟩
        | succ i =>
          rw [List.getElem?_cons_succ] at hd' ⊢
          rw [h5] at i1
          exact i1 i d' hd'
      · intro τ hτ i
        cases i with
        | zero => simp [h2 τ hτ]
        | succ i => simpa using i2 τ hτ i
      · intro s hs
        rcases List.mem_cons.1 hs with rfl | hs
        · exact h3
        · exact i4 s hs

theorem updateLevels_spec (hg : Good c upd L P) (dofs ts : List ℕ) (hL : ∀ t ∈ ts, L t) :
    ∀ (s : List (Slot IQ) × State PV IQ), Coherent upd s.2 → Ptr P s.1 → dofs.length ≤ s.1.length →
      (∀ t, (t ∈ ts ∨ Plain upd s.2.sol dofs t s.1) → Plain upd s.2.sol dofs t (updateLevels c upd dofs ts s).1) ∧
      Ptr P (updateLevels c upd dofs ts s).1 ∧
      Coherent upd (updateLevels c upd dofs ts s).2 ∧ (updateLevels c upd dofs ts s).2.sol = s.2.sol := by
  induction ts with
  | nil =>
    intro s h hp _
    exact ⟨fun t ht => ht.resolve_left (by simp), hp, h, rfl⟩
  | cons t ts ih =>
    intro s h hp hl
    obtain ⟨h1, h2, h3, h4, h5, h6⟩ := updateLevel_spec hg t (hL t (by simp)) dofs s.1 s.2 h hp hl
    obtain ⟨i1, i2, i3, i4⟩ := ih (fun t ht => hL t (by simp [ht])) (updateLevel c upd t dofs s.1 s.2) h5 h4 (by rw [h3]; exact hl)
    simp only [updateLevels]
    refine ⟨fun τ hτ => ?_, i2, i3, i4.trans h6⟩
    rw [h6] at i1
    refine i1 τ ?_
    by_cases he : τ = t
    · right
      rw [he]
      exact h1
    · rcases hτ with hτ | hτ
      · exact Or.inl ((List.mem_cons.1 hτ).resolve_left he)
      · right
        intro i d hd
        obtain ⟨slot, hs, hq⟩ := hτ i d hd
        have := h2 τ he i
        rw [hs] at this
        cases hx : (updateLevel c upd t dofs s.1 s.2).1[i]? with
        | none => rw [hx] at this; simp at this
        | some slot' =>
          rw [hx] at this
          simp only [Option.map_some, Option.some.injEq] at this
          exact ⟨slot', rfl, this.trans hq⟩

theorem resize_length (ctx : List (Slot IQ)) (n : ℕ) : (resize ctx n).length = n := by
  unfold resize
  simp only [List.length_append, List.length_take, List.length_replicate]
  omega

theorem visit_spec (hg : Good c upd L P) (s : List (Slot IQ) × State PV IQ) (v : List ℕ × List ℕ) (hL : ∀ t ∈ v.2, L t) (h : Coherent upd s.2)
    (hp : Ptr P s.1) :
    (∀ t ∈ v.2, Plain upd s.2.sol v.1 t (visit c upd s v).1) ∧ Ptr P (visit c upd s v).1 ∧
      Coherent upd (visit c upd s v).2 ∧ (visit c upd s v).2.sol = s.2.sol := by
  obtain ⟨h1, h2, h3, h4⟩ := updateLevels_spec hg v.1 v.2 hL (resize s.1 v.1.length, s.2) h (by
    intro slot hs t
    unfold resize at hs
    rcases List.mem_append.1 hs with hs | hs
    · exact hp slot (List.mem_of_mem_take hs) t
    · rw [List.eq_of_mem_replicate hs]
      exact hg.1 t) (by rw [resize_length])
  exact ⟨fun t ht => h1 t (Or.inl ht), h2, h3, h4⟩

theorem visits_spec (hg : Good c upd L P) (st : State PV IQ) (h : Coherent upd st) (vs : List (List ℕ × List ℕ)) (hL : ∀ v ∈ vs, ∀ t ∈ v.2, L t) :
    Ptr P (visits c upd st vs).1 ∧ Coherent upd (visits c upd st vs).2 ∧ (visits c upd st vs).2.sol = st.sol := by
  unfold visits
  suffices H : ∀ (s : List (Slot IQ) × State PV IQ), Coherent upd s.2 → Ptr P s.1 →
      Ptr P (vs.foldl (visit c upd) s).1 ∧ Coherent upd (vs.foldl (visit c upd) s).2 ∧
        (vs.foldl (visit c upd) s).2.sol = s.2.sol from H ([], st) h (by intro slot hs; simp at hs)
  induction vs with
  | nil => exact fun s h hp => ⟨hp, h, rfl⟩
  | cons v vs ih =>
    intro s h hp
    obtain ⟨-, h2, h3, h4⟩ := visit_spec hg s v (hL v (by simp)) h hp
    obtain ⟨i1, i2, i3⟩ := ih (fun v hv => hL v (by simp [hv])) (visit c upd s v) h3 h2
    exact ⟨i1, i2, i3.trans h4⟩

theorem main (hg : Good c upd L P) (st : State PV IQ) (h : Coherent upd st) (vs : List (List ℕ × List ℕ)) (v : List ℕ × List ℕ)
    (hL : ∀ w ∈ vs ++ [v], ∀ t ∈ w.2, L t) :
    (∀ t ∈ v.2, Plain upd st.sol v.1 t (visits c upd st (vs ++ [v])).1) ∧
      Coherent upd (visits c upd st (vs ++ [v])).2 ∧ (visits c upd st (vs ++ [v])).2.sol = st.sol := by
  obtain ⟨h1, h2, h3⟩ := visits_spec hg st h vs fun w hw => hL w (by simp [hw])
  obtain ⟨i1, -, i3, i4⟩ := visit_spec hg (visits c upd st vs) v (hL v (by simp)) h2 h1
  rw [h3] at i1 i4
  unfold visits at *
  rw [List.foldl_append]
  exact ⟨i1, i3, i4⟩

end

/-- **C171** (part) The flash model and the model with complementarity conditions.  Whatever elements a context has visited before,
the quantities which it has after a visit of an element are those which come out without hints, for the primary variables of the
degrees of freedom of the element; so are those which it has put into the cache. -/
theorem C171_own_partial (c : Cfg) (guess : PV → G) (start : IQ → G) (solve : PV → G → IQ) (st : State PV IQ)
    (h : Coherent (ownHint guess start solve) st) (before : List (List ℕ × List ℕ)) (dofs levels : List ℕ) :
    (∀ t ∈ levels, ∀ (i d : ℕ), dofs[i]? = some d → ∃ slot,
      (visits c (ownHint guess start solve) st (before ++ [(dofs, levels)])).1[i]? = some slot ∧
        slot.iq t = solve (st.sol t d) (guess (st.sol t d))) ∧
    Coherent (ownHint guess start solve) (visits c (ownHint guess start solve) st (before ++ [(dofs, levels)])).2 := by
  have hg : Good c (ownHint guess start solve) (fun _ => True) fun _ _ => True :=
    ⟨fun _ => trivial, fun _ _ _ _ => trivial, fun st slot pv t _ _ hn => by simp [ownHint, plain, look, hn]⟩
  obtain ⟨h1, h2, -⟩ := main hg st h before (dofs, levels) fun _ _ _ _ => trivial
  exact ⟨fun t ht i d hd => h1 t ht i d hd, h2⟩

/-- **C171** (part) Any model, if hints or the cache are switched off: there are no hints. -/
theorem C171_off_partial (c : Cfg) (hc : c.hints = false ∨ c.cache = false) (upd : Update PV IQ) (st : State PV IQ)
    (h : Coherent upd st) (before : List (List ℕ × List ℕ)) (dofs levels : List ℕ) :
    (∀ t ∈ levels, ∀ (i d : ℕ), dofs[i]? = some d → ∃ slot,
      (visits c upd st (before ++ [(dofs, levels)])).1[i]? = some slot ∧ slot.iq t = plain upd (st.sol t d) t) ∧
    Coherent upd (visits c upd st (before ++ [(dofs, levels)])).2 := by
  have hg : Good c upd (fun _ => True) fun _ p => p = none :=
    ⟨fun _ => rfl, fun st d t _ => by
      unfold thermodynamicHint cached
      rcases hc with h | h <;> simp [h], fun st slot pv t _ hp _ => by
      have : look st slot = fun _ => none := by
        funext τ
        simp [look, hp τ]
      rw [this]
      rfl⟩
  obtain ⟨h1, h2, -⟩ := main hg st h before (dofs, levels) fun _ _ _ _ => trivial
  exact ⟨fun t ht i d hd => h1 t ht i d hd, h2⟩

/-- **C171** (part) The PT-flash model, if the storage term of the previous time level is cached: elements are then visited for the current
time level only, and so there is no hint of the previous one. -/
theorem C171_storage_cache_partial (c : Cfg) (hc : c.storageCache = true) (guess : PV → G) (start : IQ → G) (solve : PV → G → IQ)
    (st : State PV IQ) (h : Coherent (ownOrOlderHint guess start solve) st) (before : List (List ℕ)) (dofs : List ℕ) :
    (∀ (i d : ℕ), dofs[i]? = some d → ∃ slot,
      (visits c (ownOrOlderHint guess start solve) st ((before ++ [dofs]).map fun ds => (ds, allLevels c))).1[i]? = some slot ∧
        slot.iq 0 = solve (st.sol 0 d) (guess (st.sol 0 d))) ∧
    Coherent (ownOrOlderHint guess start solve)
      (visits c (ownOrOlderHint guess start solve) st ((before ++ [dofs]).map fun ds => (ds, allLevels c))).2 := by
  have hl : allLevels c = [0] := by simp [allLevels, hc]
  have hg : Good c (ownOrOlderHint guess start solve) (fun t => t = 0) fun t p => t = 0 ∨ p = none :=
    ⟨fun _ => .inr rfl, fun _ _ _ ht => .inl ht, fun st slot pv t ht hp hn => by
      subst ht
      have := (hp 1).resolve_left one_ne_zero
      simp [ownOrOlderHint, plain, look, hn, this]⟩
  rw [hl, List.map_append]
  obtain ⟨h1, h2, -⟩ := main hg st h (before.map fun ds => (ds, [0])) (dofs, [0]) fun w hw t ht => by
    have hw' : w.2 = [0] := by
      rcases List.mem_append.1 hw with hw | hw
      · obtain ⟨ds, -, rfl⟩ := List.mem_map.1 hw
        rfl
      · rw [List.mem_singleton.1 hw]
    rw [hw'] at ht
    exact List.mem_singleton.1 ht
  exact ⟨fun i d hd => h1 0 (by simp) i d hd, h2⟩

/-- Storage terms are cached; the cache has the quantities of one cell for the current solution. -/
example : ∃ slot, (visits ⟨2, true, true, true, false⟩ (ownOrOlderHint (fun _ => 0) id fun pv g => pv + g / 2)
    ⟨fun _ d => 10 * d + 10, fun _ _ => 10, fun t d => decide (t = 0 ∧ d = 0)⟩
    (([[0], [1]] ++ [[1, 0]]).map fun ds => (ds, allLevels ⟨2, true, true, true, false⟩))).1[1]? = some slot ∧ slot.iq 0 = 10 :=
  (C171_storage_cache_partial ⟨2, true, true, true, false⟩ rfl (fun _ => 0) id (fun pv g => pv + g / 2)
    ⟨fun _ d => 10 * d + 10, fun _ _ => 10, fun t d => decide (t = 0 ∧ d = 0)⟩ (fun t d hv => by
      simp only [decide_eq_true_eq] at hv
      obtain ⟨rfl, rfl⟩ := hv
      rfl) [[0], [1]] [1, 0]).1 1 0 rfl

/-- **C171** (violation) Hints without the cache for intensive quantities: quantities are stored, but there is never a hint. -/
theorem C171_no_cache_violated (c : Cfg) (hh : c.hints = true) (hc : c.cache = false) (st : State PV IQ) (q : IQ) (d t : ℕ) :
    (updateCached c st q t d).valid t d = true ∧ (updateCached c st q t d).cache t d = q ∧
      thermodynamicHint c (updateCached c st q t d) d t = none := by
  unfold updateCached store thermodynamicHint cached
  simp [hh, hc, setEntry]

theorem updateDof_facts (c : Cfg) (upd : Update PV IQ) (t d : ℕ) (slot : Slot IQ) (st : State PV IQ) :
    (updateDof c upd t d slot st).1.hint = Function.update slot.hint t (thermodynamicHint c st d t) ∧
    (updateDof c upd t d slot st).2.sol = st.sol ∧
    ∀ t' d', (t' ≠ t ∨ d' ≠ d) → (updateDof c upd t d slot st).2.valid t' d' = st.valid t' d' ∧
      (updateDof c upd t d slot st).2.cache t' d' = st.cache t' d' := by
  have key : ∀ q, (updateCached c st q t d).sol = st.sol ∧ ∀ t' d', (t' ≠ t ∨ d' ≠ d) →
      (updateCached c st q t d).valid t' d' = st.valid t' d' ∧ (updateCached c st q t d).cache t' d' = st.cache t' d' := by
    intro q
    unfold updateCached
    split
    · exact ⟨rfl, fun _ _ _ => ⟨rfl, rfl⟩⟩
    · refine ⟨rfl, fun t' d' h => ?_⟩
      simp only [setEntry]
      by_cases ht : t' = t
      · subst ht
        have hd := h.resolve_left (fun h => h rfl)
        simp [Function.update_of_ne hd]
      · simp [Function.update_of_ne ht]
  unfold updateDof
  simp only
  cases cached c st t d with
  | some q => exact ⟨rfl, rfl, fun _ _ _ => ⟨rfl, rfl⟩⟩
  | none => exact ⟨rfl, (key _).1, (key _).2⟩

theorem updateLevel_hint (c : Cfg) (upd : Update PV IQ) (t : ℕ) (dofs : List ℕ) :
    ∀ (ctx : List (Slot IQ)) (st : State PV IQ), dofs.length ≤ ctx.length →
      (updateLevel c upd t dofs ctx st).1.length = ctx.length ∧
      ∀ (i d : ℕ), dofs[i]? = some d → ∃ slot slot', ctx[i]? = some slot ∧ (updateLevel c upd t dofs ctx st).1[i]? = some slot' ∧
        (slot'.hint t = none ∨ slot'.hint t = some (t, d)) ∧ ∀ τ, τ ≠ t → slot'.hint τ = slot.hint τ := by
  induction dofs with
  | nil => exact fun ctx st _ => ⟨rfl, fun i d hd => by simp at hd⟩
  | cons d ds ih =>
    intro ctx st hl
    cases ctx with
    | nil => simp at hl
    | cons slot ctx =>
      obtain ⟨h1, -, -⟩ := updateDof_facts c upd t d slot st
      obtain ⟨i1, i2⟩ := ih ctx (updateDof c upd t d slot st).2 (by simpa using hl)
      simp only [updateLevel]
      refine ⟨by simp [i1], fun i d' hd' => ?_⟩
      cases i with
      | zero =>
        simp only [List.getElem?_cons_zero, Option.some.injEq] at hd'
        subst hd'
        refine ⟨_, _, rfl, rfl, ?_, fun τ hτ => by rw [h1, Function.update_of_ne hτ]⟩
        rw [h1, Function.update_self]
        unfold thermodynamicHint
        split
        · exact Or.inl rfl
        · split
          · exact Or.inr rfl
          · exact Or.inl rfl
      | succ i =>
        rw [List.getElem?_cons_succ] at hd'
        simpa using i2 i d' hd'

theorem updateLevels_hint (c : Cfg) (upd : Update PV IQ) (dofs ts : List ℕ) :
    ∀ (s : List (Slot IQ) × State PV IQ), dofs.length ≤ s.1.length →
      ∀ (i d : ℕ), dofs[i]? = some d → ∃ slot', (updateLevels c upd dofs ts s).1[i]? = some slot' ∧
        ∀ t, (t ∈ ts ∨ ∃ slot, s.1[i]? = some slot ∧ (slot.hint t = none ∨ slot.hint t = some (t, d))) →
          slot'.hint t = none ∨ slot'.hint t = some (t, d) := by
  induction ts with
  | nil =>
    intro s hl i d hd
    have hi : i < s.1.length := lt_of_lt_of_le (List.getElem?_eq_some_iff.1 hd).1 hl
    refine ⟨s.1[i], by simp [updateLevels, hi], fun t ht => ?_⟩
    obtain ⟨slot, hs, h⟩ := ht.resolve_left (by simp)
    rw [List.getElem?_eq_getElem hi, Option.some.injEq] at hs
    rw [hs]
    exact h
  | cons t ts ih =>
    intro s hl i d hd
    obtain ⟨h1, h2⟩ := updateLevel_hint c upd t dofs s.1 s.2 hl
    obtain ⟨slot, slot', hs, hs', h3, h4⟩ := h2 i d hd
    obtain ⟨r, hr, h5⟩ := ih (updateLevel c upd t dofs s.1 s.2) (by rw [h1]; exact hl) i d hd
    refine ⟨r, hr, fun τ hτ => h5 τ ?_⟩
    by_cases he : τ = t
    · right
      rw [he]
      exact ⟨slot', hs', h3⟩
    · rcases hτ with hτ | ⟨x, hx, hτ⟩
      · exact Or.inl ((List.mem_cons.1 hτ).resolve_left he)
      · right
        rw [hs, Option.some.injEq] at hx
        subst hx
        exact ⟨slot', hs', by rw [h4 τ he]; exact hτ⟩

/-- **C171** (part) After a visit of an element, the hints for the time levels which have been updated are those of the degrees of
freedom themselves; these are the ones used if quantities are evaluated again for changed primary variables.  This holds for any
model and any history of the context. -/
theorem C171_pointer_partial (c : Cfg) (upd : Update PV IQ) (st : State PV IQ) (before : List (List ℕ × List ℕ)) (dofs levels : List ℕ) :
    ∀ t ∈ levels, ∀ (i d : ℕ), dofs[i]? = some d → ∃ slot, (visits c upd st (before ++ [(dofs, levels)])).1[i]? = some slot ∧
      (slot.hint t = none ∨ slot.hint t = some (t, d)) := by
  intro t ht i d hd
  unfold visits
  rw [List.foldl_append]
  obtain ⟨slot, hs, h⟩ := updateLevels_hint c upd dofs levels (resize (visits c upd st before).1 dofs.length, (visits c upd st before).2)
    (by rw [resize_length]) i d hd
  exact ⟨slot, hs, h t (Or.inl ht)⟩

/-- **C171** (violation) A hint of another cell.  The context of a simulation with two time levels visits an element with one degree
of freedom and then another one.  For the quantities of the second one at the current time the hint for the previous time is the one
of the first element, not its own. -/
theorem C171_foreign_violated (c : Cfg) (hh : c.hints = true) (hc : c.cache = true) (upd : Update PV IQ) (st : State PV IQ) (a b : ℕ)
    (hab : a ≠ b) (ha : st.valid 1 a = true) (hb : st.valid 0 b = false) :
    ∃ slot, (visits c upd st [([a], [0, 1]), ([b], [0, 1])]).1 = [slot] ∧
      slot.iq 0 = upd (st.sol 0 b) (fun t => if t = 1 then some (st.cache 1 a) else none) 0 := by
  let r1 := updateDof c upd 0 a Slot.fresh st
  let r2 := updateDof c upd 1 a r1.1 r1.2
  let r3 := updateDof c upd 0 b r2.1 r2.2
  let r4 := updateDof c upd 1 b r3.1 r3.2
  obtain ⟨h1, s1, o1⟩ := updateDof_facts c upd 0 a Slot.fresh st
  obtain ⟨h2, s2, o2⟩ := updateDof_facts c upd 1 a r1.1 r1.2
  have hva : r1.2.valid 1 a = true := by rw [(o1 1 a (Or.inl one_ne_zero)).1, ha]
  have hca : r1.2.cache 1 a = st.cache 1 a := (o1 1 a (Or.inl one_ne_zero)).2
  have hcached : cached c r1.2 1 a = some (st.cache 1 a) := by
    unfold cached
    simp [hc, hva, hca]
  have hr2 : r2.2 = r1.2 := by
    change (updateDof c upd 1 a r1.1 r1.2).2 = r1.2
    unfold updateDof
    simp only [hcached]
  have hvb : r2.2.valid 0 b = false := by rw [hr2, (o1 0 b (Or.inr hab.symm)).1, hb]
  have hcb : cached c r2.2 0 b = none := by
    unfold cached
    simp [hvb]
  have hhint : ∀ τ, r2.1.hint τ = if τ = 1 then some (1, a) else if τ = 0 then thermodynamicHint c st a 0 else none := by
    intro τ
    change (updateDof c upd 1 a r1.1 r1.2).1.hint τ = _
    rw [h2]
    by_cases hτ : τ = 1
    · subst hτ
      rw [Function.update_self, if_pos rfl]
      unfold thermodynamicHint
      simp [hh, hcached]
    · rw [Function.update_of_ne hτ, if_neg hτ]
      change (updateDof c upd 0 a Slot.fresh st).1.hint τ = _
      rw [h1]
      by_cases h0 : τ = 0
      · subst h0
        rw [Function.update_self, if_pos rfl]
      · rw [Function.update_of_ne h0, if_neg h0]
        rfl
  have hr3 : r3.1.iq 0 = upd (st.sol 0 b) (fun t => if t = 1 then some (st.cache 1 a) else none) 0 := by
    change (updateDof c upd 0 b r2.1 r2.2).1.iq 0 = _
    unfold updateDof
    simp only [hcb, Function.update_self]
    have hl : look r2.2 { r2.1 with hint := Function.update r2.1.hint 0 (thermodynamicHint c r2.2 b 0) } =
        fun t => if t = 1 then some (st.cache 1 a) else none := by
      funext τ
      unfold look
      by_cases h0 : τ = 0
      · subst h0
        simp [hint_none hcb]
      · simp only [Function.update_of_ne h0, hhint τ, if_neg h0]
        by_cases h1 : τ = 1
        · simp [h1, hr2, hca]
        · simp [h1]
    rw [hl, hr2, s1]
  refine ⟨r4.1, rfl, ?_⟩
  rw [← hr3]
  change (updateDof c upd 1 b r3.1 r3.2).1.iq 0 = r3.1.iq 0
  unfold updateDof
  simp only
  cases cached c r3.2 1 b <;> simp

/-- **C171** (violation) So the quantities of a cell depend on which element the context has visited before.  Here cells have numbers as
primary variables, and the solver adds one half of the value it starts with. -/
theorem C171_order_violated :
    ∃ (c : Cfg) (st : State ℕ ℕ), c.storageCache = false ∧
      Coherent (ownOrOlderHint (fun _ => 0) id fun pv g => pv + g / 2) st ∧
      ((visits c (ownOrOlderHint (fun _ => 0) id fun pv g => pv + g / 2) st [([0], allLevels c), ([1], allLevels c)]).1.map
        fun slot => slot.iq 0) ≠
      ((visits c (ownOrOlderHint (fun _ => 0) id fun pv g => pv + g / 2) st [([1], allLevels c)]).1.map fun slot => slot.iq 0) := by
  refine ⟨⟨2, true, true, false, false⟩, ⟨fun _ d => 10 * d + 10, fun _ _ => 10, fun t d => decide (t = 1 ∧ d = 0)⟩, rfl, ?_, ?_⟩
  · intro t d hv
    simp only [decide_eq_true_eq] at hv
    obtain ⟨rfl, rfl⟩ := hv
    rfl
  · decide

/-- The hypotheses are met: the flash model, two elements with two degrees of freedom, two time levels. -/
example :
    let upd : Update ℕ ℕ := ownHint (fun pv => 2 * pv) id fun pv g => pv + g / 2
    let st : State ℕ ℕ := ⟨fun t d => 10 * d + t, fun _ _ => 0, fun _ _ => false⟩
    Coherent upd st ∧
      (visits ⟨2, true, true, false, false⟩ upd st [([0, 1], [0, 1]), ([1, 2], [0, 1])]).1.map (fun slot => (slot.iq 0, slot.iq 1)) =
        [(20, 22), (40, 42)] := by
  refine ⟨fun t d h => by simp at h, by decide⟩


end Verif.Hints
