import Verif.Params.Lemmas

set_option autoImplicit false
namespace Verif.Params

theorem runOps_snoc (hist : List RegOp) (op : RegOp) :
    runOps (hist ++ [op]) = (applyOp (runOps hist) op).2 := by
  simp [runOps]

theorem takeWhile_snoc_stop {α : Type} (p : α → Bool) (xs : List α) (x : α) (h : ∃ y ∈ xs, p y = false) :
    (xs ++ [x]).takeWhile p = xs.takeWhile p := by
  induction xs with
  | nil => simp at h
  | cons y ys ih =>
    by_cases hy : p y = true
    · simp [hy]
      apply ih
      obtain ⟨z, hz, hpz⟩ := h
      rcases List.mem_cons.1 hz with rfl | hz
      · simp [hy] at hpz
      · exact ⟨z, hz, hpz⟩
    · simp [hy]

theorem dropWhile_snoc_stop {α : Type} (p : α → Bool) (xs : List α) (x : α) (h : ∃ y ∈ xs, p y = false) :
    (xs ++ [x]).dropWhile p = xs.dropWhile p ++ [x] := by
  induction xs with
  | nil => simp at h
  | cons y ys ih =>
    by_cases hy : p y = true
    · simp [hy]
      apply ih
      obtain ⟨z, hz, hpz⟩ := h
      rcases List.mem_cons.1 hz with rfl | hz
      · simp [hy] at hpz
      · exact ⟨z, hz, hpz⟩
    · simp [hy]

theorem takeWhile_all {α : Type} (p : α → Bool) (xs : List α) (h : ∀ y ∈ xs, p y = true) :
    xs.takeWhile p = xs := by
  induction xs with
  | nil => rfl
  | cons y ys ih => simp [h y (by simp), ih (fun z hz => h z (by simp [hz]))]

theorem dropWhile_all {α : Type} (p : α → Bool) (xs : List α) (h : ∀ y ∈ xs, p y = true) :
    xs.dropWhile p = [] := by
  induction xs with
  | nil => rfl
  | cons y ys ih => simp [h y (by simp), ih (fun z hz => h z (by simp [hz]))]

theorem firstRegistration_snoc_closed (hist : List RegOp) (op : RegOp) (name : Str)
    (h : RegOp.endRegistration ∈ hist) :
    firstRegistration (hist ++ [op]) name = firstRegistration hist name := by
  unfold firstRegistration
  rw [takeWhile_snoc_stop _ _ _ ⟨_, h, by simp⟩]

theorem firstRegistration_snoc_open (hist : List RegOp) (op : RegOp) (name : Str)
    (h : RegOp.endRegistration ∉ hist) :
    firstRegistration (hist ++ [op]) name = (firstRegistration hist name).or (op.registers name) := by
  unfold firstRegistration
  have h1 : hist.takeWhile (fun op => decide (op ≠ .endRegistration)) = hist := by
    apply takeWhile_all
    intro y hy
    have : y ≠ .endRegistration := fun e => h (e ▸ hy)
    simp [this]
  by_cases hop : op = .endRegistration
  · subst hop
    rw [List.takeWhile_append, h1]
    simp [RegOp.registers]
  · have h2 : (hist ++ [op]).takeWhile (fun op => decide (op ≠ .endRegistration)) = hist ++ [op] := by
      apply takeWhile_all
      intro y hy
      rcases List.mem_append.1 hy with hy | hy
      · have : y ≠ .endRegistration := fun e => h (e ▸ hy)
        simp [this]
      · simp at hy; subst hy; simp [hop]
    rw [h1, h2]
    simp [List.findSome?_append]

theorem firstRegistration_some_mem {hist : List RegOp} {name : Str} {info : ParamInfo}
    (h : firstRegistration hist name = some info) : ∃ op ∈ hist, op.registers name = some info := by
  unfold firstRegistration at h
  obtain ⟨op, hop, h⟩ := List.exists_of_findSome?_eq_some h
  exact ⟨op, (List.takeWhile_prefix _).subset hop, h⟩

theorem lastOverride_snoc_registered (hist : List RegOp) (op : RegOp) (name : Str) (info : ParamInfo)
    (h : firstRegistration hist name = some info) :
    lastOverride (hist ++ [op]) name = (op.overrides name).or (lastOverride hist name) := by
  obtain ⟨o, ho, hr⟩ := firstRegistration_some_mem h
  unfold lastOverride
  rw [dropWhile_snoc_stop _ _ _ ⟨o, ho, by simp [hr]⟩]
  simp [List.findSome?_cons]
  cases op.overrides name <;> simp

theorem lastOverride_snoc_new (hist : List RegOp) (op : RegOp) (name : Str) (info : ParamInfo)
    (hopen : RegOp.endRegistration ∉ hist)
    (h : firstRegistration hist name = none) (hop : op.registers name = some info) :
    lastOverride (hist ++ [op]) name = none := by
  have hall : ∀ y ∈ hist, (y.registers name).isNone = true := by
    unfold firstRegistration at h
    rw [List.findSome?_eq_none_iff] at h
    intro y hy
    have := h y (by
      rw [takeWhile_all]
      · exact hy
      · intro z hz
        have : z ≠ .endRegistration := fun e => hopen (e ▸ hz)
        simp [this])
    simp [this]
  unfold lastOverride
  rw [List.dropWhile_append, dropWhile_all _ _ hall]
  simp [hop]
  cases op <;> simp_all [RegOp.registers, RegOp.overrides]

/-- What the registry knows about `name` after `hist`. -/
def RegistryMatches (hist : List RegOp) (s : Store) (name : Str) : Prop :=
  match firstRegistration hist name with
  | none => s.registry.get name = none
  | some info => ∃ h, s.registry.get name =
      some { info with default := (lastOverride hist name).getD info.default, hidden := h }

theorem runOps_matches (hist : List RegOp) :
    ((runOps hist).isOpen = true ↔ RegOp.endRegistration ∉ hist) ∧ (runOps hist).tree = [] ∧
      ∀ name, RegistryMatches hist (runOps hist) name := by
  suffices H : ∀ l : List RegOp, ((runOps l.reverse).isOpen = true ↔ RegOp.endRegistration ∉ l.reverse) ∧
      (runOps l.reverse).tree = [] ∧ ∀ name, RegistryMatches l.reverse (runOps l.reverse) name by
    have := H hist.reverse
    simpa using this
  intro l
  induction l with
  | nil => simp [runOps, Store.init, RegistryMatches, firstRegistration]
  | cons op l ih =>
    simp only [List.reverse_cons]
    generalize l.reverse = hist at ih ⊢
    obtain ⟨ihO, ihT, ihM⟩ := ih
    rw [runOps_snoc]
    generalize runOps hist = s at ihO ihT ihM ⊢
    -- helper: nothing about `name` changes
    have keep : ∀ (s' : Store) (name : Str), op.registers name = none → op.overrides name = none →
        s'.registry.get name = s.registry.get name → RegistryMatches (hist ++ [op]) s' name := by
      intro s' name h1 h2 h3
      have hM := ihM name
      unfold RegistryMatches at hM ⊢
      by_cases hc : RegOp.endRegistration ∈ hist
      · rw [firstRegistration_snoc_closed _ _ _ hc]
        cases hf : firstRegistration hist name with
        | none => simp only [hf] at hM ⊢; rw [h3, hM]
        | some info =>
          simp only [hf] at hM ⊢
          rw [lastOverride_snoc_registered _ _ _ _ hf, h2, h3]
          simpa using hM
      · rw [firstRegistration_snoc_open _ _ _ hc, h1, Option.or_none]
        cases hf : firstRegistration hist name with
        | none => simp only [hf] at hM ⊢; rw [h3, hM]
        | some info =>
          simp only [hf] at hM ⊢
          rw [lastOverride_snoc_registered _ _ _ _ hf, h2, h3]
          simpa using hM
    cases op with
    | endRegistration =>
      simp only [applyOp, Store.endRegistration]
      by_cases ho : s.isOpen = true
      · simp [ho, ihT]
        intro name
        exact keep _ name rfl rfl rfl
      · simp [ho, ihT]
        intro name
        exact keep _ name rfl rfl rfl
    | hide n =>
      simp only [applyOp, Store.hide]
      by_cases ho : s.isOpen = true
      · have hnot := ihO.1 ho
        simp only [ho, Bool.not_true, Bool.false_eq_true, if_false]
        cases hg : s.registry.get n with
        | none =>
          simp [ho, hnot, ihT]
          intro name
          exact keep _ name rfl rfl rfl
        | some info =>
          simp [hnot, ihT]
          intro name
          by_cases hn : name = n
          · subst hn
            have hM := ihM name
            unfold RegistryMatches at hM ⊢
            rw [firstRegistration_snoc_open _ _ _ hnot]
            simp only [RegOp.registers, Option.or_none]
            cases hf : firstRegistration hist name with
            | none => simp [hf, hg] at hM
            | some i =>
              simp only [hf] at hM ⊢
              obtain ⟨h, hM⟩ := hM
              rw [lastOverride_snoc_registered _ _ _ _ hf]
              rw [hg] at hM
              cases hM
              refine ⟨true, ?_⟩
              simp [Dict.get_set, RegOp.overrides]
          · apply keep _ name rfl rfl
            simp [Dict.get_set, hn]
      · simp only [ho]
        simp [ihT]
        refine ⟨by simpa [ho] using ihO, fun name => keep _ name rfl rfl rfl⟩
    | setDefault n v =>
      simp only [applyOp, Store.setDefault]
      cases hg : s.registry.get n with
      | none =>
        refine ⟨by simpa using ihO, ihT, ?_⟩
        intro name
        by_cases hn : n = name
        · subst hn
          have hM := ihM n
          unfold RegistryMatches at hM ⊢
          by_cases hc : RegOp.endRegistration ∈ hist
          · rw [firstRegistration_snoc_closed _ _ _ hc]
            cases hf : firstRegistration hist n with
            | none => simp [hg]
            | some i => simp [hf, hg] at hM
          · rw [firstRegistration_snoc_open _ _ _ hc]
            cases hf : firstRegistration hist n with
            | none => simp [RegOp.registers, hg]
            | some i => simp [hf, hg] at hM
        · exact keep _ name rfl (by simp [RegOp.overrides, hn]) rfl
      | some info =>
        refine ⟨by simpa using ihO, ihT, ?_⟩
        intro name
        by_cases hn : n = name
        · subst hn
          have hM := ihM n
          unfold RegistryMatches at hM ⊢
          have hfr : firstRegistration (hist ++ [RegOp.setDefault n v]) n = firstRegistration hist n := by
            by_cases hc : RegOp.endRegistration ∈ hist
            · rw [firstRegistration_snoc_closed _ _ _ hc]
            · rw [firstRegistration_snoc_open _ _ _ hc]; simp [RegOp.registers]
          rw [hfr]
          cases hf : firstRegistration hist n with
          | none => simp [hf, hg] at hM
          | some i =>
            simp only [hf] at hM ⊢
            obtain ⟨h, hM⟩ := hM
            rw [lastOverride_snoc_registered _ _ _ _ hf]
            rw [hg] at hM
            cases hM
            exact ⟨h, by simp [Dict.get_set, RegOp.overrides]⟩
        · apply keep _ name rfl (by simp [RegOp.overrides, hn])
          have : ¬ name = n := fun h => hn h.symm
          simp [Dict.get_set, this]
    | register n i =>
      simp only [applyOp, Store.register]
      by_cases ho : s.isOpen = true
      · have hnot := ihO.1 ho
        simp only [ho, Bool.not_true, Bool.false_eq_true, if_false]
        cases hg : s.registry.get n with
        | some old =>
          have goal : ∀ s' : Store, s'.registry = s.registry →
              ∀ name, RegistryMatches (hist ++ [RegOp.register n i]) s' name := by
            intro s' hs' name
            by_cases hn : n = name
            · subst hn
              have hM := ihM n
              unfold RegistryMatches at hM ⊢
              rw [firstRegistration_snoc_open _ _ _ hnot, hs']
              cases hf : firstRegistration hist n with
              | none => simp [hf, hg] at hM
              | some j =>
                simp only [hf] at hM ⊢
                rw [lastOverride_snoc_registered _ _ _ _ hf]
                simpa [RegOp.overrides] using hM
            · exact keep _ name (by simp [RegOp.registers, hn]) rfl (by rw [hs'])
          by_cases hsame : old.same i = true
          · simp only [hsame, if_true]
            exact ⟨by simp [hnot], ihT, goal _ rfl⟩
          · simp only [hsame]
            exact ⟨by simp [hnot], ihT, goal _ rfl⟩
        | none =>
          refine ⟨by simp [hnot], ihT, ?_⟩
          intro name
          by_cases hn : n = name
          · subst hn
            have hM := ihM n
            unfold RegistryMatches at hM ⊢
            rw [firstRegistration_snoc_open _ _ _ hnot]
            cases hf : firstRegistration hist n with
            | some j => simp [hf, hg] at hM
            | none =>
              have hr : (RegOp.register n i).registers n = some i := by simp [RegOp.registers]
              simp only [hr, Option.none_or]
              rw [lastOverride_snoc_new _ _ _ _ hnot hf hr]
              exact ⟨false, by simp [Dict.get_set]⟩
          · apply keep _ name (by simp [RegOp.registers, hn]) rfl
            have : ¬ name = n := fun h => hn h.symm
            simp [Dict.get_set, this]
      · have hyes : RegOp.endRegistration ∈ hist := Classical.not_not.1 (fun h => ho (ihO.2 h))
        simp only [ho]
        refine ⟨by simp [ho, hyes], ihT, ?_⟩
        intro name
        by_cases hn : n = name
        · subst hn
          have hM := ihM n
          unfold RegistryMatches at hM ⊢
          rw [firstRegistration_snoc_closed _ _ _ hyes]
          cases hf : firstRegistration hist n with
          | none => simpa [hf] using hM
          | some j =>
            simp only [hf] at hM ⊢
            rw [lastOverride_snoc_registered _ _ _ _ hf]
            simpa [RegOp.overrides] using hM
        · exact keep _ name (by simp [RegOp.registers, hn]) rfl rfl

end Verif.Params
