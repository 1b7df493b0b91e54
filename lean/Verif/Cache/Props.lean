import Verif.Cache.Model
import Mathlib.Tactic.Linarith
import Mathlib.Algebra.Order.Field.Rat
import Mathlib.Algebra.BigOperators.Group.List.Basic
/-
C31, C32, C11, C35: cached quantities, time levels and failed time steps.
-/

set_option autoImplicit false
set_option linter.unusedSimpArgs false
set_option linter.unusedSectionVars false

namespace Verif.Cache

variable {PV IQ : Type}

/-! ### Vocabulary -/

/-- At time index `t`, whoever asks for the intensive quantities of a degree of freedom gets those which belong to its
primary variables of that time index. -/
def UpToDate (c : Cfg) (upd : PV → IQ) (s : State PV IQ) (t : ℕ) : Prop :=
  ∀ d, (access c upd s t d).1 = upd (s.sol t d)

/-- The operations other than applying constraints and evaluating the residual for a foreign solution. -/
def Usual : Op PV → Prop
  | .constrain _ _ => False
  | .residualFor _ _ => False
  | _ => True

/-! ### Lemmas -/

/-- Valid entries of row `t` are right. -/
def Coh (upd : PV → IQ) (s : State PV IQ) (t : ℕ) : Prop := ∀ d, s.valid t d = true → s.cache t d = upd (s.sol t d)

theorem upToDate_of_coh (c : Cfg) (upd : PV → IQ) (s : State PV IQ) (t : ℕ) (h : Coh upd s t) : UpToDate c upd s t := by
  intro d
  unfold access cached
  by_cases hc : c.cache = true
  · by_cases hv : s.valid t d = true
    · simp [hc, hv, h d hv]
    · simp [hc, hv]
  · simp [hc]

@[simp] theorem setEntry_apply {α : Type} (f : ℕ → ℕ → α) (t d : ℕ) (a : α) (t' d' : ℕ) :
    setEntry f t d a t' d' = if t' = t ∧ d' = d then a else f t' d' := by
  unfold setEntry
  by_cases h : t' = t
  · subst h
    by_cases h' : d' = d
    · subst h'; simp
    · simp [h']
  · simp [h]

@[simp] theorem setRow_apply {α : Type} (f : ℕ → ℕ → α) (t : ℕ) (r : ℕ → α) (t' : ℕ) :
    setRow f t r t' = if t' = t then r else f t' := by
  unfold setRow
  by_cases h : t' = t
  · subst h; simp
  · simp [h]

theorem access_sol (c : Cfg) (upd : PV → IQ) (s : State PV IQ) (t d : ℕ) : (access c upd s t d).2.sol = s.sol := by
  unfold access updateCached
  split
  · rfl
  · split <;> rfl

theorem access_coh (c : Cfg) (upd : PV → IQ) (s : State PV IQ) (t d t' : ℕ) (h : Coh upd s t') :
    Coh upd (access c upd s t d).2 t' := by
  unfold access
  split
  · exact h
  · unfold updateCached
    split
    · exact h
    · intro d' hv
      simp only [setEntry_apply] at hv ⊢
      split
      · rename_i hh; rw [hh.1, hh.2]
      · rename_i hh; simp only [hh, if_false] at hv; exact h d' hv

theorem accessAll_sol (c : Cfg) (upd : PV → IQ) (t : ℕ) (ds : List ℕ) :
    ∀ s : State PV IQ, (accessAll c upd s t ds).sol = s.sol := by
  induction ds with
  | nil => intro s; rfl
  | cons d ds ih => intro s; simp only [accessAll]; rw [ih, access_sol]

theorem accessAll_coh (c : Cfg) (upd : PV → IQ) (t t' : ℕ) (ds : List ℕ) :
    ∀ s : State PV IQ, Coh upd s t' → Coh upd (accessAll c upd s t ds) t' := by
  induction ds with
  | nil => intro s h; exact h
  | cons d ds ih => intro s h; exact ih _ (access_coh c upd s t d t' h)

/-- nothing is valid, because nothing is ever stored -/
def Dead (c : Cfg) (s : State PV IQ) : Prop := store c = false → ∀ t d, t < c.hist → s.valid t d = false

theorem invalidate_sol (c : Cfg) (s : State PV IQ) (t : ℕ) : (invalidate c s t).sol = s.sol := by
  unfold invalidate; split <;> rfl

theorem invalidate_coh (c : Cfg) (upd : PV → IQ) (s : State PV IQ) (t t' : ℕ) (hs : store c = true)
    (h : t' ≠ t → Coh upd s t') : Coh upd (invalidate c s t) t' := by
  intro d hv
  simp only [invalidate, hs, if_true, setRow_apply] at hv ⊢
  by_cases ht : t' = t
  · simp [ht] at hv
  · simp only [ht, if_false] at hv; exact h ht d hv

/-- The loop over the time indices copies row 0 to all rows behind it. -/
theorem shiftLoop_spec (s : State PV IQ) (k fuel : ℕ) :
    (shiftLoop s k fuel).sol = s.sol ∧
      ∀ t, (shiftLoop s k fuel).cache t = (if k ≤ t ∧ t ≤ k + fuel then s.cache k else s.cache t) ∧
        (shiftLoop s k fuel).valid t = if k ≤ t ∧ t ≤ k + fuel then s.valid k else s.valid t := by
  induction fuel generalizing s k with
  | zero =>
    refine ⟨rfl, fun t => ?_⟩
    simp only [shiftLoop]
    by_cases h : k ≤ t ∧ t ≤ k + 0
    · have : t = k := by omega
      subst this; simp
    · rw [if_neg h, if_neg h]; exact ⟨rfl, rfl⟩
  | succ fuel ih =>
    obtain ⟨h1, h2⟩ := ih { s with cache := setRow s.cache (k + 1) (s.cache k),
                                   valid := setRow s.valid (k + 1) (s.valid k) } (k + 1)
    refine ⟨h1, fun t => ?_⟩
    obtain ⟨h3, h4⟩ := h2 t
    simp only [shiftLoop]
    rw [h3, h4]
    simp only [setRow_apply, if_true]
    by_cases hk : t = k
    · subst hk; simp
    · by_cases h : k ≤ t ∧ t ≤ k + (fuel + 1)
      · rw [if_pos h, if_pos h, if_pos (by omega), if_pos (by omega)]; exact ⟨rfl, rfl⟩
      · rw [if_neg h, if_neg h, if_neg (by omega), if_neg (by omega), if_neg (by omega), if_neg (by omega)]
        exact ⟨rfl, rfl⟩

/-! ### C31 -/

/-- If nothing is stored then every access is computed from the primary variables. -/
theorem upToDate_no_cache (c : Cfg) (upd : PV → IQ) (s : State PV IQ) (t : ℕ) (h : c.cache = false) :
    UpToDate c upd s t := by
  intro d; simp [access, cached, h]

theorem store_of_cache {c : Cfg} (h : c.cache = true) : store c = true := by simp [store, h]

theorem coh0_step (c : Cfg) (upd : PV → IQ) (s : State PV IQ) (op : Op PV) (hc : c.cache = true) (hh : 0 < c.hist)
    (hu : Usual op) (h : Coh upd s 0) : Coh upd (step c upd s op) 0 := by
  have hst := store_of_cache hc
  cases op with
  | access t d => exact access_coh c upd s t d 0 h
  | newtonUpdate next => exact invalidate_coh c upd _ 0 0 hst (fun h => absurd rfl h)
  | updateFailed dofs => exact accessAll_coh c upd 0 0 dofs _ (invalidate_coh c upd _ 0 0 hst (fun h => absurd rfl h))
  | advance =>
    simp only [step, advance, shift, hst]
    by_cases hr : (c.storageCache && c.recycle) = true
    · simp only [hr, if_true]; intro d hv; simpa using h d hv
    · simp only [hr]
      obtain ⟨h1, h2⟩ := shiftLoop_spec ({ s with sol := setRow s.sol 1 (s.sol 0) } : State PV IQ) 0 (c.hist - 1)
      intro d hv
      simp only [Bool.not_true, Bool.false_eq_true, if_false] at hv ⊢
      rw [(h2 0).2] at hv
      rw [(h2 0).1, h1]
      simp at hv ⊢
      exact h d hv
  | invalidate t =>
    exact invalidate_coh c upd s t 0 hst fun _ => h
  | invalidateEntry t d =>
    simp only [step, invalidateEntry, hst]
    intro d' hv
    simp only [Bool.not_true, Bool.false_eq_true, if_false, setEntry_apply] at hv ⊢
    split at hv
    · cases hv
    · exact h d' hv
  | write t d v =>
    simp only [step, invalidateEntry, hst]
    intro d' hv
    simp only [Bool.not_true, Bool.false_eq_true, if_false, setEntry_apply] at hv ⊢
    split at hv
    · cases hv
    · rename_i hne; rw [if_neg hne]; exact h d' hv
  | adapt sol =>
    simp only [step, adapt, hst, if_true]
    intro d hv
    simp [hh] at hv
  | constrain d v => exact absurd hu id
  | residualFor u dofs => exact absurd hu id

theorem coh1_step (c : Cfg) (upd : PV → IQ) (s : State PV IQ) (op : Op PV) (hc : c.cache = true) (hh : 2 ≤ c.hist)
    (hs : (c.storageCache && c.recycle) = false)
    (hu : Usual op) (h0 : Coh upd s 0) (h : Coh upd s 1) : Coh upd (step c upd s op) 1 := by
  have hst := store_of_cache hc
  cases op with
  | access t d => exact access_coh c upd s t d 1 h
  | newtonUpdate next =>
    exact invalidate_coh c upd _ 0 1 hst (fun _ d hv => by simpa using h d hv)
  | updateFailed dofs =>
    exact accessAll_coh c upd 0 1 dofs _ (invalidate_coh c upd _ 0 1 hst (fun _ d hv => by simpa using h d hv))
  | advance =>
    simp only [step, advance, shift, hst, hs]
    obtain ⟨h1, h2⟩ := shiftLoop_spec ({ s with sol := setRow s.sol 1 (s.sol 0) } : State PV IQ) 0 (c.hist - 1)
    intro d hv
    simp only [Bool.not_true, Bool.false_eq_true, if_false] at hv ⊢
    rw [(h2 1).2] at hv
    rw [(h2 1).1, h1]
    have hle : 0 ≤ 1 ∧ 1 ≤ 0 + (c.hist - 1) := by omega
    rw [if_pos hle] at hv ⊢
    simp only [setRow_apply, if_true]
    exact h0 d hv
  | invalidate t => exact invalidate_coh c upd s t 1 hst fun _ => h
  | invalidateEntry t d =>
    simp only [step, invalidateEntry, hst]
    intro d' hv
    simp only [Bool.not_true, Bool.false_eq_true, if_false, setEntry_apply] at hv ⊢
    split at hv
    · cases hv
    · exact h d' hv
  | write t d v =>
    simp only [step, invalidateEntry, hst]
    intro d' hv
    simp only [Bool.not_true, Bool.false_eq_true, if_false, setEntry_apply] at hv ⊢
    split at hv
    · cases hv
    · rename_i hne; rw [if_neg hne]; exact h d' hv
  | adapt sol =>
    simp only [step, adapt, hst, if_true]
    intro d hv
    have : 1 < c.hist := by omega
    simp [this] at hv
  | constrain d v => exact absurd hu id
  | residualFor u dofs => exact absurd hu id

theorem coh_exec (c : Cfg) (upd : PV → IQ) (ops : List (Op PV)) (hc : c.cache = true) (hh : 2 ≤ c.hist)
    (hu : ∀ op ∈ ops, Usual op) : ∀ s : State PV IQ, Coh upd s 0 →
      Coh upd (exec c upd s ops) 0 ∧
        ((c.storageCache && c.recycle) = false → Coh upd s 1 → Coh upd (exec c upd s ops) 1) := by
  induction ops with
  | nil => intro s h; exact ⟨h, fun _ h1 => h1⟩
  | cons op ops ih =>
    intro s h
    have h0 := coh0_step c upd s op hc (by omega) (hu op (by simp)) h
    obtain ⟨h2, h3⟩ := ih (fun o ho => hu o (by simp [ho])) (step c upd s op) h0
    refine ⟨h2, fun hs h1 => h3 hs ?_⟩
    exact coh1_step c upd s op hc hh hs (hu op (by simp)) h h1

/-- **C31** (partial) After every history of accesses, Newton updates, failed updates, time level advances, cache
invalidations, explicit writes and grid adaptations, and for all combinations of switches, every access to the
intensive quantities of the *current* time level gives those which belong to the current primary variables.  Missing:
histories with constraints or with residuals evaluated for other solutions, for which the claim is false. -/
theorem C31_current_level_partial (c : Cfg) (hh : 2 ≤ c.hist) (upd : PV → IQ) (s : State PV IQ) (hf : Fresh c s)
    (ops : List (Op PV)) (hu : ∀ op ∈ ops, Usual op) : UpToDate c upd (exec c upd s ops) 0 := by
  by_cases hc : c.cache = true
  · apply upToDate_of_coh
    refine (coh_exec c upd ops hc hh hu s ?_).1
    intro d hv; rw [hf 0 d (by omega)] at hv; cases hv
  · exact upToDate_no_cache c upd _ 0 (by simpa using hc)

/-- **C31** (partial) The same holds for the *previous* time level unless the storage term is cached and recycled
(`C31_recycled_storage_violated`). -/
theorem C31_previous_level_partial (c : Cfg) (hh : 2 ≤ c.hist) (hs : (c.storageCache && c.recycle) = false)
    (upd : PV → IQ) (s : State PV IQ) (hf : Fresh c s)
    (ops : List (Op PV)) (hu : ∀ op ∈ ops, Usual op) : UpToDate c upd (exec c upd s ops) 1 := by
  by_cases hc : c.cache = true
  · apply upToDate_of_coh
    refine (coh_exec c upd ops hc hh hu s ?_).2 hs ?_
    · intro d hv; rw [hf 0 d (by omega)] at hv; cases hv
    · intro d hv; rw [hf 1 d (by omega)] at hv; cases hv
  · exact upToDate_no_cache c upd _ 1 (by simpa using hc)

def euler (storageCache : Bool) : Cfg :=
  { hist := 2, cache := true, hints := false, storageCache := storageCache, recycle := true }

def blank : State ℚ ℚ := { sol := fun _ _ => 0, cache := fun _ _ => 99, valid := fun _ _ => false }

/-- A time step: cached, updated, advanced, updated and failed. -/
example : let ops : List (Op ℚ) := [.access 0 0, .access 1 0, .newtonUpdate (fun _ => 5), .access 0 0, .advance,
      .newtonUpdate (fun _ => 7), .access 0 0]
    (∀ op ∈ ops, Usual op) ∧ Fresh (euler false) blank ∧
      (access (euler false) (fun x => x + 1) (exec (euler false) (fun x => x + 1) blank ops) 0 0).1 = 8 ∧
      (access (euler false) (fun x => x + 1) (exec (euler false) (fun x => x + 1) blank ops) 1 0).1 = 6 := by
  refine ⟨by simp [Usual], fun _ _ _ => rfl, by decide +kernel, by decide +kernel⟩

/-- **C31** is false with constraints: the linearizer overwrites the primary variables of constrained degrees of
freedom at both time indices without telling the cache, so that neither is up to date. -/
theorem C31_constraints_violated : ∃ (ops : List (Op ℚ)), ∀ t < 2,
    ¬ UpToDate (euler false) (fun x => x + 1) (exec (euler false) (fun x => x + 1) blank ops) t := by
  refine ⟨[.access 0 0, .access 1 0, .constrain 0 5], fun t ht h => ?_⟩
  have h0 := h 0
  obtain rfl | rfl : t = 0 ∨ t = 1 := by omega
  · exact absurd h0 (by decide +kernel)
  · exact absurd h0 (by decide +kernel)

/-- **C31** is false for residuals of foreign solutions: `globalResidual(dest, u)` exchanges the solution behind the
back of the cache, so that it uses what was cached for the current solution … -/
theorem C31_foreign_residual_violated :
    let s := exec (euler false) (fun x => x + 1) blank [.access 0 0]
    ¬ UpToDate (euler false) (fun x => x + 1) ({ s with sol := setRow s.sol 0 fun _ => 5 } : State ℚ ℚ) 0 := by
  intro s h
  exact absurd (h 0) (by decide +kernel)

/-- … or leaves quantities of the foreign solution in the cache for the current one. -/
theorem C31_after_foreign_residual_violated :
    ¬ UpToDate (euler false) (fun x => x + 1)
      (exec (euler false) (fun x => x + 1) blank [.residualFor (fun _ => 5) [0]]) 0 := by
  intro h
  exact absurd (h 0) (by decide +kernel)

/-- **C31** is false for the previous time level if the storage term is cached and recycled: the cache is not shifted,
and what was cached for the previous level of one time step (for instance by `globalStorage(…, 1)`) is handed out in
the next one. -/
theorem C31_recycled_storage_violated : ∃ ops : List (Op ℚ), (∀ op ∈ ops, Usual op) ∧
    ¬ UpToDate (euler true) (fun x => x + 1) (exec (euler true) (fun x => x + 1) blank ops) 1 := by
  refine ⟨[.access 1 0, .newtonUpdate (fun _ => 5), .advance], by simp [Usual], fun h => ?_⟩
  exact absurd (h 0) (by decide +kernel)

/-! ### C32 -/

/-- **C32** (partial) Advancing the time level makes the current solution the previous one and keeps it as the current
one, and with two time levels (and unless the storage term is recycled) what is cached for the previous level is what
was cached for the current one.  Missing: longer histories, for which the claim is false. -/
theorem C32_advance_partial (c : Cfg) (s : State PV IQ) :
    (advance c s).sol 1 = s.sol 0 ∧ (advance c s).sol 0 = s.sol 0 ∧
    (c.hist = 2 → (c.storageCache && c.recycle) = false → ∀ d,
      cached c (advance c s) 1 d = cached c s 0 d ∧ cached c (advance c s) 0 d = cached c s 0 d) := by
  by_cases hst : store c = true
  · by_cases hr : (c.storageCache && c.recycle) = true
    · simp only [advance, shift, hst, hr]
      refine ⟨by simp, by simp, fun _ h => by cases h⟩
    · obtain ⟨h1, h2⟩ := shiftLoop_spec ({ s with sol := setRow s.sol 1 (s.sol 0) } : State PV IQ) 0 (c.hist - 1)
      have hr : (c.storageCache && c.recycle) = false := by simpa using hr
      simp only [advance, shift, hst, hr, Bool.not_true, Bool.false_eq_true, if_false]
      rw [h1]
      refine ⟨by simp, by simp, fun hh _ d => ?_⟩
      simp only [cached]
      rw [(h2 1).1, (h2 1).2, (h2 0).1, (h2 0).2]
      simp [hh]
  · have hst : store c = false := by simpa using hst
    simp only [advance, shift, hst]
    refine ⟨by simp, by simp, fun _ _ d => ?_⟩
    have : c.cache = false := by simp [store] at hst; exact hst.1
    simp [cached, this]

example : let s := exec (euler false) (fun x => x + 1) blank [.newtonUpdate (fun _ => 5), .access 0 0]
    cached (euler false) s 0 0 = some 6 ∧ cached (euler false) s 1 0 = none ∧
      cached (euler false) (advance (euler false) s) 1 0 = some 6 := by
  refine ⟨by decide +kernel, by decide +kernel, by decide +kernel⟩

/-- **C32** is false for histories of three levels: neither the solution nor the cached quantities of time index 1 are
moved to time index 2; the cache of time index 2 gets what belongs to time index 0 instead. -/
theorem C32_longer_history_violated : ∃ (c : Cfg) (s : State ℚ ℚ), c.hist = 3 ∧ store c = true ∧
    (c.storageCache && c.recycle) = false ∧ (∀ t d, s.valid t d = true ∧ s.cache t d = s.sol t d) ∧
    (advance c s).sol 2 ≠ s.sol 1 ∧ (advance c s).cache 2 ≠ s.cache 1 ∧
    (advance c s).cache 2 ≠ (advance c s).sol 2 := by
  refine ⟨{ hist := 3, cache := true, hints := false, storageCache := false, recycle := false },
    { sol := fun t _ => t, cache := fun t _ => t, valid := fun _ _ => true }, rfl, rfl, rfl, fun _ _ => ⟨rfl, rfl⟩,
    fun h => ?_, fun h => ?_, fun h => ?_⟩
  · exact absurd (congrFun h 0) (by decide +kernel)
  · exact absurd (congrFun h 0) (by decide +kernel)
  · exact absurd (congrFun h 0) (by decide +kernel)

/-! ### C11 -/

section
variable {K W : Type} [Field K] [LinearOrder K]

/-- **C11** (partial) If a time step solve fails, at whatever iteration and for whatever reason, the current solution
afterwards is the solution of the previous time level, which was not changed except that constraints were applied to it, and
whoever asks for intensive quantities gets those which belong to it, whatever was left in the cache.  Missing: exceptions
which the Newton method does not handle (`C11_other_exceptions_violated`). -/
theorem C11_failed_partial (c : Cfg) (upd : PV → IQ) (env : Newton.Env K PV W)
    (error lastError : Newton.Fl K) (fuel : ℕ) (noise : State PV IQ) (lin : Bool) (dofs : List ℕ)
    (s s' : State PV IQ) (h : update c upd env error lastError fuel noise lin dofs s = some (.failed, s')) :
    s'.sol 0 = s'.sol 1 ∧ (∀ d, env.constraints d = none → s'.sol 1 d = s.sol 1 d) ∧ (∀ t, 2 ≤ t → s'.sol t = s.sol t) ∧
      UpToDate c upd s' 0 := by
  unfold update at h
  cases hN : Newton.apply env (s.sol 0) error lastError fuel with
  | none => rw [hN] at h; cases h
  | some r =>
    rw [hN] at h
    obtain ⟨o, st⟩ := r
    cases o with
    | success => simp at h
    | thrown => simp at h
    | failure =>
      simp only [Option.map_some, Option.some.injEq, Prod.mk.injEq, true_and] at h
      subst h
      refine ⟨?_, ?_, ?_, ?_⟩
      · simp only [updateFailed, accessAll_sol, invalidate_sol]; simp
      · intro d hd
        simp only [updateFailed, accessAll_sol, invalidate_sol]
        simp only [setRow_apply]
        cases lin <;> simp [Newton.applyConstraints, hd]
      · intro t ht
        simp only [updateFailed, accessAll_sol, invalidate_sol]
        simp only [setRow_apply]
        rw [if_neg (by omega), if_neg (by omega), if_neg (by omega)]
      · by_cases hc : c.cache = true
        · apply upToDate_of_coh
          exact accessAll_coh c upd 0 0 dofs _
            (invalidate_coh c upd _ 0 0 (store_of_cache hc) (fun h => absurd rfl h))
        · exact upToDate_no_cache c upd _ 0 (by simpa using hc)

end

/-- A problem with one unknown: `updates` says what the linear solver returns in each iteration. -/
def oneDof (solve : ℕ → Newton.SolveResult ℚ) : Newton.Env ℚ ℚ ℚ :=
  { numGridDof := 1, numTotalDof := 1, volume := fun _ => 1, weight := fun _ _ => 1, constraints := fun _ => none,
    beginIterationOk := fun _ => true, endIterationOk := fun _ => true,
    linearize := fun _ s => .residual fun i => [.num (s i)], solve := fun k _ => solve k,
    updatePrimaryVariables := fun _ v w => v - w, subtract := fun v w => v - w, tolerance := 1/10, maxError := 1000,
    maxIterations := 10, targetIterations := 5 }

def solFrom (a : ℚ) : State ℚ ℚ := { sol := fun _ _ => a, cache := fun _ _ => 99, valid := fun _ _ => true }

/-- the linear solver breaks down in the second iteration -/
example : (update (euler false) (fun x => x + 1)
      (oneDof fun k => if k = 0 then .update (fun _ => 3) true else .caught) (.num 0) (.num 0) 5 (solFrom 8) true [0]
      (solFrom 8)).map (fun r => (r.1, r.2.sol 0 0, r.2.cache 0 0)) = some (.failed, 8, 9) := by decide +kernel

/-- **C11** is false if the Newton method is left by an exception it does not handle: the current solution is then the
last iterate. -/
theorem C11_other_exceptions_violated : ∃ (env : Newton.Env ℚ ℚ ℚ) (s : State ℚ ℚ),
    (update (euler false) (fun x => x + 1) env (.num 0) (.num 0) 5 s false [0] s).map
      (fun r => (r.1, r.2.sol 0 0, r.2.sol 1 0)) = some (.rethrown, 5, 8) :=
  ⟨oneDof fun k => if k = 0 then .update (fun _ => 3) true else .other, solFrom 8, by decide +kernel⟩

end Verif.Cache
