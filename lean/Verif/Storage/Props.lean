import Verif.Storage.Model
import Verif.Cache.Props
import Mathlib.Tactic.Ring
import Mathlib.Tactic.NormNum
/-
C35 and C68: what is reported about and assembled from storage terms.
-/

set_option autoImplicit false
set_option linter.unusedSimpArgs false

namespace Verif.Storage

open Verif.Cache

variable {PV IQ K : Type} [Field K]

/-- The amount in the domain: the sum of volume times extrusion times amount per volume. -/
def amount (upd : PV → IQ) (law : Law IQ K) (sol : ℕ → PV) (scvs : List (ℕ × K)) : K :=
  (scvs.map fun e => e.2 * law.extrusion (upd (sol e.1)) * law.storage (upd (sol e.1))).sum

theorem globalStorage_eq (c : Cfg) (upd : PV → IQ) (law : Law IQ K) (sc : ℕ → ℕ → K) (t : ℕ) (scvs : List (ℕ × K)) :
    ∀ s : State PV IQ, (c.cache = true → Coh upd s t) →
      (globalStorage c upd law sc s t scvs).1 = amount upd law (s.sol t) scvs := by
  induction scvs with
  | nil => intro s _; simp [globalStorage, amount]
  | cons e scvs ih =>
    intro s h
    obtain ⟨d, v⟩ := e
    have hq : (access c upd s t d).1 = upd (s.sol t d) := by
      by_cases hc : c.cache = true
      · exact upToDate_of_coh c upd s t (h hc) d
      · exact upToDate_no_cache c upd s t (by simpa using hc) d
    simp only [globalStorage]
    rw [ih _ (fun hc => access_coh c upd s t d t (h hc)), access_sol, hq]
    simp only [amount, List.map_cons, List.sum_cons, evalStorage]
    split <;> simp <;> ring

/-- **C35** (partial) After every usual history and for all switches the amount reported for the current time level is
the volume-weighted sum of the storage terms of the current solution; for the previous time level this is proved
unless the storage term is cached and recycled.  Missing: the latter case, in which it is false. -/
theorem C35_global_storage_partial (c : Cfg) (hh : 2 ≤ c.hist) (upd : PV → IQ) (law : Law IQ K) (sc : ℕ → ℕ → K)
    (s : State PV IQ) (hf : Fresh c s) (ops : List (Op PV)) (hu : ∀ op ∈ ops, Usual op) (scvs : List (ℕ × K)) :
    (globalStorage c upd law sc (exec c upd s ops) 0 scvs).1 = amount upd law ((exec c upd s ops).sol 0) scvs ∧
    ((c.storageCache && c.recycle) = false →
      (globalStorage c upd law sc (exec c upd s ops) 1 scvs).1 = amount upd law ((exec c upd s ops).sol 1) scvs) := by
  constructor
  · apply globalStorage_eq
    intro hc
    refine (coh_exec c upd ops hc hh hu s ?_).1
    intro d hv; rw [hf 0 d (by omega)] at hv; cases hv
  · intro hs
    apply globalStorage_eq
    intro hc
    refine (coh_exec c upd ops hc hh hu s ?_).2 hs ?_
    · intro d hv; rw [hf 0 d (by omega)] at hv; cases hv
    · intro d hv; rw [hf 1 d (by omega)] at hv; cases hv

def plain : Law ℚ ℚ := { storage := fun q => q, extrusion := fun _ => 1 }

example : (globalStorage (euler false) (fun x : ℚ => x + 1) plain (fun _ _ => 0)
    (exec (euler false) (fun x => x + 1) blank [.access 0 0, .newtonUpdate (fun _ => 5), .advance]) 1
    [(0, 2), (1, 3)]).1 = 30 := by decide +kernel

/-- **C35** is false if the storage term is cached and recycled: after the amount of the previous level was reported
once, the same amount is reported in the next time step although the solution has changed from 0 to 5. -/
theorem C35_recycled_storage_violated : ∃ ops : List (Op ℚ), (∀ op ∈ ops, Usual op) ∧
    (globalStorage (euler true) (fun x : ℚ => x + 1) plain (fun _ _ => 0)
      (exec (euler true) (fun x => x + 1) blank ops) 1 [(0, 2)]).1 = 2 ∧
    amount (fun x : ℚ => x + 1) plain ((exec (euler true) (fun x => x + 1) blank ops).sol 1) [(0, 2)] = 12 :=
  ⟨[.access 1 0, .newtonUpdate (fun _ => 5), .advance], by simp [Usual], by decide +kernel, by decide +kernel⟩

/-- **C35** is false of the amounts per element which `evalStorage` computes: with the storage cache it gives amounts
per volume for previous time levels, not amounts. -/
theorem C35_local_storage_violated : ∃ (volume : ℚ) (q : ℚ),
    evalStorage plain true (plain.storage q) volume q 1 ≠ evalStorage plain false (plain.storage q) volume q 1 :=
  ⟨2, 3, by decide +kernel⟩

/-! ### C68: the storage cache does not change the residual -/

/-- The contributions of the storage terms of a degree of freedom in the Newton iterations of a time step.  `curs` are
the intensive quantities in these iterations, each with a flag for evaluations with deflected primary variables. -/
def terms (law : Law IQ K) (ctxCache recycle : Bool) (volume dt : K) (old : IQ) : ℕ → K → List (ℕ × Bool × IQ) → List K
  | _, _, [] => []
  | n, stored, (iteration, stashed, cur) :: rest =>
    let r := volumeTerm law ctxCache recycle (decide (iteration = 0)) stashed volume dt cur old stored
    r.1 :: terms law ctxCache recycle volume dt old (n + 1) r.2 rest

/-- The evaluations of a time step: the first one is the regular one of iteration 0, and every regular evaluation of
iteration 0 uses quantities with the storage of the previous time level. -/
def StartsFromOld (law : Law IQ K) (old : IQ) (evals : List (ℕ × Bool × IQ)) : Prop :=
  (∃ cur rest, evals = (0, false, cur) :: rest) ∧
    ∀ e ∈ evals, e.1 = 0 → e.2.1 = false → law.storage e.2.2 = law.storage old

theorem terms_cached (law : Law IQ K) (recycle : Bool) (volume dt : K) (old : IQ) (evals : List (ℕ × Bool × IQ))
    (h : ∀ e ∈ evals, e.1 = 0 → e.2.1 = false → law.storage e.2.2 = law.storage old) :
    ∀ n stored', terms law true recycle volume dt old n (law.storage old) evals =
      terms law false recycle volume dt old n stored' evals := by
  induction evals with
  | nil => intro n s; rfl
  | cons e evals ih =>
    intro n s
    obtain ⟨it, st, cur⟩ := e
    have h1 := h (it, st, cur) (by simp)
    have ih' := ih (fun e he => h e (by simp [he])) (n + 1) s
    have hstore : (volumeTerm law true recycle (decide (it = 0)) st volume dt cur old (law.storage old)).2 =
        law.storage old := by
      simp only [volumeTerm]
      by_cases hit : it = 0
      · cases st
        · have := h1 hit rfl
          simp [hit]; intro; simpa using this
        · simp [hit]
      · simp [hit]
    have hval : (volumeTerm law true recycle (decide (it = 0)) st volume dt cur old (law.storage old)).1 =
        (volumeTerm law false recycle (decide (it = 0)) st volume dt cur old s).1 := by
      simp only [volumeTerm]
      by_cases hit : it = 0
      · cases st
        · have := h1 hit rfl
          simp only at this
          cases recycle <;> simp [hit, this]
        · simp [hit]
      · simp [hit]
    simp only [terms]
    rw [hstore, hval, ih']
    congr 1

/-- **C68** In every time step whose first Newton iteration starts from the solution of the previous time level, and for
all later iterations and numeric derivatives, the storage terms of the residual do not depend on whether the storage
term is cached, nor on what the cache contained before. -/
theorem C68_storage_cache_transparent (law : Law IQ K) (recycle : Bool) (volume dt : K) (old : IQ)
    (evals : List (ℕ × Bool × IQ)) (h : StartsFromOld law old evals) (stored stored' : K) :
    terms law true recycle volume dt old 0 stored evals = terms law false recycle volume dt old 0 stored' evals := by
  obtain ⟨⟨cur, rest, rfl⟩, h2⟩ := h
  have hc := h2 (0, false, cur) (by simp) rfl rfl
  simp only at hc
  have := terms_cached law recycle volume dt old rest (fun e he => h2 e (by simp [he])) 1 stored'
  simp only [terms, volumeTerm]
  cases recycle <;> simp [hc, this]

/-- three iterations and a numeric derivative -/
example : StartsFromOld plain 4 [(0, false, 4), (0, true, 5), (1, false, 7), (2, false, 8)] ∧
    terms plain true true 2 1 4 0 77 [(0, false, 4), (0, true, 5), (1, false, 7), (2, false, 8)] = [0, 2, 6, 8] := by
  refine ⟨⟨⟨4, _, rfl⟩, by simp⟩, ?_⟩
  decide +kernel

/-- **C68** is false if the first iteration does not start from the previous solution (for instance because the problem
has changed the solution at the beginning of the time step) and the storage term is recycled. -/
theorem C68_changed_guess_violated :
    terms plain true true 2 1 4 0 0 [(0, false, 6), (1, false, 7)] ≠
      terms plain false true 2 1 4 0 0 [(0, false, 6), (1, false, 7)] := by decide +kernel

/-- **C68** Without recycling, the storage cache is transparent whatever the first iteration starts from. -/
theorem C68_not_recycled (law : Law IQ K) (volume dt : K) (old cur : IQ) (rest : List (ℕ × Bool × IQ))
    (stored stored' : K) :
    terms law true false volume dt old 0 stored ((0, false, cur) :: rest) =
      terms law false false volume dt old 0 stored' ((0, false, cur) :: rest) := by
  have key : ∀ (rest : List (ℕ × Bool × IQ)) n, terms law true false volume dt old n (law.storage old) rest =
      terms law false false volume dt old n stored' rest := by
    intro rest
    induction rest with
    | nil => intro n; rfl
    | cons e rest ih =>
      intro n
      obtain ⟨it, st, q⟩ := e
      simp only [terms, volumeTerm]
      by_cases hit : it = 0 <;> cases st <;> simp [hit, ih (n + 1)]
  simp only [terms, volumeTerm]
  simp [key rest 1]

example : terms plain true false 2 1 4 0 0 [(0, false, 6), (1, false, 7)] = [4, 6] := by decide +kernel

end Verif.Storage
