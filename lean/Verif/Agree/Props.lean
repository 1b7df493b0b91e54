import Verif.Agree.Model
import Mathlib.Data.Nat.Find
import Mathlib.Data.Fintype.Basic
import Mathlib.Data.Finset.Max
import Mathlib.Tactic.FinCases
import Mathlib.Algebra.Order.BigOperators.Group.Finset
import Mathlib.Algebra.BigOperators.Fin

/-
C51 and C77: failures are agreed on by all processes.
-/

set_option autoImplicit false

namespace Verif.Agree

variable {P : ℕ}

/-- All processes take part in the reduction at each place, for the outcomes at hand. -/
def AllReduce (sites : List (Site P)) (outcome : Fin P → ℕ → Outcome) : Prop :=
  ∀ k (site : Site P), sites[k]? = some site → ∀ p, site p (outcome p k) = .reduce (outcome p k).isNone

/-- Nobody fails before the place `k`. -/
def NoFailureBefore (outcome : Fin P → ℕ → Outcome) (k : ℕ) : Prop := ∀ j < k, ∀ p, outcome p j = none

/-- Somebody fails at the place `k`. -/
def FailureAt (outcome : Fin P → ℕ → Outcome) (k : ℕ) : Prop := ∃ p, outcome p k ≠ none

/-- The flags of the first `k` places -/
def flags (outcome : ℕ → Outcome) (k : ℕ) : List Bool := (List.range k).map fun j => (outcome j).isNone

structure Ok (sites : List (Site P)) (outcome : Fin P → ℕ → Outcome) (p : Fin P) (r : Proc) : Prop where
  before : NoFailureBefore outcome r.pos
  range : r.pos ≤ sites.length
  given : r.given = flags (outcome p) (if r.inside ∨ r.ended = some true then r.pos + 1 else r.pos)
  inside : r.inside = true → r.ended = none ∧ r.pos < sites.length
  threw : r.ended = some true → FailureAt outcome r.pos ∧ r.pos < sites.length
  returned : r.ended = some false → r.pos = sites.length

theorem flags_length (outcome : ℕ → Outcome) (k : ℕ) : (flags outcome k).length = k := by simp [flags]

theorem flags_succ (outcome : ℕ → Outcome) (k : ℕ) : flags outcome (k + 1) = flags outcome k ++ [(outcome k).isNone] := by
  simp [flags, List.range_succ]

theorem flags_get (outcome : ℕ → Outcome) {k j : ℕ} (h : j < k) : (flags outcome k)[j]? = some (outcome j).isNone := by
  simp [flags, h]

theorem Ok.length {sites : List (Site P)} {outcome : Fin P → ℕ → Outcome} {p : Fin P} {r : Proc} (h : Ok sites outcome p r) :
    r.given.length = if r.inside ∨ r.ended = some true then r.pos + 1 else r.pos := by
  rw [h.given, flags_length]

/-- The flag which a process has given to the reduction at the place `j` -/
theorem Ok.flag {sites : List (Site P)} {outcome : Fin P → ℕ → Outcome} {p : Fin P} {r : Proc} (h : Ok sites outcome p r)
    {j : ℕ} (hj : j < r.given.length) : r.given[j]? = some (outcome p j).isNone := by
  have hl := h.length
  rw [h.given]
  apply flags_get
  omega

theorem invariant {sites : List (Site P)} {outcome : Fin P → ℕ → Outcome} (ha : AllReduce sites outcome) {s : Fin P → Proc}
    (h : Reach sites outcome s) : ∀ p, Ok sites outcome p (s p) := by
  induction h with
  | refl =>
    intro p
    exact ⟨fun j hj => absurd hj (Nat.not_lt_zero j), Nat.zero_le _, rfl, (by intro h; cases h), (by intro h; cases h),
      (by intro h; cases h)⟩
  | @tail a b _ hstep ih =>
    have lift : ∀ (p : Fin P) (r : Proc), Ok sites outcome p r → ∀ q, Ok sites outcome q (Function.update a p r q) := by
      intro p r hr q
      by_cases hq : q = p
      · subst hq; rw [Function.update_self]; exact hr
      · rw [Function.update_of_ne hq]; exact ih q
    cases hstep with
    | tryIt p site he hi hs =>
      apply lift
      have hp := ih p
      rw [ha _ _ hs p]
      have hlt : (a p).pos < sites.length := (List.getElem?_eq_some_iff.1 hs).1
      refine ⟨hp.before, hp.range, ?_, fun _ => ⟨he, hlt⟩, ?_, ?_⟩
      · have := hp.given
        simp only [hi, he] at this
        simp only [Proc.tryIt]
        rw [if_pos (Or.inl trivial), flags_succ, this]
        simp
      · intro h'; simp only [Proc.tryIt] at h'; rw [he] at h'; cases h'
      · intro h'; simp only [Proc.tryIt] at h'; rw [he] at h'; cases h'
    | finish p he hi hs =>
      apply lift
      have hp := ih p
      have hlen : (a p).pos = sites.length := le_antisymm hp.range (List.getElem?_eq_none_iff.1 hs)
      refine ⟨hp.before, hp.range, ?_, ?_, ?_, fun _ => hlen⟩
      · have := hp.given
        simp only [hi, he] at this
        simpa [hi] using this
      · intro h'; simp only [hi] at h'; cases h'
      · intro h'; simp at h'
    | reduced p all he hi hall hmin =>
      apply lift
      have hp := ih p
      have hl : (a p).given.length = (a p).pos + 1 := by rw [hp.length, if_pos (Or.inl hi)]
      have hflag : ∀ q, (a q).given[(a p).pos]? = some (outcome q (a p).pos).isNone := fun q =>
        (ih q).flag (by have := hall q; omega)
      have hg := hp.given
      rw [if_pos (Or.inl hi)] at hg
      rw [hl, Nat.add_sub_cancel] at hmin
      have hlt := (hp.inside hi).2
      cases all with
      | true =>
        have hnone : ∀ q, outcome q (a p).pos = none := by
          intro q
          have h1 := hmin.1 rfl q
          rw [hflag q] at h1
          simpa using h1
        refine ⟨?_, hlt, ?_, ?_, ?_, ?_⟩
        · intro j hj q
          rcases Nat.lt_succ_iff_lt_or_eq.1 hj with hj | rfl
          · exact hp.before j hj q
          · exact hnone q
        · simp only [Proc.afterReduction, if_true]
          rw [if_neg (by simp [he])]
          exact hg
        · intro h'; simp [Proc.afterReduction] at h'
        · intro h'; simp [Proc.afterReduction, he] at h'
        · intro h'; simp [Proc.afterReduction, he] at h'
      | false =>
        have hsome : ∃ q, outcome q (a p).pos ≠ none := by
          by_contra hno
          have : ∀ q, (a q).given[(a p).pos]? = some true := by
            intro q
            rw [hflag q]
            have : outcome q (a p).pos = none := by by_contra hq; exact hno ⟨q, hq⟩
            simp [this]
          exact absurd (hmin.2 this) (by simp)
        refine ⟨hp.before, hp.range, ?_, ?_, fun _ => ⟨hsome, hlt⟩, ?_⟩
        · simp [Proc.afterReduction, hg]
        · intro h'; simp [Proc.afterReduction] at h'
        · intro h'; simp [Proc.afterReduction] at h'

/-- There is always something to do until all have ended. -/
theorem progress {sites : List (Site P)} {outcome : Fin P → ℕ → Outcome} (ha : AllReduce sites outcome) {s : Fin P → Proc}
    (h : Reach sites outcome s) (hne : ∃ p, (s p).ended = none) : ∃ t, Step sites outcome s t := by
  have ok := invariant ha h
  by_cases hfree : ∃ p, (s p).ended = none ∧ (s p).inside = false
  · obtain ⟨p, he, hi⟩ := hfree
    cases hs : sites[(s p).pos]? with
    | none => exact ⟨_, Step.finish s p he hi hs⟩
    | some site => exact ⟨_, Step.tryIt s p site he hi hs⟩
  · -- all which have not ended are inside of a reduction: take the first
    have hin : ∀ p, (s p).ended = none → (s p).inside = true := by
      intro p hp
      by_contra hi
      exact hfree ⟨p, hp, by simpa using hi⟩
    obtain ⟨p0, h0⟩ := hne
    obtain ⟨p, hp, hmin⟩ := Finset.exists_min_image (Finset.univ.filter fun p => (s p).ended = none) (fun p => (s p).pos)
      ⟨p0, by simp [h0]⟩
    have he : (s p).ended = none := by simpa using hp
    have hi := hin p he
    have hl : (s p).given.length = (s p).pos + 1 := by rw [(ok p).length, if_pos (Or.inl hi)]
    refine ⟨_, Step.reduced s p (decide (∀ q, (s q).given[(s p).given.length - 1]? = some true)) he hi ?_ (by simp)⟩
    intro q
    rw [hl, (ok q).length]
    by_cases hq : (s q).ended = none
    · have := hmin q (by simpa using hq)
      rw [if_pos (Or.inl (hin q hq))]
      omega
    · cases hq' : (s q).ended with
      | none => exact absurd hq' hq
      | some b =>
        cases b with
        | true =>
          rw [if_pos (Or.inr rfl)]
          obtain ⟨⟨r, hr⟩, -⟩ := (ok q).threw hq'
          by_contra hlt
          have : (s q).pos < (s p).pos := by omega
          exact hr ((ok p).before _ this r)
        | false =>
          have h1 := (ok q).returned hq'
          have h2 := ((ok p).inside hi).2
          split_ifs <;> omega

/-- How many steps a process can still do. -/
def left (n : ℕ) (r : Proc) : ℕ := if r.ended = none then 2 * (n - r.pos) + (if r.inside then 1 else 2) else 0

theorem left_lt {sites : List (Site P)} {outcome : Fin P → ℕ → Outcome} (ha : AllReduce sites outcome) {s t : Fin P → Proc}
    (h : Reach sites outcome s) (hst : Step sites outcome s t) :
    ∑ p, left sites.length (t p) < ∑ p, left sites.length (s p) := by
  have ok := invariant ha h
  have key : ∀ p r, left sites.length r < left sites.length (s p) →
      ∑ q, left sites.length (Function.update s p r q) < ∑ q, left sites.length (s q) := by
    intro p r hr
    apply Finset.sum_lt_sum
    · intro q _
      by_cases hq : q = p
      · subst hq; rw [Function.update_self]; exact hr.le
      · rw [Function.update_of_ne hq]
    · exact ⟨p, Finset.mem_univ p, by rw [Function.update_self]; exact hr⟩
  cases hst with
  | tryIt p site he hi hs =>
    apply key
    have hlt : (s p).pos < sites.length := (List.getElem?_eq_some_iff.1 hs).1
    unfold left
    cases site p (outcome p (s p).pos) <;> simp [Proc.tryIt, he, hi]
    omega
  | finish p he hi hs =>
    apply key
    unfold left
    simp [he, hi]
  | reduced p all he hi hall hmin =>
    apply key
    have hlt := ((ok p).inside hi).2
    unfold left
    cases all <;> simp [Proc.afterReduction, he, hi]
    omega

/-- A process which has ended knows what all the others have been doing. -/
theorem ended_spec {sites : List (Site P)} {outcome : Fin P → ℕ → Outcome} (ha : AllReduce sites outcome) {s : Fin P → Proc}
    (h : Reach sites outcome s) (p : Fin P) :
    ((s p).ended = some true → ∃ k < sites.length, NoFailureBefore outcome k ∧ FailureAt outcome k ∧ (s p).pos = k) ∧
      ((s p).ended = some false → NoFailureBefore outcome sites.length) := by
  have ok := invariant ha h p
  refine ⟨fun ht => ⟨_, (ok.threw ht).2, ok.before, (ok.threw ht).1, rfl⟩, fun hr => ?_⟩
  have := ok.before
  rwa [ok.returned hr] at this

/-- What it means that the processes agree on failures: there is no deadlock, they do come to an end, nobody ends without an exception although somebody
failed, nobody ends with an exception although nobody failed, and those which end with an exception do so at the same place,
which is the first at which somebody failed. -/
def Agreement (sites : List (Site P)) (outcome : Fin P → ℕ → Outcome) : Prop :=
  ∀ s, Reach sites outcome s →
    ((∃ p, (s p).ended = none) → ∃ t, Step sites outcome s t) ∧
    (∃ bound, ∀ run : ℕ → Fin P → Proc, run 0 = s → ∀ m, (∀ i < m, Step sites outcome (run i) (run (i + 1))) → m ≤ bound) ∧
    (∀ p, (s p).ended = some false → ∀ k < sites.length, ∀ q, outcome q k = none) ∧
    (∀ p, (s p).ended = some true → (s p).pos < sites.length ∧ (∃ q, outcome q (s p).pos ≠ none) ∧
      ∀ k < (s p).pos, ∀ q, outcome q k = none) ∧
    ∀ p q, (s p).ended ≠ none → (s q).ended ≠ none → (s p).ended = (s q).ended ∧ (s p).pos = (s q).pos

theorem agreement {sites : List (Site P)} {outcome : Fin P → ℕ → Outcome} (ha : AllReduce sites outcome) :
    Agreement sites outcome := by
  intro s h
  have sp := ended_spec ha h
  have ok := invariant ha h
  refine ⟨progress ha h, ⟨∑ p, left sites.length (s p), ?_⟩, fun p hp k hk q => (sp p).2 hp k hk q, fun p hp => ?_, ?_⟩
  · intro run h0 m hm
    have : ∀ i ≤ m, Reach sites outcome (run i) ∧
        i + ∑ p, left sites.length (run i p) ≤ ∑ p, left sites.length (s p) := by
      intro i
      induction i with
      | zero => intro _; rw [h0]; exact ⟨h, by simp⟩
      | succ i ih =>
        intro hi
        obtain ⟨h1, h2⟩ := ih (by omega)
        have := left_lt ha h1 (hm i (by omega))
        exact ⟨h1.tail (hm i (by omega)), by omega⟩
    have := (this m le_rfl).2
    omega
  · obtain ⟨k, hk, h1, h2, h3⟩ := (sp p).1 hp
    rw [h3]; exact ⟨hk, h2, h1⟩
  · intro p q hp hq
    cases hp' : (s p).ended with
    | none => exact absurd hp' hp
    | some b =>
      cases hq' : (s q).ended with
      | none => exact absurd hq' hq
      | some c =>
        cases b <;> cases c
        · exact ⟨rfl, ((ok p).returned hp').trans ((ok q).returned hq').symm⟩
        · obtain ⟨k, hk, -, ⟨r, hr⟩, -⟩ := (sp q).1 hq'
          exact absurd ((sp p).2 hp' k hk r) hr
        · obtain ⟨k, hk, -, ⟨r, hr⟩, -⟩ := (sp p).1 hp'
          exact absurd ((sp q).2 hq' k hk r) hr
        · obtain ⟨k, -, h1, ⟨r, hr⟩, h3⟩ := (sp p).1 hp'
          obtain ⟨l, -, h1', ⟨r', hr'⟩, h3'⟩ := (sp q).1 hq'
          refine ⟨rfl, ?_⟩
          rw [h3, h3']
          rcases lt_trichotomy k l with hlt | heq | hlt
          · exact absurd (h1' k hlt r) hr
          · exact heq
          · exact absurd (h1 l hlt r') hr'

theorem guarded_reduce {caught : Exn → Bool} {p : Fin P} {o : Outcome} (h : ∀ e, o = some e → caught e = true) :
    (guarded caught : Site P) p o = .reduce o.isNone := by
  cases o with
  | none => rfl
  | some e => simp [guarded, h e rfl]

/-- **C51** Whatever the sequential preconditioner throws on whichever processes: in calls of `pre`, `apply` and `post` all
processes leave with an exception, or none does, provided that every process has peers. -/
theorem C51_agreement_partial (hasPeers : Fin P → Bool) (hp : ∀ p, hasPeers p = true) (k : ℕ)
    (outcome : Fin P → ℕ → Outcome) : Agreement ([pre] ++ List.replicate k (apply hasPeers) ++ [post]) outcome := by
  apply agreement
  intro j site hj p
  have hmem := List.mem_of_getElem? hj
  simp only [List.mem_append, List.mem_singleton, List.mem_replicate] at hmem
  rcases hmem with (rfl | ⟨-, rfl⟩) | rfl
  · exact guarded_reduce fun _ _ => rfl
  · simp only [apply, hp p, if_true]; exact guarded_reduce fun _ _ => rfl
  · exact guarded_reduce fun _ _ => rfl

/-- **C51** is false if some process has no peers (for instance because it got no cells) while others have: the others wait in the
reduction for ever.  Here the process 1 has no peers, and its preconditioner throws: it leaves alone. -/
theorem C51_isolated_violated :
    ∃ (hasPeers : Fin 2 → Bool) (outcome : Fin 2 → ℕ → Outcome) (s : Fin 2 → Proc),
      Reach [apply hasPeers] outcome s ∧ (s 0).ended = none ∧ (s 1).ended = some true ∧ ¬∃ t, Step [apply hasPeers] outcome s t := by
  let hasPeers : Fin 2 → Bool := fun p => p = 0
  let outcome : Fin 2 → ℕ → Outcome := fun p _ => if p = 1 then some .dune else none
  let s0 : Fin 2 → Proc := fun _ => Proc.init
  let s1 := Function.update s0 0 ((s0 0).tryIt (.reduce true))
  let s2 := Function.update s1 1 ((s1 1).tryIt .leave)
  have st1 : Step [apply hasPeers] outcome s0 s1 := Step.tryIt s0 0 (apply hasPeers) rfl rfl rfl
  have st2 : Step [apply hasPeers] outcome s1 s2 := Step.tryIt s1 1 (apply hasPeers) rfl rfl rfl
  refine ⟨hasPeers, outcome, s2, (Relation.ReflTransGen.refl.tail st1).tail st2, rfl, rfl, ?_⟩
  rintro ⟨t, ht⟩
  have h0 : s2 0 = ⟨0, true, none, [true]⟩ := rfl
  have h1 : s2 1 = ⟨0, false, some true, []⟩ := rfl
  cases ht with
  | tryIt p site he hi hs => fin_cases p <;> simp_all
  | finish p he hi hs => fin_cases p <;> simp_all
  | reduced p all he hi hall hmin =>
    fin_cases p
    · have := hall 1
      simp [h0, h1] at this
    · simp [h1] at he

/-! ### Newton iterations -/

/-- Exceptions are derived from `std::exception`, and the preparation of the preconditioner, which comes after the `n` auxiliary
modules, throws those of Dune only. -/
def Usual (n : ℕ) (outcome : Fin P → ℕ → Outcome) : Prop :=
  (∀ p k, outcome p k ≠ some .foreign) ∧ ∀ p e, outcome p (n + 2) = some e → e = .dune

/-- **C77** If whatever is tried in a Newton iteration of a black-oil model fails on some processes, then all leave the iteration
with an exception at the first place where one has failed; otherwise none does, and they never wait for each other for ever.
Missing: exceptions of the preparation of the preconditioner which are not of Dune, processes without peers, other models. -/
theorem C77_blackoil_partial (hasPeers : Fin P → Bool) (hp : ∀ p, hasPeers p = true) (n k : ℕ)
    (outcome : Fin P → ℕ → Outcome) (hu : Usual n outcome) :
    Agreement (newtonIteration blackOilUpdate hasPeers n k) outcome := by
  apply agreement
  have std : ∀ j p, ∀ e, outcome p j = some e → catchStd e = true := by
    intro j p e he
    have := hu.1 p j
    rw [he] at this
    simp only [catchStd, decide_eq_true_eq]
    rintro rfl; exact this rfl
  intro j site hj p
  by_cases hprep : j = n + 2
  · subst hprep
    have e : newtonIteration blackOilUpdate hasPeers n k =
        ([beginIteration, linearizeDomain] ++ List.replicate n linearizeAuxiliary) ++ (preparePreconditioner ::
          ([pre] ++ List.replicate k (apply hasPeers) ++ [post] ++ List.replicate n postSolve ++
            [blackOilUpdate, endIteration])) := by
      simp [newtonIteration]
    rw [e, List.getElem?_append_right (by simp)] at hj
    have hz : n + 2 - ([beginIteration, linearizeDomain] ++ List.replicate n linearizeAuxiliary : List (Site P)).length = 0 := by
      simp
    rw [hz] at hj
    simp only [List.getElem?_cons_zero, Option.some.injEq] at hj
    rw [← hj]
    apply guarded_reduce
    intro e he
    rw [hu.2 p e he]; rfl
  · have hmem : site ∈ [beginIteration, linearizeDomain] ++ List.replicate n linearizeAuxiliary ++
        ([pre] ++ List.replicate k (apply hasPeers) ++ [post] ++ List.replicate n postSolve ++
          [blackOilUpdate, endIteration]) := by
      have e : newtonIteration blackOilUpdate hasPeers n k =
          ([beginIteration, linearizeDomain] ++ List.replicate n linearizeAuxiliary) ++ (preparePreconditioner ::
            ([pre] ++ List.replicate k (apply hasPeers) ++ [post] ++ List.replicate n postSolve ++
              [blackOilUpdate, endIteration])) := by
        simp [newtonIteration]
      have hl : ([beginIteration, linearizeDomain] ++ List.replicate n linearizeAuxiliary : List (Site P)).length = n + 2 := by
        simp
      rw [e] at hj
      rw [List.mem_append]
      by_cases hlt : j < n + 2
      · left
        rw [List.getElem?_append_left (by rw [hl]; exact hlt)] at hj
        exact List.mem_of_getElem? hj
      · right
        rw [List.getElem?_append_right (by rw [hl]; omega), hl] at hj
        obtain ⟨i, hi⟩ : ∃ i, j - (n + 2) = i + 1 := ⟨j - (n + 2) - 1, by omega⟩
        rw [hi, List.getElem?_cons_succ] at hj
        exact List.mem_of_getElem? hj
    simp only [List.mem_append, List.mem_cons, List.not_mem_nil, or_false, List.mem_replicate] at hmem
    rcases hmem with ((rfl | rfl) | ⟨-, rfl⟩) | ((((rfl | ⟨-, rfl⟩) | rfl) | ⟨-, rfl⟩) | rfl | rfl)
    · exact guarded_reduce (std j p)
    · exact guarded_reduce fun _ _ => rfl
    · exact guarded_reduce (std j p)
    · exact guarded_reduce fun _ _ => rfl
    · simp only [apply, hp p, if_true]; exact guarded_reduce fun _ _ => rfl
    · exact guarded_reduce fun _ _ => rfl
    · exact guarded_reduce (std j p)
    · exact guarded_reduce fun _ _ => rfl
    · exact guarded_reduce (std j p)

/-- The hypothesis is met by three processes and two modules, the first of which fails to be linearized on one process. -/
example : Usual (P := 3) 2 fun p k => if p = 1 ∧ k = 2 then some .numerical else none := by
  constructor
  · intro p k; dsimp only; split_ifs <;> simp
  · intro p e h; simp at h

/-- A process which waits in a reduction in which another one, which has left, does not take part. -/
theorem stuck {sites : List (Site 2)} {outcome : Fin 2 → ℕ → Outcome} {s : Fin 2 → Proc} (h0 : (s 0).inside = true)
    (h1 : (s 1).ended = some true) (hl : (s 1).given.length < (s 0).given.length) : ¬∃ t, Step sites outcome s t := by
  rintro ⟨t, ht⟩
  cases ht with
  | tryIt p site he hi hs =>
    fin_cases p
    · have hi' : (s 0).inside = false := hi
      rw [h0] at hi'; cases hi'
    · have he' : (s 1).ended = none := he
      rw [h1] at he'; cases he'
  | finish p he hi hs =>
    fin_cases p
    · have hi' : (s 0).inside = false := hi
      rw [h0] at hi'; cases hi'
    · have he' : (s 1).ended = none := he
      rw [h1] at he'; cases he'
  | reduced p all he hi hall hmin =>
    fin_cases p
    · have := hall 1
      exact absurd this (by simpa using hl)
    · have he' : (s 1).ended = none := he
      rw [h1] at he'; cases he'

/-- **C77** is false for the update of all other models: if the update is not finite on one process only, it leaves the iteration,
and the others wait for ever at its end. -/
theorem C77_update_violated :
    ∃ (outcome : Fin 2 → ℕ → Outcome) (s : Fin 2 → Proc), Reach [update, endIteration] outcome s ∧ (s 0).ended = none ∧
      (s 1).ended = some true ∧ ¬∃ t, Step [update, endIteration] outcome s t := by
  let outcome : Fin 2 → ℕ → Outcome := fun p k => if p = 1 ∧ k = 0 then some .numerical else none
  let sites : List (Site 2) := [update, endIteration]
  let s0 : Fin 2 → Proc := fun _ => Proc.init
  let s1 := Function.update s0 1 ((s0 1).tryIt .leave)
  let s2 := Function.update s1 0 ((s1 0).tryIt .goOn)
  let s3 := Function.update s2 0 ((s2 0).tryIt (.reduce true))
  have st1 : Step sites outcome s0 s1 := Step.tryIt s0 1 update rfl rfl rfl
  have st2 : Step sites outcome s1 s2 := Step.tryIt s1 0 update rfl rfl rfl
  have st3 : Step sites outcome s2 s3 := Step.tryIt s2 0 endIteration rfl rfl rfl
  exact ⟨outcome, s3, ((Relation.ReflTransGen.refl.tail st1).tail st2).tail st3, rfl, rfl, stuck rfl rfl (by decide)⟩

/-- **C77** is false for the preparation of the preconditioner if it throws an exception which is not of Dune, as the inversion of
a singular 4x4 block does (`NumericalProblem`, opm/simulators/linalg/matrixblock.hh:190): the process leaves, and the others
wait for ever. -/
theorem C77_prepare_violated :
    ∃ (outcome : Fin 2 → ℕ → Outcome) (s : Fin 2 → Proc), Reach [preparePreconditioner] outcome s ∧ (s 0).ended = none ∧
      (s 1).ended = some true ∧ ¬∃ t, Step [preparePreconditioner] outcome s t := by
  let outcome : Fin 2 → ℕ → Outcome := fun p _ => if p = 1 then some .numerical else none
  let sites : List (Site 2) := [preparePreconditioner]
  let s0 : Fin 2 → Proc := fun _ => Proc.init
  let s1 := Function.update s0 1 ((s0 1).tryIt .leave)
  let s2 := Function.update s1 0 ((s1 0).tryIt (.reduce true))
  have st1 : Step sites outcome s0 s1 := Step.tryIt s0 1 preparePreconditioner rfl rfl rfl
  have st2 : Step sites outcome s1 s2 := Step.tryIt s1 0 preparePreconditioner rfl rfl rfl
  exact ⟨outcome, s2, (Relation.ReflTransGen.refl.tail st1).tail st2, rfl, rfl, stuck rfl rfl (by decide)⟩

end Verif.Agree
