import Verif.Tasklets.Measure
/-
Properties C23-C26, C66 and C67: tasklets and barriers.
-/

set_option autoImplicit false

namespace Verif.Tasklets

variable {n : ℕ}

/-- A pool of two workers; the main thread dispatches a tasklet twice, a second one once, and calls a barrier. -/
def demoProg : List Op := [.dispatch 2, .dispatch 1, .barrier]

/-- A schedule of this pool until the runner is destroyed. -/
def demoSchedule : List (Action 2) :=
  [.worker 0 false, .worker 1 true, .wake 1, .worker 1 true, .main, .main, .worker 0 false, .worker 1 true,
   .worker 1 true, .main, .worker 0 false, .worker 1 true, .worker 1 true, .main, .worker 0 false,
   .worker 1 true, .main, .main, .worker 0 false, .worker 1 true, .worker 1 true, .main, .worker 0 false,
   .worker 0 false, .worker 1 true, .main, .worker 0 false, .worker 1 true, .main, .main, .worker 0 false,
   .worker 1 true, .worker 1 true, .worker 0 false, .main]

theorem inv_prefix {prog : List Op} (P : List Event → Prop) (hn : 1 ≤ n) (hp : Positive prog)
    (h0 : P []) (hstep : ∀ s s' : State n, Inv s → Inv s' → Step s s' → P s.log → P s'.log)
    {s : State n} (h : Reachable prog s) : P s.log := by
  have : Inv s ∧ P s.log := by
    refine reachable_induction (fun s => Inv s ∧ P s.log) ⟨inv_reachable hn hp ⟨[], rfl⟩, h0⟩ ?_ h
    rintro s s' ⟨hi, hpl⟩ hs
    have hi' : Inv s' := ⟨base_step s s' hi.base hs, einv_step s s' hi.base hi.e hs, finv_step s s' hi.base hi.f hs,
      ginv_step s s' hi.g hs, noEndStart_step s s' hi.x hs⟩
    exact ⟨hi', hstep s s' hi hi' hs hpl⟩
  exact this.2

/-- Induction for statements about what happened before an event. -/
theorem snoc_split {α : Type} (l : List α) (e x : α) (pre post : List α) (h : l ++ [e] = pre ++ x :: post) :
    (pre = l ∧ x = e ∧ post = []) ∨ ∃ post', l = pre ++ x :: post' := by
  rcases List.eq_nil_or_concat post with rfl | ⟨post', y, rfl⟩
  · left
    have h := List.append_inj' h rfl
    exact ⟨h.1.symm, by simpa using h.2.symm, rfl⟩
  · right
    refine ⟨post', ?_⟩
    rw [List.concat_eq_append, ← List.cons_append, ← List.append_assoc] at h
    exact (List.append_inj' h rfl).1

theorem returned_step (s s' : State n) (hi : Inv s) (hs : Step s s')
    (h : ∀ pre post b, s.log = pre ++ .returned b :: post →
      (∀ t c, .dispatch (.task t) c ∈ pre → (runsOf t pre : ℤ) = c) ∧ (startsOf pre).count (.barrier b) = n) :
    ∀ pre post b, s'.log = pre ++ .returned b :: post →
      (∀ t c, .dispatch (.task t) c ∈ pre → (runsOf t pre : ℤ) = c) ∧ (startsOf pre).count (.barrier b) = n := by
  have hret : ∀ b, atBar s.main b → n < s.waiting b →
      (∀ t c, .dispatch (.task t) c ∈ s.log → (runsOf t s.log : ℤ) = c) ∧
      (startsOf s.log).count (.barrier b) = n := by
    intro b hb hw
    obtain ⟨hq, hr⟩ := hi.e.idle b hb hw
    refine ⟨fun t c hc => ?_, ?_⟩
    · have hpos : 1 ≤ c := hi.base.q.posd (.task t, c) ((mem_dispatchedOf _ _ _).2 hc)
      rw [runs_eq s hi.base hq hr t c ((mem_dispatchedOf _ _ _).2 hc)]
      omega
    · have h1 := hi.base.c.bars b
      have h2 := starts_bar_le s hi.base b
      have h3 := num_zero (isBar b) s.pc (by simp [isBar, hr])
      have := Bool.toNat_le (mainArr s.main s.nextBarrier b)
      omega
  have hother : ∀ e : Event, (∀ b, e ≠ .returned b) → ∀ pre post b, s.log ++ [e] = pre ++ .returned b :: post →
      (∀ t c, .dispatch (.task t) c ∈ pre → (runsOf t pre : ℤ) = c) ∧ (startsOf pre).count (.barrier b) = n := by
    intro e he pre post b hl
    rcases snoc_split _ _ _ _ _ hl with ⟨_, h2, _⟩ | ⟨post', h2⟩
    · exact absurd h2.symm (he b)
    · exact h pre post' b h2
  obtain ⟨kind, hs⟩ := hs
  cases hs with
  | mNotify b hm =>
    intro pre post b' hl
    rcases snoc_split _ _ _ _ _ hl with ⟨rfl, h2, _⟩ | ⟨post', h2⟩
    · cases h2
      exact hret b (by simp [atBar, hm]) (hi.base.nn.main b hm)
    · exact h pre post' b' h2
  | mCheckOk b hm hk =>
    intro pre post b' hl
    rcases snoc_split _ _ _ _ _ hl with ⟨rfl, h2, _⟩ | ⟨post', h2⟩
    · cases h2
      exact hret b (by simp [atBar, hm]) hk
    · exact h pre post' b' h2
  | _ =>
    first
    | exact h
    | exact hother _ (by simp)


/-! ### C23: every tasklet runs exactly as often as requested -/

/-- The calls of the main thread behind a list of dispatched objects. -/
def callsOf (l : List (Kind × ℤ)) : List Op :=
  l.filterMap fun e => match e.1 with
    | .task _ => some (.dispatch e.2)
    | .barrier _ => some .barrier
    | .endMarker => none

/-- C23 (link to the program): what was dispatched is what the main thread asked for, in this order. -/
theorem C23_dispatched {prog : List Op} {s : State n} (h : Reachable prog s) :
    callsOf (dispatchedOf s.log) ++ s.prog = prog := by
  refine reachable_induction (fun s => callsOf (dispatchedOf s.log) ++ s.prog = prog) (by simp [init, callsOf]) ?_ h
  intro s s' hi hs
  obtain ⟨kind, hs⟩ := hs
  have happ : ∀ l m, callsOf (l ++ m) = callsOf l ++ callsOf m := by simp [callsOf]
  cases hs with
  | disp c rest hm hpr => simpa [push, happ, callsOf, hpr] using hi
  | bar rest hm hpr => simpa [push, happ, callsOf, hpr] using hi
  | fin hm hpr => simpa [push, happ, callsOf] using hi
  | _ => first | exact hi | simpa using hi

/-- C23: when a barrier returns, every tasklet dispatched before has run exactly as often as requested; for all numbers
of workers, programs and schedules. -/
theorem C23_barrier {prog : List Op} (hn : 1 ≤ n) (hp : Positive prog) {s : State n} (h : Reachable prog s)
    (pre post : List Event) (b : ℕ) (hl : s.log = pre ++ .returned b :: post) (t : ℕ) (c : ℤ)
    (hd : .dispatch (.task t) c ∈ pre) : (runsOf t pre : ℤ) = c := by
  have := inv_prefix (n := n) (fun log => ∀ pre post b, log = pre ++ .returned b :: post →
      (∀ t c, .dispatch (.task t) c ∈ pre → (runsOf t pre : ℤ) = c) ∧ (startsOf pre).count (.barrier b) = n)
    hn hp (by simp) (fun s s' hi _ hs hl => returned_step s s' hi hs hl) h
  exact (this pre post b hl).1 t c hd

/-- C23: at no time has a tasklet run more often than requested, and nothing runs which was not dispatched. -/
theorem C23_never_more {prog : List Op} (hn : 1 ≤ n) (hp : Positive prog) {s : State n} (h : Reachable prog s) (t : ℕ) :
    (∀ c, .dispatch (.task t) c ∈ s.log → (runsOf t s.log : ℤ) ≤ c) ∧
    (0 < runsOf t s.log → ∃ c, .dispatch (.task t) c ∈ s.log) := by
  have hi := inv_reachable hn hp h
  refine ⟨fun c hc => ?_, fun ht => ?_⟩
  · have hmem := (mem_dispatchedOf _ _ _).2 hc
    have h1 := runs_le s hi.base t c hmem
    have : 1 ≤ c := hi.base.q.posd (.task t, c) hmem
    omega
  · have h1 := hi.base.c.tasks t
    have : Kind.task t ∈ startsOf s.log := List.count_pos_iff.1 (by omega)
    obtain ⟨c, hc⟩ := expand_mem_pos (dispatchedOf s.log) (.task t) (by rw [hi.base.q.fifo]; simp [this])
    exact ⟨c, (mem_dispatchedOf _ _ _).1 hc⟩

/-- C23 (synchronous mode): without workers, the tasklet is run exactly as often as requested. -/
theorem C23_sync (throws : ℕ → Bool) (c : ℤ) (failure : Bool) : (syncDispatch throws c failure).1.length = c.toNat := by
  have : ∀ (fuel : ℕ) (c : ℤ) i f, c.toNat < fuel → (syncLoop throws fuel c i f).1.length = c.toNat := by
    intro fuel
    induction fuel with
    | zero => intro c i f h; omega
    | succ fuel ih =>
      intro c i f h
      simp only [syncLoop]
      by_cases hc : 0 < c
      · rw [if_pos hc]
        simp only [List.length_cons]
        rw [ih _ _ _ (by omega)]
        omega
      · rw [if_neg hc]
        simp only [List.length_nil]; omega
  exact this _ _ _ _ (by omega)

example : Positive demoProg := by
  intro c hc
  simp [demoProg] at hc
  omega
example : ((exec (init 2 demoProg) demoSchedule).map fun s => (s.log.countP (· == .returned 0), runsOf 0 s.log, runsOf 1 s.log))
    = some (1, 2, 1) := by decide +kernel

/-! ### C24: dispatch order -/

/-- C24: the invocations which workers have taken so far are the first ones of the list that contains each dispatched
object as often as requested, one after the other: nothing of a later one is started before all of the earlier ones. -/
theorem C24_order {prog : List Op} (hn : 1 ≤ n) (hp : Positive prog) {s : State n} (h : Reachable prog s) :
    startsOf s.log <+: expand (dispatchedOf s.log) := by
  rw [(inv_reachable hn hp h).base.q.fifo]
  exact List.prefix_append _ _

example : ((exec (init 2 demoProg) demoSchedule).map fun s => startsOf s.log)
    = some [.task 0, .task 0, .task 1, .barrier 0, .barrier 0] := by decide +kernel

/-! ### C25: failures -/

/-- C25: `failure()` is true exactly if an invocation has thrown (whatever the invocation counts). -/
theorem C25_failure_flag {prog : List Op} {s : State n} (h : Reachable prog s) : s.failure = hasThrown s.log := by
  refine reachable_induction (fun s => s.failure = hasThrown s.log) rfl ?_ h
  intro s s' hi hs
  obtain ⟨kind, hs⟩ := hs
  cases hs with
  | ran w t hw throws => cases throws <;> simp [hi]
  | _ => first | exact hi | simpa [push] using hi

/-- C25: once true, `failure()` stays true. -/
theorem C25_failure_stays (s s' : State n) (as : List (Action n)) (he : exec s as = some s') (hf : s.failure = true) :
    s'.failure = true := by
  induction as generalizing s with
  | nil => cases he; exact hf
  | cons a as ih =>
    simp only [exec, Option.bind_eq_some_iff] at he
    obtain ⟨s1, h1, h2⟩ := he
    refine ih s1 h2 ?_
    have hst := act_step s s1 a h1
    generalize a.spurious = k at hst
    cases hst with
    | ran w t hw throws => simp [hf]
    | _ => exact hf

/-- C25: a worker survives a throwing tasklet; together with `C23_barrier`, which counts throwing invocations like the
others, everything else still runs. -/
theorem C25_worker_continues (s s' : State n) (w : Fin n) (t : ℕ) (hw : s.pc w = .run (.task t))
    (h : act s (.worker w true) = some s') : s'.pc w = .check ∧ s'.failure = true := by
  simp only [act, workerStep, hw] at h
  cases h
  simp

/-- C25 (synchronous mode): all invocations are made, in order, and the flag is set exactly if one of them (or an
earlier tasklet) threw. -/
theorem C25_sync (throws : ℕ → Bool) (c : ℤ) (failure : Bool) :
    (syncDispatch throws c failure).1 = (List.range c.toNat).map throws ∧
    (syncDispatch throws c failure).2 = (failure || (List.range c.toNat).any throws) := by
  have : ∀ (fuel : ℕ) (c : ℤ) i f, c.toNat < fuel →
      (syncLoop throws fuel c i f).1 = (List.range c.toNat).map (fun k => throws (i + k)) ∧
      (syncLoop throws fuel c i f).2 = (f || (List.range c.toNat).any (fun k => throws (i + k))) := by
    intro fuel
    induction fuel with
    | zero => intro c i f h; omega
    | succ fuel ih =>
      intro c i f h
      simp only [syncLoop]
      split_ifs with hc ht
      · obtain ⟨h1, h2⟩ := ih (c - 1) (i + 1) true (by omega)
        obtain ⟨m, hm⟩ : ∃ m, c.toNat = m + 1 := ⟨c.toNat - 1, by omega⟩
        have hm' : (c - 1).toNat = m := by omega
        rw [hm'] at h1 h2
        refine ⟨?_, ?_⟩
        · simp [h1, hm, List.range_succ_eq_map, Function.comp_def, Nat.add_comm, Nat.add_left_comm]
        · simp [h2, hm, List.range_succ_eq_map, ht]
      · obtain ⟨h1, h2⟩ := ih (c - 1) (i + 1) f (by omega)
        obtain ⟨m, hm⟩ : ∃ m, c.toNat = m + 1 := ⟨c.toNat - 1, by omega⟩
        have hm' : (c - 1).toNat = m := by omega
        rw [hm'] at h1 h2
        refine ⟨?_, ?_⟩
        · simp [h1, hm, List.range_succ_eq_map, Function.comp_def, Nat.add_comm, Nat.add_left_comm]
        · simp [h2, hm, List.range_succ_eq_map, ht, Function.comp_def, Nat.add_comm, Nat.add_left_comm]
      · have : c.toNat = 0 := by omega
        simp [this]
  simpa [syncDispatch] using this _ c 0 failure (Nat.lt_succ_self _)

example : ((exec (init 2 demoProg) demoSchedule).map fun s => s.failure) = some true := by decide +kernel
example : syncDispatch (fun i => i == 1) 3 false = ([false, true, false], true) := by decide +kernel

/-! ### C26: barriers -/

/-- C26: a barrier returns only after every worker has reached it: `n` invocations of it were taken, and a worker which
took one cannot take anything else before the barrier is complete. -/
theorem C26_not_early {prog : List Op} (hn : 1 ≤ n) (hp : Positive prog) {s : State n} (h : Reachable prog s)
    (pre post : List Event) (b : ℕ) (hl : s.log = pre ++ .returned b :: post) :
    (startsOf pre).count (.barrier b) = n := by
  have := inv_prefix (n := n) (fun log => ∀ pre post b, log = pre ++ .returned b :: post →
      (∀ t c, .dispatch (.task t) c ∈ pre → (runsOf t pre : ℤ) = c) ∧ (startsOf pre).count (.barrier b) = n)
    hn hp (by simp) (fun s s' hi _ hs hl => returned_step s s' hi hs hl) h
  exact (this pre post b hl).2

/-- C26: as long as the main thread has not finished, some thread can do a step, without relying on spurious
wakeups: no deadlock, no lost wakeup. -/
theorem C26_no_deadlock {prog : List Op} (hn : 1 ≤ n) (hp : Positive prog) {s : State n} (h : Reachable prog s)
    (hd : s.main ≠ .done) : ∃ a : Action n, a.spurious = false ∧ (act s a).isSome :=
  progress s (inv_reachable hn hp h) hd

/-- C26: no schedule goes on forever, unless it contains infinitely many spurious wakeups: the number of steps is
bounded by a number that only depends on the state, plus twice the number of spurious wakeups. -/
theorem C26_schedules_end {prog : List Op} (hn : 1 ≤ n) (hp : Positive prog) {s : State n} (h : Reachable prog s) :
    ∃ bound, ∀ as s', exec s as = some s' → as.length ≤ bound + 2 * as.countP Action.spurious := by
  refine ⟨measure s, fun as s' he => ?_⟩
  have := exec_bounded s s' (inv_reachable hn hp h).base.q as he
  omega

/-- C26: consequently the main thread can always finish its program, including all barriers. -/
theorem C26_completes {prog : List Op} (hn : 1 ≤ n) (hp : Positive prog) {s : State n} (h : Reachable prog s) :
    ∃ as s', exec s as = some s' ∧ s'.main = .done ∧ as.countP Action.spurious = 0 := by
  induction hm : measure s using Nat.strong_induction_on generalizing s with
  | _ m ih =>
    by_cases hd : s.main = .done
    · exact ⟨[], s, rfl, hd, rfl⟩
    · obtain ⟨a, ha, hs⟩ := C26_no_deadlock hn hp h hd
      obtain ⟨s1, h1⟩ := Option.isSome_iff_exists.1 hs
      have hst := act_step s s1 a h1
      have hlt := measure_step s s1 _ (inv_reachable hn hp h).base.q hst
      rw [ha] at hlt
      simp at hlt
      have hr : Reachable prog s1 := by
        obtain ⟨as, has⟩ := h
        exact ⟨as ++ [a], by rw [exec_append, has]; simp [exec, h1]⟩
      obtain ⟨as, s', h2, h3, h4⟩ := ih (measure s1) (by omega) hr rfl
      exact ⟨a :: as, s', by simp [exec, h1, h2], h3, by simp [ha, h4]⟩

example : ((exec (init 2 demoProg) demoSchedule).map fun s => s.main) = some .done := by decide +kernel

/-! ### C66: destruction -/

/-- C66: if the destructor returned, every dispatched tasklet has run exactly as often as requested. -/
theorem C66_destruction_completes {prog : List Op} (hn : 1 ≤ n) (hp : Positive prog) {s : State n}
    (h : Reachable prog s) (hd : s.main = .done) (t : ℕ) (c : ℤ) (hc : .dispatch (.task t) c ∈ s.log) :
    (runsOf t s.log : ℤ) = c := by
  have hall : s.main = .done → ∀ w, s.pc w = .terminated := by
    refine reachable_induction (fun s => s.main = .done → ∀ w, s.pc w = .terminated) (by simp [init]) ?_ h
    intro s s' hi hs hm
    obtain ⟨kind, hs⟩ := hs
    cases hs with
    | join hm' hw => exact hw
    | wNotify w b hw hm' => have := hi hm w; rw [hw] at this; cases this
    | _ =>
      first
      | (have := hi hm ‹Fin n›; simp_all)
      | (simp [push] at hm)
  have hi := inv_reachable hn hp h
  have hmem := (mem_dispatchedOf _ _ _).2 hc
  have hpos : 1 ≤ c := hi.base.q.posd (.task t, c) hmem
  have hterm := hall hd
  have h0 := (hi.f.left ⟨0, hn⟩ (.inr (hterm _))).2
  have h1 := count_expand _ hi.base.d.nodup _ _ hmem
  rw [hi.base.q.fifo, h0, List.count_append, hi.base.c.tasks t, num_zero _ _ (by simp [isTask, hterm])] at h1
  simp at h1
  omega

/-- C66: no worker ever dies with the "Not all queued tasklets were executed" exception. -/
theorem C66_no_crash {prog : List Op} (hn : 1 ≤ n) (hp : Positive prog) {s : State n} (h : Reachable prog s)
    (w : Fin n) : s.pc w ≠ .crashed := (inv_reachable hn hp h).f.noCrash w

/-- C66 (refuted: freedom from undefined behaviour): no pool with workers can be destroyed without a worker unlocking a
mutex which it does not own: `run_` unlocks the mutex by hand although `lock` does it again. -/
theorem C66_double_unlock_violated {prog : List Op} (hn : 1 ≤ n) (hp : Positive prog) {s : State n}
    (h : Reachable prog s) (w : Fin n) (hw : s.pc w = .terminated) : s.doubleUnlock = true :=
  (inv_reachable hn hp h).f.unlocked w hw

example : ((exec (init 2 demoProg) demoSchedule).map fun s => (s.doubleUnlock, decide (s.pc 0 = .terminated)))
    = some (true, true) := by decide +kernel

/-! ### C67: no invocations requested -/

/-- The pool after a tasklet with zero invocations came to the front of the queue. -/
structure ZInv (rest : List Op) (s : State n) : Prop where
  queue : (s.queue = [] ∧ s.main = .ready ∧ s.prog = .dispatch 0 :: rest) ∨
    ∃ (t : ℕ) (r : ℤ) (q : List (Kind × ℤ)), r ≤ 0 ∧ s.queue = (.task t, r) :: q
  pc : ∀ w b, s.pc w ≠ .run (.barrier b) ∧ s.pc w ≠ .barNotify b
  waiting : ∀ b, s.waiting b ≤ if s.main = .barSleep b ∨ s.main = .barCheck b then 1 else 0
  main : ∀ b, s.main ≠ .barNotify b
  log : ∀ b, .returned b ∉ s.log

theorem zinv_pc_update (f : Fin n → WorkerPc) (w : Fin n) (x : WorkerPc)
    (h : ∀ w b, f w ≠ .run (.barrier b) ∧ f w ≠ .barNotify b) (hx : ∀ b, x ≠ .run (.barrier b) ∧ x ≠ .barNotify b) :
    ∀ v b, Function.update f w x v ≠ .run (.barrier b) ∧ Function.update f w x v ≠ .barNotify b := by
  intro v b
  by_cases hv : v = w
  · subst hv; simpa using hx b
  · simpa [Function.update_of_ne hv] using h v b

theorem zinv_step (rest : List Op) (hn : 1 ≤ n) (s s' : State n) (h : ZInv rest s) (hs : Step s s') : ZInv rest s' := by
  obtain ⟨h1, h2, h3, h4, h5⟩ := h
  obtain ⟨kind, hs⟩ := hs
  have hwa : ∀ v b, wakeAll s.pc v ≠ .run (.barrier b) ∧ wakeAll s.pc v ≠ .barNotify b := by
    intro v b; simp only [wakeAll]; split_ifs <;> simp [h2 v b]
  cases hs with
  | disp c rest' hm hpr =>
    refine ⟨.inr ?_, h2, ?_, by simp [push], by simpa [push] using h5⟩
    · rcases h1 with ⟨hq, -, hp⟩ | ⟨t, r, q, hr, hq⟩
      · rw [hpr] at hp
        simp only [List.cons.injEq, Op.dispatch.injEq] at hp
        exact ⟨s.nextTask, c, [], by omega, by simp [push, hq]⟩
      · exact ⟨t, r, q ++ [(.task s.nextTask, c)], hr, by simp [push, hq]⟩
    · intro b; simpa [push, hm] using h3 b
  | bar rest' hm hpr =>
    refine ⟨.inr ?_, h2, ?_, by simp [push], by simpa [push] using h5⟩
    · rcases h1 with ⟨hq, -, hp⟩ | ⟨t, r, q, hr, hq⟩
      · rw [hpr] at hp; simp at hp
      · exact ⟨t, r, q ++ [(Kind.barrier s.nextBarrier, (n : ℤ))], hr, by simp [push, hq]⟩
    · intro b; simpa [push, hm] using h3 b
  | fin hm hpr =>
    refine ⟨.inr ?_, h2, ?_, by simp [push], by simpa [push] using h5⟩
    · rcases h1 with ⟨hq, -, hp⟩ | ⟨t, r, q, hr, hq⟩
      · rw [hpr] at hp; simp at hp
      · exact ⟨t, r, q ++ [(.endMarker, 1)], hr, by simp [push, hq]⟩
    · intro b; simpa [push, hm] using h3 b
  | notifyTask t hm =>
    refine ⟨.inr (h1.resolve_left (by simp [hm])), hwa, ?_, by simp, h5⟩
    intro b; simpa [hm] using h3 b
  | notifyBar b hm =>
    refine ⟨.inr (h1.resolve_left (by simp [hm])), hwa, ?_, by simp, h5⟩
    intro b; simpa [hm] using h3 b
  | notifyEnd hm =>
    refine ⟨.inr (h1.resolve_left (by simp [hm])), hwa, ?_, by simp, h5⟩
    intro b; simpa [hm] using h3 b
  | arriveLast b hm hk =>
    have := h3 b
    simp [hm] at this
    omega
  | arriveWait b hm hk =>
    refine ⟨.inr (h1.resolve_left (by simp [hm])), h2, ?_, by simp, h5⟩
    intro b'
    have := h3 b'
    simp [hm] at this
    by_cases hbb : b' = b
    · subst hbb; simp [this]
    · simp [Function.update_of_ne hbb, this]
  | mNotify b hm => exact absurd hm (h4 b)
  | mCheckOk b hm hk =>
    have := h3 b
    simp [hm] at this
    omega
  | mCheckNo b hm hk =>
    refine ⟨.inr (h1.resolve_left (by simp [hm])), h2, ?_, by simp, h5⟩
    intro b'; simpa [hm] using h3 b'
  | sMain b hm =>
    refine ⟨.inr (h1.resolve_left (by simp [hm])), h2, ?_, by simp, h5⟩
    intro b'; simpa [hm] using h3 b'
  | join hm hw =>
    refine ⟨.inr (h1.resolve_left (by simp [hm])), h2, ?_, by simp, by simpa using h5⟩
    intro b'; simpa [hm] using h3 b'
  | take w hw k r rest' hqe hk =>
    rcases h1 with ⟨hq, -, -⟩ | ⟨t, r', q, hr, hq⟩
    · rw [hq] at hqe; cases hqe
    · rw [hq] at hqe
      simp only [List.cons.injEq, Prod.mk.injEq] at hqe
      obtain ⟨⟨rfl, rfl⟩, rfl⟩ := hqe
      refine ⟨.inr ⟨t, r' - 1, q, by omega, ?_⟩, zinv_pc_update _ _ _ h2 (by simp), h3, h4, by simpa using h5⟩
      rw [if_neg (by omega)]
  | reachLast w b hw hk => exact absurd hw (h2 w b).1
  | reachWait w b hw hk => exact absurd hw (h2 w b).1
  | wNotify w b hw hm => exact absurd hw (h2 w b).2
  | wNotifyMain w b hw hm => exact absurd hw (h2 w b).2
  | ran w t hw throws => exact ⟨h1, zinv_pc_update _ _ _ h2 (by simp), h3, h4, by simpa using h5⟩
  | _ => exact ⟨h1, zinv_pc_update _ _ _ h2 (by simp), h3, h4, h5⟩

/-- C67 (refuted): a tasklet dispatched with zero invocations to a pool with workers is run, without end: for every `m`
there is a schedule with which it has run `m` times.  (In synchronous mode it is not run, `C23_sync`.) -/
theorem C67_zero_invocations_violated (hn : 1 ≤ n) (rest : List Op) (m : ℕ) :
    ∃ s : State n, Reachable (.dispatch 0 :: rest) s ∧ runsOf 0 s.log = m := by
  have key : ∃ s : State n, Reachable (.dispatch 0 :: rest) s ∧ runsOf 0 s.log = m ∧ s.pc ⟨0, hn⟩ = .check ∧
      ∃ (r : ℤ) (q : List (Kind × ℤ)), r ≤ 0 ∧ s.queue = (.task 0, r) :: q := by
    induction m with
    | zero =>
      refine ⟨_, ⟨[.main], rfl⟩, ?_, rfl, 0, [], le_refl _, rfl⟩
      simp [init, push]
    | succ m ih =>
      obtain ⟨s, ⟨as, has⟩, hm, hpc, r, q, hr, hq⟩ := ih
      have h1 : act s (.worker ⟨0, hn⟩ false) = some { s with
          queue := (.task 0, r - 1) :: q, pc := Function.update s.pc ⟨0, hn⟩ (.run (.task 0)),
          log := s.log ++ [.start (.task 0)] } := by
        simp only [act, workerStep, hpc, hq]
        rw [if_neg (by omega)]
      refine ⟨{ s with
          queue := (.task 0, r - 1) :: q,
          pc := Function.update (Function.update s.pc ⟨0, hn⟩ (.run (.task 0))) ⟨0, hn⟩ .check,
          log := s.log ++ [.start (.task 0)] ++ [.ran 0 false] },
        ⟨as ++ [.worker ⟨0, hn⟩ false, .worker ⟨0, hn⟩ false], ?_⟩, ?_, ?_, r - 1, q, by omega, rfl⟩
      · rw [exec_append, has]
        simp only [Option.bind_some, exec, h1]
        simp [act, workerStep]
      · rw [runsOf_append, runsOf_append]; simp [hm]
      · simp
  obtain ⟨s, h1, h2, -⟩ := key
  exact ⟨s, h1, h2⟩

/-- C67 (refuted): and no barrier ever returns after that. -/
theorem C67_barrier_never_returns_violated (hn : 1 ≤ n) (rest : List Op) {s : State n}
    (h : Reachable (.dispatch 0 :: rest) s) (b : ℕ) : .returned b ∉ s.log := by
  refine (reachable_induction (ZInv rest) ?_ (zinv_step rest hn) h).log b
  refine ⟨.inl ⟨rfl, rfl, rfl⟩, ?_, ?_, ?_, ?_⟩ <;> simp [init]

/-- C67 (synchronous mode, what holds): without workers a tasklet with zero (or a negative number of) invocations is not
run. -/
theorem C67_sync_partial (throws : ℕ → Bool) (c : ℤ) (hc : c ≤ 0) (failure : Bool) :
    syncDispatch throws c failure = ([], failure) := by
  have : c.toNat = 0 := by omega
  have h := C25_sync throws c failure
  rw [this] at h
  exact Prod.ext (by simpa using h.1) (by simpa using h.2)

end Verif.Tasklets
