import Verif.Tasklets.Barrier
import Mathlib.Tactic.Ring
/-
Progress: no deadlock, and a measure which decreases with every step that is not a spurious wakeup.
-/

set_option autoImplicit false

namespace Verif.Tasklets

variable {n : ℕ}

/-! ### No wakeup is lost -/

/-- Someone is about to wake up the threads which sleep in barrier `b`. -/
def Waker (m : MainPc) (f : Fin n → WorkerPc) (b : ℕ) : Prop := m = .barNotify b ∨ ∃ v, f v = .barNotify b

structure GInv (s : State n) : Prop where
  asleep : ∀ w, s.pc w = .asleep → s.queue = [] ∨ ∃ k, s.main = .notify k
  worker : ∀ w b, s.pc w = .barSleep b → s.waiting b ≤ n ∨ Waker s.main s.pc b
  main : ∀ b, s.main = .barSleep b → s.waiting b ≤ n ∨ Waker s.main s.pc b

theorem waker_update (m m' : MainPc) (f : Fin n → WorkerPc) (w : Fin n) (x : WorkerPc) (b : ℕ) (h : Waker m f b)
    (hm : m = .barNotify b → m' = .barNotify b) (hx : f w ≠ .barNotify b) : Waker m' (Function.update f w x) b := by
  rcases h with h | ⟨v, h⟩
  · exact .inl (hm h)
  · have : v ≠ w := by rintro rfl; exact hx h
    exact .inr ⟨v, by rw [Function.update_of_ne this]; exact h⟩

/-- A change of one worker, which is not about to notify a barrier; `q` is the new queue. -/
theorem ginv_move (s s' : State n) (h : GInv s) (w : Fin n) (x : WorkerPc)
    (hpc : s'.pc = Function.update s.pc w x) (hm : s'.main = s.main) (hwt : s'.waiting = s.waiting)
    (hq : s.queue = [] → s'.queue = []) (hw : ∀ b, s.pc w ≠ .barNotify b)
    (hx1 : x = .asleep → s'.queue = []) (hx2 : ∀ b, x = .barSleep b → s.waiting b ≤ n) : GInv s' := by
  obtain ⟨h1, h2, h3⟩ := h
  constructor
  · intro v hv
    rw [hm]
    rw [hpc] at hv
    by_cases hvw : v = w
    · subst hvw; simp at hv; exact .inl (hx1 hv)
    · rw [Function.update_of_ne hvw] at hv
      exact (h1 v hv).imp hq id
  · intro v b hv
    rw [hm, hpc, hwt]
    rw [hpc] at hv
    by_cases hvw : v = w
    · subst hvw; simp at hv; exact .inl (hx2 b hv)
    · rw [Function.update_of_ne hvw] at hv
      exact (h2 v b hv).imp id fun h => waker_update _ _ _ _ _ _ h id (hw b)
  · intro b hv
    rw [hm, hpc, hwt]
    rw [hm] at hv
    exact (h3 b hv).imp id fun h => waker_update _ _ _ _ _ _ h id (hw b)

theorem wakeAll_barSleep (f : Fin n → WorkerPc) (v : Fin n) (b : ℕ) (h : wakeAll f v = .barSleep b) : f v = .barSleep b := by
  simp only [wakeAll] at h; split_ifs at h; exact h

theorem wakeAll_barNotify (f : Fin n → WorkerPc) (v : Fin n) (b : ℕ) (h : f v = .barNotify b) :
    wakeAll f v = .barNotify b := by simp [wakeAll, h]

theorem wakeBarrier_barSleep (f : Fin n → WorkerPc) (v : Fin n) (b b' : ℕ) (h : wakeBarrier b f v = .barSleep b') :
    f v = .barSleep b' ∧ b ≠ b' := by
  simp only [wakeBarrier] at h
  split_ifs at h with hc
  refine ⟨h, ?_⟩
  rintro rfl; exact hc h

theorem wakeBarrier_barNotify (f : Fin n → WorkerPc) (v : Fin n) (b b' : ℕ) (h : f v = .barNotify b') :
    wakeBarrier b f v = .barNotify b' := by simp [wakeBarrier, h]

theorem wakeBarrier_asleep (f : Fin n → WorkerPc) (v : Fin n) (b : ℕ) (h : wakeBarrier b f v = .asleep) :
    f v = .asleep := by
  simp only [wakeBarrier] at h
  split_ifs at h
  exact h

/-- A change of the main thread from a state in which it notifies nobody. -/
theorem ginv_main (s s' : State n) (h : GInv s) (hpc : s'.pc = s.pc) (hwt : s'.waiting = s.waiting)
    (hn : (∃ k, s'.main = .notify k) ∨ (s'.queue = s.queue ∧ ∀ k, s.main ≠ .notify k))
    (hb : ∀ b, s.main ≠ .barNotify b) (hm : ∀ b, s'.main = .barSleep b → s.waiting b ≤ n) : GInv s' := by
  obtain ⟨h1, h2, h3⟩ := h
  constructor
  · intro v hv
    rw [hpc] at hv
    rcases hn with hn | ⟨hn, hk⟩
    · exact .inr hn
    · rw [hn]
      rcases h1 v hv with h | ⟨k, h⟩
      · exact .inl h
      · exact absurd h (hk k)
  · intro v b hv
    rw [hwt, hpc]
    rw [hpc] at hv
    refine (h2 v b hv).imp id ?_
    rintro (h | h)
    · exact absurd h (hb b)
    · exact .inr h
  · intro b hv
    rw [hwt]
    exact .inl (hm b hv)

/-- `notify_all` for the queue. -/
theorem ginv_wakeAll (s s' : State n) (h : GInv s) (hpc : s'.pc = wakeAll s.pc) (hwt : s'.waiting = s.waiting)
    (hb : ∀ b, s.main ≠ .barNotify b) (hm : ∀ b, s'.main ≠ .barSleep b) : GInv s' := by
  obtain ⟨h1, h2, h3⟩ := h
  constructor
  · intro v hv
    rw [hpc] at hv
    simp only [wakeAll] at hv
    split_ifs at hv
    contradiction
  · intro v b hv
    rw [hwt, hpc]
    rw [hpc] at hv
    refine (h2 v b (wakeAll_barSleep _ _ _ hv)).imp id ?_
    rintro (h | ⟨u, h⟩)
    · exact absurd h (hb b)
    · exact .inr ⟨u, wakeAll_barNotify _ _ _ h⟩
  · intro b hv
    exact absurd hv (hm b)

theorem ginv_step (s s' : State n) (h : GInv s) (hs : Step s s') : GInv s' := by
  have h' := h
  obtain ⟨h1, h2, h3⟩ := h
  obtain ⟨kind, hs⟩ := hs
  cases hs with
  | disp c rest hm hpr =>
    exact ginv_main s _ h' rfl rfl (.inl ⟨_, rfl⟩) (by simp [hm]) (by simp [push])
  | bar rest hm hpr =>
    exact ginv_main s _ h' rfl rfl (.inl ⟨_, rfl⟩) (by simp [hm]) (by simp [push])
  | fin hm hpr =>
    exact ginv_main s _ h' rfl rfl (.inl ⟨_, rfl⟩) (by simp [hm]) (by simp [push])
  | notifyTask t hm => exact ginv_wakeAll s _ h' rfl rfl (by simp [hm]) (by simp)
  | notifyBar b hm => exact ginv_wakeAll s _ h' rfl rfl (by simp [hm]) (by simp)
  | notifyEnd hm => exact ginv_wakeAll s _ h' rfl rfl (by simp [hm]) (by simp)
  | arriveLast b hm hk =>
    constructor
    · intro v hv
      rcases h1 v hv with h | ⟨k, h⟩
      · exact .inl h
      · rw [hm] at h; cases h
    · intro v b' hv
      by_cases hbb : b' = b
      · subst hbb; exact .inr (.inl rfl)
      · simp only [Function.update_of_ne hbb]
        refine (h2 v b' hv).imp id ?_
        rintro (h | h)
        · rw [hm] at h; cases h
        · exact .inr h
    · intro b' hv; simp at hv
  | arriveWait b hm hk =>
    constructor
    · intro v hv
      rcases h1 v hv with h | ⟨k, h⟩
      · exact .inl h
      · rw [hm] at h; cases h
    · intro v b' hv
      by_cases hbb : b' = b
      · subst hbb; left; simp; omega
      · simp only [Function.update_of_ne hbb]
        refine (h2 v b' hv).imp id ?_
        rintro (h | h)
        · rw [hm] at h; cases h
        · exact .inr h
    · intro b' hv
      simp only [MainPc.barSleep.injEq] at hv
      subst hv; left; simp; omega
  | mNotify b hm =>
    constructor
    · intro v hv
      rcases h1 v (wakeBarrier_asleep _ _ _ hv) with h | ⟨k, h⟩
      · exact .inl h
      · rw [hm] at h; cases h
    · intro v b' hv
      obtain ⟨hv, hne⟩ := wakeBarrier_barSleep _ _ _ _ hv
      refine (h2 v b' hv).imp id ?_
      rintro (h | ⟨u, h⟩)
      · rw [hm] at h; simp at h; exact absurd h hne
      · exact .inr ⟨u, wakeBarrier_barNotify _ _ _ _ h⟩
    · intro b' hv; simp at hv
  | mCheckOk b hm hk => exact ginv_main s _ h' rfl rfl (.inr ⟨rfl, by simp [hm]⟩) (by simp [hm]) (by simp)
  | mCheckNo b hm hk =>
    exact ginv_main s _ h' rfl rfl (.inr ⟨rfl, by simp [hm]⟩) (by simp [hm]) (by intro b' h; simp at h; rw [← h]; exact hk)
  | sMain b hm => exact ginv_main s _ h' rfl rfl (.inr ⟨rfl, by simp [hm]⟩) (by simp [hm]) (by simp)
  | join hm hw => exact ginv_main s _ h' rfl rfl (.inr ⟨rfl, by simp [hm]⟩) (by simp [hm]) (by simp)
  | sleep w hw hq => exact ginv_move s _ h' w _ rfl rfl rfl id (by simp [hw]) (fun _ => hq) (by simp)
  | ended w hw r hq => exact ginv_move s _ h' w _ rfl rfl rfl id (by simp [hw]) (by simp) (by simp)
  | crash w hw r e rest hq => exact ginv_move s _ h' w _ rfl rfl rfl id (by simp [hw]) (by simp) (by simp)
  | take w hw k r rest hqe hk =>
    exact ginv_move s _ h' w _ rfl rfl rfl (by simp [hqe]) (by simp [hw]) (by simp) (by simp)
  | ran w t hw throws => exact ginv_move s _ h' w _ rfl rfl rfl id (by simp [hw]) (by simp) (by simp)
  | ranEnd w hw => exact ginv_move s _ h' w _ rfl rfl rfl id (by simp [hw]) (by simp) (by simp)
  | wCheckOk w b hw hk => exact ginv_move s _ h' w _ rfl rfl rfl id (by simp [hw]) (by simp) (by simp)
  | wCheckNo w b hw hk =>
    exact ginv_move s _ h' w _ rfl rfl rfl id (by simp [hw]) (by simp) (by intro b' h; simp at h; rw [← h]; exact hk)
  | leave w hw => exact ginv_move s _ h' w _ rfl rfl rfl id (by simp [hw]) (by simp) (by simp)
  | sWorker w hw => exact ginv_move s _ h' w _ rfl rfl rfl id (by simp [hw]) (by simp) (by simp)
  | sBar w b hw => exact ginv_move s _ h' w _ rfl rfl rfl id (by simp [hw]) (by simp) (by simp)
  | reachLast w b hw hk =>
    have hwk : ∀ b', b' ≠ b → Waker s.main s.pc b' → Waker s.main (Function.update s.pc w (.barNotify b)) b' :=
      fun b' _ h => waker_update _ _ _ _ _ _ h id (by simp [hw])
    constructor
    · intro v hv
      by_cases hvw : v = w
      · subst hvw; simp at hv
      · simp only [Function.update_of_ne hvw] at hv; exact h1 v hv
    · intro v b' hv
      by_cases hbb : b' = b
      · subst hbb; exact .inr (.inr ⟨w, by simp⟩)
      · by_cases hvw : v = w
        · subst hvw; simp at hv
        · simp only [Function.update_of_ne hvw] at hv
          simp only [Function.update_of_ne hbb]
          exact (h2 v b' hv).imp id (hwk b' hbb)
    · intro b' hv
      by_cases hbb : b' = b
      · subst hbb; exact .inr (.inr ⟨w, by simp⟩)
      · simp only [Function.update_of_ne hbb]
        exact (h3 b' hv).imp id (hwk b' hbb)
  | reachWait w b hw hk =>
    have hwk : ∀ b', Waker s.main s.pc b' → Waker s.main (Function.update s.pc w (.barSleep b)) b' :=
      fun b' h => waker_update _ _ _ _ _ _ h id (by simp [hw])
    constructor
    · intro v hv
      by_cases hvw : v = w
      · subst hvw; simp at hv
      · simp only [Function.update_of_ne hvw] at hv; exact h1 v hv
    · intro v b' hv
      by_cases hbb : b' = b
      · subst hbb; left; simp; omega
      · by_cases hvw : v = w
        · subst hvw; simp at hv; exact absurd hv.symm hbb
        · simp only [Function.update_of_ne hvw] at hv
          simp only [Function.update_of_ne hbb]
          exact (h2 v b' hv).imp id (hwk b')
    · intro b' hv
      by_cases hbb : b' = b
      · subst hbb; left; simp; omega
      · simp only [Function.update_of_ne hbb]
        exact (h3 b' hv).imp id (hwk b')
  | wNotify w b hw hm =>
    have hwk : ∀ b', b ≠ b' → Waker s.main s.pc b' →
        Waker s.main (Function.update (wakeBarrier b s.pc) w .check) b' := by
      rintro b' hne (h | ⟨u, h⟩)
      · exact .inl h
      · refine waker_update s.main s.main _ _ _ _ (.inr ⟨u, wakeBarrier_barNotify _ _ _ _ h⟩) id ?_
        rw [wakeBarrier_barNotify _ _ _ _ hw]; simpa using hne
    constructor
    · intro v hv
      by_cases hvw : v = w
      · subst hvw; simp at hv
      · simp only [Function.update_of_ne hvw] at hv; exact h1 v (wakeBarrier_asleep _ _ _ hv)
    · intro v b' hv
      by_cases hvw : v = w
      · subst hvw; simp at hv
      · simp only [Function.update_of_ne hvw] at hv
        obtain ⟨hv, hne⟩ := wakeBarrier_barSleep _ _ _ _ hv
        exact (h2 v b' hv).imp id (hwk b' hne)
    · intro b' hv
      have hne : b ≠ b' := by rintro rfl; exact hm hv
      exact (h3 b' hv).imp id (hwk b' hne)
  | wNotifyMain w b hw hm =>
    constructor
    · intro v hv
      by_cases hvw : v = w
      · subst hvw; simp at hv
      · simp only [Function.update_of_ne hvw] at hv
        rcases h1 v (wakeBarrier_asleep _ _ _ hv) with h | ⟨k, h⟩
        · exact .inl h
        · rw [hm] at h; cases h
    · intro v b' hv
      by_cases hvw : v = w
      · subst hvw; simp at hv
      · simp only [Function.update_of_ne hvw] at hv
        obtain ⟨hv, hne⟩ := wakeBarrier_barSleep _ _ _ _ hv
        refine (h2 v b' hv).imp id ?_
        rintro (h | ⟨u, h⟩)
        · rw [hm] at h; cases h
        · refine waker_update s.main _ _ _ _ _ (.inr ⟨u, wakeBarrier_barNotify _ _ _ _ h⟩) (by simp [hm]) ?_
          rw [wakeBarrier_barNotify _ _ _ _ hw]; simpa using hne
    · intro b' hv; simp at hv

/-- No worker takes the end marker from the queue. -/
theorem noEndStart_step (s s' : State n) (h : Kind.endMarker ∉ startsOf s.log) (hs : Step s s') :
    Kind.endMarker ∉ startsOf s'.log := by
  obtain ⟨kind, hs⟩ := hs
  cases hs with
  | take w hw k r rest hqe hk => simpa [h] using Ne.symm hk
  | _ => first | exact h | simpa [push] using h

/-! ### All invariants together -/

structure Inv (s : State n) : Prop where
  base : Base s
  e : EInv s
  f : FInv s
  g : GInv s
  x : Kind.endMarker ∉ startsOf s.log

theorem inv_reachable {prog : List Op} (hn : 1 ≤ n) (hp : Positive prog) {s : State n} (h : Reachable prog s) :
    Inv s := by
  refine reachable_induction Inv ⟨base_init prog hn hp, ?_, ?_, ?_, ?_⟩ ?_ h
  · constructor <;> simp [init, atBar]
  · constructor <;> simp [init]
  · constructor <;> simp [init]
  · simp [init]
  · intro s s' hi hs
    exact ⟨base_step s s' hi.base hs, einv_step s s' hi.base hi.e hs, finv_step s s' hi.base hi.f hs,
      ginv_step s s' hi.g hs, noEndStart_step s s' hi.x hs⟩

/-! ### No deadlock -/

theorem progress (s : State n) (h : Inv s) (hd : s.main ≠ .done) : ∃ a : Action n, a.spurious = false ∧ (act s a).isSome := by
  by_contra hno
  have hmain : mainStep s = none := by
    cases hms : mainStep s with
    | none => rfl
    | some s' => exact absurd ⟨.main, rfl, by simp [act, hms]⟩ hno
  have hwork : ∀ w, workerStep s w false = none := by
    intro w
    cases hms : workerStep s w false with
    | none => rfl
    | some s' => exact absurd ⟨.worker w false, rfl, by simp [act, hms]⟩ hno
  -- where the workers can be
  have hw : ∀ w, s.pc w = .asleep ∨ (∃ b, s.pc w = .barSleep b) ∨ s.pc w = .terminated := by
    intro w
    have := hwork w
    simp only [workerStep] at this
    split at this <;> try simp_all
    · split at this <;> cases this
    · exact absurd ‹_› (h.f.noCrash w)
  have hnoWaker : ∀ b, s.main ≠ .barNotify b → ¬ Waker s.main s.pc b := by
    rintro b hm (hk | ⟨v, hk⟩)
    · exact hm hk
    · rcases hw v with h | ⟨_, h⟩ | h <;> rw [h] at hk <;> cases hk
  have hmain' : (∃ b, s.main = .barSleep b) ∨ s.main = .join := by
    simp only [mainStep] at hmain
    split at hmain
    · split at hmain <;> cases hmain
    · cases hmain
    · cases hmain
    · cases hmain
    · exact .inl ⟨_, ‹_›⟩
    · split_ifs at hmain
    · exact .inr ‹_›
    · exact absurd ‹_› hd
  rcases hmain' with ⟨b, hm⟩ | hm
  · -- the main thread sleeps in a barrier
    have hnk := hnoWaker b (by simp [hm])
    have hle : s.waiting b ≤ n := (h.g.main b hm).resolve_right hnk
    have hbn : b + 1 = s.nextBarrier := (h.base.d.last b (by simp [atBar, hm])).1
    have hma : mainArr s.main s.nextBarrier b = true := by simp [mainArr, hm]; omega
    have harr := h.base.c.arrived b hle
    rw [hma] at harr
    simp at harr
    have hrun : num (isBar b) s.pc = 0 := by
      refine num_zero _ _ fun w => ?_
      rcases hw w with h | ⟨_, h⟩ | h <;> simp [isBar, h]
    have hbars := h.base.c.bars b
    rw [hma, hrun] at hbars
    simp at hbars
    -- some worker is not in this barrier
    have hex : ∃ w, isArr b (s.pc w) = false := by
      by_contra hc
      have : num (isArr b) s.pc = n := (num_eq_iff _ _).2 fun w => by
        by_contra hcw
        exact hc ⟨w, by simpa using hcw⟩
      omega
    obtain ⟨w, hwb⟩ := hex
    rcases hw w with hwa | ⟨b', hwa⟩ | hwa
    · -- it is asleep, so the queue is empty, so all workers took the barrier
      have hq : s.queue = [] := by
        rcases h.g.asleep w hwa with h | ⟨k, h⟩
        · exact h
        · rw [hm] at h; cases h
      have hcount := count_expand _ h.base.d.nodup _ _ (h.base.d.all b (by omega))
      rw [h.base.q.fifo, hq] at hcount
      simp at hcount
      omega
    · have hne : b' ≠ b := by
        rintro rfl
        simp [isArr, hwa] at hwb
      have hle' : s.waiting b' ≤ n := (h.g.worker w b' hwa).resolve_right (hnoWaker b' (by simp [hm]))
      have harr' := h.base.c.arrived b' hle'
      have hpos := num_pos (isArr b') s.pc w (by simp [isArr, hwa])
      have hlt : b' < s.nextBarrier := by
        by_contra hc
        have h1 := waiting_le s h.base b'
        have h2 := h.base.c.bars b'
        rw [mainArr_of_not_lt _ _ _ hc] at h2
        have h3 : (startsOf s.log).count (.barrier b') = 0 := by
          refine List.count_eq_zero.2 fun hk => ?_
          have : Kind.barrier b' ∈ expand (dispatchedOf s.log) := by rw [h.base.q.fifo]; simp [hk]
          obtain ⟨c, hc'⟩ := expand_mem_pos _ _ this
          exact hc (h.base.d.bars b' c hc').1
        simp at h2
        omega
      have := h.e.done b' hlt (fun hc => hne (atBar_unique _ _ _ hc (by simp [atBar, hm])))
      omega
    · have := (h.f.left w (.inr hwa)).1
      simp [atEnd, hm] at this
  · -- the main thread waits for the workers to terminate
    have hterm : ∀ w, s.pc w = .terminated := by
      intro w
      rcases hw w with hwa | ⟨b', hwa⟩ | hwa
      · exfalso
        have hq : s.queue = [] := by
          rcases h.g.asleep w hwa with h | ⟨k, h⟩
          · exact h
          · rw [hm] at h; cases h
        obtain ⟨pre, hpre⟩ := h.base.d.lastEnd (by simp [atEnd, hm])
        have hcount := count_expand _ h.base.d.nodup .endMarker 1 (by rw [hpre]; simp)
        have hmem : Kind.endMarker ∈ startsOf s.log := by
          rw [h.base.q.fifo, hq] at hcount
          simp at hcount
          exact List.count_pos_iff.1 (by omega)
        exact h.x hmem
      · exfalso
        have hle' : s.waiting b' ≤ n := (h.g.worker w b' hwa).resolve_right (hnoWaker b' (by simp [hm]))
        have harr' := h.base.c.arrived b' hle'
        have hpos := num_pos (isArr b') s.pc w (by simp [isArr, hwa])
        have hlt : b' < s.nextBarrier := by
          by_contra hc
          have h2 := h.base.c.bars b'
          rw [mainArr_of_not_lt _ _ _ hc] at h2 harr'
          have h3 : (startsOf s.log).count (.barrier b') = 0 := by
            refine List.count_eq_zero.2 fun hk => ?_
            have : Kind.barrier b' ∈ expand (dispatchedOf s.log) := by rw [h.base.q.fifo]; simp [hk]
            obtain ⟨c, hc'⟩ := expand_mem_pos _ _ this
            exact hc (h.base.d.bars b' c hc').1
          simp at h2 harr'
          omega
        have := h.e.done b' hlt (by simp [atBar, hm])
        omega
      · exact hwa
    simp only [mainStep, hm, if_pos hterm] at hmain
    cases hmain

end Verif.Tasklets
