import Verif.Tasklets.Counts
/-
Barriers: what is known once all threads arrived; the end marker; the returned events.
-/

set_option autoImplicit false

namespace Verif.Tasklets

variable {n : ℕ}

structure Base (s : State n) : Prop where
  q : QInv s
  d : DInv s
  nn : NInv s
  c : CInv s

theorem base_step (s s' : State n) (h : Base s) (hs : Step s s') : Base s' :=
  ⟨qinv_step s s' h.q hs, dinv_step s s' h.d hs, ninv_step s s' h.nn hs, cinv_step s s' h.d h.nn h.c hs⟩

theorem base_init (prog : List Op) (hn : 1 ≤ n) (hp : Positive prog) : Base (init n prog) := by
  refine ⟨⟨hn, hp, by simp [init], by simp [init], by simp [init]⟩, ?_, ⟨by simp [init], by simp [init]⟩, ⟨by simp [init], ?_, ?_, ?_⟩⟩
  · refine ⟨?_, ?_, ?_, ?_, ?_, ?_, ?_⟩ <;> simp [init, atBar, atEnd]
  · intro t; rw [num_zero _ _ (by simp [init, isTask])]; simp [init]
  · intro b; rw [num_zero _ _ (by simp [init, isBar])]; simp [init, mainArr]
  · intro b; rw [num_zero _ _ (by simp [init, isArr])]; simp [init, mainArr]

/-- If `n` invocations of the barrier which the main thread is in were taken, the queue is empty. -/
theorem queue_empty_of_taken (s : State n) (h : Base s) (b : ℕ) (hb : atBar s.main b)
    (hc : (startsOf s.log).count (.barrier b) = n) : s.queue = [] := by
  obtain ⟨_, pre, hpre⟩ := h.d.last b hb
  have hcount := count_expand _ h.d.nodup (.barrier b) n (by rw [hpre]; simp)
  rw [h.q.fifo, List.count_append, hc] at hcount
  have hz : (expand s.queue).count (.barrier b) = 0 := by simp at hcount; omega
  refine expand_eq_nil _ h.q.queue ?_
  by_contra hne
  have h1 := h.q.fifo
  rw [hpre, expand_append] at h1
  have h2 : (expand s.queue).getLast hne = .barrier b := by
    have h3 := congrArg List.getLast? h1
    rw [List.getLast?_append_of_ne_nil _ hne, List.getLast?_append_of_ne_nil _ (by simp; have := h.q.pos; omega)] at h3
    simp only [expand_cons, Int.toNat_natCast, expand_nil, List.append_nil] at h3
    rw [List.getLast?_eq_some_getLast hne, List.getLast?_replicate] at h3
    have := h.q.pos
    simp [show n ≠ 0 by omega] at h3
    exact h3.symm
  exact (List.count_eq_zero.1 hz) (h2 ▸ List.getLast_mem hne)

/-- The invocations of a tasklet: taken, run. -/
theorem starts_le (s : State n) (h : Base s) (k : Kind) (c : ℤ) (hk : (k, c) ∈ dispatchedOf s.log) :
    (startsOf s.log).count k ≤ c.toNat := by
  have := count_expand _ h.d.nodup k c hk
  rw [h.q.fifo, List.count_append] at this
  omega

theorem runs_le (s : State n) (h : Base s) (t : ℕ) (c : ℤ) (hk : (Kind.task t, c) ∈ dispatchedOf s.log) :
    runsOf t s.log ≤ c.toNat := by
  have h1 := starts_le s h _ _ hk
  have h2 := h.c.tasks t
  omega

/-- Everything has run if the queue is empty and no worker is running something. -/
theorem runs_eq (s : State n) (h : Base s) (hq : s.queue = []) (hw : ∀ w k, s.pc w ≠ .run k) (t : ℕ) (c : ℤ)
    (hk : (Kind.task t, c) ∈ dispatchedOf s.log) : runsOf t s.log = c.toNat := by
  have h1 := count_expand _ h.d.nodup _ c hk
  rw [h.q.fifo, hq, expand_nil, List.append_nil, h.c.tasks t, num_zero _ _ (by simp [isTask, hw])] at h1
  omega

theorem starts_bar_le (s : State n) (h : Base s) (b : ℕ) : (startsOf s.log).count (.barrier b) ≤ n := by
  by_cases hb : b < s.nextBarrier
  · simpa using starts_le s h _ _ (h.d.all b hb)
  · have : (startsOf s.log).count (.barrier b) = 0 := by
      refine List.count_eq_zero.2 fun hk => ?_
      have : Kind.barrier b ∈ expand (dispatchedOf s.log) := by rw [h.q.fifo]; simp [hk]
      obtain ⟨c, hc⟩ := expand_mem_pos _ _ this
      exact hb (h.d.bars b c hc).1
    omega

/-- Only `n + 1` threads ever arrive at a barrier. -/
theorem waiting_le (s : State n) (h : Base s) (b : ℕ) :
    s.waiting b + num (isBar b) s.pc ≤ n + (mainArr s.main s.nextBarrier b).toNat := by
  have h1 := h.c.bars b
  have h2 := starts_bar_le s h b
  omega

/-- Barriers are complete (all threads arrived) once the main thread left them. -/
structure EInv (s : State n) : Prop where
  done : ∀ b, b < s.nextBarrier → ¬ atBar s.main b → n < s.waiting b
  idle : ∀ b, atBar s.main b → n < s.waiting b → s.queue = [] ∧ ∀ w k, s.pc w ≠ .run k

theorem noRun_update (f : Fin n → WorkerPc) (w : Fin n) (x : WorkerPc) (h : ∀ w k, f w ≠ .run k) (hx : ∀ k, x ≠ .run k) :
    ∀ v k, Function.update f w x v ≠ .run k := by
  intro v k
  by_cases hv : v = w
  · subst hv; simpa using hx k
  · simpa [Function.update_of_ne hv] using h v k

theorem noRun_wakeAll (f : Fin n → WorkerPc) (h : ∀ w k, f w ≠ .run k) : ∀ v k, wakeAll f v ≠ .run k := by
  intro v k; simp only [wakeAll]; split_ifs <;> simp [h v]

theorem noRun_wakeBarrier (f : Fin n → WorkerPc) (b : ℕ) (h : ∀ w k, f w ≠ .run k) :
    ∀ v k, wakeBarrier b f v ≠ .run k := by
  intro v k; simp only [wakeBarrier]; split_ifs <;> simp [h v]

theorem atBar_unique (m : MainPc) (b b' : ℕ) (h : atBar m b) (h' : atBar m b') : b = b' := by
  unfold atBar at h h'
  rcases h with h | h | h | h | h <;> subst h <;> simp at h' <;> omega

theorem einv_step (s s' : State n) (hb : Base s) (h : EInv s) (hs : Step s s') : EInv s' := by
  obtain ⟨h1, h2⟩ := h
  have hwt : ∀ b0 b, n < s.waiting b → n < Function.update s.waiting b0 (s.waiting b0 + 1) b := by
    intro b0 b h
    by_cases hb : b = b0
    · subst hb; simp; omega
    · simpa [Function.update_of_ne hb] using h
  obtain ⟨kind, hs⟩ := hs
  cases hs with
  | disp c rest hm hpr =>
    refine ⟨fun b hb _ => h1 b hb (by simp [hm, atBar]), fun b hb => by simp [push, atBar] at hb⟩
  | bar rest hm hpr =>
    refine ⟨fun b hb hn => h1 b ?_ (by simp [hm, atBar]), fun b hb hw => ?_⟩
    · simp [push, atBar] at hn hb; omega
    · simp [push, atBar] at hb
      subst hb
      exfalso
      have := waiting_le s ‹Base s› s.nextBarrier
      rw [mainArr_of_not_lt _ _ _ (by omega)] at this
      simp [push] at hw
      simp at this
      omega
  | fin hm hpr =>
    refine ⟨fun b hb _ => h1 b hb (by simp [hm, atBar]), fun b hb => by simp [push, atBar] at hb⟩
  | notifyTask t hm =>
    refine ⟨fun b hb _ => h1 b hb (by simp [hm, atBar]), fun b hb => by simp [atBar] at hb⟩
  | notifyBar b hm =>
    have hiff : ∀ b', atBar (.arrive b) b' ↔ atBar s.main b' := by simp [atBar, hm]
    refine ⟨fun b hb hn => h1 b hb (by rwa [← hiff]), fun b hb hw => ?_⟩
    obtain ⟨e1, e2⟩ := h2 b (by rwa [← hiff]) hw
    exact ⟨e1, noRun_wakeAll _ e2⟩
  | notifyEnd hm =>
    refine ⟨fun b hb _ => h1 b hb (by simp [hm, atBar]), fun b hb => by simp [atBar] at hb⟩
  | arriveLast b hm hk =>
    have hbb : b + 1 = s.nextBarrier := (hb.d.last b (by simp [atBar, hm])).1
    have hiff : ∀ b', atBar (.barNotify b) b' ↔ atBar s.main b' := by simp [atBar, hm]
    refine ⟨fun b' hb' hn => hwt _ _ (h1 b' hb' (by rwa [← hiff])), fun b' hb' _ => ?_⟩
    have : b' = b := atBar_unique s.main b' b (by rwa [← hiff]) (by simp [atBar, hm])
    subst this
    have hle := waiting_le s hb b'
    have h0 : mainArr s.main s.nextBarrier b' = false := by simp [mainArr, hm]
    rw [h0] at hle
    simp at hle
    have hwn : s.waiting b' = n := by omega
    have harr := hb.c.arrived b' (by omega)
    rw [h0, hwn] at harr
    simp at harr
    have hall := (num_eq_iff _ _).1 harr.symm
    have hbars := hb.c.bars b'
    rw [h0] at hbars
    simp at hbars
    refine ⟨queue_empty_of_taken s hb b' (by simp [atBar, hm]) (by have := starts_bar_le s hb b'; omega), ?_⟩
    intro w k hw
    have hw : s.pc w = .run k := hw
    have := hall w
    simp [isArr, hw] at this
  | arriveWait b hm hk =>
    have hiff : ∀ b', atBar (.barSleep b) b' ↔ atBar s.main b' := by simp [atBar, hm]
    refine ⟨fun b' hb' hn => hwt _ _ (h1 b' hb' (by rwa [← hiff])), fun b' hb' hw => ?_⟩
    have : b' = b := atBar_unique s.main b' b (by rwa [← hiff]) (by simp [atBar, hm])
    subst this
    simp at hw; omega
  | mNotify b hm =>
    have hbb : b + 1 = s.nextBarrier := (hb.d.last b (by simp [atBar, hm])).1
    refine ⟨fun b' hb' _ => ?_, fun b' hb' => by simp [atBar] at hb'⟩
    by_cases hbb : b' = b
    · subst hbb; exact hb.nn.main b' hm
    · exact h1 b' hb' (fun hc => hbb (atBar_unique s.main b' b hc (by simp [atBar, hm])))
  | mCheckOk b hm hk =>
    refine ⟨fun b' hb' _ => ?_, fun b' hb' => by simp [atBar] at hb'⟩
    by_cases hbb : b' = b
    · subst hbb; exact hk
    · exact h1 b' hb' (fun hc => hbb (atBar_unique s.main b' b hc (by simp [atBar, hm])))
  | mCheckNo b hm hk =>
    have hiff : ∀ b', atBar (.barSleep b) b' ↔ atBar s.main b' := by simp [atBar, hm]
    exact ⟨fun b hb hn => h1 b hb (by rwa [← hiff]), fun b hb hw => h2 b (by rwa [← hiff]) hw⟩
  | sMain b hm =>
    have hiff : ∀ b', atBar (.barCheck b) b' ↔ atBar s.main b' := by simp [atBar, hm]
    exact ⟨fun b hb hn => h1 b hb (by rwa [← hiff]), fun b hb hw => h2 b (by rwa [← hiff]) hw⟩
  | join hm hw =>
    refine ⟨fun b hb _ => h1 b hb (by simp [hm, atBar]), fun b hb => by simp [atBar] at hb⟩
  | take w hw k r rest hqe hk =>
    refine ⟨h1, fun b hb hwt => ?_⟩
    have := (h2 b hb hwt).1
    simp [hqe] at this
  | reachLast w b hw hk =>
    refine ⟨fun b' hb' hn => hwt _ _ (h1 b' hb' hn), fun b' hb' hw' => ?_⟩
    by_cases hbb : b' = b
    · subst hbb
      have hbpos := num_pos (isBar b') s.pc w (by simp [isBar, hw])
      have hle := waiting_le s hb b'
      have hm1 := Bool.toNat_le (mainArr s.main s.nextBarrier b')
      have hwn : s.waiting b' = n := by omega
      have hmm : mainArr s.main s.nextBarrier b' = true := by
        by_contra hc
        simp [Bool.not_eq_true _ ▸ hc] at hle; omega
      have harr := hb.c.arrived b' (by omega)
      rw [hmm, hwn] at harr
      have hupd := num_update (isArr b') s.pc w (.barNotify b')
      simp only [hw] at hupd
      simp [isArr] at hupd
      have hall := (num_eq_iff (isArr b') (Function.update s.pc w (.barNotify b'))).1 (by
        simp at harr; omega)
      have hbars := hb.c.bars b'
      rw [hmm] at hbars
      simp at hbars
      refine ⟨queue_empty_of_taken s hb b' hb' (by have := starts_bar_le s hb b'; omega), ?_⟩
      intro v k hv
      have := hall v
      rw [show Function.update s.pc w (.barNotify b') v = .run k from hv] at this
      simp [isArr] at this
    · obtain ⟨e1, e2⟩ := h2 b' hb' (by simpa [Function.update_of_ne hbb] using hw')
      exact absurd hw (e2 w _)
  | reachWait w b hw hk =>
    refine ⟨fun b' hb' hn => hwt _ _ (h1 b' hb' hn), fun b' hb' hw' => ?_⟩
    by_cases hbb : b' = b
    · subst hbb
      simp at hw'; omega
    · obtain ⟨e1, e2⟩ := h2 b' hb' (by simpa [Function.update_of_ne hbb] using hw')
      exact absurd hw (e2 w _)
  | wNotifyMain w b hw hm =>
    have hiff : ∀ b', atBar (.barCheck b) b' ↔ atBar s.main b' := by simp [atBar, hm]
    refine ⟨fun b hb hn => h1 b hb (by rwa [← hiff]), fun b hb hw => ?_⟩
    obtain ⟨e1, e2⟩ := h2 b (by rwa [← hiff]) hw
    exact ⟨e1, noRun_update _ _ _ (noRun_wakeBarrier _ _ e2) (by simp)⟩
  | wNotify w b hw hm =>
    refine ⟨h1, fun b hb hw => ?_⟩
    obtain ⟨e1, e2⟩ := h2 b hb hw
    exact ⟨e1, noRun_update _ _ _ (noRun_wakeBarrier _ _ e2) (by simp)⟩
  | _ =>
    refine ⟨h1, fun b hb hw => ?_⟩
    obtain ⟨e1, e2⟩ := h2 b hb hw
    exact ⟨e1, noRun_update _ _ _ e2 (by simp)⟩

/-! ### The end marker -/

structure FInv (s : State n) : Prop where
  left : ∀ w, s.pc w = .leaving ∨ s.pc w = .terminated → atEnd s.main ∧ s.queue = [(.endMarker, 1)]
  noCrash : ∀ w, s.pc w ≠ .crashed
  unlocked : ∀ w, s.pc w = .terminated → s.doubleUnlock = true

/-- The end marker is the last entry of the queue. -/
theorem end_last (s : State n) (h : Base s) (r : ℤ) (rest : List (Kind × ℤ))
    (hq : s.queue = (.endMarker, r) :: rest) : atEnd s.main ∧ r = 1 ∧ rest = [] := by
  have hr : 1 ≤ r := h.q.queue (.endMarker, r) (by simp [hq])
  have hmem : Kind.endMarker ∈ expand (dispatchedOf s.log) := by
    rw [h.q.fifo, hq]
    have : r.toNat ≠ 0 := by omega
    simp [this]
  obtain ⟨c, hc⟩ := expand_mem_pos _ _ hmem
  have hend := h.d.ends c hc
  obtain ⟨pre, hpre⟩ := h.d.lastEnd hend
  have hc1 : (expand (dispatchedOf s.log)).count .endMarker = 1 :=
    count_expand _ h.d.nodup .endMarker 1 (by rw [hpre]; simp)
  have hlast : (expand (dispatchedOf s.log)).getLast? = some .endMarker := by
    rw [hpre]; simp
  rw [h.q.fifo, hq] at hc1 hlast
  simp only [expand_cons, List.count_append, List.count_replicate_self] at hc1
  have hrest : expand rest = [] := by
    by_contra hne
    rw [expand_cons, List.getLast?_append_of_ne_nil _ (by simp [hne]), List.getLast?_append_of_ne_nil _ hne] at hlast
    have : Kind.endMarker ∈ expand rest := List.mem_of_getLast? hlast
    have := List.count_pos_iff.2 this
    omega
  refine ⟨hend, by omega, expand_eq_nil _ (fun e he => h.q.queue e (by simp [hq, he])) hrest⟩

theorem finv_step (s s' : State n) (hb : Base s) (h : FInv s) (hs : Step s s') : FInv s' := by
  obtain ⟨h1, h2, h3⟩ := h
  have hup : ∀ w x v, Function.update s.pc w x v = .leaving ∨ Function.update s.pc w x v = .terminated →
      (s.pc v = .leaving ∨ s.pc v = .terminated) ∨ (v = w ∧ (x = .leaving ∨ x = .terminated)) := by
    intro w x v hv
    by_cases hvw : v = w
    · subst hvw; simp only [Function.update_self] at hv; exact .inr ⟨rfl, hv⟩
    · rw [Function.update_of_ne hvw] at hv; exact .inl hv
  have hnc : ∀ w x v, x ≠ .crashed → Function.update s.pc w x v ≠ .crashed := by
    intro w x v hx
    by_cases hvw : v = w
    · subst hvw; simpa using hx
    · rw [Function.update_of_ne hvw]; exact h2 v
  have hul : ∀ w x v, x ≠ .terminated → Function.update s.pc w x v = .terminated → s.pc v = .terminated := by
    intro w x v hx hv
    by_cases hvw : v = w
    · subst hvw; simp at hv; exact absurd hv hx
    · rwa [Function.update_of_ne hvw] at hv
  have hwa : ∀ v, (wakeAll s.pc v = .leaving ∨ wakeAll s.pc v = .terminated → s.pc v = .leaving ∨ s.pc v = .terminated) ∧
      wakeAll s.pc v ≠ .crashed ∧ (wakeAll s.pc v = .terminated → s.pc v = .terminated) := by
    intro v; simp only [wakeAll]; split_ifs <;> simp [h2 v]
  have hwb : ∀ b v, (wakeBarrier b s.pc v = .leaving ∨ wakeBarrier b s.pc v = .terminated →
      s.pc v = .leaving ∨ s.pc v = .terminated) ∧
      wakeBarrier b s.pc v ≠ .crashed ∧ (wakeBarrier b s.pc v = .terminated → s.pc v = .terminated) := by
    intro b v; simp only [wakeBarrier]; split_ifs <;> simp [h2 v]
  obtain ⟨kind, hs⟩ := hs
  cases hs with
  | disp c rest hm hpr =>
    exact ⟨fun w hw => by have := (h1 w hw).1; simp [atEnd, hm] at this, h2, h3⟩
  | bar rest hm hpr =>
    exact ⟨fun w hw => by have := (h1 w hw).1; simp [atEnd, hm] at this, h2, h3⟩
  | fin hm hpr =>
    exact ⟨fun w hw => by have := (h1 w hw).1; simp [atEnd, hm] at this, h2, h3⟩
  | notifyTask t hm =>
    exact ⟨fun w hw => by have := (h1 w ((hwa w).1 hw)).1; simp [atEnd, hm] at this, fun w => (hwa w).2.1,
      fun w hw => h3 w ((hwa w).2.2 hw)⟩
  | notifyBar b hm =>
    exact ⟨fun w hw => by have := (h1 w ((hwa w).1 hw)).1; simp [atEnd, hm] at this, fun w => (hwa w).2.1,
      fun w hw => h3 w ((hwa w).2.2 hw)⟩
  | notifyEnd hm =>
    exact ⟨fun w hw => ⟨.inr (.inl rfl), (h1 w ((hwa w).1 hw)).2⟩, fun w => (hwa w).2.1,
      fun w hw => h3 w ((hwa w).2.2 hw)⟩
  | arriveLast b hm hk =>
    exact ⟨fun w hw => by have := (h1 w hw).1; simp [atEnd, hm] at this, h2, h3⟩
  | arriveWait b hm hk =>
    exact ⟨fun w hw => by have := (h1 w hw).1; simp [atEnd, hm] at this, h2, h3⟩
  | mNotify b hm =>
    exact ⟨fun w hw => by have := (h1 w ((hwb b w).1 hw)).1; simp [atEnd, hm] at this, fun w => (hwb b w).2.1,
      fun w hw => h3 w ((hwb b w).2.2 hw)⟩
  | mCheckOk b hm hk =>
    exact ⟨fun w hw => by have := (h1 w hw).1; simp [atEnd, hm] at this, h2, h3⟩
  | mCheckNo b hm hk =>
    exact ⟨fun w hw => by have := (h1 w hw).1; simp [atEnd, hm] at this, h2, h3⟩
  | sMain b hm =>
    exact ⟨fun w hw => by have := (h1 w hw).1; simp [atEnd, hm] at this, h2, h3⟩
  | join hm hw => exact ⟨fun w hw => ⟨.inr (.inr rfl), (h1 w hw).2⟩, h2, h3⟩
  | ended w hw r hq =>
    obtain ⟨e1, rfl, -⟩ := end_last s hb r [] hq
    refine ⟨fun v hv => ?_, fun v => hnc w _ v (by simp), fun v hv => h3 v (hul w _ v (by simp) hv)⟩
    rcases hup w _ v hv with hv | ⟨rfl, -⟩
    · exact h1 v hv
    · exact ⟨e1, hq⟩
  | crash w hw r e rest hq =>
    have := (end_last s hb r _ hq).2.2
    simp at this
  | take w hw k r rest hqe hk =>
    refine ⟨fun v hv => ?_, fun v => hnc w _ v (by simp), fun v hv => h3 v (hul w _ v (by simp) hv)⟩
    rcases hup w _ v hv with hv | ⟨rfl, hv⟩
    · have := (h1 v hv).2
      rw [hqe] at this
      simp at this
      exact absurd this.1.1 hk
    · simp at hv
  | wNotify w b hw hm =>
    refine ⟨fun v hv => ?_, fun v => ?_, fun v hv => ?_⟩
    · by_cases hvw : v = w
      · subst hvw; simp at hv
      · simp only [Function.update_of_ne hvw] at hv; exact h1 v ((hwb b v).1 hv)
    · by_cases hvw : v = w
      · subst hvw; simp
      · simp only [Function.update_of_ne hvw]; exact (hwb b v).2.1
    · by_cases hvw : v = w
      · subst hvw; simp at hv
      · simp only [Function.update_of_ne hvw] at hv; exact h3 v ((hwb b v).2.2 hv)
  | wNotifyMain w b hw hm =>
    refine ⟨fun v hv => ?_, fun v => ?_, fun v hv => ?_⟩
    · by_cases hvw : v = w
      · subst hvw; simp at hv
      · simp only [Function.update_of_ne hvw] at hv
        have := (h1 v ((hwb b v).1 hv)).1
        simp [atEnd, hm] at this
    · by_cases hvw : v = w
      · subst hvw; simp
      · simp only [Function.update_of_ne hvw]; exact (hwb b v).2.1
    · by_cases hvw : v = w
      · subst hvw; simp at hv
      · simp only [Function.update_of_ne hvw] at hv; exact h3 v ((hwb b v).2.2 hv)
  | leave w hw =>
    refine ⟨fun v hv => ?_, fun v => hnc w _ v (by simp), fun v hv => rfl⟩
    rcases hup w _ v hv with hv | ⟨rfl, -⟩
    · exact h1 v hv
    · exact h1 v (.inl hw)
  | _ =>
    rename_i w _
    exact ⟨fun v hv => h1 v (by simpa using hup _ _ v hv), fun v => hnc _ _ v (by simp), fun v hv => h3 v (hul _ _ v (by simp) hv)⟩

end Verif.Tasklets
