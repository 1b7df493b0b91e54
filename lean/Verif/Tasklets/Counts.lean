import Verif.Tasklets.Lemmas
/-
Counting: who runs what, who waits where.
-/

set_option autoImplicit false

namespace Verif.Tasklets

variable {n : ℕ}

def isTask (t : ℕ) (x : WorkerPc) : Bool := decide (x = .run (.task t))
def isBar (b : ℕ) (x : WorkerPc) : Bool := decide (x = .run (.barrier b))
def isArr (b : ℕ) (x : WorkerPc) : Bool := decide (x = .barSleep b ∨ x = .barCheck b ∨ x = .barNotify b)

/-- Has the main thread arrived at barrier `b` (and perhaps left it)? -/
def mainArr (m : MainPc) (nb b : ℕ) : Bool :=
  decide (b < nb ∧ m ≠ .notify (.barrier b) ∧ m ≠ .arrive b)

structure CInv (s : State n) : Prop where
  noEnd : ∀ w, s.pc w ≠ .run .endMarker
  tasks : ∀ t, (startsOf s.log).count (.task t) = runsOf t s.log + num (isTask t) s.pc
  bars : ∀ b, (startsOf s.log).count (.barrier b) + (mainArr s.main s.nextBarrier b).toNat
    = num (isBar b) s.pc + s.waiting b
  arrived : ∀ b, s.waiting b ≤ n →
    s.waiting b = num (isArr b) s.pc + (mainArr s.main s.nextBarrier b).toNat

theorem noEnd_update (f : Fin n → WorkerPc) (w : Fin n) (x : WorkerPc) (h : ∀ w, f w ≠ .run .endMarker)
    (hx : x ≠ .run .endMarker) : ∀ v, Function.update f w x v ≠ .run .endMarker := by
  intro v
  by_cases hv : v = w
  · subst hv; simpa using hx
  · simpa [Function.update_of_ne hv] using h v

theorem noEnd_wakeAll (f : Fin n → WorkerPc) (h : ∀ w, f w ≠ .run .endMarker) : ∀ v, wakeAll f v ≠ .run .endMarker := by
  intro v; simp only [wakeAll]; split_ifs <;> simp [h v]

theorem noEnd_wakeBarrier (f : Fin n → WorkerPc) (b : ℕ) (h : ∀ w, f w ≠ .run .endMarker) :
    ∀ v, wakeBarrier b f v ≠ .run .endMarker := by
  intro v; simp only [wakeBarrier]; split_ifs <;> simp [h v]

theorem wakeBarrier_other (f : Fin n → WorkerPc) (b : ℕ) (w : Fin n) (h : f w ≠ .barSleep b) :
    wakeBarrier b f w = f w := by simp [wakeBarrier, h]

/-- The effect of a change of the state of one worker which does not touch the log, the main thread and the barriers. -/
theorem cinv_move (s : State n) (h : CInv s) (w : Fin n) (x : WorkerPc)
    (hx : x ≠ .run .endMarker) (h1 : ∀ t, isTask t (s.pc w) = isTask t x) (h2 : ∀ b, isBar b (s.pc w) = isBar b x)
    (h3 : ∀ b, isArr b (s.pc w) = isArr b x ∨ n < s.waiting b) :
    (∀ v, Function.update s.pc w x v ≠ .run .endMarker) ∧
    (∀ t, (startsOf s.log).count (.task t) = runsOf t s.log + num (isTask t) (Function.update s.pc w x)) ∧
    (∀ b, (startsOf s.log).count (.barrier b) + (mainArr s.main s.nextBarrier b).toNat
      = num (isBar b) (Function.update s.pc w x) + s.waiting b) ∧
    (∀ b, s.waiting b ≤ n →
      s.waiting b = num (isArr b) (Function.update s.pc w x) + (mainArr s.main s.nextBarrier b).toNat) := by
  refine ⟨noEnd_update _ _ _ h.noEnd hx, fun t => ?_, fun b => ?_, fun b hb => ?_⟩
  · have := num_update (isTask t) s.pc w x
    rw [h1] at this; rw [h.tasks]; omega
  · have := num_update (isBar b) s.pc w x
    rw [h2] at this; rw [h.bars]; omega
  · have := num_update (isArr b) s.pc w x
    rcases h3 b with h3 | h3
    · rw [h3] at this
      have := h.arrived b hb; omega
    · omega

theorem mainArr_of_not_lt (m : MainPc) (nb b : ℕ) (h : ¬ b < nb) : mainArr m nb b = false := by simp [mainArr, h]

/-- A thread which is about to notify the others has seen all of them arrive. -/
structure NInv (s : State n) : Prop where
  worker : ∀ w b, s.pc w = .barNotify b → n < s.waiting b
  main : ∀ b, s.main = .barNotify b → n < s.waiting b

theorem ninv_step (s s' : State n) (h : NInv s) (hs : Step s s') : NInv s' := by
  obtain ⟨h1, h2⟩ := h
  have hup : ∀ (f : Fin n → WorkerPc) w x (wt : ℕ → ℕ), (∀ v b, f v = .barNotify b → n < wt b) →
      (∀ b, x = .barNotify b → n < wt b) → ∀ v b, Function.update f w x v = .barNotify b → n < wt b := by
    intro f w x wt hf hx v b hv
    by_cases hvw : v = w
    · subst hvw; simp only [Function.update_self] at hv; exact hx b hv
    · rw [Function.update_of_ne hvw] at hv; exact hf v b hv
  have hwt : ∀ b0 b, n < s.waiting b → n < Function.update s.waiting b0 (s.waiting b0 + 1) b := by
    intro b0 b h
    by_cases hb : b = b0
    · subst hb; simp; omega
    · simpa [Function.update_of_ne hb] using h
  have hwa : ∀ v b, wakeAll s.pc v = .barNotify b → n < s.waiting b := by
    intro v b hv
    simp only [wakeAll] at hv
    split_ifs at hv
    exact h1 v b hv
  have hwb : ∀ b0 v b, wakeBarrier b0 s.pc v = .barNotify b → n < s.waiting b := by
    intro b0 v b hv
    simp only [wakeBarrier] at hv
    split_ifs at hv
    exact h1 v b hv
  obtain ⟨kind, hs⟩ := hs
  cases hs with
  | arriveLast b hm hk =>
    refine ⟨fun w b' h => hwt _ _ (h1 w b' h), fun b' h => ?_⟩
    simp only [MainPc.barNotify.injEq] at h
    subst h; simp; omega
  | arriveWait b hm hk => exact ⟨fun w b' h => hwt _ _ (h1 w b' h), by simp⟩
  | reachLast w b hw hk =>
    refine ⟨hup _ _ _ _ (fun w b' h => hwt _ _ (h1 w b' h)) (fun b' h => ?_), fun b' h => hwt _ _ (h2 b' h)⟩
    simp only [WorkerPc.barNotify.injEq] at h
    subst h; simp; omega
  | reachWait w b hw hk =>
    exact ⟨hup _ _ _ _ (fun w b' h => hwt _ _ (h1 w b' h)) (by simp), fun b' h => hwt _ _ (h2 b' h)⟩
  | wNotify w b hw hm => exact ⟨hup _ _ _ _ (hwb b) (by simp), h2⟩
  | wNotifyMain w b hw hm => exact ⟨hup _ _ _ _ (hwb b) (by simp), by simp⟩
  | mNotify b hm => exact ⟨hwb b, by simp⟩
  | notifyTask t hm => exact ⟨hwa, by simp⟩
  | notifyBar b hm => exact ⟨hwa, by simp⟩
  | notifyEnd hm => exact ⟨hwa, by simp⟩
  | disp c rest hm hpr => exact ⟨h1, by simp [push]⟩
  | bar rest hm hpr => exact ⟨h1, by simp [push]⟩
  | fin hm hpr => exact ⟨h1, by simp [push]⟩
  | mCheckOk b hm hk => exact ⟨h1, by simp⟩
  | mCheckNo b hm hk => exact ⟨h1, by simp⟩
  | sMain b hm => exact ⟨h1, by simp⟩
  | join hm hw => exact ⟨h1, by simp⟩
  | _ => exact ⟨hup _ _ _ _ h1 (by simp), h2⟩

theorem cinv_step (s s' : State n) (hd : DInv s) (hn : NInv s) (h : CInv s) (hs : Step s s') : CInv s' := by
  have h' := h
  obtain ⟨h0, h1, h2, h3⟩ := h
  obtain ⟨kind, hs⟩ := hs
  cases hs with
  | disp c rest hm hpr =>
    refine ⟨h0, by simpa [push] using h1, ?_, ?_⟩
    · intro b; simpa [push, mainArr, hm] using h2 b
    · intro b; simpa [push, mainArr, hm] using h3 b
  | bar rest hm hpr =>
    have key : ∀ b, mainArr (.notify (.barrier s.nextBarrier)) (s.nextBarrier + 1) b
        = mainArr s.main s.nextBarrier b := by
      intro b
      by_cases hb : b < s.nextBarrier
      · have : s.nextBarrier ≠ b := by omega
        simp [mainArr, hm, hb, this]; omega
      · by_cases hb' : b = s.nextBarrier
        · simp [mainArr, hb']
        · have : ¬ b < s.nextBarrier + 1 := by omega
          simp [mainArr, hb, this]
    refine ⟨h0, by simpa [push] using h1, ?_, ?_⟩
    · intro b
      simp only [push, startsOf_append, startsOf_dispatch, List.append_nil]
      rw [key]; exact h2 b
    · intro b
      simp only [push]
      rw [key]; exact h3 b
  | fin hm hpr =>
    refine ⟨h0, by simpa [push] using h1, ?_, ?_⟩
    · intro b; simpa [push, mainArr, hm] using h2 b
    · intro b; simpa [push, mainArr, hm] using h3 b
  | notifyTask t hm =>
    refine ⟨noEnd_wakeAll _ h0, ?_, ?_, ?_⟩
    · intro t'; rw [num_wakeAll _ rfl]; exact h1 t'
    · intro b; rw [num_wakeAll _ rfl]; simpa [mainArr, hm] using h2 b
    · intro b; rw [num_wakeAll _ rfl]; simpa [mainArr, hm] using h3 b
  | notifyBar b hm =>
    have key : ∀ b', mainArr (.arrive b) s.nextBarrier b' = mainArr s.main s.nextBarrier b' := by
      intro b'; simp [mainArr, hm]
    refine ⟨noEnd_wakeAll _ h0, ?_, ?_, ?_⟩
    · intro t'; rw [num_wakeAll _ rfl]; exact h1 t'
    · intro b; rw [num_wakeAll _ rfl, key]; exact h2 b
    · intro b; rw [num_wakeAll _ rfl, key]; exact h3 b
  | notifyEnd hm =>
    refine ⟨noEnd_wakeAll _ h0, ?_, ?_, ?_⟩
    · intro t'; rw [num_wakeAll _ rfl]; exact h1 t'
    · intro b; rw [num_wakeAll _ rfl]; simpa [mainArr, hm] using h2 b
    · intro b; rw [num_wakeAll _ rfl]; simpa [mainArr, hm] using h3 b
  | arriveLast b hm hk =>
    have hb : b + 1 = s.nextBarrier := (hd.last b (by simp [atBar, hm])).1
    refine ⟨h0, h1, ?_, ?_⟩
    · intro b'
      by_cases hbb : b' = b
      · subst hbb
        have := h2 b'
        simp [mainArr, hm] at this
        simp [mainArr, ← hb]; omega
      · have := h2 b'
        simp [mainArr, hm, Ne.symm hbb] at this
        simp [mainArr, Function.update_of_ne hbb]; exact this
    · intro b'
      by_cases hbb : b' = b
      · subst hbb
        intro h
        simp at h; omega
      · have := h3 b'
        simp [mainArr, hm, Ne.symm hbb] at this
        simp [mainArr, Function.update_of_ne hbb]; exact this
  | arriveWait b hm hk =>
    have hb : b + 1 = s.nextBarrier := (hd.last b (by simp [atBar, hm])).1
    refine ⟨h0, h1, ?_, ?_⟩
    · intro b'
      by_cases hbb : b' = b
      · subst hbb
        have := h2 b'
        simp [mainArr, hm] at this
        simp [mainArr, ← hb]; omega
      · have := h2 b'
        simp [mainArr, hm, Ne.symm hbb] at this
        simp [mainArr, Function.update_of_ne hbb]; exact this
    · intro b'
      by_cases hbb : b' = b
      · subst hbb
        intro h
        have := h3 b' (by omega)
        simp [mainArr, hm] at this
        simp [mainArr, ← hb]; omega
      · have := h3 b'
        simp [mainArr, hm, Ne.symm hbb] at this
        simp [mainArr, Function.update_of_ne hbb]; exact this
  | mNotify b hm =>
    refine ⟨noEnd_wakeBarrier _ _ h0, ?_, ?_, ?_⟩
    · intro t'; rw [num_wakeBarrier _ _ rfl]; simpa using h1 t'
    · intro b'; rw [num_wakeBarrier _ _ rfl]; simpa [mainArr, hm] using h2 b'
    · intro b'; rw [num_wakeBarrier _ _ (by simp [isArr])]; simpa [mainArr, hm] using h3 b'
  | mCheckOk b hm hk =>
    refine ⟨h0, by simpa using h1, ?_, ?_⟩
    · intro b'; simpa [mainArr, hm] using h2 b'
    · intro b'; simpa [mainArr, hm] using h3 b'
  | mCheckNo b hm hk =>
    refine ⟨h0, by simpa using h1, ?_, ?_⟩
    · intro b'; simpa [mainArr, hm] using h2 b'
    · intro b'; simpa [mainArr, hm] using h3 b'
  | join hm hw =>
    refine ⟨h0, by simpa using h1, ?_, ?_⟩
    · intro b'; simpa [mainArr, hm] using h2 b'
    · intro b'; simpa [mainArr, hm] using h3 b'
  | sleep w hw hq =>
    obtain ⟨a, b, c, d⟩ := cinv_move s h' w .asleep (by simp) (by simp [hw, isTask]) (by simp [hw, isBar])
      (by simp [hw, isArr])
    exact ⟨a, b, c, d⟩
  | ended w hw r hq =>
    obtain ⟨a, b, c, d⟩ := cinv_move s h' w .leaving (by simp) (by simp [hw, isTask]) (by simp [hw, isBar])
      (by simp [hw, isArr])
    exact ⟨a, b, c, d⟩
  | crash w hw r e rest hq =>
    obtain ⟨a, b, c, d⟩ := cinv_move s h' w .crashed (by simp) (by simp [hw, isTask]) (by simp [hw, isBar])
      (by simp [hw, isArr])
    exact ⟨a, b, c, d⟩
  | take w hw k r rest hqe hk =>
    refine ⟨noEnd_update _ _ _ h0 (by simpa using hk), ?_, ?_, ?_⟩
    · intro t
      have := num_update (isTask t) s.pc w (.run k)
      simp only [startsOf_append, startsOf_start, List.count_append, runsOf_append, runsOf_start, h1 t]
      by_cases hkt : k = .task t
      · subst hkt; simp [isTask, hw] at this ⊢; omega
      · simp [isTask, hw, hkt] at this ⊢; omega
    · intro b
      have := num_update (isBar b) s.pc w (.run k)
      have h2 := h2 b
      simp only [startsOf_append, startsOf_start, List.count_append]
      by_cases hkt : k = .barrier b
      · subst hkt; simp [isBar, hw] at this ⊢; omega
      · simp [isBar, hw, hkt] at this ⊢; omega
    · intro b hb
      have := num_update (isArr b) s.pc w (.run k)
      have h3 := h3 b hb
      simp [isArr, hw] at this ⊢
      omega
  | ran w t hw throws =>
    refine ⟨noEnd_update _ _ _ h0 (by simp), ?_, ?_, ?_⟩
    · intro t'
      have := num_update (isTask t') s.pc w .check
      simp only [startsOf_append, startsOf_ran, List.append_nil, runsOf_append, runsOf_ran, h1 t']
      by_cases hkt : t = t'
      · subst hkt; simp [isTask, hw] at this ⊢; omega
      · simp [isTask, hw, hkt] at this ⊢; omega
    · intro b
      have := num_update (isBar b) s.pc w .check
      have h2 := h2 b
      simp [isBar, hw] at this ⊢
      omega
    · intro b hb
      have := num_update (isArr b) s.pc w .check
      have h3 := h3 b hb
      simp [isArr, hw] at this ⊢
      omega
  | reachLast w b hw hk =>
    refine ⟨noEnd_update _ _ _ h0 (by simp), ?_, ?_, ?_⟩
    · intro t
      have := num_update (isTask t) s.pc w (.barNotify b)
      have := h1 t
      simp [isTask, hw] at *; omega
    · intro b'
      have h2 := h2 b'
      have := num_update (isBar b') s.pc w (.barNotify b)
      by_cases hbb : b' = b
      · subst hbb; simp [isBar, hw] at this ⊢; omega
      · simp [isBar, hw, Ne.symm hbb] at this
        simp [Function.update_of_ne hbb]; omega
    · intro b'
      by_cases hbb : b' = b
      · subst hbb; intro h; simp at h; omega
      · have := num_update (isArr b') s.pc w (.barNotify b)
        simp [isArr, hw, Ne.symm hbb] at this
        simp only [Function.update_of_ne hbb]
        intro h
        have := h3 b' h
        omega
  | reachWait w b hw hk =>
    refine ⟨noEnd_update _ _ _ h0 (by simp), ?_, ?_, ?_⟩
    · intro t
      have := num_update (isTask t) s.pc w (.barSleep b)
      have := h1 t
      simp [isTask, hw] at *; omega
    · intro b'
      have h2 := h2 b'
      have := num_update (isBar b') s.pc w (.barSleep b)
      by_cases hbb : b' = b
      · subst hbb; simp [isBar, hw] at this ⊢; omega
      · simp [isBar, hw, Ne.symm hbb] at this
        simp [Function.update_of_ne hbb]; omega
    · intro b'
      have := num_update (isArr b') s.pc w (.barSleep b)
      by_cases hbb : b' = b
      · subst hbb
        intro h
        simp only [Function.update_self] at h ⊢
        have := h3 b' (by omega)
        simp [isArr, hw] at *; omega
      · simp [isArr, hw, Ne.symm hbb] at this
        simp only [Function.update_of_ne hbb]
        intro h
        have := h3 b' h
        omega
  | ranEnd w hw => exact absurd hw (h0 w)
  | wNotify w b hw hm =>
    have hne : s.pc w ≠ .barSleep b := by simp [hw]
    have hw' := wakeBarrier_other s.pc b w hne
    refine ⟨noEnd_update _ _ _ (noEnd_wakeBarrier _ _ h0) (by simp), ?_, ?_, ?_⟩
    · intro t
      have := num_update (isTask t) (wakeBarrier b s.pc) w .check
      rw [num_wakeBarrier _ _ rfl, hw', hw] at this
      have := h1 t
      simp [isTask] at *; omega
    · intro b'
      have := num_update (isBar b') (wakeBarrier b s.pc) w .check
      rw [num_wakeBarrier _ _ rfl, hw', hw] at this
      have := h2 b'
      simp [isBar] at *; omega
    · intro b' hb'
      have h4 := num_update (isArr b') (wakeBarrier b s.pc) w .check
      rw [num_wakeBarrier _ _ (by simp [isArr]), hw', hw] at h4
      have h5 := h3 b' hb'
      by_cases hbb : b = b'
      · subst hbb
        exact absurd (hn.worker w b hw) (by simpa using hb')
      · simp [isArr, hbb] at *; omega
  | wNotifyMain w b hw hm =>
    have hne : s.pc w ≠ .barSleep b := by simp [hw]
    have hw' := wakeBarrier_other s.pc b w hne
    refine ⟨noEnd_update _ _ _ (noEnd_wakeBarrier _ _ h0) (by simp), ?_, ?_, ?_⟩
    · intro t
      have := num_update (isTask t) (wakeBarrier b s.pc) w .check
      rw [num_wakeBarrier _ _ rfl, hw', hw] at this
      have := h1 t
      simp [isTask] at *; omega
    · intro b'
      have := num_update (isBar b') (wakeBarrier b s.pc) w .check
      rw [num_wakeBarrier _ _ rfl, hw', hw] at this
      have := h2 b'
      simp [isBar, mainArr, hm] at *; omega
    · intro b' hb'
      have h4 := num_update (isArr b') (wakeBarrier b s.pc) w .check
      rw [num_wakeBarrier _ _ (by simp [isArr]), hw', hw] at h4
      have h5 := h3 b' hb'
      by_cases hbb : b = b'
      · subst hbb
        exact absurd (hn.worker w b hw) (by simpa using hb')
      · simp [isArr, mainArr, hm, hbb] at *; omega
  | wCheckOk w b hw hk =>
    obtain ⟨a, b, c, d⟩ := cinv_move s h' w .check (by simp) (by simp [hw, isTask]) (by simp [hw, isBar])
      (by intro b'; by_cases hbb : b = b'
          · subst hbb; exact .inr hk
          · left; simp [hw, isArr, hbb])
    exact ⟨a, b, c, d⟩
  | wCheckNo w b hw hk =>
    obtain ⟨a, b, c, d⟩ := cinv_move s h' w (.barSleep b) (by simp) (by simp [hw, isTask]) (by simp [hw, isBar])
      (by simp [hw, isArr])
    exact ⟨a, b, c, d⟩
  | leave w hw =>
    obtain ⟨a, b, c, d⟩ := cinv_move s h' w .terminated (by simp) (by simp [hw, isTask]) (by simp [hw, isBar])
      (by simp [hw, isArr])
    exact ⟨a, b, c, d⟩
  | sMain b hm =>
    refine ⟨h0, h1, ?_, ?_⟩
    · intro b'; simpa [mainArr, hm] using h2 b'
    · intro b'; simpa [mainArr, hm] using h3 b'
  | sWorker w hw =>
    obtain ⟨a, b, c, d⟩ := cinv_move s h' w .check (by simp) (by simp [hw, isTask]) (by simp [hw, isBar])
      (by simp [hw, isArr])
    exact ⟨a, b, c, d⟩
  | sBar w b hw =>
    obtain ⟨a, b, c, d⟩ := cinv_move s h' w (.barCheck b) (by simp) (by simp [hw, isTask]) (by simp [hw, isBar])
      (by simp [hw, isArr])
    exact ⟨a, b, c, d⟩

end Verif.Tasklets
