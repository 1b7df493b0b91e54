import Verif.Tasklets.Progress
/-
Every step which is not a spurious wakeup decreases the amount of work that is left.
-/

set_option autoImplicit false
set_option linter.unusedSimpArgs false

namespace Verif.Tasklets

variable {n : ℕ}

def workerWeight (n : ℕ) : WorkerPc → ℕ
  | .check => 2
  | .asleep => 1
  | .run _ => n + 5
  | .barNotify _ => n + 4
  | .barSleep _ => 2
  | .barCheck _ => 3
  | .leaving => 1
  | .terminated => 0
  | .crashed => 0

theorem ww_check (n : ℕ) : workerWeight n .check = 2 := rfl
theorem ww_asleep (n : ℕ) : workerWeight n .asleep = 1 := rfl
theorem ww_run (n : ℕ) (k : Kind) : workerWeight n (.run k) = n + 5 := rfl
theorem ww_barNotify (n : ℕ) (b : ℕ) : workerWeight n (.barNotify b) = n + 4 := rfl
theorem ww_barSleep (n : ℕ) (b : ℕ) : workerWeight n (.barSleep b) = 2 := rfl
theorem ww_barCheck (n : ℕ) (b : ℕ) : workerWeight n (.barCheck b) = 3 := rfl
theorem ww_leaving (n : ℕ) : workerWeight n .leaving = 1 := rfl
theorem ww_terminated (n : ℕ) : workerWeight n .terminated = 0 := rfl
theorem ww_crashed (n : ℕ) : workerWeight n .crashed = 0 := rfl

def mainWeight (n : ℕ) : MainPc → ℕ
  | .ready => 2 * n + 7
  | .notify (.task _) => 3 * n + 8
  | .notify (.barrier _) => 4 * n + 10
  | .notify .endMarker => n + 2
  | .arrive _ => 3 * n + 9
  | .barNotify _ => 3 * n + 8
  | .barSleep _ => 2 * n + 7
  | .barCheck _ => 2 * n + 8
  | .join => 1
  | .done => 0

def opWeight (n : ℕ) : Op → ℕ
  | .dispatch c => c.toNat * (n + 4) + n + 2
  | .barrier => n * (n + 4) + 2 * n + 4

/-- The work which is left. -/
def measure (s : State n) : ℕ :=
  ∑ w, workerWeight n (s.pc w) + (s.queue.map fun e => e.2.toNat * (n + 4)).sum + mainWeight n s.main
    + (s.prog.map (opWeight n)).sum

theorem weight_update (f : Fin n → WorkerPc) (w : Fin n) (x : WorkerPc) :
    ∑ v, workerWeight n (Function.update f w x v) + workerWeight n (f w)
      = ∑ v, workerWeight n (f v) + workerWeight n x := by
  have h1 := Finset.add_sum_erase Finset.univ (fun v => workerWeight n (f v)) (Finset.mem_univ w)
  have h2 := Finset.add_sum_erase Finset.univ (fun v => workerWeight n (Function.update f w x v)) (Finset.mem_univ w)
  have h3 : ∑ v ∈ Finset.univ.erase w, workerWeight n (Function.update f w x v)
      = ∑ v ∈ Finset.univ.erase w, workerWeight n (f v) := by
    refine Finset.sum_congr rfl fun v hv => ?_
    rw [Function.update_of_ne (Finset.ne_of_mem_erase hv)]
  simp only [Function.update_self] at h2
  omega

theorem weight_wakeAll (f : Fin n → WorkerPc) :
    ∑ v, workerWeight n (wakeAll f v) ≤ ∑ v, workerWeight n (f v) + n := by
  have : ∑ v, workerWeight n (wakeAll f v) ≤ ∑ v, (workerWeight n (f v) + 1) := by
    refine Finset.sum_le_sum fun v _ => ?_
    simp only [wakeAll]
    split_ifs with h
    · simp [h, workerWeight]
    · omega
  simpa [Finset.sum_add_distrib] using this

theorem weight_wakeBarrier (b : ℕ) (f : Fin n → WorkerPc) :
    ∑ v, workerWeight n (wakeBarrier b f v) ≤ ∑ v, workerWeight n (f v) + n := by
  have : ∑ v, workerWeight n (wakeBarrier b f v) ≤ ∑ v, (workerWeight n (f v) + 1) := by
    refine Finset.sum_le_sum fun v _ => ?_
    simp only [wakeBarrier]
    split_ifs with h
    · simp [h, workerWeight]
    · omega
  simpa [Finset.sum_add_distrib] using this

theorem measure_step (s s' : State n) (k : Bool) (h : QInv s) (hs : StepK s k s') :
    measure s' + 1 ≤ measure s + 2 * k.toNat := by
  cases hs with
  | disp c rest hm hpr =>
    simp only [measure, push, hm, hpr, List.map_append, List.sum_append, List.map_cons, List.map_nil, List.sum_cons,
      List.sum_nil, mainWeight, opWeight, Bool.toNat_false]
    omega
  | bar rest hm hpr =>
    simp only [measure, push, hm, hpr, List.map_append, List.sum_append, List.map_cons, List.map_nil, List.sum_cons,
      List.sum_nil, mainWeight, opWeight, Bool.toNat_false, Int.toNat_natCast]
    omega
  | fin hm hpr =>
    simp only [measure, push, hm, hpr, List.map_append, List.sum_append, List.map_cons, List.map_nil, List.sum_cons,
      List.sum_nil, mainWeight, Bool.toNat_false, Int.toNat_one]
    omega
  | notifyTask t hm => have := weight_wakeAll s.pc; simp only [measure, hm, mainWeight, Bool.toNat_false]; omega
  | notifyBar b hm => have := weight_wakeAll s.pc; simp only [measure, hm, mainWeight, Bool.toNat_false]; omega
  | notifyEnd hm => have := weight_wakeAll s.pc; simp only [measure, hm, mainWeight, Bool.toNat_false]; omega
  | arriveLast b hm hk => simp only [measure, hm, mainWeight, Bool.toNat_false]; omega
  | arriveWait b hm hk => simp only [measure, hm, mainWeight, Bool.toNat_false]; omega
  | mNotify b hm => have := weight_wakeBarrier b s.pc; simp only [measure, hm, mainWeight, Bool.toNat_false]; omega
  | mCheckOk b hm hk => simp only [measure, hm, mainWeight, Bool.toNat_false]; omega
  | mCheckNo b hm hk => simp only [measure, hm, mainWeight, Bool.toNat_false]; omega
  | sMain b hm => simp only [measure, hm, mainWeight, Bool.toNat_true]; omega
  | join hm hw => simp only [measure, hm, mainWeight, Bool.toNat_false]; omega
  | take w hw k r rest hqe hk =>
    have h1 := weight_update s.pc w (.run k)
    rw [hw] at h1
    have hr : 1 ≤ r := h.queue (k, r) (by simp [hqe])
    obtain ⟨m, rfl⟩ : ∃ m : ℕ, r = m + 1 := ⟨(r - 1).toNat, by omega⟩
    have h2 : ((if (m : ℤ) + 1 - 1 = 0 then rest else (k, (m : ℤ) + 1 - 1) :: rest).map
        fun e => e.2.toNat * (n + 4)).sum = m * (n + 4) + (rest.map fun e => e.2.toNat * (n + 4)).sum := by
      split_ifs with h0
      · obtain rfl : m = 0 := by omega
        simp
      · simp
    have h3 : (((m : ℤ) + 1).toNat) * (n + 4) = m * (n + 4) + (n + 4) := by
      have : ((m : ℤ) + 1).toNat = m + 1 := by omega
      rw [this]; ring
    simp only [measure, h2, hqe, List.map_cons, List.sum_cons, h3, Bool.toNat_false]
    simp only [ww_check, ww_asleep, ww_run, ww_barNotify, ww_barSleep, ww_barCheck, ww_leaving, ww_terminated, ww_crashed] at h1
    omega
  | wNotify w b hw hm =>
    have h1 := weight_update (wakeBarrier b s.pc) w .check
    have h2 := weight_wakeBarrier b s.pc
    rw [wakeBarrier_barNotify _ _ _ _ hw] at h1
    simp only [measure, Bool.toNat_false]
    simp only [ww_check, ww_asleep, ww_run, ww_barNotify, ww_barSleep, ww_barCheck, ww_leaving, ww_terminated, ww_crashed] at h1 h2
    omega
  | wNotifyMain w b hw hm =>
    have h1 := weight_update (wakeBarrier b s.pc) w .check
    have h2 := weight_wakeBarrier b s.pc
    rw [wakeBarrier_barNotify _ _ _ _ hw] at h1
    simp only [measure, hm, mainWeight, Bool.toNat_false]
    simp only [ww_check, ww_asleep, ww_run, ww_barNotify, ww_barSleep, ww_barCheck, ww_leaving, ww_terminated, ww_crashed] at h1 h2
    omega
  | sleep w hw hq =>
    have h1 := weight_update s.pc w .asleep
    rw [hw] at h1
    simp only [ww_check, ww_asleep, ww_run, ww_barNotify, ww_barSleep, ww_barCheck, ww_leaving, ww_terminated, ww_crashed] at h1
    simp only [measure, Bool.toNat_false]; omega
  | ended w hw r hq =>
    have h1 := weight_update s.pc w .leaving
    rw [hw] at h1
    simp only [ww_check, ww_asleep, ww_run, ww_barNotify, ww_barSleep, ww_barCheck, ww_leaving, ww_terminated, ww_crashed] at h1
    simp only [measure, Bool.toNat_false]; omega
  | crash w hw r e rest hq =>
    have h1 := weight_update s.pc w .crashed
    rw [hw] at h1
    simp only [ww_check, ww_asleep, ww_run, ww_barNotify, ww_barSleep, ww_barCheck, ww_leaving, ww_terminated, ww_crashed] at h1
    simp only [measure, Bool.toNat_false]; omega
  | ran w t hw throws =>
    have h1 := weight_update s.pc w .check
    rw [hw] at h1
    simp only [ww_check, ww_asleep, ww_run, ww_barNotify, ww_barSleep, ww_barCheck, ww_leaving, ww_terminated, ww_crashed] at h1
    simp only [measure, Bool.toNat_false]; omega
  | ranEnd w hw =>
    have h1 := weight_update s.pc w .check
    rw [hw] at h1
    simp only [ww_check, ww_asleep, ww_run, ww_barNotify, ww_barSleep, ww_barCheck, ww_leaving, ww_terminated, ww_crashed] at h1
    simp only [measure, Bool.toNat_false]; omega
  | reachLast w b hw hk =>
    have h1 := weight_update s.pc w (.barNotify b)
    rw [hw] at h1
    simp only [ww_check, ww_asleep, ww_run, ww_barNotify, ww_barSleep, ww_barCheck, ww_leaving, ww_terminated, ww_crashed] at h1
    simp only [measure, Bool.toNat_false]; omega
  | reachWait w b hw hk =>
    have h1 := weight_update s.pc w (.barSleep b)
    rw [hw] at h1
    simp only [ww_check, ww_asleep, ww_run, ww_barNotify, ww_barSleep, ww_barCheck, ww_leaving, ww_terminated, ww_crashed] at h1
    simp only [measure, Bool.toNat_false]; omega
  | wCheckOk w b hw hk =>
    have h1 := weight_update s.pc w .check
    rw [hw] at h1
    simp only [ww_check, ww_asleep, ww_run, ww_barNotify, ww_barSleep, ww_barCheck, ww_leaving, ww_terminated, ww_crashed] at h1
    simp only [measure, Bool.toNat_false]; omega
  | wCheckNo w b hw hk =>
    have h1 := weight_update s.pc w (.barSleep b)
    rw [hw] at h1
    simp only [ww_check, ww_asleep, ww_run, ww_barNotify, ww_barSleep, ww_barCheck, ww_leaving, ww_terminated, ww_crashed] at h1
    simp only [measure, Bool.toNat_false]; omega
  | leave w hw =>
    have h1 := weight_update s.pc w .terminated
    rw [hw] at h1
    simp only [ww_check, ww_asleep, ww_run, ww_barNotify, ww_barSleep, ww_barCheck, ww_leaving, ww_terminated, ww_crashed] at h1
    simp only [measure, Bool.toNat_false]; omega
  | sWorker w hw =>
    have h1 := weight_update s.pc w .check
    rw [hw] at h1
    simp only [ww_check, ww_asleep, ww_run, ww_barNotify, ww_barSleep, ww_barCheck, ww_leaving, ww_terminated, ww_crashed] at h1
    simp only [measure, Bool.toNat_true]; omega
  | sBar w b hw =>
    have h1 := weight_update s.pc w (.barCheck b)
    rw [hw] at h1
    simp only [ww_check, ww_asleep, ww_run, ww_barNotify, ww_barSleep, ww_barCheck, ww_leaving, ww_terminated, ww_crashed] at h1
    simp only [measure, Bool.toNat_true]; omega

/-- A schedule is at most as long as the work to be done plus twice the number of spurious wakeups in it. -/
theorem exec_bounded (s s' : State n) (h : QInv s) (as : List (Action n)) (he : exec s as = some s') :
    as.length + measure s' ≤ measure s + 2 * as.countP Action.spurious := by
  induction as generalizing s with
  | nil => cases he; simp
  | cons a as ih =>
    simp only [exec, Option.bind_eq_some_iff] at he
    obtain ⟨s1, h1, h2⟩ := he
    have hst := act_step s s1 a h1
    have hm := measure_step s s1 _ h hst
    have := ih s1 (qinv_step s s1 h ⟨_, hst⟩) h2
    rw [List.countP_cons, List.length_cons]
    cases ha : a.spurious <;> simp [ha] at hm ⊢ <;> omega

end Verif.Tasklets
