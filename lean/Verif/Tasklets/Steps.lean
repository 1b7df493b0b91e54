import Verif.Tasklets.Spec
import Mathlib.Algebra.BigOperators.Group.Finset.Basic
import Mathlib.Algebra.BigOperators.Fin
import Mathlib.Algebra.Order.BigOperators.Group.Finset
import Mathlib.Tactic.Linarith
/-
The steps of the machine as an inductive relation, and counting of workers.
-/

set_option autoImplicit false

namespace Verif.Tasklets

variable {n : ℕ}

/-- The steps; the flag says whether it is a spurious wakeup. -/
inductive StepK : State n → Bool → State n → Prop
  | disp (s : State n) (c : ℤ) (rest : List Op) (hm : s.main = .ready) (hp : s.prog = .dispatch c :: rest) :
      StepK s false { push s (.task s.nextTask) c with prog := rest, nextTask := s.nextTask + 1 }
  | bar (s : State n) (rest : List Op) (hm : s.main = .ready) (hp : s.prog = .barrier :: rest) :
      StepK s false { push s (.barrier s.nextBarrier) n with prog := rest, nextBarrier := s.nextBarrier + 1 }
  | fin (s : State n) (hm : s.main = .ready) (hp : s.prog = []) : StepK s false (push s .endMarker 1)
  | notifyTask (s : State n) (t : ℕ) (hm : s.main = .notify (.task t)) :
      StepK s false { s with pc := wakeAll s.pc, main := .ready }
  | notifyBar (s : State n) (b : ℕ) (hm : s.main = .notify (.barrier b)) :
      StepK s false { s with pc := wakeAll s.pc, main := .arrive b }
  | notifyEnd (s : State n) (hm : s.main = .notify .endMarker) :
      StepK s false { s with pc := wakeAll s.pc, main := .join }
  | arriveLast (s : State n) (b : ℕ) (hm : s.main = .arrive b) (hk : n ≤ s.waiting b) :
      StepK s false { s with waiting := Function.update s.waiting b (s.waiting b + 1), main := .barNotify b }
  | arriveWait (s : State n) (b : ℕ) (hm : s.main = .arrive b) (hk : s.waiting b < n) :
      StepK s false { s with waiting := Function.update s.waiting b (s.waiting b + 1), main := .barSleep b }
  | mNotify (s : State n) (b : ℕ) (hm : s.main = .barNotify b) :
      StepK s false { s with pc := wakeBarrier b s.pc, main := .ready, log := s.log ++ [.returned b] }
  | mCheckOk (s : State n) (b : ℕ) (hm : s.main = .barCheck b) (hk : n + 1 ≤ s.waiting b) :
      StepK s false { s with main := .ready, log := s.log ++ [.returned b] }
  | mCheckNo (s : State n) (b : ℕ) (hm : s.main = .barCheck b) (hk : s.waiting b ≤ n) :
      StepK s false { s with main := .barSleep b }
  | join (s : State n) (hm : s.main = .join) (hw : ∀ w, s.pc w = .terminated) :
      StepK s false { s with main := .done, log := s.log ++ [.destroyed] }
  | sleep (s : State n) (w : Fin n) (hw : s.pc w = .check) (hq : s.queue = []) :
      StepK s false { s with pc := Function.update s.pc w .asleep }
  | ended (s : State n) (w : Fin n) (hw : s.pc w = .check) (r : ℤ) (hq : s.queue = [(.endMarker, r)]) :
      StepK s false { s with pc := Function.update s.pc w .leaving }
  | crash (s : State n) (w : Fin n) (hw : s.pc w = .check) (r : ℤ) (e : Kind × ℤ) (rest : List (Kind × ℤ))
      (hq : s.queue = (.endMarker, r) :: e :: rest) :
      StepK s false { s with pc := Function.update s.pc w .crashed }
  | take (s : State n) (w : Fin n) (hw : s.pc w = .check) (k : Kind) (r : ℤ) (rest : List (Kind × ℤ))
      (hq : s.queue = (k, r) :: rest) (hk : k ≠ .endMarker) :
      StepK s false { s with queue := if r - 1 = 0 then rest else (k, r - 1) :: rest,
                             pc := Function.update s.pc w (.run k), log := s.log ++ [.start k] }
  | ran (s : State n) (w : Fin n) (t : ℕ) (hw : s.pc w = .run (.task t)) (throws : Bool) :
      StepK s false { s with pc := Function.update s.pc w .check, failure := if throws then true else s.failure,
                             log := s.log ++ [.ran t throws] }
  | reachLast (s : State n) (w : Fin n) (b : ℕ) (hw : s.pc w = .run (.barrier b)) (hk : n ≤ s.waiting b) :
      StepK s false { s with waiting := Function.update s.waiting b (s.waiting b + 1),
                             pc := Function.update s.pc w (.barNotify b) }
  | reachWait (s : State n) (w : Fin n) (b : ℕ) (hw : s.pc w = .run (.barrier b)) (hk : s.waiting b < n) :
      StepK s false { s with waiting := Function.update s.waiting b (s.waiting b + 1),
                             pc := Function.update s.pc w (.barSleep b) }
  | ranEnd (s : State n) (w : Fin n) (hw : s.pc w = .run .endMarker) :
      StepK s false { s with pc := Function.update s.pc w .check }
  | wNotify (s : State n) (w : Fin n) (b : ℕ) (hw : s.pc w = .barNotify b) (hm : s.main ≠ .barSleep b) :
      StepK s false { s with pc := Function.update (wakeBarrier b s.pc) w .check }
  | wNotifyMain (s : State n) (w : Fin n) (b : ℕ) (hw : s.pc w = .barNotify b) (hm : s.main = .barSleep b) :
      StepK s false { s with pc := Function.update (wakeBarrier b s.pc) w .check, main := .barCheck b }
  | wCheckOk (s : State n) (w : Fin n) (b : ℕ) (hw : s.pc w = .barCheck b) (hk : n + 1 ≤ s.waiting b) :
      StepK s false { s with pc := Function.update s.pc w .check }
  | wCheckNo (s : State n) (w : Fin n) (b : ℕ) (hw : s.pc w = .barCheck b) (hk : s.waiting b ≤ n) :
      StepK s false { s with pc := Function.update s.pc w (.barSleep b) }
  | leave (s : State n) (w : Fin n) (hw : s.pc w = .leaving) :
      StepK s false { s with pc := Function.update s.pc w .terminated, doubleUnlock := true }
  | sMain (s : State n) (b : ℕ) (hm : s.main = .barSleep b) : StepK s true { s with main := .barCheck b }
  | sWorker (s : State n) (w : Fin n) (hw : s.pc w = .asleep) :
      StepK s true { s with pc := Function.update s.pc w .check }
  | sBar (s : State n) (w : Fin n) (b : ℕ) (hw : s.pc w = .barSleep b) :
      StepK s true { s with pc := Function.update s.pc w (.barCheck b) }

def Step (s s' : State n) : Prop := ∃ k, StepK s k s'

theorem act_step (s s' : State n) (a : Action n) (h : act s a = some s') : StepK s a.spurious s' := by
  cases a with
  | main =>
    simp only [act, mainStep] at h
    split at h
    · split at h <;> cases h
      · exact .disp s _ _ ‹_› ‹_›
      · exact .bar s _ ‹_› ‹_›
      · exact .fin s ‹_› ‹_›
    · rename_i k hm
      cases k <;> cases h
      · exact .notifyTask s _ hm
      · exact .notifyBar s _ hm
      · exact .notifyEnd s hm
    · cases h
      split_ifs with hk
      · exact .arriveLast s _ ‹_› (by omega)
      · exact .arriveWait s _ ‹_› (by omega)
    · cases h; exact .mNotify s _ ‹_›
    · cases h
    · split_ifs at h with hk <;> cases h
      · exact .mCheckOk s _ ‹_› hk
      · exact .mCheckNo s _ ‹_› (by omega)
    · split_ifs at h with hk
      cases h
      exact .join s ‹_› hk
    · cases h
  | worker w throws =>
    simp only [act, workerStep] at h
    split at h
    · split at h
      · cases h; exact .sleep s w ‹_› ‹_›
      · rename_i r rest hq
        cases h
        cases rest with
        | nil => exact .ended s w ‹_› r hq
        | cons e rest => exact .crash s w ‹_› r e rest hq
      · rename_i k r rest hne hq
        cases h
        exact .take s w ‹_› k r rest hq hne
    · cases h
    · cases h; exact .ran s w _ ‹_› throws
    · cases h
      split_ifs with hk
      · exact .reachLast s w _ ‹_› (by omega)
      · exact .reachWait s w _ ‹_› (by omega)
    · cases h; exact .ranEnd s w ‹_›
    · cases h
      split_ifs with hm
      · exact .wNotifyMain s w _ ‹_› hm
      · exact .wNotify s w _ ‹_› hm
    · cases h
    · cases h
      split_ifs with hk
      · exact .wCheckOk s w _ ‹_› hk
      · exact .wCheckNo s w _ ‹_› (by omega)
    · cases h; exact .leave s w ‹_›
    · cases h
    · cases h
  | wakeMain =>
    simp only [act] at h
    split at h <;> cases h
    exact .sMain s _ ‹_›
  | wake w =>
    simp only [act] at h
    split at h <;> cases h
    · exact .sWorker s w ‹_›
    · exact .sBar s w _ ‹_›

theorem exec_append (s : State n) (as bs : List (Action n)) :
    exec s (as ++ bs) = (exec s as).bind fun s' => exec s' bs := by
  induction as generalizing s with
  | nil => rfl
  | cons a as ih =>
    simp only [List.cons_append, exec]
    cases act s a with
    | none => rfl
    | some s' => simp [ih]

/-- Invariants: what holds initially and is preserved by the steps holds in every reachable state. -/
theorem reachable_induction {prog : List Op} (I : State n → Prop) (h0 : I (init n prog))
    (hs : ∀ s s', I s → Step s s' → I s') {s : State n} (h : Reachable prog s) : I s := by
  obtain ⟨as, h⟩ := h
  have key : ∀ (as : List (Action n)) (s0 s : State n), I s0 → exec s0 as = some s → I s := by
    intro as
    induction as with
    | nil => intro s0 s h0 h; cases h; exact h0
    | cons a as ih =>
      intro s0 s h0 h
      simp only [exec, Option.bind_eq_some_iff] at h
      obtain ⟨s1, h1, h2⟩ := h
      exact ih s1 s (hs s0 s1 h0 ⟨_, act_step s0 s1 a h1⟩) h2
  exact key as _ s h0 h

/-! ### Counting workers -/

/-- The number of workers with property `p`. -/
def num (p : WorkerPc → Bool) (f : Fin n → WorkerPc) : ℕ := ∑ w, (p (f w)).toNat

theorem num_update (p : WorkerPc → Bool) (f : Fin n → WorkerPc) (w : Fin n) (x : WorkerPc) :
    num p (Function.update f w x) + (p (f w)).toNat = num p f + (p x).toNat := by
  have h1 := Finset.add_sum_erase Finset.univ (fun v => (p (f v)).toNat) (Finset.mem_univ w)
  have h2 := Finset.add_sum_erase Finset.univ (fun v => (p (Function.update f w x v)).toNat) (Finset.mem_univ w)
  have h3 : ∑ v ∈ Finset.univ.erase w, (p (Function.update f w x v)).toNat
      = ∑ v ∈ Finset.univ.erase w, (p (f v)).toNat := by
    refine Finset.sum_congr rfl fun v hv => ?_
    rw [Function.update_of_ne (Finset.ne_of_mem_erase hv)]
  simp only [Function.update_self] at h2
  simp only [num]
  omega

theorem num_wakeAll (p : WorkerPc → Bool) (hp : p .asleep = p .check) (f : Fin n → WorkerPc) :
    num p (wakeAll f) = num p f := by
  refine Finset.sum_congr rfl fun v _ => ?_
  simp only [wakeAll]
  split_ifs with h
  · rw [h, hp]
  · rfl

theorem num_wakeBarrier (p : WorkerPc → Bool) (b : ℕ) (hp : p (.barSleep b) = p (.barCheck b))
    (f : Fin n → WorkerPc) : num p (wakeBarrier b f) = num p f := by
  refine Finset.sum_congr rfl fun v _ => ?_
  simp only [wakeBarrier]
  split_ifs with h
  · rw [h, hp]
  · rfl

theorem num_pos (p : WorkerPc → Bool) (f : Fin n → WorkerPc) (w : Fin n) (h : p (f w) = true) : 1 ≤ num p f := by
  have := Finset.single_le_sum (f := fun v => (p (f v)).toNat) (fun _ _ => Nat.zero_le _) (Finset.mem_univ w)
  simp only [h, Bool.toNat_true] at this
  exact this

theorem num_le (p : WorkerPc → Bool) (f : Fin n → WorkerPc) : num p f ≤ n := by
  have : num p f ≤ ∑ _w : Fin n, 1 := Finset.sum_le_sum fun v _ => Bool.toNat_le _
  simpa using this

theorem num_eq_iff (p : WorkerPc → Bool) (f : Fin n → WorkerPc) : num p f = n ↔ ∀ w, p (f w) = true := by
  constructor
  · intro h w
    by_contra hc
    have h1 := num_update p f w (f w)
    have : num p f < ∑ _w : Fin n, 1 := by
      refine Finset.sum_lt_sum (fun v _ => Bool.toNat_le _) ⟨w, Finset.mem_univ w, ?_⟩
      simp [Bool.not_eq_true _ ▸ hc]
    simp at this
    omega
  · intro h
    have : num p f = ∑ _w : Fin n, 1 := Finset.sum_congr rfl fun v _ => by simp [h v]
    simpa using this

theorem num_zero (p : WorkerPc → Bool) (f : Fin n → WorkerPc) (h : ∀ w, p (f w) = false) : num p f = 0 := by
  refine Finset.sum_eq_zero fun v _ => by simp [h v]

end Verif.Tasklets
