import Verif.Timer.Model
import Mathlib.Tactic.Linarith
import Mathlib.Tactic.Ring
import Mathlib.Algebra.Order.Field.Rat
/-
C29: what timers report.
-/

set_option autoImplicit false
set_option linter.unusedSectionVars false

namespace Verif.Timer

variable {K : Type} [Field K] [LinearOrder K] [IsStrictOrderedRing K]

/-! ### Specification

Histories are read from the latest operation to the first. -/

/-- The timer runs if the latest of the operations which start or stop it has started it. -/
def running : List (Op K × K) → Bool
  | [] => false
  | (.start, _) :: _ => true
  | (.stop, _) :: _ => false
  | (.halt, _) :: _ => false
  | (.reset, _) :: older => running older
  | (.add _, _) :: older => running older

/-- The time which has to be reported at `now`: the sum of the lengths of the periods between consecutive operations in
which the timer was running, plus what was added, since the latest operation which clears the timer. -/
def accounted (now : K) : List (Op K × K) → K
  | [] => 0
  | (op, t) :: older =>
    (if running ((op, t) :: older) then now - t else 0) +
      match op with
      | .halt => 0
      | .reset => 0
      | .add d => accounted t older + d
      | _ => accounted t older

/-- The timer is only started when it does not run. -/
def NoRestart : List (Op K × K) → Prop
  | [] => True
  | (.start, _) :: older => running older = false ∧ NoRestart older
  | _ :: older => NoRestart older

theorem exec_append (l m : List (Op K × K)) : ∀ t : Clock K, exec t (l ++ m) = (exec t l).bind fun t => exec t m := by
  induction l with
  | nil => intro t; simp [exec]
  | cons a l ih =>
    intro t
    obtain ⟨op, now⟩ := a
    simp only [List.cons_append, exec, Option.bind_assoc, ih]

theorem accounted_shift (l : List (Op K × K)) (a b : K) :
    accounted b l = accounted a l + if running l then b - a else 0 := by
  cases l with
  | nil => simp [accounted, running]
  | cons x l =>
    obtain ⟨op, t⟩ := x
    simp only [accounted]
    split <;> ring

/-- What holds of the timer after a history. -/
theorem timer_inv (h : List (Op K × K)) (hn : NoRestart h) :
    ∃ t, exec init h.reverse = some t ∧ t.stopped = !running h ∧ (running h → t.start.isSome) ∧
      ∀ now, elapsed now t = some (accounted now h) := by
  induction h with
  | nil => exact ⟨init, rfl, by simp [init, running], by simp [running], fun now => by simp [elapsed, init, accounted]⟩
  | cons x h ih =>
    obtain ⟨op, t0⟩ := x
    have hn' : NoRestart h := by cases op <;> first | exact hn.2 | exact hn
    obtain ⟨t, h1, h2, h3, h4⟩ := ih hn'
    have hrev : exec (init : Clock K) ((op, t0) :: h).reverse = (step t0 t op).bind fun t => some t := by
      rw [List.reverse_cons, exec_append, h1]; simp [exec]
    have h4' := h4 t0
    rw [hrev]
    by_cases hr : running h = true
    · obtain ⟨s, hs⟩ := Option.isSome_iff_exists.mp (h3 hr)
      have hst : t.stopped = false := by simp [h2, hr]
      simp only [elapsed, hst, hs, Option.map_some, Bool.false_eq_true, if_false, Option.some.injEq] at h4'
      cases op with
      | start => simp [NoRestart, hr] at hn
      | stop =>
        refine ⟨{ t with elapsed := t.elapsed + (t0 - s), stopped := true }, by simp [step, hst, hs], by simp [running],
          by simp [running], fun now => ?_⟩
        simp only [elapsed, accounted, running, if_true, h4']; simp
      | halt =>
        exact ⟨_, rfl, by simp [running], by simp [running], fun now => by simp [elapsed, accounted, running]⟩
      | reset =>
        exact ⟨_, rfl, by simp [running, hr, hst], by simp [running, hr], fun now => by
          simp [elapsed, accounted, running, hr, hst]⟩
      | add d =>
        refine ⟨_, rfl, by simp [running, hr, hst], by simp [running, hr, hs], fun now => ?_⟩
        simp only [elapsed, accounted, running, hr, hst, hs, if_true, Bool.false_eq_true, if_false, Option.map_some,
          Option.some.injEq]
        rw [← h4']; ring
    · have hst : t.stopped = true := by simp [h2, hr]
      simp only [elapsed, hst, if_true, Option.some.injEq] at h4'
      cases op with
      | start =>
        exact ⟨_, rfl, by simp [running], by simp [running], fun now => by
          simp only [elapsed, accounted, running, if_true, Bool.false_eq_true, if_false, Option.map_some,
            Option.some.injEq, h4']; ring⟩
      | stop =>
        exact ⟨t, by simp [step, hst], by simp [running, hst], by simp [running], fun now => by
          simp [elapsed, accounted, running, hst, h4']⟩
      | halt =>
        exact ⟨_, rfl, by simp [running], by simp [running], fun now => by simp [elapsed, accounted, running]⟩
      | reset =>
        exact ⟨_, rfl, by simp [running, hr, hst], by simp [running, hr], fun now => by
          simp [elapsed, accounted, running, hr, hst]⟩
      | add d =>
        exact ⟨_, rfl, by simp [running, hr, hst], by simp [running, hr], fun now => by
          simp [elapsed, accounted, running, hr, hst, h4']⟩

/-- **C29** (partial) After every sequence of operations, at whatever times, in which the timer is not started while it
runs, the timer reports the time in which it was running since it was last cleared plus what was added to it; the
uninitialised start time is never used.  Missing: histories in which a running timer is started again, for which the
claim is false (`C29_restart_violated`). -/
theorem C29_accounting_partial (h : List (Op K × K)) (hn : NoRestart h.reverse) (now : K) :
    (exec init h).bind (elapsed now) = some (accounted now h.reverse) := by
  obtain ⟨t, h1, _, _, h4⟩ := timer_inv h.reverse hn
  rw [List.reverse_reverse] at h1
  rw [h1]; exact h4 now

/-- two intervals, 1…3 and 4…9, of which the second is not over -/
example : NoRestart ([(.start, 1), (.stop, 3), (.start, 4)] : List (Op ℚ × ℚ)).reverse ∧
    accounted 9 ([(.start, 1), (.stop, 3), (.start, 4)] : List (Op ℚ × ℚ)).reverse = 7 ∧
    (exec init ([(.start, 1), (.stop, 3), (.start, 4)] : List (Op ℚ × ℚ))).bind (elapsed 9) = some 7 := by
  refine ⟨by simp [NoRestart, running], ?_, ?_⟩ <;> decide +kernel

/-- **C29** A scope with a guard leaves the timer stopped, wherever it is left, and the time up to that moment is
accounted for; a second guard for the same timer (in a surrounding scope) changes nothing. -/
theorem C29_guard (h : List (Op K × K)) (hn : NoRestart h.reverse) (left left' now : K) :
    ∃ t, exec init (guarded h left) = some t ∧ t.stopped = true ∧ elapsed now t = some (accounted left h.reverse) ∧
      exec init (guarded (guarded h left) left') = some t := by
  obtain ⟨t0, g1, g2, _, g4⟩ := timer_inv h.reverse hn
  have hn' : NoRestart ((Op.stop, left) :: h.reverse) := hn
  obtain ⟨t, h1, h2, _, h4⟩ := timer_inv ((Op.stop, left) :: h.reverse) hn'
  have hg : exec init (guarded h left) = some t := by
    rw [← h1]; simp [guarded]
  have hs : t.stopped = true := by simpa [running] using h2
  refine ⟨t, hg, hs, by rw [h4 now]; simp [accounted, running], ?_⟩
  have : guarded (guarded h left) left' = guarded h left ++ [(.stop, left')] := rfl
  rw [this, exec_append, hg]
  simp [exec, step, hs]

example : exec init (guarded (guarded [(.start, 1)] 5) (8 : ℚ)) = some { stopped := true, elapsed := 4, start := some 1 } := by
  decide +kernel

/-- **C29** `stop()` returns the time which is reported afterwards. -/
theorem C29_stop_value (h : List (Op K × K)) (hn : NoRestart h.reverse) (t now : K) :
    (exec init h).bind (stopValue t) = (exec init (h ++ [(.stop, t)])).bind (elapsed now) := by
  obtain ⟨t0, g1, _, _, _⟩ := timer_inv h.reverse hn
  rw [List.reverse_reverse] at g1
  obtain ⟨t1, h1, h2, _, h4⟩ := timer_inv ((Op.stop, t) :: h.reverse) (show NoRestart _ from hn)
  have : exec (init : Clock K) (h ++ [(.stop, t)]) = some t1 := by rw [← h1]; simp
  rw [this, g1]
  rw [exec_append, g1] at this
  simp only [Option.bind_some, exec] at this
  have hs : step t t0 .stop = some t1 := by
    cases hh : step t t0 .stop with
    | none => simp [hh] at this
    | some x => simpa [hh] using this
  have hst : t1.stopped = true := by simpa [running] using h2
  simp [stopValue, hs, elapsed, hst]

/-- **C29** Between clearing operations the reported time does not decrease if the clock does not go back and no
negative times are added. -/
theorem C29_monotone (h : List (Op K × K)) (op : Op K) (t now : K) (hn : NoRestart ((op, t) :: h).reverse.reverse)
    (hc : op ≠ .halt ∧ op ≠ .reset) (hd : ∀ d, op = .add d → 0 ≤ d) (hle : t ≤ now) :
    ∃ a b, (exec init h.reverse).bind (elapsed t) = some a ∧
      (exec init ((op, t) :: h).reverse).bind (elapsed now) = some b ∧ a ≤ b := by
  rw [List.reverse_reverse] at hn
  have hn' : NoRestart h := by cases op <;> first | exact hn.2 | exact hn
  obtain ⟨t0, g1, _, _, g4⟩ := timer_inv h hn'
  obtain ⟨t1, h1, _, _, h4⟩ := timer_inv _ hn
  refine ⟨accounted t h, accounted now ((op, t) :: h), by rw [g1]; exact g4 t, by rw [h1]; exact h4 now, ?_⟩
  simp only [accounted]
  have : (0 : K) ≤ if running ((op, t) :: h) then now - t else 0 := by split <;> linarith
  cases op with
  | halt => exact absurd rfl hc.1
  | reset => exact absurd rfl hc.2
  | add d => have := hd d rfl; simp only; linarith
  | start => simp only; linarith
  | stop => simp only; linarith

/-- **C29** is false if a running timer is started again: the time since the previous start is lost.  Two units of a
period of five are reported. -/
theorem C29_restart_violated : ∃ (h : List (Op ℚ × ℚ)) (now : ℚ),
    (exec init h).bind (elapsed now) = some 2 ∧ accounted now h.reverse = 5 :=
  ⟨[(.start, 0), (.start, 3)], 5, by decide +kernel, by decide +kernel⟩

end Verif.Timer
