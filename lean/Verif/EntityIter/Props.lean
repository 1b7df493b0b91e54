import Verif.EntityIter.Lemmas
import Mathlib.Data.List.Perm.Basic
import Mathlib.Data.List.Sort
import Mathlib.Algebra.BigOperators.Group.Finset.Basic
import Mathlib.Algebra.Order.BigOperators.Group.Finset
import Mathlib.Algebra.BigOperators.Fin
/-
C27: iterating over the grid with several threads.
-/

set_option autoImplicit false
set_option linter.unusedSimpArgs false

namespace Verif.EntityIter

/-! ### The interface, used in any way -/

theorem calls_noabort {T : Type} (N : ℕ) (cs : List (T × Call)) (h : ∀ c ∈ cs, c.2 ≠ .setFinished) :
    ∀ pos ≤ N, ((calls N pos cs).map Prod.snd).filter (fun it => !isFinished N it) =
      (List.range' pos (min cs.length (N - pos))) := by
  induction cs with
  | nil => intro pos _; simp [calls]
  | cons c cs ih =>
    intro pos hpos
    obtain ⟨t, c⟩ := c
    have hc : c ≠ .setFinished := h (t, c) (by simp)
    have ih := ih (fun c hc => h c (by simp [hc]))
    have hcall : call N pos c = (bump N pos, some pos) := by cases c <;> simp_all [call]
    simp only [calls, hcall]
    by_cases hN : pos = N
    · subst hN
      have := ih pos le_rfl
      simp [bump, isFinished] at this ⊢
      exact this
    · have hl : pos < N := by omega
      have := ih (pos + 1) (by omega)
      have hm : min (cs.length + 1) (N - pos) = min cs.length (N - (pos + 1)) + 1 := by omega
      simp only [isFinished] at this
      simp [bump, hN, isFinished, hm, List.range'_succ, this]

theorem calls_append {T : Type} (N : ℕ) (a b : List (T × Call)) : ∀ pos ≤ N, ∃ pos' ≤ N,
    calls N pos (a ++ b) = calls N pos a ++ calls N pos' b ∧
      ∀ t, calls N pos (a ++ (t, .setFinished) :: b) = calls N pos a ++ calls N N b := by
  induction a with
  | nil => intro pos hp; exact ⟨pos, hp, by simp [calls], fun t => by simp [calls, call]⟩
  | cons c a ih =>
    intro pos hp
    obtain ⟨t, c⟩ := c
    have hb : (call N pos c).1 ≤ N := by
      cases c <;> simp only [call, bump] <;> first | exact le_rfl | (split <;> omega)
    obtain ⟨p, hp', h1, h2⟩ := ih _ hb
    refine ⟨p, hp', ?_, fun t' => ?_⟩
    · simp only [calls, List.cons_append, h1]; split <;> simp
    · simp only [calls, List.cons_append, h2]; split <;> simp

theorem calls_end {T : Type} (N : ℕ) (b : List (T × Call)) : ∀ r ∈ calls N N b, r.2 = N := by
  induction b with
  | nil => simp [calls]
  | cons c b ih =>
    obtain ⟨t, c⟩ := c
    cases c <;> simp_all [calls, call, bump] <;> exact ih

/-- **C27** For every sequence of calls, by any threads and in any order, of `beginParallel` and `increment`: the
entities handed out are the first entities of the grid, in grid order, each once – as many as calls were made, until
the grid is exhausted; from then on all calls return the end. -/
theorem C27_handed_out_once_in_order {T : Type} (N : ℕ) (cs : List (T × Call)) (h : ∀ c ∈ cs, c.2 ≠ .setFinished) :
    ((calls N 0 cs).map Prod.snd).filter (fun it => !isFinished N it) = List.range (min cs.length N) := by
  have := calls_noabort N cs h 0 (Nat.zero_le _)
  rw [this, List.range_eq_range']; simp

example : (calls 3 0 [(0, .begin), (1, .begin), (0, .increment), (1, .increment), (0, .increment)] : List (ℕ × ℕ)) =
    [(0, 0), (1, 1), (0, 2), (1, 3), (0, 3)] := by decide

/-- **C27** After an abort was requested every call, by whichever thread, returns the end; what was handed out before
is not affected. -/
theorem C27_nothing_after_abort {T : Type} (N : ℕ) (a b : List (T × Call)) (t : T) :
    ∃ later, calls N 0 (a ++ (t, .setFinished) :: b) = calls N 0 a ++ later ∧ ∀ r ∈ later, isFinished N r.2 = true := by
  obtain ⟨_, _, _, h⟩ := calls_append N a b 0 (Nat.zero_le _)
  exact ⟨_, h t, fun r hr => by simpa [isFinished] using calls_end N b r hr⟩

example : (calls 5 0 [(0, .begin), (1, .begin), (1, .setFinished), (0, .increment)] : List (ℕ × ℕ)) =
    [(0, 0), (1, 1), (0, 5)] := by decide

/-! ### The linearization loop -/

variable {n : ℕ}

theorem inv_of_exec (N : ℕ) (interior : ℕ → Bool) (as : List (Fin n × Bool)) :
    Inv N interior (exec N interior (init n) as) := inv_exec as _ (inv_init N interior)

/-- **C27** At each point of every execution with any number of threads, the entities handed out are the first ones of
the grid, in grid order, none of them twice. -/
theorem C27_loop_order (N : ℕ) (interior : ℕ → Bool) (as : List (Fin n × Bool)) :
    ∃ k ≤ N, handedOf (exec N interior (init n) as).log = List.range k := by
  obtain ⟨k, h1, h2, _⟩ := (inv_of_exec N interior as).handed
  exact ⟨k, h1.trans (inv_of_exec N interior as).pos, h2⟩

/-- **C27** No entity is linearized twice, and none which was not handed out, whatever the schedule and whatever
throws. -/
theorem C27_at_most_once (N : ℕ) (interior : ℕ → Bool) (as : List (Fin n × Bool)) :
    (linearizedOf (exec N interior (init n) as).log).Nodup ∧
      ∀ e ∈ linearizedOf (exec N interior (init n) as).log, e < N ∧ interior e = true := by
  have I := inv_of_exec N interior as
  rw [I.lin]
  refine ⟨I.nodup.filter _, fun e he => ?_⟩
  rw [List.mem_filter] at he
  have := I.visited e he.1
  obtain ⟨k, h1, h2, _⟩ := I.handed
  rw [h2] at this; simp at this
  exact ⟨lt_of_lt_of_le this (h1.trans I.pos), he.2⟩

/-- **C27** If all threads have left the loop and nothing was thrown, then exactly the interior entities of the grid
were linearized, each of them once. -/
theorem C27_complete (hn : 0 < n) (N : ℕ) (interior : ℕ → Bool) (as : List (Fin n × Bool))
    (hf : Finished (exec N interior (init n) as)) (ht : ¬ hasThrown (exec N interior (init n) as).log) :
    (linearizedOf (exec N interior (init n) as).log).Perm ((List.range N).filter interior) := by
  have I := inv_of_exec N interior as
  rw [I.lin]
  apply List.Perm.filter
  have hpos : (exec N interior (init n) as).pos = N := I.doneN ⟨0, hn⟩ (hf _)
  obtain ⟨k, h1, h2, h3⟩ := I.handed
  have hk : k = N := by
    rw [h3 fun ha => ht (I.abortThrown ha), hpos]
  subst hk
  rw [List.perm_ext_iff_of_nodup I.nodup List.nodup_range]
  intro e
  constructor
  · intro he; have := I.visited e he; rwa [h2] at this
  · intro he
    rw [← h2] at he
    rcases I.complete ht e he with h | ⟨w, h⟩
    · exact h
    · rw [hf w] at h; simp [held] at h

/-- three entities, of which the second is not to be linearized, and two threads -/
example : (exec 3 (fun e => e != 1) (init 2)
      [(0, false), (1, false), (1, false), (0, false), (1, false), (0, false), (0, false), (1, false), (1, false),
       (1, false)]).log =
    [.handed 0 0, .handed 1 1, .handed 1 2, .visited 1 1 false, .visited 0 0 true, .visited 1 2 true] ∧
    ∀ w, (exec 3 (fun e => e != 1) (init 2)
      [(0, false), (1, false), (1, false), (0, false), (1, false), (0, false), (0, false), (1, false), (1, false),
       (1, false)]).pc w = .done := by decide

/-- **C27** The exception which is rethrown behind the parallel block is set exactly if a body threw, once all threads
have left the loop. -/
theorem C27_exceptions_are_not_lost (N : ℕ) (interior : ℕ → Bool) (as : List (Fin n × Bool))
    (hf : Finished (exec N interior (init n) as)) :
    (exec N interior (init n) as).exception = true ↔ hasThrown (exec N interior (init n) as).log := by
  have I := inv_of_exec N interior as
  rw [I.exc]
  refine ⟨I.abortThrown, fun h => ?_⟩
  rcases I.thrown h with h | ⟨w, h⟩
  · exact h
  · rw [hf w] at h; cases h

/-- **C27** After a thread has handled an exception no entity is handed out any more. -/
theorem C27_loop_abort (N : ℕ) (interior : ℕ → Bool) (as : List (Fin n × Bool)) (a b : List (Event n))
    (h : (exec N interior (init n) as).log = a ++ Event.abort :: b) : handedOf b = [] :=
  (inv_of_exec N interior as).afterAbort a b h

example : (exec 9 (fun _ => true) (init 1) [(0, false), (0, false), (0, true), (0, false)]).log =
    [.handed 0 0, .handed 0 1, .threw 0 0, .abort] := by decide

/-! ### The loop ends -/

/-- The work left for a thread. -/
def left (N : ℕ) : Pc → ℕ
  | .start => 5
  | .test e => if e = N then 1 else 4
  | .body _ next => if next = N then 3 else 6
  | .handler => 1
  | .done => 0

def total (N : ℕ) (s : State n) : ℕ := 3 * (N - s.pos) + ∑ w, left N (s.pc w)

theorem sum_update (N : ℕ) (pc : Fin n → Pc) (w : Fin n) (p : Pc) :
    (∑ w', left N (Function.update pc w p w')) + left N (pc w) = (∑ w', left N (pc w')) + left N p := by
  rw [← Finset.add_sum_erase _ _ (Finset.mem_univ w), ← Finset.add_sum_erase (a := w) _ (fun w' => left N (pc w')) (Finset.mem_univ w)]
  have : ∑ x ∈ Finset.univ.erase w, left N (Function.update pc w p x) = ∑ x ∈ Finset.univ.erase w, left N (pc x) := by
    apply Finset.sum_congr rfl
    intro x hx
    rw [Function.update_of_ne (Finset.ne_of_mem_erase hx)]
  rw [this]; simp; omega

theorem total_lt (N : ℕ) (interior : ℕ → Bool) (s : State n) (I : Inv N interior s) (w : Fin n) (throws : Bool)
    (hw : s.pc w ≠ .done) : total N (step N interior s w throws) < total N s := by
  have hpos := I.pos
  unfold step total
  split
  · rename_i hpc
    have := sum_update N s.pc w (.test s.pos)
    simp only [hpc] at this
    by_cases h : s.pos = N
    · simp [left, h, bump] at this ⊢; omega
    · simp [left, h, bump] at this ⊢; omega
  · rename_i e hpc
    by_cases hf : isFinished N e = true
    · have hN : e = N := by simpa [isFinished] using hf
      subst hN
      rw [if_pos hf]
      have := sum_update e s.pc w .done
      simp only [hpc] at this
      simp [left] at this ⊢; omega
    · have hN : e ≠ N := by simpa [isFinished] using hf
      rw [if_neg hf]
      have := sum_update N s.pc w (.body e s.pos)
      simp only [hpc] at this
      by_cases h : s.pos = N
      · simp [left, h, bump, hN] at this ⊢; omega
      · simp [left, h, bump, hN] at this ⊢; omega
  · rename_i e next hpc
    by_cases ht : throws = true
    · rw [if_pos ht]
      have := sum_update N s.pc w .handler
      simp only [hpc] at this
      by_cases h : next = N <;> simp [left, h] at this ⊢ <;> omega
    · rw [if_neg ht]
      have := sum_update N s.pc w (.test next)
      simp only [hpc] at this
      by_cases h : next = N <;> simp [left, h] at this ⊢ <;> omega
  · rename_i hpc
    have := sum_update N s.pc w .done
    simp only [hpc] at this
    simp [left] at this ⊢; omega
  · contradiction

/-- A schedule which lets only those threads run which are not done yet. -/
def Busy (N : ℕ) (interior : ℕ → Bool) : State n → List (Fin n × Bool) → Prop
  | _, [] => True
  | s, (w, throws) :: rest => s.pc w ≠ .done ∧ Busy N interior (step N interior s w throws) rest

theorem busy_bound (N : ℕ) (interior : ℕ → Bool) (as : List (Fin n × Bool)) :
    ∀ s : State n, Inv N interior s → Busy N interior s as → as.length ≤ total N s := by
  induction as with
  | nil => intro s _ _; simp
  | cons a as ih =>
    intro s I hb
    have h1 := ih _ (inv_step I a.1 a.2) hb.2
    have h2 := total_lt N interior s I a.1 a.2 hb.1
    simp; omega

/-- **C27** The loop ends: with `n` threads no execution makes more than `3 N + 5 n` steps before all threads have left
it. -/
theorem C27_loop_ends (N : ℕ) (interior : ℕ → Bool) (as : List (Fin n × Bool)) (h : Busy N interior (init n) as) :
    as.length ≤ 3 * N + 5 * n := by
  have := busy_bound N interior as _ (inv_init N interior) h
  simpa [total, init, left, mul_comm] using this

example : Busy 2 (fun _ => true) (init 1) [(0, false), (0, false), (0, false), (0, false), (0, false), (0, false)] := by
  simp [Busy, step, init, bump, isFinished]

end Verif.EntityIter
