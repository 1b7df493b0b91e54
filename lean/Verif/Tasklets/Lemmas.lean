import Verif.Tasklets.Steps
/-
Invariants of the tasklet runner.
-/

set_option autoImplicit false

namespace Verif.Tasklets

variable {n : ℕ}

/-! ### Logs -/

@[simp] theorem dispatchedOf_append (l m : List Event) : dispatchedOf (l ++ m) = dispatchedOf l ++ dispatchedOf m := by
  simp [dispatchedOf]
@[simp] theorem startsOf_append (l m : List Event) : startsOf (l ++ m) = startsOf l ++ startsOf m := by
  simp [startsOf]
@[simp] theorem runsOf_append (t : ℕ) (l m : List Event) : runsOf t (l ++ m) = runsOf t l + runsOf t m := by
  simp [runsOf]
@[simp] theorem hasThrown_append (l m : List Event) : hasThrown (l ++ m) = (hasThrown l || hasThrown m) := by
  simp [hasThrown]
@[simp] theorem expand_append (l m : List (Kind × ℤ)) : expand (l ++ m) = expand l ++ expand m := by
  simp [expand]
@[simp] theorem expand_cons (e : Kind × ℤ) (m : List (Kind × ℤ)) :
    expand (e :: m) = List.replicate e.2.toNat e.1 ++ expand m := by
  simp [expand]
@[simp] theorem expand_nil : expand [] = [] := rfl

@[simp] theorem dispatchedOf_nil : dispatchedOf [] = [] := rfl
@[simp] theorem dispatchedOf_dispatch (k : Kind) (c : ℤ) : dispatchedOf [.dispatch k c] = [(k, c)] := rfl
@[simp] theorem dispatchedOf_start (k : Kind) : dispatchedOf [.start k] = [] := rfl
@[simp] theorem dispatchedOf_ran (t : ℕ) (b : Bool) : dispatchedOf [.ran t b] = [] := rfl
@[simp] theorem dispatchedOf_returned (b : ℕ) : dispatchedOf [.returned b] = [] := rfl
@[simp] theorem dispatchedOf_destroyed : dispatchedOf [.destroyed] = [] := rfl
@[simp] theorem startsOf_nil : startsOf [] = [] := rfl
@[simp] theorem startsOf_dispatch (k : Kind) (c : ℤ) : startsOf [.dispatch k c] = [] := rfl
@[simp] theorem startsOf_start (k : Kind) : startsOf [.start k] = [k] := rfl
@[simp] theorem startsOf_ran (t : ℕ) (b : Bool) : startsOf [.ran t b] = [] := rfl
@[simp] theorem startsOf_returned (b : ℕ) : startsOf [.returned b] = [] := rfl
@[simp] theorem startsOf_destroyed : startsOf [.destroyed] = [] := rfl
@[simp] theorem runsOf_nil (t : ℕ) : runsOf t [] = 0 := rfl
@[simp] theorem runsOf_dispatch (t : ℕ) (k : Kind) (c : ℤ) : runsOf t [.dispatch k c] = 0 := rfl
@[simp] theorem runsOf_start (t : ℕ) (k : Kind) : runsOf t [.start k] = 0 := rfl
@[simp] theorem runsOf_ran (t t' : ℕ) (b : Bool) : runsOf t [.ran t' b] = if t' = t then 1 else 0 := by
  simp [runsOf, List.countP_cons]
@[simp] theorem runsOf_returned (t : ℕ) (b : ℕ) : runsOf t [.returned b] = 0 := rfl
@[simp] theorem runsOf_destroyed (t : ℕ) : runsOf t [.destroyed] = 0 := rfl
@[simp] theorem hasThrown_nil : hasThrown [] = false := rfl
@[simp] theorem hasThrown_dispatch (k : Kind) (c : ℤ) : hasThrown [.dispatch k c] = false := rfl
@[simp] theorem hasThrown_start (k : Kind) : hasThrown [.start k] = false := rfl
@[simp] theorem hasThrown_ran (t : ℕ) (b : Bool) : hasThrown [.ran t b] = b := by simp [hasThrown]
@[simp] theorem hasThrown_returned (b : ℕ) : hasThrown [.returned b] = false := rfl
@[simp] theorem hasThrown_destroyed : hasThrown [.destroyed] = false := rfl

theorem mem_dispatchedOf (k : Kind) (c : ℤ) (l : List Event) : (k, c) ∈ dispatchedOf l ↔ .dispatch k c ∈ l := by
  simp only [dispatchedOf, List.mem_filterMap]
  constructor
  · rintro ⟨e, he, h⟩
    cases e <;> simp at h
    obtain ⟨rfl, rfl⟩ := h
    exact he
  · intro h; exact ⟨_, h, rfl⟩

theorem expand_mem_pos (l : List (Kind × ℤ)) (k : Kind) (h : k ∈ expand l) : ∃ c, (k, c) ∈ l := by
  simp only [expand, List.mem_flatMap, List.mem_replicate] at h
  obtain ⟨⟨k', c⟩, he, _, rfl⟩ := h
  exact ⟨c, he⟩

theorem expand_eq_nil (l : List (Kind × ℤ)) (h : ∀ e ∈ l, 1 ≤ e.2) (he : expand l = []) : l = [] := by
  cases l with
  | nil => rfl
  | cons e l =>
    have := h e (by simp)
    simp only [expand_cons, List.append_eq_nil_iff, List.replicate_eq_nil_iff] at he
    omega

/-- The number of invocations of `k` in a list of pairwise different objects. -/
theorem count_expand (l : List (Kind × ℤ)) (hn : (l.map Prod.fst).Nodup) (k : Kind) (c : ℤ) (h : (k, c) ∈ l) :
    (expand l).count k = c.toNat := by
  induction l with
  | nil => simp at h
  | cons e l ih =>
    simp only [List.map_cons, List.nodup_cons] at hn
    simp only [expand_cons, List.count_append, List.count_replicate]
    rcases List.mem_cons.1 h with h | h
    · subst h
      have : (expand l).count k = 0 := List.count_eq_zero.2 fun hk => by
        obtain ⟨c', hc⟩ := expand_mem_pos l k hk
        exact hn.1 (List.mem_map.2 ⟨_, hc, rfl⟩)
      simp [this]
    · have : e.1 ≠ k := fun he => hn.1 (List.mem_map.2 ⟨_, h, he.symm⟩)
      simp [ih hn.2 h, this]

/-! ### Queue and order of dispatch -/

structure QInv (s : State n) : Prop where
  pos : 1 ≤ n
  prog : Positive s.prog
  queue : ∀ e ∈ s.queue, 1 ≤ e.2
  fifo : expand (dispatchedOf s.log) = startsOf s.log ++ expand s.queue
  posd : ∀ e ∈ dispatchedOf s.log, 1 ≤ e.2

theorem qinv_step (s s' : State n) (h : QInv s) (hs : Step s s') : QInv s' := by
  obtain ⟨hn, hp, hq, hf, hd⟩ := h
  obtain ⟨kind, hs⟩ := hs
  cases hs with
  | disp c rest hm hpr =>
    refine ⟨hn, fun c' hc => hp c' (by simp [hpr, hc]), ?_, ?_, ?_⟩
    · intro e he
      simp only [push, List.mem_append, List.mem_singleton] at he
      rcases he with he | rfl
      · exact hq e he
      · exact hp c (by simp [hpr])
    · simp [push, hf]
    · intro e he
      simp only [push, dispatchedOf_append, dispatchedOf_dispatch, List.mem_append, List.mem_singleton] at he
      rcases he with he | rfl
      · exact hd e he
      · exact hp c (by simp [hpr])
  | bar rest hm hpr =>
    refine ⟨hn, fun c' hc => hp c' (by simp [hpr, hc]), ?_, ?_, ?_⟩
    · intro e he
      simp only [push, List.mem_append, List.mem_singleton] at he
      rcases he with he | rfl
      · exact hq e he
      · simpa using hn
    · simp [push, hf]
    · intro e he
      simp only [push, dispatchedOf_append, dispatchedOf_dispatch, List.mem_append, List.mem_singleton] at he
      rcases he with he | rfl
      · exact hd e he
      · simpa using hn
  | fin hm hpr =>
    refine ⟨hn, hp, ?_, ?_, ?_⟩
    · intro e he
      simp only [push, List.mem_append, List.mem_singleton] at he
      rcases he with he | rfl
      · exact hq e he
      · simp
    · simp [push, hf]
    · intro e he
      simp only [push, dispatchedOf_append, dispatchedOf_dispatch, List.mem_append, List.mem_singleton] at he
      rcases he with he | rfl
      · exact hd e he
      · simp
  | take w hw k r rest hqe hk =>
    have hr : 1 ≤ r := hq (k, r) (by simp [hqe])
    refine ⟨hn, hp, ?_, ?_, ?_⟩
    · intro e he
      split_ifs at he with h0
      · exact hq e (by simp [hqe, he])
      · rcases List.mem_cons.1 he with rfl | he
        · simp; omega
        · exact hq e (by simp [hqe, he])
    · simp only [startsOf_append, startsOf_start, dispatchedOf_append, dispatchedOf_start, List.append_nil]
      rw [hf, hqe]
      obtain ⟨m, rfl⟩ : ∃ m : ℕ, r = m + 1 := ⟨(r - 1).toNat, by omega⟩
      split_ifs with h0
      · obtain rfl : m = 0 := by omega
        simp
      · have h1 : ((m : ℤ) + 1 - 1).toNat = m := by omega
        have h2 : ((m : ℤ) + 1).toNat = m + 1 := by omega
        simp only [expand_cons, h1, h2, List.replicate_succ]
        simp
    · simpa using hd
  | _ => first | exact ⟨hn, hp, hq, hf, hd⟩ | exact ⟨hn, hp, hq, by simpa using hf, by simpa using hd⟩

/-! ### The main thread and what it dispatched -/

/-- The main thread is in the call of barrier `b`. -/
def atBar (m : MainPc) (b : ℕ) : Prop :=
  m = .notify (.barrier b) ∨ m = .arrive b ∨ m = .barNotify b ∨ m = .barSleep b ∨ m = .barCheck b

/-- The main thread is in the destructor. -/
def atEnd (m : MainPc) : Prop := m = .notify .endMarker ∨ m = .join ∨ m = .done

structure DInv (s : State n) : Prop where
  tasks : ∀ t c, (Kind.task t, c) ∈ dispatchedOf s.log → t < s.nextTask
  bars : ∀ b c, (Kind.barrier b, c) ∈ dispatchedOf s.log → b < s.nextBarrier ∧ c = n
  ends : ∀ c, (Kind.endMarker, c) ∈ dispatchedOf s.log → atEnd s.main
  nodup : ((dispatchedOf s.log).map Prod.fst).Nodup
  all : ∀ b, b < s.nextBarrier → (Kind.barrier b, (n : ℤ)) ∈ dispatchedOf s.log
  last : ∀ b, atBar s.main b → b + 1 = s.nextBarrier ∧ ∃ pre, dispatchedOf s.log = pre ++ [(.barrier b, (n : ℤ))]
  lastEnd : atEnd s.main → ∃ pre, dispatchedOf s.log = pre ++ [(.endMarker, 1)]

theorem dinv_step (s s' : State n) (h : DInv s) (hs : Step s s') : DInv s' := by
  obtain ⟨h1, h2, h3, h4, h5, h6, h7⟩ := h
  have hready : s.main = .ready → ∀ c, (Kind.endMarker, c) ∉ dispatchedOf s.log := by
    intro hm c hc
    have := h3 c hc
    simp [atEnd, hm] at this
  obtain ⟨kind, hs⟩ := hs
  cases hs with
  | disp c rest hm hpr =>
    refine ⟨?_, ?_, ?_, ?_, ?_, ?_, ?_⟩ <;> simp only [push, dispatchedOf_append, dispatchedOf_dispatch, List.mem_append, List.mem_singleton]
    · rintro t c (h | h)
      · have := h1 t c h; omega
      · simp at h; omega
    · rintro b c (h | h)
      · exact h2 b c h
      · simp at h
    · rintro c (h | h)
      · exact absurd h (hready hm c)
      · simp at h
    · simp only [List.map_append, List.map_cons, List.map_nil]
      refine List.nodup_append.2 ⟨h4, by simp, ?_⟩
      intro a ha b hb
      simp only [List.mem_singleton] at hb
      subst hb
      rintro rfl
      obtain ⟨⟨k, c⟩, he, hk⟩ := List.mem_map.1 ha
      simp only at hk
      subst hk
      have := h1 _ _ he; omega
    · intro b hb; exact .inl (h5 b hb)
    · intro b hb; simp [atBar] at hb
    · intro hb; simp [atEnd] at hb
  | bar rest hm hpr =>
    refine ⟨?_, ?_, ?_, ?_, ?_, ?_, ?_⟩ <;> simp only [push, dispatchedOf_append, dispatchedOf_dispatch, List.mem_append, List.mem_singleton]
    · rintro t c (h | h)
      · exact h1 t c h
      · simp at h
    · rintro b c (h | h)
      · have := h2 b c h
        exact ⟨by omega, this.2⟩
      · simp at h; exact ⟨by omega, h.2⟩
    · rintro c (h | h)
      · exact absurd h (hready hm c)
      · simp at h
    · simp only [List.map_append, List.map_cons, List.map_nil]
      refine List.nodup_append.2 ⟨h4, by simp, ?_⟩
      intro a ha b hb
      simp only [List.mem_singleton] at hb
      subst hb
      rintro rfl
      obtain ⟨⟨k, c⟩, he, hk⟩ := List.mem_map.1 ha
      simp only at hk
      subst hk
      have := h2 _ _ he; omega
    · intro b hb
      rcases Nat.lt_succ_iff_lt_or_eq.1 hb with hb | hb
      · exact .inl (h5 b hb)
      · exact .inr (by rw [hb])
    · intro b hb
      simp [atBar] at hb
      subst hb
      exact ⟨rfl, _, rfl⟩
    · intro hb; simp [atEnd] at hb
  | fin hm hpr =>
    refine ⟨?_, ?_, ?_, ?_, ?_, ?_, ?_⟩ <;> simp only [push, dispatchedOf_append, dispatchedOf_dispatch, List.mem_append, List.mem_singleton]
    · rintro t c (h | h)
      · exact h1 t c h
      · simp at h
    · rintro b c (h | h)
      · exact h2 b c h
      · simp at h
    · intro c _
      exact .inl rfl
    · simp only [List.map_append, List.map_cons, List.map_nil]
      refine List.nodup_append.2 ⟨h4, by simp, ?_⟩
      intro a ha b hb
      simp only [List.mem_singleton] at hb
      subst hb
      rintro rfl
      obtain ⟨⟨k, c⟩, he, hk⟩ := List.mem_map.1 ha
      simp only at hk
      subst hk
      exact hready hm _ he
    · intro b hb; exact .inl (h5 b hb)
    · intro b hb; simp [atBar] at hb
    · intro hb; exact ⟨_, rfl⟩
  | notifyTask t hm =>
    refine ⟨h1, h2, ?_, h4, h5, ?_, ?_⟩
    · intro c hc; have := h3 c hc; simp [atEnd, hm] at this
    · intro b hb; simp [atBar] at hb
    · intro hb; simp [atEnd] at hb
  | notifyBar b hm =>
    refine ⟨h1, h2, ?_, h4, h5, ?_, ?_⟩
    · intro c hc; have := h3 c hc; simp [atEnd, hm] at this
    · intro b' hb; simp [atBar] at hb; subst hb; exact h6 _ (.inl hm)
    · intro hb; simp [atEnd] at hb
  | notifyEnd hm =>
    refine ⟨h1, h2, ?_, h4, h5, ?_, ?_⟩
    · intro c hc; exact .inr (.inl rfl)
    · intro b' hb; simp [atBar] at hb
    · intro _; exact h7 (.inl hm)
  | arriveLast b hm hk =>
    refine ⟨h1, h2, ?_, h4, h5, ?_, ?_⟩
    · intro c hc; have := h3 c hc; simp [atEnd, hm] at this
    · intro b' hb; simp [atBar] at hb; subst hb; exact h6 _ (by simp [atBar, hm])
    · intro hb; simp [atEnd] at hb
  | arriveWait b hm hk =>
    refine ⟨h1, h2, ?_, h4, h5, ?_, ?_⟩
    · intro c hc; have := h3 c hc; simp [atEnd, hm] at this
    · intro b' hb; simp [atBar] at hb; subst hb; exact h6 _ (by simp [atBar, hm])
    · intro hb; simp [atEnd] at hb
  | mNotify b hm =>
    refine ⟨by simpa using h1, by simpa using h2, ?_, by simpa using h4, by simpa using h5, ?_, ?_⟩
    · intro c hc; have := h3 c (by simpa using hc); simp [atEnd, hm] at this
    · intro b' hb; simp [atBar] at hb
    · intro hb; simp [atEnd] at hb
  | mCheckOk b hm hk =>
    refine ⟨by simpa using h1, by simpa using h2, ?_, by simpa using h4, by simpa using h5, ?_, ?_⟩
    · intro c hc; have := h3 c (by simpa using hc); simp [atEnd, hm] at this
    · intro b' hb; simp [atBar] at hb
    · intro hb; simp [atEnd] at hb
  | mCheckNo b hm hk =>
    refine ⟨h1, h2, ?_, h4, h5, ?_, ?_⟩
    · intro c hc; have := h3 c hc; simp [atEnd, hm] at this
    · intro b' hb; simp [atBar] at hb; subst hb; exact h6 _ (by simp [atBar, hm])
    · intro hb; simp [atEnd] at hb
  | wNotifyMain w b hw hm =>
    refine ⟨h1, h2, ?_, h4, h5, ?_, ?_⟩
    · intro c hc; have := h3 c hc; simp [atEnd, hm] at this
    · intro b' hb; simp [atBar] at hb; subst hb; exact h6 _ (by simp [atBar, hm])
    · intro hb; simp [atEnd] at hb
  | sMain b hm =>
    refine ⟨h1, h2, ?_, h4, h5, ?_, ?_⟩
    · intro c hc; have := h3 c hc; simp [atEnd, hm] at this
    · intro b' hb; simp [atBar] at hb; subst hb; exact h6 _ (by simp [atBar, hm])
    · intro hb; simp [atEnd] at hb
  | join hm hw =>
    refine ⟨by simpa using h1, by simpa using h2, ?_, by simpa using h4, by simpa using h5, ?_, ?_⟩
    · intro c hc; exact .inr (.inr rfl)
    · intro b' hb; simp [atBar] at hb
    · intro _; simpa using h7 (by simp [atEnd, hm])
  | _ =>
    first
    | exact ⟨h1, h2, h3, h4, h5, h6, h7⟩
    | (refine ⟨?_, ?_, ?_, ?_, ?_, ?_, ?_⟩ <;> simpa)

end Verif.Tasklets
