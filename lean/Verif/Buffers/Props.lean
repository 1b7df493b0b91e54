import Mathlib.Data.List.Basic
import Mathlib.Data.List.Nodup
import Verif.Buffers.Model
set_option autoImplicit false
set_option linter.unusedSimpArgs false
/-!
# C111: buffers own their memory
-/
namespace Buffers

/-- Every object has an array of its own, which is allocated and has the length of the
buffer, and every allocated array belongs to an object. -/
structure Owned (s : State) : Prop where
  names : (s.objects.map (·.1)).Nodup
  fresh : ∀ a ∈ s.live, a.1 < s.next
  single : (s.live.map (·.1)).Nodup
  owns : ∀ o ∈ s.objects, ∀ p, o.2.data = some p → (p, o.2.size) ∈ s.live
  null : ∀ o ∈ s.objects, o.2.data = none → o.2.size = 0
  distinct : ∀ o ∈ s.objects, ∀ o' ∈ s.objects, ∀ p, o.2.data = some p → o'.2.data = some p → o = o'
  used : ∀ a ∈ s.live, ∃ o ∈ s.objects, o.2.data = some a.1

theorem find_none {s : State} {name : ℕ} (h : find s name = none) :
    ∀ o ∈ s.objects, o.1 ≠ name := by
  unfold find at h
  rw [Option.map_eq_none_iff, List.find?_eq_none] at h
  intro o ho
  simpa using h o ho

theorem find_some {s : State} {name : ℕ} {b : Buffer} (h : find s name = some b) :
    (name, b) ∈ s.objects := by
  unfold find at h
  rw [Option.map_eq_some_iff] at h
  obtain ⟨o, ho, rfl⟩ := h
  have h1 := List.mem_of_find?_eq_some ho
  have h2 := List.find?_some ho
  simp only [decide_eq_true_eq] at h2
  rw [← h2]
  exact h1

theorem name_inj {s : State} (hs : Owned s) {o o' : ℕ × Buffer} (h : o ∈ s.objects)
    (h' : o' ∈ s.objects) (he : o.1 = o'.1) : o = o' :=
  List.inj_on_of_nodup_map hs.names h h' he

theorem live_inj {s : State} (hs : Owned s) {a a' : ℕ × ℕ} (h : a ∈ s.live)
    (h' : a' ∈ s.live) (he : a.1 = a'.1) : a = a' :=
  List.inj_on_of_nodup_map hs.single h h' he

theorem owned_empty : Owned empty := by
  constructor <;> simp [empty]

/-- freeing the array of an existing object is possible -/
theorem free_ok {s : State} (hs : Owned s) {name : ℕ} {b : Buffer} (h : (name, b) ∈ s.objects) :
    ∃ s', free s b.data = some s' ∧ s'.objects = s.objects ∧ s'.next = s.next ∧
      ∀ a, a ∈ s'.live ↔ a ∈ s.live ∧ b.data ≠ some a.1 := by
  cases hd : b.data with
  | none => exact ⟨s, rfl, rfl, rfl, by simp⟩
  | some p =>
    have hl := hs.owns _ h p hd
    refine ⟨{ s with live := s.live.filter fun a => a.1 ≠ p }, ?_, rfl, rfl, ?_⟩
    · simp only [free]
      rw [if_pos]
      rw [List.any_eq_true]
      exact ⟨_, hl, by simp⟩
    · intro a
      simp only [List.mem_filter, ne_eq, decide_not, Bool.not_eq_true', decide_eq_false_iff_not,
        Option.some.injEq]
      exact and_congr_right fun _ => not_congr ⟨fun h => h.symm, fun h => h.symm⟩

theorem owned_step {s s' : State} {op : Op} (hs : Owned s) (ha : Allowed s op)
    (hc : ∀ a b, op ≠ .copy a b) (h : step s op = some s') : Owned s' := by
  cases op with
  | copy a b => exact absurd rfl (hc a b)
  | make name =>
    simp only [step, Option.some.injEq] at h
    subst h
    have hn := find_none ha
    refine ⟨?_, hs.fresh, hs.single, ?_, ?_, ?_, ?_⟩
    · simp only [List.map_cons, List.nodup_cons]
      refine ⟨?_, hs.names⟩
      intro hm
      obtain ⟨o, ho, he⟩ := List.mem_map.1 hm
      exact hn o ho he
    · intro o ho p hp
      rcases List.mem_cons.1 ho with rfl | ho
      · simp at hp
      · exact hs.owns o ho p hp
    · intro o ho hp
      rcases List.mem_cons.1 ho with rfl | ho
      · rfl
      · exact hs.null o ho hp
    · intro o ho o' ho' p hp hp'
      rcases List.mem_cons.1 ho with rfl | ho
      · simp at hp
      · rcases List.mem_cons.1 ho' with rfl | ho'
        · simp at hp'
        · exact hs.distinct o ho o' ho' p hp hp'
    · intro a hal
      obtain ⟨o, ho, he⟩ := hs.used a hal
      exact ⟨o, List.mem_cons_of_mem _ ho, he⟩
  | makeSized name n =>
    simp only [step, alloc, Option.some.injEq] at h
    subst h
    have hn := find_none ha
    have hf : ∀ o ∈ s.objects, ∀ p, o.2.data = some p → p < s.next :=
      fun o ho p hp => hs.fresh _ (hs.owns o ho p hp)
    refine ⟨?_, ?_, ?_, ?_, ?_, ?_, ?_⟩
    · simp only [List.map_cons, List.nodup_cons]
      refine ⟨?_, hs.names⟩
      intro hm
      obtain ⟨o, ho, he⟩ := List.mem_map.1 hm
      exact hn o ho he
    · intro a hal
      rcases List.mem_cons.1 hal with rfl | hal
      · exact Nat.lt_succ_self _
      · exact Nat.lt_succ_of_lt (hs.fresh a hal)
    · simp only [List.map_cons, List.nodup_cons]
      refine ⟨?_, hs.single⟩
      intro hm
      obtain ⟨a, hal, he⟩ := List.mem_map.1 hm
      have := hs.fresh a hal
      omega
    · intro o ho p hp
      rcases List.mem_cons.1 ho with rfl | ho
      · simp only [Option.some.injEq] at hp; subst hp; exact List.mem_cons_self
      · exact List.mem_cons_of_mem _ (hs.owns o ho p hp)
    · intro o ho hp
      rcases List.mem_cons.1 ho with rfl | ho
      · simp at hp
      · exact hs.null o ho hp
    · intro o ho o' ho' p hp hp'
      rcases List.mem_cons.1 ho with rfl | ho <;> rcases List.mem_cons.1 ho' with rfl | ho'
      · rfl
      · have := hf o' ho' p hp'
        simp only [Option.some.injEq] at hp; omega
      · have := hf o ho p hp
        simp only [Option.some.injEq] at hp'; omega
      · exact hs.distinct o ho o' ho' p hp hp'
    · intro a hal
      rcases List.mem_cons.1 hal with rfl | hal
      · exact ⟨_, List.mem_cons_self, rfl⟩
      · obtain ⟨o, ho, he⟩ := hs.used a hal
        exact ⟨o, List.mem_cons_of_mem _ ho, he⟩
  | destroy name =>
    cases hfd : find s name with
    | none => exact absurd hfd ha
    | some b =>
      have hb := find_some hfd
      obtain ⟨s1, h1, h2, h3, h4⟩ := free_ok hs hb
      simp only [step, hfd, h1, Option.some.injEq] at h
      subst h
      have sub : ∀ a, a ∈ s1.live → a ∈ s.live := fun a h => ((h4 a).1 h).1
      have live1 : s1.live.map (·.1) |>.Nodup := by
        have : s1.live = s.live ∨ ∃ p, s1.live = s.live.filter fun a => a.1 ≠ p := by
          cases hd : b.data with
          | none => rw [hd] at h1; simp only [free, Option.some.injEq] at h1; left; rw [h1]
          | some p =>
            rw [hd] at h1
            simp only [free] at h1
            split at h1
            · simp only [Option.some.injEq] at h1; right; exact ⟨p, by rw [← h1]⟩
            · simp at h1
        rcases this with e | ⟨p, e⟩ <;> rw [e]
        · exact hs.single
        · exact hs.single.sublist (List.filter_sublist.map _)
      refine ⟨?_, ?_, live1, ?_, ?_, ?_, ?_⟩ <;> simp only [h2, h3]
      · exact hs.names.sublist (List.filter_sublist.map _)
      · exact fun a h => hs.fresh a (sub a h)
      · intro o ho p hp
        obtain ⟨ho, hne⟩ := List.mem_filter.1 ho
        refine (h4 _).2 ⟨hs.owns o ho p hp, ?_⟩
        intro hbp
        have := hs.distinct o ho _ hb p hp hbp
        rw [this] at hne
        simp at hne
      · intro o ho hp
        exact hs.null o (List.mem_of_mem_filter ho) hp
      · intro o ho o' ho' p hp hp'
        exact hs.distinct o (List.mem_of_mem_filter ho) o' (List.mem_of_mem_filter ho') p hp hp'
      · intro a hal
        obtain ⟨hal, hne⟩ := (h4 a).1 hal
        obtain ⟨o, ho, he⟩ := hs.used a hal
        refine ⟨o, List.mem_filter.2 ⟨ho, ?_⟩, he⟩
        simp only [ne_eq, decide_not, Bool.not_eq_true', decide_eq_false_iff_not]
        intro hon
        have := name_inj hs ho hb hon
        rw [this] at he
        exact hne he
  | resize name n =>
    cases hfd : find s name with
    | none => exact absurd hfd ha
    | some b =>
      have hb := find_some hfd
      obtain ⟨s1, h1, h2, h3, h4⟩ := free_ok hs hb
      simp only [step, hfd, h1, alloc, Option.some.injEq] at h
      subst h
      have sub : ∀ a, a ∈ s1.live → a ∈ s.live := fun a h => ((h4 a).1 h).1
      have live1 : s1.live.map (·.1) |>.Nodup := by
        have : s1.live = s.live ∨ ∃ p, s1.live = s.live.filter fun a => a.1 ≠ p := by
          cases hd : b.data with
          | none => rw [hd] at h1; simp only [free, Option.some.injEq] at h1; left; rw [h1]
          | some p =>
            rw [hd] at h1
            simp only [free] at h1
            split at h1
            · simp only [Option.some.injEq] at h1; right; exact ⟨p, by rw [← h1]⟩
            · simp at h1
        rcases this with e | ⟨p, e⟩ <;> rw [e]
        · exact hs.single
        · exact hs.single.sublist (List.filter_sublist.map _)
      have hf : ∀ o ∈ s.objects, ∀ p, o.2.data = some p → p < s.next :=
        fun o ho p hp => hs.fresh _ (hs.owns o ho p hp)
      -- the objects afterwards
      have objs : ∀ o, o ∈ (s.objects.map fun o => if o.1 = name then (name, ⟨some s.next, n⟩) else o) ↔
          o = (name, ⟨some s.next, n⟩) ∨ (o ∈ s.objects ∧ o.1 ≠ name) := by
        intro o
        rw [List.mem_map]
        constructor
        · rintro ⟨x, hx, rfl⟩
          by_cases hn : x.1 = name
          · left; rw [if_pos hn]
          · right; rw [if_neg hn]; exact ⟨hx, hn⟩
        · rintro (rfl | ⟨ho, hn⟩)
          · exact ⟨(name, b), hb, by simp⟩
          · exact ⟨o, ho, by rw [if_neg hn]⟩
      refine ⟨?_, ?_, ?_, ?_, ?_, ?_, ?_⟩ <;> simp only [h2, h3]
      · have : (s.objects.map fun o => if o.1 = name then (name, ⟨some s.next, n⟩) else o).map (·.1)
            = s.objects.map (·.1) := by
          rw [List.map_map]
          apply List.map_congr_left
          intro o _
          by_cases hn : o.1 = name <;> simp [hn]
        rw [this]
        exact hs.names
      · intro a hal
        rcases List.mem_cons.1 hal with rfl | hal
        · exact Nat.lt_succ_self _
        · exact Nat.lt_succ_of_lt (hs.fresh a (sub a hal))
      · simp only [List.map_cons, List.nodup_cons]
        refine ⟨?_, live1⟩
        intro hm
        obtain ⟨a, hal, he⟩ := List.mem_map.1 hm
        have := hs.fresh a (sub a hal)
        omega
      · intro o ho p hp
        rcases (objs o).1 ho with rfl | ⟨ho, hne⟩
        · simp only [Option.some.injEq] at hp; subst hp; exact List.mem_cons_self
        · refine List.mem_cons_of_mem _ ((h4 _).2 ⟨hs.owns o ho p hp, ?_⟩)
          intro hbp
          have := hs.distinct o ho _ hb p hp hbp
          rw [this] at hne
          simp at hne
      · intro o ho hp
        rcases (objs o).1 ho with rfl | ⟨ho, hne⟩
        · simp at hp
        · exact hs.null o ho hp
      · intro o ho o' ho' p hp hp'
        rcases (objs o).1 ho with rfl | ⟨ho, hne⟩ <;> rcases (objs o').1 ho' with rfl | ⟨ho', hne'⟩
        · rfl
        · have := hf o' ho' p hp'
          simp only [Option.some.injEq] at hp; omega
        · have := hf o ho p hp
          simp only [Option.some.injEq] at hp'; omega
        · exact hs.distinct o ho o' ho' p hp hp'
      · intro a hal
        rcases List.mem_cons.1 hal with rfl | hal
        · exact ⟨_, (objs _).2 (Or.inl rfl), rfl⟩
        · obtain ⟨hal, hne⟩ := (h4 a).1 hal
          obtain ⟨o, ho, he⟩ := hs.used a hal
          refine ⟨o, (objs o).2 (Or.inr ⟨ho, ?_⟩), he⟩
          intro hon
          have := name_inj hs ho hb hon
          rw [this] at he
          exact hne he

theorem step_ok {s : State} {op : Op} (hs : Owned s) (ha : Allowed s op)
    (hc : ∀ a b, op ≠ .copy a b) : step s op ≠ none := by
  cases op with
  | copy a b => exact absurd rfl (hc a b)
  | make name => simp [step]
  | makeSized name n => simp [step]
  | resize name n =>
    cases hfd : find s name with
    | none => exact absurd hfd ha
    | some b =>
      obtain ⟨s1, h1, _⟩ := free_ok hs (find_some hfd)
      simp [step, hfd, h1]
  | destroy name =>
    cases hfd : find s name with
    | none => exact absurd hfd ha
    | some b =>
      obtain ⟨s1, h1, _⟩ := free_ok hs (find_some hfd)
      simp [step, hfd, h1]

theorem run_owned {s : State} {ops : List Op} {r : Option State} (g : Run s ops r) (hs : Owned s)
    (hc : ∀ a b, Op.copy a b ∉ ops) : ∃ s', r = some s' ∧ Owned s' := by
  induction g with
  | done s => exact ⟨s, rfl, hs⟩
  | next s s' op ops r ha he _ ih =>
    exact ih (owned_step hs ha (by rintro a b rfl; exact hc a b (by simp)) he)
      (fun a b h => hc a b (by simp [h]))
  | crash s op ops ha he =>
    exact absurd he (step_ok hs ha (by rintro a b rfl; exact hc a b (by simp)))

/-- Proved part: as long as buffers are not copied, no sequence of constructions,
resizings and destructions frees memory twice; every buffer owns an array of its own of
exactly its size, and nothing stays allocated when all buffers are gone. -/
theorem C111_memory_partial (ops : List Op) (r : Option State) (hc : ∀ a b, Op.copy a b ∉ ops)
    (g : Run empty ops r) :
    ∃ s, r = some s ∧
      (∀ o ∈ s.objects, ∀ p, o.2.data = some p → (p, o.2.size) ∈ s.live ∧
        ∀ o' ∈ s.objects, o'.2.data = some p → o' = o) ∧
      (s.objects = [] → s.live = []) := by
  obtain ⟨s, rfl, hs⟩ := run_owned g owned_empty hc
  refine ⟨s, rfl, fun o ho p hp => ⟨hs.owns o ho p hp, fun o' ho' hp' =>
    hs.distinct o' ho' o ho p hp' hp⟩, fun he => ?_⟩
  cases hl : s.live with
  | nil => rfl
  | cons a l =>
    obtain ⟨o, ho, _⟩ := hs.used a (by rw [hl]; simp)
    rw [he] at ho
    simp at ho

/-- The full property has no restriction.  It is false: the copy constructor is the
default one, so a copy shares the array, and destroying both frees it twice. -/
theorem C111_memory_violated :
    Run empty [.makeSized 0 3, .copy 1 0, .destroy 1, .destroy 0] none := by
  refine .next _ _ _ _ _ (by simp [Allowed, find, empty]) rfl ?_
  refine .next _ _ _ _ _ ⟨by decide, by decide⟩ rfl ?_
  refine .next _ _ _ _ _ (by simp only [Allowed]; decide) rfl ?_
  exact .crash _ _ _ (by simp only [Allowed]; decide) rfl

/-- A message carries exactly the bytes of the buffer, and the receiver of a buffer with
the same number of elements asks for exactly as many. -/
theorem C111_message_partial (e : Elem) (n c : ℕ) (h : messageCount e n = some c) :
    c * mpiItemBytes e = n * elemBytes e := by
  unfold messageCount at h
  split at h
  · cases h
    cases e <;> simp [mpiCount, mpiItemBytes, elemBytes]
  · cases h

/-- It does so for all buffers of less than 2^31 elements of a type known to MPI, and of
less than 2^31 bytes of any type. -/
theorem C111_message_fits (e : Elem) (n : ℕ) (he : 0 < elemBytes e) (h : n * elemBytes e < 2 ^ 31) :
    messageCount e n ≠ none := by
  unfold messageCount
  have : mpiCount e n < 2 ^ 31 := by
    cases e with
    | builtin b =>
      simp only [mpiCount, elemBytes] at *
      exact Nat.lt_of_le_of_lt (Nat.le_mul_of_pos_right _ he) h
    | other b => exact h
  rw [if_pos this]
  simp

/-- Larger buffers are not sent as they are: the size does not fit into an `int`. -/
theorem C111_message_violated : messageCount (.other 24) (2 ^ 27) = none := by decide

/-- Non-vacuity: a buffer that is constructed, resized and destroyed. -/
example : Run empty [.make 0, .resize 0 5, .makeSized 1 2, .destroy 0, .destroy 1]
    (some ⟨[], 2, []⟩) := by
  refine .next _ _ _ _ _ (by simp only [Allowed]; decide) rfl ?_
  refine .next _ _ _ _ _ (by simp only [Allowed]; decide) rfl ?_
  refine .next _ _ _ _ _ (by simp only [Allowed]; decide) rfl ?_
  refine .next _ _ _ _ _ (by simp only [Allowed]; decide) rfl ?_
  refine .next _ _ _ _ _ (by simp only [Allowed]; decide) rfl ?_
  exact .done _

end Buffers
