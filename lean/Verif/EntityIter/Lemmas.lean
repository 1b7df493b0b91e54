import Verif.EntityIter.Spec
import Mathlib.Data.List.Range
import Mathlib.Data.List.Nodup
import Mathlib.Tactic.Linarith
/-
Invariants of the threaded loop.
-/

set_option autoImplicit false
set_option linter.unusedSimpArgs false

namespace Verif.EntityIter

variable {n : ℕ}

/-- The entities a thread has got but not yet worked on. -/
def held (N : ℕ) : Pc → List ℕ
  | .test e => if e < N then [e] else []
  | .body e next => e :: (if next < N then [next] else [])
  | _ => []

/-- All entities for which the body was executed. -/
def visitedOf (log : List (Event n)) : List ℕ :=
  log.filterMap fun e => match e with
    | .visited _ e _ => some e
    | _ => none

structure Inv (N : ℕ) (interior : ℕ → Bool) (s : State n) : Prop where
  pos : s.pos ≤ N
  handed : ∃ h, h ≤ s.pos ∧ handedOf s.log = List.range h ∧ (Event.abort ∉ s.log → h = s.pos)
  aborted : Event.abort ∈ s.log → s.pos = N
  afterAbort : ∀ a b, s.log = a ++ Event.abort :: b → handedOf b = []
  nodup : (visitedOf s.log).Nodup
  visited : ∀ e ∈ visitedOf s.log, e ∈ handedOf s.log
  heldHanded : ∀ w, ∀ e ∈ held N (s.pc w), e ∈ handedOf s.log ∧ e ∉ visitedOf s.log
  heldNodup : ∀ w, (held N (s.pc w)).Nodup
  heldDisj : ∀ w w', w ≠ w' → ∀ e ∈ held N (s.pc w), e ∉ held N (s.pc w')
  testLe : ∀ w e, s.pc w = .test e → e ≤ N
  bodyLe : ∀ w e e', s.pc w = .body e e' → e < N ∧ e' ≤ N
  lin : linearizedOf s.log = (visitedOf s.log).filter interior
  exc : s.exception = true ↔ Event.abort ∈ s.log
  handler : ∀ w, s.pc w = .handler → hasThrown s.log
  abortThrown : Event.abort ∈ s.log → hasThrown s.log
  thrown : hasThrown s.log → Event.abort ∈ s.log ∨ ∃ w, s.pc w = .handler
  complete : ¬ hasThrown s.log → ∀ e ∈ handedOf s.log, e ∈ visitedOf s.log ∨ ∃ w, e ∈ held N (s.pc w)
  doneN : ∀ w, s.pc w = .done → s.pos = N
  testN : ∀ w, s.pc w = .test N → s.pos = N
  bodyN : ∀ w e, s.pc w = .body e N → s.pos = N

theorem inv_init (N : ℕ) (interior : ℕ → Bool) : Inv N interior (init n) := by
  constructor <;> simp [init, handedOf, visitedOf, linearizedOf, held, hasThrown]

@[simp] theorem handedOf_append (a b : List (Event n)) : handedOf (a ++ b) = handedOf a ++ handedOf b := by
  simp [handedOf]
@[simp] theorem visitedOf_append (a b : List (Event n)) : visitedOf (a ++ b) = visitedOf a ++ visitedOf b := by
  simp [visitedOf]
@[simp] theorem linearizedOf_append (a b : List (Event n)) :
    linearizedOf (a ++ b) = linearizedOf a ++ linearizedOf b := by
  simp [linearizedOf]

@[simp] theorem handedOf_handOut (N : ℕ) (w : Fin n) (e : ℕ) :
    handedOf (handOut N w e) = if e = N then [] else [e] := by
  unfold handOut isFinished; split <;> simp_all [handedOf]
@[simp] theorem visitedOf_handOut (N : ℕ) (w : Fin n) (e : ℕ) : visitedOf (handOut N w e) = [] := by
  unfold handOut; split <;> simp [visitedOf]
@[simp] theorem linearizedOf_handOut (N : ℕ) (w : Fin n) (e : ℕ) : linearizedOf (handOut N w e) = [] := by
  unfold handOut; split <;> simp [linearizedOf]
@[simp] theorem abort_handOut (N : ℕ) (w : Fin n) (e : ℕ) : Event.abort ∉ handOut N w e := by
  unfold handOut; split <;> simp
theorem thrown_handOut (N : ℕ) (w : Fin n) (e : ℕ) (l : List (Event n)) :
    hasThrown (l ++ handOut N w e) ↔ hasThrown l := by
  unfold handOut hasThrown; split <;> simp

theorem after_append {a b l m : List (Event n)} (h : l ++ m = a ++ Event.abort :: b) (hm : Event.abort ∉ m) :
    ∃ b', l = a ++ Event.abort :: b' ∧ b = b' ++ m := by
  rw [List.append_eq_append_iff] at h
  rcases h with ⟨c, h1, h2⟩ | ⟨c, h1, h2⟩
  · exfalso; apply hm; rw [h2]; simp
  · cases c with
    | nil => simp at h2; exfalso; apply hm; rw [← h2]; simp
    | cons x c => simp at h2; exact ⟨c, by rw [h1, h2.1], h2.2⟩

/-- Handing out the next entity: the facts which `start` and `test` need. -/
theorem handed_step {N : ℕ} {interior : ℕ → Bool} {s : State n} (I : Inv N interior s) (w : Fin n) (p : Pc)
    (hp : ∀ e, e ∈ held N p ↔ e ∈ held N (s.pc w) ∨ (e = s.pos ∧ s.pos < N))
    (hn : (held N p).Nodup)
    (ht : ∀ e, p = .test e → e = s.pos) (hb : ∀ e e', p = .body e e' → e < N ∧ e' = s.pos)
    (h1 : p ≠ .handler) (h2 : p ≠ .done) (h3 : s.pc w ≠ .handler) :
    Inv N interior { s with pos := bump N s.pos, pc := Function.update s.pc w p, log := s.log ++ handOut N w s.pos } := by
  obtain ⟨h, hle, hh, heq⟩ := I.handed
  have hpos := I.pos
  have hnew : s.pos < N → s.pos ∉ handedOf s.log := by rw [hh]; simp; intro _; exact hle
  have hb' : s.pos = N → bump N s.pos = N := by intro h; simp [bump, h]
  constructor
  · simp only [bump]; split <;> omega
  · by_cases hN : s.pos = N
    · refine ⟨h, by have := hb' hN; simp only; omega, by simp [hh, hN], ?_⟩
      intro ha; rw [hb' hN, ← hN]; exact heq (by simpa using ha)
    · have hna : Event.abort ∉ s.log := fun ha => hN (I.aborted ha)
      have := heq hna
      refine ⟨s.pos + 1, by simp [bump, hN], ?_, fun _ => by simp [bump, hN]⟩
      simp [hh, hN, this, List.range_succ]
  · intro ha; exact hb' (I.aborted (by simpa using ha))
  · intro a b hab
    obtain ⟨b', hl, hbb⟩ := after_append hab (by simp)
    have : s.pos = N := I.aborted (by rw [hl]; simp)
    rw [hbb]; simp [I.afterAbort a b' hl, this]
  · simpa using I.nodup
  · intro e he; simp at he ⊢; exact .inl (I.visited e he)
  · intro w' e he
    simp only [visitedOf_append, visitedOf_handOut, List.append_nil, handedOf_append, handedOf_handOut, List.mem_append]
    by_cases hw : w' = w
    · subst hw
      simp only [Function.update_self, hp] at he
      rcases he with he | ⟨rfl, he⟩
      · exact ⟨.inl (I.heldHanded w' e he).1, (I.heldHanded w' e he).2⟩
      · have hne : s.pos ≠ N := by omega
        exact ⟨.inr (by simp [hne]), fun hv => hnew he (I.visited _ hv)⟩
    · simp only [Function.update_of_ne hw] at he
      exact ⟨.inl (I.heldHanded w' e he).1, (I.heldHanded w' e he).2⟩
  · intro w'
    by_cases hw : w' = w
    · subst hw; simpa using hn
    · simpa [Function.update_of_ne hw] using I.heldNodup w'
  · intro w1 w2 hne e he
    by_cases hw1 : w1 = w
    · subst hw1
      simp only [Function.update_self, hp] at he
      simp only [Function.update_of_ne (Ne.symm hne)]
      rcases he with he | ⟨rfl, he⟩
      · exact I.heldDisj _ _ hne e he
      · exact fun hc => hnew he (I.heldHanded _ _ hc).1
    · simp only [Function.update_of_ne hw1] at he
      by_cases hw2 : w2 = w
      · subst hw2
        simp only [Function.update_self, hp]
        rintro (hc | ⟨rfl, hc⟩)
        · exact I.heldDisj _ _ hne e he hc
        · exact hnew hc (I.heldHanded _ _ he).1
      · simp only [Function.update_of_ne hw2]
        exact I.heldDisj _ _ hne e he
  · intro w' e he
    by_cases hw : w' = w
    · subst hw; simp only [Function.update_self] at he
      have := ht e he; omega
    · simp only [Function.update_of_ne hw] at he; exact I.testLe w' e he
  · intro w' e e' he
    by_cases hw : w' = w
    · subst hw; simp only [Function.update_self] at he
      have := hb e e' he; omega
    · simp only [Function.update_of_ne hw] at he; exact I.bodyLe w' e e' he
  · simpa using I.lin
  · simpa using I.exc
  · intro w' he
    rw [thrown_handOut]
    by_cases hw : w' = w
    · subst hw; simp only [Function.update_self] at he; exact absurd he h1
    · simp only [Function.update_of_ne hw] at he; exact I.handler w' he
  · intro ha; rw [thrown_handOut]; exact I.abortThrown (by simpa using ha)
  · intro ha
    rw [thrown_handOut] at ha
    rcases I.thrown ha with h | ⟨w', h⟩
    · exact .inl (by simpa using h)
    · right
      have hw : w' ≠ w := by rintro rfl; exact h3 h
      exact ⟨w', by simpa [Function.update_of_ne hw] using h⟩
  · intro ha e he
    rw [thrown_handOut] at ha
    simp only [visitedOf_append, visitedOf_handOut, List.append_nil, handedOf_append, handedOf_handOut,
      List.mem_append] at he ⊢
    rcases he with he | he
    · rcases I.complete ha e he with h | ⟨w', h⟩
      · exact .inl h
      · right
        by_cases hw : w' = w
        · subst hw; exact ⟨w', by simp only [Function.update_self, hp]; exact .inl h⟩
        · exact ⟨w', by simpa only [Function.update_of_ne hw] using h⟩
    · right
      refine ⟨w, ?_⟩
      simp only [Function.update_self, hp]
      by_cases hN : s.pos = N
      · simp [hN] at he
      · simp [hN] at he; right; exact ⟨he, by omega⟩
  · intro w' he
    by_cases hw : w' = w
    · subst hw; simp only [Function.update_self] at he; exact absurd he h2
    · simp only [Function.update_of_ne hw] at he; exact hb' (I.doneN w' he)
  · intro w' he
    by_cases hw : w' = w
    · subst hw; simp only [Function.update_self] at he; exact hb' (ht N he).symm
    · simp only [Function.update_of_ne hw] at he; exact hb' (I.testN w' he)
  · intro w' e he
    by_cases hw : w' = w
    · subst hw; simp only [Function.update_self] at he; exact hb' (hb e N he).2.symm
    · simp only [Function.update_of_ne hw] at he; exact hb' (I.bodyN w' e he)

/-- A step in which thread `w` lets go of at most some entities and nothing is handed out. -/
theorem inv_step {N : ℕ} {interior : ℕ → Bool} {s : State n} (I : Inv N interior s) (w : Fin n) (throws : Bool) :
    Inv N interior (step N interior s w throws) := by
  unfold step
  split
  · rename_i hpc
    apply handed_step I w
    · intro e; simp only [held, hpc]; split <;> simp_all
    · simp only [held]; split <;> simp
    · intro e h; cases h; rfl
    · intro e e' h; cases h
    · simp
    · simp
    · simp [hpc]
  · rename_i e hpc
    have hle := I.testLe w e hpc
    by_cases hf : isFinished N e = true
    · rw [if_pos hf]
      have heN : e = N := by simpa [isFinished] using hf
      subst heN
      have hempty : held e (s.pc w) = [] := by simp [hpc, held]
      have hupd : ∀ w', held e (Function.update s.pc w Pc.done w') = held e (s.pc w') := by
        intro w'
        by_cases hw : w' = w
        · subst hw; rw [hempty]; simp [held]
        · simp [Function.update_of_ne hw]
      have hne : ∀ w' p, Function.update s.pc w Pc.done w' = p → p ≠ .done → s.pc w' = p := by
        intro w' p h1 h2
        by_cases hw : w' = w
        · subst hw; simp at h1; exact absurd h1.symm h2
        · simpa [Function.update_of_ne hw] using h1
      refine ⟨I.pos, I.handed, I.aborted, I.afterAbort, I.nodup, I.visited, ?_, ?_, ?_, ?_, ?_, I.lin, I.exc, ?_,
        I.abortThrown, ?_, ?_, ?_, ?_, ?_⟩
      · intro w'; simp only [hupd]; exact I.heldHanded w'
      · intro w'; simp only [hupd]; exact I.heldNodup w'
      · intro w1 w2; simp only [hupd]; exact I.heldDisj w1 w2
      · intro w' e' h; exact I.testLe w' e' (hne _ _ h (by simp))
      · intro w' e1 e2 h; exact I.bodyLe w' e1 e2 (hne _ _ h (by simp))
      · intro w' h; exact I.handler w' (hne _ _ h (by simp))
      · intro h
        rcases I.thrown h with h | ⟨w', hh⟩
        · exact .inl h
        · right; refine ⟨w', ?_⟩
          have hw : w' ≠ w := by rintro rfl; simp [hpc] at hh
          simpa [Function.update_of_ne hw] using hh
      · intro h e' he'; simp only [hupd]; exact I.complete h e' he'
      · intro w' h
        by_cases hw : w' = w
        · exact I.testN w hpc
        · exact I.doneN w' (by simpa [Function.update_of_ne hw] using h)
      · intro w' h; exact I.testN w' (hne _ _ h (by simp))
      · intro w' e' h; exact I.bodyN w' e' (hne _ _ h (by simp))
    · rw [if_neg hf]
      have heN : e ≠ N := by simpa [isFinished] using hf
      have hlt : e < N := by omega
      have hne : s.pos < N → e ≠ s.pos := by
        intro hp h
        have := (I.heldHanded w e (by simp [hpc, held, hlt])).1
        obtain ⟨k, hk, hh, _⟩ := I.handed
        rw [hh] at this; simp at this; omega
      apply handed_step I w
      · intro e'; simp only [held, hpc, hlt, if_true]; split <;> simp_all
      · simp only [held]; split <;> simp_all
      · intro e h; cases h
      · intro e e' h; cases h; exact ⟨hlt, rfl⟩
      · simp
      · simp
      · simp [hpc]
  · rename_i e next hpc
    obtain ⟨hlt, hnle⟩ := I.bodyLe w e next hpc
    have hown := I.heldHanded w e (by simp [hpc, held])
    have hnd := I.heldNodup w
    simp only [hpc, held] at hnd
    by_cases ht : throws = true
    · rw [if_pos ht]
      have hsub : ∀ w' x, x ∈ held N (Function.update s.pc w Pc.handler w') → x ∈ held N (s.pc w') := by
        intro w' x
        by_cases hw : w' = w
        · subst hw; simp [held]
        · simp [Function.update_of_ne hw]
      have hne : ∀ w' p, Function.update s.pc w Pc.handler w' = p → p ≠ .handler → s.pc w' = p := by
        intro w' p h1 h2
        by_cases hw : w' = w
        · subst hw; simp at h1; exact absurd h1.symm h2
        · simpa [Function.update_of_ne hw] using h1
      have hthr : hasThrown (s.log ++ [Event.threw w e]) := ⟨w, e, by simp⟩
      have e1 : handedOf [(Event.threw w e : Event n)] = [] := by simp [handedOf]
      have e2 : visitedOf [(Event.threw w e : Event n)] = [] := by simp [visitedOf]
      have e3 : linearizedOf [(Event.threw w e : Event n)] = [] := by simp [linearizedOf]
      constructor
      · exact I.pos
      · simpa [e1] using I.handed
      · simpa using I.aborted
      · intro a b hab
        obtain ⟨b', hl, hbb⟩ := after_append hab (by simp)
        rw [hbb]; simp [I.afterAbort a b' hl, e1]
      · simpa [e2] using I.nodup
      · simpa [e1, e2] using I.visited
      · intro w' x hx; simpa [e1, e2] using I.heldHanded w' x (hsub w' x hx)
      · intro w'
        by_cases hw : w' = w
        · subst hw; simp [held]
        · simpa [Function.update_of_ne hw] using I.heldNodup w'
      · intro w1 w2 h x hx hx2; exact I.heldDisj w1 w2 h x (hsub _ _ hx) (hsub _ _ hx2)
      · intro w' e' h; exact I.testLe w' e' (hne _ _ h (by simp))
      · intro w' e1 e2 h; exact I.bodyLe w' e1 e2 (hne _ _ h (by simp))
      · simpa [e2, e3] using I.lin
      · simpa using I.exc
      · intro _ _; exact hthr
      · intro _; exact hthr
      · intro _; exact .inr ⟨w, by simp⟩
      · intro h; exact absurd hthr h
      · intro w' h; exact I.doneN w' (hne _ _ h (by simp))
      · intro w' h; exact I.testN w' (hne _ _ h (by simp))
      · intro w' e' h; exact I.bodyN w' e' (hne _ _ h (by simp))
    · rw [if_neg ht]
      have hsub : ∀ w' x, x ∈ held N (Function.update s.pc w (Pc.test next) w') →
          x ∈ held N (s.pc w') ∧ x ≠ e := by
        intro w' x
        by_cases hw : w' = w
        · subst hw
          simp only [Function.update_self, hpc, held]
          split
          · rename_i hlt'; simp only [hlt', if_true] at hnd
            intro hx; simp at hx hnd; subst hx; exact ⟨by simp, fun h => hnd h.symm⟩
          · simp
        · simp only [Function.update_of_ne hw]
          intro hx
          refine ⟨hx, ?_⟩
          rintro rfl
          exact I.heldDisj w' w hw x hx (by simp [hpc, held])
      have hne : ∀ w' p, Function.update s.pc w (Pc.test next) w' = p → (∀ e, p ≠ .test e) → s.pc w' = p := by
        intro w' p h1 h2
        by_cases hw : w' = w
        · subst hw; simp at h1; exact absurd h1.symm (h2 _)
        · simpa [Function.update_of_ne hw] using h1
      have hthr : hasThrown (s.log ++ [Event.visited w e (interior e)]) ↔ hasThrown s.log := by
        simp [hasThrown]
      have e1 : handedOf [(Event.visited w e (interior e) : Event n)] = [] := by simp [handedOf]
      have e2 : visitedOf [(Event.visited w e (interior e) : Event n)] = [e] := by simp [visitedOf]
      have e3 : linearizedOf [(Event.visited w e (interior e) : Event n)] = [e].filter interior := by
        cases h : interior e <;> simp [linearizedOf, h]
      constructor
      · exact I.pos
      · simpa [e1] using I.handed
      · simpa using I.aborted
      · intro a b hab
        obtain ⟨b', hl, hbb⟩ := after_append hab (by simp)
        rw [hbb]; simp [I.afterAbort a b' hl, e1]
      · simp only [visitedOf_append, e2]
        rw [List.nodup_append]
        refine ⟨I.nodup, by simp, ?_⟩
        rintro x hx y hy rfl
        simp at hy; subst hy; exact hown.2 hx
      · intro x hx
        simp only [visitedOf_append, e2, handedOf_append, e1, List.append_nil, List.mem_append, List.mem_singleton] at hx ⊢
        rcases hx with hx | rfl
        · exact I.visited x hx
        · exact hown.1
      · intro w' x hx
        obtain ⟨h1, h2⟩ := hsub w' x hx
        obtain ⟨h3, h4⟩ := I.heldHanded w' x h1
        simp [e1, e2, h3, h4, h2]
      · intro w'
        by_cases hw : w' = w
        · subst hw; simp only [Function.update_self, held]; split <;> simp
        · simpa [Function.update_of_ne hw] using I.heldNodup w'
      · intro w1 w2 h x hx hx2; exact I.heldDisj w1 w2 h x (hsub _ _ hx).1 (hsub _ _ hx2).1
      · intro w' e' h
        by_cases hw : w' = w
        · subst hw; simp at h; omega
        · exact I.testLe w' e' (by simpa [Function.update_of_ne hw] using h)
      · intro w' e1 e2 h; exact I.bodyLe w' e1 e2 (hne _ _ h (by simp))
      · simp [e2, e3, I.lin]
      · simpa using I.exc
      · intro w' h; rw [hthr]; exact I.handler w' (hne _ _ h (by simp))
      · intro h; rw [hthr]; exact I.abortThrown (by simpa using h)
      · intro h
        rw [hthr] at h
        rcases I.thrown h with h | ⟨w', h⟩
        · exact .inl (by simpa using h)
        · right; refine ⟨w', ?_⟩
          have hw : w' ≠ w := by rintro rfl; simp [hpc] at h
          simpa [Function.update_of_ne hw] using h
      · intro h x hx
        rw [hthr] at h
        simp only [handedOf_append, e1, List.append_nil] at hx
        simp only [visitedOf_append, e2, List.mem_append, List.mem_singleton]
        by_cases hxe : x = e
        · exact .inl (.inr hxe)
        · rcases I.complete h x hx with h | ⟨w', h⟩
          · exact .inl (.inl h)
          · right; refine ⟨w', ?_⟩
            by_cases hw : w' = w
            · subst hw
              simp only [hpc, held, List.mem_cons, hxe, false_or] at h
              simpa [held] using h
            · simpa only [Function.update_of_ne hw] using h
      · intro w' h; exact I.doneN w' (hne _ _ h (by simp))
      · intro w' h
        by_cases hw : w' = w
        · subst hw; simp at h; subst h; exact I.bodyN w' e hpc
        · exact I.testN w' (by simpa [Function.update_of_ne hw] using h)
      · intro w' e' h; exact I.bodyN w' e' (hne _ _ h (by simp))
  · rename_i hpc
    have hthr0 := I.handler w hpc
    have e1 : handedOf [(Event.abort : Event n)] = [] := by simp [handedOf]
    have e2 : visitedOf [(Event.abort : Event n)] = [] := by simp [visitedOf]
    have e3 : linearizedOf [(Event.abort : Event n)] = [] := by simp [linearizedOf]
    have hthr : hasThrown (s.log ++ [Event.abort]) ↔ hasThrown s.log := by simp [hasThrown]
    have hupd : ∀ w', held N (Function.update s.pc w Pc.done w') = held N (s.pc w') := by
      intro w'
      by_cases hw : w' = w
      · subst hw; simp [hpc, held]
      · simp [Function.update_of_ne hw]
    have hne : ∀ w' p, Function.update s.pc w Pc.done w' = p → p ≠ .done → s.pc w' = p := by
      intro w' p h1 h2
      by_cases hw : w' = w
      · subst hw; simp at h1; exact absurd h1.symm h2
      · simpa [Function.update_of_ne hw] using h1
    obtain ⟨h, hle, hh, heq⟩ := I.handed
    have hpos := I.pos
    constructor
    · simp
    · exact ⟨h, by simp only; omega, by simp [hh, e1], by simp⟩
    · simp
    · intro a b hab
      by_cases hb : b = []
      · subst hb; simp [handedOf]
      · have : ∃ b', b = b' ++ [Event.abort] ∧ s.log = a ++ Event.abort :: b' := by
          obtain ⟨b', x, rfl⟩ : ∃ b' x, b = b' ++ [x] := ⟨b.dropLast, b.getLast hb, (List.dropLast_append_getLast hb).symm⟩
          simp only [← List.cons_append, ← List.append_assoc] at hab
          have := List.append_inj' hab rfl
          exact ⟨b', by rw [← this.2], by simpa using this.1⟩
        obtain ⟨b', rfl, hl⟩ := this
        simp [I.afterAbort a b' hl, e1]
    · simpa [e2] using I.nodup
    · simpa [e1, e2] using I.visited
    · intro w' x hx; simp only [hupd] at hx; simpa [e1, e2] using I.heldHanded w' x hx
    · intro w'; simp only [hupd]; exact I.heldNodup w'
    · intro w1 w2; simp only [hupd]; exact I.heldDisj w1 w2
    · intro w' e' h; exact I.testLe w' e' (hne _ _ h (by simp))
    · intro w' e1 e2 h; exact I.bodyLe w' e1 e2 (hne _ _ h (by simp))
    · simpa [e2, e3] using I.lin
    · simp
    · intro _ _; rw [hthr]; exact hthr0
    · intro _; rw [hthr]; exact hthr0
    · intro _; exact .inl (by simp)
    · intro h; rw [hthr] at h; exact absurd hthr0 h
    · simp
    · simp
    · simp
  · exact I

theorem inv_exec {N : ℕ} {interior : ℕ → Bool} (as : List (Fin n × Bool)) :
    ∀ s : State n, Inv N interior s → Inv N interior (exec N interior s as) := by
  induction as with
  | nil => intro s h; exact h
  | cons a as ih => intro s h; exact ih _ (inv_step h a.1 a.2)

end Verif.EntityIter
