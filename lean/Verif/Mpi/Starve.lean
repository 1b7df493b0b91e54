import Verif.Mpi.Lemmas
import Mathlib.Tactic.Linarith

/-
Processes which wait for more messages than are sent never come to an end.
-/

set_option autoImplicit false
set_option linter.unusedSectionVars false

namespace Verif.Mpi

variable {I S M : Type} [DecidableEq I]

/-- Whether an operation sends to `q` -/
def Op.isSendTo (q : I) : Op I S M → Bool
  | .isend d _ => decide (d = q)
  | .send d _ => decide (d = q)
  | _ => false

/-- Whether an operation receives from `p` -/
def Op.isRecvFrom (p : I) : Op I S M → Bool
  | .recv a _ => decide (a = p)
  | _ => false

/-- How many messages are sent to `q` -/
def numSends (q : I) (l : List (Op I S M)) : ℕ := l.countP (Op.isSendTo q)

/-- How many messages are received from `p` -/
def numRecvs (p : I) (l : List (Op I S M)) : ℕ := l.countP (Op.isRecvFrom p)

theorem numSends_cons (q : I) (o : Op I S M) (l : List (Op I S M)) :
    numSends q (o :: l) = numSends q l + if o.isSendTo q then 1 else 0 := by
  unfold numSends
  rw [List.countP_cons]

theorem numRecvs_cons (q : I) (o : Op I S M) (l : List (Op I S M)) :
    numRecvs q (o :: l) = numRecvs q l + if o.isRecvFrom q then 1 else 0 := by
  unfold numRecvs
  rw [List.countP_cons]

/-- Messages on the way from `p` to `q` plus those to be sent plus `k` are as many as those which will be received. -/
def Balance (p q : I) (k : ℕ) (s : System I S M) : Prop :=
  numSends q (s.rest p) + (s.chan p q).length + k = numRecvs p (s.rest q)

theorem numSends_update (f : I → List (Op I S M)) {a : I} {o : Op I S M} {r : List (Op I S M)} (h : f a = o :: r) (p q : I) :
    numSends q (f p) = numSends q (Function.update f a r p) + if p = a ∧ o.isSendTo q then 1 else 0 := by
  by_cases hp : p = a
  · subst hp; rw [h, Function.update_self, numSends_cons]; simp
  · rw [Function.update_of_ne hp]; simp [hp]

theorem numRecvs_update (f : I → List (Op I S M)) {a : I} {o : Op I S M} {r : List (Op I S M)} (h : f a = o :: r) (p q : I) :
    numRecvs p (f q) = numRecvs p (Function.update f a r q) + if q = a ∧ o.isRecvFrom p then 1 else 0 := by
  by_cases hp : q = a
  · subst hp; rw [h, Function.update_self, numRecvs_cons]; simp
  · rw [Function.update_of_ne hp]; simp [hp]

theorem length_setChan (c : I → I → List M) (a b : I) (l : List M) (p q : I) :
    (setChan c a b l p q).length = if p = a ∧ q = b then l.length else (c p q).length := by
  split_ifs with h
  · obtain ⟨rfl, rfl⟩ := h; rw [setChan_self]
  · rw [setChan_of_ne _ _ _ _ h]

theorem balance_step {p q : I} {k : ℕ} {s t : System I S M} (h : Next s t) (hb : Balance p q k s) : Balance p q k t := by
  obtain ⟨b, h⟩ := h
  unfold Balance at hb ⊢
  cases h with
  | compute _ a f r h =>
    have h1 := numSends_update s.rest h p q
    have h2 := numRecvs_update s.rest h p q
    simp [Op.isSendTo, Op.isRecvFrom] at h1 h2
    simp only; omega
  | isend _ a c f r h =>
    have h1 := numSends_update s.rest h p q
    have h2 := numRecvs_update s.rest h p q
    simp only [Op.isSendTo, Op.isRecvFrom, decide_eq_true_eq, Bool.false_eq_true, and_false, if_false] at h1 h2
    simp only [length_setChan]
    by_cases hc : p = a ∧ q = c
    · obtain ⟨rfl, rfl⟩ := hc
      simp at h1 ⊢; omega
    · have : ¬(p = a ∧ c = q) := fun h => hc ⟨h.1, h.2.symm⟩
      rw [if_neg hc]; rw [if_neg this] at h1; omega
  | buffered _ a c f r h =>
    have h1 := numSends_update s.rest h p q
    have h2 := numRecvs_update s.rest h p q
    simp only [Op.isSendTo, Op.isRecvFrom, decide_eq_true_eq, Bool.false_eq_true, and_false, if_false] at h1 h2
    simp only [length_setChan]
    by_cases hc : p = a ∧ q = c
    · obtain ⟨rfl, rfl⟩ := hc
      simp at h1 ⊢; omega
    · have : ¬(p = a ∧ c = q) := fun h => hc ⟨h.1, h.2.symm⟩
      rw [if_neg hc]; rw [if_neg this] at h1; omega
  | rendezvous _ a c f g r r' hac h h' hc =>
    have h1 := numSends_update s.rest h p q
    have h2 := numRecvs_update s.rest h p q
    have hne : Function.update s.rest a r c = .recv a g :: r' := by rw [Function.update_of_ne hac.symm]; exact h'
    have h3 := numSends_update (Function.update s.rest a r) hne p q
    have h4 := numRecvs_update (Function.update s.rest a r) hne p q
    simp only [Op.isSendTo, Op.isRecvFrom, decide_eq_true_eq, Bool.false_eq_true, and_false, if_false] at h1 h2 h3 h4
    simp only
    by_cases hx : p = a ∧ q = c
    · obtain ⟨rfl, rfl⟩ := hx
      rw [if_pos ⟨rfl, rfl⟩] at h1 h4; omega
    · have e1 : ¬(p = a ∧ c = q) := fun h => hx ⟨h.1, h.2.symm⟩
      have e2 : ¬(q = c ∧ a = p) := fun h => hx ⟨h.2.symm, h.1⟩
      rw [if_neg e1] at h1
      rw [if_neg e2] at h4
      omega
  | recv _ a c g r m l h hc =>
    have h1 := numSends_update s.rest h p q
    have h2 := numRecvs_update s.rest h p q
    simp only [Op.isSendTo, Op.isRecvFrom, decide_eq_true_eq, Bool.false_eq_true, and_false, if_false] at h1 h2
    simp only [length_setChan]
    by_cases hx : p = a ∧ q = c
    · obtain ⟨rfl, rfl⟩ := hx
      rw [hc] at hb
      simp at h2 hb ⊢; omega
    · have e2 : ¬(q = c ∧ a = p) := fun h => hx ⟨h.2.symm, h.1⟩
      rw [if_neg hx]; rw [if_neg e2] at h2; omega
  | waitEarly _ a c r h =>
    have h1 := numSends_update s.rest h p q
    have h2 := numRecvs_update s.rest h p q
    simp [Op.isSendTo, Op.isRecvFrom] at h1 h2
    simp only; omega
  | wait _ a c r h hc =>
    have h1 := numSends_update s.rest h p q
    have h2 := numRecvs_update s.rest h p q
    simp [Op.isSendTo, Op.isRecvFrom] at h1 h2
    simp only; omega

/-- If a process sends fewer messages to another than this one waits for, no execution comes to an end. -/
theorem starved {prog : I → List (Op I S M)} {init : I → S} {p q : I} (h : numSends q (prog p) < numRecvs p (prog q))
    (s : System I S M) (hr : Reach (start prog init) s) : ¬Finished s := by
  have h0 : Balance p q (numRecvs p (prog q) - numSends q (prog p)) (start prog init) := by
    unfold Balance start; simp; omega
  have hb : Balance p q (numRecvs p (prog q) - numSends q (prog p)) s := by
    induction hr with
    | refl => exact h0
    | tail _ hs ih => exact balance_step hs ih
  intro hf
  unfold Balance at hb
  rw [hf p, hf q] at hb
  simp [numSends, numRecvs] at hb
  unfold numSends numRecvs at h
  omega

/-- Every execution can be continued until nothing can be done any more. -/
theorem exists_stuck [Fintype I] (s : System I S M) : ∃ t, Reach s t ∧ ∀ u, ¬Next t u := by
  induction hn : remaining s using Nat.strong_induction_on generalizing s with
  | _ n ih =>
    by_cases h : ∃ u, Next s u
    · obtain ⟨u, hu⟩ := h
      obtain ⟨t, ht, hs⟩ := ih (remaining u) (by rw [← hn]; exact remaining_lt hu) u rfl
      exact ⟨t, Relation.ReflTransGen.head hu ht, hs⟩
    · exact ⟨s, Relation.ReflTransGen.refl, fun u hu => h ⟨u, hu⟩⟩

end Verif.Mpi
