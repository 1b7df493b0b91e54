import Verif.Mpi.Rounds
import Mathlib.Data.Sum.Order

/-
Programs made of several parts, each of which neither deadlocks nor depends on the schedule: the same is true of the whole, even
though a process may be in a later part while others are still in an earlier one.
-/

set_option autoImplicit false
set_option linter.unusedSectionVars false

namespace Verif.Mpi

variable {I S M T : Type} [DecidableEq I] [LinearOrder T]

/-- The programs, started in the states `σ`, come to an end in the states `τ`, in whatever order messages are sent and
received: there are annotations for them (`Good`) with these final states. -/
def Settles (prog : I → List (Op I S M)) (σ τ : I → S) : Prop :=
  ∃ (T : Type) (_ : LinearOrder T) (A : I → List (Ann I S M T)), Good A σ (fun _ _ => []) ∧
    (∀ p, (A p).map (·.op) = prog p) ∧ ∀ p, result (σ p) (A p) = τ p

theorem Settles.correct [Finite I] {prog : I → List (Op I S M)} {σ τ : I → S} (h : Settles prog σ τ) (s : System I S M)
    (hr : Reach (start prog σ) s) : (Finished s → ∀ p, s.state p = τ p) ∧ (¬Finished s → ∃ t, Step true s t) := by
  obtain ⟨T, _, A, hg, hp, ht⟩ := h
  have e : prog = fun p => (A p).map (·.op) := by funext p; exact (hp p).symm
  rw [e] at hr
  obtain ⟨h1, h2⟩ := Mpi.correct A σ hg s hr
  exact ⟨fun hf p => (h1 hf p).trans (ht p), h2⟩

theorem Settles.can_finish [Fintype I] {prog : I → List (Op I S M)} {σ τ : I → S} (h : Settles prog σ τ) (s : System I S M)
    (hr : Reach (start prog σ) s) : ∃ t, Relation.ReflTransGen (Step true) s t ∧ Finished t := by
  obtain ⟨T, _, A, hg, hp, ht⟩ := h
  have e : prog = fun p => (A p).map (·.op) := by funext p; exact (hp p).symm
  rw [e] at hr
  exact Mpi.can_finish A σ hg s hr

/-- There is a final system, and it can be reached. -/
theorem Settles.exists_finished [Fintype I] {prog : I → List (Op I S M)} {σ τ : I → S} (h : Settles prog σ τ) :
    ∃ s, Reach (start prog σ) s ∧ Finished s ∧ s.state = τ := by
  obtain ⟨t, ht, hf⟩ := h.can_finish (start prog σ) Relation.ReflTransGen.refl
  have hr : Reach (start prog σ) t := by
    clear hf
    induction ht with
    | refl => exact Relation.ReflTransGen.refl
    | tail _ hs ih => exact ih.tail ⟨_, hs⟩
  exact ⟨t, hr, hf, funext ((h.correct t hr).1 hf)⟩

/-- Final states are unique. -/
theorem Settles.unique [Fintype I] {prog : I → List (Op I S M)} {σ τ τ' : I → S} (h : Settles prog σ τ)
    (h' : Settles prog σ τ') : τ = τ' := by
  obtain ⟨s, hr, hf, hs⟩ := h.exists_finished
  rw [← hs]
  exact funext ((h'.correct s hr).1 hf)

/-! ### Changing the numbers -/

/-- The same operation with another number. -/
def Ann.retime {T' : Type} (f : T → T') (a : Ann I S M T) : Ann I S M T' := ⟨a.op, f a.time, a.msg⟩

variable {T' : Type} [LinearOrder T']

theorem sendsTo_retime (f : T → T') (q : I) (l : List (Ann I S M T)) :
    sendsTo q (l.map (Ann.retime f)) = (sendsTo q l).map fun x => (x.1, f x.2.1, x.2.2) := by
  induction l with
  | nil => rfl
  | cons a r ih =>
    rw [List.map_cons, sendsTo, sendsTo]
    cases h : a.op <;> simp only [Ann.retime, h] <;> (try split_ifs) <;> simp [← ih]

theorem recvsFrom_retime (f : T → T') (p : I) (l : List (Ann I S M T)) :
    recvsFrom p (l.map (Ann.retime f)) = (recvsFrom p l).map fun x => (f x.1, x.2) := by
  induction l with
  | nil => rfl
  | cons a r ih =>
    rw [List.map_cons, recvsFrom, recvsFrom]
    cases h : a.op <;> simp only [Ann.retime, h] <;> (try split_ifs) <;> simp [← ih]

theorem consistent_retime (f : T → T') (s : S) (l : List (Ann I S M T)) :
    Consistent s (l.map (Ann.retime f)) ↔ Consistent s l := by
  induction l generalizing s with
  | nil => rfl
  | cons a r ih =>
    rw [List.map_cons, Consistent, Consistent]
    cases h : a.op <;> simp only [Ann.retime, h] <;> simp only [← ih]

theorem result_retime (f : T → T') (s : S) (l : List (Ann I S M T)) : result s (l.map (Ann.retime f)) = result s l := by
  induction l generalizing s with
  | nil => rfl
  | cons a r ih =>
    rw [List.map_cons, result, result]
    cases h : a.op <;> simp only [Ann.retime, h] <;> exact ih _

/-- Later receives do not matter, and earlier ones have smaller numbers. -/
theorem waitsOk_retime (f : T → T') (q : I) (R : List (T × M)) (pre post : List (T' × M)) (l : List (Ann I S M T)) (c : ℕ)
    (hf : ∀ a b, a < b → f a < f b) (hpre : ∀ y ∈ pre, ∀ a ∈ l, y.1 < f a.time)
    (hc : c + (sendsTo q l).length ≤ R.length) (h : WaitsOk q R c l) :
    WaitsOk q (pre ++ (R.map fun x => (f x.1, x.2)) ++ post) (pre.length + c) (l.map (Ann.retime f)) := by
  induction l generalizing c with
  | nil => trivial
  | cons a r ih =>
    have hpre' : ∀ y ∈ pre, ∀ b ∈ r, y.1 < f b.time := fun y hy b hb => hpre y hy b (List.mem_cons_of_mem _ hb)
    rw [List.map_cons, WaitsOk]
    rw [WaitsOk] at h
    rw [sendsTo] at hc
    cases ho : a.op with
    | compute g => simp only [Ann.retime, ho] at h hc ⊢; exact ih c hpre' hc h
    | recv so g => simp only [Ann.retime, ho] at h hc ⊢; exact ih c hpre' hc h
    | isend d g =>
      simp only [Ann.retime, ho] at h hc ⊢
      split_ifs at h hc ⊢
      · rw [Nat.add_assoc]; exact ih (c + 1) hpre' (by simp at hc; omega) h
      · exact ih c hpre' hc h
    | send d g =>
      simp only [Ann.retime, ho] at h hc ⊢
      split_ifs at h hc ⊢
      · rw [Nat.add_assoc]; exact ih (c + 1) hpre' (by simp at hc; omega) h
      · exact ih c hpre' hc h
    | wait d =>
      simp only [Ann.retime, ho] at h hc ⊢
      refine ⟨fun hd y hy => ?_, ih c hpre' hc h.2⟩
      have e : (pre ++ (R.map fun x => (f x.1, x.2)) ++ post).take (pre.length + c) =
          pre ++ (R.take c).map fun x => (f x.1, x.2) := by
        rw [List.append_assoc, List.take_length_add_append, List.take_append_of_le_length (by simp; omega), List.map_take]
      rw [e] at hy
      rcases List.mem_append.1 hy with hy | hy
      · exact hpre y hy a (by simp)
      · obtain ⟨x, hx, rfl⟩ := List.mem_map.1 hy
        exact hf _ _ (h.1 hd x hx)

theorem waitsOk_append' (q : I) (R : List (T × M)) (c : ℕ) (l l' : List (Ann I S M T)) :
    WaitsOk q R c (l ++ l') ↔ WaitsOk q R c l ∧ WaitsOk q R (c + (sendsTo q l).length) l' := by
  induction l generalizing c with
  | nil => simp [WaitsOk, sendsTo]
  | cons a l ih =>
    rw [List.cons_append, WaitsOk, WaitsOk, sendsTo]
    cases ho : a.op with
    | compute f => simp only [ih]
    | isend dest f => simp only; split_ifs <;> rw [ih] <;> simp [Nat.add_assoc, Nat.add_comm 1]
    | send dest f => simp only; split_ifs <;> rw [ih] <;> simp [Nat.add_assoc, Nat.add_comm 1]
    | recv so g => simp only [ih]
    | wait dest => simp only [ih, and_assoc]

/-! ### One part after another -/

theorem Good.append {A : I → List (Ann I S M T)} {B : I → List (Ann I S M T')} {σ : I → S}
    (hA : Good A σ (fun _ _ => [])) (hB : Good B (fun p => result (σ p) (A p)) (fun _ _ => [])) :
    Good (fun p => (A p).map (Ann.retime (fun t => toLex (Sum.inl t : T ⊕ T'))) ++
      (B p).map (Ann.retime (fun t => toLex (Sum.inr t : T ⊕ T')))) σ (fun _ _ => []) := by
  have hlenA : ∀ p q, (sendsTo q (A p)).length = (recvsFrom p (A q)).length := by
    intro p q
    have := congrArg List.length (hA.messages p q)
    simpa using this
  have hlenB : ∀ p q, (sendsTo q (B p)).length = (recvsFrom p (B q)).length := by
    intro p q
    have := congrArg List.length (hB.messages p q)
    simpa using this
  have hS : ∀ p q, sendsTo q ((A p).map (Ann.retime (fun t => toLex (Sum.inl t : T ⊕ T'))) ++
      (B p).map (Ann.retime (fun t => toLex (Sum.inr t : T ⊕ T')))) =
      ((sendsTo q (A p)).map fun x => (x.1, toLex (Sum.inl x.2.1 : T ⊕ T'), x.2.2)) ++
        ((sendsTo q (B p)).map fun x => (x.1, toLex (Sum.inr x.2.1 : T ⊕ T'), x.2.2)) := by
    intro p q
    rw [sendsTo_eq, List.filterMap_append, ← sendsTo_eq, ← sendsTo_eq, sendsTo_retime, sendsTo_retime]
  have hR : ∀ p q, recvsFrom p ((A q).map (Ann.retime (fun t => toLex (Sum.inl t : T ⊕ T'))) ++
      (B q).map (Ann.retime (fun t => toLex (Sum.inr t : T ⊕ T')))) =
      ((recvsFrom p (A q)).map fun x => (toLex (Sum.inl x.1 : T ⊕ T'), x.2)) ++
        ((recvsFrom p (B q)).map fun x => (toLex (Sum.inr x.1 : T ⊕ T'), x.2)) := by
    intro p q
    rw [recvsFrom_eq, List.filterMap_append, ← recvsFrom_eq, ← recvsFrom_eq, recvsFrom_retime, recvsFrom_retime]
  constructor
  · intro p
    rw [List.pairwise_append, List.pairwise_map, List.pairwise_map]
    refine ⟨(hA.sorted p).imp ?_, (hB.sorted p).imp ?_, ?_⟩
    · intro a b h; exact Sum.Lex.inl_lt_inl_iff.2 h
    · intro a b h; exact Sum.Lex.inr_lt_inr_iff.2 h
    · intro a ha b hb
      obtain ⟨a, -, rfl⟩ := List.mem_map.1 ha
      obtain ⟨b, -, rfl⟩ := List.mem_map.1 hb
      exact Sum.Lex.inl_lt_inr _ _
  · intro p
    rw [consistent_append, consistent_retime, consistent_retime, result_retime]
    exact ⟨hA.consistent p, hB.consistent p⟩
  · intro p q
    have h1 := hA.messages p q
    have h2 := hB.messages p q
    rw [List.nil_append] at h1 h2 ⊢
    rw [hS, hR, List.map_append, List.map_append]
    simp only [List.map_map, Function.comp_def]
    rw [← h1, ← h2]
  · intro p q
    have h1 := hA.pairs p q
    have h2 := hB.pairs p q
    rw [List.length_nil, List.drop_zero] at h1 h2 ⊢
    rw [hS, hR]
    refine List.rel_append ?_ ?_
    · rw [List.forall₂_map_left_iff, List.forall₂_map_right_iff]
      refine h1.imp ?_
      rintro x y ⟨h, h'⟩
      exact ⟨Sum.Lex.inl_le_inl_iff.2 h, fun hx => by simp [h' hx]⟩
    · rw [List.forall₂_map_left_iff, List.forall₂_map_right_iff]
      refine h2.imp ?_
      rintro x y ⟨h, h'⟩
      exact ⟨Sum.Lex.inr_le_inr_iff.2 h, fun hx => by simp [h' hx]⟩
  · intro p q
    rw [hR, waitsOk_append']
    have hwA := hA.waits p q
    have hwB := hB.waits p q
    rw [List.length_nil] at hwA hwB
    constructor
    · have := waitsOk_retime (fun t => toLex (Sum.inl t : T ⊕ T')) q _ []
        ((recvsFrom p (B q)).map fun x => (toLex (Sum.inr x.1 : T ⊕ T'), x.2)) (A p) 0
        (fun a b h => Sum.Lex.inl_lt_inl_iff.2 h) (by simp) (by rw [hlenA]; omega) hwA
      simpa using this
    · have := waitsOk_retime (fun t => toLex (Sum.inr t : T ⊕ T')) q _
        ((recvsFrom p (A q)).map fun x => (toLex (Sum.inl x.1 : T ⊕ T'), x.2)) [] (B p) 0
        (fun a b h => Sum.Lex.inr_lt_inr_iff.2 h) (by
          intro y hy a _
          obtain ⟨x, -, rfl⟩ := List.mem_map.1 hy
          exact Sum.Lex.inl_lt_inr _ _) (by rw [hlenB]; omega) hwB
      rw [sendsTo_retime, List.length_map, List.length_nil, Nat.zero_add, hlenA]
      simpa using this
  · intro p
    unfold NoSelf
    rw [hS, hA.noSelf p, hB.noSelf p]
    rfl

variable {prog prog' : I → List (Op I S M)} {σ τ υ : I → S}

/-- One part after another -/
theorem Settles.append (h : Settles prog σ τ) (h' : Settles prog' τ υ) : Settles (fun p => prog p ++ prog' p) σ υ := by
  obtain ⟨T, _, A, hA, pA, rA⟩ := h
  obtain ⟨T', _, B, hB, pB, rB⟩ := h'
  have e : τ = fun p => result (σ p) (A p) := funext fun p => (rA p).symm
  rw [e] at hB
  refine ⟨T ⊕ₗ T', inferInstance, _, Good.append hA hB, fun p => ?_, fun p => ?_⟩
  · simp only [List.map_append, List.map_map, ← pA, ← pB]
    rfl
  · rw [result_append, result_retime, result_retime, rA, rB]

/-- Nothing to do -/
theorem Settles.nil : Settles (M := M) (fun _ => []) σ σ :=
  ⟨ℕ, inferInstance, fun _ => [], ⟨fun _ => List.Pairwise.nil, fun _ => trivial, fun _ _ => rfl, fun _ _ => List.Forall₂.nil,
    fun _ _ => trivial, fun _ => rfl⟩, fun _ => rfl, fun _ => rfl⟩

/-- A computation of each process -/
theorem Settles.compute [Nonempty M] (f : I → S → S) : Settles (M := M) (fun p => [.compute (f p)]) σ (fun p => f p (σ p)) :=
  ⟨ℕ, inferInstance, fun p => [⟨.compute (f p), 0, Classical.arbitrary M⟩], ⟨fun _ => List.pairwise_singleton _ _,
    fun _ => trivial, fun _ _ => rfl, fun _ _ => List.Forall₂.nil, fun _ _ => trivial, fun _ => rfl⟩, fun _ => rfl, fun _ => rfl⟩

/-- Rounds of messages -/
theorem Settles.rounds {peers : I → List I} (h : ∀ p, (peers p).Nodup) (hsym : ∀ p q, q ∈ peers p ↔ p ∈ peers q)
    (hself : ∀ p, p ∉ peers p) (rs : List (Round I S M)) : Settles (program peers rs) σ (runRounds peers σ rs) :=
  ⟨RoundTime, inferInstance, annRounds peers rs 0 σ, annRounds_good peers h hsym hself rs σ,
    fun p => annRounds_op peers rs 0 σ p, fun p => annRounds_result peers rs 0 σ p⟩

/-! ### Parts which use only a part of the state and some of the messages -/

/-- An operation of a process whose state and messages are parts of a larger state and larger type of messages.  Other messages
are ignored. -/
def Op.lift {S' M' : Type} (get : S' → S) (put : S → S' → S') (wrap : M → M') (unwrap : M' → Option M) :
    Op I S M → Op I S' M'
  | .compute f => .compute fun s => put (f (get s)) s
  | .isend d f => .isend d fun s => wrap (f (get s))
  | .send d f => .send d fun s => wrap (f (get s))
  | .recv q g => .recv q fun m s => (unwrap m).elim s fun m => put (g m (get s)) s
  | .wait d => .wait d

section Lift

variable {S' M' : Type} {get : S' → S} {put : S → S' → S'} {wrap : M → M'} {unwrap : M' → Option M}

def Ann.lift (get : S' → S) (put : S → S' → S') (wrap : M → M') (unwrap : M' → Option M) (a : Ann I S M T) : Ann I S' M' T :=
  ⟨a.op.lift get put wrap unwrap, a.time, wrap a.msg⟩

theorem sendsTo_lift (q : I) (l : List (Ann I S M T)) :
    sendsTo q (l.map (Ann.lift get put wrap unwrap)) = (sendsTo q l).map fun x => (x.1, x.2.1, wrap x.2.2) := by
  induction l with
  | nil => rfl
  | cons a r ih =>
    rw [List.map_cons, sendsTo, sendsTo]
    cases h : a.op <;> simp only [Ann.lift, Op.lift, h] <;> (try split_ifs) <;> simp [← ih]

theorem recvsFrom_lift (p : I) (l : List (Ann I S M T)) :
    recvsFrom p (l.map (Ann.lift get put wrap unwrap)) = (recvsFrom p l).map fun x => (x.1, wrap x.2) := by
  induction l with
  | nil => rfl
  | cons a r ih =>
    rw [List.map_cons, recvsFrom, recvsFrom]
    cases h : a.op <;> simp only [Ann.lift, Op.lift, h] <;> (try split_ifs) <;> simp [← ih]

theorem waitsOk_lift (q : I) (R : List (T × M)) (c : ℕ) (l : List (Ann I S M T)) :
    WaitsOk q (R.map fun x => (x.1, wrap x.2)) c (l.map (Ann.lift get put wrap unwrap)) ↔ WaitsOk q R c l := by
  induction l generalizing c with
  | nil => rfl
  | cons a r ih =>
    rw [List.map_cons, WaitsOk, WaitsOk]
    cases h : a.op with
    | wait d =>
      simp only [Ann.lift, Op.lift, h]
      rw [← List.map_take, ← ih]
      refine and_congr (imp_congr_right fun _ => ⟨fun H y hy => ?_, fun H y hy => ?_⟩) Iff.rfl
      · exact H _ (List.mem_map_of_mem hy)
      · obtain ⟨x, hx, rfl⟩ := List.mem_map.1 hy
        exact H x hx
    | _ => simp only [Ann.lift, Op.lift, h] <;> (try split_ifs) <;> simp [← ih]

theorem consistent_lift (hget : ∀ s s', get (put s s') = s) (hw : ∀ m, unwrap (wrap m) = some m) (s' : S')
    (l : List (Ann I S M T)) (h : Consistent (get s') l) : Consistent s' (l.map (Ann.lift get put wrap unwrap)) := by
  induction l generalizing s' with
  | nil => trivial
  | cons a r ih =>
    rw [List.map_cons, Consistent]
    rw [Consistent] at h
    cases ho : a.op <;> simp only [Ann.lift, Op.lift, ho] at h ⊢
    · exact ih _ (by rwa [hget])
    · exact ⟨by rw [h.1], ih _ h.2⟩
    · exact ⟨by rw [h.1], ih _ h.2⟩
    · rw [hw]; exact ih _ (by rw [Option.elim_some, hget]; exact h)
    · exact ih _ h

theorem result_lift (hget : ∀ s s', get (put s s') = s) (hput : ∀ s t s', put s (put t s') = put s s')
    (hself : ∀ s', put (get s') s' = s') (hw : ∀ m, unwrap (wrap m) = some m) (s' : S') (l : List (Ann I S M T)) :
    result s' (l.map (Ann.lift get put wrap unwrap)) = put (result (get s') l) s' := by
  induction l generalizing s' with
  | nil => exact (hself s').symm
  | cons a r ih =>
    rw [List.map_cons, result, result]
    cases ho : a.op <;> simp only [Ann.lift, Op.lift, ho]
    · rw [ih, hget, hput]
    · exact ih _
    · exact ih _
    · rw [hw, Option.elim_some, ih, hget, hput]
    · exact ih _

/-- The same programs with a larger state, of which they use a part, and more kinds of messages. -/
theorem Settles.lift (hget : ∀ s s', get (put s s') = s) (hput : ∀ s t s', put s (put t s') = put s s')
    (hself : ∀ s', put (get s') s' = s') (hw : ∀ m, unwrap (wrap m) = some m) {σ' : I → S'}
    (h : Settles prog (fun p => get (σ' p)) τ) :
    Settles (fun p => (prog p).map (Op.lift get put wrap unwrap)) σ' (fun p => put (τ p) (σ' p)) := by
  obtain ⟨T, _, A, hA, pA, rA⟩ := h
  refine ⟨T, inferInstance, fun p => (A p).map (Ann.lift get put wrap unwrap), ?_, fun p => ?_, fun p => ?_⟩
  · constructor
    · intro p
      rw [List.pairwise_map]
      exact hA.sorted p
    · intro p
      exact consistent_lift hget hw _ _ (hA.consistent p)
    · intro p q
      have := hA.messages p q
      rw [List.nil_append] at this ⊢
      rw [sendsTo_lift, recvsFrom_lift, List.map_map, List.map_map]
      have h2 := congrArg (List.map wrap) this
      rw [List.map_map, List.map_map] at h2
      exact h2
    · intro p q
      have := hA.pairs p q
      rw [List.length_nil, List.drop_zero] at this ⊢
      rw [sendsTo_lift, recvsFrom_lift, List.forall₂_map_left_iff, List.forall₂_map_right_iff]
      exact this.imp fun x y hxy => hxy
    · intro p q
      rw [recvsFrom_lift, waitsOk_lift]
      exact hA.waits p q
    · intro p
      unfold NoSelf
      rw [sendsTo_lift, hA.noSelf p]
      rfl
  · simp only [← pA, List.map_map]
    rfl
  · rw [result_lift hget hput hself hw, rA]

end Lift

end Verif.Mpi
