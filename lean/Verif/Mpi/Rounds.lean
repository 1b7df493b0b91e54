import Verif.Mpi.Lemmas
import Mathlib.Data.Prod.Lex
import Mathlib.Data.List.Nodup

/-
Rounds of messages: in each round every process sends a message to each of its peers with `MPI_Isend`, then receives one from
each of them, then waits until its messages have been sent.  This is how the overlapping vectors and matrices are
synchronised.
-/

set_option autoImplicit false
set_option linter.unusedSectionVars false

namespace Verif.Mpi

variable {I S M : Type} [DecidableEq I]

/-- What is sent from one process to another (`send p q` from `p` to `q`) and what is done with it (`recv q p` at `q` with the
message of `p`). -/
structure Round (I S M : Type) where
  send : I → I → S → M
  recv : I → I → M → S → S

/-- The operations of a process in one round. -/
def roundProgram (peers : I → List I) (r : Round I S M) (p : I) : List (Op I S M) :=
  (peers p).map (fun q => .isend q (r.send p q)) ++ (peers p).map (fun q => .recv q (r.recv p q)) ++
    (peers p).map (fun q => .wait q)

/-- The operations of a process in several rounds. -/
def program (peers : I → List I) (rs : List (Round I S M)) (p : I) : List (Op I S M) :=
  rs.flatMap fun r => roundProgram peers r p

/-- One round in which all processes take part at once: each gets the messages which its peers sent in the state before the
round. -/
def runRound (peers : I → List I) (σ : I → S) (r : Round I S M) : I → S :=
  fun p => (peers p).foldl (fun s q => r.recv p q (r.send q p (σ q)) s) (σ p)

/-- Several rounds. -/
def runRounds (peers : I → List I) (σ : I → S) (rs : List (Round I S M)) : I → S := rs.foldl (runRound peers) σ

/-! ### Annotations -/

abbrev RoundTime := ℕ ×ₗ ℕ

def rtime (a b : ℕ) : RoundTime := toLex (a, b)

theorem rtime_lt (a b c d : ℕ) : rtime a b < rtime c d ↔ a < c ∨ a = c ∧ b < d := by
  simp [rtime, Prod.Lex.toLex_lt_toLex]

theorem rtime_le (a b c d : ℕ) : rtime a b ≤ rtime c d ↔ a < c ∨ a = c ∧ b ≤ d := by
  simp [rtime, Prod.Lex.toLex_le_toLex]

variable (peers : I → List I)

def annSends (r : Round I S M) (n : ℕ) (σ : I → S) (p : I) : List (Ann I S M RoundTime) :=
  (peers p).map fun q => ⟨.isend q (r.send p q), rtime (3 * n) ((peers p).idxOf q), r.send p q (σ p)⟩

def annRecvs (r : Round I S M) (n : ℕ) (σ : I → S) (p : I) : List (Ann I S M RoundTime) :=
  (peers p).map fun q => ⟨.recv q (r.recv p q), rtime (3 * n + 1) ((peers p).idxOf q), r.send q p (σ q)⟩

def annWaits (r : Round I S M) (n : ℕ) (σ : I → S) (p : I) : List (Ann I S M RoundTime) :=
  (peers p).map fun q => ⟨.wait q, rtime (3 * n + 2) ((peers p).idxOf q), r.send p q (σ p)⟩

def annRounds : List (Round I S M) → ℕ → (I → S) → I → List (Ann I S M RoundTime)
  | [], _, _, _ => []
  | r :: rs, n, σ, p => annSends peers r n σ p ++ annRecvs peers r n σ p ++ annWaits peers r n σ p ++
      annRounds rs (n + 1) (runRound peers σ r) p

theorem annRounds_op (rs : List (Round I S M)) (n : ℕ) (σ : I → S) (p : I) :
    (annRounds peers rs n σ p).map (·.op) = program peers rs p := by
  induction rs generalizing n σ with
  | nil => rfl
  | cons r rs ih =>
    have e : program peers (r :: rs) p = roundProgram peers r p ++ program peers rs p := rfl
    rw [e, annRounds, List.map_append, ih]
    unfold roundProgram annSends annRecvs annWaits
    simp [Function.comp_def]

theorem annSends_result (r : Round I S M) (n : ℕ) (σ : I → S) (p : I) (s : S) : result s (annSends peers r n σ p) = s := by
  apply result_sends
  intro a ha
  obtain ⟨q, -, rfl⟩ := List.mem_map.1 ha
  exact ⟨_, _, Or.inr rfl⟩

theorem annWaits_result (r : Round I S M) (n : ℕ) (σ : I → S) (p : I) (s : S) : result s (annWaits peers r n σ p) = s := by
  apply result_waits
  intro a ha
  obtain ⟨q, -, rfl⟩ := List.mem_map.1 ha
  exact ⟨_, rfl⟩

theorem annRecvs_result (r : Round I S M) (n : ℕ) (σ : I → S) (p : I) :
    result (σ p) (annRecvs peers r n σ p) = runRound peers σ r p := by
  unfold annRecvs runRound
  have : ∀ (l : List I) (t : I → RoundTime) (s : S),
      result s (l.map fun q => (⟨.recv q (r.recv p q), t q, r.send q p (σ q)⟩ : Ann I S M RoundTime)) =
        l.foldl (fun s q => r.recv p q (r.send q p (σ q)) s) s := by
    intro l t
    induction l with
    | nil => intro s; rfl
    | cons q l ih => intro s; rw [List.map_cons, result, List.foldl_cons]; exact ih _
  exact this _ _ _

theorem annRounds_result (rs : List (Round I S M)) (n : ℕ) (σ : I → S) (p : I) :
    result (σ p) (annRounds peers rs n σ p) = runRounds peers σ rs p := by
  induction rs generalizing n σ with
  | nil => rfl
  | cons r rs ih =>
    unfold annRounds
    rw [result_append, result_append, result_append, annSends_result, annRecvs_result, annWaits_result, ih]
    rfl

theorem annRounds_consistent (rs : List (Round I S M)) (n : ℕ) (σ : I → S) (p : I) :
    Consistent (σ p) (annRounds peers rs n σ p) := by
  induction rs generalizing n σ with
  | nil => trivial
  | cons r rs ih =>
    unfold annRounds
    rw [consistent_append, consistent_append, consistent_append]
    simp only [result_append, annSends_result, annRecvs_result, annWaits_result]
    refine ⟨⟨⟨?_, ?_⟩, ?_⟩, ih _ _⟩
    · apply consistent_sends
      intro a ha
      obtain ⟨q, -, rfl⟩ := List.mem_map.1 ha
      exact ⟨_, _, Or.inr rfl, rfl⟩
    · apply consistent_no_sends
      intro a ha
      obtain ⟨q, -, rfl⟩ := List.mem_map.1 ha
      simp
    · apply consistent_no_sends
      intro a ha
      obtain ⟨q, -, rfl⟩ := List.mem_map.1 ha
      simp

/-- The messages from `p` to `q` with the numbers of their sends and receives. -/
def sendList : List (Round I S M) → ℕ → (I → S) → I → I → List (Bool × RoundTime × M)
  | [], _, _, _, _ => []
  | r :: rs, n, σ, p, q => (false, rtime (3 * n) ((peers p).idxOf q), r.send p q (σ p)) ::
      sendList rs (n + 1) (runRound peers σ r) p q

def recvList : List (Round I S M) → ℕ → (I → S) → I → I → List (RoundTime × M)
  | [], _, _, _, _ => []
  | r :: rs, n, σ, p, q => (rtime (3 * n + 1) ((peers q).idxOf p), r.send p q (σ p)) ::
      recvList rs (n + 1) (runRound peers σ r) p q

theorem filterMap_ite {α β : Type} [DecidableEq α] (l : List α) (h : l.Nodup) (x : α) (f : α → β) :
    l.filterMap (fun y => if y = x then some (f y) else none) = if x ∈ l then [f x] else [] := by
  induction l with
  | nil => simp
  | cons a r ih =>
    have h' := List.nodup_cons.1 h
    rw [List.filterMap_cons]
    by_cases hax : a = x
    · subst hax
      have : List.filterMap (fun y => if y = a then some (f y) else none) r = [] := by
        rw [ih h'.2, if_neg h'.1]
      simp [this]
    · simp [hax, Ne.symm hax, ih h'.2]

theorem sendsTo_annSends {p : I} (h : (peers p).Nodup) (r : Round I S M) (n : ℕ) (σ : I → S) (q : I) :
    sendsTo q (annSends peers r n σ p) =
      if q ∈ peers p then [(false, rtime (3 * n) ((peers p).idxOf q), r.send p q (σ p))] else [] := by
  rw [sendsTo_eq, annSends, List.filterMap_map,
    ← filterMap_ite (peers p) h q (fun q => (false, rtime (3 * n) ((peers p).idxOf q), r.send p q (σ p)))]
  congr 1

theorem sendsTo_annRecvs (r : Round I S M) (n : ℕ) (σ : I → S) (p q : I) : sendsTo q (annRecvs peers r n σ p) = [] := by
  rw [sendsTo_eq, List.filterMap_eq_nil_iff]
  intro a ha
  obtain ⟨q, -, rfl⟩ := List.mem_map.1 ha
  rfl

theorem sendsTo_annWaits (r : Round I S M) (n : ℕ) (σ : I → S) (p q : I) : sendsTo q (annWaits peers r n σ p) = [] := by
  rw [sendsTo_eq, List.filterMap_eq_nil_iff]
  intro a ha
  obtain ⟨q, -, rfl⟩ := List.mem_map.1 ha
  rfl

theorem sendsTo_append (q : I) (l l' : List (Ann I S M RoundTime)) : sendsTo q (l ++ l') = sendsTo q l ++ sendsTo q l' := by
  rw [sendsTo_eq, sendsTo_eq, sendsTo_eq, List.filterMap_append]

theorem recvsFrom_append (p : I) (l l' : List (Ann I S M RoundTime)) :
    recvsFrom p (l ++ l') = recvsFrom p l ++ recvsFrom p l' := by
  rw [recvsFrom_eq, recvsFrom_eq, recvsFrom_eq, List.filterMap_append]

theorem recvsFrom_annRecvs {q : I} (h : (peers q).Nodup) (r : Round I S M) (n : ℕ) (σ : I → S) (p : I) :
    recvsFrom p (annRecvs peers r n σ q) =
      if p ∈ peers q then [(rtime (3 * n + 1) ((peers q).idxOf p), r.send p q (σ p))] else [] := by
  rw [recvsFrom_eq, annRecvs, List.filterMap_map,
    ← filterMap_ite (peers q) h p (fun p => (rtime (3 * n + 1) ((peers q).idxOf p), r.send p q (σ p)))]
  congr 1

theorem recvsFrom_annSends (r : Round I S M) (n : ℕ) (σ : I → S) (p q : I) : recvsFrom p (annSends peers r n σ q) = [] := by
  rw [recvsFrom_eq, List.filterMap_eq_nil_iff]
  intro a ha
  obtain ⟨q, -, rfl⟩ := List.mem_map.1 ha
  rfl

theorem recvsFrom_annWaits (r : Round I S M) (n : ℕ) (σ : I → S) (p q : I) : recvsFrom p (annWaits peers r n σ q) = [] := by
  rw [recvsFrom_eq, List.filterMap_eq_nil_iff]
  intro a ha
  obtain ⟨q, -, rfl⟩ := List.mem_map.1 ha
  rfl

theorem sendsTo_annRounds (h : ∀ p, (peers p).Nodup) (rs : List (Round I S M)) (n : ℕ) (σ : I → S) (p q : I) :
    sendsTo q (annRounds peers rs n σ p) = if q ∈ peers p then sendList peers rs n σ p q else [] := by
  induction rs generalizing n σ with
  | nil => simp [annRounds, sendsTo, sendList]
  | cons r rs ih =>
    unfold annRounds
    rw [sendsTo_append, sendsTo_append, sendsTo_append, sendsTo_annSends peers (h p), sendsTo_annRecvs, sendsTo_annWaits, ih]
    split_ifs <;> simp [sendList]

theorem recvsFrom_annRounds (h : ∀ p, (peers p).Nodup) (rs : List (Round I S M)) (n : ℕ) (σ : I → S) (p q : I) :
    recvsFrom p (annRounds peers rs n σ q) = if p ∈ peers q then recvList peers rs n σ p q else [] := by
  induction rs generalizing n σ with
  | nil => simp [annRounds, recvsFrom, recvList]
  | cons r rs ih =>
    unfold annRounds
    rw [recvsFrom_append, recvsFrom_append, recvsFrom_append, recvsFrom_annRecvs peers (h q), recvsFrom_annSends,
      recvsFrom_annWaits, ih]
    split_ifs <;> simp [recvList]

theorem lists_msgs (rs : List (Round I S M)) (n : ℕ) (σ : I → S) (p q : I) :
    (sendList peers rs n σ p q).map (·.2.2) = (recvList peers rs n σ p q).map (·.2) := by
  induction rs generalizing n σ with
  | nil => rfl
  | cons r rs ih => simp [sendList, recvList, ih]

theorem lists_pairs (rs : List (Round I S M)) (n : ℕ) (σ : I → S) (p q : I) :
    List.Forall₂ Pair (sendList peers rs n σ p q) (recvList peers rs n σ p q) := by
  induction rs generalizing n σ with
  | nil => exact List.Forall₂.nil
  | cons r rs ih =>
    refine List.Forall₂.cons ⟨?_, ?_⟩ (ih _ _)
    · exact (rtime_le _ _ _ _).2 (Or.inl (by omega))
    · intro h; cases h

theorem waitsOk_append (q : I) (R : List (RoundTime × M)) (c : ℕ) (l l' : List (Ann I S M RoundTime)) :
    WaitsOk q R c (l ++ l') ↔ WaitsOk q R c l ∧ WaitsOk q R (c + (sendsTo q l).length) l' := by
  induction l generalizing c with
  | nil => simp [WaitsOk, sendsTo]
  | cons a l ih =>
    rw [List.cons_append, WaitsOk, WaitsOk, sendsTo]
    cases ho : a.op with
    | compute f => simp only [ih]
    | isend dest f => simp only; split_ifs <;> rw [ih] <;> simp [Nat.add_assoc, Nat.add_comm 1]
    | send dest f => simp only; split_ifs <;> rw [ih] <;> simp [Nat.add_assoc, Nat.add_comm 1]
    | recv so g => simp only [ih]
    | wait dest => simp only [ih, and_assoc]

theorem annRounds_waits (h : ∀ p, (peers p).Nodup) (hsym : ∀ p q, q ∈ peers p ↔ p ∈ peers q) (rs : List (Round I S M)) (n : ℕ)
    (σ : I → S) (p q : I) (pre : List (RoundTime × M)) (hpre : ∀ y ∈ pre, y.1 < rtime (3 * n) 0) :
    WaitsOk q (pre ++ recvsFrom p (annRounds peers rs n σ q)) pre.length (annRounds peers rs n σ p) := by
  rw [recvsFrom_annRounds peers h]
  by_cases hq : q ∈ peers p
  · rw [if_pos ((hsym p q).1 hq)]
    induction rs generalizing n σ pre with
    | nil => simp [annRounds, WaitsOk]
    | cons r rs ih =>
      have e : pre ++ recvList peers (r :: rs) n σ p q =
          (pre ++ [(rtime (3 * n + 1) ((peers q).idxOf p), r.send p q (σ p))]) ++
            recvList peers rs (n + 1) (runRound peers σ r) p q := by simp [recvList]
      have hpre' : ∀ y ∈ pre ++ [(rtime (3 * n + 1) ((peers q).idxOf p), r.send p q (σ p))], y.1 < rtime (3 * n + 2) 0 := by
        intro y hy
        rcases List.mem_append.1 hy with hy | hy
        · exact lt_trans (hpre y hy) ((rtime_lt _ _ _ _).2 (by omega))
        · rw [List.mem_singleton.1 hy]; exact (rtime_lt _ _ _ _).2 (by omega)
      unfold annRounds
      rw [waitsOk_append, waitsOk_append, waitsOk_append]
      simp only [sendsTo_append, sendsTo_annSends peers (h p), sendsTo_annRecvs, sendsTo_annWaits, if_pos hq, List.append_nil,
        List.length_singleton]
      refine ⟨⟨⟨?_, ?_⟩, ?_⟩, ?_⟩
      · apply waitsOk_of_no_waits
        intro a ha
        obtain ⟨q, -, rfl⟩ := List.mem_map.1 ha
        simp
      · apply waitsOk_of_no_waits
        intro a ha
        obtain ⟨q, -, rfl⟩ := List.mem_map.1 ha
        simp
      · rw [e]
        have hl : pre.length + 1 = (pre ++ [(rtime (3 * n + 1) ((peers q).idxOf p), r.send p q (σ p))]).length := by simp
        rw [hl]
        have : ∀ (l : List I) (t : I → ℕ) (m : I → M) (R : List (RoundTime × M)) (c : ℕ),
            (∀ y ∈ R.take c, y.1 < rtime (3 * n + 2) 0) → WaitsOk q R c
              (l.map fun q => (⟨.wait q, rtime (3 * n + 2) (t q), m q⟩ : Ann I S M RoundTime)) := by
          intro l t m R c hR
          induction l with
          | nil => trivial
          | cons a l ihl =>
            rw [List.map_cons, WaitsOk]
            refine ⟨fun _ y hy => lt_of_lt_of_le (hR y hy) ((rtime_le _ _ _ _).2 (Or.inr ⟨rfl, Nat.zero_le _⟩)), ihl⟩
        apply this
        rw [List.take_left]
        exact hpre'
      · rw [e]
        have hl : pre.length + 1 = (pre ++ [(rtime (3 * n + 1) ((peers q).idxOf p), r.send p q (σ p))]).length := by simp
        rw [hl]
        apply ih
        intro y hy
        exact lt_trans (hpre' y hy) ((rtime_lt _ _ _ _).2 (by omega))
  · -- no waits for `q`
    have : ∀ l : List (Ann I S M RoundTime), (∀ a ∈ l, a.op ≠ .wait q) → ∀ R c, WaitsOk q R c l := by
      intro l hl R c
      induction l generalizing c with
      | nil => trivial
      | cons a l ihl =>
        have ihl' := fun c => ihl (fun b hb => hl b (List.mem_cons_of_mem _ hb)) c
        have ha := hl a (by simp)
        rw [WaitsOk]
        split
        · split_ifs <;> exact ihl' _
        · split_ifs <;> exact ihl' _
        · rename_i dest ho
          exact ⟨fun hd => absurd (by rw [ho, hd]) ha, ihl' _⟩
        · exact ihl' _
    apply this
    intro a ha hw
    have hm : a.op ∈ program peers rs p := by rw [← annRounds_op peers rs n σ p]; exact List.mem_map_of_mem ha
    rw [hw] at hm
    simp only [program, List.mem_flatMap, roundProgram, List.mem_append, List.mem_map] at hm
    obtain ⟨r, -, (⟨x, -, hx⟩ | ⟨x, -, hx⟩) | ⟨x, hx, hx'⟩⟩ := hm
    · cases hx
    · cases hx
    · cases hx'; exact hq hx

theorem idxOf_pairwise (l : List I) (h : l.Nodup) : l.Pairwise (fun a b => l.idxOf a < l.idxOf b) := by
  rw [List.pairwise_iff_getElem]
  intro i j hi hj hij
  rw [List.Nodup.idxOf_getElem h, List.Nodup.idxOf_getElem h]
  exact hij

theorem annRounds_sorted (h : ∀ p, (peers p).Nodup) (rs : List (Round I S M)) (n : ℕ) (σ : I → S) (p : I) :
    (annRounds peers rs n σ p).Pairwise (fun a b => a.time < b.time) ∧
      ∀ a ∈ annRounds peers rs n σ p, ∃ k i, 3 * n ≤ k ∧ a.time = rtime k i := by
  induction rs generalizing n σ with
  | nil => exact ⟨List.Pairwise.nil, fun a ha => by simp [annRounds] at ha⟩
  | cons r rs ih =>
    obtain ⟨ih1, ih2⟩ := ih (n + 1) (runRound peers σ r)
    have t1 : ∀ a ∈ annSends peers r n σ p, ∃ i, a.time = rtime (3 * n) i := by
      intro a ha; obtain ⟨q, -, rfl⟩ := List.mem_map.1 ha; exact ⟨_, rfl⟩
    have t2 : ∀ a ∈ annRecvs peers r n σ p, ∃ i, a.time = rtime (3 * n + 1) i := by
      intro a ha; obtain ⟨q, -, rfl⟩ := List.mem_map.1 ha; exact ⟨_, rfl⟩
    have t3 : ∀ a ∈ annWaits peers r n σ p, ∃ i, a.time = rtime (3 * n + 2) i := by
      intro a ha; obtain ⟨q, -, rfl⟩ := List.mem_map.1 ha; exact ⟨_, rfl⟩
    have s1 : (annSends peers r n σ p).Pairwise (fun a b => a.time < b.time) := by
      unfold annSends; rw [List.pairwise_map]
      exact (idxOf_pairwise _ (h p)).imp (fun hab => (rtime_lt _ _ _ _).2 (Or.inr ⟨rfl, hab⟩))
    have s2 : (annRecvs peers r n σ p).Pairwise (fun a b => a.time < b.time) := by
      unfold annRecvs; rw [List.pairwise_map]
      exact (idxOf_pairwise _ (h p)).imp (fun hab => (rtime_lt _ _ _ _).2 (Or.inr ⟨rfl, hab⟩))
    have s3 : (annWaits peers r n σ p).Pairwise (fun a b => a.time < b.time) := by
      unfold annWaits; rw [List.pairwise_map]
      exact (idxOf_pairwise _ (h p)).imp (fun hab => (rtime_lt _ _ _ _).2 (Or.inr ⟨rfl, hab⟩))
    unfold annRounds
    constructor
    · simp only [List.pairwise_append, List.mem_append]
      refine ⟨⟨⟨s1, s2, ?_⟩, s3, ?_⟩, ih1, ?_⟩
      · intro a ha b hb
        obtain ⟨i, ha⟩ := t1 a ha; obtain ⟨j, hb⟩ := t2 b hb
        rw [ha, hb, rtime_lt]; omega
      · rintro a (ha | ha) b hb <;> obtain ⟨j, hb⟩ := t3 b hb
        · obtain ⟨i, ha⟩ := t1 a ha; rw [ha, hb, rtime_lt]; omega
        · obtain ⟨i, ha⟩ := t2 a ha; rw [ha, hb, rtime_lt]; omega
      · rintro a ((ha | ha) | ha) b hb <;> obtain ⟨k, j, hk, hb⟩ := ih2 b hb
        · obtain ⟨i, ha⟩ := t1 a ha; rw [ha, hb, rtime_lt]; omega
        · obtain ⟨i, ha⟩ := t2 a ha; rw [ha, hb, rtime_lt]; omega
        · obtain ⟨i, ha⟩ := t3 a ha; rw [ha, hb, rtime_lt]; omega
    · intro a ha
      simp only [List.mem_append] at ha
      rcases ha with ((ha | ha) | ha) | ha
      · obtain ⟨i, ha⟩ := t1 a ha; exact ⟨_, _, le_rfl, ha⟩
      · obtain ⟨i, ha⟩ := t2 a ha; exact ⟨_, _, by omega, ha⟩
      · obtain ⟨i, ha⟩ := t3 a ha; exact ⟨_, _, by omega, ha⟩
      · obtain ⟨k, i, hk, ha⟩ := ih2 a ha; exact ⟨_, _, by omega, ha⟩

theorem annRounds_good (h : ∀ p, (peers p).Nodup) (hsym : ∀ p q, q ∈ peers p ↔ p ∈ peers q) (hself : ∀ p, p ∉ peers p)
    (rs : List (Round I S M)) (σ : I → S) : Good (annRounds peers rs 0 σ) σ (fun _ _ => []) where
  sorted p := (annRounds_sorted peers h rs 0 σ p).1
  consistent p := annRounds_consistent peers rs 0 σ p
  messages p q := by
    rw [sendsTo_annRounds peers h, recvsFrom_annRounds peers h, List.nil_append]
    by_cases hq : q ∈ peers p
    · rw [if_pos hq, if_pos ((hsym p q).1 hq), lists_msgs]
    · rw [if_neg hq, if_neg (fun hp => hq ((hsym p q).2 hp))]; rfl
  pairs p q := by
    rw [sendsTo_annRounds peers h, recvsFrom_annRounds peers h, List.length_nil, List.drop_zero]
    by_cases hq : q ∈ peers p
    · rw [if_pos hq, if_pos ((hsym p q).1 hq)]; exact lists_pairs peers rs 0 σ p q
    · rw [if_neg hq, if_neg (fun hp => hq ((hsym p q).2 hp))]; exact List.Forall₂.nil
  waits p q := by
    have := annRounds_waits peers h hsym rs 0 σ p q [] (by simp)
    simpa using this
  noSelf p := by
    unfold NoSelf
    rw [sendsTo_annRounds peers h, if_neg (hself p)]

/-- If the relation of being peers is symmetric, rounds never deadlock, and in whatever order messages are sent and received the
final states are those of rounds in which all processes take part at once. -/
theorem rounds_correct [Finite I] (h : ∀ p, (peers p).Nodup) (hsym : ∀ p q, q ∈ peers p ↔ p ∈ peers q)
    (hself : ∀ p, p ∉ peers p) (rs : List (Round I S M)) (σ : I → S) (s : System I S M)
    (hr : Reach (start (program peers rs) σ) s) :
    (Finished s → ∀ p, s.state p = runRounds peers σ rs p) ∧ (¬Finished s → ∃ t, Step true s t) := by
  have e : program peers rs = fun p => (annRounds peers rs 0 σ p).map (·.op) := by
    funext p; exact (annRounds_op peers rs 0 σ p).symm
  rw [e] at hr
  obtain ⟨h1, h2⟩ := correct (annRounds peers rs 0 σ) σ (annRounds_good peers h hsym hself rs σ) s hr
  exact ⟨fun hf p => (h1 hf p).trans (annRounds_result peers rs 0 σ p), h2⟩

/-- The end can be reached from every reachable system. -/
theorem rounds_can_finish [Fintype I] (h : ∀ p, (peers p).Nodup) (hsym : ∀ p q, q ∈ peers p ↔ p ∈ peers q)
    (hself : ∀ p, p ∉ peers p) (rs : List (Round I S M)) (σ : I → S) (s : System I S M)
    (hr : Reach (start (program peers rs) σ) s) : ∃ t, Relation.ReflTransGen (Step true) s t ∧ Finished t := by
  have e : program peers rs = fun p => (annRounds peers rs 0 σ p).map (·.op) := by
    funext p; exact (annRounds_op peers rs 0 σ p).symm
  rw [e] at hr
  exact can_finish (annRounds peers rs 0 σ) σ (annRounds_good peers h hsym hself rs σ) s hr

end Verif.Mpi
