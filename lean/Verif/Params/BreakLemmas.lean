import Verif.Params.Spec

set_option autoImplicit false
namespace Verif.Params

theorem visible_append (a b : Str) : visible (a ++ b) = visible a ++ visible b := by
  simp [visible]

theorem visible_pad (n : Nat) : visible ('\n' :: List.replicate n ' ') = [] := by
  simp only [visible, List.filter_eq_nil_iff]
  intro c hc
  rcases List.mem_cons.1 hc with rfl | hc
  · decide
  · rw [List.eq_of_mem_replicate hc]; decide

/-- Invariant of the loop of `breakLines_`. -/
structure BreakInv (msg : Str) (st : BreakState) : Prop where
  start_le : st.start ≤ msg.length
  start_pos : st.start ≤ st.pos
  vis : visible st.result ++ visible (msg.drop st.start) = visible msg
  brk : st.start < st.lastBreak → (∀ c, msg[st.lastBreak]? = some c → isSpace c = true) ∧
    (st.lastBreak ≤ st.pos ∨ (st.tty = 0 ∧ st.lastBreak ≤ st.pos + 1))

theorem drop_split (msg : Str) (a n : Nat) :
    msg.drop a = (msg.drop a).take n ++ msg.drop (a + n) := by
  rw [← List.drop_drop]; exact (List.take_append_drop n (msg.drop a)).symm

theorem breakStep_inv (msg : Str) (indent width : Nat) (hw : 1 ≤ width) (st : BreakState) (c : Char)
    (hnl : ∀ i, msg[i]? = some '\n' → ∀ c, msg[i+2]? = some c → isSpace c = true)
    (hc : msg[st.pos]? = some c) (inv : BreakInv msg st) :
    ∃ st', breakStep msg indent width st c = some st' ∧ BreakInv msg st' := by
  have hpos : st.pos < msg.length := (List.getElem?_eq_some_iff.1 hc).1
  obtain ⟨i1, i2, i3, i4⟩ := inv
  unfold breakStep
  split
  · next h =>
    subst h
    simp only [substr, if_pos i1]
    refine ⟨_, rfl, ?_, ?_, ?_, ?_⟩
    · simp only; omega
    · exact Nat.le_refl _
    · simp only [visible_append, List.append_assoc]
      rw [← visible_append]
      rw [← i3]
      congr 2
      have := drop_split msg st.start (st.pos - st.start + 1)
      have e : st.start + (st.pos - st.start + 1) = st.pos + 1 := by omega
      rw [e] at this
      exact this.symm
    · intro _
      exact ⟨hnl st.pos hc, .inr ⟨rfl, Nat.le_refl _⟩⟩
  · next hnn =>
    have hlb : ∀ lb, lb = (if isSpace c = true then st.pos else st.lastBreak) → st.start < lb →
        (∀ c, msg[lb]? = some c → isSpace c = true) ∧ (lb ≤ st.pos ∨ (st.tty = 0 ∧ lb ≤ st.pos + 1)) := by
      intro lb hlb hlt
      split at hlb
      · next hsp =>
        subst hlb
        refine ⟨?_, .inl (Nat.le_refl _)⟩
        intro d hd
        rw [hc] at hd
        cases hd
        exact hsp
      · subst hlb
        exact i4 hlt
    generalize hlbdef : (if isSpace c = true then st.pos else st.lastBreak) = lb at *
    have hlb := hlb lb rfl
    dsimp only
    split
    · next htty =>
      split
      · next hlt =>
        simp only [substr, if_pos i1]
        obtain ⟨hsp, hle⟩ := hlb hlt
        have hle : lb ≤ st.pos := by
          rcases hle with h | h
          · exact h
          · omega
        refine ⟨_, rfl, ?_, ?_, ?_, ?_⟩
        · simp only; omega
        · simp only; omega
        · simp only [visible_append, visible_pad, List.append_nil, List.append_assoc]
          rw [← i3]
          congr 1
          have h1 := drop_split msg st.start (lb - st.start)
          have e : st.start + (lb - st.start) = lb := by omega
          rw [e] at h1
          conv => rhs; rw [h1, visible_append]
          have hlbl : lb < msg.length := by omega
          have h2 : msg.drop lb = msg[lb] :: msg.drop (lb + 1) := List.drop_eq_getElem_cons hlbl
          have h3 : isSpace msg[lb] = true := hsp _ (List.getElem?_eq_getElem hlbl)
          conv => rhs; rw [h2]
          have h4 : ∀ t, visible (msg[lb] :: t) = visible t := by
            intro t; simp [visible, h3]
          rw [h4]
        · simp only
          intro h; omega
      · next hlt =>
        simp only [substr, if_pos i1]
        refine ⟨_, rfl, ?_, ?_, ?_, ?_⟩
        · simp only; omega
        · simp only; omega
        · simp only [visible_append, visible_pad, List.append_nil, List.append_assoc]
          rw [← i3]
          congr 1
          have h1 := drop_split msg st.start (st.pos - st.start)
          have e : st.start + (st.pos - st.start) = st.pos := by omega
          rw [e] at h1
          conv => rhs; rw [h1, visible_append]
        · simp only
          intro h; omega
    · refine ⟨_, rfl, i1, ?_, i3, ?_⟩
      · simp only; omega
      · simp only
        intro h
        obtain ⟨ha, hb⟩ := hlb h
        refine ⟨ha, ?_⟩
        left; omega

theorem breakLoop_inv (msg : Str) (indent width : Nat) (hw : 1 ≤ width)
    (hnl : ∀ i, msg[i]? = some '\n' → ∀ c, msg[i+2]? = some c → isSpace c = true)
    (fuel : Nat) (st : BreakState) (inv : BreakInv msg st) :
    ∃ st', breakLoop msg indent width fuel st = some st' ∧ BreakInv msg st' := by
  induction fuel generalizing st with
  | zero => exact ⟨st, rfl, inv⟩
  | succ n ih =>
    rw [breakLoop]
    split
    · exact ⟨st, rfl, inv⟩
    · next c hc =>
      obtain ⟨st', h, inv'⟩ := breakStep_inv msg indent width hw st c hnl hc inv
      rw [h]
      exact ih st' inv'

/-- Measure for the number of remaining rounds. -/
def breakMeasure (msg : Str) (st : BreakState) : Nat :=
  (msg.length + 1 - st.start) * (msg.length + 2) + (msg.length + 1 - st.pos)

theorem breakStep_measure (msg : Str) (indent width : Nat) (st st' : BreakState) (c : Char)
    (hpos : st.pos < msg.length) (hsp : st.start ≤ st.pos)
    (h : breakStep msg indent width st c = some st') :
    breakMeasure msg st' < breakMeasure msg st ∧ st'.start ≤ st'.pos := by
  have key : ∀ a b p q : Nat, a < b → b ≤ msg.length + 1 → q ≤ msg.length + 1 →
      (msg.length + 1 - b) * (msg.length + 2) + q < (msg.length + 1 - a) * (msg.length + 2) + p := by
    intro a b p q hab hb hq
    have h1 : (msg.length + 1 - b) + 1 ≤ msg.length + 1 - a := by omega
    have h2 := Nat.mul_le_mul_right (msg.length + 2) h1
    rw [Nat.add_mul] at h2
    omega
  have key' : ∀ a b p q : Nat, a ≤ b → p < q → p ≤ msg.length →
      (msg.length + 1 - b) * (msg.length + 2) + (msg.length + 1 - q) <
        (msg.length + 1 - a) * (msg.length + 2) + (msg.length + 1 - p) := by
    intro a b p q hab hpq hp
    have h1 : (msg.length + 1 - b) ≤ msg.length + 1 - a := by omega
    have h2 := Nat.mul_le_mul_right (msg.length + 2) h1
    omega
  unfold breakStep at h
  split at h
  · split at h
    · simp at h
    · simp at h
      subst h
      exact ⟨key _ _ _ _ (by simp; omega) (by simp; omega) (by simp; omega), Nat.le_refl _⟩
  · dsimp only at h
    generalize (if isSpace c = true then st.pos else st.lastBreak) = lb at *
    split at h
    · split at h
      · next hlt =>
        split at h
        · simp at h
        · simp at h
          subst h
          refine ⟨?_, by simp⟩
          simp only [breakMeasure]
          by_cases hb : lb + 1 ≤ msg.length + 1
          · exact key _ _ _ _ (by omega) hb (by omega)
          · have e1 : msg.length + 1 - (lb + 1) = 0 := by omega
            have e2 : msg.length + 1 - (lb + 1 + 1) = 0 := by omega
            rw [e1, e2]
            have : 1 ≤ msg.length + 1 - st.pos := by omega
            omega
      · split at h
        · simp at h
        · simp at h
          subst h
          exact ⟨key' _ _ _ _ hsp (by simp) (by omega), by simp⟩
    · simp at h
      subst h
      exact ⟨key' _ _ _ _ (Nat.le_refl _) (by simp) (by omega), by simp; omega⟩

/-- The bound on the number of rounds in the model is no restriction: the loop ends because the whole text was
read. -/
theorem breakLoop_done (msg : Str) (indent width : Nat) (fuel : Nat) (st st' : BreakState)
    (hsp : st.start ≤ st.pos) (hf : breakMeasure msg st ≤ fuel)
    (h : breakLoop msg indent width fuel st = some st') : msg.length ≤ st'.pos := by
  induction fuel generalizing st with
  | zero =>
    simp [breakLoop] at h
    subst h
    simp only [breakMeasure] at hf
    omega
  | succ n ih =>
    rw [breakLoop] at h
    split at h
    · next hn =>
      simp at h; subst h
      exact List.getElem?_eq_none_iff.1 hn
    · next c hc =>
      split at h
      · simp at h
      · next st1 hst1 =>
        have hpos : st.pos < msg.length := (List.getElem?_eq_some_iff.1 hc).1
        have := breakStep_measure msg indent width st st1 c hpos hsp hst1
        exact ih st1 this.2 (by omega) h

theorem breakRounds_enough (msg : Str) : breakMeasure msg ⟨[], 0, 0, 0, 0⟩ ≤ breakRounds msg := by
  simp only [breakMeasure, breakRounds]
  have : (msg.length + 1 - 0) * (msg.length + 2) + (msg.length + 2) = (msg.length + 2) * (msg.length + 2) := by
    rw [Nat.sub_zero, ← Nat.succ_mul]
  omega

end Verif.Params
