import Verif.Params.Props

/-
C06: names which occur twice in a parameter file.  C81: the width of the lines of the help text.
-/

set_option autoImplicit false

namespace Verif.Params

/-! ### C06: a name may occur only once -/

theorem parseLines_seen (overwrite : Bool) (line name value : Str) (h : parseLine line = .ok (some (name, value))) (rest : List Str) :
    ∀ (before seen : List Str) (tree : Dict Str), name ∈ seen →
      ∃ e, (parseLines overwrite (before ++ line :: rest) seen tree).1 = some e := by
  intro before
  induction before with
  | nil =>
    intro seen tree hs
    refine ⟨.seenTwice, ?_⟩
    simp [parseLines, h, hs]
  | cons l before ih =>
    intro seen tree hs
    rw [List.cons_append, parseLines]
    cases hl : parseLine l with
    | error e => exact ⟨e, rfl⟩
    | ok o =>
      cases o with
      | none => exact ih seen tree hs
      | some kv =>
        dsimp only
        by_cases hk : kv.1 ∈ seen
        · exact ⟨.seenTwice, by rw [if_pos hk]⟩
        · rw [if_neg hk]
          exact ih _ _ (List.mem_cons_of_mem _ hs)

/-- **C06** A file with two lines which assign the same parameter (in any spelling) is rejected, whatever else is in the file. -/
theorem C06_repeated_name_rejected (overwrite : Bool) (l1 l2 l3 : List Str) (a b name v w : Str) (tree : Dict Str)
    (ha : IsAssignment a name v) (hb : IsAssignment b name w) :
    ∃ e, (parseParameterFile overwrite (l1 ++ a :: l2 ++ b :: l3) tree).1 = some e := by
  unfold parseParameterFile
  generalize ([] : List Str) = seen
  induction l1 generalizing seen tree with
  | nil =>
    rw [List.nil_append, List.cons_append, parseLines, parseLine_assignment ha]
    dsimp only
    by_cases hk : name ∈ seen
    · exact ⟨.seenTwice, by rw [if_pos hk]⟩
    · rw [if_neg hk]
      exact parseLines_seen overwrite b name w (parseLine_assignment hb) l3 l2 _ _ (by simp)
  | cons l l1 ih =>
    rw [List.cons_append, List.cons_append, parseLines]
    cases hl : parseLine l with
    | error e => exact ⟨e, rfl⟩
    | ok o =>
      cases o with
      | none => exact ih tree seen
      | some kv =>
        dsimp only
        by_cases hk : kv.1 ∈ seen
        · exact ⟨.seenTwice, by rw [if_pos hk]⟩
        · rw [if_neg hk]
          exact ih _ _

/-- The same parameter in two spellings -/
example : (parseParameterFile true [c!"EndTime = 1", c!"# comment", c!"end-time = 2"] []).1 = some .seenTwice := by rfl

/-! ### C81: the lines of the help text fit the terminal -/

/-- No line of the text is longer than `W`: there are no more than `W` characters in a row without a line break. -/
def LinesFit (W : Nat) (s : Str) : Prop := ∀ a line b, s = a ++ line ++ b → '\n' ∉ line → line.length ≤ W

/-- The column in which a text ends which begins in column `n` -/
def column (n : Nat) : Str → Nat
  | [] => n
  | c :: r => if c = '\n' then column 0 r else column (n + 1) r

/-- A text which begins in column `n` does not go beyond column `W`. -/
def FitsFrom (W : Nat) (n : Nat) : Str → Prop
  | [] => n ≤ W
  | c :: r => n ≤ W ∧ if c = '\n' then FitsFrom W 0 r else FitsFrom W (n + 1) r

theorem FitsFrom.le {W n : Nat} {s : Str} (h : FitsFrom W n s) : n ≤ W := by
  cases s with
  | nil => exact h
  | cons c r => exact h.1

theorem FitsFrom.mono {W : Nat} {s : Str} : ∀ {n m : Nat}, m ≤ n → FitsFrom W n s → FitsFrom W m s := by
  induction s with
  | nil => intro n m hm h; exact Nat.le_trans hm h
  | cons c r ih =>
    intro n m hm h
    refine ⟨Nat.le_trans hm h.1, ?_⟩
    have h2 := h.2
    by_cases hc : c = '\n'
    · rw [if_pos hc] at h2 ⊢
      exact h2
    · rw [if_neg hc] at h2 ⊢
      exact ih (Nat.succ_le_succ hm) h2

theorem FitsFrom.append {W : Nat} {s t : Str} : ∀ {n : Nat}, FitsFrom W n s → FitsFrom W (column n s) t → FitsFrom W n (s ++ t) := by
  induction s with
  | nil => intro n _ h; exact h
  | cons c r ih =>
    intro n h ht
    refine ⟨h.1, ?_⟩
    have h2 := h.2
    unfold column at ht
    by_cases hc : c = '\n'
    · rw [if_pos hc] at h2 ht ⊢
      exact ih h2 ht
    · rw [if_neg hc] at h2 ht ⊢
      exact ih h2 ht

theorem column_append (s t : Str) : ∀ n, column n (s ++ t) = column (column n s) t := by
  induction s with
  | nil => intro n; rfl
  | cons c r ih =>
    intro n
    simp only [List.cons_append, column]
    split <;> exact ih _

theorem column_le (s : Str) : ∀ n, column n s ≤ n + s.length := by
  induction s with
  | nil => intro n; exact Nat.le_refl _
  | cons c r ih =>
    intro n
    simp only [column, List.length_cons]
    split
    · have := ih 0
      omega
    · have := ih (n + 1)
      omega

theorem fitsFrom_of_length {W : Nat} (s : Str) : ∀ n, n + s.length ≤ W → FitsFrom W n s := by
  induction s with
  | nil => intro n h; exact h
  | cons c r ih =>
    intro n h
    rw [List.length_cons] at h
    refine ⟨by omega, ?_⟩
    split
    · exact ih 0 (by omega)
    · exact ih (n + 1) (by omega)

theorem column_spaces (n k : Nat) : column n (List.replicate k ' ') = n + k := by
  induction k generalizing n with
  | zero => rfl
  | succ k ih =>
    rw [List.replicate_succ]
    simp only [column]
    rw [if_neg (by decide), ih]
    omega

theorem FitsFrom.lines {W : Nat} {s : Str} : ∀ {n : Nat}, FitsFrom W n s → LinesFit W s := by
  have start : ∀ (line b : Str) (n : Nat), FitsFrom W n (line ++ b) → '\n' ∉ line → n + line.length ≤ W := by
    intro line
    induction line with
    | nil => intro b n h _; exact h.le
    | cons c r ih =>
      intro b n h hn
      have hc : c ≠ '\n' := fun e => hn (by rw [e]; simp)
      have h2 := h.2
      rw [if_neg hc] at h2
      have := ih b (n + 1) h2 (fun h => hn (List.mem_cons_of_mem _ h))
      rw [List.length_cons]
      omega
  intro n h a
  induction a generalizing s n with
  | nil =>
    intro line b e hn
    rw [e] at h
    have := start line b n h hn
    omega
  | cons c a ih =>
    intro line b e hn
    rw [e] at h
    have h2 := h.2
    split at h2
    · exact ih h2 line b rfl hn
    · exact ih h2 line b rfl hn

/-- Invariant of the loop -/
structure WidthInv (msg : Str) (W : Nat) (st : BreakState) : Prop where
  fits : FitsFrom W 0 st.result
  start_pos : st.start ≤ st.pos
  tty : column 0 st.result + (st.pos - st.start) ≤ st.tty
  width : st.tty ≤ W
  brk : st.lastBreak ≤ st.pos ∨ (st.tty = 0 ∧ st.lastBreak ≤ st.pos + 1)

theorem breakStep_width (msg : Str) (indent width : Nat) (hw : 1 ≤ width) (st st' : BreakState) (c : Char)
    (hc : msg[st.pos]? = some c) (inv : WidthInv msg (max width (indent + 1)) st)
    (h : breakStep msg indent width st c = some st') : WidthInv msg (max width (indent + 1)) st' := by
  obtain ⟨i1, i2, i3, i4, i5⟩ := inv
  have hpos : st.pos < msg.length := (List.getElem?_eq_some_iff.1 hc).1
  have hcat {k : Nat} (hk : column 0 st.result + k ≤ max width (indent + 1)) (n : Nat) (hn : n ≤ k) :
      FitsFrom (max width (indent + 1)) 0 (st.result ++ (msg.drop st.start).take n) := by
    refine i1.append (fitsFrom_of_length _ _ ?_)
    rw [List.length_take]
    omega
  have hpad {s : Str} (hs : FitsFrom (max width (indent + 1)) 0 s) :
      FitsFrom (max width (indent + 1)) 0 (s ++ '\n' :: List.replicate indent ' ') ∧
      column 0 (s ++ '\n' :: List.replicate indent ' ') = indent := by
    constructor
    · refine hs.append ⟨?_, ?_⟩
      · have : FitsFrom (max width (indent + 1)) 0 (s ++ []) := by rw [List.append_nil]; exact hs
        clear i1 i3 hcat
        have aux : ∀ (s : Str) (n : Nat), FitsFrom (max width (indent + 1)) n s → column n s ≤ max width (indent + 1) := by
          intro s
          induction s with
          | nil => intro n h; exact h
          | cons c r ih =>
            intro n h
            have h2 := h.2
            unfold column
            split at h2
            · rename_i hc; rw [if_pos hc]; exact ih 0 h2
            · rename_i hc; rw [if_neg hc]; exact ih _ h2
        exact aux s 0 hs
      · rw [if_pos rfl]
        refine fitsFrom_of_length _ _ ?_
        rw [List.length_replicate]
        omega
    · rw [column_append]
      simp only [column, if_true]
      rw [column_spaces]
      omega
  unfold breakStep at h
  split at h
  · rename_i hnl
    unfold substr at h
    split at h
    · cases h
    · rename_i piece hp
      split at hp
      · cases hp
        cases h
        have hsplit : (msg.drop st.start).take (st.pos - st.start + 1) = (msg.drop st.start).take (st.pos - st.start) ++ ['\n'] := by
          rw [List.take_add_one, List.getElem?_drop]
          have : st.start + (st.pos - st.start) = st.pos := by omega
          rw [this, hc, hnl]
          rfl
        have hf := hcat (k := st.pos - st.start) (by omega) _ (Nat.le_refl _)
        have hcol : column 0 (st.result ++ (msg.drop st.start).take (st.pos - st.start)) ≤ max width (indent + 1) := by
          rw [column_append]
          have := column_le ((msg.drop st.start).take (st.pos - st.start)) (column 0 st.result)
          rw [List.length_take] at this
          omega
        refine ⟨?_, Nat.le_refl _, ?_, Nat.zero_le _, .inr ⟨rfl, Nat.le_refl _⟩⟩
        · dsimp only
          rw [hsplit, ← List.append_assoc]
          exact hf.append ⟨hcol, by simp [FitsFrom]⟩
        · dsimp only
          rw [hsplit, ← List.append_assoc, column_append]
          simp [column]
      · cases hp
  · have hlb : (if isSpace c = true then st.pos else st.lastBreak) ≤ st.pos ∨
        (st.tty = 0 ∧ (if isSpace c = true then st.pos else st.lastBreak) ≤ st.pos + 1) := by
      split
      · exact .inl (Nat.le_refl _)
      · exact i5
    generalize (if isSpace c = true then st.pos else st.lastBreak) = lb at h hlb
    dsimp only at h
    split at h
    · rename_i htty
      have hlb : lb ≤ st.pos := by omega
      split at h
      · rename_i hlt
        unfold substr at h
        split at h
        · cases h
        · rename_i piece hp
          split at hp
          · cases hp
            cases h
            have hf := hcat (k := st.pos - st.start) (by omega) (lb - st.start) (by omega)
            obtain ⟨f1, f2⟩ := hpad hf
            refine ⟨f1, ?_, ?_, ?_, .inl ?_⟩ <;> dsimp only
            · omega
            · rw [f2]; omega
            · omega
            · omega
          · cases hp
      · unfold substr at h
        split at h
        · cases h
        · rename_i piece hp
          split at hp
          · cases hp
            cases h
            have hf := hcat (k := st.pos - st.start) (by omega) _ (Nat.le_refl _)
            obtain ⟨f1, f2⟩ := hpad hf
            refine ⟨f1, ?_, ?_, ?_, .inl ?_⟩ <;> dsimp only
            · omega
            · rw [f2]; omega
            · omega
            · omega
          · cases hp
    · rename_i htty
      cases h
      refine ⟨i1, ?_, ?_, ?_, .inl ?_⟩ <;> dsimp only
      · omega
      · omega
      · omega
      · omega

theorem breakLoop_width (msg : Str) (indent width : Nat) (hw : 1 ≤ width) (fuel : Nat) :
    ∀ (st st' : BreakState), WidthInv msg (max width (indent + 1)) st → breakLoop msg indent width fuel st = some st' →
      WidthInv msg (max width (indent + 1)) st' := by
  induction fuel with
  | zero =>
    intro st st' inv h
    cases h
    exact inv
  | succ fuel ih =>
    intro st st' inv h
    unfold breakLoop at h
    split at h
    · cases h
      exact inv
    · rename_i c hc
      split at h
      · cases h
      · rename_i st2 h2
        exact ih st2 st' (breakStep_width msg indent width hw st st2 c hc inv h2) h

/-- **C81** No line of the wrapped text is longer than the terminal is wide (or, on terminals which are narrower than the indentation, than
the indentation and one character).  No word is too long for this, since such words are cut. -/
theorem C81_wrapped_lines_fit (msg : Str) (indent width : Nat) (hw : 1 ≤ width) (out : Str)
    (h : breakLines msg indent width = some out) : LinesFit (max width (indent + 1)) out := by
  unfold breakLines at h
  split at h
  · cases h
  · rename_i st hst
    have inv := breakLoop_width msg indent width hw _ _ _ ⟨by simp [FitsFrom], Nat.le_refl _, by simp [column], Nat.zero_le _,
      .inl (Nat.le_refl _)⟩ hst
    have hdone := breakLoop_done msg indent width _ _ _ (by simp) (breakRounds_enough msg) hst
    obtain ⟨i1, i2, i3, i4, i5⟩ := inv
    unfold substr at h
    split at h
    · cases h
    · rename_i piece hp
      split at hp
      · cases hp
        cases h
        refine (i1.append (fitsFrom_of_length _ _ ?_)).lines
        rw [List.length_take, List.length_drop]
        omega
      · cases hp

example : breakLines c!"some words which are wrapped" 2 12 = some c!"some words\n  which are\n  wrapped" := by decide

end Verif.Params
