import Verif.ForcedSteps.Model
import Verif.Util.Chars
import Mathlib.Tactic.Tauto

set_option autoImplicit false
/-
Property C22: the file of predetermined time steps.
-/
namespace Verif.ForcedSteps

variable {K : Type} (numChar : Char → Bool) (conv : List Char → Option K) (zero : K)

/-- A file is a list of numbers, each preceded by blanks (at least one except for the first). -/
def fileOf : List (List Char × List Char) → List Char
  | [] => []
  | (b, w) :: t => b ++ w ++ fileOf t

/-- `w` is the text of the number `x`. -/
def IsNumber (w : List Char) (x : K) : Prop := w ≠ [] ∧ (∀ c ∈ w, numChar c = true ∧ blank c = false) ∧ conv w = some x

/-- The texts of `ws`, preceded by blanks, are the numbers `xs`. -/
def Numbers : List (List Char × List Char) → List K → Prop
  | [], [] => True
  | (b, w) :: t, x :: xs => (∀ c ∈ b, blank c = true) ∧ IsNumber numChar conv w x ∧ (∀ p ∈ t, p.1 ≠ []) ∧ Numbers t xs
  | _, _ => False

theorem dropWhile_blanks (b r : List Char) (hb : ∀ c ∈ b, blank c = true) :
    (b ++ r).dropWhile blank = r.dropWhile blank := by
  induction b with
  | nil => rfl
  | cons c b ih => simp [hb c (by simp), ih (fun x hx => hb x (by simp [hx]))]

theorem span_number (w r : List Char) (hw : ∀ c ∈ w, numChar c = true) (hr : ∀ c ∈ r.head?, numChar c = false) :
    (w ++ r).takeWhile numChar = w ∧ (w ++ r).dropWhile numChar = r := by
  induction w with
  | nil =>
    cases r with
    | nil => simp
    | cons c r => simp at hr; simp [hr]
  | cons c w ih =>
    have := ih (fun x hx => hw x (by simp [hx]))
    simp [hw c (by simp), this]

theorem extract_number (b w r : List Char) (x : K) (hb : ∀ c ∈ b, blank c = true) (hw : IsNumber numChar conv w x)
    (hr : ∀ c ∈ r.head?, numChar c = false) :
    extract numChar conv zero ⟨b ++ w ++ r, false, false⟩ = (some x, ⟨r, r.isEmpty, false⟩) := by
  obtain ⟨h1, h2, h3⟩ := hw
  have hd : (b ++ w ++ r).dropWhile blank = w ++ r := by
    rw [List.append_assoc, dropWhile_blanks b _ hb]
    cases w with
    | nil => simp at h1
    | cons c w => simp [(h2 c (by simp)).2]
  obtain ⟨e1, e2⟩ := span_number numChar w r (fun c hc => (h2 c hc).1) hr
  have hne : (w ++ r).isEmpty = false := by simp [h1]
  simp only [extract, Bool.or_self, Bool.false_eq_true, if_false, hd, hne, e1, e2, h3]

theorem readLoop_numbers (hnb : ∀ c, blank c = true → numChar c = false)
    (ws : List (List Char × List Char)) (xs : List K) (h : Numbers numChar conv ws xs) (tail : List Char)
    (htail : ∀ c ∈ tail.head?, numChar c = false) (hne : ws ≠ []) (acc : List (Option K)) (n : ℕ) :
    readLoop numChar conv zero (n + xs.length) (⟨fileOf ws ++ tail, false, false⟩, acc) =
      readLoop numChar conv zero n (⟨tail, tail.isEmpty, false⟩, acc ++ xs.map some) := by
  induction ws generalizing xs acc with
  | nil => simp at hne
  | cons p ws ih =>
    obtain ⟨b, w⟩ := p
    cases xs with
    | nil => simp [Numbers] at h
    | cons x xs =>
      obtain ⟨hb, hw, hsep, hrest⟩ := h
      have hnext : ∀ c ∈ (fileOf ws ++ tail).head?, numChar c = false := by
        cases ws with
        | nil => simpa [fileOf] using htail
        | cons q ws =>
          obtain ⟨b', w'⟩ := q
          have hb' : b' ≠ [] := hsep (b', w') (by simp)
          cases xs with
          | nil => simp [Numbers] at hrest
          | cons y ys =>
            cases b' with
            | nil => simp at hb'
            | cons c b' =>
              intro d hd
              simp [fileOf] at hd
              subst hd
              exact hnb _ (hrest.1 _ (by simp))
      have hstep := extract_number numChar conv zero b w (fileOf ws ++ tail) x hb hw hnext
      have hfile : fileOf ((b, w) :: ws) ++ tail = b ++ w ++ (fileOf ws ++ tail) := by
        simp [fileOf, List.append_assoc]
      rw [List.length_cons, ← Nat.add_assoc, readLoop, hfile]
      simp only [Bool.false_eq_true, if_false, pass, hstep]
      cases ws with
      | nil =>
        cases xs with
        | nil => simp only [fileOf, List.nil_append, List.length_nil, Nat.add_zero, List.map_cons, List.map_nil]
        | cons y ys => simp [Numbers] at hrest
      | cons q ws =>
        have hnil : (fileOf (q :: ws) ++ tail).isEmpty = false := by
          obtain ⟨b', w'⟩ := q
          have : b' ≠ [] := hsep (b', w') (by simp)
          simp [fileOf, this]
        rw [hnil, ih xs hrest (by simp)]
        simp

/-- C22 (what separates numbers): blanks are spaces, tabulators, ends of lines, carriage returns, vertical tabulators and form feeds. -/
theorem C22_blanks (c : Char) : blank c = true ↔ c ∈ [' ', '\t', '\n', '\r', '\x0b', '\x0c'] := by
  simp only [blank, Bool.or_eq_true, beq_iff_eq, List.mem_cons, List.not_mem_nil, or_false]
  tauto

/-- C22 (partial): a file of numbers separated by blanks, and without anything after the last number, is read
completely and exactly, in as many passes as there are numbers.  What is missing: all other files (see the next
theorems). -/
theorem C22_reads_numbers_partial (hnb : ∀ c, blank c = true → numChar c = false)
    (ws : List (List Char × List Char)) (xs : List K) (h : Numbers numChar conv ws xs) (hne : ws ≠ []) (n : ℕ)
    (hn : xs.length ≤ n) :
    readFile numChar conv zero n (some (fileOf ws)) = some (xs.map some) := by
  obtain ⟨k, rfl⟩ := Nat.exists_eq_add_of_le' hn
  have := readLoop_numbers numChar conv zero hnb ws xs h [] (by simp) hne [] k
  simp only [List.append_nil, List.nil_append] at this
  rw [readFile, openFile, this]
  cases k <;> simp [readLoop]

/-- C22 (refuted, trailing blanks): if blanks follow the last number, for instance the end of the last line, then one
uninitialised time step size is appended. -/
theorem C22_trailing_blank_violated (hnb : ∀ c, blank c = true → numChar c = false)
    (ws : List (List Char × List Char)) (xs : List K) (h : Numbers numChar conv ws xs) (hne : ws ≠ [])
    (tail : List Char) (ht : tail ≠ []) (hblank : ∀ c ∈ tail, blank c = true) (n : ℕ) (hn : xs.length + 1 ≤ n) :
    readFile numChar conv zero n (some (fileOf ws ++ tail)) = some (xs.map some ++ [none]) := by
  obtain ⟨k, rfl⟩ := Nat.exists_eq_add_of_le' hn
  have hhead : ∀ c ∈ tail.head?, numChar c = false := by
    intro c hc
    exact hnb c (hblank c (List.mem_of_mem_head? hc))
  have := readLoop_numbers numChar conv zero hnb ws xs h tail hhead hne [] (k + 1)
  have hd : tail.dropWhile blank = [] := by
    have := dropWhile_blanks tail [] hblank
    simpa using this
  rw [readFile, openFile, Nat.add_comm xs.length 1, ← Nat.add_assoc, this, (by simpa using ht : tail.isEmpty = false), readLoop]
  simp only [Bool.false_eq_true, if_false, pass, extract, Bool.or_self, hd, List.isEmpty_nil, if_true]
  cases k <;> simp [readLoop]

/-- A stream which has failed, but not reached its end, stays so. -/
theorem readLoop_fail (rest : List Char) (acc : List (Option K)) (n : ℕ) :
    readLoop numChar conv zero n (⟨rest, false, true⟩, acc) = none := by
  induction n generalizing acc with
  | zero => simp [readLoop]
  | succ n ih => simp [readLoop, pass, extract, ih]

/-- C22 (refuted, missing file): if the file does not exist, the loop never stops. -/
theorem C22_missing_file_diverges_violated (n : ℕ) : readFile numChar conv zero n none = none :=
  readLoop_fail numChar conv zero [] [] n

/-- C22 (refuted, malformed files): if something which is not a number follows the numbers, and is itself followed by
a character which cannot be part of a number, the loop never stops. -/
theorem C22_malformed_diverges_violated (hnb : ∀ c, blank c = true → numChar c = false)
    (ws : List (List Char × List Char)) (xs : List K) (h : Numbers numChar conv ws xs) (hne : ws ≠ [])
    (b tok : List Char) (c : Char) (rest : List Char) (hb : ∀ c ∈ b, blank c = true) (hbne : b ≠ [])
    (htok : ∀ c ∈ tok, numChar c = true ∧ blank c = false) (hc : numChar c = false) (hcb : tok ≠ [] ∨ blank c = false)
    (hconv : conv tok = none) (n : ℕ) :
    readFile numChar conv zero n (some (fileOf ws ++ (b ++ tok ++ c :: rest))) = none := by
  have hmono : ∀ m st, readLoop numChar conv zero (n + m) st = none → readLoop numChar conv zero n st = none := by
    intro m
    induction n with
    | zero =>
      intro st hst
      by_cases he : st.1.eof = true
      · cases m <;> simp [readLoop, he] at hst
      · simp [readLoop, he]
    | succ n ih =>
      intro st hst
      rw [show n + 1 + m = (n + m) + 1 by omega, readLoop] at hst
      rw [readLoop]
      split at hst
      · simp at hst
      · rename_i he
        simp only [he, Bool.false_eq_true, if_false]
        exact ih _ hst
  apply hmono (xs.length + 1)
  have hhead : ∀ d ∈ (b ++ tok ++ c :: rest).head?, numChar d = false := by
    cases b with
    | nil => simp at hbne
    | cons e b =>
      intro d hd
      simp at hd
      subst hd
      exact hnb _ (hb _ (by simp))
  have := readLoop_numbers numChar conv zero hnb ws xs h _ hhead hne [] (n + 1)
  rw [openFile, show n + (xs.length + 1) = n + 1 + xs.length by omega, this, readLoop]
  have hd : (b ++ tok ++ c :: rest).dropWhile blank = tok ++ c :: rest := by
    rw [List.append_assoc, dropWhile_blanks b _ hb]
    cases tok with
    | nil =>
      have hcb' : blank c = false := by simpa using hcb
      simp [hcb']
    | cons e tok => simp [(htok e (by simp)).2]
  obtain ⟨e1, e2⟩ := span_number numChar tok (c :: rest) (fun d hd => (htok d hd).1) (by simpa using hc)
  have hne' : (b ++ tok ++ c :: rest).isEmpty = false := by simp
  have hne2 : (tok ++ c :: rest).isEmpty = false := by simp
  simp only [hne', Bool.false_eq_true, if_false, pass, extract, Bool.or_self, hd, hne2, e1, e2, hconv]
  simpa using readLoop_fail numChar conv zero (c :: rest) _ n

/-- C22 (refuted, malformed end): if the file ends with characters which are not a number, although each of them can be part of one, for
instance `1e`, then they are accepted, and a time step of size zero is appended. -/
theorem C22_malformed_end_violated (hnb : ∀ c, blank c = true → numChar c = false)
    (ws : List (List Char × List Char)) (xs : List K) (h : Numbers numChar conv ws xs) (hne : ws ≠ [])
    (b tok : List Char) (hb : ∀ c ∈ b, blank c = true) (hbne : b ≠ []) (htne : tok ≠ [])
    (htok : ∀ c ∈ tok, numChar c = true ∧ blank c = false) (hconv : conv tok = none) (n : ℕ) (hn : xs.length + 1 ≤ n) :
    readFile numChar conv zero n (some (fileOf ws ++ (b ++ tok))) = some (xs.map some ++ [some zero]) := by
  obtain ⟨k, rfl⟩ := Nat.exists_eq_add_of_le' hn
  have hhead : ∀ d ∈ (b ++ tok).head?, numChar d = false := by
    cases b with
    | nil => simp at hbne
    | cons e b =>
      intro d hd
      simp at hd
      subst hd
      exact hnb _ (hb _ (by simp))
  have := readLoop_numbers numChar conv zero hnb ws xs h _ hhead hne [] (k + 1)
  have hd : (b ++ tok).dropWhile blank = tok := by
    rw [dropWhile_blanks b _ hb]
    cases tok with
    | nil => simp at htne
    | cons e tok => simp [(htok e (by simp)).2]
  obtain ⟨e1, e2⟩ := span_number numChar tok [] (fun d hd => (htok d hd).1) (by simp)
  rw [List.append_nil] at e1 e2
  have hne' : (b ++ tok).isEmpty = false := by simp [hbne]
  have hne2 : tok.isEmpty = false := by simp [htne]
  rw [readFile, openFile, Nat.add_comm xs.length 1, ← Nat.add_assoc, this, hne', readLoop]
  simp only [Bool.false_eq_true, if_false, pass, extract, Bool.or_self, hd, hne2, e1, e2, hconv, List.isEmpty_nil]
  cases k <;> simp [readLoop]

/-- C22 (refuted, empty files): a file with nothing but blanks gives one uninitialised time step size. -/
theorem C22_empty_file_violated (cs : List Char) (hblank : ∀ c ∈ cs, blank c = true) (n : ℕ) :
    readFile numChar conv zero (n + 1) (some cs) = some [none] := by
  have hd : cs.dropWhile blank = [] := by
    have := dropWhile_blanks cs [] hblank
    simpa using this
  rw [readFile, openFile, readLoop]
  simp only [Bool.false_eq_true, if_false, pass, extract, Bool.or_self, hd, List.isEmpty_nil, if_true]
  cases n <;> simp [readLoop]

/-! A concrete conversion: natural numbers in decimal notation. -/

def digits : List Char → Option ℕ
  | [] => none
  | cs => if cs.all Char.isDigit then some (cs.foldl (fun n c => 10 * n + (c.toNat - 48)) 0) else none

example : readFile Char.isDigit digits 0 10 (some (c!"10 20" ++ c!"\n" ++ c!"35")) = some [some 10, some 20, some 35] := by
  decide
example : readFile Char.isDigit digits 0 3 (some (fileOf [([], c!"10"), (c!" ", c!"20")])) = some [some 10, some 20] :=
  C22_reads_numbers_partial _ _ _ (by intro c hc; simp [blank] at hc; rcases hc with ((((h | h) | h) | h) | h) | h <;> subst h <;> rfl) _ [10, 20] (by
    refine ⟨by simp, ⟨by simp, by decide, rfl⟩, by simp, ?_⟩
    exact ⟨by decide, ⟨by simp, by decide, rfl⟩, by simp, trivial⟩) (by simp) 3 (by simp)
example : readFile Char.isDigit digits 0 10 (some (c!"10 20" ++ c!"\n")) = some [some 10, some 20, none] := by decide
example : readFile Char.isDigit digits 0 10 (some c!"10 x 20") = none := by decide
example : readFile (fun c => c.isDigit || c == 'e') digits 7 10 (some c!"10 1e") = some [some 10, some 7] := by decide
example : readFile Char.isDigit digits 0 10 (some c!" ") = some [none] := by decide

example (n : ℕ) : readFile Char.isDigit digits 0 n (some (fileOf [([], c!"10")] ++ (c!" " ++ [] ++ 'x' :: c!" 20"))) =
    none :=
  C22_malformed_diverges_violated _ _ _
    (by intro c hc; simp [blank] at hc; rcases hc with ((((h | h) | h) | h) | h) | h <;> subst h <;> rfl)
    [([], c!"10")] [10] ⟨by simp, ⟨by simp, by decide, rfl⟩, by simp, trivial⟩ (by simp) c!" " [] 'x' c!" 20"
    (by decide) (by simp) (by simp) rfl (Or.inr rfl) rfl n

end Verif.ForcedSteps
