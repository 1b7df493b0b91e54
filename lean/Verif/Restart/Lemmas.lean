import Verif.Restart.Model
import Verif.ForcedSteps.Props

set_option autoImplicit false

namespace Verif.Restart

open ForcedSteps

theorem takeWhile_line (l r : List Char) (hl : '\n' ∉ l) :
    (l ++ '\n' :: r).takeWhile (· ≠ '\n') = l ∧ (l ++ '\n' :: r).dropWhile (· ≠ '\n') = '\n' :: r := by
  induction l with
  | nil => simp
  | cons c l ih =>
    simp only [List.mem_cons, not_or] at hl
    have := ih hl.2
    have hc : c ≠ '\n' := fun h => hl.1 h.symm
    simp_all

theorem getline_line (l r : List Char) (hl : '\n' ∉ l) :
    getline ⟨l ++ '\n' :: r, false, false⟩ = (l, ⟨r, false, false⟩) := by
  obtain ⟨h1, h2⟩ := takeWhile_line l r hl
  simp only [getline, Bool.or_self, Bool.false_eq_true, if_false, h1, h2, List.isEmpty_cons, List.tail_cons]

theorem readSectionBegin_ok (cookie r : List Char) (h : '\n' ∉ cookie) :
    readSectionBegin cookie ⟨sectionBegin cookie ++ r, false, false⟩ = .ok ⟨r, false, false⟩ := by
  have e : sectionBegin cookie ++ r = cookie ++ '\n' :: r := by simp [sectionBegin]
  rw [e, readSectionBegin, getline_line _ _ h]
  simp [Stream.good]

theorem readSectionEnd_ok (b r : List Char) (h : '\n' ∉ b) (hb : b.all blank = true) :
    readSectionEnd ⟨b ++ '\n' :: r, false, false⟩ = .ok ⟨r, false, false⟩ := by
  rw [readSectionEnd, getline_line _ _ h]
  simp only [hb, if_true]

variable {K : Type}

theorem Format.Lawful.noNewline {F : Format K} (hF : F.Lawful) (x : K) : '\n' ∉ F.fmt x := by
  intro h
  have := (hF.chars x _ h).2
  simp [blank] at this

/-- Reading a number which is followed by something which is not part of a number. -/
theorem readInto_fmt {F : Format K} (hF : F.Lawful) (b : List Char) (hb : ∀ c ∈ b, blank c = true) (x y : K)
    (r : List Char) (hr : ∀ c ∈ r.head?, F.numChar c = false) :
    readInto F y ⟨b ++ F.fmt x ++ r, false, false⟩ = (x, ⟨r, r.isEmpty, false⟩) := by
  have := extract_number F.numChar F.conv F.zero b (F.fmt x) r x hb ⟨hF.nonempty x, hF.chars x, hF.roundTrip x⟩ hr
  simp only [readInto, this]

theorem blank_space : blank ' ' = true := rfl
theorem blank_newline : blank '\n' = true := rfl

theorem readInto_sp {F : Format K} (hF : F.Lawful) (x y : K) (r : List Char) :
    readInto F y ⟨F.fmt x ++ ' ' :: r, false, false⟩ = (x, ⟨' ' :: r, false, false⟩) := by
  have := readInto_fmt hF [] (by simp) x y (' ' :: r) (by simpa using hF.blankSep _ blank_space)
  simpa using this

theorem readInto_sp' {F : Format K} (hF : F.Lawful) (x y : K) (r : List Char) :
    readInto F y ⟨' ' :: (F.fmt x ++ ' ' :: r), false, false⟩ = (x, ⟨' ' :: r, false, false⟩) := by
  have := readInto_fmt hF [' '] (by simp [blank_space]) x y (' ' :: r) (by simpa using hF.blankSep _ blank_space)
  simpa using this

theorem writeValues_cons (F : Format K) (x : K) (xs : List K) :
    writeValues F (x :: xs) = F.fmt x ++ ' ' :: writeValues F xs := by simp [writeValues]

theorem writeValues_noNewline {F : Format K} (hF : F.Lawful) (xs : List K) : '\n' ∉ writeValues F xs := by
  induction xs with
  | nil => simp [writeValues]
  | cons x xs ih =>
    rw [writeValues_cons]
    simp [ih, hF.noNewline x]

/-- The values of an entity are read back; what follows must begin with a blank or be empty. -/
theorem readValues_ok {F : Format K} (hF : F.Lawful) (xs old : List K) (hlen : old.length = xs.length)
    (b : List Char) (hb : b = [] ∨ b = [' ']) (r : List Char) :
    ∃ b', (b' = [] ∨ b' = [' ']) ∧ (xs ≠ [] → b' = [' ']) ∧
      readValues F old ⟨b ++ (writeValues F xs ++ r), false, false⟩ = .ok (xs, ⟨b' ++ r, false, false⟩) := by
  induction xs generalizing old b with
  | nil =>
    cases old with
    | nil => exact ⟨b, hb, by simp, by simp [readValues, writeValues]⟩
    | cons y ys => simp at hlen
  | cons x xs ih =>
    cases old with
    | nil => simp at hlen
    | cons y ys =>
      simp only [List.length_cons, Nat.add_right_cancel_iff] at hlen
      have hstep : readInto F y ⟨b ++ (writeValues F (x :: xs) ++ r), false, false⟩ =
          (x, ⟨' ' :: (writeValues F xs ++ r), false, false⟩) := by
        rw [writeValues_cons]
        rcases hb with rfl | rfl
        · simpa using readInto_sp hF x y (writeValues F xs ++ r)
        · simpa using readInto_sp' hF x y (writeValues F xs ++ r)
      obtain ⟨b', h1, _, h3⟩ := ih ys hlen [' '] (Or.inr rfl)
      refine ⟨b', h1, ?_, ?_⟩
      · intro _
        cases xs with
        | nil =>
          cases ys with
          | nil =>
            simp [readValues, writeValues] at h3
            rcases h1 with rfl | rfl
            · simp at h3
            · rfl
          | cons y ys => simp at hlen
        | cons z zs => rename_i h2 _; exact h2 (by simp)
      · simp only [readValues, Stream.good, Bool.not_false, Bool.and_self, if_true, hstep]
        have h3' : readValues F ys ⟨' ' :: (writeValues F xs ++ r), false, false⟩ =
            .ok (xs, ⟨b' ++ r, false, false⟩) := by simpa using h3
        rw [h3']

theorem readEntityLines_ok {E : Type} (write : E → List Char) (read : E → Stream → Except Err E)
    (es old : List E) (hlen : old.length = es.length) (hnl : ∀ e ∈ es, '\n' ∉ write e)
    (hrt : ∀ e ∈ es, ∀ o ∈ old, read o ⟨write e, false, false⟩ = .ok e) (r : List Char) :
    readEntityLines read old ⟨writeEntityLines write es ++ r, false, false⟩ = .ok (es, ⟨r, false, false⟩) := by
  induction es generalizing old with
  | nil =>
    cases old with
    | nil => simp [readEntityLines, writeEntityLines]
    | cons o os => simp at hlen
  | cons e es ih =>
    cases old with
    | nil => simp at hlen
    | cons o os =>
      simp only [List.length_cons, Nat.add_right_cancel_iff] at hlen
      have hl : writeEntityLines write (e :: es) ++ r = write e ++ '\n' :: (writeEntityLines write es ++ r) := by
        simp [writeEntityLines]
      rw [hl, readEntityLines]
      simp only [Stream.good, Bool.not_false, Bool.and_self, if_true,
        getline_line _ _ (hnl e (by simp)), hrt e (by simp) o (by simp)]
      rw [ih os hlen (fun e he => hnl e (by simp [he])) (fun e he o ho => hrt e (by simp [he]) o (by simp [ho]))]

theorem readDof_ok {F : Format K} (hF : F.Lawful) (xs old : List K) (hlen : old.length = xs.length) :
    readDof F old ⟨writeValues F xs, false, false⟩ = .ok xs := by
  obtain ⟨b', _, _, h⟩ := readValues_ok hF xs old hlen [] (Or.inl rfl) []
  simp only [List.nil_append, List.append_nil] at h
  rw [readDof, h]

end Verif.Restart
