import Verif.Params.Lemmas

set_option autoImplicit false
namespace Verif.Params

/-! ### quoted values -/

theorem parseQuotedTail_escape (s rest : Str) :
    parseQuotedTail (s.flatMap escapeChar ++ '"' :: rest) = .ok (s, rest) := by
  induction s with
  | nil => rw [parseQuotedTail.eq_def]; simp
  | cons c s ih =>
    simp only [List.flatMap_cons, List.append_assoc]
    generalize s.flatMap escapeChar ++ '"' :: rest = tl at ih ⊢
    unfold escapeChar
    by_cases h1 : c = '\n'
    · subst h1; simp only [if_true]; rw [parseQuotedTail.eq_def]; simp [ih]
    by_cases h2 : c = '\r'
    · subst h2; rw [if_neg h1, if_pos rfl]; rw [parseQuotedTail.eq_def]; simp [ih]
    by_cases h3 : c = '\t'
    · subst h3; rw [if_neg h1, if_neg h2, if_pos rfl]; rw [parseQuotedTail.eq_def]; simp [ih]
    by_cases h4 : c = '"'
    · subst h4; rw [if_neg h1, if_neg h2, if_neg h3, if_pos rfl]; rw [parseQuotedTail.eq_def]; simp [ih]
    by_cases h5 : c = '\\'
    · subst h5; rw [if_neg h1, if_neg h2, if_neg h3, if_neg h4, if_pos rfl]
      rw [parseQuotedTail.eq_def]; simp [ih]
    · rw [if_neg h1, if_neg h2, if_neg h3, if_neg h4, if_neg h5]
      rw [parseQuotedTail.eq_def]; simp [ih, h4, h5]

/-- Every quoted text which is accepted is the quotation of its value, up to characters which need not be
escaped: decoding is the left inverse of a spelling. -/
theorem parseQuotedValue_quote (s rest : Str) :
    parseQuotedValue (quote s ++ rest) = .ok (s, rest) := by
  simp [quote, parseQuotedValue, parseQuotedTail_escape]

/-! ### lines -/

theorem removeLeadingSpace_blank (ws rest : Str) (h : Blank ws)
    (hr : rest = [] ∨ ∃ c r, rest = c :: r ∧ isSpace c = false) :
    removeLeadingSpace (ws ++ rest) = rest := by
  unfold removeLeadingSpace
  exact dropWhile_append_stop ws rest h hr

theorem Denotes.head {raw name : Str} (h : Denotes raw name) :
    ∃ c rest, raw = c :: rest ∧ isSpace c = false ∧ c ≠ '#' ∧ c ≠ ';' := by
  obtain ⟨c, rest, rfl, hc⟩ := h.length_pos
  have := alphanum_facts c (alpha_alphanum c hc)
  exact ⟨c, rest, rfl, this.2.2.1, this.2.2.2.2.2.1, this.2.2.2.2.2.2⟩

theorem blank_stop {ws rest : Str} (h : Blank ws) (hr : ∃ c r, rest = c :: r ∧ stopsKey c = true) :
    ∃ c r, ws ++ rest = c :: r ∧ stopsKey c = true := by
  cases ws with
  | nil => simpa using hr
  | cons w ws => exact ⟨w, ws ++ rest, rfl, by simp [stopsKey, h w (by simp)]⟩

theorem parseLine_prefix {ws0 raw name ws1 ws2 vt : Str} (h0 : Blank ws0) (hd : Denotes raw name)
    (h1 : Blank ws1) (h2 : Blank ws2) (hv : vt = [] ∨ ∃ c r, vt = c :: r ∧ isSpace c = false) :
    parseLine (ws0 ++ (raw ++ (ws1 ++ '=' :: (ws2 ++ vt)))) =
      match parseValue vt with
      | .ok v => .ok (some (name, v))
      | .error e => .error e := by
  obtain ⟨c, r, hraw, hcs, hc1, hc2⟩ := hd.head
  have hl : removeLeadingSpace (ws0 ++ (raw ++ (ws1 ++ '=' :: (ws2 ++ vt)))) =
      raw ++ (ws1 ++ '=' :: (ws2 ++ vt)) := by
    apply removeLeadingSpace_blank _ _ h0
    exact .inr ⟨c, r ++ (ws1 ++ '=' :: (ws2 ++ vt)), by simp [hraw], hcs⟩
  have hk : parseKey (raw ++ (ws1 ++ '=' :: (ws2 ++ vt))) = (raw, ws1 ++ '=' :: (ws2 ++ vt)) :=
    parseKey_append _ _ hd.noStop (.inr (blank_stop h1 ⟨'=', _, rfl, by decide⟩))
  have ht := (transformKey_ok_iff raw name).2 hd
  have he : removeLeadingSpace (ws1 ++ '=' :: (ws2 ++ vt)) = '=' :: (ws2 ++ vt) :=
    removeLeadingSpace_blank _ _ h1 (.inr ⟨'=', _, rfl, by decide⟩)
  have hv2 : removeLeadingSpace (ws2 ++ vt) = vt := removeLeadingSpace_blank _ _ h2 hv
  unfold parseLine
  rw [hl]
  have hcons : raw ++ (ws1 ++ '=' :: (ws2 ++ vt)) = c :: (r ++ (ws1 ++ '=' :: (ws2 ++ vt))) := by
    simp [hraw]
  rw [hcons] at hk ⊢
  simp only [hk, ht, he, hv2]
  rw [if_neg (by simp [hc1, hc2])]
  cases parseValue vt <;> rfl

theorem parseUnquoted_append (v tail : Str) (h : ∀ c ∈ v, isSpace c = false)
    (ht : tail = [] ∨ ∃ c r, tail = c :: r ∧ isSpace c = true) : parseUnquotedValue (v ++ tail) = (v, tail) := by
  have h' : ∀ c ∈ v, (fun c => !isSpace c) c = true := by
    intro c hc; simp [h c hc]
  have ht' : tail = [] ∨ ∃ c r, tail = c :: r ∧ (fun c => !isSpace c) c = false := by
    rcases ht with h | ⟨c, r, h, hc⟩
    · exact .inl h
    · exact .inr ⟨c, r, h, by simp [hc]⟩
  unfold parseUnquotedValue
  rw [takeWhile_append_stop v tail h' ht', dropWhile_append_stop v tail h' ht']

theorem parseLine_assignment {line name v : Str} (h : IsAssignment line name v) :
    parseLine line = .ok (some (name, v)) := by
  cases h with
  | bare h0 hd h1 h2 hv ht =>
    rename_i ws0 raw ws1 ws2 tail
    obtain ⟨hns, c, cs, rfl, hq, hh, hs⟩ := hv
    have := parseLine_prefix (vt := (c :: cs) ++ tail) h0 hd h1 h2
      (.inr ⟨c, cs ++ tail, rfl, hns c (by simp)⟩)
    simp only [List.append_assoc, List.cons_append] at this ⊢
    rw [this]
    have hu := parseUnquoted_append (c :: cs) tail hns (by
      rcases ht with h | ⟨d, r, h, hd', -⟩
      · exact .inl h
      · exact .inr ⟨d, r, h, hd'⟩)
    simp only [List.cons_append] at hu
    simp [parseValue, hq, hu]
  | quoted h0 hd h1 h2 ht =>
    rename_i ws0 raw ws1 ws2 tail
    have := parseLine_prefix (vt := quote v ++ tail) h0 hd h1 h2
      (.inr ⟨'"', v.flatMap escapeChar ++ ['"'] ++ tail, by simp [quote], by decide⟩)
    simp only [List.append_assoc, List.cons_append] at this ⊢
    rw [this]
    have hq := parseQuotedValue_quote v tail
    rw [parseValue, if_pos (by simp [quote]), hq]

theorem parseLine_ignored {line : Str} (h : IsIgnored line) : parseLine line = .ok none := by
  obtain ⟨ws, rest, hws, rfl, hr⟩ := h
  have hl : removeLeadingSpace (ws ++ rest) = rest := by
    apply removeLeadingSpace_blank _ _ hws
    rcases hr with h | ⟨c, r, h, hc⟩
    · exact .inl h
    · exact .inr ⟨c, r, h, by rcases hc with rfl | rfl <;> decide⟩
  unfold parseLine
  rw [hl]
  rcases hr with rfl | ⟨c, r, rfl, hc⟩
  · rfl
  · rcases hc with rfl | rfl <;> simp

end Verif.Params
