import Verif.Params.Spec

set_option autoImplicit false
namespace Verif.Params

/-! ### characters -/

theorem char_cases_upper (P : Char → Prop) (h : ∀ n, n < 91 → 65 ≤ n → P (Char.ofNat n)) (c : Char)
    (hc : c.isUpper = true) : P c := by
  have h1 : 65 ≤ c.toNat ∧ c.toNat ≤ 90 := by
    simp [Char.isUpper, UInt32.le_iff_toNat_le] at hc
    exact hc
  have := h c.toNat (by omega) h1.1
  simpa using this

theorem upper_lower_alpha (c : Char) (hc : c.isUpper = true) :
    c.toLower.isAlpha = true ∧ c.toLower.toUpper = c := by
  refine char_cases_upper (fun c => c.toLower.isAlpha = true ∧ c.toLower.toUpper = c) ?_ c hc
  decide

theorem upper_toUpper (c : Char) (hc : c.isUpper = true) : c.toUpper = c := by
  refine char_cases_upper (fun c => c.toUpper = c) ?_ c hc
  decide

theorem upper_alpha (c : Char) (hc : c.isUpper = true) : c.isAlpha = true := by
  simp [Char.isAlpha, hc]

theorem not_upper_lower (c : Char) (hc : c.isUpper = false) : c.toLower = c := by
  have h1 : ¬ (65 ≤ c.toNat ∧ c.toNat ≤ 90) := by
    intro h
    have : c.isUpper = true := by
      simp [Char.isUpper, UInt32.le_iff_toNat_le]; exact h
    simp [this] at hc
  unfold Char.toLower
  split
  · next h => exact absurd (by simpa [UInt32.le_iff_toNat_le] using h) h1
  · rfl

theorem alphanum_facts (c : Char) (hc : c.isAlphanum = true) :
    c ≠ '-' ∧ c ≠ '=' ∧ isSpace c = false ∧ c ≠ '"' ∧ c ≠ '\\' ∧ c ≠ '#' ∧ c ≠ ';' := by
  refine ⟨?_, ?_, ?_, ?_, ?_, ?_, ?_⟩
  · rintro rfl; revert hc; decide
  · rintro rfl; revert hc; decide
  · cases h : isSpace c with
    | false => rfl
    | true =>
      simp [isSpace] at h
      rcases h with ((((h | h) | h) | h) | h) | h <;> (subst h; revert hc; decide)
  all_goals (rintro rfl; revert hc; decide)

theorem alpha_alphanum (c : Char) (hc : c.isAlpha = true) : c.isAlphanum = true := by
  simp [Char.isAlphanum, hc]

theorem isSpace_dash : isSpace '-' = false := by decide

/-! ### keys -/

/-- What the loop of `transformKey_` accepts. -/
theorem transformTail_ok_iff (t r : Str) :
    transformTail t = .ok r ↔ ∃ (cs : Str) (segs : List Str), (∀ x ∈ cs, x.isAlphanum = true) ∧ (∀ s ∈ segs, IsSegment s) ∧
      t = cs ++ segs.flatMap (fun s => '-' :: s) ∧ r = cs ++ segs.flatMap capitalize := by
  constructor
  · intro h
    induction t using transformTail.induct generalizing r with
    | case1 => simp [transformTail] at h; exact ⟨[], [], by simp, by simp, by simp, by simp [h]⟩
    | case2 => simp [transformTail] at h
    | case3 d rest' hd r' hr ih =>
      rw [transformTail.eq_def] at h
      simp [hd, hr] at h
      obtain ⟨cs, segs, h1, h2, h3, h4⟩ := ih r' hr
      refine ⟨[], (d :: cs) :: segs, by simp, ?_, ?_, ?_⟩
      · intro s hs
        rcases List.mem_cons.1 hs with rfl | hs
        · exact ⟨d, cs, rfl, hd, h1⟩
        · exact h2 s hs
      · simp [h3]
      · simp [capitalize, ← h, h4]
    | case4 d rest' hd e he =>
      rw [transformTail.eq_def] at h
      simp [hd, he] at h
    | case5 d rest' hd =>
      rw [transformTail.eq_def] at h
      simp [hd] at h
    | case6 c rest hc hal r' hr ih =>
      rw [transformTail.eq_def] at h
      simp [hc, hal, hr] at h
      obtain ⟨cs, segs, h1, h2, h3, h4⟩ := ih r' hr
      refine ⟨c :: cs, segs, ?_, h2, by simp [h3], by simp [← h, h4]⟩
      intro x hx
      rcases List.mem_cons.1 hx with rfl | hx
      · exact hal
      · exact h1 x hx
    | case7 c rest hc hal e he =>
      rw [transformTail.eq_def] at h
      simp [hc, hal, he] at h
    | case8 c rest hc hal =>
      rw [transformTail.eq_def] at h
      simp [hc, hal] at h
  · rintro ⟨cs, segs, h1, h2, rfl, rfl⟩
    induction segs generalizing cs with
    | nil =>
      induction cs with
      | nil => simp [transformTail]
      | cons c cs ih =>
        have hc := h1 c (by simp)
        have := ih (fun x hx => h1 x (by simp [hx]))
        simp at this
        simp
        rw [transformTail.eq_def]
        simp [(alphanum_facts c hc).1, hc, this]
    | cons s segs ihs =>
      induction cs with
      | nil =>
        obtain ⟨c, cs', rfl, hc, hcs'⟩ := h2 s (by simp)
        have := ihs cs' hcs' (fun s hs => h2 s (by simp [hs]))
        simp
        rw [transformTail.eq_def]
        simp [hc, this, capitalize]
      | cons c cs ih =>
        have hc := h1 c (by simp)
        have := ih (fun x hx => h1 x (by simp [hx]))
        simp at this
        simp
        rw [transformTail.eq_def]
        simp [(alphanum_facts c hc).1, hc, this]

theorem transformKey_ok_iff (raw name : Str) : transformKey raw = .ok name ↔ Denotes raw name := by
  cases raw with
  | nil =>
    constructor
    · intro h; simp [transformKey] at h
    · rintro ⟨seg, segs, ⟨c, cs, rfl, -⟩, -, h, -⟩
      simp at h
  | cons c rest =>
    constructor
    · intro h
      simp only [transformKey] at h
      split at h
      · next hc =>
        split at h
        · next r hr =>
          obtain ⟨cs, segs, h1, h2, h3, h4⟩ := (transformTail_ok_iff _ _).1 hr
          refine ⟨c :: cs, segs, ⟨c, cs, rfl, hc, h1⟩, h2, by simp [h3], ?_⟩
          simp at h
          simp [capitalize, ← h, h4]
        · simp at h
      · simp at h
    · rintro ⟨seg, segs, ⟨c', cs, rfl, hc, hcs⟩, h2, h3, h4⟩
      simp at h3
      obtain ⟨rfl, h3⟩ := h3
      have := (transformTail_ok_iff rest (cs ++ segs.flatMap capitalize)).2 ⟨cs, segs, hcs, h2, h3, rfl⟩
      simp [transformKey, hc, this, h4, capitalize]

/-- No character of an option key ends it. -/
theorem Denotes.noStop {raw name : Str} (h : Denotes raw name) : ∀ c ∈ raw, stopsKey c = false := by
  obtain ⟨seg, segs, hseg, hsegs, rfl, -⟩ := h
  have key : ∀ s, IsSegment s → ∀ c ∈ s, stopsKey c = false := by
    rintro s ⟨d, ds, rfl, hd, hds⟩ c hc
    have hal : c.isAlphanum = true := by
      rcases List.mem_cons.1 hc with rfl | hc
      · exact alpha_alphanum _ hd
      · exact hds c hc
    have := alphanum_facts c hal
    simp [stopsKey, this.2.2.1, this.2.1]
  intro c hc
  rcases List.mem_append.1 hc with hc | hc
  · exact key _ hseg c hc
  · obtain ⟨s, hs, hc⟩ := List.mem_flatMap.1 hc
    rcases List.mem_cons.1 hc with rfl | hc
    · decide
    · exact key _ (hsegs s hs) c hc

theorem takeWhile_append_stop {p : Char → Bool} (xs ys : Str) (h : ∀ c ∈ xs, p c = true)
    (hy : ys = [] ∨ ∃ c r, ys = c :: r ∧ p c = false) : (xs ++ ys).takeWhile p = xs := by
  induction xs with
  | nil =>
    rcases hy with rfl | ⟨c, r, rfl, hc⟩
    · simp
    · simp [hc]
  | cons x xs ih =>
    have hx := h x (by simp)
    simp [hx, ih (fun c hc => h c (by simp [hc]))]

theorem dropWhile_append_stop {p : Char → Bool} (xs ys : Str) (h : ∀ c ∈ xs, p c = true)
    (hy : ys = [] ∨ ∃ c r, ys = c :: r ∧ p c = false) : (xs ++ ys).dropWhile p = ys := by
  induction xs with
  | nil =>
    rcases hy with rfl | ⟨c, r, rfl, hc⟩
    · simp
    · simp [hc]
  | cons x xs ih =>
    have hx := h x (by simp)
    simp [hx, ih (fun c hc => h c (by simp [hc]))]

theorem parseKey_append (raw rest : Str) (h : ∀ c ∈ raw, stopsKey c = false)
    (hr : rest = [] ∨ ∃ c r, rest = c :: r ∧ stopsKey c = true) : parseKey (raw ++ rest) = (raw, rest) := by
  have h' : ∀ c ∈ raw, (fun c => !stopsKey c) c = true := by
    intro c hc; simp [h c hc]
  have hr' : rest = [] ∨ ∃ c r, rest = c :: r ∧ (fun c => !stopsKey c) c = false := by
    rcases hr with h | ⟨c, r, h, hc⟩
    · exact .inl h
    · exact .inr ⟨c, r, h, by simp [hc]⟩
  unfold parseKey
  rw [takeWhile_append_stop raw rest h' hr', dropWhile_append_stop raw rest h' hr']

/-- `parseKey` splits its argument. -/
theorem parseKey_split (s : Str) : (parseKey s).1 ++ (parseKey s).2 = s := by
  simp [parseKey, List.takeWhile_append_dropWhile]

theorem Denotes.length_pos {raw name : Str} (h : Denotes raw name) :
    ∃ c rest, raw = c :: rest ∧ c.isAlpha = true := by
  obtain ⟨seg, segs, ⟨c, cs, rfl, hc, -⟩, -, rfl, -⟩ := h
  exact ⟨c, _, rfl, hc⟩

/-! ### dictionaries -/

@[simp] theorem Dict.get_nil {α : Type} (k : Str) : Dict.get ([] : Dict α) k = none := rfl

theorem Dict.get_cons {α : Type} (k' : Str) (v : α) (d : Dict α) (k : Str) :
    Dict.get ((k', v) :: d) k = if k' = k then some v else Dict.get d k := rfl

theorem Dict.get_set {α : Type} (d : Dict α) (k k' : Str) (v : α) :
    (d.set k v).get k' = if k' = k then some v else d.get k' := by
  induction d with
  | nil => simp only [Dict.set, Dict.get_cons, Dict.get_nil]; by_cases h : k = k' <;> simp [h, eq_comm]
  | cons p d ih =>
    obtain ⟨k'', v''⟩ := p
    simp only [Dict.set]
    by_cases h : k'' = k
    · subst h
      simp only [if_true, Dict.get_cons]
      by_cases h' : k'' = k'
      · simp [h']
      · have : ¬ k' = k'' := fun h => h' h.symm
        simp [h', this]
    · simp only [if_neg h, Dict.get_cons, ih]
      by_cases h' : k'' = k'
      · subst h'; simp [h]
      · simp [h']

/-! ### command line -/

theorem parseArgs_cons_option (arg : Str) (k v : Str) (rest seen : List Str) (tree : Dict Str)
    (h : IsOption arg (k, v)) (hk : k ∉ seen) :
    parseArgs (arg :: rest) seen tree = parseArgs rest (k :: seen) (tree.set k v) := by
  obtain ⟨raw, hd, rfl⟩ := h
  obtain ⟨c, cs, hraw, hc⟩ := hd.length_pos
  have hp := parseKey_append raw ('=' :: v) hd.noStop (.inr ⟨'=', v, rfl, by decide⟩)
  have ht := (transformKey_ok_iff raw k).2 hd
  subst hraw
  rw [parseArgs.eq_def]
  simp only [List.cons_append] at hp ⊢
  have hlen : ¬ (c :: (cs ++ '=' :: v)).length < 2 := by simp; omega
  simp only [if_neg hlen, hc, hp, ht, hk]
  simp

theorem parseArgs_ok_cons (arg : Str) (rest seen : List Str) (tree t' : Dict Str)
    (h : parseArgs (arg :: rest) seen tree = (.ok, t')) :
    ∃ k v, IsOption arg (k, v) ∧ k ∉ seen ∧ parseArgs rest (k :: seen) (tree.set k v) = (.ok, t') := by
  rw [parseArgs.eq_def] at h
  dsimp only at h
  split at h
  · next s =>
    split at h
    · simp at h
    · split at h
      · simp at h
      · next c cs _ =>
        split at h
        · simp at h
        · split at h
          · simp at h
          · next name hname =>
            split at h
            · simp at h
            · next hns =>
              split at h
              · next value hv =>
                refine ⟨name, value, ⟨(parseKey (c :: cs)).1, (transformKey_ok_iff _ _).1 hname, ?_⟩, hns, h⟩
                have := parseKey_split (c :: cs)
                rw [hv] at this
                simp [this]
              · simp at h
  · simp at h

theorem Dict.get_foldl_set (kvs : List (Str × Str)) (tree : Dict Str) (name : Str)
    (hnd : (kvs.map Prod.fst).Nodup) :
    (kvs.foldl (fun t kv => t.set kv.1 kv.2) tree).get name =
      match assigned kvs name with
      | some v => some v
      | none => tree.get name := by
  induction kvs generalizing tree with
  | nil => simp [assigned]
  | cons kv kvs ih =>
    obtain ⟨k, v⟩ := kv
    simp at hnd
    simp only [List.foldl_cons]
    rw [ih _ (by simpa using hnd.2)]
    simp only [assigned, List.find?_cons]
    by_cases h : k = name
    · subst h
      have : kvs.find? (fun kv => kv.1 == k) = none := by
        rw [List.find?_eq_none]
        rintro ⟨a, b⟩ hab
        simp
        rintro rfl
        exact hnd.1 b hab
      simp [this, Dict.get_set]
    · have hb : (k == name) = false := by simp [h]
      simp only [hb]
      have : ¬ name = k := fun h' => h h'.symm
      cases hf : (kvs.find? (fun kv => kv.1 == name)).map Prod.snd <;> simp_all [Dict.get_set]

end Verif.Params
