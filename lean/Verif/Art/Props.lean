import Verif.Art.Model
import Verif.Util.Chars
import Mathlib.Algebra.Order.Ring.Rat
import Mathlib.Algebra.Order.Field.Rat
import Mathlib.Data.Nat.Digits.Defs
import Mathlib.Data.List.Induction
import Mathlib.Tactic.Common
import Mathlib.Tactic.Linarith
import Mathlib.Tactic.Ring
set_option autoImplicit false
set_option linter.unusedSectionVars false
set_option linter.unusedSimpArgs false

/-!
# C146: grids with fractures survive the conversion from ART to DGF
-/

namespace Verif.Art

/-! ## Specification of the format -/

/-- Only white space. -/
def Spaces (l : List Char) : Prop := ∀ c ∈ l, isSpace c = true

/-- Nothing or a comment. -/
def Rest (l : List Char) : Prop := l = [] ∨ ∃ d, l = '%' :: d

/-- A line which carries no data. -/
def Blank (l : List Char) : Prop := ∃ ws c, Spaces ws ∧ Rest c ∧ l = ws ++ c

/-- A line with the given text, which may be indented and followed by a comment. -/
def Text (body l : List Char) : Prop := ∃ ws c, Spaces ws ∧ Rest c ∧ l = ws ++ body ++ c

/-- Digits which denote a number. -/
def Decimal (n : ℕ) (ds : List Char) : Prop :=
  ds ≠ [] ∧ (∀ c ∈ ds, c.isDigit = true) ∧
    Nat.ofDigits 10 (ds.reverse.map fun c => c.toNat - '0'.toNat) = n

/-- Numbers, each after white space, possibly with white space at the end. -/
inductive Numbers : List ℕ → List Char → Prop
  | nil (ws : List Char) : Spaces ws → Numbers [] ws
  | cons (n : ℕ) (ns : List ℕ) (ws ds rest : List Char) : Spaces ws → ws ≠ [] → Decimal n ds →
      Numbers ns rest → Numbers (n :: ns) (ws ++ ds ++ rest)

/-- The text of an edge or element: a number, a colon and indices.  The number is negative if the
flag is set. -/
def RecordText (negative : Bool) (ns : List ℕ) (body : List Char) : Prop :=
  ∃ d ds ws rest, Decimal d ds ∧ (negative = true → 0 < d) ∧ Spaces ws ∧ Numbers ns rest ∧
    body = (if negative then ['-'] else []) ++ ds ++ ws ++ [':'] ++ rest

/-- The text of a vertex is read by `parse`. -/
def VertexText {K : Type} (parse : List Char → K × K) (x : K × K) (body : List Char) : Prop :=
  parse body = x ∧ '%' ∉ body ∧ (∃ c t, body = c :: t ∧ isSpace c = false) ∧ body ≠ ['$']

/-- The lines write the items, one per line, possibly with blank lines in between. -/
inductive Writes {A : Type} (R : A → List Char → Prop) : List A → List (List Char) → Prop
  | nil : Writes R [] []
  | blank (as : List A) (l : List Char) (ls : List (List Char)) :
      Blank l → Writes R as ls → Writes R as (l :: ls)
  | item (a : A) (as : List A) (body l : List Char) (ls : List (List Char)) :
      R a body → Text body l → Writes R as ls → Writes R (a :: as) (l :: ls)

/-- A grid with fractures: coordinates, edges (pairs of vertices, and whether they are fractures) and
triangles (the indices of their edges). -/
structure Grid (K : Type) where
  vertices : List (K × K)
  edges : List (Bool × ℕ × ℕ)
  triangles : List (ℕ × ℕ × ℕ)

/-- The pair is one of the two directions of the edge between the vertices. -/
def Joins (e : ℕ × ℕ) (x y : ℕ) : Prop := e = (x, y) ∨ e = (y, x)

/-- The edges of the triangle join the three vertices, in some order. -/
def Grid.Corners {K : Type} (g : Grid K) (t : ℕ × ℕ × ℕ) (x y z : ℕ) : Prop :=
  x ≠ y ∧ y ≠ z ∧ z ≠ x ∧
  ∃ e f h, g.edges[t.1]?.map Prod.snd = some e ∧ g.edges[t.2.1]?.map Prod.snd = some f ∧
    g.edges[t.2.2]?.map Prod.snd = some h ∧ Joins e x y ∧ Joins f y z ∧ Joins h z x

/-- Twice the signed area of a triangle. -/
def area2 {K : Type} [Field K] (a b c : K × K) : K :=
  (a.1 * b.2 - b.1 * a.2) + (b.1 * c.2 - c.1 * b.2) + (c.1 * a.2 - a.1 * c.2)

/-- A grid is proper if edges join existing vertices and each triangle has three edges which join
three vertices that span an area (larger than `eps`). -/
def Grid.Proper {K : Type} [Field K] [LinearOrder K] (eps : K) (g : Grid K) : Prop :=
  (∀ e ∈ g.edges, e.2.1 < g.vertices.length ∧ e.2.2 < g.vertices.length) ∧
  ∀ t ∈ g.triangles, ∃ x y z a b c, g.Corners t x y z ∧ g.vertices[x]? = some a ∧
    g.vertices[y]? = some b ∧ g.vertices[z]? = some c ∧ eps < |area2 a b c|

/-- The lines are an ART file with the grid: three sections separated by lines with a dollar sign
(without anything but white space before it), then nothing but blank lines. -/
def Grid.File {K : Type} (parse : List Char → K × K) (g : Grid K) (lines : List (List Char)) :
    Prop :=
  ∃ vs d1 es d2 ts tail,
    Writes (VertexText parse) g.vertices vs ∧ Text ['$'] d1 ∧
    Writes (fun e => RecordText e.1 [e.2.1, e.2.2]) g.edges es ∧ Text ['$'] d2 ∧
    Writes (fun t body => ∃ neg, RecordText neg [t.1, t.2.1, t.2.2] body) g.triangles ts ∧
    (tail = [] ∨ ∃ d3 bs, Text ['$'] d3 ∧ (∀ b ∈ bs, Blank b) ∧ tail = d3 :: bs) ∧
    lines = vs ++ d1 :: es ++ d2 :: ts ++ tail

/-- A vertex of a fracture. -/
def Grid.OnFracture {K : Type} (g : Grid K) (v : ℕ) : Prop :=
  ∃ e ∈ g.edges, e.1 = true ∧ (e.2.1 = v ∨ e.2.2 = v)

/-! ## Reading of lines -/

theorem isSpace_percent : isSpace '%' = false := by decide

theorem trailing_zero (l : List Char) (fuel : ℕ) : trailing l fuel 0 = 0 := by
  cases fuel with
  | zero => rfl
  | succ n =>
    unfold trailing
    rw [if_neg]
    simp only [Nat.sub_zero, Bool.and_eq_true, not_and, decide_eq_true_eq, Bool.not_eq_true]
    intro _
    rw [List.getD_eq_getElem?_getD, List.getElem?_eq_none (le_refl _)]
    decide

theorem clean_eq (l : List Char) : clean l = (l.takeWhile (fun c => c != '%')).dropWhile isSpace := by
  simp [clean, stripTrailing, trailing_zero, stripLeading, stripComment]

theorem dropWhile_spaces {ws : List Char} (h : Spaces ws) (l : List Char) :
    (ws ++ l).dropWhile isSpace = l.dropWhile isSpace := by
  induction ws with
  | nil => rfl
  | cons c t ih =>
    have hc : isSpace c = true := h c (by simp)
    rw [List.cons_append, List.dropWhile_cons_of_pos hc]
    exact ih fun x hx => h x (by simp [hx])

theorem strip_text {ws body c : List Char} (hw : Spaces ws) (hb : '%' ∉ body) (hc : Rest c) :
    (ws ++ body ++ c).takeWhile (fun c => c != '%') = ws ++ body := by
  have hp : ∀ x ∈ ws ++ body, (x != '%') = true := by
    intro x hx
    rcases List.mem_append.1 hx with hx | hx
    · have := hw x hx
      simp only [bne_iff_ne]
      rintro rfl
      rw [isSpace_percent] at this
      cases this
    · simp only [bne_iff_ne]
      rintro rfl
      exact hb hx
  rw [List.takeWhile_append_of_pos hp]
  rcases hc with rfl | ⟨d, rfl⟩
  · simp
  · simp

theorem clean_blank {l : List Char} (h : Blank l) : clean l = [] := by
  obtain ⟨ws, c, hw, hc, rfl⟩ := h
  rw [clean_eq]
  have := strip_text (body := []) hw (by simp) hc
  rw [List.append_nil] at this
  rw [this]
  have := dropWhile_spaces hw []
  simpa using this

theorem clean_text {body l : List Char} (h : Text body l) (hb : '%' ∉ body)
    (hh : ∃ c t, body = c :: t ∧ isSpace c = false) : clean l = body := by
  obtain ⟨ws, c, hw, hc, rfl⟩ := h
  rw [clean_eq, strip_text hw hb hc, dropWhile_spaces hw]
  obtain ⟨x, t, rfl, hx⟩ := hh
  rw [List.dropWhile_cons_of_neg (by simp [hx])]

theorem value_eq {n : ℕ} {ds : List Char} (h : Decimal n ds) : value ds = n := by
  obtain ⟨-, -, h⟩ := h
  rw [← h]
  unfold value
  clear h
  induction ds using List.reverseRecOn with
  | nil => rfl
  | append_singleton t c ih =>
    simp only [List.foldl_append, List.foldl_cons, List.foldl_nil, List.reverse_append,
      List.reverse_cons, List.reverse_nil, List.nil_append, List.cons_append, List.map_cons,
      Nat.ofDigits_cons]
    rw [← ih]
    simp only [digit, Nat.cast_id]
    omega

theorem digit_not_space {c : Char} (h : c.isDigit = true) : isSpace c = false := by
  by_contra hs
  simp only [Bool.not_eq_false, isSpace, Bool.or_eq_true, beq_iff_eq] at hs
  rcases hs with ((((rfl | rfl) | rfl) | rfl) | rfl) | rfl <;> exact absurd h (by decide)

theorem digit_ne {c d : Char} (h : c.isDigit = true) (hd : d.isDigit = false) : c ≠ d := by
  rintro rfl
  rw [h] at hd
  cases hd

/-- Digits, followed by something which does not start with a digit. -/
def NoDigit (l : List Char) : Prop := l = [] ∨ ∃ c t, l = c :: t ∧ c.isDigit = false

theorem takeWhile_digits {ds rest : List Char} (h : ∀ c ∈ ds, c.isDigit = true)
    (hr : NoDigit rest) : (ds ++ rest).takeWhile Char.isDigit = ds ∧
      (ds ++ rest).dropWhile Char.isDigit = rest := by
  induction ds with
  | nil =>
    rcases hr with rfl | ⟨c, t, rfl, hc⟩
    · simp
    · simp [hc]
  | cons c t ih =>
    have hc := h c (by simp)
    obtain ⟨h1, h2⟩ := ih fun x hx => h x (by simp [hx])
    simp [hc, h1, h2]

theorem spaces_noDigit {ws rest : List Char} (h : Spaces ws) (hne : ws ≠ []) :
    NoDigit (ws ++ rest) := by
  cases ws with
  | nil => exact absurd rfl hne
  | cons c t =>
    refine Or.inr ⟨c, t ++ rest, rfl, ?_⟩
    have := h c (by simp)
    by_contra hd
    simp only [Bool.not_eq_false] at hd
    rw [digit_not_space hd] at this
    cases this

theorem numbers_noDigit {ns : List ℕ} {l : List Char} (h : Numbers ns l) : NoDigit l := by
  cases h with
  | nil _ hs =>
    cases l with
    | nil => exact Or.inl rfl
    | cons c t =>
      have := spaces_noDigit (rest := []) hs (by simp)
      simpa using this
  | cons n ns ws ds rest hs hne hd hr =>
    rw [List.append_assoc]
    exact spaces_noDigit hs hne

theorem readNat_eq {n : ℕ} {ws ds rest : List Char} (hs : Spaces ws) (hd : Decimal n ds)
    (hr : NoDigit rest) : readNat (ws ++ ds ++ rest) = some (n, rest) := by
  unfold readNat
  rw [List.append_assoc, dropWhile_spaces hs]
  have hne := hd.1
  have hdig := hd.2.1
  have hdrop : (ds ++ rest).dropWhile isSpace = ds ++ rest := by
    cases ds with
    | nil => exact absurd rfl hne
    | cons c t =>
      rw [List.cons_append, List.dropWhile_cons_of_neg]
      simp [digit_not_space (hdig c (by simp))]
  obtain ⟨h1, h2⟩ := takeWhile_digits hdig hr
  simp only [hdrop, h1, h2, if_neg hne, value_eq hd]

theorem readNat_spaces {ws : List Char} (hs : Spaces ws) : readNat ws = none := by
  unfold readNat
  have := dropWhile_spaces hs []
  rw [List.append_nil] at this
  rw [this]
  rfl

theorem readNats_eq {ns : List ℕ} {l : List Char} (h : Numbers ns l) :
    ∀ fuel, l.length ≤ fuel → readNats fuel l = ns := by
  induction h with
  | nil ws hs =>
    intro fuel hf
    cases fuel with
    | zero => rfl
    | succ f => simp [readNats, readNat_spaces hs]
  | cons n ns ws ds rest hs hne hd hr ih =>
    intro fuel hf
    cases fuel with
    | zero =>
      cases ws with
      | nil => exact absurd rfl hne
      | cons c t => simp at hf
    | succ f =>
      rw [readNats, readNat_eq hs hd (numbers_noDigit hr)]
      simp only
      rw [ih f]
      have h1 : 0 < ws.length := List.length_pos_iff.2 hne
      simp only [List.length_append] at hf
      omega

theorem numbers_head {ns : List ℕ} {l : List Char} (h : Numbers ns l) :
    l = [] ∨ ∃ c t, l = c :: t ∧ isSpace c = true := by
  cases h with
  | nil _ hs =>
    cases l with
    | nil => exact Or.inl rfl
    | cons c t => exact Or.inr ⟨c, t, rfl, hs c (by simp)⟩
  | cons n ns ws ds rest hs hne hd hr =>
    cases ws with
    | nil => exact absurd rfl hne
    | cons c t => exact Or.inr ⟨c, t ++ ds ++ rest, rfl, hs c (by simp)⟩

theorem readRecord_eq {neg : Bool} {ns : List ℕ} {body : List Char} (h : RecordText neg ns body) :
    ∃ d : ℤ, readRecord body = some (d, ns) ∧ (d < 0 ↔ neg = true) := by
  obtain ⟨d, ds, ws, rest, hd, hpos, hs, hn, rfl⟩ := h
  have hcolon : NoDigit (ws ++ [':'] ++ rest) := by
    cases ws with
    | nil => exact Or.inr ⟨':', rest, rfl, by decide⟩
    | cons c t =>
      rw [List.append_assoc]
      exact spaces_noDigit hs (by simp)
  obtain ⟨h1, h2⟩ := takeWhile_digits hd.2.1 hcolon
  have hhead : ∃ c t, ds = c :: t ∧ c.isDigit = true := by
    cases hds : ds with
    | nil => exact absurd hds hd.1
    | cons c t => exact ⟨c, t, rfl, hd.2.1 c (by simp [hds])⟩
  have hint : readInt ((if neg then ['-'] else []) ++ ds ++ ws ++ [':'] ++ rest) =
      some (if neg then -(d : ℤ) else (d : ℤ), ws ++ [':'] ++ rest) := by
    have hassoc : ds ++ ws ++ [':'] ++ rest = ds ++ (ws ++ [':'] ++ rest) := by
      simp [List.append_assoc]
    cases neg with
    | true =>
      simp only [if_true]
      have : ['-'] ++ ds ++ ws ++ [':'] ++ rest = '-' :: (ds ++ (ws ++ [':'] ++ rest)) := by
        simp [List.append_assoc]
      rw [this]
      unfold readInt
      have h3 : ('-' :: (ds ++ (ws ++ [':'] ++ rest))).dropWhile isSpace =
          '-' :: (ds ++ (ws ++ [':'] ++ rest)) :=
        List.dropWhile_cons_of_neg (by decide)
      rw [h3]
      simp only [h1, h2, if_neg hd.1, value_eq hd]
    | false =>
      simp only [Bool.false_eq_true, if_false, List.nil_append]
      rw [hassoc]
      obtain ⟨c, t, hct, hc⟩ := hhead
      unfold readInt
      have h3 : (ds ++ (ws ++ [':'] ++ rest)).dropWhile isSpace = ds ++ (ws ++ [':'] ++ rest) := by
        rw [hct, List.cons_append, List.dropWhile_cons_of_neg]
        simp [digit_not_space hc]
      rw [h3]
      have hm : c ≠ '-' := digit_ne hc (by decide)
      have h4 : ds ++ (ws ++ [':'] ++ rest) = c :: (t ++ (ws ++ [':'] ++ rest)) := by
        rw [hct]; rfl
      split
      · rename_i r heq
        rw [h4] at heq
        exact absurd (List.cons.inj heq).1 hm
      · simp only [h1, h2, if_neg hd.1, value_eq hd]
  have hword : readWord (ws ++ [':'] ++ rest) = ([':'], rest) := by
    unfold readWord
    rw [List.append_assoc, dropWhile_spaces hs]
    have h3 : ([':'] ++ rest).dropWhile isSpace = ':' :: rest :=
      List.dropWhile_cons_of_neg (by decide)
    rw [h3]
    have hc : isSpace ':' = false := by decide
    rcases numbers_head hn with rfl | ⟨c, t, rfl, hc'⟩
    · simp [hc]
    · simp [hc, hc']
  refine ⟨if neg then -(d : ℤ) else (d : ℤ), ?_, ?_⟩
  · unfold readRecord
    rw [hint]
    simp only [hword, if_true]
    rw [readNats_eq hn _ (le_refl _)]
  · cases neg with
    | true =>
      have := hpos rfl
      simp only [if_true]
      constructor
      · intro _; trivial
      · intro _; omega
    | false =>
      simp only [Bool.false_eq_true, if_false, iff_false, not_lt]
      omega

theorem record_chars {neg : Bool} {ns : List ℕ} {body : List Char} (h : RecordText neg ns body) :
    '%' ∉ body ∧ (∃ c t, body = c :: t ∧ isSpace c = false) ∧ body ≠ ['$'] := by
  obtain ⟨d, ds, ws, rest, hd, hpos, hs, hn, rfl⟩ := h
  have hp : ∀ {l : List Char}, (∀ c ∈ l, c.isDigit = true) → '%' ∉ l := by
    intro l hl hc
    exact absurd (hl _ hc) (by decide)
  have hsp : ∀ {l : List Char}, Spaces l → '%' ∉ l := by
    intro l hl hc
    exact absurd (hl _ hc) (by decide)
  have hrest : '%' ∉ rest := by
    clear hpos
    induction hn with
    | nil ws hs => exact hsp hs
    | cons n ns ws ds rest hs hne hd hr ih =>
      simp only [List.mem_append, not_or]
      exact ⟨⟨hsp hs, hp hd.2.1⟩, ih⟩
  obtain ⟨c, t, hct, hc⟩ : ∃ c t, ds = c :: t ∧ c.isDigit = true := by
    cases hds : ds with
    | nil => exact absurd hds hd.1
    | cons c t => exact ⟨c, t, rfl, hd.2.1 c (by simp [hds])⟩
  refine ⟨?_, ?_, ?_⟩
  · simp only [List.mem_append, not_or]
    refine ⟨⟨⟨⟨?_, hp hd.2.1⟩, hsp hs⟩, by decide⟩, hrest⟩
    cases neg <;> decide
  · cases neg with
    | true => exact ⟨'-', _, rfl, by decide⟩
    | false => exact ⟨c, _, by rw [hct]; rfl, digit_not_space hc⟩
  · intro he
    have := congrArg List.length he
    have hl : 0 < ds.length := List.length_pos_iff.2 hd.1
    simp only [List.length_append, List.length_cons, List.length_nil] at this
    omega

/-! ## Reading of files -/

variable {K : Type} [Field K] [LinearOrder K]

theorem readAll_append (parse : List Char → K × K) (eps : K) (a b : List (List Char))
    (s : State K) : readAll parse eps (a ++ b) s =
      (readAll parse eps a s).bind (readAll parse eps b) := by
  induction a generalizing s with
  | nil => rfl
  | cons l t ih =>
    simp only [List.cons_append, readAll]
    cases step parse eps s l with
    | none => rfl
    | some s' => simp [ih]

theorem step_blank (parse : List Char → K × K) (eps : K) (s : State K) {l : List Char}
    (h : Blank l) : step parse eps s l = some s := by
  simp [step, clean_blank h]

theorem step_dollar (parse : List Char → K × K) (eps : K) (s : State K) {l : List Char}
    (h : Text ['$'] l) : step parse eps s l = some { s with mode := match s.mode with
      | .vertex => .edge
      | .edge => .element
      | .element => .finished
      | .finished => .finished } := by
  have : clean l = ['$'] := clean_text h (by decide) ⟨'$', [], rfl, by decide⟩
  simp only [step, this, if_true]
  cases s.mode <;> rfl

theorem readAll_blanks (parse : List Char → K × K) (eps : K) (s : State K)
    (bs : List (List Char)) (h : ∀ b ∈ bs, Blank b) : readAll parse eps bs s = some s := by
  induction bs with
  | nil => rfl
  | cons b t ih =>
    rw [readAll, step_blank parse eps s (h b (by simp))]
    exact ih fun x hx => h x (by simp [hx])

theorem readAll_vertices (parse : List Char → K × K) (eps : K) {vs : List (K × K)}
    {ls : List (List Char)} (h : Writes (VertexText parse) vs ls) :
    ∀ s : State K, s.mode = .vertex → readAll parse eps ls s =
      some { s with vertices := s.vertices ++ vs.map fun v => (v, false) } := by
  induction h with
  | nil => intro s _; simp [readAll]
  | blank as l ls hb _ ih =>
    intro s hs
    rw [readAll, step_blank parse eps s hb]
    exact ih s hs
  | item a as body l ls hR ht _ ih =>
    intro s hs
    obtain ⟨h1, h2, h3, h4⟩ := hR
    have hcl := clean_text ht h2 h3
    have hne : body ≠ [] := by
      obtain ⟨c, t, rfl, -⟩ := h3
      simp
    have hstep : step parse eps s l = some { s with vertices := s.vertices ++ [(a, false)] } := by
      unfold step
      simp only [hcl, if_neg h4, if_neg hne, hs, h1]
    rw [readAll, hstep]
    simp only [Option.bind_some]
    rw [ih { s with vertices := s.vertices ++ [(a, false)] } hs]
    simp [List.append_assoc]

/-- The marks after some edges. -/
def marks (vs : List ((K × K) × Bool)) (es : List (Bool × ℕ × ℕ)) : List ((K × K) × Bool) :=
  es.foldl (fun vs e => if e.1 then mark (mark vs e.2.1) e.2.2 else vs) vs

omit [Field K] [LinearOrder K] in
theorem mark_length (vs : List ((K × K) × Bool)) (i : ℕ) : (mark vs i).length = vs.length := by
  simp [mark]

theorem readAll_edges (parse : List Char → K × K) (eps : K) {es : List (Bool × ℕ × ℕ)}
    {ls : List (List Char)} (h : Writes (fun e => RecordText e.1 [e.2.1, e.2.2]) es ls) :
    ∀ s : State K, s.mode = .edge →
      (∀ e ∈ es, e.2.1 < s.vertices.length ∧ e.2.2 < s.vertices.length) →
      readAll parse eps ls s = some { s with
        vertices := marks s.vertices es
        edges := s.edges ++ es.map Prod.snd
        fractures := s.fractures ++ (es.filter fun e => e.1).map Prod.snd } := by
  induction h with
  | nil => intro s _ _; simp [readAll, marks]
  | blank as l ls hb _ ih =>
    intro s hs hlt
    rw [readAll, step_blank parse eps s hb]
    exact ih s hs hlt
  | item a as body l ls hR ht _ ih =>
    intro s hs hlt
    obtain ⟨h2, h3, h4⟩ := record_chars hR
    obtain ⟨d, hrec, hd⟩ := readRecord_eq hR
    have hcl := clean_text ht h2 h3
    have hne : body ≠ [] := by
      obtain ⟨c, t, rfl, -⟩ := h3
      simp
    have ha := hlt a (by simp)
    obtain ⟨flag, i, j⟩ := a
    simp only at ha hrec hd
    cases flag with
    | true =>
      have hstep : step parse eps s l = some { s with
          edges := s.edges ++ [(i, j)], fractures := s.fractures ++ [(i, j)],
          vertices := mark (mark s.vertices i) j } := by
        unfold step
        simp only [hcl, if_neg h4, if_neg hne, hs, hrec, if_pos ha, if_pos (hd.2 rfl)]
      rw [readAll, hstep]
      simp only [Option.bind_some]
      rw [ih { s with
          edges := s.edges ++ [(i, j)], fractures := s.fractures ++ [(i, j)],
          vertices := mark (mark s.vertices i) j } hs (by
        intro e he
        have := hlt e (by simp [he])
        simpa [mark_length] using this)]
      simp [marks, List.append_assoc]
    | false =>
      have hnd : ¬ d < 0 := fun h => by simpa using hd.1 h
      have hstep : step parse eps s l = some { s with edges := s.edges ++ [(i, j)] } := by
        unfold step
        simp only [hcl, if_neg h4, if_neg hne, hs, hrec, if_pos ha, if_neg hnd]
      rw [readAll, hstep]
      simp only [Option.bind_some]
      rw [ih { s with edges := s.edges ++ [(i, j)] } hs (by
        intro e he
        exact hlt e (by simp [he]))]
      simp [marks, List.append_assoc]

/-- What is read for a triangle. -/
def simplex (eps : K) (vs : List ((K × K) × Bool)) (edges : List (ℕ × ℕ)) (t : ℕ × ℕ × ℕ) :
    Option (List ℕ) :=
  match edges[t.1]?, edges[t.2.1]?, edges[t.2.2]? with
  | some e, some f, some g => orient eps vs (elementVertices [e, f, g])
  | _, _, _ => none

theorem readAll_triangles (parse : List Char → K × K) (eps : K) {ts : List (ℕ × ℕ × ℕ)}
    {ls : List (List Char)}
    (h : Writes (fun t body => ∃ neg, RecordText neg [t.1, t.2.1, t.2.2] body) ts ls) :
    ∀ s : State K, s.mode = .element → (∀ t ∈ ts, (simplex eps s.vertices s.edges t).isSome) →
      readAll parse eps ls s = some { s with
        elements := s.elements ++ ts.map fun t => (simplex eps s.vertices s.edges t).getD [] } := by
  induction h with
  | nil => intro s _ _; simp [readAll]
  | blank as l ls hb _ ih =>
    intro s hs hlt
    rw [readAll, step_blank parse eps s hb]
    exact ih s hs hlt
  | item a as body l ls hR ht _ ih =>
    intro s hs hlt
    obtain ⟨neg, hR⟩ := hR
    obtain ⟨h2, h3, h4⟩ := record_chars hR
    obtain ⟨d, hrec, hd⟩ := readRecord_eq hR
    have hcl := clean_text ht h2 h3
    have hne : body ≠ [] := by
      obtain ⟨c, t, rfl, -⟩ := h3
      simp
    obtain ⟨vs, hvs⟩ := Option.isSome_iff_exists.1 (hlt a (by simp))
    have hstep : step parse eps s l = some { s with elements := s.elements ++ [vs] } := by
      unfold step
      simp only [hcl, if_neg h4, if_neg hne, hs, hrec]
      unfold simplex at hvs
      revert hvs
      cases s.edges[a.1]? <;> cases s.edges[a.2.1]? <;> cases s.edges[a.2.2]? <;> simp
      intro h
      rw [h]
    rw [readAll, hstep]
    simp only [Option.bind_some]
    rw [ih { s with elements := s.elements ++ [vs] } hs (fun t ht => hlt t (by simp [ht]))]
    simp [List.append_assoc, hvs]

omit [Field K] [LinearOrder K] in
theorem mark_get (vs : List ((K × K) × Bool)) (i k : ℕ) :
    (mark vs i)[k]? = vs[k]?.map fun p => (p.1, p.2 || decide (k = i)) := by
  unfold mark
  rw [List.getElem?_modify]
  by_cases h : i = k
  · subst h
    cases vs[i]? <;> simp
  · cases vs[k]? <;> simp [h, Ne.symm h]

omit [Field K] [LinearOrder K] in
theorem marks_get (vs : List ((K × K) × Bool)) (es : List (Bool × ℕ × ℕ)) (k : ℕ) :
    (marks vs es)[k]? = vs[k]?.map fun p =>
      (p.1, p.2 || decide (∃ e ∈ es, e.1 = true ∧ (e.2.1 = k ∨ e.2.2 = k))) := by
  induction es generalizing vs with
  | nil => cases h : vs[k]? <;> simp [marks, h]
  | cons e t ih =>
    have hm : marks vs (e :: t) =
        marks (if e.1 then mark (mark vs e.2.1) e.2.2 else vs) t := rfl
    rw [hm, ih]
    obtain ⟨flag, i, j⟩ := e
    cases flag with
    | true =>
      simp only [if_true, mark_get]
      cases vs[k]? with
      | none => rfl
      | some p =>
        simp only [Option.map_some, Option.some.injEq, Prod.mk.injEq, true_and]
        simp only [List.exists_mem_cons_iff, true_and]
        rw [Bool.eq_iff_iff]
        simp only [Bool.or_eq_true, decide_eq_true_eq]
        constructor
        · rintro (((h | h) | h) | h)
          · exact Or.inl h
          · exact Or.inr (Or.inl (Or.inl h.symm))
          · exact Or.inr (Or.inl (Or.inr h.symm))
          · exact Or.inr (Or.inr h)
        · rintro (h | (h | h) | h)
          · exact Or.inl (Or.inl (Or.inl h))
          · exact Or.inl (Or.inl (Or.inr h.symm))
          · exact Or.inl (Or.inr h.symm)
          · exact Or.inr h
    | false =>
      simp only [Bool.false_eq_true, if_false, List.exists_mem_cons_iff, false_and, false_or]

omit [LinearOrder K] in
theorem det_area (a b c : K × K) : det a b c = area2 a b c := by
  unfold det area2
  ring

/-- The vertices of a triangle are found, whatever the order and direction of its edges. -/
theorem elementVertices_perm {e f h : ℕ × ℕ} {x y z : ℕ} (hxy : x ≠ y) (hyz : y ≠ z) (hzx : z ≠ x)
    (he : Joins e x y) (hf : Joins f y z) (hh : Joins h z x) :
    elementVertices [e, f, h] = [x, y, z] ∨ elementVertices [e, f, h] = [y, x, z] := by
  rcases he with rfl | rfl <;> rcases hf with rfl | rfl <;> rcases hh with rfl | rfl <;>
    simp [elementVertices, addVertex, hxy, hyz, hzx, hxy.symm, hyz.symm, hzx.symm]

theorem orient_spec (eps : K) [IsStrictOrderedRing K] (heps : 0 ≤ eps)
    (vs : List ((K × K) × Bool)) (a b c : ℕ) (p q r : (K × K) × Bool)
    (ha : vs[a]? = some p) (hb : vs[b]? = some q) (hc : vs[c]? = some r)
    (hd : eps < |area2 p.1 q.1 r.1|) :
    (orient eps vs [a, b, c] = some [a, b, c] ∧ 0 < area2 p.1 q.1 r.1) ∨
    (orient eps vs [a, b, c] = some [a, c, b] ∧ 0 < area2 p.1 r.1 q.1) := by
  unfold orient
  simp only [ha, hb, hc, det_area, gt_iff_lt, if_pos hd]
  by_cases hn : area2 p.1 q.1 r.1 < 0
  · right
    rw [if_pos hn]
    refine ⟨rfl, ?_⟩
    have : area2 p.1 r.1 q.1 = -area2 p.1 q.1 r.1 := by unfold area2; ring
    rw [this]
    linarith
  · left
    rw [if_neg hn]
    refine ⟨rfl, ?_⟩
    rcases lt_or_eq_of_le (not_lt.1 hn) with h | h
    · exact h
    · rw [← h, abs_zero] at hd
      exact absurd hd (not_lt.2 heps)

/-- A list of vertices is a triangle of the grid in mathematically positive direction. -/
def Positive (g : Grid K) (s : List ℕ) : Prop :=
  ∃ x y z a b c, s = [x, y, z] ∧ g.vertices[x]? = some a ∧ g.vertices[y]? = some b ∧
    g.vertices[z]? = some c ∧ 0 < area2 a b c

/-- The simplex made for a triangle. -/
theorem simplex_spec (eps : K) [IsStrictOrderedRing K] (heps : 0 ≤ eps) (g : Grid K)
    (hg : g.Proper eps) (vs : List ((K × K) × Bool))
    (hvs : ∀ k : ℕ, vs[k]?.map Prod.fst = g.vertices[k]?) (t : ℕ × ℕ × ℕ) (ht : t ∈ g.triangles) :
    ∃ s, simplex eps vs (g.edges.map Prod.snd) t = some s ∧ Positive g s ∧
      ∀ x y z, g.Corners t x y z → s.Perm [x, y, z] := by
  obtain ⟨x, y, z, a, b, c, hcor, ha, hb, hc, harea⟩ := hg.2 t ht
  obtain ⟨hxy, hyz, hzx, e, f, h, h1, h2, h3, he, hf, hh⟩ := hcor
  have get : ∀ {k : ℕ} {v : K × K}, g.vertices[k]? = some v → ∃ fl, vs[k]? = some (v, fl) := by
    intro k v hk
    have := hvs k
    rw [hk] at this
    cases hv : vs[k]? with
    | none => rw [hv] at this; cases this
    | some p =>
      rw [hv] at this
      simp only [Option.map_some, Option.some.injEq] at this
      exact ⟨p.2, by rw [← this]⟩
  obtain ⟨fa, ha'⟩ := get ha
  obtain ⟨fb, hb'⟩ := get hb
  obtain ⟨fc, hc'⟩ := get hc
  have hs : simplex eps vs (g.edges.map Prod.snd) t = orient eps vs (elementVertices [e, f, h]) := by
    unfold simplex
    rw [List.getElem?_map, List.getElem?_map, List.getElem?_map, h1, h2, h3]
  have hperm : ∃ s, simplex eps vs (g.edges.map Prod.snd) t = some s ∧ Positive g s ∧
      s.Perm [x, y, z] := by
    rw [hs]
    rcases elementVertices_perm hxy hyz hzx he hf hh with hv | hv
    · rw [hv]
      rcases orient_spec eps heps vs x y z _ _ _ ha' hb' hc' harea with ⟨ho, hp⟩ | ⟨ho, hp⟩
      · exact ⟨_, ho, ⟨x, y, z, a, b, c, rfl, ha, hb, hc, hp⟩, List.Perm.refl _⟩
      · exact ⟨_, ho, ⟨x, z, y, a, c, b, rfl, ha, hc, hb, hp⟩, (List.Perm.swap _ _ _).cons _⟩
    · rw [hv]
      have harea' : eps < |area2 b a c| := by
        have : area2 b a c = -area2 a b c := by unfold area2; ring
        rwa [this, abs_neg]
      rcases orient_spec eps heps vs y x z _ _ _ hb' ha' hc' harea' with ⟨ho, hp⟩ | ⟨ho, hp⟩
      · exact ⟨_, ho, ⟨y, x, z, b, a, c, rfl, hb, ha, hc, hp⟩, List.Perm.swap _ _ _⟩
      · refine ⟨_, ho, ⟨y, z, x, b, c, a, rfl, hb, hc, ha, hp⟩, ?_⟩
        exact ((List.Perm.swap _ _ _).cons _).trans (List.Perm.swap _ _ _)
  obtain ⟨s, hs1, hs2, hs3⟩ := hperm
  refine ⟨s, hs1, hs2, fun x' y' z' hcor' => ?_⟩
  obtain ⟨hxy', hyz', hzx', e', f', h', h1', h2', h3', he', hf', hh'⟩ := hcor'
  rw [h1] at h1'; rw [h2] at h2'; rw [h3] at h3'
  cases h1'; cases h2'; cases h3'
  have p1 : (elementVertices [e, f, h]).Perm [x, y, z] := by
    rcases elementVertices_perm hxy hyz hzx he hf hh with hv | hv <;> rw [hv]
    exact List.Perm.swap _ _ _
  have p2 : (elementVertices [e, f, h]).Perm [x', y', z'] := by
    rcases elementVertices_perm hxy' hyz' hzx' he' hf' hh' with hv | hv <;> rw [hv]
    exact List.Perm.swap _ _ _
  exact hs3.trans (p1.symm.trans p2)

/-- The result of the conversion. -/
theorem convert_spec (parse : List Char → K × K) (eps : K) [IsStrictOrderedRing K] (heps : 0 ≤ eps)
    (g : Grid K) (hg : g.Proper eps) (lines : List (List Char)) (hf : g.File parse lines) :
    ∃ dgf, convert parse eps lines = some dgf ∧
      dgf.vertices = marks (g.vertices.map fun v => (v, false)) g.edges ∧
      dgf.hasParameters = !(g.edges.filter fun e => e.1).isEmpty ∧
      dgf.simplices = g.triangles.map fun t =>
        (simplex eps dgf.vertices (g.edges.map Prod.snd) t).getD [] := by
  obtain ⟨vs, d1, es, d2, ts, tail, hvs, hd1, hes, hd2, hts, htail, rfl⟩ := hf
  set verts := marks (g.vertices.map fun v => (v, false)) g.edges with hverts
  have hget : ∀ k : ℕ, verts[k]?.map Prod.fst = g.vertices[k]? := by
    intro k
    rw [hverts, marks_get, List.getElem?_map]
    cases g.vertices[k]? <;> simp
  have hsimp : ∀ t ∈ g.triangles, (simplex eps verts (g.edges.map Prod.snd) t).isSome = true := by
    intro t ht
    obtain ⟨s, hs, -⟩ := simplex_spec eps heps g hg verts hget t ht
    rw [hs]; rfl
  have key : ∃ m, readAll parse eps (vs ++ d1 :: es ++ d2 :: ts ++ tail) State.initial =
      some ⟨m, verts, g.edges.map Prod.snd, (g.edges.filter fun e => e.1).map Prod.snd,
        g.triangles.map fun t => (simplex eps verts (g.edges.map Prod.snd) t).getD []⟩ := by
    have hl : vs ++ d1 :: es ++ d2 :: ts ++ tail = vs ++ (d1 :: (es ++ (d2 :: (ts ++ tail)))) := by
      simp [List.append_assoc]
    rw [hl, readAll_append, readAll_vertices parse eps hvs State.initial rfl]
    simp only [Option.bind_some, readAll]
    rw [step_dollar parse eps _ hd1]
    simp only [Option.bind_some, State.initial, List.nil_append]
    rw [readAll_append, readAll_edges parse eps hes _ rfl (by
      intro e he
      simpa using hg.1 e he)]
    simp only [Option.bind_some, readAll, List.nil_append]
    rw [step_dollar parse eps _ hd2]
    simp only [Option.bind_some]
    rw [readAll_append, readAll_triangles parse eps hts _ rfl hsimp]
    simp only [Option.bind_some, List.nil_append]
    rcases htail with rfl | ⟨d3, bs, h3, hbs, rfl⟩
    · exact ⟨.element, rfl⟩
    · rw [readAll, step_dollar parse eps _ h3]
      simp only [Option.bind_some]
      rw [readAll_blanks parse eps _ bs hbs]
      exact ⟨.finished, rfl⟩
  obtain ⟨m, hm⟩ := key
  refine ⟨⟨verts, !((g.edges.filter fun e => e.1).map Prod.snd).isEmpty,
    g.triangles.map fun t => (simplex eps verts (g.edges.map Prod.snd) t).getD []⟩, ?_, rfl, ?_, rfl⟩
  · unfold convert
    rw [hm]
    rfl
  · simp

/-- **C146** (geometry).  For every proper grid with fractures and every ART file which contains it,
with any comments, empty lines and indentation, the conversion succeeds; the DGF file has the same
vertices in the same order, and for each triangle a simplex with the same three vertices, in
mathematically positive direction, whatever the order and direction of its edges.

Missing: lines with a dollar sign and white space behind it (`C146_separator_violated`). -/
theorem C146_geometry_partial [IsStrictOrderedRing K] (parse : List Char → K × K) (eps : K)
    (heps : 0 ≤ eps) (g : Grid K) (hg : g.Proper eps) (lines : List (List Char))
    (hf : g.File parse lines) :
    ∃ dgf, convert parse eps lines = some dgf ∧
      dgf.vertices.map Prod.fst = g.vertices ∧
      List.Forall₂ (fun t s => Positive g s ∧ ∀ x y z, g.Corners t x y z → s.Perm [x, y, z])
        g.triangles dgf.simplices := by
  obtain ⟨dgf, h1, h2, h3, h4⟩ := convert_spec parse eps heps g hg lines hf
  have hget : ∀ k : ℕ, dgf.vertices[k]?.map Prod.fst = g.vertices[k]? := by
    intro k
    rw [h2, marks_get, List.getElem?_map]
    cases g.vertices[k]? <;> simp
  refine ⟨dgf, h1, ?_, ?_⟩
  · apply List.ext_getElem?
    intro k
    rw [List.getElem?_map, hget]
  · rw [h4]
    have : ∀ ts : List (ℕ × ℕ × ℕ), (∀ t ∈ ts, t ∈ g.triangles) →
        List.Forall₂ (fun t s => Positive g s ∧ ∀ x y z, g.Corners t x y z → s.Perm [x, y, z]) ts
          (ts.map fun t => (simplex eps dgf.vertices (g.edges.map Prod.snd) t).getD []) := by
      intro ts hts
      induction ts with
      | nil => exact List.Forall₂.nil
      | cons t rest ih =>
        refine List.Forall₂.cons ?_ (ih fun x hx => hts x (by simp [hx]))
        obtain ⟨s, hs1, hs2, hs3⟩ := simplex_spec eps heps g hg dgf.vertices hget t (hts t (by simp))
        show Positive g ((simplex eps dgf.vertices (g.edges.map Prod.snd) t).getD []) ∧ _
        simp only [hs1, Option.getD_some]
        exact ⟨hs2, hs3⟩
    exact this _ fun t ht => ht

/-- Two vertices are joined by an edge of a triangle of the grid. -/
def Grid.Side (g : Grid K) (x y : ℕ) : Prop :=
  ∃ t ∈ g.triangles, ∃ z, g.Corners t x y z ∨ g.Corners t y z x ∨ g.Corners t z x y ∨
    g.Corners t y x z ∨ g.Corners t x z y ∨ g.Corners t z y x

theorem foldl_add_isEdge (es : List (ℕ × ℕ)) (p : ℕ × ℕ → Prop) [DecidablePred p] (num : ℕ → ℕ)
    (m : Fracture.Mapper) (a b : ℕ) :
    (es.foldl (fun m e => if p e then m.add (num e.1) (num e.2) else m) m).isEdge a b = true ↔
      m.isEdge a b = true ∨ ∃ e ∈ es, p e ∧
        Fracture.mkEdge (num e.1) (num e.2) = Fracture.mkEdge a b := by
  induction es generalizing m with
  | nil => simp
  | cons e t ih =>
    simp only [List.foldl_cons]
    rw [ih]
    by_cases hp : p e
    · rw [if_pos hp]
      have hm : (m.add (num e.1) (num e.2)).isEdge a b = true ↔
          Fracture.mkEdge a b = Fracture.mkEdge (num e.1) (num e.2) ∨ m.isEdge a b = true := by
        unfold Fracture.Mapper.isEdge Fracture.Mapper.add
        rw [decide_eq_true_eq, decide_eq_true_eq, List.mem_cons]
      rw [hm]
      constructor
      · rintro ((h | h) | ⟨f, hf, h⟩)
        · exact Or.inr ⟨e, by simp, hp, h.symm⟩
        · exact Or.inl h
        · exact Or.inr ⟨f, by simp [hf], h⟩
      · rintro (h | ⟨f, hf, hpf, h⟩)
        · exact Or.inl (Or.inr h)
        · rcases List.mem_cons.1 hf with rfl | hf
          · exact Or.inl (Or.inl h.symm)
          · exact Or.inr ⟨f, hf, hpf, h⟩
    · rw [if_neg hp]
      constructor
      · rintro (h | ⟨f, hf, h⟩)
        · exact Or.inl h
        · exact Or.inr ⟨f, by simp [hf], h⟩
      · rintro (h | ⟨f, hf, hpf, h⟩)
        · exact Or.inl h
        · rcases List.mem_cons.1 hf with rfl | hf
          · exact absurd hpf hp
          · exact Or.inr ⟨f, hf, hpf, h⟩

theorem mkEdge_inj {num : ℕ → ℕ} (hnum : Function.Injective num) {a b c d : ℕ} :
    Fracture.mkEdge (num a) (num b) = Fracture.mkEdge (num c) (num d) ↔
      (a = c ∧ b = d) ∨ (a = d ∧ b = c) := by
  unfold Fracture.mkEdge
  rw [Prod.mk.injEq]
  constructor
  · rintro ⟨h1, h2⟩
    rcases le_total (num a) (num b) with h | h <;> rcases le_total (num c) (num d) with h' | h' <;>
      simp only [min_eq_left h, min_eq_right h, max_eq_left h, max_eq_right h, min_eq_left h',
        min_eq_right h', max_eq_left h', max_eq_right h'] at h1 h2
    · exact Or.inl ⟨hnum h1, hnum h2⟩
    · exact Or.inr ⟨hnum h1, hnum h2⟩
    · exact Or.inr ⟨hnum h2, hnum h1⟩
    · exact Or.inl ⟨hnum h2, hnum h1⟩
  · rintro (⟨rfl, rfl⟩ | ⟨rfl, rfl⟩)
    · exact ⟨rfl, rfl⟩
    · exact ⟨min_comm _ _, max_comm _ _⟩

/-- The edges which the vanguard adds. -/
theorem addFractures_spec [IsStrictOrderedRing K] (parse : List Char → K × K) (eps : K)
    (heps : 0 ≤ eps) (g : Grid K) (hg : g.Proper eps) (lines : List (List Char))
    (hf : g.File parse lines) (dgf : Dgf K) (hc : convert parse eps lines = some dgf)
    (num : ℕ → ℕ) (hnum : Function.Injective num) (a b : ℕ) :
    (addFractures dgf num).isEdge (num a) (num b) = true ↔
      a ≠ b ∧ (∃ s ∈ dgf.simplices, a ∈ s ∧ b ∈ s) ∧ g.OnFracture a ∧ g.OnFracture b := by
  obtain ⟨dgf', h1, h2, h3, h4⟩ := convert_spec parse eps heps g hg lines hf
  rw [hc] at h1
  cases h1
  have hget : ∀ k : ℕ, dgf.vertices[k]?.map Prod.fst = g.vertices[k]? := by
    intro k
    rw [h2, marks_get, List.getElem?_map]
    cases g.vertices[k]? <;> simp
  have hmark : ∀ k : ℕ, dgf.vertices[k]?.map Prod.snd = some true ↔ g.OnFracture k := by
    intro k
    rw [h2, marks_get, List.getElem?_map]
    have hex : g.OnFracture k → k < g.vertices.length := by
      rintro ⟨e, he, -, h | h⟩
      · rw [← h]; exact (hg.1 e he).1
      · rw [← h]; exact (hg.1 e he).2
    by_cases hk : k < g.vertices.length
    · rw [List.getElem?_eq_getElem hk]
      simp [Grid.OnFracture]
    · rw [List.getElem?_eq_none (by omega)]
      simp only [Option.map_none, reduceCtorEq, false_iff]
      exact fun h => hk (hex h)
  have hsimp : ∀ s ∈ dgf.simplices, ∃ x y z, s = [x, y, z] ∧ x ≠ y ∧ y ≠ z ∧ z ≠ x := by
    intro s hs
    rw [h4, List.mem_map] at hs
    obtain ⟨t, ht, rfl⟩ := hs
    obtain ⟨s, hs1, ⟨x, y, z, _, _, _, hs2, -⟩, hs3⟩ :=
      simplex_spec eps heps g hg dgf.vertices hget t ht
    obtain ⟨x', y', z', _, _, _, hcor, -⟩ := hg.2 t ht
    have hp := hs3 x' y' z' hcor
    rw [hs1, hs2]
    rw [hs2] at hp
    have hnd : [x, y, z].Nodup := hp.nodup_iff.2 (by
      simp [hcor.1, hcor.2.1, hcor.2.2.1.symm])
    simp only [List.nodup_cons, List.mem_cons, List.not_mem_nil, or_false, not_or] at hnd
    exact ⟨x, y, z, rfl, hnd.1.1, hnd.2.1, fun h => hnd.1.2 h.symm⟩
  have hpar : dgf.hasParameters = true ↔ ∃ k, g.OnFracture k := by
    rw [h3]
    constructor
    · intro h
      cases hfl : (g.edges.filter fun e => e.1) with
      | nil => rw [hfl] at h; simp at h
      | cons e t =>
        have : e ∈ g.edges.filter fun e => e.1 := by rw [hfl]; simp
        rw [List.mem_filter] at this
        exact ⟨e.2.1, e, this.1, this.2, Or.inl rfl⟩
    · rintro ⟨k, e, he, het, -⟩
      have : e ∈ g.edges.filter fun e => e.1 := List.mem_filter.2 ⟨he, het⟩
      cases hfl : (g.edges.filter fun e => e.1) with
      | nil => rw [hfl] at this; simp at this
      | cons e t => simp
  unfold addFractures
  by_cases hp : dgf.hasParameters = true
  swap
  · rw [if_neg hp]
    constructor
    · intro h
      simp [Fracture.Mapper.isEdge, Fracture.Mapper.empty] at h
    · rintro ⟨-, -, h, -⟩
      exact absurd (hpar.2 ⟨a, h⟩) hp
  rw [if_pos hp, foldl_add_isEdge]
  simp only [Fracture.Mapper.isEdge, Fracture.Mapper.empty, List.not_mem_nil, decide_false,
    Bool.false_eq_true, false_or, mkEdge_inj hnum, hmark]
  constructor
  · rintro ⟨e, he, ⟨hm1, hm2⟩, heq⟩
    rw [List.mem_flatMap] at he
    obtain ⟨s, hs, hes⟩ := he
    obtain ⟨x, y, z, rfl, hxy, hyz, hzx⟩ := hsimp s hs
    simp only [triangleEdges, List.mem_cons, List.not_mem_nil, or_false] at hes
    have hmem : e.1 ≠ e.2 ∧ e.1 ∈ [x, y, z] ∧ e.2 ∈ [x, y, z] := by
      rcases hes with rfl | rfl | rfl
      · exact ⟨hxy, by simp, by simp⟩
      · exact ⟨hzx.symm, by simp, by simp⟩
      · exact ⟨hyz, by simp, by simp⟩
    rcases heq with ⟨rfl, rfl⟩ | ⟨rfl, rfl⟩
    · exact ⟨hmem.1, ⟨_, hs, hmem.2.1, hmem.2.2⟩, hm1, hm2⟩
    · exact ⟨hmem.1.symm, ⟨_, hs, hmem.2.2, hmem.2.1⟩, hm2, hm1⟩
  · rintro ⟨hab, ⟨s, hs, has, hbs⟩, hma, hmb⟩
    obtain ⟨x, y, z, rfl, hxy, hyz, hzx⟩ := hsimp s hs
    have : ∃ e ∈ triangleEdges [x, y, z], (e.1 = a ∧ e.2 = b) ∨ (e.1 = b ∧ e.2 = a) := by
      simp only [List.mem_cons, List.not_mem_nil, or_false] at has hbs
      rcases has with rfl | rfl | rfl <;> rcases hbs with rfl | rfl | rfl
      · exact absurd rfl hab
      · exact ⟨_, List.mem_cons_self, Or.inl ⟨rfl, rfl⟩⟩
      · exact ⟨(a, b), by simp [triangleEdges], Or.inl ⟨rfl, rfl⟩⟩
      · exact ⟨(b, a), by simp [triangleEdges], Or.inr ⟨rfl, rfl⟩⟩
      · exact absurd rfl hab
      · exact ⟨(a, b), by simp [triangleEdges], Or.inl ⟨rfl, rfl⟩⟩
      · exact ⟨(b, a), by simp [triangleEdges], Or.inr ⟨rfl, rfl⟩⟩
      · exact ⟨(b, a), by simp [triangleEdges], Or.inr ⟨rfl, rfl⟩⟩
      · exact absurd rfl hab
    obtain ⟨e, he, hor⟩ := this
    refine ⟨e, List.mem_flatMap.2 ⟨_, hs, he⟩, ?_, hor⟩
    rcases hor with ⟨rfl, rfl⟩ | ⟨rfl, rfl⟩
    · exact ⟨hma, hmb⟩
    · exact ⟨hmb, hma⟩

/-- **C146** (fractures stay fractures).  After the conversion and reading the result, however the
grid numbers the vertices, each edge of a triangle which was a fracture is a fracture.

Missing: edges which were not fractures may become fractures, see `C146_fractures_violated`; the
statement is for grids which are not refined after reading, see `C146_refined_violated`. -/
theorem C146_fractures_partial [IsStrictOrderedRing K] (parse : List Char → K × K) (eps : K)
    (heps : 0 ≤ eps) (g : Grid K) (hg : g.Proper eps) (lines : List (List Char))
    (hf : g.File parse lines) (num : ℕ → ℕ) (hnum : Function.Injective num) :
    ∃ dgf, convert parse eps lines = some dgf ∧
      ∀ t ∈ g.triangles, ∀ i ∈ [t.1, t.2.1, t.2.2], ∀ x y, g.edges[i]? = some (true, x, y) →
        (addFractures dgf num).isEdge (num x) (num y) = true := by
  obtain ⟨dgf, h1, h2, h3, h4⟩ := convert_spec parse eps heps g hg lines hf
  have hget : ∀ k : ℕ, dgf.vertices[k]?.map Prod.fst = g.vertices[k]? := by
    intro k
    rw [h2, marks_get, List.getElem?_map]
    cases g.vertices[k]? <;> simp
  refine ⟨dgf, h1, fun t ht i hi x y hxy => ?_⟩
  rw [addFractures_spec parse eps heps g hg lines hf dgf h1 num hnum]
  have hmem : (true, x, y) ∈ g.edges := List.mem_of_getElem? hxy
  obtain ⟨s, hs1, -, hs3⟩ := simplex_spec eps heps g hg dgf.vertices hget t ht
  have hsm : s ∈ dgf.simplices := by
    rw [h4, List.mem_map]
    exact ⟨t, ht, by rw [hs1]; rfl⟩
  obtain ⟨x', y', z', _, _, _, hcor, -⟩ := hg.2 t ht
  have hp := hs3 _ _ _ hcor
  obtain ⟨n1, n2, n3, e, f, h, e1, e2, e3, j1, j2, j3⟩ := hcor
  have hxys : x ≠ y ∧ x ∈ [x', y', z'] ∧ y ∈ [x', y', z'] := by
    simp only [List.mem_cons, List.not_mem_nil, or_false] at hi
    rcases hi with rfl | rfl | rfl
    · rw [hxy] at e1
      simp only [Option.map_some, Option.some.injEq] at e1
      subst e1
      rcases j1 with j | j <;> cases j
      · exact ⟨n1, by simp, by simp⟩
      · exact ⟨n1.symm, by simp, by simp⟩
    · rw [hxy] at e2
      simp only [Option.map_some, Option.some.injEq] at e2
      subst e2
      rcases j2 with j | j <;> cases j
      · exact ⟨n2, by simp, by simp⟩
      · exact ⟨n2.symm, by simp, by simp⟩
    · rw [hxy] at e3
      simp only [Option.map_some, Option.some.injEq] at e3
      subst e3
      rcases j3 with j | j <;> cases j
      · exact ⟨n3, by simp, by simp⟩
      · exact ⟨n3.symm, by simp, by simp⟩
  exact ⟨hxys.1, ⟨s, hsm, hp.mem_iff.2 hxys.2.1, hp.mem_iff.2 hxys.2.2⟩,
    ⟨_, hmem, rfl, Or.inl rfl⟩, ⟨_, hmem, rfl, Or.inr rfl⟩⟩

/-- **C146** (which edges are fractures).  Exactly the edges of triangles both of whose ends lie on
fractures are fractures after reading. -/
theorem C146_which [IsStrictOrderedRing K] (parse : List Char → K × K) (eps : K)
    (heps : 0 ≤ eps) (g : Grid K) (hg : g.Proper eps) (lines : List (List Char))
    (hf : g.File parse lines) (num : ℕ → ℕ) (hnum : Function.Injective num) :
    ∃ dgf, convert parse eps lines = some dgf ∧
      ∀ a b, (addFractures dgf num).isEdge (num a) (num b) = true ↔
        (∃ t ∈ g.triangles, ∃ x y z, g.Corners t x y z ∧ a ∈ [x, y, z] ∧ b ∈ [x, y, z]) ∧ a ≠ b ∧
          g.OnFracture a ∧ g.OnFracture b := by
  obtain ⟨dgf, h1, h2, h3, h4⟩ := convert_spec parse eps heps g hg lines hf
  have hget : ∀ k : ℕ, dgf.vertices[k]?.map Prod.fst = g.vertices[k]? := by
    intro k
    rw [h2, marks_get, List.getElem?_map]
    cases g.vertices[k]? <;> simp
  refine ⟨dgf, h1, fun a b => ?_⟩
  rw [addFractures_spec parse eps heps g hg lines hf dgf h1 num hnum]
  constructor
  · rintro ⟨hab, ⟨s, hs, ha, hb⟩, hfa, hfb⟩
    rw [h4, List.mem_map] at hs
    obtain ⟨t, ht, rfl⟩ := hs
    obtain ⟨s, hs1, -, hs3⟩ := simplex_spec eps heps g hg dgf.vertices hget t ht
    obtain ⟨x, y, z, _, _, _, hcor, -⟩ := hg.2 t ht
    rw [hs1] at ha hb
    have hp := hs3 _ _ _ hcor
    exact ⟨⟨t, ht, x, y, z, hcor, hp.mem_iff.1 ha, hp.mem_iff.1 hb⟩, hab, hfa, hfb⟩
  · rintro ⟨⟨t, ht, x, y, z, hcor, ha, hb⟩, hab, hfa, hfb⟩
    obtain ⟨s, hs1, -, hs3⟩ := simplex_spec eps heps g hg dgf.vertices hget t ht
    have hp := hs3 _ _ _ hcor
    refine ⟨hab, ⟨s, ?_, hp.mem_iff.2 ha, hp.mem_iff.2 hb⟩, hfa, hfb⟩
    rw [h4, List.mem_map]
    exact ⟨t, ht, by rw [hs1]; rfl⟩

/-- **C146** (violation).  If the grid is refined after reading, and old vertices keep their numbers
while midpoints get new ones, the two halves of every edge are edges of the refined grid, but no edge
of the refined grid is a fracture, whatever the fractures of the file: they are registered before the
refinement. -/
theorem C146_refined_violated (dgf : Dgf K) (num : ℕ → ℕ) (mid : ℕ → ℕ → ℕ)
    (hnew : ∀ a b c, mid a b ≠ num c) :
    ∀ s ∈ dgf.simplices,
      (∀ e ∈ triangleEdges s, (num e.1, mid e.1 e.2) ∈ refinedEdges num mid s ∧
        (mid e.1 e.2, num e.2) ∈ refinedEdges num mid s) ∧
      ∀ e ∈ refinedEdges num mid s, (addFractures dgf num).isEdge e.1 e.2 = false := by
  intro s _
  refine ⟨fun e he => ?_, fun e he => ?_⟩
  · unfold triangleEdges at he
    split at he
    · simp only [List.mem_cons, List.not_mem_nil, or_false] at he
      rcases he with rfl | rfl | rfl <;> simp [refinedEdges]
    · simp at he
  by_contra hcon
  simp only [Bool.not_eq_false] at hcon
  unfold addFractures at hcon
  by_cases hp : dgf.hasParameters = true
  swap
  · rw [if_neg hp] at hcon
    simp [Fracture.Mapper.isEdge, Fracture.Mapper.empty] at hcon
  rw [if_pos hp, foldl_add_isEdge] at hcon
  simp only [Fracture.Mapper.isEdge, Fracture.Mapper.empty, List.not_mem_nil, decide_false,
    Bool.false_eq_true, false_or] at hcon
  obtain ⟨f, -, -, heq⟩ := hcon
  have hmid : (∃ a b, e.1 = mid a b) ∨ ∃ a b, e.2 = mid a b := by
    unfold refinedEdges at he
    split at he
    · simp only [List.mem_cons, List.not_mem_nil, or_false] at he
      rcases he with rfl | rfl | rfl | rfl | rfl | rfl | rfl | rfl | rfl
      all_goals first
        | exact Or.inl ⟨_, _, rfl⟩
        | exact Or.inr ⟨_, _, rfl⟩
    · simp at he
  unfold Fracture.mkEdge at heq
  rw [Prod.mk.injEq] at heq
  have h12 : (num f.1 = e.1 ∧ num f.2 = e.2) ∨ (num f.1 = e.2 ∧ num f.2 = e.1) := by
    clear hmid
    obtain ⟨g1, g2⟩ := heq
    generalize num f.1 = u at *
    generalize num f.2 = v at *
    generalize e.1 = x at *
    generalize e.2 = y at *
    omega
  rcases hmid with ⟨a, b, h⟩ | ⟨a, b, h⟩ <;> rcases h12 with ⟨h1, h2⟩ | ⟨h1, h2⟩
  · exact hnew a b f.1 (by rw [h1, h])
  · exact hnew a b f.2 (by rw [h2, h])
  · exact hnew a b f.2 (by rw [h2, h])
  · exact hnew a b f.1 (by rw [h1, h])

/-! ## Files which are not accepted -/

/-- Lines which end a section. -/
def separators (lines : List (List Char)) : ℕ := (lines.filter fun l => clean l = ['$']).length

/-- The section after so many separators. -/
def sectionAfter (m : Mode) : ℕ → Mode
  | 0 => m
  | n + 1 => sectionAfter (match m with
      | .vertex => .edge
      | .edge => .element
      | .element => .finished
      | .finished => .finished) n

theorem step_mode (parse : List Char → K × K) (eps : K) (s s' : State K) (l : List Char)
    (h : step parse eps s l = some s') :
    s'.mode = if clean l = ['$'] then sectionAfter s.mode 1 else s.mode := by
  unfold step at h
  simp only at h
  split_ifs at h with h1 h2
  · rw [if_pos h1]
    simp only [Option.some.injEq] at h
    subst h
    rfl
  · rw [if_neg h1]
    simp only [Option.some.injEq] at h
    subst h
    rfl
  · rw [if_neg h1]
    split at h
    · simp only [Option.some.injEq] at h
      subst h
      rfl
    · split at h
      · split_ifs at h <;> simp only [Option.some.injEq] at h <;> subst h <;> rfl
      · simp at h
    · split at h
      · split at h
        · split at h
          · simp only [Option.some.injEq] at h
            subst h
            rfl
          · simp at h
        · simp at h
      · simp at h
    · simp at h

theorem readAll_mode (parse : List Char → K × K) (eps : K) (lines : List (List Char)) :
    ∀ s s' : State K, readAll parse eps lines s = some s' →
      s'.mode = sectionAfter s.mode (separators lines) := by
  induction lines with
  | nil =>
    intro s s' h
    simp only [readAll, Option.some.injEq] at h
    subst h
    rfl
  | cons l rest ih =>
    intro s s' h
    simp only [readAll, Option.bind_eq_some_iff] at h
    obtain ⟨t, ht, hr⟩ := h
    rw [ih t s' hr, step_mode parse eps s t l ht]
    unfold separators
    by_cases hl : clean l = ['$']
    · rw [if_pos hl, List.filter_cons_of_pos (by simpa using hl), List.length_cons]
      rfl
    · rw [if_neg hl, List.filter_cons_of_neg (by simpa using hl)]

theorem sectionAfter_pos (n : ℕ) (h : n ≠ 0) : sectionAfter .vertex n ≠ .vertex := by
  match n, h with
  | 1, _ => simp [sectionAfter]
  | 2, _ => simp [sectionAfter]
  | 3, _ => simp [sectionAfter]
  | n + 4, _ =>
    have hf : ∀ k, sectionAfter .finished k = .finished := by
      intro k
      induction k with
      | zero => rfl
      | succ k ih => simpa [sectionAfter] using ih
    simp [sectionAfter, hf]

theorem sectionAfter_three (n : ℕ) (h : 3 ≤ n) : sectionAfter .vertex n = .finished := by
  obtain ⟨k, rfl⟩ : ∃ k, n = k + 3 := ⟨n - 3, by omega⟩
  have hf : ∀ k, sectionAfter .finished k = .finished := by
    intro k
    induction k with
    | zero => rfl
    | succ k ih => simpa [sectionAfter] using ih
  simp [sectionAfter, hf]

theorem readAll_append_none (parse : List Char → K × K) (eps : K) (pre post : List (List Char))
    (line : List Char)
    (h : ∀ s, readAll parse eps pre State.initial = some s → step parse eps s line = none) :
    readAll parse eps (pre ++ line :: post) State.initial = none := by
  suffices H : ∀ (pre : List (List Char)) (s0 : State K),
      (∀ s, readAll parse eps pre s0 = some s → step parse eps s line = none) →
      readAll parse eps (pre ++ line :: post) s0 = none from H pre _ h
  intro pre
  induction pre with
  | nil =>
    intro s0 h0
    simp [readAll, h0 s0 rfl]
  | cons l rest ih =>
    intro s0 h0
    simp only [List.cons_append, readAll]
    cases hs : step parse eps s0 l with
    | none => rfl
    | some t =>
      simp only [Option.bind_some]
      exact ih t fun s hs' => h0 s (by simp [readAll, hs, hs'])

theorem mem_of_mem_clean (c : Char) (l : List Char) (h : c ∈ clean l) : c ∈ l := by
  unfold clean stripTrailing stripLeading stripComment at h
  exact (List.takeWhile_sublist _).subset ((List.dropWhile_sublist _).subset (List.mem_of_mem_take h))

theorem readInt_sub (l : List Char) (d : ℤ) (rest : List Char) (h : readInt l = some (d, rest)) :
    ∀ c ∈ rest, c ∈ l := by
  intro c hc
  unfold readInt at h
  split at h
  · rename_i t ht
    simp only at h
    split_ifs at h
    simp only [Option.some.injEq, Prod.mk.injEq] at h
    rw [← h.2] at hc
    have h1 : c ∈ t := (List.dropWhile_sublist _).subset hc
    exact (List.dropWhile_sublist isSpace).subset (by rw [ht]; exact List.mem_cons_of_mem _ h1)
  · simp only at h
    split_ifs at h
    simp only [Option.some.injEq, Prod.mk.injEq] at h
    rw [← h.2] at hc
    exact (List.dropWhile_sublist isSpace).subset ((List.dropWhile_sublist _).subset hc)

theorem readRecord_colon (l : List Char) (h : ':' ∉ l) : readRecord l = none := by
  unfold readRecord
  split
  · rfl
  · rename_i d rest hr
    simp only
    rw [if_neg]
    intro hw
    apply h
    apply readInt_sub l d rest hr
    have : ':' ∈ (readWord rest).1 := by rw [hw]; simp
    exact (List.dropWhile_sublist _).subset ((List.takeWhile_sublist _).subset this)

/-- **C146** (what is not an ART file).  After the first separator, a line with data but without a
colon makes the conversion fail, whatever comes before and after it; and so does any line with data
after the third separator. -/
theorem C146_rejected (parse : List Char → K × K) (eps : K) (pre post : List (List Char))
    (line : List Char) (hdata : clean line ≠ []) (hsep : clean line ≠ ['$'])
    (h : (1 ≤ separators pre ∧ ':' ∉ line) ∨ 3 ≤ separators pre) :
    convert parse eps (pre ++ line :: post) = none := by
  unfold convert
  rw [readAll_append_none parse eps pre post line, Option.map_none]
  intro s hs
  have hm := readAll_mode parse eps pre _ s hs
  simp only [State.initial] at hm
  unfold step
  simp only
  rw [if_neg hsep, if_neg hdata]
  rcases h with ⟨h1, hc⟩ | h3
  · have hv : s.mode ≠ .vertex := by rw [hm]; exact sectionAfter_pos _ (by omega)
    have hr : readRecord (clean line) = none :=
      readRecord_colon _ fun hmem => hc (mem_of_mem_clean _ _ hmem)
    cases hmode : s.mode with
    | vertex => exact absurd hmode hv
    | edge => simp [hr]
    | element => simp [hr]
    | finished => rfl
  · rw [hm, sectionAfter_three _ h3]

/-! ## Example and witnesses -/

/-- Coordinates of one digit each, for the examples. -/
def parseDigits (l : List Char) : ℚ × ℚ :=
  match readNats l.length l with
  | x :: y :: _ => (x, y)
  | _ => (0, 0)

/-- Two triangles, two edges of the first are fractures. -/
def sampleGrid : Grid ℚ where
  vertices := [(0, 0), (1, 0), (0, 1), (1, 1)]
  edges := [(true, 0, 1), (true, 2, 1), (false, 0, 2), (false, 1, 3), (false, 3, 2)]
  triangles := [(0, 1, 2), (3, 1, 4)]

/-- A file with the grid. -/
def sampleFile : List (List Char) :=
  [c!"%% Version 3.0", c!"0 0 0", c!"1 0 0", c!"  0 1 0 % the third", c!"1 1 0", c!"$",
   c!"", c!"-3: 0 1", c!"-12 : 2 1", c!"0: 0 2 ", c!"7:\t1 3", c!"007: 3  2", c!"$",
   c!"1: 0 1 2", c!"-1: 3 1 4", c!"$", c!"% end", c!"  "]

/-- The conversion of the sample. -/
example : convert parseDigits (1/10) sampleFile =
    some ⟨[((0, 0), true), ((1, 0), true), ((0, 1), true), ((1, 1), false)], true,
      [[0, 1, 2], [1, 3, 2]]⟩ := by decide +kernel

theorem sample_proper : sampleGrid.Proper (1/10) := by
  refine ⟨by decide, ?_⟩
  intro t ht
  simp only [sampleGrid, List.mem_cons, List.not_mem_nil, or_false] at ht
  rcases ht with rfl | rfl
  · refine ⟨0, 1, 2, (0, 0), (1, 0), (0, 1), ⟨by decide, by decide, by decide, (0, 1), (2, 1), (0, 2),
      rfl, rfl, rfl, Or.inl rfl, Or.inr rfl, Or.inr rfl⟩, rfl, rfl, rfl, by decide +kernel⟩
  · refine ⟨3, 1, 2, (1, 1), (1, 0), (0, 1), ⟨by decide, by decide, by decide, (1, 3), (2, 1), (3, 2),
      rfl, rfl, rfl, Or.inr rfl, Or.inr rfl, Or.inr rfl⟩, rfl, rfl, rfl, by decide +kernel⟩

theorem text_plain {b : List Char} : Text b b := ⟨[], [], by intro c hc; simp at hc, Or.inl rfl, by simp⟩

theorem vertexText_ok {x : ℚ × ℚ} {b : List Char} (h1 : parseDigits b = x) (h2 : '%' ∉ b)
    (h3 : b.head?.map isSpace = some false) (h4 : b ≠ ['$']) : VertexText parseDigits x b := by
  refine ⟨h1, h2, ?_, h4⟩
  cases b with
  | nil => simp at h3
  | cons c t => exact ⟨c, t, rfl, by simpa using h3⟩

instance (l : List Char) : Decidable (Spaces l) := by unfold Spaces; infer_instance

theorem sample_file : sampleGrid.File parseDigits sampleFile := by
  have sp : Spaces [' '] := by decide
  have dec : ∀ {n : ℕ} {ds : List Char}, (ds ≠ [] ∧ (∀ c ∈ ds, c.isDigit = true) ∧
      Nat.ofDigits 10 (ds.reverse.map fun c => c.toNat - '0'.toNat) = n) → Decimal n ds := id
  refine ⟨[c!"%% Version 3.0", c!"0 0 0", c!"1 0 0", c!"  0 1 0 % the third", c!"1 1 0"], c!"$",
    [c!"", c!"-3: 0 1", c!"-12 : 2 1", c!"0: 0 2 ", c!"7:\t1 3", c!"007: 3  2"], c!"$",
    [c!"1: 0 1 2", c!"-1: 3 1 4"], [c!"$", c!"% end", c!"  "], ?_, text_plain, ?_,
    text_plain, ?_,
    Or.inr ⟨c!"$", [c!"% end", c!"  "], text_plain, ?_, rfl⟩, rfl⟩
  · refine .blank _ _ _ ⟨[], _, by decide, Or.inr ⟨_, rfl⟩, rfl⟩ ?_
    refine .item _ _ c!"0 0 0" _ _ (vertexText_ok (by decide +kernel) (by decide) (by decide)
      (by decide)) text_plain ?_
    refine .item _ _ c!"1 0 0" _ _ (vertexText_ok (by decide +kernel) (by decide) (by decide)
      (by decide)) text_plain ?_
    refine .item _ _ c!"0 1 0 " _ _ (vertexText_ok (by decide +kernel) (by decide) (by decide)
      (by decide)) ⟨c!"  ", c!"% the third", by decide, Or.inr ⟨_, rfl⟩, rfl⟩ ?_
    exact .item _ _ c!"1 1 0" _ _ (vertexText_ok (by decide +kernel) (by decide) (by decide)
      (by decide)) text_plain .nil
  · refine .blank _ _ _ ⟨[], [], by decide, Or.inl rfl, rfl⟩ ?_
    refine .item _ _ c!"-3: 0 1" _ _ ⟨3, c!"3", [], c!" 0 1", dec (by decide), by decide, by decide,
      .cons 0 [1] [' '] c!"0" c!" 1" sp (by simp) (dec (by decide))
        (.cons 1 [] [' '] c!"1" [] sp (by simp) (dec (by decide)) (.nil [] (by decide))), rfl⟩
      text_plain ?_
    refine .item _ _ c!"-12 : 2 1" _ _ ⟨12, c!"12", [' '], c!" 2 1", dec (by decide), by decide, sp,
      .cons 2 [1] [' '] c!"2" c!" 1" sp (by simp) (dec (by decide))
        (.cons 1 [] [' '] c!"1" [] sp (by simp) (dec (by decide)) (.nil [] (by decide))), rfl⟩
      text_plain ?_
    refine .item _ _ c!"0: 0 2 " _ _ ⟨0, c!"0", [], c!" 0 2 ", dec (by decide), by decide, by decide,
      .cons 0 [2] [' '] c!"0" c!" 2 " sp (by simp) (dec (by decide))
        (.cons 2 [] [' '] c!"2" [' '] sp (by simp) (dec (by decide)) (.nil [' '] sp)), rfl⟩
      text_plain ?_
    refine .item _ _ c!"7:\t1 3" _ _ ⟨7, c!"7", [], c!"\t1 3", dec (by decide), by decide, by decide,
      .cons 1 [3] ['\t'] c!"1" c!" 3" (by decide) (by simp) (dec (by decide))
        (.cons 3 [] [' '] c!"3" [] sp (by simp) (dec (by decide)) (.nil [] (by decide))), rfl⟩
      text_plain ?_
    exact .item _ _ c!"007: 3  2" _ _ ⟨7, c!"007", [], c!" 3  2", dec (by decide), by decide,
      by decide, .cons 3 [2] [' '] c!"3" c!"  2" sp (by simp) (dec (by decide))
        (.cons 2 [] c!"  " c!"2" [] (by decide) (by simp) (dec (by decide)) (.nil [] (by decide))),
      rfl⟩ text_plain .nil
  · refine .item _ _ c!"1: 0 1 2" _ _ ⟨false, 1, c!"1", [], c!" 0 1 2", dec (by decide), by decide,
      by decide, .cons 0 [1, 2] [' '] c!"0" c!" 1 2" sp (by simp) (dec (by decide))
        (.cons 1 [2] [' '] c!"1" c!" 2" sp (by simp) (dec (by decide))
          (.cons 2 [] [' '] c!"2" [] sp (by simp) (dec (by decide)) (.nil [] (by decide)))), rfl⟩
      text_plain ?_
    exact .item _ _ c!"-1: 3 1 4" _ _ ⟨true, 1, c!"1", [], c!" 3 1 4", dec (by decide), by decide,
      by decide, .cons 3 [1, 4] [' '] c!"3" c!" 1 4" sp (by simp) (dec (by decide))
        (.cons 1 [4] [' '] c!"1" c!" 4" sp (by simp) (dec (by decide))
          (.cons 4 [] [' '] c!"4" [] sp (by simp) (dec (by decide)) (.nil [] (by decide)))), rfl⟩
      text_plain .nil
  · intro b hb
    simp only [List.mem_cons, List.not_mem_nil, or_false] at hb
    rcases hb with rfl | rfl
    · exact ⟨[], _, by decide, Or.inr ⟨_, rfl⟩, rfl⟩
    · exact ⟨c!"  ", [], by decide, Or.inl rfl, rfl⟩

/-- The hypotheses of the theorems are met by the sample. -/
example : ∃ (g : Grid ℚ) (lines : List (List Char)), g.Proper (1/10) ∧ g.File parseDigits lines ∧
    g.triangles.length = 2 := ⟨sampleGrid, sampleFile, sample_proper, sample_file, rfl⟩

/-- **C146** (violation).  An edge which is not a fracture becomes one if both of its ends lie on
fractures: here the third edge of a triangle two edges of which are fractures. -/
theorem C146_fractures_violated :
    ∃ (g : Grid ℚ) (lines : List (List Char)) (dgf : Dgf ℚ), g.Proper (1/10) ∧
      g.File parseDigits lines ∧ convert parseDigits (1/10) lines = some dgf ∧
      (false, 0, 2) ∈ g.edges ∧ (∀ e ∈ g.edges, Joins e.2 0 2 → e.1 = false) ∧
      (addFractures dgf id).isEdge 0 2 = true := by
  refine ⟨sampleGrid, sampleFile, ⟨[((0, 0), true), ((1, 0), true), ((0, 1), true), ((1, 1), false)],
    true, [[0, 1, 2], [1, 3, 2]]⟩, sample_proper, sample_file, by decide +kernel, by decide, ?_,
    by decide +kernel⟩
  intro e he hj
  simp only [sampleGrid, List.mem_cons, List.not_mem_nil, or_false] at he
  rcases he with rfl | rfl | rfl | rfl | rfl <;> simp_all [Joins]

/-- **C146** (violation).  White space behind the dollar sign is not removed: the line is taken for a
vertex and the edges for further vertices.  Here the file which ends its sections with a dollar sign
and a blank is converted to one with more vertices and without triangles. -/
theorem C146_separator_violated :
    ∃ lines lines' : List (List Char), sampleGrid.File parseDigits lines ∧
      lines' = lines.map (fun l => if l = ['$'] then ['$', ' '] else l) ∧
      ∃ dgf, convert parseDigits (1/10) lines' = some dgf ∧
        dgf.vertices.length ≠ sampleGrid.vertices.length ∧
        dgf.simplices.length ≠ sampleGrid.triangles.length ∧ dgf.simplices = [] := by
  exact ⟨sampleFile, _, sample_file, rfl, _, rfl, by decide +kernel, by decide +kernel,
    by decide +kernel⟩

/-- A line of an edge without a colon, in a file with two vertices. -/
example : convert parseDigits (0 : ℚ) [c!"0 0", c!"1 0", c!"$", c!"0 0 1"] = none :=
  C146_rejected parseDigits 0 [c!"0 0", c!"1 0", c!"$"] [] c!"0 0 1" (by decide) (by decide)
    (Or.inl ⟨by decide, by decide⟩)

/-- With the colon the same file is accepted. -/
example : (convert parseDigits (0 : ℚ) [c!"0 0", c!"1 0", c!"$", c!"0 : 0 1"]).isSome = true := by
  decide +kernel

end Verif.Art
