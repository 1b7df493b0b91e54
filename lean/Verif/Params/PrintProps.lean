import Verif.Params.Print
import Verif.Params.Props
import Mathlib.Data.List.Nodup

set_option autoImplicit false
set_option linter.unusedSimpArgs false
/-
C159: what is printed about parameters reproduces the run, and the help message lists the parameters.
-/
namespace Verif.Params

/-! ### Vocabulary -/

/-- A text which can be written between double quotes as it is. -/
def Plain (v : Str) : Prop := ∀ c ∈ v, c ≠ '"' ∧ c ≠ '\\' ∧ c ≠ '\n'

/-- The parameters are stored as the parser and the registration store them: one entry per name, names are in CamelCase; values and
defaults are plain. -/
structure Tidy (s : Store) : Prop where
  treeNodup : (s.tree.map Prod.fst).Nodup
  registryNodup : (s.registry.map Prod.fst).Nodup
  treeNames : ∀ p ∈ s.tree, IsParamName p.1
  registryNames : ∀ p ∈ s.registry, IsParamName p.1
  values : ∀ p ∈ s.tree, Plain p.2
  defaults : ∀ p ∈ s.registry, Plain p.2.default

/-! ### Lemmas -/

theorem Dict.get_eq_none {α : Type} (d : Dict α) (k : Str) : d.get k = none ↔ k ∉ d.map Prod.fst := by
  induction d with
  | nil => simp [Dict.get]
  | cons p d ih =>
    obtain ⟨k', v⟩ := p
    simp only [Dict.get, List.map_cons, List.mem_cons, not_or]
    by_cases h : k' = k
    · simp [h]
    · simp only [h, if_false, ih]
      exact ⟨fun h2 => ⟨fun e => h e.symm, h2⟩, fun h2 => h2.2⟩

theorem Dict.get_mem {α : Type} {d : Dict α} {k : Str} {v : α} (h : d.get k = some v) : (k, v) ∈ d := by
  induction d with
  | nil => simp [Dict.get] at h
  | cons p d ih =>
    obtain ⟨k', w⟩ := p
    simp only [Dict.get] at h
    split at h
    · next e => cases h; simp [e]
    · simp [ih h]

theorem parseLines_ok : ∀ (lines : List Str) (o : List (Option (Str × Str))), lines.map parseLine = o.map Except.ok →
    ∀ (seen : List Str) (tree : Dict Str), ((o.filterMap id).map Prod.fst).Nodup → (∀ k ∈ (o.filterMap id).map Prod.fst, k ∉ seen) →
      ∃ tree', parseLines false lines seen tree = (none, tree') ∧
        ∀ name, tree'.get name = (tree.get name).or (assigned (o.filterMap id) name) := by
  intro lines
  induction lines with
  | nil =>
    intro o ho seen tree _ _
    cases o with
    | nil => exact ⟨tree, rfl, by simp [assigned]⟩
    | cons => simp at ho
  | cons line lines ih =>
    intro o ho seen tree h1 h2
    cases o with
    | nil => simp at ho
    | cons a o =>
      simp only [List.map_cons, List.cons.injEq] at ho
      cases a with
      | none =>
        obtain ⟨t', ht', h3⟩ := ih o ho.2 seen tree (by simpa using h1) (by simpa using h2)
        refine ⟨t', ?_, by simpa using h3⟩
        rw [parseLines, ho.1]; exact ht'
      | some kv =>
        obtain ⟨name, v⟩ := kv
        simp only [List.filterMap_cons, id_eq, List.map_cons, List.nodup_cons] at h1 h2
        obtain ⟨t', ht', h3⟩ := ih o ho.2 (name :: seen)
          (if false || (tree.get name).isNone then tree.set name v else tree) h1.2 (by
            intro k hk
            simp only [List.mem_cons, not_or]
            exact ⟨fun e => h1.1 (e ▸ hk), h2 k (List.mem_cons_of_mem _ hk)⟩)
        refine ⟨t', ?_, ?_⟩
        · rw [parseLines, ho.1]
          simp only [h2 name (by simp), if_false]
          exact ht'
        · intro n
          rw [h3]
          have hnone : assigned (o.filterMap id) name = none := by
            simp only [assigned, Option.map_eq_none_iff, List.find?_eq_none]
            intro x hx hxe
            have : x.1 = name := by simpa using hxe
            exact h1.1 (this ▸ List.mem_map_of_mem hx)
          simp only [List.filterMap_cons, id_eq]
          by_cases hn : n = name
          · subst hn
            cases hg : tree.get n with
            | none => simp [Dict.get_set, assigned]
            | some w => simp [hg]
          · have hn' : ¬ name = n := fun e => hn e.symm
            cases hg : tree.get name with
            | none => simp [Dict.get_set, hn, assigned, hn']
            | some w => simp [assigned, hn']

theorem assigned_of_mem {kvs : List (Str × Str)} (h : (kvs.map Prod.fst).Nodup) {k v : Str} (hm : (k, v) ∈ kvs) :
    assigned kvs k = some v := by
  induction kvs with
  | nil => simp at hm
  | cons p kvs ih =>
    obtain ⟨k', w⟩ := p
    simp only [List.map_cons, List.nodup_cons] at h
    by_cases hk : k' = k
    · subst hk
      rcases List.mem_cons.1 hm with h2 | h2
      · cases h2; simp [assigned]
      · exact absurd (List.mem_map_of_mem h2) h.1
    · rcases List.mem_cons.1 hm with h2 | h2
      · cases h2; exact absurd rfl hk
      · have := ih h.2 h2
        simp only [assigned, List.find?_cons] at this ⊢
        have hb : (k' == k) = false := by simp [hk]
        simp only [hb]; exact this

theorem assigned_none {kvs : List (Str × Str)} {k : Str} (h : k ∉ kvs.map Prod.fst) : assigned kvs k = none := by
  simp only [assigned, Option.map_eq_none_iff, List.find?_eq_none]
  intro x hx hxe
  have : x.1 = k := by simpa using hxe
  exact h (this ▸ List.mem_map_of_mem hx)

theorem parseLine_comment (t : Str) : parseLine ('#' :: t) = .ok none := by
  have h : removeLeadingSpace ('#' :: t) = '#' :: t := by
    simp [removeLeadingSpace, show isSpace '#' = false by decide]
  simp [parseLine, h]

variable {s : Store}

theorem tree_name (h : Tidy s) {k : Str} {v : Str} (hk : s.tree.get k = some v) : IsParamName k ∧ Plain v :=
  ⟨h.treeNames _ (Dict.get_mem hk), h.values _ (Dict.get_mem hk)⟩

theorem registry_name (h : Tidy s) {k : Str} {i : ParamInfo} (hk : s.registry.get k = some i) : IsParamName k ∧ Plain i.default :=
  ⟨h.registryNames _ (Dict.get_mem hk), h.defaults _ (Dict.get_mem hk)⟩

/-- The value of a name for the run: given at run time, or the default. -/
def effective (s : Store) (k : Str) : Str := (s.tree.get k).getD (((s.registry.get k).map ParamInfo.default).getD [])

theorem effective_plain (h : Tidy s) (k : Str) : Plain (effective s k) := by
  unfold effective
  cases ht : s.tree.get k with
  | some v => exact (tree_name h ht).2
  | none =>
    cases hr : s.registry.get k with
    | some i => exact (registry_name h hr).2
    | none => simp [Plain]

theorem parse_valueLine (h : Tidy s) (b : Bool) (k : Str) (hk : IsParamName k) :
    parseLine (s.valueLine b k) = .ok (some (k, effective s k)) := by
  exact C60_printed_list_round_trip_partial k _ _ b hk (effective_plain h k)

theorem parse_unusedLine (h : Tidy s) (k : Str) (hk : IsParamName k) (hn : s.registry.get k = none) :
    parseLine (s.unusedLine k) = .ok (some (k, effective s k)) := by
  have : (s.tree.get k).getD [] = effective s k := by simp [effective, hn]
  unfold Store.unusedLine
  rw [this]
  exact C60_printed_list_round_trip_partial k _ _ false hk (effective_plain h k)

/-- The names which are printed, in order. -/
def printedNames (s : Store) : List Str := s.runTimeKeys ++ (s.compileTimeKeys ++ s.unusedKeys)

theorem isSome_get {α : Type} (d : Dict α) (k : Str) : (d.get k).isSome = true ↔ k ∈ d.map Prod.fst := by
  rw [← not_iff_not, ← Dict.get_eq_none]; simp

theorem isNone_get {α : Type} (d : Dict α) (k : Str) : (d.get k).isNone = true ↔ k ∉ d.map Prod.fst := by
  rw [← Dict.get_eq_none]; simp

theorem mem_runTimeKeys (k : Str) : k ∈ s.runTimeKeys ↔ k ∈ s.tree.map Prod.fst ∧ k ∈ s.registry.map Prod.fst := by
  simp only [Store.runTimeKeys, List.mem_filter, isSome_get]

theorem mem_compileTimeKeys (k : Str) : k ∈ s.compileTimeKeys ↔ k ∈ s.registry.map Prod.fst ∧ k ∉ s.tree.map Prod.fst := by
  simp only [Store.compileTimeKeys, List.mem_filter, isNone_get]

theorem mem_unusedKeys (k : Str) : k ∈ s.unusedKeys ↔ k ∈ s.tree.map Prod.fst ∧ k ∉ s.registry.map Prod.fst := by
  simp only [Store.unusedKeys, List.mem_filter, isNone_get]

theorem mem_printedNames (k : Str) : k ∈ printedNames s ↔ k ∈ s.tree.map Prod.fst ∨ k ∈ s.registry.map Prod.fst := by
  simp only [printedNames, List.mem_append, mem_runTimeKeys, mem_compileTimeKeys, mem_unusedKeys]
  tauto

theorem printedNames_nodup (h : Tidy s) : (printedNames s).Nodup := by
  unfold printedNames
  refine List.Nodup.append (h.treeNodup.filter _) (List.Nodup.append (h.registryNodup.filter _) (h.treeNodup.filter _) ?_) ?_
  · intro k h1 h2
    exact (mem_compileTimeKeys k).1 h1 |>.2 ((mem_unusedKeys k).1 h2).1
  · intro k h1 h2
    have h3 := (mem_runTimeKeys k).1 h1
    rcases List.mem_append.1 h2 with h2 | h2
    · exact ((mem_compileTimeKeys k).1 h2).2 h3.1
    · exact ((mem_unusedKeys k).1 h2).2 h3.2

theorem name_of_printed (h : Tidy s) (k : Str) (hk : k ∈ printedNames s) : IsParamName k := by
  rcases (mem_printedNames k).1 hk with h1 | h1
  · obtain ⟨p, hp, rfl⟩ := List.mem_map.1 h1; exact h.treeNames p hp
  · obtain ⟨p, hp, rfl⟩ := List.mem_map.1 h1; exact h.registryNames p hp

/-- The names with their values. -/
def printedValues (s : Store) : List (Str × Str) := (printedNames s).map fun k => (k, effective s k)

/-- A section: a heading and lines, or nothing. -/
theorem section_parse (heading : Str) (keys : List Str) (line : Str → Str) (hl : ∀ k ∈ keys, parseLine (line k) = .ok (some (k, effective s k))) :
    ∃ o : List (Option (Str × Str)), ((if 0 < keys.length then ('#' :: heading) :: keys.map line else []) : List Str).map parseLine = o.map Except.ok ∧
      o.filterMap id = keys.map fun k => (k, effective s k) := by
  by_cases hk : 0 < keys.length
  · refine ⟨none :: keys.map fun k => some (k, effective s k), ?_, ?_⟩
    · simp only [if_pos hk, List.map_cons, parseLine_comment, List.map_map]
      congr 1
      exact List.map_congr_left fun k hk => hl k hk
    · simp [List.filterMap_map, Function.comp_def]
  · have : keys = [] := List.eq_nil_of_length_eq_zero (by omega)
    subst this
    exact ⟨[], by simp, rfl⟩

theorem printValues_parse (h : Tidy s) :
    ∃ o : List (Option (Str × Str)), s.printValues.map parseLine = o.map Except.ok ∧ o.filterMap id = printedValues s := by
  have hn := name_of_printed h
  obtain ⟨o1, h1, e1⟩ := section_parse (s := s) c!" [known parameters which were specified at run-time]" s.runTimeKeys (s.valueLine true)
    fun k hk => parse_valueLine h true k (hn k (by simp [printedNames, hk]))
  obtain ⟨o2, h2, e2⟩ := section_parse (s := s) c!" [parameters which were specified at compile-time]" s.compileTimeKeys (s.valueLine false)
    fun k hk => parse_valueLine h false k (hn k (by simp [printedNames, hk]))
  obtain ⟨o3, h3, e3⟩ := section_parse (s := s) c!" [unused run-time specified parameters]" s.unusedKeys s.unusedLine
    fun k hk => parse_unusedLine h k (hn k (by simp [printedNames, hk])) ((Dict.get_eq_none _ _).2 ((mem_unusedKeys k).1 hk).2)
  refine ⟨o1 ++ (o2 ++ o3), ?_, ?_⟩
  · simp only [List.map_append, ← h1, ← h2, ← h3]
    simp only [Store.printValues, List.map_append]
  · simp only [List.filterMap_append, e1, e2, e3, printedValues, printedNames, List.map_append]

theorem printedValues_keys : (printedValues s).map Prod.fst = printedNames s := by
  simp [printedValues, Function.comp_def]

theorem assigned_printed (h : Tidy s) (k : Str) :
    assigned (printedValues s) k = if k ∈ printedNames s then some (effective s k) else none := by
  split
  · next hk =>
    refine assigned_of_mem (by rw [printedValues_keys]; exact printedNames_nodup h) ?_
    exact List.mem_map.2 ⟨k, hk, rfl⟩
  · next hk => exact assigned_none (by rw [printedValues_keys]; exact hk)

/-! ### C159 -/

/-- C159 (partial): the printed list of values is a valid parameter file.  Read as one, by a program which was given nothing else, it gives
every registered parameter the value it has in the run, and unused parameters are given again.  Missing: values with double quotes,
backslashes or newlines, for which it is false (`C60_printed_list_round_trip_violated`). -/
theorem C159_values_partial (h : Tidy s) :
    ∃ tree, parseParameterFile false s.printValues [] = (none, tree) ∧
      (∀ name info, s.registry.get name = some info → tree.get name = some ((s.tree.get name).getD info.default)) ∧
      (∀ name, s.registry.get name = none → tree.get name = s.tree.get name) := by
  obtain ⟨o, h1, h2⟩ := printValues_parse h
  obtain ⟨t, h3, h4⟩ := parseLines_ok _ _ h1 [] [] (by rw [h2, printedValues_keys]; exact printedNames_nodup h) (by simp)
  refine ⟨t, h3, ?_, ?_⟩
  · intro name info hi
    rw [h4, h2, assigned_printed h, if_pos]
    · simp [Dict.get, effective, hi]
    · exact (mem_printedNames _).2 (.inr ((isSome_get _ _).1 (by simp [hi])))
  · intro name hi
    rw [h4, h2, assigned_printed h]
    cases ht : s.tree.get name with
    | some v =>
      rw [if_pos ((mem_printedNames _).2 (.inl ((isSome_get _ _).1 (by simp [ht]))))]
      simp [Dict.get, effective, ht]
    | none =>
      rw [if_neg]
      · simp [Dict.get]
      · rw [mem_printedNames]
        exact fun hh => hh.elim ((Dict.get_eq_none _ _).1 ht) ((Dict.get_eq_none _ _).1 hi)

/-- C159 (partial): a program which is started again with nothing but a file of these lines gets the same values as in the run
(except for the name of the parameter file), and is accepted if the run was. -/
theorem C159_same_run_partial (h : Tidy s) (hclosed : s.isOpen = false) (file : Str) (hf : file ≠ [])
    (files : Str → Option (List Str)) (hfile : files file = some s.printValues) (allowUnused : Bool)
    (hreg : ∃ info, s.registry.get parameterFileKey = some info) (hu : allowUnused = true ∨ s.unusedKeys = []) :
    ∃ new, setupParameters allowUnused true [optionName parameterFileKey ++ '=' :: file] files { s with tree := [] } = (.ok, new) ∧
      ∀ name, name ≠ parameterFileKey → new.get name = s.get name := by
  have hname : IsParamName parameterFileKey := ⟨'P', c!"arameterFile", rfl, by decide, by decide⟩
  have hp := C03_help_option_round_trip parameterFileKey file [] hname
  have hcmd : parseCommandLine true [optionName parameterFileKey ++ '=' :: file] [] =
      (.ok, [(parameterFileKey, file)]) := by
    have : ([optionName parameterFileKey ++ '=' :: file].any fun a => a == c!"-h" || a == c!"--help" || a == c!"--help-all") = false := by
      have e : optionName parameterFileKey = c!"--parameter-file" := by decide
      rw [e]
      simp
    simp only [parseCommandLine, Bool.true_and, this, Bool.false_eq_true, if_false, hp]
    rfl
  obtain ⟨info, hi⟩ := hreg
  obtain ⟨o, h1, h2⟩ := printValues_parse h
  obtain ⟨t, h3, h4⟩ := parseLines_ok _ _ h1 [] [(parameterFileKey, file)]
    (by rw [h2, printedValues_keys]; exact printedNames_nodup h) (by simp)
  have hget : ∀ name, name ≠ parameterFileKey → t.get name = if name ∈ printedNames s then some (effective s name) else none := by
    intro name hn
    rw [h4, h2, assigned_printed h]
    have : Dict.get [(parameterFileKey, file)] name = none := by simp [Dict.get, Ne.symm hn]
    rw [this]; rfl
  have hunused : s.unusedKeys = [] → Store.unusedKeys { s with tree := t } = [] := by
    intro he
    rw [List.eq_nil_iff_forall_not_mem]
    intro k hk
    obtain ⟨hk1, hk2⟩ := (mem_unusedKeys (s := { s with tree := t }) k).1 hk
    simp only at hk1 hk2
    have hne : k ≠ parameterFileKey := by
      rintro rfl
      exact (Dict.get_eq_none _ _).2 hk2 ▸ hi |> fun e => by cases e
    have h5 := (isSome_get t k).2 hk1
    rw [hget k hne] at h5
    split at h5
    · next hm =>
      rcases (mem_printedNames k).1 hm with h6 | h6
      · have : k ∈ s.unusedKeys := (mem_unusedKeys k).2 ⟨h6, hk2⟩
        rw [he] at this; cases this
      · exact hk2 h6
    · cases h5
  refine ⟨{ s with tree := t }, ?_, ?_⟩
  · have hgu : Store.getUnchecked { s with tree := [(parameterFileKey, file)] } parameterFileKey =
        (file, { s with tree := [(parameterFileKey, file)] }) := by
      simp only [Store.getUnchecked, hi]
      simp [Dict.get]
    have hpf : parseParameterFile false s.printValues [(parameterFileKey, file)] = (none, t) := h3
    have hop : Store.isOpen { s with tree := t } = false := hclosed
    simp only [setupParameters, hcmd, hgu, if_neg hf, hfile, hpf]
    rw [if_neg (by rw [hop]; decide), if_neg]
    rcases hu with hu | hu
    · simp [hu]
    · rw [hunused hu]; simp
  · intro name hn
    simp only [Store.get, hclosed, Bool.false_eq_true, if_false]
    cases hr : s.registry.get name with
    | none => rfl
    | some i =>
      simp only [hget name hn]
      rw [if_pos ((mem_printedNames _).2 (.inr ((isSome_get _ _).1 (by simp [hr]))))]
      simp [effective, hr]

/-- A store with a registered parameter which was given, one which was not, and an unused one. -/
def sample : Store :=
  { tree := [(c!"EndTime", c!"1e5"), (c!"Typo", c!"7")],
    registry := [(c!"EndTime", ⟨c!"double", c!"The end", c!"-1e35", false⟩), (c!"OutputDir", ⟨c!"string", c!"The directory", [], true⟩),
      (c!"ParameterFile", ⟨c!"string", c!"The file", [], false⟩)],
    finalizers := [], isOpen := false }

theorem sample_tidy : Tidy sample := by
  refine ⟨by decide, by decide, ?_, ?_, ?_, ?_⟩
  · intro p hp
    simp only [sample, List.mem_cons, List.not_mem_nil, or_false] at hp
    rcases hp with rfl | rfl
    · exact ⟨'E', c!"ndTime", rfl, by decide, by decide⟩
    · exact ⟨'T', c!"ypo", rfl, by decide, by decide⟩
  · intro p hp
    simp only [sample, List.mem_cons, List.not_mem_nil, or_false] at hp
    rcases hp with rfl | rfl | rfl
    · exact ⟨'E', c!"ndTime", rfl, by decide, by decide⟩
    · exact ⟨'O', c!"utputDir", rfl, by decide, by decide⟩
    · exact ⟨'P', c!"arameterFile", rfl, by decide, by decide⟩
  · unfold Plain sample; decide
  · unfold Plain sample; decide

/-- The hypotheses can be met. -/
example : ∃ new, setupParameters true true [optionName parameterFileKey ++ '=' :: c!"a.ini"] (fun _ => some sample.printValues)
    { sample with tree := [] } = (.ok, new) ∧ ∀ name, name ≠ parameterFileKey → new.get name = sample.get name :=
  C159_same_run_partial sample_tidy rfl c!"a.ini" (by decide) (fun _ => some sample.printValues) rfl true ⟨_, rfl⟩ (.inl rfl)

/-- C159, violated: the program which is started again cannot tell which parameters were given: all of them are. -/
theorem C159_given_violated : ∃ (s new : Store) (files : Str → Option (List Str)) (file name : Str), Tidy s ∧
    files file = some s.printValues ∧
    setupParameters true true [optionName parameterFileKey ++ '=' :: file] files { s with tree := [] } = (.ok, new) ∧
    s.isSet name = .ok false ∧ new.isSet name = .ok true := by
  obtain ⟨new, h1, -⟩ := C159_same_run_partial sample_tidy rfl c!"a.ini" (by decide) (fun _ => some sample.printValues) rfl true
    ⟨_, rfl⟩ (.inl rfl)
  refine ⟨sample, new, fun _ => some sample.printValues, c!"a.ini", c!"OutputDir", sample_tidy, rfl, h1, by decide, ?_⟩
  have h2 : new = (setupParameters true true [optionName parameterFileKey ++ '=' :: c!"a.ini"] (fun _ => some sample.printValues)
    { sample with tree := [] }).2 := by rw [h1]
  rw [h2]
  decide +kernel

/-- C159: parameters nobody knows are always reported, with their values, whatever `PrintParameters` says and wherever the output goes;
`printUnused` tells whether there were any. -/
theorem C159_unused (n : Int) (tty : Bool) (name value : Str) (h1 : s.tree.get name = some value) (h2 : s.registry.get name = none) :
    (name ++ c!"=\"" ++ value ++ c!"\"") ∈ s.printed n tty ∧ s.printUnused.1 = true := by
  have hm : name ∈ s.unusedKeys := (mem_unusedKeys _).2 ⟨(isSome_get _ _).1 (by simp [h1]), (Dict.get_eq_none _ _).1 h2⟩
  have hpos : 0 < s.unusedKeys.length := List.length_pos_of_mem hm
  have hline : (name ++ c!"=\"" ++ value ++ c!"\"") = s.unusedLine name := by
    simp [Store.unusedLine, printParam, h1]
  have hu : (name ++ c!"=\"" ++ value ++ c!"\"") ∈ s.printUnused.2 := by
    rw [hline]
    simp only [Store.printUnused, if_pos hpos]
    exact List.mem_cons_of_mem _ (List.mem_map_of_mem hm)
  have hv : (name ++ c!"=\"" ++ value ++ c!"\"") ∈ s.printValues := by
    rw [hline]
    simp only [Store.printValues, if_pos hpos]
    refine List.mem_append_right _ (List.mem_append_right _ (List.mem_cons_of_mem _ (List.mem_map_of_mem hm)))
  refine ⟨?_, by simp only [Store.printUnused, if_pos hpos]⟩
  unfold Store.printed
  by_cases h0 : n ≠ 0
  · simp only [if_pos h0]
    by_cases h3 : (n == 1 || !tty) = true
    · simp only [if_pos h3]; exact List.mem_append_left _ hv
    · simp only [if_neg h3]; exact List.mem_append_left _ hu
  · simp only [if_neg h0]; exact List.mem_append_left _ hu

example : (c!"Typo" ++ c!"=\"" ++ c!"7" ++ c!"\"") ∈ sample.printed 2 true := (C159_unused 2 true _ _ rfl rfl).1

/-- C159: `printUnused` prints nothing if every parameter which was given is registered. -/
theorem C159_no_unused (h : ∀ name value, s.tree.get name = some value → (s.registry.get name).isSome = true) :
    s.printUnused = (false, []) := by
  have : s.unusedKeys = [] := by
    rw [List.eq_nil_iff_forall_not_mem]
    intro k hk
    obtain ⟨h1, h2⟩ := (mem_unusedKeys k).1 hk
    obtain ⟨v, hv⟩ := Option.isSome_iff_exists.1 ((isSome_get s.tree k).2 h1)
    exact h2 ((isSome_get _ _).1 (h k v hv))
  simp [Store.printUnused, this]

/-! ### The help message -/

theorem visible_append' (a b : Str) : visible (a ++ b) = visible a ++ visible b := by simp [visible]

/-- C159: the help message has one entry for every parameter which is not hidden, and for all if all are asked for. -/
theorem C159_help_complete (kind : Str → Kind) (width : Nat) (showAll : Bool) (e : Option Str) :
    e ∈ s.usageEntries kind width showAll ↔
      ∃ name info, (name, info) ∈ s.registry ∧ (showAll = true ∨ info.hidden = false) ∧ e = usageEntry kind width name info := by
  simp only [Store.usageEntries, List.mem_map, List.mem_filter, Bool.or_eq_true, Bool.not_eq_true']
  constructor
  · rintro ⟨⟨name, info⟩, ⟨h1, h2⟩, rfl⟩; exact ⟨name, info, h1, h2, rfl⟩
  · rintro ⟨name, info, h1, h2, rfl⟩; exact ⟨(name, info), ⟨h1, h2⟩, rfl⟩

/-- C159: an entry shows the option, the type, the description and the default value (no newlines in these), in this order, for every width
of the terminal. -/
theorem C159_help_entry (kind : Str → Kind) (tty : Bool) (cols : Nat) (name : Str) (info : ParamInfo)
    (hk : kind info.typeName ≠ .flag) (hn : '\n' ∉ name) (hu : '\n' ∉ info.usage) (hd : '\n' ∉ info.default) :
    ∃ out dot, usageEntry kind (ttyWidth tty cols) name info = some out ∧ (dot = [] ∨ dot = ['.']) ∧
      visible out = visible (optionName name) ++ (kind info.typeName).suffix ++ visible info.usage ++ dot ++ c!"Default:" ++
        visible ((kind info.typeName).showDefault info.default) := by
  have hw : 1 ≤ ttyWidth tty cols := by unfold ttyWidth; split <;> omega
  have hopt : '\n' ∉ optionName name := by
    intro h
    simp only [optionName, List.mem_cons, List.mem_flatMap] at h
    rcases h with h | ⟨c, hc, h⟩
    · exact absurd h (by decide)
    · have hlow : c.toLower = '\n' → c = '\n' := by
        intro hl
        by_cases hup : c.isUpper = true
        · have h9 := (upper_lower_alpha c hup).1; rw [hl] at h9; exact absurd h9 (by decide)
        · rw [not_upper_lower c (by simpa using hup)] at hl; exact hl
      split at h
      · simp only [List.mem_cons, List.not_mem_nil, or_false] at h
        rcases h with h | h
        · exact absurd h (by decide)
        · exact hn (hlow h.symm ▸ hc)
      · simp only [List.mem_cons, List.not_mem_nil, or_false] at h
        exact hn (hlow h.symm ▸ hc)
  have hsuf : '\n' ∉ (kind info.typeName).suffix := by cases kind info.typeName <;> decide
  have hsd : '\n' ∉ (kind info.typeName).showDefault info.default := by
    cases kind info.typeName <;> simp only [Kind.showDefault]
    · simp [hd]
    · exact hd
    · exact hd
    · split <;> decide
    · exact hd
    · exact hd
  obtain ⟨dot, hdot, hmsg⟩ : ∃ dot, (dot = [] ∨ dot = ['.']) ∧ usageMessage kind name info =
      c!"    " ++ optionName name ++ (kind info.typeName).suffix ++ c!"  " ++
        List.replicate (50 - (c!"    " ++ optionName name ++ (kind info.typeName).suffix ++ c!"  ").length) ' ' ++ info.usage ++ dot ++
        c!" Default: " ++ (kind info.typeName).showDefault info.default := by
    unfold usageMessage
    simp only [if_neg hk]
    split
    · exact ⟨[], .inl rfl, rfl⟩
    · exact ⟨['.'], .inr rfl, rfl⟩
  have hno : '\n' ∉ usageMessage kind name info := by
    rw [hmsg]
    simp only [List.mem_append, not_or]
    refine ⟨⟨⟨⟨⟨⟨⟨⟨by decide, hopt⟩, hsuf⟩, by decide⟩, ?_⟩, hu⟩, ?_⟩, by decide⟩, hsd⟩
    · intro h; exact absurd (List.eq_of_mem_replicate h) (by decide)
    · rcases hdot with rfl | rfl <;> decide
  obtain ⟨out, h1, h2⟩ := C07_wrapping_keeps_text_partial (usageMessage kind name info) 52 (ttyWidth tty cols) hw
    (fun i hi => absurd (List.mem_of_getElem? hi) hno)
  refine ⟨out, dot, h1, hdot, ?_⟩
  rw [h2, hmsg]
  have hrep : ∀ k, visible (List.replicate k ' ') = [] := by
    intro k; simp [visible, List.filter_replicate, show isSpace ' ' = true by decide]
  have hvs : visible (kind info.typeName).suffix = (kind info.typeName).suffix := by cases kind info.typeName <;> decide
  have hvd : visible dot = dot := by rcases hdot with rfl | rfl <;> decide
  simp only [visible_append', hrep, hvs, hvd, show visible c!"    " = [] by decide, show visible c!"  " = [] by decide,
    show visible c!" Default: " = c!"Default:" by decide, List.nil_append, List.append_nil]

/-- The hypotheses can be met. -/
example : ∃ out dot, usageEntry (fun _ => .scalar) (ttyWidth true 100) c!"EndTime" ⟨c!"double", c!"The end", c!"-1e35", false⟩ = some out ∧
    (dot = [] ∨ dot = ['.']) ∧ visible out = c!"--end-time=SCALARTheend" ++ dot ++ c!"Default:-1e35" := by
  obtain ⟨out, dot, h1, h2, h3⟩ := C159_help_entry (fun _ => .scalar) true 100 c!"EndTime" ⟨c!"double", c!"The end", c!"-1e35", false⟩
    (by decide) (by decide) (by decide) (by decide)
  refine ⟨out, dot, h1, h2, ?_⟩
  rw [h3]
  rcases h2 with rfl | rfl <;> decide

end Verif.Params
