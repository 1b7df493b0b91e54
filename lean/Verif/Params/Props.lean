import Verif.Params.FileLemmas
import Verif.Params.RegLemmas
import Verif.Params.BreakLemmas

set_option autoImplicit false
/-
Properties C01–C08 and C60: the parameter system.
-/
namespace Verif.Params

/-! ### C04: the command line is accepted exactly if it is a list of distinct options -/

/-- A command line without positional arguments is accepted exactly if every argument is `--key=value` with a
well-formed key and no parameter occurs twice; then the parameter tree becomes the old one with exactly these
values set. -/
theorem C04_command_line_iff (args : List Str) (tree tree' : Dict Str) :
    parseArgs args [] tree = (.ok, tree') ↔
      ∃ kvs : List (Str × Str), args.length = kvs.length ∧ (∀ p ∈ args.zip kvs, IsOption p.1 p.2) ∧
        (kvs.map Prod.fst).Nodup ∧ tree' = kvs.foldl (fun t kv => t.set kv.1 kv.2) tree := by
  suffices H : ∀ (args seen : List Str) (tree : Dict Str), parseArgs args seen tree = (.ok, tree') ↔
      ∃ kvs : List (Str × Str), args.length = kvs.length ∧ (∀ p ∈ args.zip kvs, IsOption p.1 p.2) ∧
        (kvs.map Prod.fst).Nodup ∧ (∀ k ∈ kvs.map Prod.fst, k ∉ seen) ∧
        tree' = kvs.foldl (fun t kv => t.set kv.1 kv.2) tree by
    rw [H]; simp
  intro args
  induction args with
  | nil =>
    intro seen tree
    constructor
    · intro h
      simp [parseArgs] at h
      exact ⟨[], by simp [h]⟩
    · rintro ⟨kvs, hl, -, -, -, h⟩
      have : kvs = [] := List.length_eq_zero_iff.1 hl.symm
      subst this
      simp [parseArgs, h]
  | cons arg rest ih =>
    intro seen tree
    constructor
    · intro h
      obtain ⟨k, v, hopt, hk, h⟩ := parseArgs_ok_cons _ _ _ _ _ h
      obtain ⟨kvs, h1, h2, h3, h4, h5⟩ := (ih _ _).1 h
      refine ⟨(k, v) :: kvs, by simp [h1], ?_, ?_, ?_, by simpa using h5⟩
      · intro p hp
        simp only [List.zip_cons_cons, List.mem_cons] at hp
        rcases hp with rfl | hp
        · exact hopt
        · exact h2 p hp
      · simp only [List.map_cons, List.nodup_cons]
        refine ⟨fun hmem => ?_, h3⟩
        have := h4 k hmem
        simp at this
      · intro k' hk'
        simp only [List.map_cons, List.mem_cons] at hk'
        rcases hk' with rfl | hk'
        · exact hk
        · have := h4 k' hk'
          simp at this
          exact this.2
    · rintro ⟨kvs, h1, h2, h3, h4, h5⟩
      cases kvs with
      | nil => simp at h1
      | cons kv kvs =>
        obtain ⟨k, v⟩ := kv
        simp only [List.map_cons, List.nodup_cons] at h3
        have hopt : IsOption arg (k, v) := h2 (arg, (k, v)) (by simp)
        rw [parseArgs_cons_option arg k v rest seen tree hopt (h4 k (by simp))]
        refine (ih _ _).2 ⟨kvs, by simpa using h1, ?_, h3.2, ?_, by simpa using h5⟩
        · intro p hp
          exact h2 p (by simp [hp])
        · intro k' hk'
          simp only [List.mem_cons, not_or]
          refine ⟨?_, h4 k' (by simp [hk'])⟩
          rintro rfl
          exact h3.1 hk'

/-- Consequence: after an accepted command line each parameter has the value given for it, and every other
entry is untouched. -/
theorem C04_command_line_values (args : List Str) (tree tree' : Dict Str)
    (h : parseArgs args [] tree = (.ok, tree')) :
    ∃ kvs : List (Str × Str), (∀ p ∈ args.zip kvs, IsOption p.1 p.2) ∧ (kvs.map Prod.fst).Nodup ∧
      ∀ name, tree'.get name = match assigned kvs name with
        | some v => some v
        | none => tree.get name := by
  obtain ⟨kvs, -, h2, h3, rfl⟩ := (C04_command_line_iff args tree tree').1 h
  exact ⟨kvs, h2, h3, fun name => Dict.get_foldl_set kvs tree name h3⟩

-- a command line with two options is accepted; a repeated one (in another spelling) is not
example : parseArgs [c!"--end-time=1e3", c!"--InitialTimeStepSize=a=b"] [] [] =
    (.ok, [(c!"EndTime", c!"1e3"), (c!"InitialTimeStepSize", c!"a=b")]) := by decide
example : (parseArgs [c!"--end-time=1", c!"--EndTime=2"] [] []).1 = .message .seenTwice := by decide
example : (parseArgs [c!"--end-time"] [] []).1 = .message .missingValue := by decide
example : (parseArgs [c!"--end--time=2"] [] []).1 = .thrown .invalidName := by decide

/-! ### C03: the spelling printed by --help is understood -/

theorem optionName_denotes (name : Str) (h : IsParamName name) :
    ∃ raw, optionName name = '-' :: '-' :: raw ∧ Denotes raw name := by
  obtain ⟨c, cs, rfl, hc, hcs⟩ := h
  have tail : ∀ cs : Str, (∀ x ∈ cs, x.isAlphanum = true) →
      ∃ (ds : Str) (segs : List Str), (∀ x ∈ ds, x.isAlphanum = true) ∧ (∀ s ∈ segs, IsSegment s) ∧
        cs.flatMap (fun c => if c.isUpper then ['-', c.toLower] else [c.toLower]) =
          ds ++ segs.flatMap (fun s => '-' :: s) ∧ cs = ds ++ segs.flatMap capitalize := by
    intro cs
    induction cs with
    | nil => intro _; exact ⟨[], [], by simp, by simp, by simp, by simp⟩
    | cons x xs ih =>
      intro hx
      obtain ⟨ds, segs, h1, h2, h3, h4⟩ := ih (fun y hy => hx y (by simp [hy]))
      by_cases hu : x.isUpper = true
      · refine ⟨[], (x.toLower :: ds) :: segs, by simp, ?_, ?_, ?_⟩
        · intro s hs
          rcases List.mem_cons.1 hs with rfl | hs
          · exact ⟨x.toLower, ds, rfl, (upper_lower_alpha x hu).1, h1⟩
          · exact h2 s hs
        · simp [hu, h3]
        · simp [capitalize, (upper_lower_alpha x hu).2, ← h4]
      · have hu' : x.isUpper = false := by simpa using hu
        refine ⟨x :: ds, segs, ?_, h2, ?_, by simp [← h4]⟩
        · intro y hy
          rcases List.mem_cons.1 hy with rfl | hy
          · exact hx _ (by simp)
          · exact h1 y hy
        · simp [hu', not_upper_lower x hu', h3]
  obtain ⟨ds, segs, h1, h2, h3, h4⟩ := tail cs hcs
  refine ⟨c.toLower :: ds ++ segs.flatMap (fun s => '-' :: s), ?_,
    ⟨c.toLower :: ds, segs, ⟨c.toLower, ds, rfl, (upper_lower_alpha c hc).1, h1⟩, h2, rfl, ?_⟩⟩
  · simp [optionName, hc, h3]
  · simp [capitalize, (upper_lower_alpha c hc).2, ← h4]

/-- For every CamelCase parameter name and every value, giving the option which `--help` prints for the
parameter as `--option=value` sets exactly this parameter to exactly this value. -/
theorem C03_help_option_round_trip (name value : Str) (tree : Dict Str) (h : IsParamName name) :
    parseArgs [optionName name ++ '=' :: value] [] tree = (.ok, tree.set name value) := by
  obtain ⟨raw, hraw, hd⟩ := optionName_denotes name h
  rw [parseArgs_cons_option _ name value [] [] tree ⟨raw, hd, by simp [hraw]⟩ (by simp)]
  rfl

example : IsParamName c!"EnableVTKOutput2D" :=
  ⟨'E', c!"nableVTKOutput2D", rfl, by decide, by decide⟩
example : optionName c!"EnableVTKOutput2D" = c!"--enable-v-t-k-output2-d" := by decide
-- the hypothesis matters: for a name that starts with a lower-case letter the printed option has one dash only
example : optionName c!"endTime" = c!"-end-time" ∧
    (parseArgs [c!"-end-time=1"] [] []).1 = .message .illegalParameter := by decide

/-! ### C05: quoted values -/

/-- Any text written in double quotes with the documented escapes is read back as exactly this text, and
reading stops exactly behind the closing quote. -/
theorem C05_quoted_round_trip (text rest : Str) :
    parseQuotedValue (quote text ++ rest) = .ok (text, rest) :=
  parseQuotedValue_quote text rest

/-- A text whose closing quote is missing is an error, whatever it contains. -/
theorem C05_unterminated_is_error (text : Str) (h : '"' ∉ text) :
    ∃ e, parseQuotedValue ('"' :: text) = .error e := by
  have key : ∀ (text : Str) (p : Str × Str), parseQuotedTail text = .ok p → '"' ∈ text := by
    intro text
    fun_induction parseQuotedTail text <;> intro p hp <;> simp_all
  cases hq : parseQuotedTail text with
  | error e => exact ⟨e, by simp [parseQuotedValue, hq]⟩
  | ok p => exact absurd (key _ _ hq) h

example : parseQuotedValue (quote c!"a\"b\\n\n" ++ c!" # c") = .ok (c!"a\"b\\n\n", c!" # c") := by rfl
example : parseQuotedValue c!"\"a\\q\"" = .error .unknownEscape := by rfl

/-! ### C06: parameter file lines -/

/-- A line of the documented form assigns exactly the denoted parameter and value. -/
theorem C06_wellformed_line_accepted_partial (line name value : Str) (h : IsAssignment line name value) :
    parseLine line = .ok (some (name, value)) :=
  parseLine_assignment h

/-- Blank lines and comments are skipped. -/
theorem C06_blank_and_comment_ignored (line : Str) (h : IsIgnored line) : parseLine line = .ok none :=
  parseLine_ignored h

/-- A line which consists of a key only is rejected. -/
theorem C06_key_only_rejected_partial (ws raw name ws' : Str) (hws : Blank ws) (hraw : Denotes raw name)
    (hws' : Blank ws') : ∃ e, parseLine (ws ++ raw ++ ws') = .error e := by
  obtain ⟨c, r, hr, hcs, hc1, hc2⟩ := hraw.head
  have hl : removeLeadingSpace (ws ++ raw ++ ws') = raw ++ ws' := by
    rw [List.append_assoc]
    exact removeLeadingSpace_blank _ _ hws (.inr ⟨c, r ++ ws', by simp [hr], hcs⟩)
  have hk : parseKey (raw ++ ws') = (raw, ws') := by
    apply parseKey_append _ _ hraw.noStop
    cases ws' with
    | nil => exact .inl rfl
    | cons w ws' => exact .inr ⟨w, ws', rfl, by simp [stopsKey, hws' w (by simp)]⟩
  have hrest : removeLeadingSpace ws' = [] := by
    have := removeLeadingSpace_blank ws' [] hws' (.inl rfl)
    simpa using this
  refine ⟨.outOfRange, ?_⟩
  rw [parseLine, hl]
  have hkey := (transformKey_ok_iff _ _).2 hraw
  simp only [hk, hkey, hrest]
  subst hr
  simp [hc1, hc2]

/-- The claim "every line which is neither blank, nor a comment, nor `key = value` is rejected" is FALSE: the
error objects at opm/models/utils/parametersystem.hh:724 and 730 are created but not thrown.  A line without an equal sign is
accepted, and the first character of the value is silently dropped. -/
theorem C06_malformed_line_rejected_violated :
    ¬ ∀ line, (¬ ∃ name value, IsAssignment line name value) → ¬ IsIgnored line →
      ∃ e, parseLine line = .error e := by
  intro h
  have hline : parseLine c!"Key value" = .ok (some (c!"Key", c!"alue")) := by rfl
  have h1 : ¬ ∃ name value, IsAssignment c!"Key value" name value := by
    rintro ⟨name, value, ha⟩
    have heq : '=' ∈ c!"Key value" := by
      generalize hl : c!"Key value" = l at ha
      cases ha <;> simp
    simp at heq
  have h2 : ¬ IsIgnored c!"Key value" := by
    intro hi
    have := parseLine_ignored hi
    rw [hline] at this
    cases this
  obtain ⟨e, he⟩ := h _ h1 h2
  rw [hline] at he
  cases he

example : IsAssignment c!"  end-time = 3 # x" c!"EndTime" c!"3" := by
  have hd : Denotes c!"end-time" c!"EndTime" :=
    (transformKey_ok_iff _ _).1 (by rfl)
  exact IsAssignment.bare (ws0 := c!"  ") (ws1 := c!" ") (ws2 := c!" ") (v := c!"3") (tail := c!" # x")
    (by unfold Blank; decide) hd (by unfold Blank; decide) (by unfold Blank; decide)
    ⟨by decide, '3', [], rfl, by decide, by decide, by decide⟩
    (Or.inr ⟨' ', c!"# x", rfl, rfl, c!" ", c!"# x", by unfold Blank; decide, rfl,
      Or.inr ⟨'#', c!" x", rfl, Or.inl rfl⟩⟩)

/-! ### C01: precedence of command line, parameter file and defaults -/

/-- What the user gave: command line options, and the contents of the parameter file named by them (or by the
default of the parameter `ParameterFile`). -/
structure UserInput (hist : List RegOp) (args : List Str) (files : Str → Option (List Str))
    (cmd fileKvs : List (Str × Str)) : Prop where
  length_eq : args.length = cmd.length
  options : ∀ p ∈ args.zip cmd, IsOption p.1 p.2
  cmd_distinct : (cmd.map Prod.fst).Nodup
  /-- either there is no parameter file, or it is well-formed and assigns no parameter twice -/
  file : ∀ fname, precedence (assigned cmd) (fun _ => none) ((defaultAfter hist parameterFileKey).getD [])
      parameterFileKey = fname →
    (fname = [] ∧ fileKvs = []) ∨
    (fname ≠ [] ∧ ∃ lines, files fname = some lines ∧ FileAssigns lines fileKvs ∧ (fileKvs.map Prod.fst).Nodup)

/-- Precedence.  Take any history of registration calls which ended with `endRegistration` and registered
`ParameterFile`, any list of distinct command line options and any well-formed parameter file.  Then reading
the parameters succeeds exactly if unused parameters are tolerated or none was given, and afterwards every
registered parameter has the value of the command line if it was given there, else that of the parameter
file, else the default in force after the registration calls; an unregistered parameter cannot be read.  A parameter counts
as set exactly if it was given on the command line or in the file. -/
theorem C01_precedence (hist : List RegOp) (args : List Str) (files : Str → Option (List Str))
    (cmd fileKvs : List (Str × Str)) (allowUnused handleHelp : Bool)
    (hclosed : RegOp.endRegistration ∈ hist)
    (hpf : (defaultAfter hist parameterFileKey).isSome)
    (hin : UserInput hist args files cmd fileKvs) :
    ∃ s, ((setupParameters allowUnused handleHelp args files (runOps hist)).2 = s) ∧
      ((setupParameters allowUnused handleHelp args files (runOps hist)).1 = .ok ↔
        allowUnused = true ∨ ∀ k ∈ cmd.map Prod.fst ++ fileKvs.map Prod.fst, (defaultAfter hist k).isSome) ∧
      (∀ name, s.get name = match defaultAfter hist name with
        | none => .error .notRegistered
        | some d => .ok (precedence (assigned cmd) (assigned fileKvs) d name)) ∧
      ∀ name, s.isSet name = match defaultAfter hist name with
        | none => .error .notRegistered
        | some _ => .ok ((assigned cmd name).isSome || (assigned fileKvs name).isSome) := by
  obtain ⟨ho, ht, hm⟩ := runOps_matches hist
  have hopen : (runOps hist).isOpen = false := by
    cases h : (runOps hist).isOpen with
    | false => rfl
    | true => exact absurd hclosed (ho.1 h)
  have hreg : ∀ name, ((runOps hist).registry.get name).map ParamInfo.default = defaultAfter hist name := by
    intro name
    have := hm name
    unfold RegistryMatches at this
    unfold defaultAfter
    cases hf : firstRegistration hist name with
    | none => simp only [hf] at this ⊢; simp [this]
    | some i =>
      simp only [hf] at this ⊢
      obtain ⟨h, this⟩ := this
      simp [this]
  generalize runOps hist = s0 at hopen hreg ht
  obtain ⟨tree1, hargs, hget1, hkeys1⟩ : ∃ t, parseArgs args [] s0.tree = (.ok, t) ∧
      (∀ name, t.get name = assigned cmd name) ∧
      (∀ name, name ∈ t.map Prod.fst ↔ name ∈ cmd.map Prod.fst) := by
    refine ⟨_, (C04_command_line_iff args s0.tree _).2
      ⟨cmd, hin.length_eq, hin.options, hin.cmd_distinct, rfl⟩, ?_, ?_⟩
    · intro name
      rw [Dict.get_foldl_set _ _ _ hin.cmd_distinct, ht]
      cases assigned cmd name <;> rfl
    · intro name
      rw [ht]
      simpa using Dict.keys_foldl_set cmd name []
  -- options of the form --key=value are no request for help
  have hhelp : args.any (fun a => a == c!"-h" || a == c!"--help" || a == c!"--help-all") = false := by
    rw [List.any_eq_false]
    intro a ha
    obtain ⟨i, hi, rfl⟩ := List.getElem_of_mem ha
    have hi' : i < cmd.length := hin.length_eq ▸ hi
    obtain ⟨raw, -, hraw⟩ := hin.options (args[i], cmd[i]) (by
      rw [List.mem_iff_getElem]
      exact ⟨i, by rw [List.length_zip]; omega, by simp⟩)
    have hmem : '=' ∈ args[i] := by simp only at hraw; rw [hraw]; simp
    intro hh
    simp only [Bool.or_eq_true, beq_iff_eq] at hh
    rcases hh with (hh | hh) | hh <;> rw [hh] at hmem <;> simp at hmem
  -- the name of the parameter file
  obtain ⟨dpf, hdpf⟩ := Option.isSome_iff_exists.1 hpf
  obtain ⟨ipf, hipf, hipfd⟩ : ∃ i, s0.registry.get parameterFileKey = some i ∧ i.default = dpf := by
    have := hreg parameterFileKey
    rw [hdpf] at this
    simpa using this
  have hfname : Store.getUnchecked { s0 with tree := tree1 } parameterFileKey =
      (precedence (assigned cmd) (fun _ => none) ((defaultAfter hist parameterFileKey).getD [])
        parameterFileKey, { s0 with tree := tree1 }) := by
    simp only [Store.getUnchecked, hipf, hget1, precedence, hdpf, Option.getD_some, hipfd]
    cases assigned cmd parameterFileKey <;> rfl
  -- the tree after reading the file
  have hfile : ∃ tree2, (∀ name, tree2.get name = (assigned cmd name).or (assigned fileKvs name)) ∧
      (∀ name, name ∈ tree2.map Prod.fst ↔ name ∈ cmd.map Prod.fst ∨ name ∈ fileKvs.map Prod.fst) ∧
      setupParameters allowUnused handleHelp args files s0 =
        (if !allowUnused && !({ s0 with tree := tree2 } : Store).unusedKeys.isEmpty then
          (.failed, { s0 with tree := tree2 }) else (.ok, { s0 with tree := tree2 })) := by
    rcases hin.file _ rfl with ⟨h1, h2⟩ | ⟨h1, lines, h2, h3, h4⟩
    · refine ⟨tree1, ?_, ?_, ?_⟩
      · intro name; rw [hget1, h2]; cases assigned cmd name <;> rfl
      · intro name; rw [hkeys1, h2]; simp
      · rw [setupParameters, parseCommandLine]
        simp only [hhelp, Bool.and_false, Bool.false_eq_true, if_false, hargs, hfname, h1, if_true]
        simp only [hopen]
        rfl
    · obtain ⟨t2, ht2, hg2, hk2⟩ := parseLines_file lines fileKvs h3 [] tree1 h4 (by simp)
      refine ⟨t2, ?_, ?_, ?_⟩
      · intro name; rw [hg2, hget1]
      · intro name; rw [hk2, hkeys1]
      · rw [setupParameters, parseCommandLine]
        simp only [hhelp, Bool.and_false, Bool.false_eq_true, if_false, hargs, hfname, h1, h2,
          parseParameterFile, ht2]
        simp only [hopen]
        rfl
  obtain ⟨tree2, hget2, hkeys2, hset⟩ := hfile
  refine ⟨{ s0 with tree := tree2 }, ?_, ?_, ?_, ?_⟩
  · rw [hset]; split <;> rfl
  · rw [hset]
    have hun : (({ s0 with tree := tree2 } : Store).unusedKeys.isEmpty = true) ↔
        ∀ k ∈ cmd.map Prod.fst ++ fileKvs.map Prod.fst, (defaultAfter hist k).isSome := by
      simp only [Store.unusedKeys, List.isEmpty_iff, List.filter_eq_nil_iff, List.mem_append]
      constructor
      · intro h k hk
        have := h k ((hkeys2 k).2 hk)
        rw [← hreg k]
        cases hr : s0.registry.get k <;> simp_all
      · intro h k hk
        have := h k ((hkeys2 k).1 hk)
        rw [← hreg k] at this
        cases hr : s0.registry.get k <;> simp_all
    cases allowUnused with
    | true => simp
    | false =>
      cases he : ({ s0 with tree := tree2 } : Store).unusedKeys.isEmpty with
      | true => simp only [he, true_iff] at hun; exact ⟨fun _ => Or.inr hun, fun _ => by simp⟩
      | false =>
        simp only [he, Bool.false_eq_true, false_iff] at hun
        simpa using hun
  · intro name
    have := hreg name
    simp only [Store.get, hopen, Bool.false_eq_true, if_false]
    cases hr : s0.registry.get name with
    | none => simp only [hr, Option.map_none] at this; rw [← this]
    | some i =>
      simp only [hr, Option.map_some] at this
      rw [← this]
      simp only [hget2, precedence]
      cases assigned cmd name with
      | some v => rfl
      | none => cases assigned fileKvs name <;> rfl
  · intro name
    have := hreg name
    simp only [Store.isSet, hopen, Bool.false_eq_true, if_false]
    cases hr : s0.registry.get name with
    | none => simp only [hr, Option.map_none] at this; rw [← this]
    | some i =>
      simp only [hr, Option.map_some] at this
      rw [← this]
      simp only [hget2]
      cases assigned cmd name with
      | some v => rfl
      | none => cases assigned fileKvs name <;> rfl

/-- A concrete history: `EndTime` with default `1`, then changed to `2`, and `ParameterFile`. -/
def demoHist : List RegOp :=
  [.register c!"EndTime" ⟨c!"double", c!"end", c!"1", false⟩,
   .register c!"ParameterFile" ⟨c!"string", c!"file", c!"my.ini", false⟩,
   .setDefault c!"EndTime" c!"2", .endRegistration, .setDefault c!"EndTime" c!"3"]

def demoFiles (f : Str) : Option (List Str) := if f = c!"my.ini" then some [c!"# comment", c!"EndTime=\"7\""] else none

theorem denotes_EndTime : Denotes c!"EndTime" c!"EndTime" := (transformKey_ok_iff _ _).1 (by rfl)

-- the hypotheses are satisfiable, and the three sources really compete
example : UserInput demoHist [] demoFiles [] [(c!"EndTime", c!"7")] where
  length_eq := rfl
  options := by simp
  cmd_distinct := by simp
  file := by
    intro fname h
    right
    have hf : fname = c!"my.ini" := by rw [← h]; decide
    subst hf
    refine ⟨by simp, _, rfl, ?_, by simp⟩
    refine .ignored ⟨[], _, by simp [Blank], rfl, Or.inr ⟨'#', _, rfl, Or.inl rfl⟩⟩ (.assign ?_ .nil)
    exact IsAssignment.quoted (ws0 := []) (ws1 := []) (ws2 := []) (v := c!"7") (tail := [])
      (by simp [Blank]) denotes_EndTime (by simp [Blank]) (by simp [Blank])
      ⟨[], [], by simp [Blank], rfl, Or.inl rfl⟩
example : RegOp.endRegistration ∈ demoHist ∧ (defaultAfter demoHist parameterFileKey).isSome := by decide
example : defaultAfter demoHist c!"EndTime" = some c!"3" := by decide

/-! ### C02: the registration protocol -/

/-- Which calls are accepted, in terms of the history of calls alone, and: a rejected call changes neither the
default nor the registration of anything. -/
theorem C02_register_accepted_iff (hist : List RegOp) (name : Str) (info : ParamInfo) :
    (applyOp (runOps hist) (.register name info)).1 = none ↔
      RegOp.endRegistration ∉ hist ∧
        ∀ first, firstRegistration hist name = some first →
          first.typeName = info.typeName ∧ first.usage = info.usage := by
  obtain ⟨ho, -, hm⟩ := runOps_matches hist
  have := hm name
  unfold RegistryMatches at this
  simp only [applyOp, Store.register]
  by_cases hc : RegOp.endRegistration ∈ hist
  · have hopen : (runOps hist).isOpen = false := by
      cases h : (runOps hist).isOpen with
      | false => rfl
      | true => exact absurd hc (ho.1 h)
    simp [hopen, hc]
  · have hopen := ho.2 hc
    simp only [hopen, Bool.not_true, Bool.false_eq_true, if_false]
    cases hf : firstRegistration hist name with
    | none =>
      simp only [hf] at this
      simp [this, hc]
    | some i =>
      simp only [hf] at this
      obtain ⟨h, this⟩ := this
      simp only [this]
      split
      · next hs => simp [ParamInfo.same] at hs; simp [hc, hs]
      · next hs => simp [ParamInfo.same] at hs; simpa [hc] using hs

/-- `SetDefault` is accepted exactly for registered parameters (also after registration was closed). -/
theorem C02_setDefault_accepted_iff (hist : List RegOp) (name v : Str) :
    (applyOp (runOps hist) (.setDefault name v)).1 = none ↔ (firstRegistration hist name).isSome := by
  obtain ⟨-, -, hm⟩ := runOps_matches hist
  have := hm name
  unfold RegistryMatches at this
  simp only [applyOp, Store.setDefault]
  cases hf : firstRegistration hist name with
  | none => simp only [hf] at this; simp [this]
  | some i => simp only [hf] at this; obtain ⟨h, this⟩ := this; simp [this]

/-- `Hide` is accepted exactly for registered parameters while registration is open. -/
theorem C02_hide_accepted_iff (hist : List RegOp) (name : Str) :
    (applyOp (runOps hist) (.hide name)).1 = none ↔
      RegOp.endRegistration ∉ hist ∧ (firstRegistration hist name).isSome := by
  obtain ⟨ho, -, hm⟩ := runOps_matches hist
  have := hm name
  unfold RegistryMatches at this
  simp only [applyOp, Store.hide]
  by_cases hc : RegOp.endRegistration ∈ hist
  · have hopen : (runOps hist).isOpen = false := by
      cases h : (runOps hist).isOpen with
      | false => rfl
      | true => exact absurd hc (ho.1 h)
    simp [hopen, hc]
  · have hopen := ho.2 hc
    simp only [hopen, Bool.not_true, Bool.false_eq_true, if_false]
    cases hf : firstRegistration hist name with
    | none => simp only [hf] at this; simp [this]
    | some i => simp only [hf] at this; obtain ⟨h, this⟩ := this; simp [this, hc]

/-- `endRegistration` is accepted exactly once. -/
theorem C02_endRegistration_accepted_iff (hist : List RegOp) :
    (applyOp (runOps hist) .endRegistration).1 = none ↔ RegOp.endRegistration ∉ hist := by
  obtain ⟨ho, -, -⟩ := runOps_matches hist
  simp only [applyOp, Store.endRegistration, ← ho]
  cases (runOps hist).isOpen <;> simp

/-- Reading is possible exactly for registered parameters after registration was closed, and (without user
input) yields the default: that of the first registration, or the last override. -/
theorem C02_get_after_history (hist : List RegOp) (name : Str) :
    (runOps hist).get name =
      if RegOp.endRegistration ∈ hist then
        match defaultAfter hist name with
        | none => .error .notRegistered
        | some d => .ok d
      else .error .registrationOpen := by
  obtain ⟨ho, ht, hm⟩ := runOps_matches hist
  have := hm name
  unfold RegistryMatches at this
  simp only [Store.get, ht]
  by_cases hc : RegOp.endRegistration ∈ hist
  · have hopen : (runOps hist).isOpen = false := by
      cases h : (runOps hist).isOpen with
      | false => rfl
      | true => exact absurd hc (ho.1 h)
    simp only [hopen, hc, Bool.false_eq_true, if_false, if_true, defaultAfter]
    cases hf : firstRegistration hist name with
    | none => simp only [hf] at this ⊢; simp [this]
    | some i => simp only [hf] at this ⊢; obtain ⟨h, this⟩ := this; simp [this, Dict.get]
  · simp [ho.2 hc, hc]

/-- A rejected call has no effect on any value that can be read, now or later: the history with the call and
the one without it agree after any continuation. -/
theorem C02_rejected_call_has_no_effect (hist : List RegOp) (op : RegOp)
    (hrej : (applyOp (runOps hist) op).1 ≠ none) (later : List RegOp) (name : Str) :
    (runOps (hist ++ op :: later)).get name = (runOps (hist ++ later)).get name := by
  -- the rejected call can only have touched the list of finalizers
  have hsame : ∃ f, (applyOp (runOps hist) op).2 = { runOps hist with finalizers := f } := by
    generalize runOps hist = s at hrej ⊢
    cases op with
    | register n i =>
      simp only [applyOp, Store.register] at hrej ⊢
      split
      · exact ⟨s.finalizers, rfl⟩
      · next ho =>
        simp only [ho] at hrej
        split
        · split
          · exact ⟨_, rfl⟩
          · exact ⟨_, rfl⟩
        · next hg => simp [hg] at hrej
    | setDefault n v =>
      simp only [applyOp, Store.setDefault] at hrej ⊢
      split
      · exact ⟨s.finalizers, rfl⟩
      · next hg => simp [hg] at hrej
    | hide n =>
      simp only [applyOp, Store.hide] at hrej ⊢
      split
      · exact ⟨s.finalizers, rfl⟩
      · next ho =>
        simp only [ho] at hrej
        split
        · exact ⟨s.finalizers, rfl⟩
        · next hg => simp [hg] at hrej
    | endRegistration =>
      simp only [applyOp, Store.endRegistration] at hrej ⊢
      split
      · exact ⟨s.finalizers, rfl⟩
      · next ho => simp [ho] at hrej
  -- the finalizers never influence the rest
  have fin : ∀ (l : List RegOp) (s s' : Store), s'.tree = s.tree → s'.registry = s.registry →
      s'.isOpen = s.isOpen →
      (l.foldl (fun s op => (applyOp s op).2) s').get name = (l.foldl (fun s op => (applyOp s op).2) s).get name := by
    intro l
    induction l with
    | nil => intro s s' h1 h2 h3; simp only [List.foldl_nil, Store.get, h1, h2, h3]; rfl
    | cons o l ih =>
      intro s s' h1 h2 h3
      simp only [List.foldl_cons]
      obtain ⟨t, r, f, o1⟩ := s
      obtain ⟨t', r', f', o1'⟩ := s'
      simp only at h1 h2 h3
      subst h1 h2 h3
      apply ih <;> cases o <;>
        simp only [applyOp, Store.register, Store.setDefault, Store.hide, Store.endRegistration] <;>
        repeat' split
      all_goals simp_all
  simp only [runOps, List.foldl_append, List.foldl_cons]
  obtain ⟨f, hf⟩ := hsame
  have hf' : (applyOp (List.foldl (fun s op => (applyOp s op).2) Store.init hist) op).2 =
    { runOps hist with finalizers := f } := hf
  rw [hf']
  exact fin later _ _ rfl rfl rfl

example : (applyOp (runOps demoHist) (.register c!"X" ⟨c!"int", [], c!"1", false⟩)).1 = some .registrationClosed := by
  decide
example : (applyOp (runOps (demoHist.take 1)) (.register c!"EndTime" ⟨c!"int", c!"end", c!"1", false⟩)).1 =
    some .mismatch := by decide
example : (runOps demoHist).get c!"EndTime" = .ok c!"3" := by rfl

/-! ### C07: wrapping of the help text -/

/-- For every width of at least one, wrapping the help text terminates (within the number of rounds of the
model), does not throw, and keeps all visible characters in their order — provided that a line break in the text is
followed by a blank in the second next position. -/
theorem C07_wrapping_keeps_text_partial (msg : Str) (indent width : Nat) (hw : 1 ≤ width)
    (hnl : ∀ i, msg[i]? = some '\n' → ∀ c, msg[i+2]? = some c → isSpace c = true) :
    ∃ out, breakLines msg indent width = some out ∧ visible out = visible msg := by
  obtain ⟨st, hst, inv⟩ := breakLoop_inv msg indent width hw hnl (breakRounds msg) ⟨[], 0, 0, 0, 0⟩
    ⟨by simp, by simp, by simp [visible], by simp⟩
  have hdone := breakLoop_done msg indent width _ _ _ (by simp) (breakRounds_enough msg) hst
  refine ⟨st.result ++ (msg.drop st.start).take msg.length, ?_, ?_⟩
  · simp only [breakLines, hst, substr, inv.start_le, if_true]
  · rw [visible_append, List.take_of_length_le (by simp)]
    exact inv.vis

example : breakLines c!"a sentence\n\nwith words" 2 6 ≠ none := by decide

/-- In general it is FALSE that no text is lost: behind a line break in the text the position of the last
blank is set two characters ahead, and a character which is not a blank is then dropped as if it was one. -/
theorem C07_wrapping_keeps_text_violated :
    ¬ ∀ (msg : Str) (indent width : Nat), 1 ≤ width →
      ∃ out, breakLines msg indent width = some out ∧ visible out = visible msg := by
  intro h
  obtain ⟨out, h1, h2⟩ := h c!"a\nbcdef" 0 3 (by decide)
  revert h1 h2
  decide +revert

/-! ### C08: asking for help -/

/-- The claim "a run which was asked for help never starts a simulation" is FALSE: `start` only looks for the
status 1 and 2, whereas a call for help has status -1. -/
theorem C08_help_never_runs_violated :
    ¬ ∀ (args : List Str) (files : Str → Option (List Str)) (s : Store) (endTimeSet dtSet : Bool),
      c!"--help" ∈ args → ∃ code, start (setupParameters false true args files s).1 endTimeSet dtSet = .exit code := by
  intro h
  obtain ⟨code, hc⟩ := h [c!"--help"] (fun _ => none) Store.init true true (by simp)
  have : start (setupParameters false true [c!"--help"] (fun _ => none) Store.init).1 true true = .runs := by rfl
  rw [this] at hc
  cases hc

/-- What does hold: a call for help does not touch any parameter, and it does not start a simulation unless
both the end time and the initial time step size have a usable value without any user input. -/
theorem C08_help_partial (args : List Str) (files : Str → Option (List Str)) (s : Store)
    (allowUnused endTimeSet dtSet : Bool) (h : c!"-h" ∈ args ∨ c!"--help" ∈ args ∨ c!"--help-all" ∈ args)
    (hset : endTimeSet = false ∨ dtSet = false) :
    (setupParameters allowUnused true args files s).2 = s ∧
      start (setupParameters allowUnused true args files s).1 endTimeSet dtSet = .exit 1 := by
  have hany : args.any (fun a => a == c!"-h" || a == c!"--help" || a == c!"--help-all") = true := by
    rw [List.any_eq_true]
    rcases h with h | h | h
    · exact ⟨_, h, by simp⟩
    · exact ⟨_, h, by simp⟩
    · exact ⟨_, h, by simp⟩
  have hs : setupParameters allowUnused true args files s = (.help, s) := by
    simp only [setupParameters, parseCommandLine, Bool.true_and, hany, if_true]
  rw [hs]
  refine ⟨rfl, ?_⟩
  rcases hset with rfl | rfl
  · rfl
  · cases endTimeSet <;> rfl

/-- Exit statuses of failed setups: they are never mistaken for a run. -/
theorem C08_failed_setup_never_runs (st : SetupStatus) (endTimeSet dtSet : Bool)
    (h : st = .failed ∨ ∃ e, st = .thrown e) : start st endTimeSet dtSet = .exit 1 := by
  rcases h with rfl | ⟨e, rfl⟩ <;> rfl

/-! ### C60: the printed parameter list can be read as a parameter file -/

/-- For values and defaults without double quotes, backslashes... every line of the printed parameter list is
an assignment of the printed value to the printed parameter. -/
theorem C60_printed_list_round_trip_partial (name value default : Str) (printDefault : Bool)
    (hn : IsParamName name) (hv : ∀ c ∈ value, c ≠ '"' ∧ c ≠ '\\' ∧ c ≠ '\n') :
    parseLine (printParam name value default printDefault) = .ok (some (name, value)) := by
  have hd : Denotes name name := by
    obtain ⟨c, cs, rfl, hc, hcs⟩ := hn
    refine ⟨c :: cs, [], ⟨c, cs, rfl, upper_alpha c hc, hcs⟩, by simp, by simp, ?_⟩
    simp [capitalize, upper_toUpper c hc]
  have h := parseLine_prefix (ws0 := []) (ws1 := []) (ws2 := []) (vt := '"' :: (value ++ '"' ::
    (if printDefault then c!" # default: \"" ++ default ++ ['"'] else []))) (by simp [Blank]) hd (by simp [Blank]) (by simp [Blank])
    (.inr ⟨_, _, rfl, by decide⟩)
  simp only [List.nil_append] at h
  have hp : printParam name value default printDefault = name ++ '=' :: '"' :: (value ++ '"' ::
    (if printDefault then c!" # default: \"" ++ default ++ ['"'] else [])) := by
    simp [printParam]
  rw [hp, h]
  simp only [parseValue, parseQuotedValue, List.head?_cons, if_true]
  rw [parseQuotedTail_plain _ _ (fun c hc => ⟨(hv c hc).1, (hv c hc).2.1⟩)]

example : IsParamName c!"EndTime" ∧ ∀ c ∈ c!"1e5 # x", c ≠ '"' ∧ c ≠ '\\' ∧ c ≠ '\n' :=
  ⟨⟨'E', c!"ndTime", rfl, by decide, by decide⟩, by decide⟩

theorem C60_printed_list_round_trip_violated :
    ¬ ∀ name value default : Str, IsParamName name →
      parseLine (printParam name value default false) = .ok (some (name, value)) := by
  intro h
  have := h c!"Key" c!"a\"b" [] ⟨'K', c!"ey", rfl, by decide, by decide⟩
  have h2 : parseLine (printParam c!"Key" c!"a\"b" [] false) = .ok (some (c!"Key", c!"a")) := by rfl
  rw [h2] at this
  simp at this

end Verif.Params
