import Verif.Restart.Lemmas
import Verif.Restart.IntFormat
import Verif.TimeLoop.Props
/-
Properties C20, C58, C64 and C65: restart files.
-/

set_option autoImplicit false

namespace Verif.Restart

open ForcedSteps

variable {K : Type}

/-! ### C20 -/

/-- C20: reading the clock from what was written restores it exactly, whatever follows in the file and whatever the
clock was before; the rest of the file is left for the following sections. -/
theorem C20_clock_round_trip {FI : Format ℤ} {FK : Format K} (hI : FI.Lawful) (hK : FK.Lawful) (c old : Clock K)
    (rest : List Char) :
    readClock FI FK old ⟨writeClock FI FK c ++ rest, false, false⟩ = .ok (c, ⟨rest, false, false⟩) := by
  obtain ⟨a, b, d, e, f, g⟩ := c
  have h0 : writeClock FI FK ⟨a, b, d, e, f, g⟩ ++ rest = sectionBegin c!"Simulator" ++
      (FI.fmt a ++ ' ' :: (FK.fmt b ++ ' ' :: (FK.fmt d ++ ' ' :: (FK.fmt e ++ ' ' ::
        (FK.fmt f ++ ' ' :: (FI.fmt g ++ ' ' :: '\n' :: rest)))))) := by
    simp [writeClock, sectionEnd]
  rw [h0, readClock, readSectionBegin_ok _ _ (by decide)]
  simp only [bind, Except.bind, readInto_sp hI, readInto_sp' hK, readInto_sp' hI]
  have := readSectionEnd_ok [' '] rest (by decide) rfl
  simp only [List.cons_append, List.nil_append] at this
  rw [this]

example : readClock intFormat intFormat ⟨0, 0, 0, 0, 0, 0⟩
    ⟨writeClock intFormat intFormat ⟨3, -100, 50, 7, 123, 45⟩ ++ c!"Problem", false, false⟩ =
    .ok (⟨3, -100, 50, 7, 123, 45⟩, ⟨c!"Problem", false, false⟩) :=
  C20_clock_round_trip intFormat_lawful intFormat_lawful _ _ _

/-- The clock of a simulator which was restored from `c`. -/
def restore {K : Type} (c : Clock K) (s : TimeLoop.Sim K) : TimeLoop.Sim K :=
  { s with episodeIdx := c.episodeIdx, episodeStart := c.episodeStart, episodeLength := c.episodeLength,
           startTime := c.startTime, time := c.time, timeStepIdx := c.timeStepIdx }

/-- What is saved of the clock of a simulator. -/
def save {K : Type} (s : TimeLoop.Sim K) : Clock K :=
  ⟨s.episodeIdx, s.episodeStart, s.episodeLength, s.startTime, s.time, s.timeStepIdx⟩

/-- C20 (queries): after a restart the simulator answers the questions about the episode as the saved one did, and the
question whether it is finished if end time, time step size and the finished flag are the same. -/
theorem C20_queries_agree [Field K] [LinearOrder K] (s new : TimeLoop.Sim K) :
    let r := restore (save s) new
    r.episodeIsOver = s.episodeIsOver ∧ r.episodeStarts = s.episodeStarts ∧
    r.episodeMaxTimeStepSize = s.episodeMaxTimeStepSize ∧
    (new.endTime = s.endTime → new.dt = s.dt → new.finishedFlag = s.finishedFlag → r = s) := by
  refine ⟨rfl, rfl, rfl, ?_⟩
  intro h1 h2 h3
  obtain ⟨_, _, _, _, _, _, _, _, _⟩ := s
  simp only at h1 h2 h3
  subst h1 h2 h3
  rfl

/-! ### C58 -/

/-- C58 (round trip): a restart file of a grid with any number of degrees of freedom and any number of primary variables
is read back exactly by a simulator with the same grid. -/
theorem C58_file_round_trip {FI : Format ℤ} {FK : Format K} (hI : FI.Lawful) (hK : FK.Lawful)
    (magic cookie : List Char) (hm : '\n' ∉ magic) (hc : '\n' ∉ cookie) (c oldClock : Clock K) (numEq : ℕ)
    (dofs old : List (List K)) (hlen : old.length = dofs.length) (hd : ∀ d ∈ dofs, d.length = numEq)
    (ho : ∀ d ∈ old, d.length = numEq) :
    readFile FI FK magic cookie oldClock old (some (writeFile FI FK magic cookie c dofs)) = .ok (c, dofs) := by
  have e0 : writeFile FI FK magic cookie c dofs = sectionBegin magic ++ (sectionEnd ++ (writeClock FI FK c ++
      (sectionBegin cookie ++ (writeEntityLines (writeValues FK) dofs ++ sectionEnd)))) := by
    simp [writeFile, writeEntities]
  have hne : (writeFile FI FK magic cookie c dofs).isEmpty = false := by
    rw [e0]; simp [sectionBegin]
  simp only [readFile, hne, Bool.false_eq_true, if_false]
  rw [e0, readSectionBegin_ok _ _ hm]
  simp only [bind, Except.bind]
  have h1 : ∀ r, readSectionEnd ⟨sectionEnd ++ r, false, false⟩ = .ok ⟨r, false, false⟩ := by
    intro r
    have := readSectionEnd_ok [] r (by simp) rfl
    simpa [sectionEnd] using this
  rw [h1]
  simp only
  rw [C20_clock_round_trip hI hK]
  simp only [readEntities, bind, Except.bind]
  rw [readSectionBegin_ok _ _ hc]
  simp only
  rw [readEntityLines_ok (writeValues FK) (readDof FK) dofs old hlen (fun e _ => writeValues_noNewline hK e)
    (fun e he o hoo => readDof_ok hK e o (by rw [ho o hoo, hd e he]))]
  simp only
  have := h1 []
  simp only [List.append_nil] at this
  rw [this]

example : readFile intFormat intFormat c!"eWoms" c!"Entities: Codim 0" ⟨0, 0, 0, 0, 0, 0⟩ [[0, 0], [0, 0]]
    (some (writeFile intFormat intFormat c!"eWoms" c!"Entities: Codim 0" ⟨3, -100, 50, 7, 123, 45⟩ [[1, -2], [33, 4]])) =
    .ok (⟨3, -100, 50, 7, 123, 45⟩, [[1, -2], [33, 4]]) :=
  C58_file_round_trip intFormat_lawful intFormat_lawful _ _ (by decide) (by decide) _ _ 2 _ _ rfl (by simp) (by simp)

/-- C58 (cookie): a missing or empty file and a file whose first line is not the cookie of the grid (which contains the
sizes of the grid and the number of processes) are rejected. -/
theorem C58_wrong_cookie_rejected (FI : Format ℤ) (FK : Format K) (magic cookie : List Char) (oldClock : Clock K)
    (old : List (List K)) (line rest : List Char) (hl : '\n' ∉ line) (hne : line ≠ magic) :
    readFile FI FK magic cookie oldClock old none = .error .file ∧
    readFile FI FK magic cookie oldClock old (some []) = .error .file ∧
    readFile FI FK magic cookie oldClock old (some (line ++ '\n' :: rest)) = .error .section := by
  refine ⟨rfl, rfl, ?_⟩
  have : (line ++ '\n' :: rest).isEmpty = false := by simp
  simp only [readFile, this, Bool.false_eq_true, if_false, readSectionBegin, getline_line _ _ hl, Stream.good,
    Bool.not_false, Bool.and_self, if_true]
  simp [hne, bind, Except.bind]

/-- C58 (too many entities): if the section has more entities than the grid, this is reported. -/
theorem C58_too_many_entities_rejected {F : Format K} (hF : F.Lawful) (cookie : List Char) (hc : '\n' ∉ cookie)
    (dofs old : List (List K)) (hlt : old.length < dofs.length) (numEq : ℕ) (hpos : 0 < numEq)
    (hd : ∀ d ∈ dofs, d.length = numEq) (ho : ∀ d ∈ old, d.length = numEq) (rest : List Char) :
    readEntities cookie (readDof F) old ⟨writeEntities cookie (writeValues F) dofs ++ rest, false, false⟩ =
      .error .unread := by
  obtain ⟨es, e, es', hes, hlen⟩ : ∃ es e es', dofs = es ++ e :: es' ∧ es.length = old.length := by
    refine ⟨dofs.take old.length, dofs[old.length], dofs.drop (old.length + 1), ?_, by simp; omega⟩
    rw [← List.drop_eq_getElem_cons hlt, List.take_append_drop]
  have hsplit : ∀ (a b : List (List K)), writeEntityLines (writeValues F) (a ++ b) =
      writeEntityLines (writeValues F) a ++ writeEntityLines (writeValues F) b := by
    intro a b
    induction a with
    | nil => rfl
    | cons x a ih => simp [writeEntityLines, ih]
  have e0 : writeEntities cookie (writeValues F) dofs ++ rest = sectionBegin cookie ++
      (writeEntityLines (writeValues F) es ++ (writeValues F e ++ '\n' ::
        (writeEntityLines (writeValues F) es' ++ sectionEnd ++ rest))) := by
    rw [hes]
    simp [writeEntities, hsplit, writeEntityLines]
  rw [e0]
  simp only [readEntities, bind, Except.bind]
  rw [readSectionBegin_ok _ _ hc]
  simp only
  have hee : ∀ d ∈ es, d.length = numEq := fun d h => hd d (by rw [hes]; simp [h])
  rw [readEntityLines_ok (writeValues F) (readDof F) es old hlen.symm (fun e _ => writeValues_noNewline hF e)
    (fun e he o hoo => readDof_ok hF e o (by rw [ho o hoo, hee e he]))]
  simp only
  have hel : e.length = numEq := hd e (by rw [hes]; simp)
  have hbad : (writeValues F e).all blank = false := by
    cases e with
    | nil => simp at hel; omega
    | cons x xs =>
      rw [writeValues_cons]
      have hn := hF.nonempty x
      have hch := hF.chars x
      cases hx : F.fmt x with
      | nil => exact absurd hx hn
      | cons c cs => simp [(hch c (by rw [hx]; simp)).2]
  rw [readSectionEnd, getline_line _ _ (writeValues_noNewline hF e)]
  simp [hbad]

example : readEntities c!"E" (readDof intFormat) [[0]] ⟨writeEntities c!"E" (writeValues intFormat) [[1], [2]] ++ [], false, false⟩ =
    .error .unread :=
  C58_too_many_entities_rejected intFormat_lawful _ (by decide) _ _ (by decide) 1 (by decide) (by simp) (by simp) _

/-- C58 (partial, truncated files): if the file ends before the line of the last degree of freedom but one is complete,
this is reported.  What is missing: files which end later (next theorem). -/
theorem C58_truncated_partial {E : Type} (read : E → Stream → Except Err E) (old : List E) (t : List Char)
    (h : t.count '\n' + 2 ≤ old.length) : ∃ e, readEntityLines read old ⟨t, false, false⟩ = .error e := by
  induction old generalizing t with
  | nil => simp at h
  | cons o os ih =>
    simp only [readEntityLines, Stream.good, Bool.not_false, Bool.and_self, if_true]
    by_cases ht : '\n' ∈ t
    · obtain ⟨a, b, rfl, hn⟩ := List.eq_append_cons_of_mem ht
      rw [getline_line _ _ hn]
      simp only
      cases read o ⟨a, false, false⟩ with
      | error x => exact ⟨x, rfl⟩
      | ok e' =>
        simp only
        obtain ⟨x, hx⟩ := ih b (by
          simp only [List.count_append, List.count_cons_self, List.length_cons] at h
          omega)
        exact ⟨x, by rw [hx]⟩
    · have h1 : t.takeWhile (· ≠ '\n') = t := by
        have := List.takeWhile_append_of_pos (p := (· ≠ '\n')) (l₁ := t) (l₂ := [])
          (by intro c hc; simp only [ne_eq, decide_eq_true_eq]; rintro rfl; exact ht hc)
        simpa using this
      have h2 : t.dropWhile (· ≠ '\n') = [] := by
        have := List.dropWhile_append_of_pos (p := (· ≠ '\n')) (l₁ := t) (l₂ := [])
          (by intro c hc; simp only [ne_eq, decide_eq_true_eq]; rintro rfl; exact ht hc)
        simpa using this
      simp only [getline, Bool.or_self, Bool.false_eq_true, if_false, h1, h2, List.isEmpty_nil, if_true]
      cases read o ⟨t, false, false⟩ with
      | error x => exact ⟨x, rfl⟩
      | ok e' =>
        simp only
        cases os with
        | nil => simp at h
        | cons o' os => exact ⟨.corrupted, by simp [readEntityLines, Stream.good]⟩

example : ∃ e, readEntityLines (readDof intFormat) [[0, 0], [0, 0], [0, 0]] ⟨c!"1 2 \n3", false, false⟩ = .error e :=
  C58_truncated_partial _ _ _ (by decide)

/-- C58 (refuted, truncated files): files which end within the last degree of freedom, as they are left behind by a
crash while they are written, are read without an error.  If the last two characters but one are missing, the value
45 is read as 4; if the last value is missing completely, the old value stays. -/
theorem C58_truncated_violated :
    let full := writeFile intFormat intFormat c!"eWoms" c!"Entities: Codim 0" ⟨3, -100, 50, 7, 123, 45⟩ [[1, -2], [6, 45]]
    let read := fun file => readFile intFormat intFormat c!"eWoms" c!"Entities: Codim 0" ⟨0, 0, 0, 0, 0, 0⟩
      [[0, 0], [0, 0]] (some file)
    read full = .ok (⟨3, -100, 50, 7, 123, 45⟩, [[1, -2], [6, 45]]) ∧
    read (full.take (full.length - 4)) = .ok (⟨3, -100, 50, 7, 123, 45⟩, [[1, -2], [6, 4]]) ∧
    read (full.take (full.length - 5)) = .ok (⟨3, -100, 50, 7, 123, 45⟩, [[1, -2], [6, 0]]) := by
  decide

/-! ### C64 -/

theorem writeExtras_le_one (F : Format K) (vals : List K) (extra : List ℕ) (h : extra.length ≤ 1) :
    writeExtras F vals extra = [] ∨ ∃ i x, extra = [i] ∧ vals[i]? = some x ∧ writeExtras F vals extra = F.fmt x := by
  match extra, h with
  | [], _ => exact Or.inl rfl
  | [i], _ =>
    cases hi : vals[i]? with
    | none => left; simp [writeExtras, hi]
    | some x => right; exact ⟨i, x, rfl, hi, by simp [writeExtras, hi]⟩

/-- C64 (partial): with at most one value written by the extension modules, a degree of freedom of the black-oil model is
restored except for the meanings of the brine and the solvent variables.  What is missing: more than one value (polymer
alone writes two), and these meanings; both are refuted below. -/
theorem C64_blackoil_round_trip_partial {FI : Format ℤ} {FK : Format K} (hI : FI.Lawful) (hK : FK.Lawful)
    (extra : List ℕ) (he : extra.length ≤ 1) (d old : BoDof K) (hlen : old.vals.length = d.vals.length) :
    readBo FI FK extra old ⟨writeBo FI FK extra d, false, false⟩ =
      .ok { d with brine := old.brine, solvent := old.solvent } := by
  obtain ⟨vals, g, w, p, r, br, so⟩ := d
  obtain ⟨ovals, og, ow, op, orr, obr, oso⟩ := old
  simp only at hlen
  obtain ⟨b', hb', _, h1⟩ := readValues_ok hK vals ovals hlen [] (Or.inl rfl)
    (writeValues FI [g, w, p, r] ++ writeExtras FK vals extra)
  have e0 : writeBo FI FK extra ⟨vals, g, w, p, r, br, so⟩ =
      writeValues FK vals ++ (writeValues FI [g, w, p, r] ++ writeExtras FK vals extra) := by
    simp [writeBo]
  rw [e0, readBo]
  simp only [List.nil_append] at h1
  simp only [h1]
  have e1 : b' ++ (writeValues FI [g, w, p, r] ++ writeExtras FK vals extra) = b' ++ (FI.fmt g ++ ' ' ::
      (FI.fmt w ++ ' ' :: (FI.fmt p ++ ' ' :: (FI.fmt r ++ ' ' :: writeExtras FK vals extra)))) := by
    simp [writeValues]
  have h2 : readInto FI 0 ⟨b' ++ (writeValues FI [g, w, p, r] ++ writeExtras FK vals extra), false, false⟩ =
      (g, ⟨' ' :: (FI.fmt w ++ ' ' :: (FI.fmt p ++ ' ' :: (FI.fmt r ++ ' ' :: writeExtras FK vals extra))),
        false, false⟩) := by
    rw [e1]
    rcases hb' with rfl | rfl
    · exact readInto_sp hI _ _ _
    · exact readInto_sp' hI _ _ _
  simp only [h2, readInto_sp' hI, Stream.good, Bool.not_false, Bool.and_self, if_true]
  rcases writeExtras_le_one FK vals extra he with hx | ⟨i, x, rfl, hi, hx⟩
  · -- nothing is written by the modules
    match extra, he with
    | [], _ => simp [readExtras]
    | [i], _ =>
      simp only [writeExtras, List.append_nil] at hx
      cases hi : vals[i]? with
      | none => simp [readExtras, hi]
      | some x => rw [hi] at hx; exact absurd hx (hK.nonempty x)
  · rw [hx]
    have h3 : readInto FK x ⟨' ' :: FK.fmt x, false, false⟩ = (x, ⟨[], true, false⟩) := by
      have := readInto_fmt hK [' '] (by simp [blank_space]) x x [] (by simp)
      simpa using this
    simp only [readExtras, hi, h3]
    congr 1
    congr 1
    obtain ⟨hlt, hget⟩ := List.getElem?_eq_some_iff.1 hi
    rw [← hget, List.set_getElem_self]

example : readBo intFormat intFormat [2] ⟨[0, 0, 0], 0, 0, 0, 0, 0, 0⟩
    ⟨writeBo intFormat intFormat [2] ⟨[100, 2, -35], 1, 0, 2, 3, 0, 0⟩, false, false⟩ =
    .ok ⟨[100, 2, -35], 1, 0, 2, 3, 0, 0⟩ :=
  C64_blackoil_round_trip_partial intFormat_lawful intFormat_lawful [2] (by decide) _ _ rfl

/-- C64 (refuted, two module values): with the polymer module, concentration 1 and molecular weight 2 are written as
`12`, so a concentration of 12 is restored. -/
theorem C64_polymer_violated :
    readBo intFormat intFormat [1, 2] ⟨[0, 0, 0], 0, 0, 0, 0, 0, 0⟩
      ⟨writeBo intFormat intFormat [1, 2] ⟨[100, 1, 2], 1, 0, 2, 3, 0, 0⟩, false, false⟩ =
      .ok ⟨[100, 12, 2], 1, 0, 2, 3, 0, 0⟩ := by
  decide

/-- C64 (refuted, meanings): the meanings of the brine and the solvent variable are those of a fresh object
(`Disabled` = 2), not the saved ones. -/
theorem C64_meanings_violated :
    readBo intFormat intFormat [1] ⟨[0, 0, 0], 0, 0, 0, 0, 2, 2⟩
      ⟨writeBo intFormat intFormat [1] ⟨[100, 1, 2], 1, 0, 2, 3, 0, 1⟩, false, false⟩ =
      .ok ⟨[100, 1, 2], 1, 0, 2, 3, 2, 2⟩ := by
  decide

end Verif.Restart
