import Verif.Vtk.Props
import Verif.Restart.Lemmas

set_option autoImplicit false
set_option linter.unusedSimpArgs false

/-
**C133** Visualisation files and restarts: a simulation which is stopped after some outputs and restarted leaves the same meta file as
one which is not stopped.
-/
namespace Verif.Vtk

open ForcedSteps Restart

variable {K D : Type}

/-- A new process with the outputs which are left.  (`past` and `data` are no variables of the program: they are what has been done
and the files on the disk.)  The meta file on the disk is arbitrary: the stopped simulation may have gone on after the restart file
was written. -/
def restarted (s : State K D) (disk : List Char) (t : K) (d : D) : State K D :=
  { init s.todo t d with past := s.past, data := s.data, disk := disk }

theorem readInto_nl {F : Format ℤ} (hF : F.Lawful) (x y : ℤ) (r : List Char) :
    readInto F y ⟨F.fmt x ++ '\n' :: r, false, false⟩ = (x, ⟨'\n' :: r, false, false⟩) := by
  have := readInto_fmt hF [] (by simp) x y ('\n' :: r) (by simpa using hF.blankSep _ blank_newline)
  simpa using this

theorem readInto_sp2 {F : Format ℤ} (hF : F.Lawful) (x y : ℤ) (r : List Char) :
    readInto F y ⟨' ' :: ' ' :: (F.fmt x ++ '\n' :: r), false, false⟩ = (x, ⟨'\n' :: r, false, false⟩) := by
  have := readInto_fmt hF [' ', ' '] (by simp [blank_space]) x y ('\n' :: r) (by simpa using hF.blankSep _ blank_newline)
  simpa using this

theorem readChars_ok (l r : List Char) : readChars l.length ⟨l ++ r, false, false⟩ = (l, ⟨r, false, false⟩) := by
  simp [readChars]

/-- Reading what was written, on the first process. -/
theorem round_trip {F : Format ℤ} (hF : F.Lawful) (c : Config K) (hr : c.rank = 0) (s new : State K D) (ho : s.isOpen = true)
    (hb : s.buf = []) (hd : s.disk ≠ []) (rest : List Char) :
    deserialize F c new ⟨(serialize F c s).1 ++ rest, false, false⟩ =
      .ok ({ new with num := s.num, isOpen := true, disk := s.disk, buf := [], pos := s.pos }, ⟨rest, false, false⟩) := by
  have hs : (serialize F c s).1 ++ rest = sectionBegin c!"VTKMultiWriter" ++ (F.fmt s.num ++ '\n' :: (F.fmt s.disk.length ++ ' ' :: ' ' ::
      (F.fmt s.pos ++ '\n' :: (s.disk ++ '\n' :: rest)))) := by
    simp [serialize, seekp, flush, ho, hb, hr, overwrite, sectionEnd]
  rw [hs]
  unfold deserialize
  rw [readSectionBegin_ok _ _ (by decide)]
  have hl : 0 < (s.disk.length : ℤ) := by
    have := List.length_pos_iff.2 hd
    omega
  have g0 : ∀ r : List Char, getline ⟨'\n' :: r, false, false⟩ = ([], ⟨r, false, false⟩) := fun r => getline_line [] r (by simp)
  have e0 : ∀ r : List Char, readSectionEnd ⟨'\n' :: r, false, false⟩ = .ok ⟨r, false, false⟩ := fun r => by
    simpa using readSectionEnd_ok [] r (by simp) rfl
  simp only [bind, Except.bind, readInto_nl hF, hr, if_true, g0, readInto_sp hF, readInto_sp2 hF, hl, Int.toNat_natCast, readChars_ok, e0]

/-- **C133** (synchronous output) A restart file written after some output restores the meta file and the state of the writer exactly,
whatever the file contains in the meantime and whatever follows in the restart file; writing it changes nothing; and if the remaining
outputs are made after the restart, the meta file is at the end the one of the simulation without interruption. -/
theorem C133_restart_partial {F : Format ℤ} (hF : F.Lawful) (c : Config K) (hr : c.rank = 0) (ha : c.async = false)
    (prog : List (Output K D)) (s : State K D) (h : Reachable c prog s) (hi : s.pc = .idle) (hp : s.past ≠ []) (disk rest : List Char)
    (t : K) (d : D) :
    (serialize F c s).2 = s ∧
    ∃ r, deserialize F c (restarted s disk t d) ⟨(serialize F c s).1 ++ rest, false, false⟩ = .ok (r, ⟨rest, false, false⟩) ∧
      r.disk = s.disk ∧ r.num = s.num ∧ r.pos = s.pos ∧
      ∀ ts s', exec c r ts = some s' → s'.pc = .closed → s'.disk = document c (wanted prog) := by
  obtain ⟨t0, d0, ts0, he⟩ := h
  have inv := inv_exec_sync c hr ha prog ts0 _ _ (inv_init c prog t0 d0) he
  obtain ⟨⟨g1, g2, g3, g4, g5⟩, E, U, P, ⟨w1, w2, w3⟩, ⟨r1, r2, r3, r5, r4⟩, hf⟩ := inv
  obtain ⟨todo, past, pc, isOpen, dsk, buf, pos, mark, num, curTime, curName, fields, pending, data⟩ := s
  simp only [] at hi hp
  subst hi
  obtain ⟨hP, hU⟩ := r4 ha
  simp only [] at hU
  subst hP hU
  rcases hf with ⟨_, h2, _⟩ | ⟨ho, hst⟩
  · exact absurd h2 hp
  simp only [] at ho
  subst ho
  rcases hst with ⟨h1, _⟩ | ⟨h1, h2, h3⟩
  · exact absurd (r5 h1) hp
  simp only [] at h1 h2 h3
  have h3' : buf = [] := by simpa [lines] using h3
  subst h3'
  have hd : dsk ≠ [] := by rw [h1]; exact document_ne_nil _ _
  refine ⟨by simp [serialize, seekp, flush, overwrite], _, round_trip hF c hr _ _ rfl rfl hd rest, rfl, rfl, rfl, ?_⟩
  intro ts s' he' hc
  have inv0 : Inv c prog ({ restarted (⟨todo, past, .idle, true, dsk, [], pos, mark, num, curTime, curName, fields, pending, data⟩ : State K D) disk t d with
      num := num, isOpen := true, disk := dsk, buf := [], pos := pos }) :=
    ⟨⟨g1, g2, trivial, by simp [restarted, init], fun _ => rfl⟩, E, [], [], ⟨w1, fun _ => rfl, by simp [restarted, init]⟩,
      ⟨r1, trivial, r3, r5, r4⟩, Or.inr ⟨rfl, Or.inr ⟨h1, h2, rfl⟩⟩⟩
  have inv1 := inv_exec_sync c hr ha prog ts _ _ inv0 he'
  rcases inv_disk inv1 with ⟨_, h2⟩ | ⟨F', k1, _, _, _, k5⟩
  · have hs := inv1.1.split
    rw [h2, hc, inv1.1.last (Or.inr hc)] at hs
    simp only [List.append_nil] at hs
    rw [g1] at hs
    simp at hs
    exact absurd hs.1 hp
  · rw [k1, k5 hc]

/-- After two of three outputs. -/
example : ∃ s, Reachable (demo 0 false) demoProg s ∧ s.pc = .idle ∧ s.past = demoProg.take 2 ∧ s.past ≠ [] :=
  ⟨(exec (demo 0 false) (init demoProg 0 0) (List.replicate 14 .main)).get (by decide +kernel),
    ⟨0, 0, List.replicate 14 .main, by simp⟩, by decide +kernel, by decide +kernel, by decide +kernel⟩

/-- **C133** Processes other than the first restore the number of the next file. -/
theorem C133_restart_other {F : Format ℤ} (hF : F.Lawful) (c : Config K) (hr : c.rank ≠ 0) (s new : State K D) (rest : List Char) :
    deserialize F c new ⟨(serialize F c s).1 ++ rest, false, false⟩ = .ok ({ new with num := s.num }, ⟨rest, false, false⟩) := by
  have hs : (serialize F c s).1 ++ rest = sectionBegin c!"VTKMultiWriter" ++ (F.fmt s.num ++ '\n' :: '\n' :: rest) := by
    simp [serialize, hr, sectionEnd]
  rw [hs]
  unfold deserialize
  rw [readSectionBegin_ok _ _ (by decide)]
  have g0 : ∀ r : List Char, getline ⟨'\n' :: r, false, false⟩ = ([], ⟨r, false, false⟩) := fun r => getline_line [] r (by simp)
  have e0 : ∀ r : List Char, readSectionEnd ⟨'\n' :: r, false, false⟩ = .ok ⟨r, false, false⟩ := fun r => by
    simpa using readSectionEnd_ok [] r (by simp) rfl
  simp only [bind, Except.bind, readInto_nl hF, hr, if_false, g0, Int.toNat_natCast, e0]

/-- The meta file at the end of a simulation which was restarted, without worker. -/
def finalDisk (c : Config ℕ) (s : State ℕ ℕ) (n : ℕ) : Option (List Char) :=
  match deserialize intFormat c (restarted s [] 0 0) ⟨(serialize intFormat c s).1, false, false⟩ with
  | .ok (r, _) => (exec { c with async := false } r (List.replicate n .main)).map fun s => s.disk
  | .error _ => none

/-- **C133** (violated) Asynchronous output: a restart file may be written before the worker has written the last data set.  After the
restart, this output is missing in the meta file. -/
theorem C133_restart_violated : ∃ s : State ℕ ℕ, CalmlyReachable (demo 0 true) [⟨1, 10, false⟩, ⟨2, 20, false⟩] s ∧ s.pc = .idle ∧
    s.past = [⟨1, 10, false⟩] ∧ finalDisk (demo 0 true) s 9 = some (document (demo 0 true) [(2, 1, 20)]) :=
  ⟨(exec (demo 0 true) (init [⟨1, 10, false⟩, ⟨2, 20, false⟩] 0 0) (List.replicate 7 .main)).get (by decide +kernel),
    ⟨0, 0, List.replicate 7 .main, by simp, by
      have : ∀ (n : ℕ) (s : State ℕ ℕ), Calm (demo 0 true) s (List.replicate n .main) := by
        intro n
        induction n with
        | zero => intro s; trivial
        | succ n ih => intro s; exact ⟨fun h => absurd h (by simp), fun s' _ => ih s'⟩
      exact this _ _⟩, by decide +kernel, by decide +kernel, by decide +kernel⟩

end Verif.Vtk
