import Verif.Vtk.Invariant
import Verif.Restart.Props

set_option autoImplicit false
set_option linter.unusedSimpArgs false

/-
**C133** Visualisation files.  A complete meta file is `document c l`: the header, one line for each data set of `l` with its time
and file, the closing lines (Lemmas.lean).  `wanted l` are the outputs of `l` which are not discarded, numbered from 0.
-/
namespace Verif.Vtk

open ForcedSteps Restart

variable {K D : Type}

/-- The states of a writer which is asked for the outputs `prog`, with any schedule of the two threads. -/
def Reachable (c : Config K) (prog : List (Output K D)) (s : State K D) : Prop := ∃ t d ts, exec c (init prog t d) ts = some s

/-- A schedule in which the worker does nothing while the main thread is within `finishMultiFile_`, after `tellp`. -/
def Calm (c : Config K) : State K D → List Thread → Prop
  | _, [] => True
  | s, t :: ts => calm s t ∧ ∀ s', step c t s = some s' → Calm c s' ts

/-- … and the states reachable with such schedules. -/
def CalmlyReachable (c : Config K) (prog : List (Output K D)) (s : State K D) : Prop :=
  ∃ t d ts, exec c (init prog t d) ts = some s ∧ Calm c (init prog t d) ts

theorem inv_exec (c : Config K) (hr : c.rank = 0) (prog : List (Output K D)) (ts : List Thread) (s s' : State K D) (h : Inv c prog s)
    (he : exec c s ts = some s') (hc : Calm c s ts) : Inv c prog s' := by
  induction ts generalizing s with
  | nil => simp only [exec, Option.some.injEq] at he; exact he ▸ h
  | cons t ts ih =>
    simp only [exec, Option.bind_eq_some_iff] at he
    obtain ⟨s1, h1, h2⟩ := he
    refine ih s1 ?_ h2 (hc.2 s1 h1)
    cases t with
    | main => exact inv_main c hr prog s s1 h h1
    | worker => exact inv_worker c prog s s1 h (hc.1 rfl) h1

theorem inv_exec_sync (c : Config K) (hr : c.rank = 0) (ha : c.async = false) (prog : List (Output K D)) (ts : List Thread)
    (s s' : State K D) (h : Inv c prog s) (he : exec c s ts = some s') : Inv c prog s' := by
  induction ts generalizing s with
  | nil => simp only [exec, Option.some.injEq] at he; exact he ▸ h
  | cons t ts ih =>
    simp only [exec, Option.bind_eq_some_iff] at he
    obtain ⟨s1, h1, h2⟩ := he
    refine ih s1 ?_ h2
    cases t with
    | main => exact inv_main c hr prog s s1 h h1
    | worker =>
      have := h.1.sync ha
      simp [step, workerStep, this] at h1

/-- What the invariant says about the disk. -/
theorem inv_disk {c : Config K} {prog : List (Output K D)} {s : State K D} (h : Inv c prog s) :
    (s.disk = [] ∧ s.past = []) ∨ ∃ F, s.disk = document c F ∧ wanted s.past.dropLast <+: F ∧ F <+: wanted prog ∧
      (c.async = false → s.pc ≠ .closed → F = wanted s.past) ∧ (s.pc = .closed → F = wanted prog) := by
  obtain ⟨todo, past, pc, isOpen, disk, buf, pos, mark, num, curTime, curName, fields, pending, data⟩ := s
  obtain ⟨⟨g1, g2, g3, g4, g5⟩, F, U, P, ⟨w1, w2, w3⟩, ⟨r1, r2, r3, r5, r4⟩, hf⟩ := h
  have pre : ∀ l m : List (Output K D), wanted l <+: wanted (l ++ m) := by
    intro l m
    unfold wanted
    rw [List.filter_append, List.zipIdx_append, List.map_append]
    exact List.prefix_append _ _
  have hF : F ++ U ++ P <+: wanted prog := by
    rw [r1, g1]
    cases pc <;> simp only [List.append_assoc] <;> first | exact pre _ _ | (rw [← List.append_assoc]; exact pre _ _)
  have hF' : F <+: wanted prog := (List.prefix_append F (U ++ P)).trans (by simpa using hF)
  have sync : c.async = false → F = wanted past ∨ pc = .closed := by
    intro ha
    obtain ⟨h1, h2⟩ := r4 ha
    subst h1
    cases pc <;> first | (left; exact h2) | (left; subst h2; simpa using r1)
  have st : ∀ b, Stream0 c disk b pos F U → pc ≠ .closed → (disk = [] ∧ past = []) ∨ ∃ F, disk = document c F ∧ wanted past.dropLast <+: F ∧
      F <+: wanted prog ∧ (c.async = false → pc ≠ .closed → F = wanted past) ∧ (pc = .closed → F = wanted prog) := by
    rintro b (⟨h1, h2, h3, h4⟩ | ⟨h1, h2, h3⟩) hc
    · exact Or.inl ⟨h1, r5 h1⟩
    · exact Or.inr ⟨F, h1, r3, hF', fun ha _ => (sync ha).resolve_right hc, fun h => absurd h hc⟩
  cases pc with
  | idle =>
    rcases hf with ⟨_, h2, _, _, h5⟩ | ⟨_, h⟩
    · exact Or.inl ⟨h5, h2⟩
    · exact st _ h (by simp)
  | destroy =>
    rcases hf with ⟨_, h2, _, _, h5⟩ | ⟨_, h⟩
    · exact Or.inl ⟨h5, h2⟩
    · exact st _ h (by simp)
  | closed =>
    rcases hf with ⟨_, h2, _, _, h5⟩ | h
    · exact Or.inl ⟨h5, h2⟩
    · right
      have e1 := g4 (Or.inr rfl)
      simp only [] at e1 g1 r1
      subst e1
      obtain rfl := w2 g3
      simp only [List.append_nil] at g1 r1
      subst g1
      refine ⟨F ++ U, h, r3.trans (List.prefix_append _ _), by rw [r1], fun _ h => absurd rfl h, fun _ => r1⟩
  | footer e => exact st _ hf.2.1 (by simp)
  | seek e =>
    obtain ⟨_, b, hb, _⟩ := hf
    exact st b hb (by simp)
  | barrier e => exact st _ hf.2 (by simp)
  | fill e => exact st _ hf.2 (by simp)
  | finalize e => exact st _ hf.2 (by simp)
  | tell e => exact st _ hf.2 (by simp)

/-- **C133** (synchronous output) At every moment, also within a call, the meta file on the disk is a complete document which lists
exactly the outputs whose calls have returned; before the first has returned it is empty. -/
theorem C133_crash (c : Config K) (hr : c.rank = 0) (ha : c.async = false) (prog : List (Output K D)) (s : State K D)
    (h : Reachable c prog s) (hc : s.pc ≠ .closed) : (s.disk = [] ∧ s.past = []) ∨ s.disk = document c (wanted s.past) := by
  obtain ⟨t, d, ts, he⟩ := h
  rcases inv_disk (inv_exec_sync c hr ha prog ts _ _ (inv_init c prog t d) he) with h | ⟨F, h1, _, _, h4, _⟩
  · exact Or.inl h
  · exact Or.inr (by rw [h1, h4 ha hc])

/-- **C133** (asynchronous output, if the worker does not write while the main thread closes the meta file) … is a complete document
which lists all outputs whose calls have returned except possibly the last one. -/
theorem C133_crash_async_partial (c : Config K) (hr : c.rank = 0) (prog : List (Output K D)) (s : State K D)
    (h : CalmlyReachable c prog s) : (s.disk = [] ∧ s.past = []) ∨
      ∃ l, s.disk = document c l ∧ wanted s.past.dropLast <+: l ∧ l <+: wanted prog := by
  obtain ⟨t, d, ts, he, hq⟩ := h
  rcases inv_disk (inv_exec c hr prog ts _ _ (inv_init c prog t d) he hq) with h | ⟨F, h1, h2, h3, _⟩
  · exact Or.inl h
  · exact Or.inr ⟨F, h1, h2, h3⟩

/-- **C133** When the writer has been destroyed, the meta file lists all outputs, … -/
theorem C133_final (c : Config K) (hr : c.rank = 0) (prog : List (Output K D)) (hp : prog ≠ []) (s : State K D)
    (h : CalmlyReachable c prog s ∨ c.async = false ∧ Reachable c prog s) (hc : s.pc = .closed) : s.disk = document c (wanted prog) := by
  have hi : Inv c prog s := by
    rcases h with ⟨t, d, ts, he, hq⟩ | ⟨ha, t, d, ts, he⟩
    · exact inv_exec c hr prog ts _ _ (inv_init c prog t d) he hq
    · exact inv_exec_sync c hr ha prog ts _ _ (inv_init c prog t d) he
  rcases inv_disk hi with ⟨_, h2⟩ | ⟨F, h1, _, _, _, h5⟩
  · have := hi.1.split
    rw [h2, hc, hi.1.last (Or.inr hc)] at this
    exact absurd this (by simpa using hp)
  · rw [h1, h5 hc]

/-! ### examples -/

/-- A writer which writes numbers as they are. -/
def demo (rank : ℕ) (async : Bool) : Config ℕ :=
  { rank := rank, async := async, simName := c!"sim", fmtTime := fun t => dec t t, fileOf := fun n => n ++ c!".vtu" }

/-- Three outputs, the second of which is discarded. -/
def demoProg : List (Output ℕ ℕ) := [⟨1, 10, false⟩, ⟨2, 20, true⟩, ⟨3, 30, false⟩]

example : ∃ s, Reachable (demo 0 false) demoProg s ∧ s.pc = .closed ∧ s.disk = document (demo 0 false) [(1, 0, 10), (3, 1, 30)] :=
  ⟨(exec (demo 0 false) (init demoProg 0 0) (List.replicate 23 .main)).get (by decide +kernel),
    ⟨0, 0, List.replicate 23 .main, by simp⟩, by decide +kernel, by decide +kernel⟩

/-- In the middle of the third output. -/
example : ∃ s, Reachable (demo 0 false) demoProg s ∧ s.past = demoProg.take 2 ∧ s.disk = document (demo 0 false) [(1, 0, 10)] ∧
    s.buf ≠ [] :=
  ⟨(exec (demo 0 false) (init demoProg 0 0) (List.replicate 20 .main)).get (by decide +kernel),
    ⟨0, 0, List.replicate 20 .main, by simp⟩, by decide +kernel, by decide +kernel, by decide +kernel⟩

/-- Asynchronous: the worker writes the first data set while the second output is being prepared. -/
def lazySchedule : List Thread := List.replicate 8 .main ++ [.worker] ++ List.replicate 14 .main ++ [.worker, .main]

example : ((exec (demo 0 true) (init demoProg 0 0) (List.replicate 8 .main)).map fun s => (s.disk == document (demo 0 true) ([] : List (ℕ × ℕ × ℕ)), s.past.length))
    = some (true, 1) := by decide +kernel
example : ((exec (demo 0 true) (init demoProg 0 0) lazySchedule).map fun s => (s.disk == document (demo 0 true) [(1, 0, 10), (3, 1, 30)], s.pc == .closed))
    = some (true, true) := by decide +kernel

/-- **C133** (violated) If output is asynchronous, the worker may write between the steps in which the main thread closes the meta
file.  Then the line of the first output is overwritten by that of the next, and the file is no document at the end. -/
theorem C133_race_violated : ∃ (s : State ℕ ℕ), Reachable (demo 0 true) [⟨100, 10, false⟩, ⟨2, 20, false⟩] s ∧ s.pc = .closed ∧
    s.disk = document (demo 0 true) [(2, 1, 20)] ++ c!">\n" ∧
    s.disk ≠ document (demo 0 true) (wanted [⟨100, 10, false⟩, ⟨2, 20, false⟩]) :=
  ⟨(exec (demo 0 true) (init [⟨100, 10, false⟩, ⟨2, 20, false⟩] 0 0)
      (List.replicate 5 .main ++ [.worker] ++ List.replicate 6 .main ++ [.worker] ++ List.replicate 5 .main)).get (by decide +kernel),
    ⟨0, 0, List.replicate 5 .main ++ [.worker] ++ List.replicate 6 .main ++ [.worker] ++ List.replicate 5 .main, by simp⟩,
    by decide +kernel, by decide +kernel, by decide +kernel⟩

/-! ### data files -/

/-- The data files of some entries. -/
def files (c : Config K) (l : List (K × ℕ × D)) : List (List Char × D) := l.map fun x => (c.fileOf (fileName c x.2.1), x.2.2)

/-- Data files on any process. -/
structure DataInv (c : Config K) (prog : List (Output K D)) (s : State K D) : Prop where
  good : Good c prog s
  files : s.data ++ (if s.pending then [(c.fileOf s.curName, s.fields)] else []) =
    files c (match s.pc with
    | .tell e | .footer e | .seek e => wanted (s.past ++ [e])
    | _ => wanted s.past)

theorem emit_rest (cs : List Char) (s : State K D) : ∃ b, emit cs s = { s with buf := b } := by
  unfold emit; split
  · exact ⟨_, rfl⟩
  · exact ⟨s.buf, rfl⟩

theorem seekp_rest (p : ℕ) (s : State K D) : ∃ d b q, seekp p s = { s with disk := d, buf := b, pos := q } := by
  unfold seekp flush; split
  · exact ⟨_, _, _, rfl⟩
  · exact ⟨s.disk, s.buf, s.pos, rfl⟩

theorem start_rest (c : Config K) (s : State K D) : ∃ o d b q, startMultiFile c s = { s with isOpen := o, disk := d, buf := b, pos := q } := by
  unfold startMultiFile emit; split
  · exact ⟨true, _, _, _, rfl⟩
  · exact ⟨s.isOpen, s.disk, s.buf, s.pos, rfl⟩

theorem dataInv_step (c : Config K) (prog : List (Output K D)) (t : Thread) (s s' : State K D) (h : DataInv c prog s)
    (hs : step c t s = some s') : DataInv c prog s' := by
  obtain ⟨todo, past, pc, isOpen, disk, buf, pos, mark, num, curTime, curName, fields, pending, data⟩ := s
  obtain ⟨⟨g1, g2, g3, g4, g5⟩, hd⟩ := h
  cases t with
  | worker =>
    simp only [step, workerStep] at hs
    split at hs
    swap
    · exact absurd hs (by simp)
    rename_i hp
    subst hp
    simp only [Option.some.injEq, work] at hs
    obtain ⟨b, e⟩ := emit_rest (entry c curTime curName) (⟨todo, past, pc, isOpen, disk, buf, pos, mark, num, curTime, curName, fields,
      false, data ++ [(c.fileOf curName, fields)]⟩ : State K D)
    rw [e] at hs
    subst hs
    refine ⟨⟨g1, g2, ?_, g4, fun _ => rfl⟩, by simpa using hd⟩
    cases pc <;> first | trivial | exact ⟨g3.1, g3.2.1, rfl⟩ | exact ⟨g3.1, g3.2.1, g3.2.2.1, rfl⟩
  | main =>
    simp only [step] at hs
    cases pc with
    | idle =>
      cases todo with
      | nil =>
        simp only [mainStep, Option.some.injEq] at hs
        subst hs
        exact ⟨⟨g1, g2, g3, fun _ => rfl, g5⟩, hd⟩
      | cons e rest =>
        simp only [mainStep, Option.some.injEq] at hs
        subst hs
        cases isOpen with
        | true => exact ⟨⟨by simpa using g1, g2, trivial, by simp, g5⟩, hd⟩
        | false =>
          obtain ⟨o, d, b, q, he⟩ := start_rest c (⟨e :: rest, past, .idle, false, disk, buf, pos, mark, num, curTime, curName, fields, pending, data⟩ : State K D)
          simp only [Bool.false_eq_true, if_false, he]
          exact ⟨⟨by simpa using g1, g2, trivial, by simp, g5⟩, hd⟩
    | barrier e =>
      simp only [mainStep] at hs
      split at hs
      · exact absurd hs (by simp)
      · rename_i hp
        simp only [Bool.not_eq_true] at hp
        simp only [Option.some.injEq] at hs
        subst hs
        subst hp
        simp only [] at g2
        subst g2
        exact ⟨⟨g1, rfl, ⟨rfl, rfl, rfl⟩, by simp, g5⟩, by simpa using hd⟩
    | fill e =>
      simp only [mainStep, Option.some.injEq] at hs
      subst hs
      obtain ⟨h1, h2, h3⟩ := g3
      simp only [] at h1 h2 h3
      subst h3
      exact ⟨⟨g1, g2, ⟨h1, h2, rfl, rfl⟩, by simp, g5⟩, by simpa using hd⟩
    | finalize e =>
      obtain ⟨h1, h2, h3, h4⟩ := g3
      simp only [] at h1 h2 h3 h4 g2
      subst h1 h2 h3 h4 g2
      simp only [mainStep] at hs
      have hd' : data = files c (wanted past) := by simpa using hd
      cases hdd : e.discard with
      | true =>
        simp only [hdd, if_true, Option.some.injEq] at hs
        subst hs
        exact ⟨⟨g1, by simp [wanted_append, hdd], trivial, by simp, g5⟩, by simp [wanted_append, hdd, hd']⟩
      | false =>
        simp only [hdd, Bool.false_eq_true, if_false] at hs
        cases ha : c.async with
        | true =>
          simp only [ha, if_true, Option.some.injEq] at hs
          subst hs
          exact ⟨⟨g1, by simp [wanted_append, hdd], trivial, by simp, by simp [ha]⟩, by simp [wanted_append, hdd, hd', files]⟩
        | false =>
          simp only [ha, Bool.false_eq_true, if_false, Option.some.injEq, work] at hs
          obtain ⟨b, he⟩ := emit_rest (entry c e.time (fileName c (wanted past).length)) (⟨todo, past, .finalize e, isOpen, disk, buf, pos, mark,
            (wanted past).length + 1, e.time, fileName c (wanted past).length, e.fields, false,
            data ++ [(c.fileOf (fileName c (wanted past).length), e.fields)]⟩ : State K D)
          rw [he] at hs
          subst hs
          exact ⟨⟨g1, by simp [wanted_append, hdd], trivial, by simp, fun _ => rfl⟩, by simp [wanted_append, hdd, hd', files]⟩
    | tell e =>
      simp only [mainStep, Option.some.injEq] at hs
      subst hs
      exact ⟨⟨g1, g2, g3, by simp, g5⟩, hd⟩
    | footer e =>
      simp only [mainStep, Option.some.injEq] at hs
      obtain ⟨b, he⟩ := emit_rest closing (⟨todo, past, .footer e, isOpen, disk, buf, pos, mark, num, curTime, curName, fields, pending, data⟩ : State K D)
      rw [he] at hs
      subst hs
      exact ⟨⟨g1, g2, g3, by simp, g5⟩, hd⟩
    | seek e =>
      simp only [mainStep, Option.some.injEq] at hs
      obtain ⟨d, b, q, he⟩ := seekp_rest mark (⟨todo, past, .seek e, isOpen, disk, buf, pos, mark, num, curTime, curName, fields, pending, data⟩ : State K D)
      rw [he] at hs
      subst hs
      exact ⟨⟨by simpa using g1, g2, trivial, by simp, g5⟩, hd⟩
    | destroy =>
      simp only [mainStep] at hs
      split at hs
      · exact absurd hs (by simp)
      · rename_i hp
        simp only [Bool.not_eq_true] at hp
        subst hp
        simp only [Option.some.injEq] at hs
        obtain ⟨b0, he0⟩ := emit_rest closing (⟨todo, past, .destroy, isOpen, disk, buf, pos, mark, num, curTime, curName, fields, false, data⟩ : State K D)
        rw [he0] at hs
        obtain ⟨d, b, q, he⟩ := seekp_rest (pos + buf.length) (⟨todo, past, .destroy, isOpen, disk, b0, pos, mark, num, curTime, curName, fields, false, data⟩ : State K D)
        simp only [] at hs
        rw [he] at hs
        subst hs
        exact ⟨⟨g1, g2, rfl, fun _ => g4 (Or.inl rfl), fun _ => rfl⟩, hd⟩
    | closed => exact absurd hs (by simp [mainStep])

theorem dataInv_reachable (c : Config K) (prog : List (Output K D)) (s : State K D) (h : Reachable c prog s) : DataInv c prog s := by
  obtain ⟨t, d, ts, he⟩ := h
  have : ∀ (ts : List Thread) (s0 : State K D), DataInv c prog s0 → exec c s0 ts = some s → DataInv c prog s := by
    intro ts
    induction ts with
    | nil => intro s0 h0 he; simp only [exec, Option.some.injEq] at he; exact he ▸ h0
    | cons t ts ih =>
      intro s0 h0 he
      simp only [exec, Option.bind_eq_some_iff] at he
      obtain ⟨s1, h1, h2⟩ := he
      exact ih s1 (dataInv_step c prog t s0 s1 h0 h1) h2
  exact this ts _ ⟨(inv_init c prog t d).1, by simp [init, files, wanted]⟩ he

/-- **C133** With every schedule and on every process, data files are written in the order of the outputs, with the fields of that
output and under the name of its number, and all of them are written before the writer is gone. -/
theorem C133_data (c : Config K) (prog : List (Output K D)) (s : State K D) (h : Reachable c prog s) :
    s.data <+: files c (wanted prog) ∧ (s.pc = .closed → s.data = files c (wanted prog)) := by
  have hi := dataInv_reachable c prog s h
  obtain ⟨todo, past, pc, isOpen, disk, buf, pos, mark, num, curTime, curName, fields, pending, data⟩ := s
  obtain ⟨⟨g1, g2, g3, g4, g5⟩, hd⟩ := hi
  have pre : ∀ l m : List (Output K D), wanted l <+: wanted (l ++ m) := by
    intro l m
    unfold wanted
    rw [List.filter_append, List.zipIdx_append, List.map_append]
    exact List.prefix_append _ _
  constructor
  · refine (List.prefix_append data (if pending then [(c.fileOf curName, fields)] else [])).trans ?_
    rw [hd, g1]
    refine List.IsPrefix.map _ ?_
    cases pc <;> simp only [List.append_assoc] <;> first | exact pre _ _ | (rw [← List.append_assoc]; exact pre _ _)
  · intro hc
    simp only [] at hc
    subst hc
    have e1 := g4 (Or.inr rfl)
    simp only [] at e1 g1 g3
    subst e1 g3
    simp only [List.append_nil] at g1
    subst g1
    simpa using hd

/-- **C133** Different numbers give different names of files, so that no output replaces another. -/
theorem C133_names (c : Config K) (m n : ℕ) (h : fileName c m = fileName c n) : m = n := by
  unfold fileName at h
  have h1 := List.append_cancel_left h
  simp only [List.cons.injEq, true_and] at h1
  have zeros : ∀ k (l : List Char), decVal (List.replicate k '0' ++ l) = decVal l := by
    intro k l
    induction k with
    | zero => simp
    | succ k ih => rw [List.replicate_succ, List.cons_append]; unfold decVal at *; simpa using ih
  have h2 := congrArg decVal h1
  unfold padded at h2
  rwa [zeros, zeros, (dec_ok m m le_rfl).2.2, (dec_ok n n le_rfl).2.2] at h2

/-- … in particular: the names of the files of all outputs are different, if the Dune writer adds something to the name. -/
theorem C133_distinct (c : Config K) (hf : Function.Injective c.fileOf) (prog : List (Output K D)) :
    ((files c (wanted prog)).map Prod.fst).Nodup := by
  have e : (files c (wanted prog)).map Prod.fst = (List.range (prog.filter fun e => !e.discard).length).map fun n => c.fileOf (fileName c n) := by
    unfold files wanted
    simp only [List.map_map]
    rw [List.zipIdx_eq_zip_range', List.range_eq_range']
    have : ∀ (l : List (Output K D)) k, ((l.zip (List.range' k l.length)).map ((Prod.fst ∘ fun x : K × ℕ × D => (c.fileOf (fileName c x.2.1), x.2.2)) ∘
        fun x => (x.1.time, x.2, x.1.fields))) = (List.range' k l.length).map fun n => c.fileOf (fileName c n) := by
      intro l
      induction l with
      | nil => intro k; simp
      | cons a l ih => intro k; simp [List.range'_succ, ← ih (k + 1)]
    exact this _ 0
  rw [e]
  exact List.Nodup.map (fun m n h => C133_names c m n (hf h)) List.nodup_range

example : fileName (demo 0 true) 42 = c!"sim-00042" ∧ fileName (demo 0 true) 1234567 = c!"sim-1234567" := by decide +kernel

/-- **C133** Only the first process touches the meta file. -/
theorem C133_other (c : Config K) (hr : c.rank ≠ 0) (prog : List (Output K D)) (s : State K D) (h : Reachable c prog s) :
    s.isOpen = false ∧ s.disk = [] := by
  obtain ⟨t, d, ts, he⟩ := h
  have key : ∀ t (s s' : State K D), s.isOpen = false ∧ s.disk = [] → step c t s = some s' → s'.isOpen = false ∧ s'.disk = [] := by
    rintro t ⟨todo, past, pc, isOpen, disk, buf, pos, mark, num, curTime, curName, fields, pending, data⟩ s' ⟨rfl, rfl⟩ hs
    cases t with
    | worker =>
      simp only [step, workerStep, work, emit] at hs
      split at hs
      · simp only [Bool.false_eq_true, if_false, Option.some.injEq] at hs; subst hs; exact ⟨rfl, rfl⟩
      · simp at hs
    | main =>
      cases pc with
      | idle =>
        cases todo with
        | nil => simp only [step, mainStep, Option.some.injEq] at hs; subst hs; exact ⟨rfl, rfl⟩
        | cons e rest =>
          simp only [step, mainStep, startMultiFile, hr, Bool.false_eq_true, if_false, Option.some.injEq] at hs
          subst hs; exact ⟨rfl, rfl⟩
      | barrier e => simp only [step, mainStep] at hs; split at hs <;> simp at hs; subst hs; exact ⟨rfl, rfl⟩
      | finalize e =>
        simp only [step, mainStep, work, emit] at hs
        split at hs
        · simp only [Option.some.injEq] at hs; subst hs; exact ⟨rfl, rfl⟩
        · split at hs <;> simp only [Bool.false_eq_true, if_false, Option.some.injEq] at hs <;> subst hs <;> exact ⟨rfl, rfl⟩
      | destroy => simp only [step, mainStep, seekp, emit] at hs; split at hs <;> simp at hs; subst hs; exact ⟨rfl, rfl⟩
      | closed => simp [step, mainStep] at hs
      | fill e => simp [step, mainStep] at hs; subst hs; exact ⟨rfl, rfl⟩
      | tell e => simp [step, mainStep] at hs; subst hs; exact ⟨rfl, rfl⟩
      | footer e => simp [step, mainStep, emit] at hs; subst hs; exact ⟨rfl, rfl⟩
      | seek e => simp [step, mainStep, seekp] at hs; subst hs; exact ⟨rfl, rfl⟩
  have : ∀ (ts : List Thread) (s0 : State K D), s0.isOpen = false ∧ s0.disk = [] → exec c s0 ts = some s → s.isOpen = false ∧ s.disk = [] := by
    intro ts
    induction ts with
    | nil => intro s0 h0 he; simp only [exec, Option.some.injEq] at he; exact he ▸ h0
    | cons t ts ih =>
      intro s0 h0 he
      simp only [exec, Option.bind_eq_some_iff] at he
      obtain ⟨s1, h1, h2⟩ := he
      exact ih s1 (key t s0 s1 h0 h1) h2
  exact this ts _ ⟨rfl, rfl⟩ he

end Verif.Vtk
