import Verif.Vtk.Lemmas

set_option autoImplicit false
set_option linter.unusedSimpArgs false
set_option linter.unusedVariables false

namespace Verif.Vtk

open ForcedSteps Restart

variable {K D : Type}

theorem inv_init (c : Config K) (prog : List (Output K D)) (t : K) (d : D) : Inv c prog (init prog t d) :=
  ⟨⟨by simp [init], by simp [init, wanted], trivial, by simp [init], fun _ => rfl⟩,
    [], [], [], ⟨rfl, fun _ => rfl, by simp [init]⟩, ⟨by simp [init, wanted], trivial, by simp [init, wanted], fun _ => rfl, fun _ => ⟨rfl, rfl⟩⟩,
    Or.inl ⟨rfl, rfl, rfl, rfl, rfl⟩⟩

theorem inv_main (c : Config K) (hr : c.rank = 0) (prog : List (Output K D)) (s s' : State K D) (h : Inv c prog s)
    (hs : mainStep c s = some s') : Inv c prog s' := by
  obtain ⟨todo, past, pc, isOpen, disk, buf, pos, mark, num, curTime, curName, fields, pending, data⟩ := s
  obtain ⟨⟨g1, g2, g3, g4, g5⟩, F, U, P, ⟨w1, w2, w3⟩, ⟨r1, r2, r3, r5, r4⟩, hf⟩ := h
  cases pc with
  | idle =>
    cases todo with
    | nil =>
      simp only [mainStep, Option.some.injEq] at hs
      subst hs
      exact ⟨⟨g1, g2, g3, fun _ => rfl, g5⟩, F, U, P, ⟨w1, w2, w3⟩, ⟨r1, r2, r3, r5, r4⟩, hf⟩
    | cons e rest =>
      simp only [mainStep, Option.some.injEq] at hs
      subst hs
      simp only [FileOk] at hf
      rcases hf with ⟨ho, hp, rfl, rfl, hd⟩ | ⟨ho, hst⟩
      · subst ho hp
        refine ⟨⟨by simpa [startMultiFile, hr, emit] using g1, by simpa [startMultiFile, hr, emit] using g2, trivial, by simp, by simpa [startMultiFile, hr, emit] using g5⟩, [], [], P,
          ⟨by simpa [startMultiFile, hr, emit] using w1, by simpa [startMultiFile, hr, emit] using w2, by simpa [startMultiFile, hr, emit] using w3⟩,
          ⟨by simpa [startMultiFile, hr, emit] using r1, trivial, by simpa [startMultiFile, hr, emit] using r3, fun _ => by simp [startMultiFile, hr, emit], by simpa [startMultiFile, hr, emit] using r4⟩, ?_⟩
        simp [FileOk, startMultiFile, hr, emit, Stream0, lines]
      · subst ho
        refine ⟨⟨by simpa using g1, by simpa using g2, trivial, by simp, by simpa using g5⟩, F, U, P,
          ⟨by simpa using w1, by simpa using w2, by simpa using w3⟩,
          ⟨by simpa using r1, trivial, by simpa using r3, by simpa using r5, by simpa using r4⟩, ?_⟩
        simpa [FileOk] using hst
  | barrier e =>
    simp only [mainStep] at hs
    split at hs
    · exact absurd hs (by simp)
    · rename_i hp
      simp only [Bool.not_eq_true] at hp
      simp only [Option.some.injEq] at hs
      subst hs
      subst hp
      simp only [] at g2
      subst g2
      obtain rfl := w2 rfl
      exact ⟨⟨g1, rfl, ⟨rfl, rfl, rfl⟩, by simp, g5⟩, F, U, [], ⟨w1, fun _ => rfl, by simp⟩, ⟨r1, trivial, r3, r5, r4⟩, hf⟩
  | fill e =>
    simp only [mainStep, Option.some.injEq] at hs
    subst hs
    obtain ⟨h1, h2, h3⟩ := g3
    simp only [] at h1 h2 h3
    subst h3
    obtain rfl := w2 rfl
    exact ⟨⟨g1, g2, ⟨h1, h2, rfl, rfl⟩, by simp, g5⟩, F, U, [], ⟨w1, fun _ => rfl, by simp⟩, ⟨r1, trivial, r3, r5, r4⟩, hf⟩
  | finalize e =>
    obtain ⟨h1, h2, h3, h4⟩ := g3
    simp only [] at h1 h2 h3 h4 g2
    subst h1 h2 h3 h4 g2
    obtain rfl := w2 rfl
    simp only [] at r1
    rw [List.append_nil] at r1
    obtain ⟨ho, hst⟩ := hf
    simp only [] at ho
    subst ho
    simp only [mainStep] at hs
    cases hd : e.discard with
    | true =>
      simp only [hd, if_true, Option.some.injEq] at hs
      subst hs
      refine ⟨⟨g1, by simp [wanted_append, hd], trivial, by simp, g5⟩, F, U, [], ⟨w1, fun _ => rfl, by simp⟩,
        ⟨by simp [wanted_append, hd, r1], Or.inl rfl, r3, r5, fun ha => ⟨rfl, ?_⟩⟩, ⟨rfl, hst⟩⟩
      have := (r4 ha).2
      simp only [] at this
      subst this
      simpa using r1
    | false =>
      simp only [hd, Bool.false_eq_true, if_false] at hs
      cases ha : c.async with
      | true =>
        simp only [ha, if_true, Option.some.injEq] at hs
        subst hs
        refine ⟨⟨g1, by simp [wanted_append, hd], trivial, by simp, by simp [ha]⟩, F, U, [(e.time, (wanted past).length, e.fields)],
          ⟨w1, by simp, fun _ => ⟨_, rfl, rfl, rfl, rfl⟩⟩, ⟨by simp [wanted_append, hd, ← r1], Or.inr r1, r3, r5, by simp [ha]⟩, ⟨rfl, hst⟩⟩
      | false =>
        simp only [ha, Bool.false_eq_true, if_false, Option.some.injEq] at hs
        subst hs
        have hu := (r4 ha).2
        simp only [] at hu
        subst hu
        refine ⟨⟨by simpa [work, emit] using g1, by simp [work, emit, wanted_append, hd], trivial, by simp, by simp [work, emit]⟩,
          F, [(e.time, (wanted past).length, e.fields)], [], ⟨?_, fun _ => rfl, by simp [work, emit]⟩,
          ⟨by simp [work, emit, wanted_append, hd, ← r1], Or.inl rfl, by simpa [work, emit] using r3, by simpa [work, emit] using r5, fun _ => ⟨rfl, ?_⟩⟩, ?_⟩
        · have w1' : data = F.map fun x => (c.fileOf (fileName c x.2.1), x.2.2) := by simpa using w1
          simp [work, emit, w1']
        · simpa [work, emit] using r1
        · have := hst.more (e.time, (wanted past).length, e.fields)
          simpa [FileOk, work, emit] using this
  | tell e =>
    simp only [mainStep, Option.some.injEq] at hs
    subst hs
    exact ⟨⟨g1, g2, g3, by simp, g5⟩, F, U, P, ⟨w1, w2, w3⟩, ⟨r1, r2, r3, r5, r4⟩, ⟨hf.1, hf.2, rfl⟩⟩
  | footer e =>
    obtain ⟨ho, hst, hm⟩ := hf
    simp only [] at ho hm
    subst ho
    simp only [mainStep, emit, if_true, Option.some.injEq] at hs
    subst hs
    exact ⟨⟨g1, g2, g3, by simp, g5⟩, F, U, P, ⟨w1, w2, w3⟩, ⟨r1, r2, r3, r5, r4⟩, ⟨rfl, buf, hst, hm, rfl⟩⟩
  | seek e =>
    obtain ⟨ho, b, hst, hm, hb⟩ := hf
    simp only [] at ho hm hb
    subst ho hb hm
    simp only [mainStep, seekp, flush, if_true, Option.some.injEq] at hs
    subst hs
    obtain ⟨c1, c2⟩ := hst.close
    refine ⟨⟨by simpa using g1, g2, trivial, by simp, g5⟩, F ++ U, [], P, ⟨by simpa using w1, w2, w3⟩, ⟨by simpa using r1, trivial, ?_, fun h => absurd h (by simp only []; rw [c1]; exact document_ne_nil _ _), fun ha => ⟨(r4 ha).1, rfl⟩⟩, Or.inr ⟨rfl, ?_⟩⟩
    · simp only [List.dropLast_concat]
      rcases r2 with rfl | h
      · rw [List.append_nil] at r1
        simp only [] at r1
        rw [r1, wanted_append]
        exact List.prefix_append _ _
      · rw [h]
        exact List.prefix_rfl
    · exact Or.inr ⟨c1, c2, by simp [lines]⟩
  | destroy =>
    simp only [mainStep] at hs
    split at hs
    · exact absurd hs (by simp)
    · rename_i hp
      simp only [Bool.not_eq_true] at hp
      simp only [Option.some.injEq] at hs
      subst hs
      subst hp
      rcases hf with ⟨ho, h⟩ | ⟨ho, hst⟩
      · simp only [] at ho
        subst ho
        exact ⟨⟨by simpa [seekp, emit] using g1, by simpa [seekp, emit] using g2, by simp [seekp, emit], fun _ => by simpa [seekp, emit] using g4 (Or.inl rfl), by simp [seekp, emit]⟩,
          F, U, P, ⟨by simpa [seekp, emit] using w1, by simpa [seekp, emit] using w2, by simp [seekp, emit]⟩,
          ⟨by simpa [seekp, emit] using r1, trivial, by simpa [seekp, emit] using r3, by simpa [seekp, emit] using r5, by simpa [seekp, emit] using r4⟩,
          Or.inl (by simpa [seekp, emit] using h)⟩
      · simp only [] at ho
        subst ho
        exact ⟨⟨by simpa [seekp, emit, flush] using g1, by simpa [seekp, emit, flush] using g2, by simp [seekp, emit, flush], fun _ => by simpa [seekp, emit, flush] using g4 (Or.inl rfl), by simp [seekp, emit, flush]⟩,
          F, U, P, ⟨by simpa [seekp, emit, flush] using w1, by simpa [seekp, emit, flush] using w2, by simp [seekp, emit, flush]⟩,
          ⟨by simpa [seekp, emit, flush] using r1, trivial, by simpa [seekp, emit, flush] using r3, fun h => absurd h (by simp only [seekp, emit, flush, if_true]; rw [hst.close.1]; exact document_ne_nil _ _), by simpa [seekp, emit, flush] using r4⟩,
          Or.inr (by simpa [seekp, emit, flush] using hst.close.1)⟩
  | closed => exact absurd hs (by simp [mainStep])

theorem inv_worker (c : Config K) (prog : List (Output K D)) (s s' : State K D) (h : Inv c prog s)
    (hq : ∀ e, s.pc ≠ .footer e ∧ s.pc ≠ .seek e) (hs : workerStep c s = some s') : Inv c prog s' := by
  obtain ⟨todo, past, pc, isOpen, disk, buf, pos, mark, num, curTime, curName, fields, pending, data⟩ := s
  obtain ⟨⟨g1, g2, g3, g4, g5⟩, F, U, P, ⟨w1, w2, w3⟩, ⟨r1, r2, r3, r5, r4⟩, hf⟩ := h
  simp only [workerStep] at hs
  split at hs
  swap
  · exact absurd hs (by simp)
  rename_i hp
  subst hp
  simp only [Option.some.injEq] at hs
  subst hs
  obtain ⟨x, rfl, x1, x2, x3⟩ := w3 rfl
  simp only [] at x1 x2 x3
  subst x1 x2 x3
  have ha : c.async = true := by
    by_contra h
    simp only [Bool.not_eq_true] at h
    exact absurd (g5 h) (by simp)
  have w1' : data = (F ++ U).map fun x => (c.fileOf (fileName c x.2.1), x.2.2) := w1
  have total : F ++ (U ++ [x]) ++ [] = F ++ U ++ [x] := by simp
  have key : isOpen = true ∧ Stream0 c disk buf pos F U ∧ (∀ e, pc ≠ .fill e ∧ pc ≠ .finalize e) ∧ pc ≠ .closed := by
    cases pc with
    | idle =>
      rcases hf with ⟨_, h2, h3, h4, _⟩ | h
      · simp only [] at h2
        subst h2 h3 h4
        exact absurd r1 (by simp [wanted])
      · exact ⟨h.1, h.2, by simp, by simp⟩
    | destroy =>
      rcases hf with ⟨_, h2, h3, h4, _⟩ | h
      · simp only [] at h2
        subst h2 h3 h4
        exact absurd r1 (by simp [wanted])
      · exact ⟨h.1, h.2, by simp, by simp⟩
    | fill e => exact absurd g3.2.2 (by simp)
    | finalize e => exact absurd g3.2.2.2 (by simp)
    | closed => exact absurd g3 (by simp)
    | footer e => exact absurd rfl (hq e).1
    | seek e => exact absurd rfl (hq e).2
    | barrier e => exact ⟨hf.1, hf.2, by simp, by simp⟩
    | tell e => exact ⟨hf.1, hf.2, by simp, by simp⟩
  obtain ⟨rfl, hst, hn, hc⟩ := key
  have hst' := hst.more x
  refine ⟨⟨by simpa [work, emit] using g1, by simpa [work, emit] using g2, ?_, by simpa [work, emit] using g4, by simp [work, emit]⟩,
    F, U ++ [x], [], ⟨by simp [work, emit, w1'], fun _ => rfl, by simp [work, emit]⟩, ⟨by rw [total]; simpa [work, emit] using r1, ?_, by simpa [work, emit] using r3, by simpa [work, emit] using r5, by simp [ha]⟩, ?_⟩
  · cases pc <;> first | trivial | exact absurd rfl (hn _).1 | exact absurd rfl (hn _).2
  · cases pc <;> first | trivial | exact Or.inl rfl
  · cases pc <;> first | exact absurd rfl (hq _).1 | exact absurd rfl (hq _).2 | exact absurd rfl hc | exact Or.inr ⟨rfl, by simpa [work, emit] using hst'⟩ | exact ⟨rfl, by simpa [work, emit] using hst'⟩

end Verif.Vtk
