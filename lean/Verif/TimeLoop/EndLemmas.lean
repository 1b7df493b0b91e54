import Verif.TimeLoop.Lemmas
import Mathlib.Algebra.Order.Archimedean.Basic

set_option autoImplicit false

namespace Verif.TimeLoop
set_option linter.unusedSectionVars false

variable {K : Type} [Field K] [LinearOrder K] {σ : Type}

theorem ends_now {P : Problem K σ} {c : Conf K σ} (h : Ended c) : Ends P c := ⟨0, h⟩

theorem ends_step {P : Problem K σ} {c : Conf K σ} (h : Ends P (step P c)) : Ends P c := by
  obtain ⟨n, hn⟩ := h
  exact ⟨n + 1, by simpa [run, Function.iterate_succ_apply] using hn⟩

theorem ends_call {P : Problem K σ} {c : Conf K σ} {cb : Callback K σ} {ev : List (Event K)}
    {k : Conf K σ → Conf K σ} (hs : step P c = call cb c ev k)
    (h : ∀ p cmds, cb c.prob c.sim = some (p, cmds) →
      Ends P (k { c with prob := p, sim := cmds.foldl Cmd.run c.sim, trace := c.trace ++ ev })) : Ends P c := by
  apply ends_step
  rw [hs]
  unfold call
  split
  · exact ends_now (Or.inr (Or.inl rfl))
  · exact h _ _ (by assumption)

theorem ends_fin {P : Problem K σ} {c : Conf K σ} (h : c.pc = .fin) : Ends P c := by
  refine ends_call (cb := P.finalize) (ev := [.finalized]) (k := fun c => { c with pc := .done }) ?_ ?_
  · obtain ⟨pc, _, _, _, _⟩ := c; simp only at h; subst h; rfl
  · intro p cmds _; exact ends_now (Or.inl rfl)

theorem ends_endEpStop {P : Problem K σ} {c : Conf K σ} (h : c.pc = .endEpStop) : Ends P c := by
  refine ends_call (cb := P.endEpisode) (ev := [.endEpisode]) (k := fun c => { c with pc := .fin }) ?_ ?_
  · obtain ⟨pc, _, _, _, _⟩ := c; simp only at h; subst h; rfl
  · intro p cmds _; exact ends_fin rfl

theorem ends_endStepStop {P : Problem K σ} {c : Conf K σ} (h : c.pc = .endStepStop) : Ends P c := by
  refine ends_call (cb := P.endTimeStep) (ev := [.endTimeStep]) (k := fun c => { c with pc := .endEpStop }) ?_ ?_
  · obtain ⟨pc, _, _, _, _⟩ := c; simp only at h; subst h; rfl
  · intro p cmds _; exact ends_endEpStop rfl

theorem cmds_end (cmds : List (Cmd K)) (s : Sim K) (h : ∀ t, Cmd.setEndTime t ∉ cmds) :
    (cmds.foldl Cmd.run s).endTime = s.endTime := by
  induction cmds generalizing s with
  | nil => simp
  | cons c cs ih =>
    simp only [List.foldl_cons]
    rw [ih _ (fun d hd => h d (by simp [hd]))]
    cases c with
    | setEndTime d => exact absurd (by simp) (h d)
    | _ => simp [Cmd.run]

theorem ends_main [IsStrictOrderedRing K] (P : Problem K σ) (δ T : K) (hδ : 0 < δ) (hk : KeepsEndTime P)
    (hi : ∀ p s r, P.timeIntegration p s = some r → δ ≤ r.2)
    (he : ∀ p s r, P.endTimeStep p s = some r → ∀ d, Cmd.setTimeStepSize d ∉ r.2)
    (ho : ∀ p s r, P.writeOutput p s = some r → ∀ d, Cmd.setTimeStepSize d ∉ r.2)
    (N : ℕ) (c : Conf K σ) (hpc : c.pc = .head) (ht : 0 ≤ c.sim.time) (hT : c.sim.endTime = T)
    (hN : T - c.sim.time ≤ N * δ) : Ends P c := by
  have hke : ∀ cb ∈ [P.beginEpisode, P.endEpisode, P.beginTimeStep, P.endTimeStep, P.writeOutput,
      P.advanceTimeLevel, P.writeRestart, P.finalize], ∀ p s q cmds, cb p s = some (q, cmds) →
      (cmds.foldl Cmd.run s).endTime = s.endTime := fun cb hcb p s q cmds h =>
    cmds_end _ _ (hk cb hcb p s _ h)
  induction N generalizing c with
  | zero =>
    obtain ⟨pc, sim, pr, eb, t⟩ := c
    simp only at hpc ht hT hN
    subst hpc
    have hfin : sim.finished = true := by
      by_contra hc
      have := time_lt_end ht (by simpa using hc)
      simp at hN
      linarith
    apply ends_step
    simp only [step, hfin, if_true]
    exact ends_fin rfl
  | succ N ih =>
    -- from `restart` with an advanced clock
    have hrestart : ∀ c : Conf K σ, c.pc = .restart → 0 ≤ c.sim.time → c.sim.endTime = T →
        T - c.sim.time ≤ N * δ → Ends P c := by
      intro c h1 h2 h3 h4
      obtain ⟨pc, sim, pr, eb, t⟩ := c
      simp only at h1 h2 h3 h4
      subst h1
      refine ends_call (cb := P.writeRestart) (ev := []) (k := fun c => { c with pc := .head }) rfl ?_
      intro p cmds hcb
      refine ih _ rfl ?_ ?_ ?_
      · simpa [cmds_clock] using h2
      · simpa [hke P.writeRestart (by simp) _ _ _ _ hcb] using h3
      · simpa [cmds_clock] using h4
    have hselect : ∀ c : Conf K σ, c.pc = .select → 0 ≤ c.sim.time → c.sim.endTime = T →
        T - c.sim.time ≤ N * δ → Ends P c := by
      intro c h1 h2 h3 h4
      obtain ⟨pc, sim, pr, eb, t⟩ := c
      simp only at h1 h2 h3 h4
      subst h1
      apply ends_step
      simp only [step]
      exact hrestart _ rfl h2 h3 h4
    have hendEp : ∀ c : Conf K σ, c.pc = .endEp → 0 ≤ c.sim.time → c.sim.endTime = T →
        T - c.sim.time ≤ N * δ → Ends P c := by
      intro c h1 h2 h3 h4
      obtain ⟨pc, sim, pr, eb, t⟩ := c
      simp only at h1 h2 h3 h4
      subst h1
      refine ends_call (cb := P.endEpisode) (ev := [.endEpisode])
        (k := fun c => { c with pc := .restart, episodeBegins := true }) rfl ?_
      intro p cmds hcb
      refine hrestart _ rfl ?_ ?_ ?_
      · simpa [cmds_clock] using h2
      · simpa [hke P.endEpisode (by simp) _ _ _ _ hcb] using h3
      · simpa [cmds_clock] using h4
    have hadvance : ∀ c : Conf K σ, c.pc = .advance → 0 ≤ c.sim.time → c.sim.endTime = T →
        T - c.sim.time ≤ (N + 1) * δ → δ ≤ c.sim.dt → Ends P c := by
      intro c h1 h2 h3 h4 h5
      obtain ⟨pc, sim, pr, eb, t⟩ := c
      simp only at h1 h2 h3 h4 h5
      subst h1
      apply ends_step
      simp only [step, call]
      split
      · exact ends_now (Or.inr (Or.inl rfl))
      · rename_i p cmds hcb
        have e1 : (0 : K) ≤ (cmds.foldl Cmd.run sim).time + sim.dt := by
          rw [(cmds_clock cmds sim).1]; linarith
        have e2 : (cmds.foldl Cmd.run sim).endTime = T := by
          rw [hke P.advanceTimeLevel (by simp) _ _ _ _ hcb]; exact h3
        have e3 : T - ((cmds.foldl Cmd.run sim).time + sim.dt) ≤ N * δ := by
          rw [(cmds_clock cmds sim).1]; linarith
        split_ifs
        · exact hendEp _ rfl e1 e2 e3
        · exact hselect _ rfl e1 e2 e3
    have houtput : ∀ c : Conf K σ, c.pc = .output → 0 ≤ c.sim.time → c.sim.endTime = T →
        T - c.sim.time ≤ (N + 1) * δ → δ ≤ c.sim.dt → Ends P c := by
      intro c h1 h2 h3 h4 h5
      obtain ⟨pc, sim, pr, eb, t⟩ := c
      simp only at h1 h2 h3 h4 h5
      subst h1
      refine ends_call (cb := P.writeOutput) (ev := []) (k := fun c => { c with pc := .advance }) rfl ?_
      intro p cmds hcb
      refine hadvance _ rfl ?_ ?_ ?_ ?_
      · simpa [cmds_clock] using h2
      · simpa [hke P.writeOutput (by simp) _ _ _ _ hcb] using h3
      · simpa [cmds_clock] using h4
      · simpa [cmds_dt _ _ (ho _ _ _ hcb)] using h5
    have hendStep : ∀ c : Conf K σ, c.pc = .endStep → 0 ≤ c.sim.time → c.sim.endTime = T →
        T - c.sim.time ≤ (N + 1) * δ → δ ≤ c.sim.dt → Ends P c := by
      intro c h1 h2 h3 h4 h5
      obtain ⟨pc, sim, pr, eb, t⟩ := c
      simp only at h1 h2 h3 h4 h5
      subst h1
      refine ends_call (cb := P.endTimeStep) (ev := [.endTimeStep]) (k := fun c => { c with pc := .output }) rfl ?_
      intro p cmds hcb
      refine houtput _ rfl ?_ ?_ ?_ ?_
      · simpa [cmds_clock] using h2
      · simpa [hke P.endTimeStep (by simp) _ _ _ _ hcb] using h3
      · simpa [cmds_clock] using h4
      · simpa [cmds_dt _ _ (he _ _ _ hcb)] using h5
    have hintegrate : ∀ c : Conf K σ, c.pc = .integrate → 0 ≤ c.sim.time → c.sim.endTime = T →
        T - c.sim.time ≤ (N + 1) * δ → Ends P c := by
      intro c h1 h2 h3 h4
      obtain ⟨pc, sim, pr, eb, t⟩ := c
      simp only at h1 h2 h3 h4
      subst h1
      apply ends_step
      simp only [step]
      split
      · exact ends_now (Or.inr (Or.inr rfl))
      · rename_i p d hcb
        exact hendStep _ rfl h2 h3 h4 (hi _ _ _ hcb)
    have hbeginStep : ∀ c : Conf K σ, c.pc = .beginStep → 0 ≤ c.sim.time → c.sim.endTime = T →
        T - c.sim.time ≤ (N + 1) * δ → Ends P c := by
      intro c h1 h2 h3 h4
      obtain ⟨pc, sim, pr, eb, t⟩ := c
      simp only at h1 h2 h3 h4
      subst h1
      refine ends_call (cb := P.beginTimeStep) (ev := [.beginTimeStep])
        (k := fun c => if c.sim.finished then { c with pc := .endStepStop } else { c with pc := .integrate }) rfl ?_
      intro p cmds hcb
      simp only
      split_ifs
      · exact ends_endStepStop rfl
      · refine hintegrate _ rfl ?_ ?_ ?_
        · simpa [cmds_clock] using h2
        · simpa [hke P.beginTimeStep (by simp) _ _ _ _ hcb] using h3
        · simpa [cmds_clock] using h4
    have hbeginEp : ∀ c : Conf K σ, c.pc = .beginEp → 0 ≤ c.sim.time → c.sim.endTime = T →
        T - c.sim.time ≤ (N + 1) * δ → Ends P c := by
      intro c h1 h2 h3 h4
      obtain ⟨pc, sim, pr, eb, t⟩ := c
      simp only at h1 h2 h3 h4
      subst h1
      refine ends_call (cb := P.beginEpisode) (ev := [.beginEpisode])
        (k := fun c => if c.sim.finished then { c with pc := .endEpStop }
          else { c with pc := .beginStep, episodeBegins := false }) rfl ?_
      intro p cmds hcb
      simp only
      split_ifs
      · exact ends_endEpStop rfl
      · refine hbeginStep _ rfl ?_ ?_ ?_
        · simpa [cmds_clock] using h2
        · simpa [hke P.beginEpisode (by simp) _ _ _ _ hcb] using h3
        · simpa [cmds_clock] using h4
    obtain ⟨pc, sim, pr, eb, t⟩ := c
    simp only at hpc ht hT hN
    subst hpc
    push_cast at hN
    apply ends_step
    simp only [step]
    split_ifs
    · exact ends_fin rfl
    · exact hbeginEp _ rfl ht hT hN
    · exact hbeginStep _ rfl ht hT hN

end Verif.TimeLoop
