import Verif.TpfaLife.Model
import Mathlib.Tactic.Common
/-
C40, C41 and C70.
-/

set_option autoImplicit false

namespace Verif.TpfaLife

/-! ### C40 -/

/-- Reading the history: after the linearizer has created its matrix once (`created`), an erasure which is followed by a
linearization has undefined behaviour. -/
def crashes : (created erased : Bool) → List Op → Bool
  | _, _, [] => false
  | created, erased, .linearize :: ops => (created && erased) || crashes true false ops
  | created, _, .erase :: ops => crashes created true ops
  | created, erased, .updateParameters :: ops => crashes true (created && erased) ops

theorem run_eq_none (ops : List Op) : ∀ s : State, (s.jacobian = true → s.neighbours = true) →
    (run s ops = none ↔ crashes s.neighbours (!s.jacobian) ops = true) := by
  induction ops with
  | nil => intro s _; simp [run, crashes]
  | cons op ops ih =>
    rintro ⟨j, n⟩ hs
    cases op <;> cases j <;> cases n <;>
      simp_all [run, step, initFirstIteration, createMatrix, reset, crashes]

/-- The three operations follow one another in this order in the history: something which creates the matrix, an
erasure, and, with no linearization in between, a linearization. -/
def Erased (ops : List Op) : Prop :=
  ∃ a c b d e, ops = a ++ c :: (b ++ .erase :: (d ++ .linearize :: e)) ∧ (c = .linearize ∨ c = .updateParameters)

theorem crashes_erase (e : List Op) : ∀ d, crashes true true (d ++ .linearize :: e) = true := by
  intro d
  induction d with
  | nil => simp [crashes]
  | cons op d ih => cases op <;> simp [crashes, ih]

theorem crashes_created_suffix (t : List Op) (ht : crashes true true t = true) : ∀ b er, crashes true er (b ++ .erase :: t) = true := by
  intro b
  induction b with
  | nil => intro er; simpa [crashes] using ht
  | cons op b ih => intro er; cases op <;> simp [crashes, ih]

/-- **C40** is false: in every history in which the linearizer has created its matrix, then the matrix is erased and then
the domain is linearized, the behaviour is undefined (a null pointer is used). -/
theorem C40_tpfa_violated (ops : List Op) (h : Erased ops) : run init ops = none := by
  obtain ⟨a, c, b, d, e, rfl, hc⟩ := h
  rw [run_eq_none _ init (by simp [init])]
  show crashes false true _ = true
  have key : ∀ cr er, crashes cr er (a ++ c :: (b ++ .erase :: (d ++ .linearize :: e))) = true := by
    induction a with
    | nil =>
      intro cr er
      have h1 := crashes_created_suffix _ (crashes_erase e d) b
      rcases hc with rfl | rfl <;> simp [crashes, h1]
    | cons op a ih => intro cr er; cases op <;> simp [crashes, ih]
  exact key _ _

example : Erased [.linearize, .linearize, .erase, .linearize] :=
  ⟨[], .linearize, [.linearize], [], [], rfl, .inl rfl⟩

/-- **C40** (partial) If the behaviour of a history is undefined, then the matrix was erased after it had been created, so
histories without such erasures are safe.  Missing: all other histories (`C40_tpfa_violated`); the general linearizer is
safe (`Verif.FvLin.C40_general`). -/
theorem C40_tpfa_partial (ops : List Op) (h : run init ops = none) :
    ∃ a c b d, ops = a ++ c :: (b ++ .erase :: d) ∧ (c = .linearize ∨ c = .updateParameters) := by
  rw [run_eq_none _ init (by simp [init])] at h
  have h2 : ∀ (ops : List Op), crashes true false ops = true → ∃ b d, ops = b ++ .erase :: d := by
    intro ops
    induction ops with
    | nil => simp [crashes]
    | cons op ops ih =>
      intro h
      cases op with
      | linearize => simp [crashes] at h; obtain ⟨b, d, rfl⟩ := ih h; exact ⟨.linearize :: b, d, rfl⟩
      | erase => exact ⟨[], ops, rfl⟩
      | updateParameters => simp [crashes] at h; obtain ⟨b, d, rfl⟩ := ih h; exact ⟨.updateParameters :: b, d, rfl⟩
  have h1 : ∀ (ops : List Op) er, crashes false er ops = true →
      ∃ a c b d, ops = a ++ c :: (b ++ .erase :: d) ∧ (c = .linearize ∨ c = .updateParameters) := by
    intro ops
    induction ops with
    | nil => simp [crashes]
    | cons op ops ih =>
      intro er h
      cases op with
      | linearize =>
        simp [crashes] at h
        obtain ⟨b, d, rfl⟩ := h2 ops h
        exact ⟨[], .linearize, b, d, rfl, .inl rfl⟩
      | erase =>
        simp [crashes] at h
        obtain ⟨a, c, b, d, rfl, hc⟩ := ih _ h
        exact ⟨.erase :: a, c, b, d, rfl, hc⟩
      | updateParameters =>
        simp [crashes] at h
        obtain ⟨b, d, rfl⟩ := h2 ops h
        exact ⟨[], .updateParameters, b, d, rfl, .inr rfl⟩
  exact h1 ops _ h

example : run init [.erase, .erase, .updateParameters, .linearize, .linearize] ≠ none := by decide

/-! ### C41 -/

variable {Face D : Type}

/-- The linearizer's boundary conditions after a sequence of changes which it was told about. -/
def after (info : Info Face D) : List (BC Face D) → Info Face D
  | [] => info
  | bc :: bcs => after (updateInfo bc info) bcs

theorem after_snoc (info : Info Face D) (bcs : List (BC Face D)) (bc : BC Face D) :
    after info (bcs ++ [bc]) = updateInfo bc (after info bcs) := by
  induction bcs generalizing info with
  | nil => rfl
  | cons b bcs ih => simp [after, ih]

theorem after_faces (info : Info Face D) (bcs : List (BC Face D)) : (after info bcs).map Prod.fst = info.map Prod.fst := by
  induction bcs generalizing info with
  | nil => rfl
  | cons b bcs ih => simp [after, ih, updateInfo, Function.comp_def]

/-- **C41** (partial) After every history of changes, every boundary face which has a condition now uses it, provided that
the problem had non-trivial boundary conditions when the matrix was created.  Missing: faces whose condition was
removed (`C41_removed_violated`) and problems which get boundary conditions later (`C41_late_violated`). -/
theorem C41_current_partial (faces : List Face) (bc0 : BC Face D) (bcs : List (BC Face D)) (bc : BC Face D) :
    (after (createInfo true faces bc0) (bcs ++ [bc])).map Prod.fst = faces ∧
      ∀ e ∈ after (createInfo true faces bc0) (bcs ++ [bc]), bc e.1 ≠ none → e.2 = bc e.1 := by
  constructor
  · rw [after_faces]; simp [createInfo, Function.comp_def]
  · intro e he hb
    rw [after_snoc] at he
    simp only [updateInfo, List.mem_map] at he
    obtain ⟨e', _, rfl⟩ := he
    cases h : bc e'.1 with
    | none => exact absurd h hb
    | some d => rfl

example : after (createInfo true [1, 2] (fun f : ℕ => if f = 1 then some 10 else none)) [fun f => if f = 2 then some 30 else some 20]
    = [(1, some 20), (2, some 30)] := by decide

/-- **C41** is false of removed conditions: the old one stays in use. -/
theorem C41_removed_violated : ∃ (bc0 bc : BC ℕ ℕ), bc 1 = none ∧ after (createInfo true [1] bc0) [bc] = [(1, some 10)] :=
  ⟨fun _ => some 10, fun _ => none, rfl, by decide⟩

/-- **C41** is false if the problem has only trivial conditions when the matrix is created: conditions which are added
later are never used. -/
theorem C41_late_violated (faces : List Face) (bc0 : BC Face D) (bcs : List (BC Face D)) :
    after (createInfo false faces bc0) bcs = [] := by
  have := after_faces (createInfo false faces bc0) bcs
  simpa [createInfo] using this

/-! ### C70 -/

/-- The coefficients which are used after a sequence of changes the linearizer was told about. -/
def coeffs (stored : List ((ℕ × ℕ) × Coeff)) : List (ℕ × ℕ → Coeff) → List ((ℕ × ℕ) × Coeff)
  | [] => stored
  | p :: ps => coeffs (updateCoeffs p stored) ps

theorem coeffs_snoc (stored : List ((ℕ × ℕ) × Coeff)) (ps : List (ℕ × ℕ → Coeff)) (p : ℕ × ℕ → Coeff) :
    coeffs stored (ps ++ [p]) = updateCoeffs p (coeffs stored ps) := by
  induction ps generalizing stored with
  | nil => rfl
  | cons b ps ih => simp [coeffs, ih]

theorem coeffs_conn (stored : List ((ℕ × ℕ) × Coeff)) (ps : List (ℕ × ℕ → Coeff)) :
    (coeffs stored ps).map Prod.fst = stored.map Prod.fst := by
  induction ps generalizing stored with
  | nil => rfl
  | cons b ps ih => simp [coeffs, ih, updateCoeffs, Function.comp_def]

/-- **C70** (partial) After every history of changes all connections use the current transmissibilities.  Missing: the
other coefficients (`C70_other_coefficients_violated`). -/
theorem C70_transmissibilities_partial (connections : List (ℕ × ℕ)) (p0 : ℕ × ℕ → Coeff) (ps : List (ℕ × ℕ → Coeff))
    (p : ℕ × ℕ → Coeff) : (coeffs (createCoeffs p0 connections) (ps ++ [p])).map (fun e => (e.1, e.2.trans)) =
      connections.map fun c => (c, (p c).trans) := by
  have h := coeffs_conn (createCoeffs p0 connections) ps
  rw [coeffs_snoc, updateCoeffs, List.map_map]
  have : connections = (coeffs (createCoeffs p0 connections) ps).map Prod.fst := by
    rw [h]; simp [createCoeffs, Function.comp_def]
  conv_rhs => rw [this, List.map_map]
  rfl

/-- **C70** is false of the other coefficients: whatever the history, they are the ones the matrix was created with. -/
theorem C70_other_coefficients_violated (connections : List (ℕ × ℕ)) (p0 : ℕ × ℕ → Coeff) (ps : List (ℕ × ℕ → Coeff)) :
    (coeffs (createCoeffs p0 connections) ps).map (fun e => (e.1, e.2.diffusivity, e.2.inAlpha, e.2.outAlpha)) =
      connections.map fun c => (c, (p0 c).diffusivity, (p0 c).inAlpha, (p0 c).outAlpha) := by
  have key : ∀ stored : List ((ℕ × ℕ) × Coeff),
      (coeffs stored ps).map (fun e => (e.1, e.2.diffusivity, e.2.inAlpha, e.2.outAlpha)) =
        stored.map (fun e => (e.1, e.2.diffusivity, e.2.inAlpha, e.2.outAlpha)) := by
    induction ps with
    | nil => intro stored; rfl
    | cons p ps ih =>
      intro stored
      rw [coeffs, ih]; simp [updateCoeffs, Function.comp_def]
  rw [key]; simp [createCoeffs, Function.comp_def]

example : (coeffs (createCoeffs (fun _ => ⟨1, 2, 3, 4, 5, 6⟩) [(0, 1)]) [fun _ => ⟨10, 20, 30, 40, 50, 60⟩]) =
    [((0, 1), ⟨10, 2, 3, 4, 5, 6⟩)] := by decide

end Verif.TpfaLife
