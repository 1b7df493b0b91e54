import Mathlib.Data.List.Induction
import Verif.AuxModules.Model
import Mathlib.Data.List.Nodup
import Mathlib.Tactic.Linarith
/-
C33, C69: the degrees of freedom of auxiliary equations.
-/

set_option autoImplicit false

namespace Verif.AuxModules

/-- The modules which were added since the list was last cleared. -/
def current : List Op → List ℕ → List ℕ
  | [], acc => acc
  | .add m :: ops, acc => current ops (acc ++ [m])
  | .clear :: ops, _ => current ops []

/-- Everywhere in the history the modules in the list are different. -/
def Distinct : List Op → List ℕ → Prop
  | [], acc => acc.Nodup
  | .add m :: ops, acc => m ∉ acc ∧ Distinct ops (acc ++ [m])
  | .clear :: ops, _ => Distinct ops []

theorem numAux_append (numDofs : ℕ → ℕ) (a b : List ℕ) : numAux numDofs (a ++ b) = numAux numDofs a + numAux numDofs b := by
  induction a with
  | nil => simp [numAux]
  | cons x a ih => simp [numAux, ih]; omega

/-- Each module's offset is behind the grid and the modules before it. -/
def Inv (numGrid : ℕ) (numDofs : ℕ → ℕ) (s : State) : Prop :=
  s.modules.Nodup ∧ ∀ a m b, s.modules = a ++ m :: b → s.offset m = numGrid + numAux numDofs a

theorem exec_inv (numGrid : ℕ) (numDofs : ℕ → ℕ) (ops : List Op) : ∀ s : State, Inv numGrid numDofs s →
    Distinct ops s.modules →
    Inv numGrid numDofs (ops.foldl (step numGrid numDofs) s) ∧
      (ops.foldl (step numGrid numDofs) s).modules = current ops s.modules := by
  induction ops with
  | nil => intro s h _; exact ⟨h, rfl⟩
  | cons op ops ih =>
    intro s h hd
    cases op with
    | clear =>
      exact ih (step numGrid numDofs s .clear) ⟨by simp [step], by simp [step]⟩ hd
    | add m =>
      obtain ⟨hm, hd⟩ := hd
      refine ih (step numGrid numDofs s (.add m)) ⟨?_, ?_⟩ hd
      · simp only [step]
        rw [List.nodup_append]
        exact ⟨h.1, by simp, by rintro x hx y hy rfl; simp at hy; subst hy; exact hm hx⟩
      · intro a m' b hab
        simp only [step] at hab ⊢
        by_cases hb : b = []
        · subst hb
          have := List.append_inj' hab rfl
          simp at this
          obtain ⟨h1, h2⟩ := this
          subst h2
          simp [numTotal, h1]
        · obtain ⟨b', x, rfl⟩ : ∃ b' x, b = b' ++ [x] := ⟨b.dropLast, b.getLast hb, (List.dropLast_append_getLast hb).symm⟩
          rw [← List.cons_append, ← List.append_assoc] at hab
          have := List.append_inj' hab rfl
          have hne : m' ≠ m := by
            rintro rfl
            apply hm; rw [this.1]; simp
          rw [Function.update_of_ne hne]
          exact h.2 a m' b' this.1

theorem inv_of_exec (numGrid : ℕ) (numDofs : ℕ → ℕ) (ops : List Op) (hd : Distinct ops []) :
    Inv numGrid numDofs (exec numGrid numDofs ops) ∧ (exec numGrid numDofs ops).modules = current ops [] :=
  exec_inv numGrid numDofs ops (init numGrid) ⟨by simp [init], by simp [init]⟩ hd

theorem split_two {l : List ℕ} {m m' : ℕ} (h : m ∈ l) (h' : m' ∈ l) (hne : m ≠ m') :
    (∃ a b c, l = a ++ m :: (b ++ m' :: c)) ∨ ∃ a b c, l = a ++ m' :: (b ++ m :: c) := by
  obtain ⟨a, b, rfl⟩ := List.append_of_mem h
  simp only [List.mem_append, List.mem_cons] at h'
  rcases h' with h' | h' | h'
  · obtain ⟨x, y, rfl⟩ := List.append_of_mem h'
    right; exact ⟨x, y, b, by simp⟩
  · exact absurd h'.symm hne
  · obtain ⟨x, y, rfl⟩ := List.append_of_mem h'
    left; exact ⟨a, x, y, rfl⟩

/-- **C33** After every sequence of additions of different modules and clearings, the degrees of freedom of two
modules of the list are different. -/
theorem C33_disjoint (numGrid : ℕ) (numDofs : ℕ → ℕ) (ops : List Op) (hd : Distinct ops []) (m m' : ℕ)
    (hm : m ∈ current ops []) (hm' : m' ∈ current ops []) (i i' : ℕ) (hi : i < numDofs m) (hi' : i' < numDofs m')
    (h : localToGlobal (exec numGrid numDofs ops) m i = localToGlobal (exec numGrid numDofs ops) m' i') :
    m = m' ∧ i = i' := by
  obtain ⟨⟨_, hinv⟩, hcur⟩ := inv_of_exec numGrid numDofs ops hd
  unfold localToGlobal at h
  by_cases hne : m = m'
  · subst hne; exact ⟨rfl, by omega⟩
  · exfalso
    rw [← hcur] at hm hm'
    rcases split_two hm hm' hne with ⟨a, b, c, hs⟩ | ⟨a, b, c, hs⟩
    · have h1 := hinv a m _ hs
      have h2 := hinv (a ++ m :: b) m' c (by rw [hs]; simp)
      rw [numAux_append] at h2
      simp only [numAux] at h2
      omega
    · have h1 := hinv a m' _ hs
      have h2 := hinv (a ++ m' :: b) m c (by rw [hs]; simp)
      rw [numAux_append] at h2
      simp only [numAux] at h2
      omega

/-- **C33** The degrees of freedom of the modules are exactly the indices from the number of degrees of freedom of the
grid up to the total number: none of the grid's, no gap. -/
theorem C33_range (numGrid : ℕ) (numDofs : ℕ → ℕ) (ops : List Op) (hd : Distinct ops []) (g : ℕ) :
    (numGrid ≤ g ∧ g < numTotal numGrid numDofs (exec numGrid numDofs ops)) ↔
      ∃ m ∈ current ops [], ∃ i < numDofs m, localToGlobal (exec numGrid numDofs ops) m i = g := by
  obtain ⟨⟨_, hinv⟩, hcur⟩ := inv_of_exec numGrid numDofs ops hd
  unfold numTotal localToGlobal
  rw [← hcur]
  constructor
  · rintro ⟨h1, h2⟩
    have key : ∀ (l pre : List ℕ), (exec numGrid numDofs ops).modules = pre ++ l →
        numGrid + numAux numDofs pre ≤ g → g < numGrid + numAux numDofs pre + numAux numDofs l →
        ∃ m ∈ l, ∃ i < numDofs m, (exec numGrid numDofs ops).offset m + i = g := by
      intro l
      induction l with
      | nil => intro pre _ h1 h2; simp [numAux] at h2; omega
      | cons m l ih =>
        intro pre hl h1 h2
        simp only [numAux] at h2
        by_cases hlt : g < numGrid + numAux numDofs pre + numDofs m
        · refine ⟨m, by simp, g - (numGrid + numAux numDofs pre), by omega, ?_⟩
          rw [hinv pre m l hl]; omega
        · obtain ⟨m', hm', i, hi, he⟩ := ih (pre ++ [m]) (by rw [hl]; simp)
            (by rw [numAux_append]; simp [numAux]; omega) (by rw [numAux_append]; simp [numAux]; omega)
          exact ⟨m', by simp [hm'], i, hi, he⟩
    exact key _ [] (by simp) (by simpa [numAux] using h1) (by simpa [numAux] using h2)
  · rintro ⟨m, hm, i, hi, rfl⟩
    obtain ⟨a, b, hs⟩ := List.append_of_mem hm
    rw [hinv a m b hs, hs, numAux_append]
    simp only [numAux]
    omega

example : Distinct [.add 0, .add 1, .clear, .add 1, .add 2] [] ∧
    current [.add 0, .add 1, .clear, .add 1, .add 2] [] = [1, 2] ∧
    (exec 10 (fun m => m + 3) [.add 0, .add 1, .clear, .add 1, .add 2]).offset 1 = 10 ∧
    (exec 10 (fun m => m + 3) [.add 0, .add 1, .clear, .add 1, .add 2]).offset 2 = 14 := by
  refine ⟨by simp [Distinct], by decide, by decide, by decide⟩

/-- **C69** (partial) After every history the latest operation of which was not to clear the modules, the solution vectors have
one entry for each degree of freedom.  Missing: cleared lists (`C69_clear_violated`). -/
theorem C69_solution_size_partial (numGrid : ℕ) (numDofs : ℕ → ℕ) (ops : List Op) (h : ops.getLast? ≠ some .clear) :
    (exec numGrid numDofs ops).size = numTotal numGrid numDofs (exec numGrid numDofs ops) := by
  rcases List.eq_nil_or_concat ops with rfl | ⟨pre, o, rfl⟩
  · simp [exec, init, numTotal, numAux]
  · cases o with
    | add m => simp [exec, List.foldl_append, step, numTotal]
    | clear => simp at h

/-- **C69** (partial) After every history the solution vectors have an entry for every degree of freedom, at least. -/
theorem C69_enough_partial (numGrid : ℕ) (numDofs : ℕ → ℕ) (ops : List Op) :
    numTotal numGrid numDofs (exec numGrid numDofs ops) ≤ (exec numGrid numDofs ops).size := by
  rcases List.eq_nil_or_concat ops with rfl | ⟨pre, o, rfl⟩
  · simp [exec, init, numTotal, numAux]
  · cases o with
    | add m => simp [exec, List.foldl_append, step, numTotal]
    | clear =>
      have hg : ∀ (l : List Op), numGrid ≤ (exec numGrid numDofs l).size := by
        intro l
        induction l using List.reverseRecOn with
        | nil => simp [exec, init]
        | append_singleton l a ih =>
          cases a with
          | add m => simp [exec, List.foldl_append, step, numTotal]
          | clear => simpa [exec, List.foldl_append, step] using ih
      have := hg pre
      simpa [exec, List.foldl_append, step, numTotal, numAux] using this

example : (exec 10 (fun m => m + 3) [.add 0, .clear, .add 1, .add 2]).size = 19 := by decide

/-- **C69** is false after the auxiliary modules were cleared: the solution vectors keep the entries of the modules,
although they are no degrees of freedom any more. -/
theorem C69_clear_violated : ∃ (ops : List Op),
    (exec 10 (fun _ => 2) ops).size = 12 ∧ numTotal 10 (fun _ => 2) (exec 10 (fun _ => 2) ops) = 10 :=
  ⟨[.add 0, .clear], by decide, by decide⟩

end Verif.AuxModules
