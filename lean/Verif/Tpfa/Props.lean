import Verif.Tpfa.Lemmas
import Mathlib.Algebra.BigOperators.Ring.Finset
import Mathlib.Algebra.Module.Rat
import Mathlib.Algebra.Order.Field.Rat
import Mathlib.Tactic.Linarith
import Mathlib.Tactic.NormNum
import Mathlib.Algebra.CharZero.Defs
/-
C34, C36, C38 and C39 for the two-point flux linearizer.
-/

set_option autoImplicit false
set_option linter.unusedSectionVars false
set_option linter.unusedSimpArgs false

namespace Verif.Tpfa

variable {K V M C : Type} [Field K] [AddCommGroup V] [AddCommGroup M] [Module K V] [Module K M]

/-! ### C34 -/

/-- A network of cells: neighbours are other cells, every connection of cell `i` to cell `j` is, seen from `j`, a
connection `rev c` to `i` with the same area, and what flows out of `i` through it flows into `j`. -/
structure Network (p : Net K V M C) (rev : C → C) : Prop where
  neighbour : ∀ i < p.numCells, ∀ e ∈ p.nb i, e.1 < p.numCells ∧ e.1 ≠ i
  paired : ∀ i < p.numCells, ∀ j < p.numCells,
    (((p.nb i).filter fun e => e.1 = j).map fun e => rev e.2).Perm (((p.nb j).filter fun e => e.1 = i).map Prod.snd)
  area : ∀ c, p.area (rev c) = p.area c
  antisymmetric : ∀ i < p.numCells, ∀ e ∈ p.nb i, (p.flux e.1 i (rev e.2)).1 = - (p.flux i e.1 e.2).1
  boundary : ∀ b ∈ p.boundary, b.cell < p.numCells

/-- The flow from `i` to `j`. -/
def between (p : Net K V M C) (i j : ℕ) : V :=
  (((p.nb i).filter fun e => e.1 = j).map fun e => p.area e.2 • (p.flux i e.1 e.2).1).sum

theorem between_anti (p : Net K V M C) (rev : C → C) (h : Network p rev) (i j : ℕ) (hi : i < p.numCells)
    (hj : j < p.numCells) : between p j i = - between p i j := by
  have hp := h.paired i hi j hj
  have e1 : between p j i =
      ((((p.nb j).filter fun e => e.1 = i).map Prod.snd).map fun c => p.area c • (p.flux j i c).1).sum := by
    unfold between
    rw [List.map_map]
    congr 1
    apply List.map_congr_left
    intro e he
    simp only [List.mem_filter, decide_eq_true_eq] at he
    simp [he.2]
  rw [e1, ← (hp.map fun c => p.area c • (p.flux j i c).1).sum_eq, List.map_map]
  unfold between
  have e2 : ∀ l : List (ℕ × C), (∀ e ∈ l, e ∈ (p.nb i).filter fun e => e.1 = j) →
      (l.map ((fun c => p.area c • (p.flux j i c).1) ∘ fun e => rev e.2)).sum =
        - (l.map fun e => p.area e.2 • (p.flux i e.1 e.2).1).sum := by
    intro l
    induction l with
    | nil => simp
    | cons e l ih =>
      intro hl
      have he := hl e (by simp)
      simp only [List.mem_filter, decide_eq_true_eq] at he
      rw [List.map_cons, List.sum_cons, List.map_cons, List.sum_cons, ih (fun e h => hl e (by simp [h])), neg_add]
      congr 1
      have := h.antisymmetric i hi e he.1
      rw [he.2] at this
      simp only [Function.comp, he.2, h.area, this, smul_neg]
  exact e2 _ fun _ h => h

theorem sum_between (p : Net K V M C) (rev : C → C) (h : Network p rev) (i : ℕ) (hi : i < p.numCells) :
    ((p.nb i).map fun e => p.area e.2 • (p.flux i e.1 e.2).1).sum =
      ∑ j ∈ Finset.range p.numCells, between p i j := by
  have key : ∀ l : List (ℕ × C), (∀ e ∈ l, e.1 < p.numCells) → ∀ f : ℕ × C → V,
      (l.map f).sum = ∑ j ∈ Finset.range p.numCells, ((l.filter fun e => e.1 = j).map f).sum := by
    intro l
    induction l with
    | nil => intro _ f; simp
    | cons e l ih =>
      intro hl f
      rw [List.map_cons, List.sum_cons, ih (fun e h => hl e (by simp [h]))]
      have : ∀ j ∈ Finset.range p.numCells, (((e :: l).filter fun e => e.1 = j).map f).sum =
          (if j = e.1 then f e else 0) + ((l.filter fun e => e.1 = j).map f).sum := by
        intro j _
        by_cases hj : e.1 = j
        · simp [hj]
        · simp [hj, Ne.symm hj]
      rw [Finset.sum_congr rfl this, Finset.sum_add_distrib, Finset.sum_ite_eq' (Finset.range p.numCells) e.1 fun _ => f e,
        if_pos (Finset.mem_range.2 (hl e (by simp)))]
  exact key (p.nb i) (fun e he => (h.neighbour i hi e he).1) _

theorem sum_boundary (p : Net K V M C) (h : ∀ b ∈ p.boundary, b.cell < p.numCells) :
    ∑ i ∈ Finset.range p.numCells, boundaryRes p i =
      ((p.boundary.filter fun b => !b.none).map fun b => b.area • b.flux.1).sum := by
  unfold boundaryRes
  generalize p.boundary = bs at h
  induction bs with
  | nil => simp
  | cons b bs ih =>
    simp only [List.map_cons, List.sum_cons, Finset.sum_add_distrib]
    rw [ih (fun b hb => h b (by simp [hb]))]
    have hb := h b (by simp)
    cases hn : b.none
    · simp [hn, hb]
    · simp [hn]

/-- **C34** In every network of cells the sum of the assembled residuals is the change of what is stored, minus what the
sources supply, plus what flows out of the domain: the fluxes between the cells cancel exactly. -/
theorem C34_tpfa [CharZero K] (p : Net K V M C) (rev : C → C) (h : Network p rev) (s : System V M) :
    ∑ i ∈ Finset.range p.numCells, (linearizeFull p s).res i =
      ∑ i ∈ Finset.range p.numCells, ((p.volume i / p.dt) • ((p.storage i).1 - p.oldStorage i) - p.volume i • (p.source i).1)
        + ((p.boundary.filter fun b => !b.none).map fun b => b.area • b.flux.1).sum := by
  have hflux : ∑ i ∈ Finset.range p.numCells, ∑ j ∈ Finset.range p.numCells, between p i j = 0 := by
    have h1 : ∑ i ∈ Finset.range p.numCells, ∑ j ∈ Finset.range p.numCells, between p i j =
        - ∑ i ∈ Finset.range p.numCells, ∑ j ∈ Finset.range p.numCells, between p i j := by
      conv_lhs => rw [Finset.sum_comm]
      rw [← Finset.sum_neg_distrib]
      refine Finset.sum_congr rfl fun i hi => ?_
      rw [← Finset.sum_neg_distrib]
      refine Finset.sum_congr rfl fun j hj => ?_
      exact between_anti p rev h i j (Finset.mem_range.1 hi) (Finset.mem_range.1 hj)
    have h2 : (2 : K) • ∑ i ∈ Finset.range p.numCells, ∑ j ∈ Finset.range p.numCells, between p i j = 0 := by
      rw [two_smul]
      nth_rewrite 1 [h1]
      simp
    exact (smul_eq_zero.1 h2).resolve_left two_ne_zero
  have e1 : ∀ i ∈ Finset.range p.numCells, (linearizeFull p s).res i =
      (∑ j ∈ Finset.range p.numCells, between p i j) +
        (((p.volume i / p.dt) • ((p.storage i).1 - p.oldStorage i) - p.volume i • (p.source i).1) + boundaryRes p i) := by
    intro i hi
    have hi := Finset.mem_range.1 hi
    rw [linearizeFull_res p s i hi, cellRes, sum_between p rev h i hi]
    abel
  rw [Finset.sum_congr rfl e1, Finset.sum_add_distrib, hflux, zero_add, Finset.sum_add_distrib,
    sum_boundary p h.boundary]

/-- Three cells in a row, the last two of which are connected twice; sources, storage and a boundary face. -/
def threeCells : Net ℚ ℚ ℚ ℤ where
  numCells := 3
  nb := fun i => if i = 0 then [(1, 5)] else if i = 1 then [(0, -5), (2, 2), (2, 3)] else if i = 2 then [(1, -3), (1, -2)] else []
  area := fun c => |(c : ℚ)|
  flux := fun _ _ c => (c, 7 * c)
  volume := fun i => i + 1
  dt := 2
  storage := fun i => (10 * i, 1)
  oldStorage := fun i => i
  source := fun i => if i = 0 then (4, 2) else (0, 0)
  boundary := [{ cell := 2, none := false, area := 3, flux := (11, 1) }, { cell := 0, none := true, area := 3, flux := (1, 1) }]

theorem threeCells_network : Network threeCells (fun c => -c) where
  neighbour := by
    intro i hi e he
    have : i = 0 ∨ i = 1 ∨ i = 2 := by simp only [threeCells] at hi; omega
    rcases this with rfl | rfl | rfl <;> simp [threeCells] at he ⊢ <;> (try rcases he with he | he) <;>
      (try rcases he with he | he) <;> simp_all
  paired := by
    intro i hi j hj
    have h1 : i = 0 ∨ i = 1 ∨ i = 2 := by simp only [threeCells] at hi; omega
    have h2 : j = 0 ∨ j = 1 ∨ j = 2 := by simp only [threeCells] at hj; omega
    rcases h1 with rfl | rfl | rfl <;> rcases h2 with rfl | rfl | rfl <;> decide
  area := by intro c; simp [threeCells]
  antisymmetric := by intro i _ e _; simp [threeCells]
  boundary := by simp [threeCells]

def zeroSystem : System ℚ ℚ := { res := fun _ => 0, mat := fun _ _ => 0 }

/-- the residuals of the example are not zero -/
example : (linearizeFull threeCells zeroSystem).res 0 = 21 ∧ (linearizeFull threeCells zeroSystem).res 1 = -3 ∧
    (linearizeFull threeCells zeroSystem).res 2 = 47 := by decide +kernel

/-! ### C36 -/

/-- **C36** (partial) Linearizing the full domain with the two-point flux linearizer gives the same residual and matrix
whatever the linear system contained before.  Missing: the general linearizer with auxiliary equations, see
`Verif.FvLinearizer`. -/
theorem C36_tpfa_partial (p : Net K V M C) (s s' : System V M) : linearizeFull p s = linearizeFull p s' := by
  rw [linearizeFull, linearizeFull, linearizeDomain, linearizeDomain, if_pos (by simp), if_pos (by simp)]
  rfl

example : linearizeFull threeCells { res := fun _ => 99, mat := fun _ _ => 99 } = linearizeFull threeCells zeroSystem :=
  C36_tpfa_partial _ _ _

/-! ### C38 -/

section
variable {V M : Type} [Add V] [Add M]

/-- The cell which an update belongs to: the cell of the residual, the column of the matrix. -/
def Upd.owner : Upd V M → ℕ
  | .res i _ => i
  | .mat _ j _ => j

/-- Two systems agree on what belongs to cell `k`. -/
def Agree (k : ℕ) (s s' : System V M) : Prop := s.res k = s'.res k ∧ ∀ i, s.mat i k = s'.mat i k

theorem Agree.refl (k : ℕ) (s : System V M) : Agree k s s := ⟨rfl, fun _ => rfl⟩
theorem Agree.trans {k : ℕ} {a b c : System V M} (h : Agree k a b) (h' : Agree k b c) : Agree k a c :=
  ⟨h.1.trans h'.1, fun i => (h.2 i).trans (h'.2 i)⟩
theorem Agree.symm {k : ℕ} {a b : System V M} (h : Agree k a b) : Agree k b a :=
  ⟨h.1.symm, fun i => (h.2 i).symm⟩

theorem Agree.apply {k : ℕ} {s s' : System V M} (h : Agree k s s') (u : Upd V M) : Agree k (u.apply s) (u.apply s') := by
  obtain ⟨h1, h2⟩ := h
  cases u <;> simp [Upd.apply, Agree, h1, h2]

theorem Agree.applyAll {k : ℕ} (us : List (Upd V M)) : ∀ {s s' : System V M}, Agree k s s' →
    Agree k (applyAll s us) (applyAll s' us) := by
  induction us with
  | nil => intro s s' h; exact h
  | cons u us ih => intro s s' h; exact ih (h.apply u)

theorem agree_other {k : ℕ} (s : System V M) (u : Upd V M) (h : u.owner ≠ k) : Agree k (u.apply s) s := by
  cases u with
  | res i v =>
    refine ⟨?_, fun _ => rfl⟩
    have : ¬ k = i := fun e => h e.symm
    simp [Upd.apply, this]
  | mat i j m =>
    refine ⟨rfl, fun l => ?_⟩
    have : ¬ k = j := fun e => h e.symm
    simp [Upd.apply, this]

theorem agree_others {k : ℕ} (us : List (Upd V M)) : ∀ s : System V M, (∀ u ∈ us, u.owner ≠ k) →
    Agree k (applyAll s us) s := by
  induction us with
  | nil => intro s _; exact Agree.refl k s
  | cons u us ih =>
    intro s h
    exact (ih (u.apply s) (fun u hu => h u (by simp [hu]))).trans (agree_other s u (h u (by simp)))

theorem store_load (s : System V M) (u : Upd V M) : store s u (load s u) = u.apply s := by
  cases u with
  | res i v =>
    simp only [store, load, Upd.apply]
    congr 1
    funext k
    by_cases h : k = i
    · subst h; simp
    · simp [h]
  | mat i j m =>
    simp only [store, load, Upd.apply]
    congr 1
    funext k l
    by_cases h : k = i ∧ l = j
    · obtain ⟨rfl, rfl⟩ := h; simp
    · simp [h]

theorem load_agree {s s' : System V M} (u : Upd V M) (h : Agree u.owner s s') : load s u = load s' u := by
  cases u with
  | res i v => exact congrArg Reg.res h.1
  | mat i j m => exact congrArg Reg.mat (h.2 i)

/-- What was loaded is still what is in memory, and every thread only works on its own cell. -/
def Inv (s : System V M) (ts : ℕ → Thread V M) : Prop :=
  (∀ k, ∀ u ∈ (ts k).todo, u.owner = k) ∧ ∀ k u us r, (ts k).todo = u :: us → (ts k).reg = some r → r = load s u

theorem step_inv (s : System V M) (ts : ℕ → Thread V M) (hi : Inv s ts) (k : ℕ) :
    let r := (ts k).step s
    let ts' := fun l => if l = k then r.2 else ts l
    Inv r.1 ts' ∧ ∀ l, Agree l (applyAll r.1 (ts' l).todo) (applyAll s (ts l).todo) := by
  obtain ⟨h1, h2⟩ := hi
  intro r ts'
  rcases hk : ts k with ⟨todo, reg⟩
  have hr : r = Thread.step s ⟨todo, reg⟩ := by show (ts k).step s = _; rw [hk]
  cases todo with
  | nil =>
    have hr' : r = (s, ⟨[], reg⟩) := by rw [hr]; rfl
    have hts : ts' = ts := by
      funext l; by_cases hl : l = k
      · subst hl; simp [ts', hr', hk]
      · simp [ts', hl]
    rw [hts, hr']
    exact ⟨⟨h1, h2⟩, fun l => Agree.refl _ _⟩
  | cons u us =>
    have hu : u.owner = k := h1 k u (by simp [hk])
    cases reg with
    | none =>
      have hr' : r = (s, ⟨u :: us, some (load s u)⟩) := by rw [hr]; rfl
      refine ⟨⟨?_, ?_⟩, ?_⟩
      · intro l v hv
        by_cases hl : l = k
        · subst hl; simp only [ts', if_true, hr'] at hv; exact h1 l v (by rw [hk]; exact hv)
        · simp only [ts', hl, if_false] at hv; exact h1 l v hv
      · intro l v vs x hv hx
        by_cases hl : l = k
        · subst hl
          simp only [ts', if_true, hr'] at hv hx
          cases hv; cases hx; rw [hr']
        · simp only [ts', hl, if_false] at hv hx
          rw [hr']; exact h2 l v vs x hv hx
      · intro l
        by_cases hl : l = k
        · subst hl; simp only [ts', if_true, hr', hk]; exact Agree.refl _ _
        · simp only [ts', hl, if_false, hr']; exact Agree.refl _ _
    | some x =>
      have hx : x = load s u := h2 k u us x (by rw [hk]) (by rw [hk])
      have hr' : r = (u.apply s, ⟨us, none⟩) := by
        rw [hr, ← store_load, ← hx]; rfl
      have hother : ∀ l, l ≠ k → Agree l (u.apply s) s := fun l hl => agree_other s u (by rw [hu]; exact Ne.symm hl)
      refine ⟨⟨?_, ?_⟩, ?_⟩
      · intro l v hv
        by_cases hl : l = k
        · subst hl; simp only [ts', if_true, hr'] at hv; exact h1 l v (by rw [hk]; simp [hv])
        · simp only [ts', hl, if_false] at hv; exact h1 l v hv
      · intro l v vs y hv hy
        by_cases hl : l = k
        · subst hl
          simp only [ts', if_true, hr'] at hy
          cases hy
        · simp only [ts', hl, if_false] at hv hy
          rw [hr', h2 l v vs y hv hy]
          have hw : v.owner = l := h1 l v (by rw [hv]; simp)
          exact load_agree v (by rw [hw]; exact (hother l hl).symm)
      · intro l
        by_cases hl : l = k
        · subst hl; simp only [ts', if_true, hr', hk]; exact Agree.refl _ _
        · simp only [ts', hl, if_false, hr']; exact (hother l hl).applyAll _

theorem interleave_agree (ks : List ℕ) : ∀ (s : System V M) (ts : ℕ → Thread V M), Inv s ts →
    ∀ l, Agree l (applyAll (interleave s ts ks).1 ((interleave s ts ks).2 l).todo) (applyAll s (ts l).todo) := by
  induction ks with
  | nil => intro s ts _ l; exact Agree.refl _ _
  | cons k ks ih =>
    intro s ts hi l
    obtain ⟨h1, h2⟩ := step_inv s ts hi k
    exact (ih _ _ h1 l).trans (h2 l)

theorem agree_flatMap (us : ℕ → List (Upd V M)) (hown : ∀ k, ∀ u ∈ us k, u.owner = k) (l : ℕ) :
    ∀ (cells : List ℕ) (s : System V M), cells.Nodup →
      Agree l (applyAll s (cells.flatMap us)) (applyAll s (if l ∈ cells then us l else [])) := by
  intro cells
  induction cells with
  | nil => intro s _; exact Agree.refl _ _
  | cons k cells ih =>
    intro s hn
    rw [List.nodup_cons] at hn
    have e : applyAll s ((k :: cells).flatMap us) = applyAll (applyAll s (us k)) (cells.flatMap us) := by
      simp [applyAll, List.flatMap_cons, List.foldl_append]
    rw [e]
    refine (ih (applyAll s (us k)) hn.2).trans ?_
    by_cases hl : l = k
    · subst hl
      simp only [hn.1, if_false, List.mem_cons, true_or, if_true]
      exact Agree.refl _ _
    · have h1 : Agree l (applyAll s (us k)) s := agree_others (us k) s (fun u hu => by rw [hown k u hu]; exact Ne.symm hl)
      simp only [List.mem_cons, hl, false_or]
      exact h1.applyAll _

/-- **C38** Let every cell have a list of `+=` operations which only concern its own residual and its own column of the
matrix.  Then for every interleaving of the loads and stores of all cells, and for every addition (associative or
not, so that this includes floating-point numbers), the result is that of doing one cell after the other. -/
theorem C38_schedule_independent (cells : List ℕ) (hn : cells.Nodup) (us : ℕ → List (Upd V M))
    (hown : ∀ k, ∀ u ∈ us k, u.owner = k) (s : System V M) (schedule : List ℕ) (s' : System V M) (ts' : ℕ → Thread V M)
    (hrun : interleave s (fun k => { todo := if k ∈ cells then us k else [], reg := none }) schedule = (s', ts'))
    (hdone : ∀ k, (ts' k).todo = []) : s' = applyAll s (cells.flatMap us) := by
  have hi : Inv s (fun k => { todo := if k ∈ cells then us k else [], reg := none }) := by
    refine ⟨fun k u hu => ?_, fun k u vs r _ h => by cases h⟩
    by_cases hk : k ∈ cells
    · simp only [hk, if_true] at hu; exact hown k u hu
    · simp [hk] at hu
  have h := fun l => (interleave_agree schedule s _ hi l).trans (agree_flatMap us hown l cells s hn).symm
  rw [hrun] at h
  simp only [hdone] at h
  have e : ∀ l, Agree l s' (applyAll s (cells.flatMap us)) := h
  cases hs : applyAll s (cells.flatMap us)
  cases s'
  rw [hs] at e
  congr 1
  · funext l; exact (e l).1
  · funext i l; exact (e l).2 i

end

/-- **C38** In the loop of the two-point flux linearizer every cell only changes its own residual and its own column, so
that for every interleaving the result is that of one thread. -/
theorem C38_tpfa (p : Net K V M C) (cells : List ℕ) (hn : cells.Nodup) (s : System V M) (schedule : List ℕ)
    (s' : System V M) (ts' : ℕ → Thread V M)
    (hrun : interleave s (fun k => { todo := if k ∈ cells then cellUpdates p k else [], reg := none }) schedule = (s', ts'))
    (hdone : ∀ k, (ts' k).todo = []) : applyAll s' (boundaryUpdates p) = linearizeCells p cells s := by
  have hown : ∀ k, ∀ u ∈ cellUpdates p k, u.owner = k := by
    intro k u hu
    simp only [cellUpdates, fluxUpdates, storageUpdates, sourceUpdates, List.mem_append, List.mem_flatMap, List.mem_cons,
      List.not_mem_nil, or_false] at hu
    rcases hu with (⟨e, _, rfl | rfl | rfl⟩ | rfl | rfl) | rfl | rfl <;> rfl
  rw [C38_schedule_independent cells hn (cellUpdates p) hown s schedule s' ts' hrun hdone, linearizeCells]
  simp [applyAll, List.foldl_append]

/-- two cells whose loads and stores alternate: the run is complete and its result not trivial -/
example : let us : ℕ → List (Upd ℤ ℤ) := fun k => if k = 0 then [.res 0 1, .res 0 2, .mat 1 0 3] else [.mat 1 1 4, .res 1 5]
    let r := interleave ({ res := fun _ => 10, mat := fun _ _ => 20 } : System ℤ ℤ)
      (fun k => { todo := if k ∈ [0, 1] then us k else [], reg := none }) [0, 1, 1, 0, 0, 1, 0, 1, 0, 0]
    r.1.res 0 = 13 ∧ r.1.res 1 = 15 ∧ r.1.mat 1 0 = 23 ∧ (r.2 0).todo.length = 0 ∧ (r.2 1).todo.length = 0 := by
  decide

/-! ### C39 -/

/-- **C39** Linearizing a part of the domain gives the cells of this part the same residuals, and the same blocks for
pairs of them, as linearizing everything, whatever was assembled before. -/
theorem C39_inside (p : Net K V M C) (cells : List ℕ) (hn : cells.Nodup) (hc : ∀ k ∈ cells, k < p.numCells)
    (s s' : System V M) (i j : ℕ) (hi : i ∈ cells) (hj : j ∈ cells) :
    (linearizeDomain p cells s).res i = (linearizeFull p s').res i ∧
      (linearizeDomain p cells s).mat i j = (linearizeFull p s').mat i j := by
  rw [linearizeFull_res p s' i (hc i hi), linearizeFull_mat p s' i j (hc j hj), linearizeDomain,
    linearizeCells_res p cells hn, linearizeCells_mat p cells hn]
  constructor
  · split <;> simp [resetAll, resetCells, hi]
  · split
    · simp only [resetAll, hj, if_true, zero_add]
      by_cases h : i = j
      · subst h; simp; abel
      · simp [h]
    · simp only [resetCells, hi, hj, if_true, zero_add]
      by_cases h : i = j
      · subst h; simp; abel
      · simp [h]

/-- **C39** (partial) Linearizing a part of the domain leaves the residuals of the other cells alone if they have no
boundary face with a boundary condition, and leaves the blocks of the matrix alone which belong to two such cells.
Missing: cells with boundary conditions (`C39_boundary_violated`) and the blocks in the rows of neighbours of the part
(`C39_rows_violated`). -/
theorem C39_outside_partial (p : Net K V M C) (cells : List ℕ) (hn : cells.Nodup) (hlen : cells.length ≠ p.numCells)
    (s : System V M) (i : ℕ) (hi : i ∉ cells) (hb : ∀ b ∈ p.boundary, b.none = false → b.cell ≠ i) :
    (linearizeDomain p cells s).res i = s.res i ∧ ∀ j, j ∉ cells → (linearizeDomain p cells s).mat i j = s.mat i j := by
  have hb1 : boundaryRes p i = 0 := by
    apply List.sum_eq_zero
    intro x hx
    simp only [List.mem_map] at hx
    obtain ⟨b, hbm, rfl⟩ := hx
    rw [if_neg]
    rintro ⟨h1, h2⟩; exact hb b hbm h2 h1.symm
  have hb2 : boundaryDiag p i = 0 := by
    apply List.sum_eq_zero
    intro x hx
    simp only [List.mem_map] at hx
    obtain ⟨b, hbm, rfl⟩ := hx
    rw [if_neg]
    rintro ⟨h1, h2⟩; exact hb b hbm h2 h1.symm
  rw [linearizeDomain, if_neg hlen]
  constructor
  · rw [linearizeCells_res p cells hn, hb1]; simp [resetCells, hi]
  · intro j hj
    rw [linearizeCells_mat p cells hn, hb2]; simp [resetCells, hi, hj]

example : (linearizeDomain threeCells [2] { res := fun _ => 99, mat := fun _ _ => 77 }).res 0 = 99 ∧
    (linearizeDomain threeCells [2] { res := fun _ => 99, mat := fun _ _ => 77 }).mat 0 1 = 77 ∧
    (linearizeDomain threeCells [2] { res := fun _ => 99, mat := fun _ _ => 77 }).res 2 = 47 := by decide +kernel

/-- **C39** is false of cells with boundary conditions: the boundary faces of all cells are added whatever the domain
is, and once more each time. -/
theorem C39_boundary_violated : ∃ (p : Net ℚ ℚ ℚ ℤ) (s : System ℚ ℚ), Network p (fun c => -c) ∧
    (linearizeDomain p [0] s).res 2 ≠ s.res 2 ∧
    (linearizeDomain p [0] (linearizeDomain p [0] s)).res 2 ≠ (linearizeDomain p [0] s).res 2 :=
  ⟨threeCells, zeroSystem, threeCells_network, by decide +kernel, by decide +kernel⟩

/-- **C39** is false of the matrix: the blocks in the rows of neighbours outside of the domain are changed but never
reset, so that they grow each time. -/
theorem C39_rows_violated : ∃ (p : Net ℚ ℚ ℚ ℤ) (s : System ℚ ℚ), Network p (fun c => -c) ∧
    (linearizeDomain p [0] s).mat 1 0 ≠ s.mat 1 0 ∧
    (linearizeDomain p [0] (linearizeDomain p [0] s)).mat 1 0 ≠ (linearizeDomain p [0] s).mat 1 0 :=
  ⟨threeCells, zeroSystem, threeCells_network, by decide +kernel, by decide +kernel⟩

end Verif.Tpfa
