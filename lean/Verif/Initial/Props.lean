import Verif.Initial.Spec
import Mathlib.Algebra.Order.BigOperators.Ring.Finset
import Mathlib.Algebra.BigOperators.Ring.Finset
import Mathlib.Algebra.Order.Ring.Rat
import Mathlib.Tactic.Linarith
import Mathlib.Tactic.Positivity
import Mathlib.Tactic.FinCases

/-
C153: the initial solution and the residual do not depend on how the grid is spread over processes.
-/

set_option autoImplicit false
set_option linter.unusedSectionVars false

namespace Verif.Initial

open Verif.Mpi Verif.GridComm

variable {P : ℕ} {C E V : Type}

/-- The elements which a process sees -/
def elements (held : Fin P → List C) (view : Fin P → C → Element V) (p : Fin P) : List (Element V) := (held p).map (view p)

section

variable {cells : List C} {parts : C → List (E × V)} {owner : C → Fin P} {held : Fin P → List C} {view : Fin P → C → Element V}
  {face : Interface P E} {ents inner : Fin P → Set E}

theorem interior_perm [DecidableEq (Fin P)] (h : Spread cells parts owner held view face ents inner) (p : Fin P) :
    ((held p).filter fun c => (view p c).interior).Perm (cells.filter fun c => owner c = p) := by
  rw [List.perm_ext_iff_of_nodup ((h.heldNodup p).filter _) (h.nodup.filter _)]
  intro c
  simp only [List.mem_filter, decide_eq_true_eq]
  constructor
  · rintro ⟨h1, h2⟩
    exact ⟨h.heldCell p c h1, (h.interior p c h1).1 h2⟩
  · rintro ⟨h1, h2⟩
    have h3 : c ∈ held p := h2 ▸ h.owned c h1
    exact ⟨h3, (h.interior p c h3).2 h2⟩

/-! ### The initial solution -/

theorem foldl_assign (l : List (ℕ × V)) (u : ℕ → V) (i : ℕ) (x : V) (hx : ∀ d ∈ l, d.1 = i → d.2 = x) :
    ((∃ d ∈ l, d.1 = i) → l.foldl (fun u d => Function.update u d.1 d.2) u i = x) ∧
      ((¬∃ d ∈ l, d.1 = i) → l.foldl (fun u d => Function.update u d.1 d.2) u i = u i) := by
  induction l generalizing u with
  | nil => simp
  | cons a l ih =>
    obtain ⟨h1, h2⟩ := ih (Function.update u a.1 a.2) fun d hd => hx d (List.mem_cons_of_mem _ hd)
    rw [List.foldl_cons]
    by_cases he : ∃ d ∈ l, d.1 = i
    · refine ⟨fun _ => h1 he, fun hn => absurd ?_ hn⟩
      obtain ⟨d, hd, hi⟩ := he
      exact ⟨d, List.mem_cons_of_mem _ hd, hi⟩
    · rw [h2 he]
      constructor
      · rintro ⟨d, hd, hi⟩
        rcases List.mem_cons.1 hd with rfl | hd
        · rw [← hi, Function.update_self]
          exact hx d (List.mem_cons_self ..) hi
        · exact absurd ⟨d, hd, hi⟩ he
      · intro hn
        rw [Function.update_of_ne]
        rintro rfl
        exact hn ⟨a, List.mem_cons_self .., rfl⟩

theorem initialLocal_eq [Zero V] (l : List (Element V)) :
    initialLocal l = ((l.filter (·.interior)).flatMap (·.dofs)).foldl (fun u d => Function.update u d.1 d.2) fun _ => 0 := by
  unfold initialLocal
  generalize (fun _ => 0 : ℕ → V) = u
  induction l generalizing u with
  | nil => rfl
  | cons e l ih =>
    rw [List.foldl_cons, ih]
    cases he : e.interior <;> simp [he, List.filter_cons, List.foldl_append]

/-- The degrees of freedom which a process assigns -/
theorem mem_assigned (h : Spread cells parts owner held view face ents inner) (p : Fin P) (d : ℕ × V) :
    d ∈ ((elements held view p).filter (·.interior)).flatMap (·.dofs) ↔
      ∃ c ∈ cells, owner c = p ∧ ∃ x ∈ parts c, d = (face.index p x.1, x.2) := by
  rw [List.mem_flatMap]
  constructor
  · rintro ⟨e, he, hd⟩
    obtain ⟨he1, he2⟩ := List.mem_filter.1 he
    obtain ⟨c, hc, rfl⟩ := List.mem_map.1 he1
    have ho := (h.interior p c hc).1 he2
    rw [h.dofs p c hc ho] at hd
    obtain ⟨x, hx, rfl⟩ := List.mem_map.1 hd
    exact ⟨c, h.heldCell p c hc, ho, x, hx, rfl⟩
  · rintro ⟨c, hc, ho, x, hx, rfl⟩
    have hh : c ∈ held p := ho ▸ h.owned c hc
    refine ⟨view p c, List.mem_filter.2 ⟨List.mem_map.2 ⟨c, hh, rfl⟩, (h.interior p c hh).2 ho⟩, ?_⟩
    rw [h.dofs p c hh ho]
    exact List.mem_map.2 ⟨x, hx, rfl⟩

/-- After the loop over its elements a process has the initial values of all degrees of freedom of its interior elements, and zero
elsewhere, if elements agree about the values of a degree of freedom. -/
theorem initialLocal_spec [Zero V] (h : Spread cells parts owner held view face ents inner) (p : Fin P) (e : E) (he : e ∈ ents p) (v : V)
    (hv : ∀ c ∈ cells, ∀ x ∈ parts c, x.1 = e → x.2 = v) :
    ((∃ c ∈ cells, owner c = p ∧ ∃ x ∈ parts c, x.1 = e) → initialLocal (elements held view p) (face.index p e) = v) ∧
      ((¬∃ c ∈ cells, owner c = p ∧ ∃ x ∈ parts c, x.1 = e) → initialLocal (elements held view p) (face.index p e) = 0) := by
  have inj : ∀ c ∈ cells, owner c = p → ∀ x ∈ parts c, face.index p x.1 = face.index p e → x.1 = e := by
    intro c hc ho x hx hi
    exact h.proper.inj p (h.innerHas p (ho ▸ h.innerParts c hc x hx)) he hi
  obtain ⟨h1, h2⟩ := foldl_assign (((elements held view p).filter (·.interior)).flatMap (·.dofs)) (fun _ => 0) (face.index p e) v (by
    intro d hd hi
    obtain ⟨c, hc, ho, x, hx, rfl⟩ := (mem_assigned h p d).1 hd
    exact hv c hc x hx (inj c hc ho x hx hi))
  rw [initialLocal_eq]
  constructor
  · rintro ⟨c, hc, ho, x, hx, hxe⟩
    exact h1 ⟨_, (mem_assigned h p _).2 ⟨c, hc, ho, x, hx, rfl⟩, by rw [hxe]⟩
  · intro hn
    refine h2 ?_
    rintro ⟨d, hd, hi⟩
    obtain ⟨c, hc, ho, x, hx, rfl⟩ := (mem_assigned h p d).1 hd
    exact hn ⟨c, hc, ho, x, hx, inj c hc ho x hx hi⟩

end

theorem levels_spec (n : ℕ) (old : ℕ → ℕ → V) (u : ℕ → V) (timeIdx : ℕ) (ht : timeIdx < n) : levels n old u timeIdx = u := by
  have key : ∀ m t, t ≤ m → (List.range' 1 m).foldl (fun (sol : ℕ → ℕ → V) timeIdx => Function.update sol timeIdx (sol 0))
      (Function.update old 0 u) t = u := by
    intro m
    induction m with
    | zero => intro t h; obtain rfl : t = 0 := by omega
              simp
    | succ m ih =>
      intro t h
      simp only [List.range'_concat, List.foldl_append, List.foldl_cons, List.foldl_nil]
      by_cases he : t = 1 + 1 * m
      · subst he; rw [Function.update_self]; exact ih 0 (by omega)
      · rw [Function.update_of_ne he]; exact ih t (by omega)
  exact key (n - 1) timeIdx (by omega)

/-- **C153** Cell-centred grids: when all processes are through with `applyInitialSolution`, all of them have the initial values of all
cells which they have, on all time levels, whatever the order of messages was, and they do get through. -/
theorem C153_initial_cells [Zero V] {cells : List C} (init : C → V) {owner : C → Fin P} {held : Fin P → List C}
    {view : Fin P → C → Element V} {face : Interface P C} {inner : Fin P → Set C}
    (h : Spread cells (fun c => [(c, init c)]) owner held view face (fun p => {c | c ∈ held p}) inner)
    (ho : FromOwner face (fun p => {c | c ∈ held p}) owner) {s : System (Fin P) (ℕ → V) (List V)}
    (hr : Reach (initialCells face (elements held view)) s) :
    (Finished s → ∀ p, ∀ c ∈ held p, ∀ n old, ∀ timeIdx < n, levels n old (s.state p) timeIdx (face.index p c) = init c) ∧
      (¬Finished s → ∃ t, Step true s t) := by
  obtain ⟨h1, h2⟩ := C28_ghostSync h.proper ho _ hr
  refine ⟨fun hf p c hc n old timeIdx ht => ?_, h2⟩
  rw [levels_spec n old _ timeIdx ht]
  rw [h1 hf p c hc]
  have hcell := h.heldCell p c hc
  exact (initialLocal_spec h (owner c) c (h.owned c hcell) (init c) (by
    intro d _ x hx he
    simp only [List.mem_singleton] at hx
    subst hx
    exact congrArg init he)).1 ⟨c, hcell, rfl, (c, init c), by simp, rfl⟩

/-- **C153** Vertex-centred grids: if elements agree about the initial values of a vertex, each process has them for all vertices of its
interior cells. -/
theorem C153_initial_vertices_partial [Zero V] {cells : List C} {parts : C → List (E × V)} {owner : C → Fin P} {held : Fin P → List C}
    {view : Fin P → C → Element V} {face : Interface P E} {ents inner : Fin P → Set E}
    (h : Spread cells parts owner held view face ents inner) (init : E → V) (hi : ∀ c ∈ cells, ∀ x ∈ parts c, x.2 = init x.1)
    (c : C) (hc : c ∈ cells) (x : E × V) (hx : x ∈ parts c) (n : ℕ) (old : ℕ → ℕ → V) (timeIdx : ℕ)
    (ht : timeIdx < n) : levels n old (initialVertices (elements held view) (owner c)) timeIdx (face.index (owner c) x.1) = init x.1 := by
  rw [levels_spec n old _ timeIdx ht]
  exact (initialLocal_spec h (owner c) x.1 (h.innerHas _ (h.innerParts c hc x hx)) (init x.1)
    fun d hd y hy he => (hi d hd y hy).trans (congrArg init he)).1 ⟨c, hc, rfl, x, hx, rfl⟩

/-- **C153, violated** Vertex-centred grids: all other vertices which a process has are zero, whatever the problem says about them. -/
theorem C153_initial_vertices_violated [Zero V] {cells : List C} {parts : C → List (E × V)} {owner : C → Fin P}
    {held : Fin P → List C} {view : Fin P → C → Element V} {face : Interface P E} {ents inner : Fin P → Set E}
    (h : Spread cells parts owner held view face ents inner) (init : E → V) (hi : ∀ c ∈ cells, ∀ x ∈ parts c, x.2 = init x.1)
    (p : Fin P) (e : E) (he : e ∈ ents p) (hn : ¬∃ c ∈ cells, owner c = p ∧ ∃ x ∈ parts c, x.1 = e) :
    initialVertices (elements held view) p (face.index p e) = 0 :=
  (initialLocal_spec h p e he (init e) fun d hd y hy hye => (hi d hd y hy).trans (congrArg init hye)).2 hn

/-! ### The residual -/

section

variable [AddCommMonoid V] {cells : List C} {parts : C → List (E × V)} {owner : C → Fin P} {held : Fin P → List C}
  {view : Fin P → C → Element V} {face : Interface P E} {ents inner : Fin P → Set E}

theorem foldl_add (l : List (ℕ × V)) (r : ℕ → V) (i : ℕ) :
    l.foldl (fun r d => Function.update r d.1 (r d.1 + d.2)) r i = r i + ((l.filter fun d => d.1 = i).map Prod.snd).sum := by
  induction l generalizing r with
  | nil => simp
  | cons a l ih =>
    rw [List.foldl_cons, ih, List.filter_cons]
    by_cases ha : a.1 = i
    · subst ha; simp [add_assoc]
    · rw [Function.update_of_ne (Ne.symm ha)]; simp [ha]

theorem residualLocal_eq (l : List (Element V)) (i : ℕ) :
    residualLocal l i = ((l.filter (·.interior)).map fun e => ((e.dofs.filter fun d => d.1 = i).map Prod.snd).sum).sum := by
  suffices h : ∀ r : ℕ → V, l.foldl (fun r e => if e.interior then e.dofs.foldl (fun r d => Function.update r d.1 (r d.1 + d.2)) r
      else r) r i = r i + ((l.filter (·.interior)).map fun e => ((e.dofs.filter fun d => d.1 = i).map Prod.snd).sum).sum by
    rw [residualLocal, h, zero_add]
  induction l with
  | nil => simp
  | cons e l ih =>
    intro r
    rw [List.foldl_cons, ih, List.filter_cons]
    cases he : e.interior
    · simp
    · simp only [if_true, foldl_add, List.map_cons, List.sum_cons, add_assoc]

open Classical in
theorem residualLocal_spec (h : Spread cells parts owner held view face ents inner) (p : Fin P) (e : E) (he : e ∈ ents p) :
    residualLocal (elements held view p) (face.index p e) =
      ((cells.filter fun c => owner c = p).map fun c => (((parts c).filter fun x => x.1 = e).map Prod.snd).sum).sum := by
  rw [residualLocal_eq, elements, List.filter_map, List.map_map, ← ((interior_perm h p).map _).sum_eq]
  congr 1
  apply List.map_congr_left
  intro c hc
  obtain ⟨h1, h2⟩ := List.mem_filter.1 hc
  have ho := (h.interior p c h1).1 h2
  simp only [Function.comp]
  rw [h.dofs p c h1 ho, List.filter_map, List.map_map]
  congr 1
  refine congrArg _ (List.filter_congr ?_)
  intro x hx
  simp only [Function.comp, decide_eq_decide]
  refine ⟨fun hi => ?_, fun hi => by rw [hi]⟩
  exact h.proper.inj p (h.innerHas p (ho ▸ h.innerParts c (h.heldCell p c h1) x hx)) he hi

theorem sum_owners [DecidableEq (Fin P)] (l : List C) (owner : C → Fin P) (f : C → V) :
    ∑ p, ((l.filter fun c => owner c = p).map f).sum = (l.map f).sum := by
  induction l with
  | nil => simp
  | cons a l ih =>
    have ha : f a = ∑ p, if owner a = p then f a else 0 := by simp
    rw [List.map_cons, List.sum_cons, ← ih, ha, ← Finset.sum_add_distrib]
    apply Finset.sum_congr rfl
    intro p _
    by_cases hp : owner a = p
    · simp [List.filter_cons, hp]
    · simp [List.filter_cons, hp]

open Classical in
theorem part_zero (h : Spread cells parts owner held view face ents inner) (p : Fin P) (e : E) (he : e ∉ inner p) :
    ((cells.filter fun c => owner c = p).map fun c => (((parts c).filter fun x => x.1 = e).map Prod.snd).sum).sum = 0 := by
  apply List.sum_eq_zero
  intro y hy
  obtain ⟨c, hc, rfl⟩ := List.mem_map.1 hy
  obtain ⟨hc1, hc2⟩ := List.mem_filter.1 hc
  have ho : owner c = p := of_decide_eq_true hc2
  have : (parts c).filter (fun x => x.1 = e) = [] := by
    rw [List.filter_eq_nil_iff]
    intro x hx hxe
    rw [decide_eq_true_eq] at hxe
    exact he (ho ▸ hxe ▸ h.innerParts c hc1 x hx)
  rw [this]
  rfl

open Classical in
/-- **C153** When all processes are through with the loop and the communication of `globalResidual`, each of them has the residuals of all
degrees of freedom of its interior and its border, as they are on a single process, and zero elsewhere, whatever the order of elements
and messages was; and they do get through. -/
theorem C153_residual (h : Spread cells parts owner held view face ents inner) (hb : Border face inner)
    {s : System (Fin P) (ℕ → V) (List V)} (hr : Reach (residual face (elements held view)) s) :
    (Finished s → ∀ p, ∀ e ∈ ents p, s.state p (face.index p e) = if e ∈ inner p then total cells parts e else 0) ∧
      (¬Finished s → ∃ t, Step true s t) := by
  obtain ⟨h1, h2⟩ := communicate_apply h.proper (· + ·) _ (s := s) hr
  refine ⟨fun hf q e he => ?_, h2⟩
  rw [h1 hf q e he, foldl_sum, residualLocal_spec h q e he]
  by_cases hq : e ∈ inner q
  · rw [if_pos hq, total, ← sum_owners cells owner]
    rw [Verif.Sync.sum_split q ((face.peers q).filter fun p => decide (e ∈ face.sent p q)) ((h.proper.nodup q).filter _)
      (fun hm => h.proper.irrefl q (List.mem_filter.1 hm).1)]
    · congr 2
      apply List.map_congr_left
      intro p hp
      have hs := of_decide_eq_true (List.mem_filter.1 hp).2
      exact residualLocal_spec h p e (h.proper.has p q e hs).2.1
    · intro p hpq hp
      apply part_zero h
      intro hin
      have hs : e ∈ face.sent p q := (hb p q e).2 ⟨hpq, hin, hq⟩
      exact hp (List.mem_filter.2 ⟨(h.proper.symm p q).1 (h.proper.has p q e hs).1, decide_eq_true hs⟩)
  · rw [if_neg hq, part_zero h q e hq, zero_add]
    have : (face.peers q).filter (fun p => decide (e ∈ face.sent p q)) = [] := by
      rw [List.filter_eq_nil_iff]
      intro p _ hp
      exact hq ((hb p q e).1 (of_decide_eq_true hp)).2.2
    rw [this]
    rfl

end

/-! ### The norm of the residual -/

section

variable {K : Type} [Field K] [LinearOrder K] [IsStrictOrderedRing K] {m : ℕ} [Fintype E] {cells : List C}
  {parts : C → List (E × (Fin m → K))} {owner : C → Fin P} {held : Fin P → List C} {view : Fin P → C → Element (Fin m → K)}
  {face : Interface P E} {ents inner : Fin P → Set E}

/-- The entries of the vectors are those of the degrees of freedom of the process. -/
def Numbered (face : Interface P E) (ents : Fin P → Set E) (size : Fin P → ℕ) : Prop :=
  ∀ p i, i < size p ↔ ∃ e ∈ ents p, face.index p e = i

open Classical in
/-- The square of the norm of the residual on a single process -/
noncomputable def sequentialNorm2 (cells : List C) (parts : C → List (E × (Fin m → K))) : K := ∑ e : E, entryNorm2 (total cells parts e)

theorem entryNorm2_nonneg (v : Fin m → K) : 0 ≤ entryNorm2 v := Finset.sum_nonneg fun k _ => mul_self_nonneg (v k)

theorem entryNorm2_eq_zero {v : Fin m → K} : entryNorm2 v = 0 ↔ v = 0 := by
  rw [entryNorm2, Finset.sum_eq_zero_iff_of_nonneg fun k _ => mul_self_nonneg (v k)]
  constructor
  · intro h
    funext k
    exact mul_self_eq_zero.1 (h k (Finset.mem_univ k))
  · rintro rfl k _
    simp

open Classical in
/-- Sums over the entries of the vector of a process are sums over its degrees of freedom. -/
theorem sum_entries (hinj : ∀ p, Set.InjOn (face.index p) (ents p)) {size : Fin P → ℕ} (hn : Numbered face ents size) (p : Fin P) (f : ℕ → K) :
    ((List.range (size p)).map f).sum = ∑ e : E, if e ∈ ents p then f (face.index p e) else 0 := by
  have himg : Finset.range (size p) = (Finset.univ.filter fun e => e ∈ ents p).image (face.index p) := by
    ext i
    rw [Finset.mem_range, hn p i, Finset.mem_image]
    simp
  rw [← Finset.sum_filter, ← Finset.sum_image (f := f) (g := face.index p), ← himg]
  · rfl
  · intro a ha b hb hab
    simp only [Finset.coe_filter, Finset.mem_univ, true_and, Set.mem_setOf_eq] at ha hb
    exact hinj p ha hb hab

open Classical in
/-- **C153** What `globalResidual` returns counts each degree of freedom once for each process which has it in its interior or on its
border. -/
theorem C153_norm (h : Spread cells parts owner held view face ents inner) (hb : Border face inner) {size : Fin P → ℕ}
    (hn : Numbered face ents size) {s : System (Fin P) (ℕ → Fin m → K) (List (Fin m → K))}
    (hr : Reach (residual face (elements held view)) s) (hf : Finished s) :
    norm2 size s.state = ∑ e : E, ((Finset.univ.filter fun p => e ∈ inner p).card : K) * entryNorm2 (total cells parts e) := by
  have h1 := (C153_residual h hb hr).1 hf
  have h2 : ∀ p, ((List.range (size p)).map fun i => entryNorm2 (s.state p i)).sum =
      ∑ e : E, if e ∈ inner p then entryNorm2 (total cells parts e) else 0 := by
    intro p
    rw [sum_entries h.proper.inj hn p]
    apply Finset.sum_congr rfl
    intro e _
    by_cases he : e ∈ ents p
    · rw [if_pos he, h1 p e he]
      by_cases hi : e ∈ inner p
      · rw [if_pos hi, if_pos hi]
      · rw [if_neg hi, if_neg hi]
        exact entryNorm2_eq_zero.2 rfl
    · rw [if_neg he, if_neg fun hi => he (h.innerHas p hi)]
  rw [norm2, Finset.sum_congr rfl fun p _ => h2 p, Finset.sum_comm]
  apply Finset.sum_congr rfl
  intro e _
  rw [← Finset.sum_filter, Finset.sum_const, nsmul_eq_mul]

/-- A residual which is not zero belongs to a degree of freedom of the interior or border of some process. -/
theorem inner_of_total (h : Spread cells parts owner held view face ents inner) (e : E) (he : total cells parts e ≠ 0) :
    ∃ p, e ∈ inner p := by
  classical
  by_contra hc
  apply he
  rw [total]
  apply List.sum_eq_zero
  intro y hy
  obtain ⟨c, hcm, rfl⟩ := List.mem_map.1 hy
  have : (parts c).filter (fun x => x.1 = e) = [] := by
    rw [List.filter_eq_nil_iff]
    intro x hx hxe
    exact hc ⟨owner c, of_decide_eq_true hxe ▸ h.innerParts c hcm x hx⟩
  rw [this]
  rfl

/-- **C153** Cell-centred grids, where each degree of freedom is in the interior of at most one process: the norm is that on a single
process. -/
theorem C153_norm_cells (h : Spread cells parts owner held view face ents inner) (hb : Border face inner) {size : Fin P → ℕ}
    (hn : Numbered face ents size) (hone : ∀ p q e, e ∈ inner p → e ∈ inner q → p = q)
    {s : System (Fin P) (ℕ → Fin m → K) (List (Fin m → K))} (hr : Reach (residual face (elements held view)) s) (hf : Finished s) :
    norm2 size s.state = sequentialNorm2 cells parts := by
  classical
  rw [C153_norm h hb hn hr hf, sequentialNorm2]
  apply Finset.sum_congr rfl
  intro e _
  by_cases ht : total cells parts e = 0
  · rw [entryNorm2_eq_zero.2 ht, mul_zero]
  · obtain ⟨p, hp⟩ := inner_of_total h e ht
    have : (Finset.univ.filter fun q => e ∈ inner q) = {p} := by
      ext q
      simp only [Finset.mem_filter, Finset.mem_univ, true_and, Finset.mem_singleton]
      exact ⟨fun hq => hone q p e hq hp, fun hq => hq ▸ hp⟩
    rw [this, Finset.card_singleton, Nat.cast_one, one_mul]

/-- **C153** In general the square of the norm is at least that on a single process and at most `P` times as large; it is zero only if
all residuals are. -/
theorem C153_norm_bounds_partial (h : Spread cells parts owner held view face ents inner) (hb : Border face inner) {size : Fin P → ℕ}
    (hn : Numbered face ents size) {s : System (Fin P) (ℕ → Fin m → K) (List (Fin m → K))}
    (hr : Reach (residual face (elements held view)) s) (hf : Finished s) :
    sequentialNorm2 cells parts ≤ norm2 size s.state ∧ norm2 size s.state ≤ P * sequentialNorm2 cells parts ∧
      (norm2 size s.state = 0 ↔ ∀ e, total cells parts e = 0) := by
  classical
  have hlow : ∀ e, entryNorm2 (total cells parts e) ≤
      ((Finset.univ.filter fun p => e ∈ inner p).card : K) * entryNorm2 (total cells parts e) := by
    intro e
    by_cases ht : total cells parts e = 0
    · rw [entryNorm2_eq_zero.2 ht, mul_zero]
    · obtain ⟨p, hp⟩ := inner_of_total h e ht
      have hc : 1 ≤ (Finset.univ.filter fun p => e ∈ inner p).card :=
        Finset.card_pos.2 ⟨p, Finset.mem_filter.2 ⟨Finset.mem_univ p, hp⟩⟩
      have hc' : (1 : K) ≤ ((Finset.univ.filter fun p => e ∈ inner p).card : K) := by exact_mod_cast hc
      exact le_mul_of_one_le_left (entryNorm2_nonneg _) hc'
  have h1 : sequentialNorm2 cells parts ≤ norm2 size s.state := by
    rw [C153_norm h hb hn hr hf, sequentialNorm2]
    exact Finset.sum_le_sum fun e _ => hlow e
  have h2 : norm2 size s.state ≤ P * sequentialNorm2 cells parts := by
    rw [C153_norm h hb hn hr hf, sequentialNorm2, Finset.mul_sum]
    refine Finset.sum_le_sum fun e _ => mul_le_mul_of_nonneg_right ?_ (entryNorm2_nonneg _)
    have := Finset.card_le_univ (Finset.univ.filter fun p => e ∈ inner p)
    rw [Fintype.card_fin] at this
    exact_mod_cast this
  refine ⟨h1, h2, ?_, ?_⟩
  · intro hz e
    have h0 : sequentialNorm2 cells parts = 0 :=
      le_antisymm (hz ▸ h1) (Finset.sum_nonneg fun e _ => entryNorm2_nonneg _)
    rw [sequentialNorm2, Finset.sum_eq_zero_iff_of_nonneg fun e _ => entryNorm2_nonneg _] at h0
    exact entryNorm2_eq_zero.1 (h0 e (Finset.mem_univ e))
  · intro hz
    have h0 : sequentialNorm2 cells parts = 0 := Finset.sum_eq_zero fun e _ => entryNorm2_eq_zero.2 (hz e)
    rw [h0, mul_zero] at h2
    exact le_antisymm h2 (h0 ▸ h1)

/-- **C153, violated** Vertex-centred grids: whenever the residual of a vertex on the border between two processes is not zero, the norm is
larger than on a single process. -/
theorem C153_norm_violated (h : Spread cells parts owner held view face ents inner) (hb : Border face inner) {size : Fin P → ℕ}
    (hn : Numbered face ents size) {s : System (Fin P) (ℕ → Fin m → K) (List (Fin m → K))}
    (hr : Reach (residual face (elements held view)) s) (hf : Finished s) (p q : Fin P) (hpq : p ≠ q) (e : E) (hp : e ∈ inner p)
    (hq : e ∈ inner q) (he : total cells parts e ≠ 0) : sequentialNorm2 cells parts < norm2 size s.state := by
  classical
  have hpos : 0 < entryNorm2 (total cells parts e) :=
    lt_of_le_of_ne (entryNorm2_nonneg _) fun hz => he (entryNorm2_eq_zero.1 hz.symm)
  rw [C153_norm h hb hn hr hf, sequentialNorm2]
  refine Finset.sum_lt_sum (fun e' _ => ?_) ⟨e, Finset.mem_univ e, ?_⟩
  · by_cases ht : total cells parts e' = 0
    · rw [entryNorm2_eq_zero.2 ht, mul_zero]
    · obtain ⟨p', hp'⟩ := inner_of_total h e' ht
      have hc : 1 ≤ (Finset.univ.filter fun p => e' ∈ inner p).card :=
        Finset.card_pos.2 ⟨p', Finset.mem_filter.2 ⟨Finset.mem_univ p', hp'⟩⟩
      have hc' : (1 : K) ≤ ((Finset.univ.filter fun p => e' ∈ inner p).card : K) := by exact_mod_cast hc
      exact le_mul_of_one_le_left (entryNorm2_nonneg _) hc'
  · have hc : 1 < (Finset.univ.filter fun p => e ∈ inner p).card := Finset.one_lt_card.2
      ⟨p, Finset.mem_filter.2 ⟨Finset.mem_univ p, hp⟩, q, Finset.mem_filter.2 ⟨Finset.mem_univ q, hq⟩, hpq⟩
    have hc' : (1 : K) < ((Finset.univ.filter fun p => e ∈ inner p).card : K) := by exact_mod_cast hc
    exact lt_mul_of_one_lt_left hpos hc'

/-- **C153, violated** Auxiliary equations are left out: entries of degrees of freedom which no element contributes to are zero on all
processes, whatever their equations say. -/
theorem C153_auxiliary_violated (h : Spread cells parts owner held view face ents inner) (hb : Border face inner)
    {s : System (Fin P) (ℕ → Fin m → K) (List (Fin m → K))} (hr : Reach (residual face (elements held view)) s) (hf : Finished s)
    (e : E) (he : ∀ c ∈ cells, ∀ x ∈ parts c, x.1 ≠ e) (p : Fin P) (hp : e ∈ ents p) : s.state p (face.index p e) = 0 := by
  classical
  rw [(C153_residual h hb hr).1 hf p e hp]
  have : total cells parts e = 0 := by
    rw [total]
    apply List.sum_eq_zero
    intro y hy
    obtain ⟨c, hcm, rfl⟩ := List.mem_map.1 hy
    have : (parts c).filter (fun x => x.1 = e) = [] := by
      rw [List.filter_eq_nil_iff]
      intro x hx hxe
      exact he c hcm x hx (of_decide_eq_true hxe)
    rw [this]
    rfl
  rw [this, ite_self]

end

/-! ### An example: two cells in a row with three vertices and one auxiliary equation (3), which is dealt with by the process 0; the process
0 also has a copy of the cell of the process 1, and the processes number their degrees of freedom differently. The residual of the cell
`c` is 1 at its left and 2 at its right vertex. -/

def rowParts (c : Fin 2) : List (Fin 4 × (Fin 1 → ℚ)) := [(c.castLE (by decide), fun _ => 1), ((c.succ).castLE (by decide), fun _ => 2)]

def rowEnts (p : Fin 2) : List (Fin 4) := if p = 0 then [0, 1, 2, 3] else [1, 2]

def rowInner (p : Fin 2) : List (Fin 4) := if p = 0 then [0, 1] else [1, 2]

def rowFace : Interface 2 (Fin 4) where
  peers p := [1 - p]
  sent p q := if p = q then [] else [1]
  index p e := if p = 0 then e else 2 - e

def rowView (p c : Fin 2) : Element (Fin 1 → ℚ) where
  interior := decide (c = p)
  dofs := (rowParts c).map fun x => (rowFace.index p x.1, x.2)

theorem row_spread : Spread [0, 1] rowParts id (fun p => if p = 0 then [0, 1] else [1]) rowView rowFace (fun p => {e | e ∈ rowEnts p})
    fun p => {e | e ∈ rowInner p} where
  nodup := by decide
  heldNodup := by decide
  heldCell := by decide
  owned := by decide
  interior := by decide
  dofs := by
    intro p c _ _
    rfl
  proper :=
    { nodup := by decide
      symm := by decide
      irrefl := by decide
      inj := by
        intro p a ha b hb hab
        have key : ∀ p : Fin 2, ∀ a ∈ rowEnts p, ∀ b ∈ rowEnts p, rowFace.index p a = rowFace.index p b → a = b := by decide
        exact key p a ha b hb hab
      once := by decide
      has := by
        have key : ∀ p q : Fin 2, ∀ e ∈ rowFace.sent p q, q ∈ rowFace.peers p ∧ e ∈ rowEnts p ∧ e ∈ rowEnts q := by decide
        exact key }
  innerHas := by
    have key : ∀ p : Fin 2, ∀ e ∈ rowInner p, e ∈ rowEnts p := by decide
    exact fun p e he => key p e he
  innerParts := by
    intro c _ x hx
    simp only [rowParts, List.mem_cons, List.not_mem_nil, or_false] at hx
    fin_cases c <;> rcases hx with rfl | rfl <;> simp [rowInner]

theorem row_border : Border rowFace fun p => {e | e ∈ rowInner p} := by
  have key : ∀ (p q : Fin 2) (e : Fin 4), e ∈ rowFace.sent p q ↔ p ≠ q ∧ e ∈ rowInner p ∧ e ∈ rowInner q := by decide
  exact key

theorem row_numbered : Numbered rowFace (fun p => {e | e ∈ rowEnts p}) fun p => if p = 0 then 4 else 2 := by
  intro p i
  constructor
  · have key : ∀ p : Fin 2, ∀ i < (if p = 0 then 4 else 2), ∃ e ∈ rowEnts p, rowFace.index p e = i := by decide
    exact key p i
  · have key : ∀ p : Fin 2, ∀ e ∈ rowEnts p, rowFace.index p e < if p = 0 then 4 else 2 := by decide
    rintro ⟨e, he, rfl⟩
    exact key p e he

/-- The vertex in the middle, where the residual is 3, counts twice: the square of the norm is 1 + 9 + 9 + 4. -/
example (s : System (Fin 2) (ℕ → Fin 1 → ℚ) (List (Fin 1 → ℚ)))
    (hr : Reach (residual rowFace (elements (fun p => if p = 0 then [0, 1] else [1]) rowView)) s) (hf : Finished s) :
    norm2 (fun p => if p = 0 then 4 else 2) s.state = 23 := by
  rw [C153_norm row_spread row_border row_numbered hr hf]
  have card : ∀ (e : Fin 4) (d : DecidablePred fun p : Fin 2 => e ∈ {e | e ∈ rowInner p}),
      (@Finset.filter _ (fun p : Fin 2 => e ∈ {e | e ∈ rowInner p}) d Finset.univ).card =
        (Finset.univ.filter fun p : Fin 2 => e ∈ rowInner p).card := by
    intro e d
    congr
  have c0 : (Finset.univ.filter fun p : Fin 2 => (0 : Fin 4) ∈ rowInner p).card = 1 := by decide
  have c1 : (Finset.univ.filter fun p : Fin 2 => (1 : Fin 4) ∈ rowInner p).card = 2 := by decide
  have c2 : (Finset.univ.filter fun p : Fin 2 => (2 : Fin 4) ∈ rowInner p).card = 1 := by decide
  have h0 : (Fin.castLE (by decide) (0 : Fin 2) : Fin 4) = 0 := rfl
  have h1 : (Fin.castLE (by decide) (1 : Fin 2) : Fin 4) = 1 := rfl
  have h2 : (Fin.castLE (by decide) ((0 : Fin 2).succ) : Fin 4) = 1 := rfl
  have h3 : (Fin.castLE (by decide) ((1 : Fin 2).succ) : Fin 4) = 2 := rfl
  rw [Fin.sum_univ_four, card, card, card, card, c0, c1, c2]
  simp [entryNorm2, total, rowParts, List.filter_cons, h0, h1, h2, h3]
  norm_num

/-! ### An example for cells: two processes with one cell each and a copy of the other -/

def pairFace : Interface 2 (Fin 2) where
  peers p := [1 - p]
  sent p q := if p = q then [] else [p]
  index p e := if p = 0 then e else 1 - e

def pairView (init : Fin 2 → ℚ) (p c : Fin 2) : Element ℚ where
  interior := decide (c = p)
  dofs := [(pairFace.index p c, init c)]

theorem pair_spread (init : Fin 2 → ℚ) : Spread [0, 1] (fun c => [(c, init c)]) id (fun p => [p, 1 - p]) (pairView init) pairFace
    (fun p => {c | c ∈ [p, 1 - p]}) fun p => {p} where
  nodup := by decide
  heldNodup := by decide
  heldCell := by decide
  owned := by decide
  interior := by
    intro p c _
    simp [pairView]
  dofs := by
    intro p c _ _
    rfl
  proper :=
    { nodup := by decide
      symm := by decide
      irrefl := by decide
      inj := by
        intro p a ha b hb hab
        have key : ∀ p a b : Fin 2, pairFace.index p a = pairFace.index p b → a = b := by decide
        exact key p a b hab
      once := by decide
      has := by
        have key : ∀ p q : Fin 2, ∀ e ∈ pairFace.sent p q, q ∈ pairFace.peers p ∧ e ∈ [p, 1 - p] ∧ e ∈ [q, 1 - q] := by decide
        exact key }
  innerHas := by
    intro p e he
    rw [Set.mem_singleton_iff] at he
    subst he
    simp
  innerParts := by
    intro c _ x hx
    simp only [List.mem_singleton] at hx
    subst hx
    simp

example (init : Fin 2 → ℚ) (s : System (Fin 2) (ℕ → ℚ) (List ℚ))
    (hr : Reach (initialCells pairFace (elements (fun p => [p, 1 - p]) (pairView init))) s) (hf : Finished s) :
    s.state 1 1 = init 0 := by
  have ho : FromOwner pairFace (fun p => {c | c ∈ [p, 1 - p]}) id := by
    constructor
    · have key : ∀ p : Fin 2, ∀ e ∈ [p, 1 - p], e ∈ [e, 1 - e] := by decide
      exact key
    · have key : ∀ p q e : Fin 2, e ∈ pairFace.sent p q ↔ p = e ∧ q ≠ p ∧ e ∈ [q, 1 - q] := by decide
      exact key
  exact (C153_initial_cells init (pair_spread init) ho hr).1 hf 1 0 (by decide) 2 (fun _ => s.state 1) 0 (by decide)

end Verif.Initial
