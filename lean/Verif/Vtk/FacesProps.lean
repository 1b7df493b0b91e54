import Verif.Vtk.FacesModel
import Verif.Vtk.FieldsProps
import Mathlib.Data.List.Perm.Basic
import Mathlib.Tactic.IntervalCases

set_option autoImplicit false
set_option linter.unusedSectionVars false

/-
**C180** Velocities and gradients in visualisation files: what they depend on.
-/
namespace Verif.Vtk.Faces

open Verif.Vtk.Fields

variable {K : Type} [Field K] [LinearOrder K] [IsStrictOrderedRing K]

/-- The face is one of those of the degree of freedom. -/
def Meets (I : ℕ) (f : Face K) : Prop := f.interior = I ∨ f.exterior = I

instance (I : ℕ) (f : Face K) : Decidable (Meets I f) := inferInstanceAs (Decidable (_ ∨ _))

theorem touching_filter (faces : List (Face K)) (I : ℕ) : touching (faces.filter fun f => Meets I f) I = touching faces I := by
  induction faces with
  | nil => rfl
  | cons f l ih =>
    by_cases h : Meets I f
    · rw [List.filter_cons_of_pos (by simpa using h)]
      simp only [touching, List.flatMap_cons] at ih ⊢
      rw [ih]
    · rw [List.filter_cons_of_neg (by simpa using h), ih]
      unfold Meets at h
      push Not at h
      simp [touching, h.1, h.2]

theorem velocity_eq (faces : List (Face K)) (I : ℕ) : velocity faces I =
    quotient ((touching faces I).map fun f => f.component * weight f).sum ((touching faces I).map weight).sum := by
  obtain ⟨e1, e2⟩ := velocity_sums faces (zeros, zeros) I
  simp only [zeros, zero_add] at e1 e2
  simp only [velocity]
  rw [e1, e2]

/-- **C180** The velocity which is shown for a degree of freedom depends on its own faces only, and not on the order in which the elements
are visited. -/
theorem C180_order (faces faces' : List (Face K)) (I : ℕ)
    (h : (faces.filter fun f => Meets I f).Perm (faces'.filter fun f => Meets I f)) : velocity faces I = velocity faces' I := by
  have hp : (touching faces I).Perm (touching faces' I) := by
    rw [← touching_filter faces, ← touching_filter faces']
    exact h.flatMap_right _
  rw [velocity_eq, velocity_eq, (hp.map _).sum_eq, (hp.map weight).sum_eq]

/-- Three cells in a row, in two orders -/
example : (row.filter fun f => Meets 1 f).Perm (row.reverse.filter fun f => Meets 1 f) ∧ velocity row.reverse 1 = some (45 / 13) :=
  ⟨(List.reverse_perm row).symm.filter _, by decide +kernel⟩

/-! ### Several processes -/

/-- **C180** (partial) On several processes, each of which looks at the faces of its own cells, an own cell has the velocity which it has
in a run on one process, if all neighbours belong to the process, too.  Missing for the full property: cells at the border
(`C180_distribution_violated`). -/
theorem C180_distribution_partial (own : ℕ → Bool) (faces : List (Face K)) (I : ℕ)
    (h : ∀ f ∈ faces, Meets I f → own f.interior = true) : velocity (processed own faces) I = velocity faces I := by
  refine C180_order _ _ _ ?_
  unfold processed
  rw [List.filter_filter]
  refine List.Perm.of_eq (List.filter_congr fun f hf => ?_)
  by_cases hm : Meets I f
  · simp [hm, h f hf hm]
  · simp [hm]

example : (∀ f ∈ row, Meets 0 f → (decide (f.interior < 2)) = true) ∧ velocity (processed (fun I => decide (I < 2)) row) 0 = some 3 := by
  constructor <;> decide +kernel

/-- **C180** (violated) The velocities of own cells at the border to another process differ from those of a run on one process: faces
within the process are counted from both sides, faces at the border from one side only. -/
theorem C180_distribution_violated : ∃ (faces : List (Face ℚ)) (own : ℕ → Bool) (I : ℕ), own I = true ∧
    -- each face is seen from both sides, with the same velocity
    (∀ f ∈ faces, ∃ g ∈ faces, g.interior = f.exterior ∧ g.exterior = f.interior ∧ g.flux = -f.flux ∧ g.component = f.component ∧
      g.norm = f.norm ∧ g.extrusion = f.extrusion) ∧
    (∃ v, velocity faces I = some v) ∧ velocity (processed own faces) I ≠ velocity faces I := by
  refine ⟨row, fun I => decide (I < 2), 1, by decide, ?_, ⟨_, show velocity row 1 = some (45 / 13) by decide +kernel⟩, by decide +kernel⟩
  decide +kernel

/-- **C180** The gradients of own cells are the same for every distribution of the cells. -/
theorem C180_gradient (own : ℕ → Bool) (faces : List (Face K)) (I : ℕ) (h : own I = true) :
    gradient (processed own faces) I = gradient faces I := by
  obtain ⟨e1, e2⟩ := gradient_sums faces (zeros, zeros) I
  obtain ⟨e3, e4⟩ := gradient_sums (processed own faces) (zeros, zeros) I
  have e : (processed own faces).filter (fun f => f.interior = I) = faces.filter fun f => f.interior = I := by
    unfold processed
    rw [List.filter_filter]
    refine List.filter_congr fun f _ => ?_
    by_cases hf : f.interior = I
    · simp [hf, h]
    · simp [hf]
  rw [e] at e3 e4
  simp only [gradient]
  rw [e1, e2, e3, e4]

example : gradient (processed (fun I => decide (I < 2)) row) 1 = some 4 := by decide +kernel

/-! ### Several threads -/

/-- The steps `l` are an interleaving of the steps of threads with these faces to visit. -/
def Interleaves (n : ℕ) (work : ℕ → List (Face K)) (l : List (Access K)) : Prop :=
  (∀ a ∈ l, a.thread < n) ∧ ∀ t < n, l.filter (fun a => a.thread = t) = program t (work t)

/-- What is still to be added by the thread: the rest of its program, possibly after it has loaded an entry. -/
inductive Rest (t : ℕ) (reg : K) (now : K) (x : Loc) : List (Access K) → K → Prop where
  | between (as : List (Loc × K)) : Rest t reg now x (as.flatMap fun a => [.load t a.1, .store t a.1 a.2])
      (as.map fun a => if a.1 = x then a.2 else 0).sum
  | loaded (l : Loc) (y : K) (as : List (Loc × K)) (h : l = x → reg = now) :
      Rest t reg now x (.store t l y :: as.flatMap fun a => [.load t a.1, .store t a.1 a.2])
        ((if l = x then y else 0) + (as.map fun a => if a.1 = x then a.2 else 0).sum)

theorem Rest.other {t : ℕ} {reg now : K} {x : Loc} {l : List (Access K)} {r : K} (h : Rest t reg now x l r) {reg' now' : K}
    (h1 : reg' = reg) (h2 : now' = now) : Rest t reg' now' x l r := by rw [h1, h2]; exact h

theorem run_loc (t : ℕ) (x : Loc) (l : List (Access K)) : ∀ (s : (Loc → K) × (ℕ → K)) (r : K),
    (∀ a ∈ l, a.thread ≠ t → ∀ y, a ≠ .store a.thread x y) → Rest t (s.2 t) (s.1 x) x (l.filter fun a => a.thread = t) r →
    (l.foldl access s).1 x = s.1 x + r := by
  induction l with
  | nil =>
    intro s r _ h
    cases h' : (([] : List (Access K)).filter fun a => a.thread = t) with
    | cons a b => simp at h'
    | nil =>
      rw [h'] at h
      generalize hl : ([] : List (Access K)) = l at h
      cases h with
      | between as =>
        cases as with
        | nil => simp
        | cons a as => simp at hl
      | loaded l y as h => simp at hl
  | cons a l ih =>
    intro s r ho h
    rw [List.foldl_cons]
    have ho' := fun b hb => ho b (List.mem_cons_of_mem _ hb)
    by_cases ht : a.thread = t
    · rw [List.filter_cons_of_pos (by simpa using ht)] at h
      generalize hp : a :: l.filter (fun a => decide (a.thread = t)) = p at h
      cases h with
      | between as =>
        cases as with
        | nil => simp at hp
        | cons b as =>
          simp only [List.flatMap_cons, List.cons_append, List.nil_append, List.cons.injEq] at hp
          obtain ⟨rfl, hp⟩ := hp
          rw [ih (access s (.load t b.1)) ((if b.1 = x then b.2 else 0) + (as.map fun a => if a.1 = x then a.2 else 0).sum) ho' (by
            rw [hp]
            refine .loaded b.1 b.2 as fun e => ?_
            simp [access, e])]
          simp [access]
      | loaded q y as hq =>
        simp only [List.cons.injEq] at hp
        obtain ⟨rfl, hp⟩ := hp
        rw [ih (access s (.store t q y)) _ ho' (by rw [hp]; exact .between as)]
        simp only [access]
        by_cases e : q = x
        · subst e
          rw [Function.update_self, if_pos rfl, hq rfl]
          ring
        · rw [Function.update_of_ne (Ne.symm e), if_neg e, zero_add]
    · rw [List.filter_cons_of_neg (by simpa using ht)] at h
      have e1 : (access s a).1 x = s.1 x := by
        cases a with
        | load t' q => rfl
        | store t' q y =>
          have hq : q ≠ x := by
            rintro rfl
            exact ho _ List.mem_cons_self ht y rfl
          simp only [access]
          rw [Function.update_of_ne (Ne.symm hq)]
      have e2 : (access s a).2 t = s.2 t := by
        cases a with
        | load t' q =>
          have : t ≠ t' := fun e => ht e.symm
          simp only [access]
          rw [Function.update_of_ne this]
        | store t' q y => rfl
      rw [ih (access s a) r ho' (h.other e2 e1), e1]

theorem adds_sum (faces : List (Face K)) (I : ℕ) :
    ((faces.flatMap adds).map fun a => if a.1 = (false, I) then a.2 else 0).sum = ((touching faces I).map fun f => f.component * weight f).sum ∧
    ((faces.flatMap adds).map fun a => if a.1 = (true, I) then a.2 else 0).sum = ((touching faces I).map weight).sum := by
  induction faces with
  | nil => simp [touching]
  | cons f l ih =>
    obtain ⟨h1, h2⟩ := ih
    simp only [touching] at h1 h2
    simp only [touching, List.flatMap_cons, List.map_append, List.sum_append, h1, h2]
    constructor <;> congr 1 <;> by_cases hi : f.interior = I <;> by_cases he : f.exterior = I <;> simp [adds, hi, he]

open Classical in
/-- **C180** (partial) However the steps of several threads are interleaved: a degree of freedom all of whose faces are visited by the same
thread has the velocity which one thread alone would compute.  Missing for the full property: other degrees of freedom
(`C180_threads_violated`). -/
theorem C180_threads_partial (n : ℕ) (work : ℕ → List (Face K)) (l : List (Access K)) (h : Interleaves n work l) (t : ℕ) (ht : t < n)
    (I : ℕ) (hI : ∀ t' < n, t' ≠ t → ∀ f ∈ work t', ¬ Meets I f) :
    shown l I = velocity ((List.range n).flatMap work) I := by
  have hother : ∀ (b : Bool), ∀ a ∈ l, a.thread ≠ t → ∀ y, a ≠ .store a.thread (b, I) y := by
    intro b a ha hat y e
    have hlt := h.1 a ha
    have hmem : a ∈ program a.thread (work a.thread) := by
      rw [← h.2 a.thread hlt]
      exact List.mem_filter.2 ⟨ha, by simp⟩
    rw [e] at hmem
    simp only [program, List.mem_flatMap, List.mem_cons, List.not_mem_nil, or_false, reduceCtorEq, false_or] at hmem
    obtain ⟨c, ⟨f, hf, hc⟩, he⟩ := hmem
    have hn := hI a.thread hlt hat f hf
    injection he with e1 e2 e3
    unfold Meets at hn
    push Not at hn
    simp only [adds, List.mem_cons, List.not_mem_nil, or_false] at hc
    rcases hc with rfl | rfl | rfl | rfl <;> simp only [Prod.mk.injEq] at e2
    · exact hn.1 e2.2.symm
    · exact hn.2 e2.2.symm
    · exact hn.1 e2.2.symm
    · exact hn.2 e2.2.symm
  have hrun : ∀ b : Bool, (l.foldl access (fun _ => 0, fun _ => 0)).1 (b, I) =
      (((work t).flatMap adds).map fun a => if a.1 = (b, I) then a.2 else 0).sum := by
    intro b
    rw [run_loc t (b, I) l (fun _ => 0, fun _ => 0) _ (hother b) (by rw [h.2 t ht]; exact .between _), zero_add]
  have e : velocity ((List.range n).flatMap work) I = velocity (work t) I := by
    refine C180_order _ _ _ (List.Perm.of_eq ?_)
    rw [List.filter_flatMap]
    have hz : ∀ t' < n, t' ≠ t → (work t').filter (fun f => Meets I f) = [] := fun t' h1 h2 =>
      List.filter_eq_nil_iff.2 fun f hf => by simpa using hI t' h1 h2 f hf
    have : ∀ m ≤ n, (List.range m).flatMap (fun t' => (work t').filter fun f => Meets I f) =
        if t < m then (work t).filter fun f => Meets I f else [] := by
      intro m
      induction m with
      | zero => intro _; simp
      | succ m ih =>
        intro hm
        rw [List.range_succ, List.flatMap_append, ih (by omega)]
        simp only [List.flatMap_cons, List.flatMap_nil, List.append_nil]
        by_cases hmt : m = t
        · subst hmt; simp
        · rw [hz m (by omega) hmt, List.append_nil]
          by_cases hlt : t < m
          · rw [if_pos hlt, if_pos (by omega)]
          · rw [if_neg hlt, if_neg (by omega)]
    rw [this n le_rfl, if_pos ht]
  rw [e, velocity_eq]
  simp only [shown]
  rw [hrun, hrun, (adds_sum _ _).1, (adds_sum _ _).2]

/-- **C180** (violated) Two cells, the face between them is visited by one thread from each side, and both see the same velocity: there is
an interleaving after which another velocity is shown. -/
theorem C180_threads_violated : ∃ (work : ℕ → List (Face ℚ)) (l : List (Access ℚ)), Interleaves 2 work l ∧
    (∀ t < 2, ∀ f ∈ work t, f.component = 1) ∧ velocity ((List.range 2).flatMap work) 0 = some 1 ∧ shown l 0 = some (1 / 2) := by
  refine ⟨fun t => if t = 0 then [⟨0, 1, 1, 1, 1, 1⟩] else [⟨1, 0, -1, 1, 1, 1⟩],
    [.load 0 (false, 0), .load 1 (false, 1), .store 1 (false, 1) 1, .load 1 (false, 0), .store 0 (false, 0) 1, .store 1 (false, 0) 1,
      .load 0 (false, 1), .store 0 (false, 1) 1, .load 0 (true, 0), .store 0 (true, 0) 1, .load 0 (true, 1), .store 0 (true, 1) 1,
      .load 1 (true, 1), .store 1 (true, 1) 1, .load 1 (true, 0), .store 1 (true, 0) 1], ⟨?_, ?_⟩, ?_, ?_, ?_⟩
  · simp [Access.thread]
  · intro t ht
    interval_cases t <;> simp [Access.thread, program, adds, weight] <;> norm_num
  · intro t ht
    interval_cases t <;> simp
  · decide +kernel
  · decide +kernel

/-- Two threads, each of which visits a pair of cells of its own -/
example : ∃ l : List (Access ℚ), Interleaves 2 (fun t => [(⟨2 * t, 2 * t + 1, 1, 1, t + 2, t + 2⟩ : Face ℚ)]) l ∧ shown l 3 = some 3 := by
  have hI : Interleaves 2 (fun t => [(⟨2 * t, 2 * t + 1, 1, 1, t + 2, t + 2⟩ : Face ℚ)])
      (program 1 [(⟨2, 3, 1, 1, 1 + 2, 1 + 2⟩ : Face ℚ)] ++ program 0 [⟨0, 1, 1, 1, 0 + 2, 0 + 2⟩]) := by
    refine ⟨by simp [program, adds, Access.thread], fun t ht => ?_⟩
    interval_cases t <;> simp [program, adds, Access.thread]
  refine ⟨_, hI, ?_⟩
  rw [C180_threads_partial 2 _ _ hI 1 (by norm_num) 3 (by
    intro t' h1 h2 f hf
    interval_cases t'
    · simp only [List.mem_singleton] at hf
      subst hf
      simp [Meets]
    · exact absurd rfl h2)]
  decide +kernel

/-! ### Fractures -/

theorem fracture_sums (isFracture : ℕ → ℕ → Bool) (faces : List (Face K)) (s : (ℕ → K) × (ℕ → K)) (I : ℕ) :
    (faces.foldl (addFracture isFracture) s).1 I = s.1 I +
      ((touching (faces.filter fun f => isFracture f.interior f.exterior) I).map fun f => f.component * fractureWeight f).sum ∧
    (faces.foldl (addFracture isFracture) s).2 I = s.2 I +
      ((touching (faces.filter fun f => isFracture f.interior f.exterior) I).map fractureWeight).sum := by
  induction faces generalizing s with
  | nil => simp [touching]
  | cons f l ih =>
    rw [List.foldl_cons]
    obtain ⟨h1, h2⟩ := ih (addFracture isFracture s f)
    rw [h1, h2]
    by_cases hf : isFracture f.interior f.exterior = true
    · rw [List.filter_cons_of_pos (by simpa using hf)]
      simp only [addFracture, hf, if_true, bump_apply, touching, List.flatMap_cons, List.map_append, List.sum_append]
      constructor <;> (split_ifs <;> simp <;> ring)
    · rw [List.filter_cons_of_neg (by simpa using hf)]
      simp only [addFracture, hf, Bool.false_eq_true, if_false, and_self]

theorem touching_nil (faces : List (Face K)) (I : ℕ) : touching faces I = [] ↔ ∀ f ∈ faces, ¬ Meets I f := by
  simp only [touching, List.flatMap_eq_nil_iff, List.append_eq_nil_iff, Meets, not_or]
  refine forall₂_congr fun f _ => and_congr ?_ ?_ <;> split_ifs with h <;> simp [h]

/-- **C180** Degrees of freedom without fractures have zero velocity in fractures. -/
theorem C180_no_fracture (isFracture : ℕ → ℕ → Bool) (faces : List (Face K)) (I : ℕ)
    (h : ∀ f ∈ faces, Meets I f → isFracture f.interior f.exterior = false) : fractureVelocity isFracture faces I = 0 := by
  obtain ⟨e1, e2⟩ := fracture_sums isFracture faces (zeros, zeros) I
  have : touching (faces.filter fun f => isFracture f.interior f.exterior) I = [] := by
    rw [touching_nil]
    intro f hf hm
    have := h f (List.mem_filter.1 hf).1 hm
    simp [this] at hf
  simp only [fractureVelocity]
  rw [e1, this]
  simp [zeros]

/-- **C180** (partial) The velocity in fractures which is shown lies between those at the faces with fractures, if there are any and the
extrusion factor is not smaller than `1e-4`.  Missing for the full property: smaller extrusion factors (`C180_fracture_violated`). -/
theorem C180_fracture_partial (isFracture : ℕ → ℕ → Bool) (faces : List (Face K)) (I : ℕ) (hx : ∀ f ∈ faces, 1 / 10000 ≤ f.extrusion)
    (hI : ∃ f ∈ faces, Meets I f ∧ isFracture f.interior f.exterior = true) (lo hi : K)
    (hb : ∀ f ∈ faces, Meets I f → isFracture f.interior f.exterior = true → lo ≤ f.component ∧ f.component ≤ hi) :
    lo ≤ fractureVelocity isFracture faces I ∧ fractureVelocity isFracture faces I ≤ hi := by
  obtain ⟨e1, e2⟩ := fracture_sums isFracture faces (zeros, zeros) I
  set l := touching (faces.filter fun f => isFracture f.interior f.exterior) I with hl
  have hm : ∀ f ∈ l, f ∈ faces ∧ isFracture f.interior f.exterior = true ∧ Meets I f := by
    intro f hf
    rw [hl] at hf
    simp only [touching, List.mem_flatMap, List.mem_append] at hf
    obtain ⟨g, hg, h⟩ := hf
    obtain ⟨hg1, hg2⟩ := List.mem_filter.1 hg
    rcases h with h | h <;> split_ifs at h with h0 <;> simp only [List.mem_singleton, List.not_mem_nil] at h
    · subst h; exact ⟨hg1, hg2, Or.inl h0⟩
    · subst h; exact ⟨hg1, hg2, Or.inr h0⟩
  have hbig : ∀ f ∈ faces, 1 / 100000000000000000000 ≤ fractureWeight f := by
    intro f hf
    have h1 : (1 / 10000000000000000 : K) ≤ max (1 / 10000000000000000) |f.flux| := le_max_left _ _
    calc (1 / 100000000000000000000 : K) = 1 / 10000000000000000 * (1 / 10000) := by norm_num
      _ ≤ _ := mul_le_mul h1 (hx f hf) (by positivity) (le_trans (by positivity) h1)
  have hne : l ≠ [] := by
    rw [hl, Ne, touching_nil]
    obtain ⟨f, h1, h2, h3⟩ := hI
    exact fun h => h f (List.mem_filter.2 ⟨h1, by simpa using h3⟩) h2
  obtain ⟨h1, h2, h3⟩ := average_between l fractureWeight (fun f hf => lt_of_lt_of_le (by positivity) (hbig f (hm f hf).1)) hne lo hi
    fun f hf => hb f (hm f hf).1 (hm f hf).2.2 (hm f hf).2.1
  have hmax : max (1 / 100000000000000000000) (l.map fractureWeight).sum = (l.map fractureWeight).sum := by
    refine max_eq_right ?_
    obtain ⟨f, r, hr⟩ := List.exists_cons_of_ne_nil hne
    rw [hr] at hm ⊢
    simp only [List.map_cons, List.sum_cons]
    have hrest : 0 ≤ (r.map fractureWeight).sum := by
      refine List.sum_nonneg fun x hx => ?_
      obtain ⟨g, hg, rfl⟩ := List.mem_map.1 hx
      exact le_trans (by positivity) (hbig g (hm g (List.mem_cons_of_mem _ hg)).1)
    have := hbig f (hm f List.mem_cons_self).1
    linarith
  simp only [fractureVelocity]
  rw [e1, e2]
  simp only [zeros, zero_add]
  rw [hmax]
  exact ⟨by rwa [le_div_iff₀ h1], by rwa [div_le_iff₀ h1]⟩

/-- **C180** (violated) If almost nothing flows and the extrusion factor is small, a fraction of the velocity is shown. -/
theorem C180_fracture_violated : ∃ faces : List (Face ℚ), (∀ f ∈ faces, 0 < f.extrusion ∧ f.component = 1) ∧
    fractureVelocity (fun _ _ => true) faces 0 = 1 / 10 :=
  ⟨[⟨0, 1, 0, 1 / 100000, 1, 1⟩], by decide +kernel, by decide +kernel⟩

/-- A fracture between the cells 0 and 1 of a row of three cells -/
example : fractureVelocity (fun I J => decide (I + J = 1)) row 0 = 3 ∧ fractureVelocity (fun I J => decide (I + J = 1)) row 2 = 0 := by
  constructor <;> decide +kernel

end Verif.Vtk.Faces
