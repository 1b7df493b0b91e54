import Verif.Vtk.Fields
import Mathlib.Algebra.Order.BigOperators.Group.List
import Mathlib.Algebra.BigOperators.Field
import Mathlib.Algebra.BigOperators.Fin
import Mathlib.Algebra.Order.Ring.Rat
import Mathlib.Tactic.Linarith
import Mathlib.Tactic.Ring
import Mathlib.Tactic.FieldSimp
import Mathlib.Tactic.Positivity
import Mathlib.Tactic.NormNum

set_option autoImplicit false
set_option linter.unusedSimpArgs false
set_option linter.unusedSectionVars false

/-
**C134** The fields in visualisation files are those of the state which is shown.
-/
namespace Verif.Vtk.Fields

variable {K : Type} [Field K] [LinearOrder K] [IsStrictOrderedRing K]

/-- **C134** Whatever the order in which the threads visit the elements, and however often a degree of freedom is met, its value is in
the buffer afterwards; degrees of freedom of no visited element have zero. -/
theorem C134_values (value : ℕ → K) (order : List ℕ) (I : ℕ) : assign value order I = if I ∈ order then value I else 0 := by
  have : ∀ (l : List ℕ) (b : ℕ → K), l.foldl (fun b I => Function.update b I (value I)) b I = if I ∈ l then value I else b I := by
    intro l
    induction l with
    | nil => intro b; simp
    | cons J l ih =>
      intro b
      rw [List.foldl_cons, ih]
      by_cases h : I ∈ l
      · simp [h]
      · by_cases hJ : I = J
        · subst hJ; simp [h]
        · simp [h, hJ]
  exact this order zeros

example : assign (fun I => (I : ℚ) + 1) [2, 0, 2] 2 = 3 ∧ assign (fun I => (I : ℚ) + 1) [2, 0, 2] 1 = 0 := by
  simp [C134_values]; norm_num

/-- The faces of a degree of freedom, once for each side on which it is. -/
def touching (faces : List (Face K)) (I : ℕ) : List (Face K) :=
  faces.flatMap fun f => (if f.interior = I then [f] else []) ++ (if f.exterior = I then [f] else [])

theorem bump_apply (b : ℕ → K) (I J : ℕ) (x : K) : bump b I x J = b J + if I = J then x else 0 := by
  unfold bump
  by_cases h : I = J
  · subst h; simp
  · simp [h, Function.update_of_ne (Ne.symm h)]

theorem velocity_sums (faces : List (Face K)) (s : (ℕ → K) × (ℕ → K)) (I : ℕ) :
    (faces.foldl addVelocity s).1 I = s.1 I + ((touching faces I).map fun f => f.component * weight f).sum ∧
    (faces.foldl addVelocity s).2 I = s.2 I + ((touching faces I).map weight).sum := by
  induction faces generalizing s with
  | nil => simp [touching]
  | cons f l ih =>
    rw [List.foldl_cons]
    obtain ⟨h1, h2⟩ := ih (addVelocity s f)
    rw [h1, h2]
    simp only [addVelocity, bump_apply, touching, List.flatMap_cons, List.map_append, List.sum_append]
    constructor <;> (split_ifs <;> simp <;> ring)

theorem weight_pos (f : Face K) (h : 0 < f.extrusion) : 0 < weight f := by
  have hw : 0 < max (1 / 10000000000000000) |f.flux| * f.extrusion :=
    mul_pos (lt_of_lt_of_le (by positivity) (le_max_left _ _)) h
  unfold weight
  simp only []
  split_ifs with hn
  · exact div_pos hw (lt_trans (by positivity) hn)
  · exact hw

theorem average_between (l : List (Face K)) (w : Face K → K) (hw : ∀ f ∈ l, 0 < w f) (hl : l ≠ []) (lo hi : K)
    (hb : ∀ f ∈ l, lo ≤ f.component ∧ f.component ≤ hi) :
    0 < (l.map w).sum ∧ lo * (l.map w).sum ≤ (l.map fun f => f.component * w f).sum ∧
      (l.map fun f => f.component * w f).sum ≤ hi * (l.map w).sum := by
  induction l with
  | nil => exact absurd rfl hl
  | cons f l ih =>
    have hf := hw f (by simp)
    obtain ⟨b1, b2⟩ := hb f (by simp)
    have c1 := mul_le_mul_of_nonneg_right b1 hf.le
    have c2 := mul_le_mul_of_nonneg_right b2 hf.le
    simp only [List.map_cons, List.sum_cons]
    by_cases hl' : l = []
    · subst hl'; simp [hf, c1, c2]
    · obtain ⟨h1, h2, h3⟩ := ih (fun g hg => hw g (by simp [hg])) hl' (fun g hg => hb g (by simp [hg]))
      refine ⟨by linarith, by linarith, by linarith⟩

/-- **C134** (one thread) The velocity which is shown for a degree of freedom with at least one face lies between those at its
faces, for every component; in particular, a uniform flow is shown as it is.  It does not matter to which side a face is attributed. -/
theorem C134_velocity (faces : List (Face K)) (hx : ∀ f ∈ faces, 0 < f.extrusion) (I : ℕ) (hI : touching faces I ≠ []) (lo hi : K)
    (hb : ∀ f ∈ faces, f.interior = I ∨ f.exterior = I → lo ≤ f.component ∧ f.component ≤ hi) :
    ∃ v, velocity faces I = some v ∧ lo ≤ v ∧ v ≤ hi := by
  have hm : ∀ f ∈ touching faces I, f ∈ faces ∧ (f.interior = I ∨ f.exterior = I) := by
    intro f hf
    simp only [touching, List.mem_flatMap, List.mem_append] at hf
    obtain ⟨g, hg, h | h⟩ := hf
    · split_ifs at h with h0
      · simp only [List.mem_singleton] at h; subst h; exact ⟨hg, Or.inl h0⟩
      · simp at h
    · split_ifs at h with h0
      · simp only [List.mem_singleton] at h; subst h; exact ⟨hg, Or.inr h0⟩
      · simp at h
  obtain ⟨h1, h2, h3⟩ := average_between (touching faces I) weight (fun f hf => weight_pos f (hx f (hm f hf).1)) hI lo hi
    (fun f hf => hb f (hm f hf).1 (hm f hf).2)
  obtain ⟨e1, e2⟩ := velocity_sums faces (zeros, zeros) I
  simp only [zeros, zero_add] at e1 e2
  refine ⟨((touching faces I).map fun f => f.component * weight f).sum / ((touching faces I).map weight).sum, ?_, ?_, ?_⟩
  · simp only [velocity, quotient]
    rw [e1, e2, if_neg h1.ne']
  · rwa [le_div_iff₀ h1]
  · rwa [div_le_iff₀ h1]

/-- Three cells in a row. -/
def row : List (Face ℚ) := [⟨0, 1, 2, 1, 3, 3⟩, ⟨1, 0, -2, 1, 3, 3⟩, ⟨1, 2, 1, 1, 5, 5⟩, ⟨2, 1, -1, 1, 5, 5⟩]

example : touching row 1 ≠ [] ∧ velocity row 1 = some (45 / 13) ∧ velocity row 0 = some 3 := by decide +kernel

/-- **C134** (violated) A degree of freedom without faces has no velocity: zero is divided by zero. -/
theorem C134_velocity_violated (faces : List (Face K)) (I : ℕ) (hI : touching faces I = []) : velocity faces I = none := by
  obtain ⟨e1, e2⟩ := velocity_sums faces (zeros, zeros) I
  simp only [zeros, zero_add, hI, List.map_nil, List.sum_nil] at e1 e2
  simp only [velocity, quotient]
  rw [e2, if_pos rfl]

theorem gradient_sums (faces : List (Face K)) (s : (ℕ → K) × (ℕ → K)) (I : ℕ) :
    (faces.foldl addGradient s).1 I = s.1 I + ((faces.filter fun f => f.interior = I).map fun f => f.component * f.extrusion).sum ∧
    (faces.foldl addGradient s).2 I = s.2 I + ((faces.filter fun f => f.interior = I).map fun f => f.extrusion).sum := by
  induction faces generalizing s with
  | nil => simp
  | cons f l ih =>
    rw [List.foldl_cons]
    obtain ⟨h1, h2⟩ := ih (addGradient s f)
    rw [h1, h2]
    simp only [addGradient, bump_apply]
    by_cases h : f.interior = I
    · simp [h]; constructor <;> ring
    · simp [h]

/-- **C134** The gradient which is shown lies between those at the faces of which the degree of freedom is the interior one, if there
are any (always for cells with neighbours: each face is visited from both sides), … -/
theorem C134_gradient_partial (faces : List (Face K)) (hx : ∀ f ∈ faces, 0 < f.extrusion) (I : ℕ) (hI : ∃ f ∈ faces, f.interior = I) (lo hi : K)
    (hb : ∀ f ∈ faces, f.interior = I → lo ≤ f.component ∧ f.component ≤ hi) :
    ∃ v, gradient faces I = some v ∧ lo ≤ v ∧ v ≤ hi := by
  obtain ⟨f0, hf0, hi0⟩ := hI
  obtain ⟨h1, h2, h3⟩ := average_between (faces.filter fun f => f.interior = I) (fun f => f.extrusion)
    (fun f hf => hx f (List.mem_filter.1 hf).1) (List.ne_nil_of_mem (List.mem_filter.2 ⟨hf0, by simpa using hi0⟩)) lo hi
    (fun f hf => hb f (List.mem_filter.1 hf).1 (by simpa using (List.mem_filter.1 hf).2))
  obtain ⟨e1, e2⟩ := gradient_sums faces (zeros, zeros) I
  simp only [zeros, zero_add] at e1 e2
  refine ⟨((faces.filter fun f => f.interior = I).map fun f => f.component * f.extrusion).sum /
    ((faces.filter fun f => f.interior = I).map fun f => f.extrusion).sum, ?_, ?_, ?_⟩
  · simp only [gradient, quotient]
    rw [e1, e2, if_neg h1.ne']
  · rwa [le_div_iff₀ h1]
  · rwa [div_le_iff₀ h1]

/-- **C134** (violated) … but a vertex of a vertex-centred grid which is always the exterior one has none, as the right end of a line of
elements. -/
theorem C134_gradient_violated (faces : List (Face K)) (I : ℕ) (hI : ∀ f ∈ faces, f.interior ≠ I) : gradient faces I = none := by
  obtain ⟨e1, e2⟩ := gradient_sums faces (zeros, zeros) I
  have : (faces.filter fun f => f.interior = I) = [] := List.filter_eq_nil_iff.2 (fun f hf => by simpa using hI f hf)
  simp only [zeros, zero_add, this, List.map_nil, List.sum_nil] at e1 e2
  simp only [gradient, quotient]
  rw [e2, if_pos rfl]

/-- A line of two elements with three vertices: the faces are between neighbouring vertices. -/
example : gradient [⟨0, 1, 1, 1, 3, 3⟩, ⟨1, 2, 1, 1, 3, 3⟩] 1 = some (3 : ℚ) ∧
    gradient [⟨0, 1, 1, 1, 3, 3⟩, ⟨1, 2, 1, 1, 3, 3⟩] 2 = (none : Option ℚ) := by decide +kernel

/-- **C134** (violated) With several threads, a face of one element and a face of another may be added to the same degree of freedom
at the same time, and one of them is lost. -/
theorem C134_threads_violated : ∃ l : List (Access ℚ),
    -- each thread does its own steps in the right order
    l = [.load 0 1, .load 1 1, .store 0 1 3, .store 1 1 5] ∧
    (l.foldl access (zeros, zeros)).1 1 = 5 ∧
    ([.load 0 1, .store 0 1 3, .load 1 1, .store 1 1 5].foldl access ((zeros, zeros) : (ℕ → ℚ) × (ℕ → ℚ))).1 1 = 8 :=
  ⟨_, rfl, by decide +kernel, by decide +kernel⟩

/-- **C134** (violated) The volume of the fractures is counted once for each phase: with two phases, the fraction of the volume is
twice the right one. -/
theorem C134_fracture_violated (n : ℕ) (volumes : List K) (total : K) : fractureFraction n volumes total = n * (volumes.sum / total) := by
  have inner : ∀ (m : ℕ) (s v : K), (List.range m).foldl (fun s _ => s + v) s = s + m * v := by
    intro m
    induction m with
    | zero => intro s v; simp
    | succ m ih => intro s v; rw [List.range_succ, List.foldl_append, ih]; simp; ring
  have outer : ∀ (l : List K) (s : K), l.foldl (fun s v => (List.range n).foldl (fun s _ => s + v) s) s = s + n * l.sum := by
    intro l
    induction l with
    | nil => intro s; simp
    | cons v l ih => intro s; rw [List.foldl_cons, inner, ih]; simp; ring
  unfold fractureFraction
  rw [outer, zero_add, mul_div_assoc]

/-- A finite volume which consists of fractures to three quarters. -/
example : fractureFraction 2 [1/2, 1/4] (1 : ℚ) = 3/2 := by decide +kernel

/-- **C134** The total fractions of the components sum to one, if those of each phase do and the phases have mass. -/
theorem C134_fractions {P C : Type} [Fintype P] [Fintype C] (density saturation : P → K) (fraction : P → C → K)
    (hf : ∀ p, ∑ c, fraction p c = 1) (hm : ∑ p, density p * saturation p ≠ 0) : ∑ c, totalFraction density saturation fraction c = 1 := by
  unfold totalFraction
  rw [← Finset.sum_div, Finset.sum_comm]
  simp only [← Finset.mul_sum, hf, mul_one]
  exact div_self hm

/-- … and phases which are not present do not contribute. -/
theorem C134_absent {P C : Type} [Fintype P] [DecidableEq P] (density saturation : P → K) (fraction fraction' : P → C → K) (c : C)
    (h : ∀ p, saturation p ≠ 0 → fraction p c = fraction' p c) :
    totalFraction density saturation fraction c = totalFraction density saturation fraction' c := by
  unfold totalFraction
  congr 1
  refine Finset.sum_congr rfl fun p _ => ?_
  by_cases hp : saturation p = 0
  · simp [hp]
  · rw [h p hp]

example : totalFraction (fun p : Fin 2 => ![1000, 1] p) ![1/2, 1/2] (fun p c => (![![9/10, 1/10], ![0, 1]] : Fin 2 → Fin 2 → ℚ) p c) 0 = 900/1001 := by
  decide +kernel

/-! ### names -/

theorem format_plain (p : List Char) (hp : '%' ∉ p) (rest : List Char) (as : List (List Char)) :
    format (p ++ rest) as = p ++ format rest as := by
  induction p with
  | nil => rfl
  | cons c p ih =>
    simp only [List.mem_cons, not_or] at hp
    have hc : c ≠ '%' := fun h => hp.1 h.symm
    rw [List.cons_append, List.cons_append, ← ih hp.2]
    rw [format]
    all_goals
      intros
      simp_all

/-- **C134** Fields of different phases have different names, if the pattern contains the name of the phase and the names fit, … -/
theorem C134_names_partial (p q : List Char) (hp : '%' ∉ p) (hq : '%' ∉ q) (a b : List Char) (hab : a ≠ b)
    (ha : (p ++ a ++ q).length ≤ 511) (hb : (p ++ b ++ q).length ≤ 511) :
    fieldName (p ++ '%' :: 's' :: q) [a] ≠ fieldName (p ++ '%' :: 's' :: q) [b] := by
  have e : ∀ x : List Char, format (p ++ '%' :: 's' :: q) [x] = p ++ x ++ q := by
    intro x
    rw [format_plain p hp, format]
    have := format_plain q hq [] []
    simp only [List.append_nil, format] at this
    rw [this, List.append_assoc]
  unfold fieldName
  rw [e, e, List.take_of_length_le ha, List.take_of_length_le hb]
  intro h
  exact hab (by simpa using h)

example : fieldName c!"pressure_%s" [c!"oil"] = c!"pressure_oil" ∧ fieldName c!"moleFrac_%s^%s" [c!"oil", c!"CO2"] = c!"moleFrac_oil^CO2" := by
  decide +kernel

/-- **C134** (violated) … but the tortuosities of all phases, and the diffusion coefficients of all components in all phases, have the
same name. -/
theorem C134_names_violated (phase component : List Char) :
    fieldName c!"tortuosity" [phase] = c!"tortuosity" ∧
    fieldName c!"diffusionCoefficient" [phase, component] = c!"diffusionCoefficient" ∧
    fieldName c!"effectiveDiffusionCoefficient" [phase, component] = c!"effectiveDiffusionCoefficient" := by
  refine ⟨?_, ?_, ?_⟩ <;> simp [fieldName, format]

/-! ### corners -/

theorem dist_ge {dim : ℕ} (x y : Fin dim → K) : 0 ≤ dist x y ∧ (∀ i, |x i - y i| ≤ dist x y) ∧
    (∀ b, 0 ≤ b → (∀ i, |x i - y i| ≤ b) → dist x y ≤ b) := by
  have : ∀ (l : List (Fin dim)) (m : K), 0 ≤ m → m ≤ l.foldl (fun m i => max m |x i - y i|) m ∧
      (∀ i ∈ l, |x i - y i| ≤ l.foldl (fun m i => max m |x i - y i|) m) ∧
      (∀ b, m ≤ b → (∀ i ∈ l, |x i - y i| ≤ b) → l.foldl (fun m i => max m |x i - y i|) m ≤ b) := by
    intro l
    induction l with
    | nil => intro m hm; simp
    | cons i l ih =>
      intro m hm
      obtain ⟨h1, h2, h3⟩ := ih (max m |x i - y i|) (le_trans hm (le_max_left _ _))
      refine ⟨le_trans (le_max_left _ _) h1, ?_, ?_⟩
      · intro j hj
        rcases List.mem_cons.1 hj with rfl | hj
        · exact le_trans (le_max_right _ _) h1
        · exact h2 j hj
      · intro b hb hi
        exact h3 b (max_le hb (hi i (by simp))) (fun j hj => hi j (by simp [hj]))
  obtain ⟨h1, h2, h3⟩ := this (List.finRange dim) 0 le_rfl
  exact ⟨h1, fun i => h2 i (by simp), fun b hb hi => h3 b hb (fun i _ => hi i)⟩

theorem dist_zero {dim : ℕ} (x y : Fin dim → K) : dist x y = 0 ↔ x = y := by
  obtain ⟨h1, h2, h3⟩ := dist_ge x y
  constructor
  · intro h
    funext i
    have := h2 i
    rw [h] at this
    have := abs_nonpos_iff.1 this
    linarith
  · rintro rfl
    exact le_antisymm (h3 0 le_rfl (by simp)) h1

theorem closest_spec {dim : ℕ} (xi : Fin dim → K) (cs : List (Fin dim → K)) (i : ℤ) (s : K × ℤ) :
    (closest xi cs i s = s.2 ∧ ∀ c ∈ cs, s.1 ≤ dist c xi) ∨
    ∃ k, ∃ h : k < cs.length, closest xi cs i s = i + k ∧ dist cs[k] xi < s.1 ∧ ∀ c ∈ cs, dist cs[k] xi ≤ dist c xi := by
  induction cs generalizing i s with
  | nil => exact Or.inl ⟨rfl, by simp⟩
  | cons c cs ih =>
    rw [closest]
    split_ifs with h
    · rcases ih (i + 1) (dist c xi, i) with ⟨h1, h2⟩ | ⟨k, hk, h1, h2, h3⟩
      · refine Or.inr ⟨0, by simp, by rw [h1]; simp, by simpa using h, ?_⟩
        intro d hd
        rcases List.mem_cons.1 hd with rfl | hd
        · simp
        · exact h2 d hd
      · refine Or.inr ⟨k + 1, by simpa using hk, by rw [h1]; push_cast; ring, lt_trans (by simpa using h2) h, ?_⟩
        intro d hd
        rcases List.mem_cons.1 hd with rfl | hd
        · simpa using h2.le
        · simpa using h3 d hd
    · rcases ih (i + 1) s with ⟨h1, h2⟩ | ⟨k, hk, h1, h2, h3⟩
      · refine Or.inl ⟨h1, fun d hd => ?_⟩
        rcases List.mem_cons.1 hd with rfl | hd
        · exact not_lt.1 h
        · exact h2 d hd
      · refine Or.inr ⟨k + 1, by simpa using hk, by rw [h1]; push_cast; ring, by simpa using h2, ?_⟩
        intro d hd
        rcases List.mem_cons.1 hd with rfl | hd
        · simpa using le_trans h2.le (not_lt.1 h)
        · simpa using h3 d hd

/-- **C134** At a corner of an element, the value of this corner is shown, for elements of every shape. -/
theorem C134_corner {dim : ℕ} (corners : List (Fin dim → K)) (hd : corners.Nodup) (k : ℕ) (hk : k < corners.length) :
    closestCorner corners corners[k] = k := by
  have h0 : dist corners[k] corners[k] = 0 := (dist_zero _ _).2 rfl
  have h100 : (0 : K) < 10 ^ 100 := by positivity
  rcases closest_spec corners[k] corners 0 (10 ^ 100, -1) with ⟨_, h2⟩ | ⟨j, hj, h1, h2, h3⟩
  · have := h2 corners[k] (List.getElem_mem hk)
    rw [h0] at this
    exact absurd this (not_le.2 h100)
  · have := h3 corners[k] (List.getElem_mem hk)
    rw [h0] at this
    have e := (dist_zero _ _).1 (le_antisymm this (dist_ge _ _).1)
    have : j = k := (List.Nodup.getElem_inj_iff hd).1 e
    rw [closestCorner, h1, this]; simp

/-- **C134** At other points, the value is that of a corner which is closest (in the maximum norm). -/
theorem C134_closest {dim : ℕ} (corners : List (Fin dim → K)) (xi : Fin dim → K) (hc : ∃ c ∈ corners, dist c xi < 10 ^ 100) :
    ∃ k, ∃ h : k < corners.length, closestCorner corners xi = k ∧ ∀ c ∈ corners, dist corners[k] xi ≤ dist c xi := by
  obtain ⟨c, hc, hd⟩ := hc
  rcases closest_spec xi corners 0 (10 ^ 100, -1) with ⟨_, h2⟩ | ⟨j, hj, h1, _, h3⟩
  · exact absurd (h2 c hc) (not_le.2 hd)
  · exact ⟨j, hj, by rw [closestCorner, h1]; simp, h3⟩

/-- The unit square. -/
def square : List (Fin 2 → ℚ) := [![0, 0], ![1, 0], ![0, 1], ![1, 1]]

example : square.Nodup ∧ closestCorner square ![1, 1] = 3 ∧ closestCorner square ![3/4, 1/4] = 1 := by
  refine ⟨by decide +kernel, by decide +kernel, by decide +kernel⟩

end Verif.Vtk.Fields
