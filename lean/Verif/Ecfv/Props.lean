import Verif.Ecfv.Model
import Mathlib.Algebra.BigOperators.Group.Finset.Basic
import Mathlib.Data.Fintype.Basic
import Mathlib.Algebra.BigOperators.Fin
import Mathlib.Data.Fintype.BigOperators
import Mathlib.Data.Fintype.Sigma
import Mathlib.Algebra.CharZero.Defs
import Mathlib.Data.Nat.Cast.Basic
import Mathlib.Algebra.NeZero
import Mathlib.Algebra.BigOperators.Group.Finset.Sigma
import Mathlib.Algebra.Order.Ring.Rat
import Mathlib.Tactic.Ring
import Mathlib.Tactic.Linarith
import Mathlib.Tactic.NormNum
import Mathlib.Tactic.FinCases

set_option autoImplicit false
set_option linter.unusedSectionVars false
/-
C132: the stencil of a cell and its faces.
-/
namespace Verif.Ecfv

variable {E V K : Type}

/-! ### Specification -/

/-- What the face of an intersection shows. -/
def Shows (f : Face V K) (i : Intersection E V K) : Prop :=
  f.normal = i.normal ∧ f.integrationPos = i.center ∧ f.area = i.area ∧ f.dirId = i.indexInInside

/-- The stencil describes an element and its intersections: the first degree of freedom is the element; the inner faces are the
intersections with neighbours, in their order, the boundary faces are the others; the neighbour beyond the inner face number `k` is
the degree of freedom number `k + 1`, which no other face has. -/
structure Describes (s : Stencil E V K) (e : E) (is : List (Intersection E V K)) : Prop where
  primary : s.elements[0]? = some e
  numDof : s.elements.length = s.interior.length + 1
  interior : List.Forall₂ Shows s.interior (is.filter (·.outside.isSome))
  boundary : List.Forall₂ Shows s.boundary (is.filter (·.outside.isNone))
  exterior : ∀ k (h : k < s.interior.length), s.interior[k].exteriorIdx = k + 1
  neighbor : s.elements.tail = is.filterMap (·.outside)

/-! ### Lemmas -/

theorem fold_form (is : List (Intersection E V K)) : ∀ s : Stencil E V K, s.elements ≠ [] →
    is.foldl addIntersection s =
      ⟨s.elements ++ is.filterMap (·.outside),
        s.interior ++ (is.filter (·.outside.isSome)).mapIdx (fun k i => mkFace i ((s.elements.length + k : ℕ) : ℤ)),
        s.boundary ++ (is.filter (·.outside.isNone)).map (fun i => mkFace i (-10000))⟩ := by
  induction is with
  | nil => intro s _; simp
  | cons i is ih =>
    intro s hs
    rw [List.foldl_cons]
    cases h : i.outside with
    | none =>
      have e : addIntersection s i = { s with boundary := s.boundary ++ [mkFace i (-10000)] } := by simp [addIntersection, h]
      rw [e, ih { s with boundary := s.boundary ++ [mkFace i (-10000)] } hs]
      simp [h, List.filter_cons, List.filterMap_cons]
    | some o =>
      have e : addIntersection s i = { s with elements := s.elements ++ [o], interior := s.interior ++ [mkFace i (s.elements.length : ℤ)] } := by
        simp [addIntersection, h]
      rw [e, ih _ (by simp)]
      simp only [h, List.filter_cons, Option.isSome_some, if_true, List.filterMap_cons, Option.isNone_some, Bool.false_eq_true, if_false,
        List.mapIdx_cons, List.append_assoc, List.cons_append, List.nil_append, List.length_append, List.length_cons, List.length_nil,
        add_zero, Stencil.mk.injEq, true_and, and_true, List.append_cancel_left_eq, List.cons.injEq]
      congr 1
      funext k i
      congr 2
      omega

theorem toShort_natCast {m : ℕ} (h : m < 65536) : toShort (m : ℤ) = m := by
  unfold toShort
  omega

theorem faces_shown (grid : E → List (Intersection E V K)) (previous : Stencil E V K) (e : E) :
    List.Forall₂ Shows (updateTopology grid previous e).interior ((grid e).filter (·.outside.isSome)) ∧
    List.Forall₂ Shows (updateTopology grid previous e).boundary ((grid e).filter (·.outside.isNone)) := by
  unfold updateTopology
  rw [fold_form _ _ (by simp [clearAndAdd])]
  constructor
  · simp only [clearAndAdd, List.nil_append]
    rw [List.forall₂_iff_get]
    refine ⟨by simp, fun k h1 h2 => ?_⟩
    simp [Shows, mkFace]
  · simp only [clearAndAdd, List.nil_append]
    rw [List.forall₂_map_left_iff]
    exact List.forall₂_same.2 fun i _ => ⟨rfl, rfl, rfl, rfl⟩

/-- **C132** After the update for an element the stencil describes the element, whatever it described before, as long as it has less
than 65535 neighbours. -/
theorem C132_describes (grid : E → List (Intersection E V K)) (previous : Stencil E V K) (e : E)
    (hn : ((grid e).filter (·.outside.isSome)).length < 65535) :
    Describes (updateTopology grid previous e) e (grid e) := by
  change Describes ((grid e).foldl addIntersection ⟨[e], [], []⟩) e (grid e)
  rw [fold_form _ _ (by simp)]
  have hlen : ((grid e).filterMap (·.outside)).length = ((grid e).filter (·.outside.isSome)).length := by
    generalize grid e = is
    induction is with
    | nil => rfl
    | cons i is ih => cases h : i.outside <;> simp [List.filter_cons, List.filterMap_cons, h, ih]
  constructor
  · simp
  · simp [hlen]
  · simp only [List.nil_append]
    rw [List.forall₂_iff_get]
    refine ⟨by simp, fun k h1 h2 => ?_⟩
    simp [Shows, mkFace]
  · simp only [List.nil_append]
    rw [List.forall₂_map_left_iff]
    exact List.forall₂_same.2 fun i _ => ⟨rfl, rfl, rfl, rfl⟩
  · intro k h
    simp only [List.nil_append, List.length_mapIdx] at h
    simp only [List.nil_append, List.getElem_mapIdx, mkFace, List.length_cons, List.length_nil]
    rw [toShort_natCast (by omega)]
    omega
  · simp

/-- What can be asked of a stencil: an update for an element, or one of the primary degrees of freedom only. -/
inductive Request (E : Type) where
  | full (e : E)
  | primary (e : E)

/-- The element which is asked for. -/
def Request.element : Request E → E
  | .full e => e
  | .primary e => e

/-- The stencil after a request. -/
def answer (grid : E → List (Intersection E V K)) (s : Stencil E V K) : Request E → Stencil E V K
  | .full e => updateTopology grid s e
  | .primary e => updatePrimaryTopology s e

/-- **C132** The update forgets the history: whatever was asked of the stencil before, it describes the element afterwards. -/
theorem C132_history (grid : E → List (Intersection E V K)) (s : Stencil E V K) (requests : List (Request E)) (e : E)
    (hn : ((grid e).filter (·.outside.isSome)).length < 65535) :
    Describes ((requests ++ [Request.full e]).foldl (answer grid) s) e (grid e) := by
  rw [List.foldl_append]
  exact C132_describes grid _ e hn

/-- Two cells of a row of three with lengths 1, between them a wall of area 1: left and right. -/
def row : ℕ → List (Intersection ℕ ℤ ℚ)
  | 0 => [⟨none, -1, 0, 1, 0⟩, ⟨some 1, 1, 1, 1, 1⟩]
  | 1 => [⟨some 0, -1, 1, 1, 0⟩, ⟨some 2, 1, 2, 1, 1⟩]
  | _ => [⟨some 1, -1, 2, 1, 0⟩, ⟨none, 1, 3, 1, 1⟩]

example : updateTopology row ⟨[], [], []⟩ 1 = ⟨[1, 0, 2], [⟨1, -1, 1, 1, 0⟩, ⟨2, 1, 2, 1, 1⟩], []⟩ := by decide +kernel

/-- **C132** The update of the primary degrees of freedom alone leaves the element itself as the only one, whatever was asked of the
stencil before, … -/
theorem C132_primary_partial (grid : E → List (Intersection E V K)) (s : Stencil E V K) (requests : List (Request E)) (e : E) :
    ((requests ++ [Request.primary e]).foldl (answer grid) s).elements = [e] := by
  rw [List.foldl_append]
  rfl

/-- **C132** … and the faces are those of the element of the latest update of the whole stencil, however often the primary degrees of
freedom were updated since. -/
theorem C132_primary_faces_partial (grid : E → List (Intersection E V K)) (s : Stencil E V K) (requests : List (Request E)) (e : E)
    (primaries : List E) :
    List.Forall₂ Shows ((requests ++ [Request.full e] ++ primaries.map Request.primary).foldl (answer grid) s).interior
      ((grid e).filter (·.outside.isSome)) ∧
    List.Forall₂ Shows ((requests ++ [Request.full e] ++ primaries.map Request.primary).foldl (answer grid) s).boundary
      ((grid e).filter (·.outside.isNone)) := by
  rw [List.foldl_append]
  have h : ∀ (l : List E) (t : Stencil E V K), ((l.map Request.primary).foldl (answer grid) t).interior = t.interior ∧
      ((l.map Request.primary).foldl (answer grid) t).boundary = t.boundary := by
    intro l
    induction l with
    | nil => exact fun t => ⟨rfl, rfl⟩
    | cons a l ih => exact fun t => ih (updatePrimaryTopology t a)
  rw [(h _ _).1, (h _ _).2, List.foldl_append]
  exact faces_shown grid _ e

/-- **C132** (violated) … but the faces of the previous element, with degrees of freedom which do not exist any more. -/
theorem C132_primary_violated : ∃ (s : Stencil ℕ ℤ ℚ) (f : Face ℤ ℚ), s = updatePrimaryTopology (updateTopology row ⟨[], [], []⟩ 1) 0 ∧
    f ∈ s.interior ∧ s.elements[f.exteriorIdx]? = none ∧ s.boundary = [] ∧ ∃ i ∈ row 0, i.outside = none :=
  ⟨_, ⟨1, -1, 1, 1, 0⟩, rfl, by decide +kernel, by decide +kernel, by decide +kernel, ⟨none, -1, 0, 1, 0⟩, by decide +kernel, rfl⟩

/-! ### Directions -/

/-- **C132** Both cells see a face of a corner-point grid in the same direction; other connections have none. -/
theorem C132_direction (d : ℤ) : (∀ k, 0 ≤ k → k < 3 → faceDirFromDirId (2 * k) = faceDirFromDirId (2 * k + 1) ∧ (faceDirFromDirId (2 * k)).isSome) ∧
    (faceDirFromDirId d = none ↔ d < 0 ∨ 5 < d) := by
  constructor
  · intro k h1 h2
    have : k = 0 ∨ k = 1 ∨ k = 2 := by omega
    rcases this with rfl | rfl | rfl <;> decide
  · unfold faceDirFromDirId
    split_ifs <;> simp <;> omega

/-! ### All stencils of a grid -/

/-- A grid with finitely many elements whose inner intersections come in pairs: the partner of an intersection is the one of the
neighbour which looks back; `flip` turns a normal around. -/
structure Paired (grid : E → List (Intersection E V K)) (flip : V → V) where
  partner : (e : E) × Fin (grid e).length → (e : E) × Fin (grid e).length
  involution : ∀ x, partner (partner x) = x
  outside : ∀ x : (e : E) × Fin (grid e).length, ((grid x.1)[x.2]).outside.isSome → ((grid x.1)[x.2]).outside = some (partner x).1
  back : ∀ x : (e : E) × Fin (grid e).length, ((grid x.1)[x.2]).outside.isSome →
    ((grid (partner x).1)[(partner x).2]).outside = some x.1 ∧
    ((grid (partner x).1)[(partner x).2]).normal = flip ((grid x.1)[x.2]).normal ∧
    ((grid (partner x).1)[(partner x).2]).area = ((grid x.1)[x.2]).area ∧
    ((grid (partner x).1)[(partner x).2]).center = ((grid x.1)[x.2]).center
  still : ∀ x : (e : E) × Fin (grid e).length, ((grid x.1)[x.2]).outside = none → partner x = x

/-- What a cell loses over its inner faces, as the local residual adds it up: `flux` gets the two elements and the normal. -/
def outflow [AddCommMonoid K] [Mul K] (flux : E → E → V → V → K) (s : Stencil E V K) : K :=
  (s.interior.map fun f => match s.elements[0]?, s.elements[f.exteriorIdx]? with
    | some a, some b => flux a b f.normal f.integrationPos * f.area
    | _, _ => 0).sum

theorem updateTopology_eq (grid : E → List (Intersection E V K)) (previous : Stencil E V K) (e : E) :
    updateTopology grid previous e = (grid e).foldl addIntersection ⟨[e], [], []⟩ := rfl

theorem zip_sum [AddCommMonoid K] [Mul K] (flux : E → E → V → V → K) (e : E) (is : List (Intersection E V K)) (m : ℕ) (pre : List E)
    (hp : pre.length = m) (h0 : pre[0]? = some e) (hm : m + (is.filterMap (·.outside)).length < 65536) (hm1 : 1 ≤ m) :
    ((is.filter (·.outside.isSome)).mapIdx (fun k i => mkFace i ((m + k : ℕ) : ℤ)) |>.map fun f =>
      match (pre ++ is.filterMap (·.outside))[0]?, (pre ++ is.filterMap (·.outside))[f.exteriorIdx]? with
      | some a, some b => flux a b f.normal f.integrationPos * f.area
      | _, _ => 0).sum
    = (is.map fun i => match i.outside with
      | some o => flux e o i.normal i.center * i.area
      | none => 0).sum := by
  induction is generalizing m pre with
  | nil => simp
  | cons i is ih =>
    cases h : i.outside with
    | none =>
      simp only [List.filter_cons, h, Option.isSome_none, Bool.false_eq_true, if_false, List.filterMap_cons, List.map_cons, List.sum_cons, zero_add] at hm ⊢
      exact ih m pre hp h0 hm hm1
    | some o =>
      simp only [List.filter_cons, h, Option.isSome_some, if_true, List.filterMap_cons, List.map_cons, List.sum_cons, List.mapIdx_cons,
        List.length_cons] at hm ⊢
      have ih' := ih (m + 1) (pre ++ [o]) (by simp [hp]) (by rw [List.getElem?_append_left (by omega)]; exact h0) (by omega) (by omega)
      have e1 : pre ++ o :: List.filterMap (fun x => x.outside) is = (pre ++ [o]) ++ List.filterMap (fun x => x.outside) is := by simp
      have ef : (fun (k : ℕ) (i : Intersection E V K) => mkFace i ((m + (k + 1) : ℕ) : ℤ)) = fun k i => mkFace i ((m + 1 + k : ℕ) : ℤ) := by
        funext k i; congr 2; omega
      rw [e1, ef, ih']
      congr 1
      have e2 : ((pre ++ [o]) ++ List.filterMap (fun x => x.outside) is)[0]? = some e := by
        rw [List.append_assoc, List.getElem?_append_left (by omega)]; exact h0
      have e3 : ((pre ++ [o]) ++ List.filterMap (fun x => x.outside) is)[(mkFace i ((m + 0 : ℕ) : ℤ)).exteriorIdx]? = some o := by
        simp only [mkFace, add_zero]
        rw [toShort_natCast (by omega), List.append_assoc, List.getElem?_append_right (by omega)]
        simp [hp]
      rw [e2, e3]
      simp [mkFace]

/-- What flows over an intersection. -/
def faceTerm [AddCommMonoid K] [Mul K] (grid : E → List (Intersection E V K)) (flux : E → E → V → V → K) (x : (e : E) × Fin (grid e).length) : K :=
  match ((grid x.1)[x.2]).outside with
  | some o => flux x.1 o ((grid x.1)[x.2]).normal ((grid x.1)[x.2]).center * ((grid x.1)[x.2]).area
  | none => 0

/-- **C132** If the flux over a face is the negative of the flux over the same face seen from the other side, nothing is lost between
the cells of a grid: the sum of what all cells lose over inner faces is zero. -/
theorem C132_conserved [Fintype E] [Field K] [CharZero K] (grid : E → List (Intersection E V K)) (flip : V → V)
    (hg : Paired grid flip) (hn : ∀ e, (grid e).length < 65535) (flux : E → E → V → V → K)
    (hf : ∀ a b v p, flux b a (flip v) p = - flux a b v p) (previous : Stencil E V K) :
    ∑ e, outflow flux (updateTopology grid previous e) = 0 := by
  classical
  have h1 : ∀ e, outflow flux (updateTopology grid previous e) = ∑ k, faceTerm grid flux ⟨e, k⟩ := by
    intro e
    rw [updateTopology_eq]
    unfold outflow
    rw [fold_form _ _ (by simp)]
    have hfl : ((grid e).filterMap (·.outside)).length ≤ (grid e).length := List.length_filterMap_le _ _
    have := zip_sum flux e (grid e) 1 [e] rfl rfl (by have := hn e; omega) le_rfl
    simp only [List.nil_append]
    refine Eq.trans this ?_
    rw [← List.sum_ofFn]
    congr 1
    apply List.ext_getElem
    · simp
    · intro k h1 h2
      simp [faceTerm]
  rw [Finset.sum_congr rfl fun e _ => h1 e, ← Fintype.sum_sigma (fun x => faceTerm grid flux x)]
  generalize hF : faceTerm grid flux = F
  have hanti : ∀ x, F (hg.partner x) = - F x := by
    intro x
    rw [← hF]
    unfold faceTerm
    cases ho : ((grid x.1)[x.2]).outside with
    | none => rw [hg.still x ho, ho]; simp
    | some o =>
      have hs : ((grid x.1)[x.2]).outside.isSome := by rw [ho]; rfl
      have h1 := hg.outside x hs
      obtain ⟨h2, h3, h4, h5⟩ := hg.back x hs
      rw [ho] at h1
      rw [h2]
      simp only []
      rw [h3, h4, h5, Option.some.inj h1, hf]
      ring
  have hsum : ∑ x, F x = - ∑ x, F x := by
    rw [← Finset.sum_neg_distrib, ← Equiv.sum_comp (⟨hg.partner, hg.partner, hg.involution, hg.involution⟩ : _ ≃ _)]
    exact Finset.sum_congr rfl fun x _ => hanti x
  have h2 : (2 : K) * ∑ x, F x = 0 := by
    have := eq_neg_iff_add_eq_zero.1 hsum
    rw [two_mul]; exact this
  rcases mul_eq_zero.1 h2 with h | h
  · have : ((2 : ℕ) : K) ≠ 0 := Nat.cast_ne_zero.2 (by decide)
    exact absurd (by simpa using h) this
  · exact h

/-- The row of three cells as a grid. -/
def row3 (e : Fin 3) : List (Intersection (Fin 3) ℤ ℚ) :=
  if e = 0 then [⟨none, -1, 0, 1, 0⟩, ⟨some 1, 1, 1, 1, 1⟩]
  else if e = 1 then [⟨some 0, -1, 1, 1, 0⟩, ⟨some 2, 1, 2, 1, 1⟩]
  else [⟨some 1, -1, 2, 1, 0⟩, ⟨none, 1, 3, 1, 1⟩]

def partner3 (x : (e : Fin 3) × Fin (row3 e).length) : (e : Fin 3) × Fin (row3 e).length :=
  if x = ⟨0, ⟨1, by decide⟩⟩ then ⟨1, ⟨0, by decide⟩⟩
  else if x = ⟨1, ⟨0, by decide⟩⟩ then ⟨0, ⟨1, by decide⟩⟩
  else if x = ⟨1, ⟨1, by decide⟩⟩ then ⟨2, ⟨0, by decide⟩⟩
  else if x = ⟨2, ⟨0, by decide⟩⟩ then ⟨1, ⟨1, by decide⟩⟩
  else x

example : Paired row3 (fun v => -v) where
  partner := partner3
  involution := by decide +kernel
  outside := by decide +kernel
  back := by decide +kernel
  still := by decide +kernel

end Verif.Ecfv
