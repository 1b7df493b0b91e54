import Verif.PropSys.Lemmas
set_option autoImplicit false
/-!
# C107: which definition of a property is used
-/
namespace PropSys
variable {Tag : Type} {h : Hierarchy Tag} {defined : Tag → Bool}

/-- A lookup has at most one result: two instantiations agree. -/
theorem C107_unique (t d d' : Tag) (g : GetProp h defined t d) (g' : GetProp h defined t d') :
    d = d' := by
  cases g with
  | found s hs g =>
    cases g' with
    | found s' hs' g' =>
      have := gds_det hs hs'
      subst this
      simpa using getDefined_det g g'

/-- The definition used is the first one met when the type tag, then everything
it inherits from, and then the splices (with everything those inherit from) are
visited in order; the splices are exactly those of the tags that can be reached. -/
theorem C107_first (t d : Tag) (g : GetProp h defined t d) :
    ∃ splices : List Tag, FirstDefining h defined (t :: splices) d ∧
      ∀ s, s ∈ splices ↔ ∃ u, Reaches h t u ∧ s ∈ h.splices u := by
  cases g with
  | found s hs g =>
    refine ⟨s, getDefined_outcome g, fun x => ?_⟩
    rw [gds_mem hs x]
    simp [Spliced]

/-- In a proper hierarchy a lookup compiles exactly if some tag that can be
reached by inheritance and splicing defines the property, and the definition
used is one of those. -/
theorem C107_found (hp : Proper h) (t : Tag) :
    ((∃ d, GetProp h defined t d) ↔ ∃ e, Reaches h t e ∧ defined e = true) ∧
      ∀ d, GetProp h defined t d → Reaches h t d ∧ defined d = true := by
  have fwd : ∀ d, GetProp h defined t d → Reaches h t d ∧ defined d = true := by
    intro d g
    obtain ⟨s, ⟨p, hp', hd, _⟩, hs⟩ := C107_first t d g
    obtain ⟨u, hu, hud⟩ := tagAt_inherits p _ _ hp'
    refine ⟨?_, hd⟩
    rw [List.mem_cons] at hu
    rcases hu with rfl | hu
    · exact inherits_reaches hud
    · obtain ⟨v, hv, huv⟩ := (hs u).1 hu
      exact (Relation.ReflTransGen.tail hv (Or.inr huv)).trans (inherits_reaches hud)
  refine ⟨⟨fun ⟨d, g⟩ => ⟨d, fwd d g⟩, ?_⟩, fwd⟩
  rintro ⟨e, hte, hde⟩
  obtain ⟨s, hs⟩ := gds_total hp _ [t] (by simp) (le_refl _)
  obtain ⟨r, hr⟩ := getDefined_total (defined := defined) hp (t :: s) (by simp)
  cases r with
  | some d => exact ⟨d, .found t d s hs hr⟩
  | none =>
    exfalso
    have hout : NoneDefining h defined (t :: s) := getDefined_outcome hr
    have hin : ∃ u ∈ t :: s, InheritsFrom h u e := by
      rcases reaches_split hte with hi | ⟨x, hx, hi⟩
      · exact ⟨t, by simp, hi⟩
      · exact ⟨x, by simp [(gds_mem hs x).2 hx], hi⟩
    obtain ⟨u, hu, hue⟩ := hin
    obtain ⟨i, hi⟩ := List.mem_iff_getElem?.1 hu
    obtain ⟨p, hp'⟩ := inherits_tagAt hue _ i hi
    rw [hout _ _ hp'] at hde
    cases hde

/-- A definition attached to the type tag itself is the one that is used. -/
theorem C107_own (t d : Tag) (ht : defined t = true) (g : GetProp h defined t d) : d = t := by
  obtain ⟨s, ⟨p, hp, _, hmin⟩, _⟩ := C107_first t d g
  rcases tagAt_cases t s p d hp with ⟨_, rfl⟩ | ⟨p', hp', rfl, _⟩
  · rfl
  · exfalso
    have : Before [0] (up (bases h t).length p') := by
      cases p' with
      | nil => exact absurd rfl hp'
      | cons i p' =>
        simp only [up]
        split
        · exact before_append [0] _ (by simp)
        · exact before_cons.2 (Or.inl (by omega))
    rw [hmin [0] t this (by simp [tagAt])] at ht
    cases ht

/-- Splices only serve as defaults: if the type tag or one of the tags it inherits
from defines the property, the definition used is one of those, and it is met on
a chain of inheritance on which no tag before it defines the property. -/
theorem C107_inherited (t d e : Tag) (he : InheritsFrom h t e) (hde : defined e = true)
    (g : GetProp h defined t d) :
    Relation.ReflTransGen (fun a b => b ∈ bases h a ∧ defined a = false) t d := by
  obtain ⟨s, ⟨p, hp, hd, hmin⟩, _⟩ := C107_first t d g
  obtain ⟨i, u, hi, hu, hchain⟩ := chain_of_position p _ _ hp hmin
  cases i with
  | zero =>
    simp only [List.getElem?_cons_zero, Option.some.injEq] at hu
    subst hu
    exact hchain
  | succ i =>
    exfalso
    obtain ⟨q, hq⟩ := inherits_tagAt he (t :: s) 0 (by simp)
    have hb : Before (0 :: q) p := by
      cases p with
      | nil => simp at hi
      | cons j p =>
        simp only [List.head?_cons, Option.some.injEq] at hi
        subst hi
        exact before_cons.2 (Or.inl (by omega))
    rw [hmin _ _ hb hq] at hde
    cases hde

/-- The full property would be: the definition used is never overridden by another
tag of the hierarchy that inherits from the tag it is attached to.  It is false if
a tag is inherited on two ways, already in the hierarchy of the test program: a
pickup is a truck and a sedan, the sedan has an automatic transmission, but the
default of the vehicle, met first via the truck, is used for the pickup. -/
theorem C107_override_violated :
    ∃ (t d e : Car), GetProp carTags automatic t d ∧ InheritsFrom carTags t e ∧
      automatic e = true ∧ InheritsFrom carTags e d ∧ e ≠ d := by
  refine ⟨.pickup, .vehicle, .sedan, ?_, ?_, rfl, ?_, by decide⟩
  · refine .found _ _ [] ?_ ?_
    · refine .last _ [] (.lastDerived _ _ _ rfl ?_)
      refine .first _ _ _ [] (.firstDerived _ _ _ _ _ rfl ?_)
      refine .first _ _ _ [] (.firstRoot _ _ _ _ rfl ?_)
      refine .last _ [] (.lastDerived _ _ _ rfl ?_)
      refine .last _ [] (.lastDerived _ _ _ rfl ?_)
      exact .last _ [] (.lastRoot _ rfl)
    · refine .lastDerived _ _ (some Car.vehicle) rfl ?_
      refine .firstDerived _ _ _ _ (some Car.vehicle) rfl ?_
      refine .firstRoot _ _ _ (some Car.sedan) rfl ?_
      refine .lastDerived _ _ (some Car.vehicle) rfl ?_
      refine .lastDerived _ _ (some Car.vehicle) rfl ?_
      exact .lastRoot _ rfl
  · exact Relation.ReflTransGen.single (by decide)
  · exact Relation.ReflTransGen.head (b := Car.compactCar) (by decide)
      (Relation.ReflTransGen.single (by decide))

/-- Proved part: if no tag is inherited on two ways, a definition found by
inheritance is not overridden by any tag between. -/
theorem C107_override_partial (t d e : Tag)
    (once : ∀ p q x, tagAt h [t] p = some x → tagAt h [t] q = some x → p = q)
    (g : GetProp h defined t d) (he : InheritsFrom h t e) (hde : defined e = true)
    (hed : InheritsFrom h e d) : e = d := by
  obtain ⟨s, ⟨p, hp, hd, hmin⟩, _⟩ := C107_first t d g
  have single : ∀ (q : List ℕ) (l : List Tag), tagAt h (t :: l) (0 :: q) = tagAt h [t] (0 :: q) := by
    intro q l
    cases q with
    | nil => simp [tagAt]
    | cons j q => rw [tagAt_cons, tagAt_cons]; simp
  -- the definition is found by inheritance
  obtain ⟨q, hq⟩ := inherits_tagAt he [t] 0 (by simp)
  have hp0 : p.head? = some 0 := by
    obtain ⟨i, u, hi, hu, _⟩ := chain_of_position p _ _ hp hmin
    cases i with
    | zero => exact hi
    | succ i =>
      exfalso
      have hb : Before (0 :: q) p := by
        cases p with
        | nil => simp at hi
        | cons j p =>
          simp only [List.head?_cons, Option.some.injEq] at hi
          subst hi
          exact before_cons.2 (Or.inl (by omega))
      rw [hmin _ _ hb (by rw [single]; exact hq)] at hde
      cases hde
  rcases Relation.ReflTransGen.cases_head hed with rfl | ⟨b, hb, hbd⟩
  · rfl
  · exfalso
    obtain ⟨j, hj⟩ := List.mem_iff_getElem?.1 hb
    obtain ⟨r, hr⟩ := inherits_tagAt hbd _ j hj
    have hfull := tagAt_append (0 :: q) [t] e (j :: r) d hq (by simp) hr
    cases p with
    | nil => simp at hp0
    | cons i p =>
      simp only [List.head?_cons, Option.some.injEq] at hp0
      subst hp0
      rw [single] at hp
      have heq := once _ _ _ hp hfull
      have hbef : Before (0 :: q) (0 :: p) := by
        rw [heq]; exact before_append (0 :: q) (j :: r) (by simp)
      rw [hmin _ _ hbef (by rw [single]; exact hq)] at hde
      cases hde

/-- A tag, the tag it inherits from, and one splice of each. -/
inductive Four | derived | base | spliceOfDerived | spliceOfBase
  deriving DecidableEq, Repr

/-- `derived` inherits from `base`; each has a splice of its own. -/
def fourTags : Hierarchy Four where
  inherits := fun
    | .derived => some [.base]
    | _ => none
  splices := fun
    | .derived => [.spliceOfDerived]
    | .base => [.spliceOfBase]
    | _ => []

/-- both splices define the property -/
def bySplices : Four → Bool
  | .spliceOfDerived | .spliceOfBase => true
  | _ => false

/-- The splices of a type tag do not take precedence over the splices of the tag
it inherits from: if both define a property, the one of the base is used. -/
theorem C107_splice_order_violated :
    ∃ (h : Hierarchy Four) (defined : Four → Bool) (t b s s' : Four),
      b ∈ bases h t ∧ s ∈ h.splices t ∧ s' ∈ h.splices b ∧ s ≠ s' ∧
      defined s = true ∧ GetProp h defined t s' := by
  refine ⟨fourTags, bySplices, .derived, .base, .spliceOfDerived, .spliceOfBase,
    by decide, by decide, by decide, by decide, rfl, ?_⟩
  refine .found _ _ [.spliceOfBase, .spliceOfDerived] ?_ ?_
  · refine .last Four.derived [Four.spliceOfBase] (.firstDerived _ _ _ _ _ rfl ?_)
    refine .first Four.base _ _ [] (.firstRoot _ _ _ _ rfl ?_)
    refine .first Four.spliceOfDerived _ _ [] (.firstRoot _ _ _ _ rfl ?_)
    exact .last Four.spliceOfBase [] (.lastRoot _ rfl)
  · refine .firstDerived _ _ _ _ (some Four.spliceOfBase) rfl ?_
    refine .firstRoot _ _ _ (some Four.spliceOfBase) rfl ?_
    refine .firstRoot _ _ _ (some Four.spliceOfDerived) rfl ?_
    exact .lastRoot _ rfl

/-- the hierarchy of the test program is proper -/
theorem carTags_proper : Proper carTags := by
  refine ⟨?_, ?_⟩
  · apply Subrelation.wf (r := InvImage (· < ·) (fun c : Car => match c with
      | .vehicle => 0 | .compactCar => 1 | .truck => 1 | .tank => 1
      | .sedan => 2 | .pickup => 3 | .hummer => 4))
    · intro u t hut
      cases u <;> cases t <;>
        first
        | (exfalso; revert hut; simp [Refers, bases, carTags]; done)
        | (simp [InvImage])
    · exact InvImage.wf _ Nat.lt_wfRel.wf
  · intro t ps
    cases t <;> simp [carTags] <;> rintro rfl <;> simp

/-- Non-vacuity: in the test program the lookups compile; the gas usage of a
sedan is its own although a compact car, from which it inherits, defines one, and
the top of the hierarchy is reached. -/
example : Proper carTags ∧ GetProp carTags gasUsage .sedan .sedan ∧
    GetProp carTags automatic .sedan .sedan ∧
    ∃ d, GetProp carTags gasUsage .hummer d := by
  refine ⟨carTags_proper, ?_, ?_, ?_⟩
  · obtain ⟨d, hd⟩ := (C107_found (defined := gasUsage) carTags_proper .sedan).1.2
      ⟨.sedan, Relation.ReflTransGen.refl, rfl⟩
    rwa [C107_own _ _ rfl hd] at hd
  · obtain ⟨d, hd⟩ := (C107_found (defined := automatic) carTags_proper .sedan).1.2
      ⟨.sedan, Relation.ReflTransGen.refl, rfl⟩
    rwa [C107_own _ _ rfl hd] at hd
  · exact (C107_found carTags_proper .hummer).1.2
      ⟨.tank, Relation.ReflTransGen.single (Or.inl (by decide)), rfl⟩

/-- the positions in the hierarchy of the sedan -/
theorem sedan_positions (p : List ℕ) (x : Car) (hp : tagAt carTags [.sedan] p = some x) :
    (p = [0] ∧ x = .sedan) ∨ (p = [0, 0] ∧ x = .compactCar) ∨ (p = [0, 0, 0] ∧ x = .vehicle) := by
  match p, hp with
  | [], hp => simp [tagAt] at hp
  | [i], hp => cases i <;> simp [tagAt] at hp ⊢; exact hp.symm
  | [i, j], hp =>
    rw [tagAt_cons] at hp
    cases i <;> cases j <;> simp [tagAt, bases, carTags] at hp ⊢; exact hp.symm
  | [i, j, k], hp =>
    rw [tagAt_cons] at hp
    cases i <;> cases j <;> cases k <;> simp [tagAt, bases, carTags] at hp ⊢
    exact hp.symm
  | i :: j :: k :: l :: p, hp =>
    rw [tagAt_cons] at hp
    cases i with
    | succ i => simp at hp
    | zero =>
      simp only [List.getElem?_cons_zero, Option.bind_some] at hp
      rw [tagAt_cons] at hp
      cases j with
      | succ j => simp [bases, carTags] at hp
      | zero =>
        simp only [bases, carTags, Option.getD_some, List.getElem?_cons_zero, Option.bind_some] at hp
        rw [tagAt_cons] at hp
        cases k with
        | succ k => simp at hp
        | zero =>
          simp only [List.getElem?_cons_zero, Option.bind_some] at hp
          cases p with
          | nil => simp [tagAt, bases, carTags] at hp
          | cons m p => rw [tagAt_cons] at hp; simp [bases, carTags] at hp

/-- Non-vacuity: in the hierarchy of the sedan no tag is inherited on two ways, and
it inherits from tags that define a gas usage too. -/
example : (∀ p q x, tagAt carTags [.sedan] p = some x → tagAt carTags [.sedan] q = some x → p = q) ∧
    ∃ d, GetProp carTags gasUsage .sedan d ∧ InheritsFrom carTags .sedan .compactCar ∧
      gasUsage .compactCar = true := by
  refine ⟨?_, .sedan, ?_, Relation.ReflTransGen.single (by decide), rfl⟩
  · intro p q x hp hq
    rcases sedan_positions p x hp with ⟨rfl, rfl⟩ | ⟨rfl, rfl⟩ | ⟨rfl, rfl⟩ <;>
    rcases sedan_positions q _ hq with ⟨rfl, h⟩ | ⟨rfl, h⟩ | ⟨rfl, h⟩ <;>
    first | rfl | cases h
  · obtain ⟨d, hd⟩ := (C107_found (defined := gasUsage) carTags_proper .sedan).1.2
      ⟨.sedan, Relation.ReflTransGen.refl, rfl⟩
    rwa [C107_own _ _ rfl hd] at hd

end PropSys
