import Mathlib.Data.List.Basic
import Mathlib.Tactic.Linarith
import Verif.PropSys.Spec
set_option autoImplicit false
set_option linter.unusedSimpArgs false
namespace PropSys
variable {Tag : Type} {h : Hierarchy Tag} {defined : Tag → Bool}

theorem bases_some {t : Tag} {ps : List Tag} (e : h.inherits t = some ps) : bases h t = ps := by
  simp [bases, e]

theorem bases_none {t : Tag} (e : h.inherits t = none) : bases h t = [] := by
  simp [bases, e]

/-- positions of the list that is searched after the first tag -/
def up (k : ℕ) : List ℕ → List ℕ
  | [] => []
  | i :: p => if i < k then 0 :: i :: p else (i - k + 1) :: p

theorem tagAt_cons (ts : List Tag) (i j : ℕ) (p : List ℕ) :
    tagAt h ts (i :: j :: p) = (ts[i]?).bind fun t => tagAt h (bases h t) (j :: p) := by
  simp [tagAt]

theorem tagAt_up (t : Tag) (rest : List Tag) (q : List ℕ) (hq : q ≠ []) :
    tagAt h (t :: rest) (up (bases h t).length q) = tagAt h (bases h t ++ rest) q := by
  cases q with
  | nil => exact absurd rfl hq
  | cons i p =>
    simp only [up]
    by_cases hi : i < (bases h t).length
    · rw [if_pos hi, tagAt_cons]
      cases p with
      | nil => simp [tagAt, List.getElem?_append_left hi]
      | cons j p =>
        simp only [List.getElem?_cons_zero, Option.bind_some]
        rw [tagAt_cons, tagAt_cons, List.getElem?_append_left hi]
    · rw [if_neg hi]
      have hi' : (bases h t).length ≤ i := Nat.le_of_not_lt hi
      cases p with
      | nil => simp [tagAt, List.getElem?_append_right hi']
      | cons j p =>
        rw [tagAt_cons, tagAt_cons, List.getElem?_append_right hi']
        simp

theorem tagAt_cases (t : Tag) (rest : List Tag) (q : List ℕ) (e : Tag)
    (hq : tagAt h (t :: rest) q = some e) :
    (q = [0] ∧ e = t) ∨
      ∃ q', q' ≠ [] ∧ q = up (bases h t).length q' ∧ tagAt h (bases h t ++ rest) q' = some e := by
  cases q with
  | nil => simp [tagAt] at hq
  | cons i p =>
    cases i with
    | zero =>
      cases p with
      | nil => left; simp [tagAt] at hq; exact ⟨rfl, hq.symm⟩
      | cons j p =>
        right
        rw [tagAt_cons] at hq
        simp only [List.getElem?_cons_zero, Option.bind_some] at hq
        have hj : j < (bases h t).length := by
          by_contra hj
          have hn : (bases h t)[j]? = none := by
            rw [List.getElem?_eq_none_iff]; omega
          cases p with
          | nil => simp [tagAt, hn] at hq
          | cons k p => rw [tagAt_cons, hn] at hq; simp at hq
        refine ⟨j :: p, by simp, ?_, ?_⟩
        · simp [up, hj]
        · rw [← tagAt_up t rest (j :: p) (by simp)]
          simp only [up, if_pos hj]
          rw [tagAt_cons]
          simpa using hq
    | succ i =>
      right
      refine ⟨(i + (bases h t).length) :: p, by simp, ?_, ?_⟩
      · simp [up]
      · rw [← tagAt_up t rest _ (by simp)]
        simpa [up] using hq

theorem before_cons {i j : ℕ} {p q : List ℕ} :
    Before (i :: p) (j :: q) ↔ i < j ∨ i = j ∧ Before p q := by
  unfold Before
  constructor
  · intro hb
    cases hb with
    | cons h => exact Or.inr ⟨rfl, h⟩
    | rel h => exact Or.inl h
  · rintro (h | ⟨rfl, h⟩)
    · exact .rel h
    · exact .cons h

theorem not_before_nil (p : List ℕ) : ¬ Before p [] := by
  intro hb; cases hb

theorem before_up {k : ℕ} {p q : List ℕ} (hp : p ≠ []) (hq : q ≠ [])
    (hb : Before (up k q) (up k p)) : Before q p := by
  cases q with
  | nil => exact absurd rfl hq
  | cons i q =>
    cases p with
    | nil => exact absurd rfl hp
    | cons j p =>
      unfold up at hb
      by_cases hi : i < k <;> by_cases hj : j < k <;> simp only [hi, hj, if_true, if_false] at hb
      · rw [before_cons] at hb
        rcases hb with hb | ⟨_, hb⟩
        · omega
        · exact hb
      · rw [before_cons]; left; omega
      · rw [before_cons] at hb; rcases hb with hb | ⟨hb, _⟩ <;> omega
      · rw [before_cons] at hb ⊢
        rcases hb with hb | ⟨hb, hr⟩
        · left; omega
        · right; exact ⟨by omega, hr⟩

theorem not_before_root {k : ℕ} {q : List ℕ} (hq : q ≠ []) : ¬ Before (up k q) [0] := by
  cases q with
  | nil => exact absurd rfl hq
  | cons i q =>
    simp only [up]
    by_cases hi : i < k
    · rw [if_pos hi, before_cons]
      rintro (hb | ⟨_, hb⟩)
      · omega
      · exact not_before_nil _ hb
    · rw [if_neg hi, before_cons]
      rintro (hb | ⟨hb, _⟩) <;> omega

/-- nothing in the hierarchies of `ts` defines the property -/
def NoneDefining (h : Hierarchy Tag) (defined : Tag → Bool) (ts : List Tag) : Prop :=
  ∀ q e, tagAt h ts q = some e → defined e = false

/-- the outcome of a search is the expected one -/
def Outcome (h : Hierarchy Tag) (defined : Tag → Bool) (ts : List Tag) : Option Tag → Prop
  | some d => FirstDefining h defined ts d
  | none => NoneDefining h defined ts

theorem outcome_step (t : Tag) (rest : List Tag) (r : Option Tag)
    (ih : Outcome h defined (bases h t ++ rest) r) :
    Outcome h defined (t :: rest) (pick defined t r) := by
  unfold pick
  by_cases hd : defined t = true
  · rw [if_pos hd]
    refine ⟨[0], by simp [tagAt], hd, ?_⟩
    intro q e hb he
    rcases tagAt_cases t rest q e he with ⟨rfl, rfl⟩ | ⟨q', hq', rfl, _⟩
    · rw [before_cons] at hb
      rcases hb with hb | ⟨_, hb⟩
      · omega
      · exact absurd hb (not_before_nil _)
    · exact absurd hb (not_before_root hq')
  · rw [if_neg hd]
    have hd' : defined t = false := by simpa using hd
    cases r with
    | none =>
      intro q e he
      rcases tagAt_cases t rest q e he with ⟨rfl, rfl⟩ | ⟨q', _, rfl, he'⟩
      · exact hd'
      · exact ih q' e he'
    | some d =>
      obtain ⟨p, hp, hdd, hmin⟩ := ih
      have hp0 : p ≠ [] := by rintro rfl; simp [tagAt] at hp
      refine ⟨up (bases h t).length p, by rw [tagAt_up _ _ _ hp0]; exact hp, hdd, ?_⟩
      intro q e hb he
      rcases tagAt_cases t rest q e he with ⟨rfl, rfl⟩ | ⟨q', hq', rfl, he'⟩
      · exact hd'
      · exact hmin q' e (before_up hp0 hq' hb) he'

theorem outcome_nil : Outcome h defined [] none := by
  intro q e he
  match q with
  | [] => simp [tagAt] at he
  | [i] => simp [tagAt] at he
  | i :: j :: p => rw [tagAt_cons] at he; simp at he

theorem getDefined_outcome {ts : List Tag} {r : Option Tag} (g : GetDefined h defined ts r) :
    Outcome h defined ts r := by
  induction g with
  | lastDerived t ps r e _ ih =>
    apply outcome_step; rw [bases_some e]; simpa using ih
  | lastRoot t e =>
    apply outcome_step; rw [bases_none e]; exact outcome_nil
  | firstDerived t u args ps r e _ ih =>
    apply outcome_step; rw [bases_some e]; exact ih
  | firstRoot t u args r e _ ih =>
    apply outcome_step; rw [bases_none e]; exact ih

/-! ### determinism -/

theorem getDefined_det {ts : List Tag} {r r' : Option Tag} (g : GetDefined h defined ts r)
    (g' : GetDefined h defined ts r') : r = r' := by
  induction g generalizing r' with
  | lastDerived t ps r e _ ih =>
    cases g' with
    | lastDerived _ ps' r' e' g' =>
      rw [e] at e'; cases e'; rw [ih g']
    | lastRoot _ e' => rw [e] at e'; cases e'
  | lastRoot t e =>
    cases g' with
    | lastDerived _ ps' r' e' g' => rw [e] at e'; cases e'
    | lastRoot _ e' => rfl
  | firstDerived t u args ps r e _ ih =>
    cases g' with
    | firstDerived _ _ _ ps' r' e' g' => rw [e] at e'; cases e'; rw [ih g']
    | firstRoot _ _ _ r' e' g' => rw [e] at e'; cases e'
  | firstRoot t u args r e _ ih =>
    cases g' with
    | firstDerived _ _ _ ps' r' e' g' => rw [e] at e'; cases e'
    | firstRoot _ _ _ r' e' g' => rw [ih g']

/-! ### the splices -/

theorem gds_ne_nil {ts r : List Tag} (g : GetDefinedSplice h ts r) : ts ≠ [] := by
  cases g <;> simp

theorem next_intro {t : Tag} {ts r : List Tag} (hne : ∀ ps, h.inherits t = some ps → ps ≠ [])
    (g : GetDefinedSplice h (bases h t ++ ts) r) : GetNextSplice h (t :: ts) r := by
  cases e : h.inherits t with
  | none =>
    rw [bases_none e] at g
    cases ts with
    | nil => exact absurd rfl (gds_ne_nil g)
    | cons u args => exact .firstRoot t u args r e g
  | some ps =>
    rw [bases_some e] at g
    cases ts with
    | nil => exact .lastDerived t ps r e (by simpa using g)
    | cons u args => exact .firstDerived t u args ps r e g

theorem reaches_of_mem_step {t u x : Tag} (hu : Refers h t u) (hx : Reaches h u x) :
    Reaches h t x := Relation.ReflTransGen.head hu hx

/-- `x` is among the splices of a tag that can be reached from `ts` -/
def Spliced (h : Hierarchy Tag) (ts : List Tag) (x : Tag) : Prop :=
  ∃ t ∈ ts, ∃ u, Reaches h t u ∧ x ∈ h.splices u

theorem spliced_step (t : Tag) (ts : List Tag) (x : Tag) (ns : List Tag)
    (hns : ∀ u, u ∈ ns ↔ (u ∈ bases h t ∨ u ∈ ts ∨ u ∈ h.splices t)) :
    Spliced h (t :: ts) x ↔ x ∈ h.splices t ∨ Spliced h ns x := by
  constructor
  · rintro ⟨u, hu, v, hv, hx⟩
    rw [List.mem_cons] at hu
    rcases hu with rfl | hu
    · rcases Relation.ReflTransGen.cases_head hv with rfl | ⟨w, hw, hv⟩
      · exact Or.inl hx
      · refine Or.inr ⟨w, ?_, v, hv, hx⟩
        rw [hns]
        rcases hw with hw | hw
        · exact Or.inl hw
        · exact Or.inr (Or.inr hw)
    · exact Or.inr ⟨u, (hns u).2 (Or.inr (Or.inl hu)), v, hv, hx⟩
  · rintro (hx | ⟨u, hu, v, hv, hx⟩)
    · exact ⟨t, by simp, t, Relation.ReflTransGen.refl, hx⟩
    · rw [hns] at hu
      rcases hu with hu | hu | hu
      · exact ⟨t, by simp, v, reaches_of_mem_step (Or.inl hu) hv, hx⟩
      · exact ⟨u, by simp [hu], v, hv, hx⟩
      · exact ⟨t, by simp, v, reaches_of_mem_step (Or.inr hu) hv, hx⟩

theorem gds_mem {ts r : List Tag} (g : GetDefinedSplice h ts r) (x : Tag) :
    x ∈ r ↔ Spliced h ts x := by
  refine GetDefinedSplice.rec
    (motive_1 := fun ts r _ => ∀ x, x ∈ r ↔ Spliced h ts x)
    (motive_2 := fun ts r _ => ∀ t rest, ts = t :: rest →
      ∀ x, x ∈ r ↔ Spliced h (bases h t ++ rest) x)
    ?_ ?_ ?_ ?_ ?_ ?_ g x
  · intro t r _ ih x
    rw [spliced_step t [] x (bases h t ++ h.splices t) (by intro u; simp), List.mem_append,
      ih t _ rfl x, or_comm]
  · intro t u args r _ ih x
    rw [spliced_step t (u :: args) x (bases h t ++ (u :: args ++ h.splices t))
      (by intro v; simp only [List.mem_append, List.mem_cons]), List.mem_append, ih t _ rfl x]
    rfl
  · intro t ps r e _ ih t' rest heq x
    cases heq
    rw [bases_some e]; simpa using ih x
  · intro t e t' rest heq x
    cases heq
    simp [bases_none e, Spliced]
  · intro t u args ps r e _ ih t' rest heq x
    cases heq
    rw [bases_some e]; exact ih x
  · intro t u args r e _ ih t' rest heq x
    cases heq
    rw [bases_none e]; exact ih x

theorem gds_det {ts r r' : List Tag} (g : GetDefinedSplice h ts r)
    (g' : GetDefinedSplice h ts r') : r = r' := by
  refine GetDefinedSplice.rec
    (motive_1 := fun ts r _ => ∀ r', GetDefinedSplice h ts r' → r = r')
    (motive_2 := fun ts r _ => ∀ r', GetNextSplice h ts r' → r = r')
    ?_ ?_ ?_ ?_ ?_ ?_ g r' g'
  · intro t r _ ih r' g'
    cases g' with
    | last _ r' g' => rw [ih _ g']
  · intro t u args r _ ih r' g'
    cases g' with
    | first _ _ _ r' g' => rw [ih _ g']
  · intro t ps r e _ ih r' g'
    cases g' with
    | lastDerived _ ps' _ e' g' => rw [e] at e'; cases e'; exact ih _ g'
    | lastRoot _ e' => rw [e] at e'; cases e'
  · intro t e r' g'
    cases g' with
    | lastDerived _ ps' _ e' g' => rw [e] at e'; cases e'
    | lastRoot _ e' => rfl
  · intro t u args ps r e _ ih r' g'
    cases g' with
    | firstDerived _ _ _ ps' _ e' g' => rw [e] at e'; cases e'; exact ih _ g'
    | firstRoot _ _ _ _ e' g' => rw [e] at e'; cases e'
  · intro t u args r e _ ih r' g'
    cases g' with
    | firstDerived _ _ _ ps' _ e' g' => rw [e] at e'; cases e'
    | firstRoot _ _ _ _ e' g' => exact ih _ g'

/-! ### termination -/

theorem getDefined_cons (hp : Proper h) (t : Tag) :
    ∀ rest, (rest = [] ∨ ∃ r, GetDefined h defined rest r) →
      ∃ r, GetDefined h defined (t :: rest) r := by
  induction t using hp.acyclic.induction with
  | _ t ih =>
    intro rest hrest
    have many : ∀ ps, (∀ p ∈ ps, p ∈ bases h t) → ps ++ rest ≠ [] →
        ∃ r, GetDefined h defined (ps ++ rest) r := by
      intro ps
      induction ps with
      | nil =>
        intro _ hne
        rcases hrest with rfl | hr
        · exact absurd rfl hne
        · exact hr
      | cons p ps ihp =>
        intro hps _
        apply ih p (Or.inl (hps p (by simp)))
        by_cases hn : ps ++ rest = []
        · exact Or.inl hn
        · exact Or.inr (ihp (fun q hq => hps q (by simp [hq])) hn)
    cases e : h.inherits t with
    | none =>
      cases rest with
      | nil => exact ⟨_, .lastRoot t e⟩
      | cons u args =>
        rcases hrest with hr | ⟨r, hr⟩
        · cases hr
        · exact ⟨_, .firstRoot t u args r e hr⟩
    | some ps =>
      have hne := hp.nonempty t ps e
      obtain ⟨r, hr⟩ := many ps (by rw [bases_some e]; simp) (by simp [hne])
      cases rest with
      | nil => exact ⟨_, .lastDerived t ps r e (by simpa using hr)⟩
      | cons u args => exact ⟨_, .firstDerived t u args ps r e hr⟩

theorem getDefined_total (hp : Proper h) (ts : List Tag) (hne : ts ≠ []) :
    ∃ r, GetDefined h defined ts r := by
  induction ts with
  | nil => exact absurd rfl hne
  | cons t ts ih =>
    apply getDefined_cons hp
    by_cases hn : ts = []
    · exact Or.inl hn
    · exact Or.inr (ih hn)

/-- number of tags in the unfolded hierarchy of a tag -/
noncomputable def weight (hp : Proper h) : Tag → ℕ :=
  hp.acyclic.fix fun t w =>
    1 + (((bases h t).attach.map fun u => w u.1 (Or.inl u.2)).sum +
      ((h.splices t).attach.map fun u => w u.1 (Or.inr u.2)).sum)

theorem weight_eq (hp : Proper h) (t : Tag) :
    weight hp t = 1 + (((bases h t).map (weight hp)).sum + ((h.splices t).map (weight hp)).sum) := by
  unfold weight
  rw [WellFounded.fix_eq]
  congr 2
  · congr 1
    exact List.attach_map_val (l := bases h t) (f := fun u => hp.acyclic.fix _ u)
  · congr 1
    exact List.attach_map_val (l := h.splices t) (f := fun u => hp.acyclic.fix _ u)

theorem gds_total (hp : Proper h) (n : ℕ) :
    ∀ ts : List Tag, ts ≠ [] → (ts.map (weight hp)).sum ≤ n →
      ∃ r, GetDefinedSplice h ts r := by
  induction n with
  | zero =>
    intro ts hne hs
    cases ts with
    | nil => exact absurd rfl hne
    | cons t ts => rw [List.map_cons, List.sum_cons, weight_eq] at hs; omega
  | succ n ih =>
    intro ts hne hs
    cases ts with
    | nil => exact absurd rfl hne
    | cons t rest =>
      rw [List.map_cons, List.sum_cons, weight_eq] at hs
      have hs' : ((bases h t ++ (rest ++ h.splices t)).map (weight hp)).sum ≤ n := by
        simp only [List.map_append, List.sum_append]; omega
      have next : ∃ r, GetNextSplice h (t :: (rest ++ h.splices t)) r := by
        by_cases hn : bases h t ++ (rest ++ h.splices t) = []
        · rw [List.append_eq_nil_iff] at hn
          have e : h.inherits t = none := by
            cases e : h.inherits t with
            | none => rfl
            | some ps =>
              rw [bases_some e] at hn; exact absurd hn.1 (hp.nonempty t ps e)
          rw [hn.2]
          exact ⟨[], .lastRoot t e⟩
        · obtain ⟨r, hr⟩ := ih _ hn hs'
          exact ⟨r, next_intro (hp.nonempty t) hr⟩
      obtain ⟨r, hr⟩ := next
      cases rest with
      | nil => exact ⟨_, .last t r (by simpa using hr)⟩
      | cons u args => exact ⟨_, .first t u args r hr⟩

/-! ### positions and inheritance -/

theorem tagAt_inherits (q : List ℕ) : ∀ (ts : List Tag) (e : Tag), tagAt h ts q = some e →
    ∃ t ∈ ts, InheritsFrom h t e := by
  induction q with
  | nil => intro ts e he; simp [tagAt] at he
  | cons i p ih =>
    intro ts e he
    cases p with
    | nil =>
      simp only [tagAt] at he
      exact ⟨e, List.mem_of_getElem? he, Relation.ReflTransGen.refl⟩
    | cons j p =>
      rw [tagAt_cons] at he
      cases ht : ts[i]? with
      | none => rw [ht] at he; simp at he
      | some t =>
        rw [ht] at he
        simp only [Option.bind_some] at he
        obtain ⟨u, hu, hue⟩ := ih _ _ he
        exact ⟨t, List.mem_of_getElem? ht, Relation.ReflTransGen.head hu hue⟩

theorem inherits_tagAt {t e : Tag} (hte : InheritsFrom h t e) (ts : List Tag) (i : ℕ)
    (hi : ts[i]? = some t) : ∃ p, tagAt h ts (i :: p) = some e := by
  induction hte using Relation.ReflTransGen.head_induction_on generalizing ts i with
  | refl => exact ⟨[], by simpa [tagAt] using hi⟩
  | head hab _ ih =>
    obtain ⟨j, hj⟩ := List.mem_iff_getElem?.1 hab
    obtain ⟨p, hp⟩ := ih _ j hj
    exact ⟨j :: p, by rw [tagAt_cons, hi]; simpa using hp⟩

theorem inherits_reaches {t e : Tag} (hte : InheritsFrom h t e) : Reaches h t e := by
  induction hte with
  | refl => exact Relation.ReflTransGen.refl
  | tail _ hbc ih => exact ih.tail (Or.inl hbc)

/-- everything that can be reached is found from the tag or from a splice -/
theorem reaches_split {t e : Tag} (hte : Reaches h t e) :
    InheritsFrom h t e ∨ ∃ s, Spliced h [t] s ∧ InheritsFrom h s e := by
  induction hte with
  | refl => exact Or.inl Relation.ReflTransGen.refl
  | @tail b c htb hbc ih =>
    rcases hbc with hbc | hbc
    · rcases ih with ih | ⟨s, hs, ih⟩
      · exact Or.inl (ih.tail hbc)
      · exact Or.inr ⟨s, hs, ih.tail hbc⟩
    · exact Or.inr ⟨c, ⟨t, by simp, b, htb, hbc⟩, Relation.ReflTransGen.refl⟩

theorem spliced_reaches {t s : Tag} (hs : Spliced h [t] s) : Reaches h t s := by
  obtain ⟨u, hu, v, hv, hx⟩ := hs
  rw [List.mem_singleton] at hu
  subst hu
  exact Relation.ReflTransGen.tail hv (Or.inr hx)

/-- positions can be continued -/
theorem tagAt_append (p : List ℕ) : ∀ (ts : List Tag) (a : Tag) (s : List ℕ) (e : Tag),
    tagAt h ts p = some a → s ≠ [] → tagAt h (bases h a) s = some e →
    tagAt h ts (p ++ s) = some e := by
  induction p with
  | nil => intro ts a s e ha; simp [tagAt] at ha
  | cons i p ih =>
    intro ts a s e ha hs he
    cases p with
    | nil =>
      simp only [tagAt] at ha
      cases s with
      | nil => exact absurd rfl hs
      | cons j s =>
        rw [List.cons_append, List.nil_append, tagAt_cons, ha]
        exact he
    | cons j p =>
      rw [tagAt_cons] at ha
      rw [List.cons_append, List.cons_append, tagAt_cons]
      cases ht : ts[i]? with
      | none => rw [ht] at ha; simp at ha
      | some t =>
        rw [ht] at ha
        simp only [Option.bind_some] at ha ⊢
        exact ih _ a s e ha hs he

theorem before_append (p s : List ℕ) (hs : s ≠ []) : Before p (p ++ s) := by
  induction p with
  | nil =>
    cases s with
    | nil => exact absurd rfl hs
    | cons j s => exact List.Lex.nil
  | cons i p ih => exact List.Lex.cons ih

/-- a step of inheritance from a tag that does not define the property -/
def PlainStep (h : Hierarchy Tag) (defined : Tag → Bool) (a b : Tag) : Prop :=
  b ∈ bases h a ∧ defined a = false

theorem chain_of_position (p : List ℕ) : ∀ (ts : List Tag) (d : Tag),
    tagAt h ts p = some d →
    (∀ q e, Before q p → tagAt h ts q = some e → defined e = false) →
    ∃ i t, p.head? = some i ∧ ts[i]? = some t ∧
      Relation.ReflTransGen (PlainStep h defined) t d := by
  induction p with
  | nil => intro ts d hd; simp [tagAt] at hd
  | cons i p ih =>
    intro ts d hd hmin
    cases p with
    | nil =>
      simp only [tagAt] at hd
      exact ⟨i, d, rfl, hd, Relation.ReflTransGen.refl⟩
    | cons j p =>
      have hd' := hd
      rw [tagAt_cons] at hd'
      cases ht : ts[i]? with
      | none => rw [ht] at hd'; simp at hd'
      | some t =>
        rw [ht] at hd'
        simp only [Option.bind_some] at hd'
        obtain ⟨k, u, hk, hu, hchain⟩ := ih (bases h t) d hd' (by
          intro q e hb he
          have hq : q ≠ [] := by rintro rfl; simp [tagAt] at he
          refine hmin (i :: q) e (before_cons.2 (Or.inr ⟨rfl, hb⟩)) ?_
          cases q with
          | nil => exact absurd rfl hq
          | cons a q => rw [tagAt_cons, ht]; exact he)
        refine ⟨i, t, rfl, ht, Relation.ReflTransGen.head ⟨List.mem_of_getElem? hu, ?_⟩ hchain⟩
        refine hmin [i] t ?_ (by simpa [tagAt] using ht)
        exact before_append [i] (j :: p) (by simp)

end PropSys
