import Verif.Volumes.Spec
import Mathlib.Algebra.Order.BigOperators.Group.List
import Mathlib.Tactic.Linarith
import Mathlib.Tactic.NormNum
import Mathlib.Data.Fin.VecNotation
import Mathlib.Tactic.FinCases
import Mathlib.Algebra.Order.Ring.Rat

/-
C150: volumes of degrees of freedom, the volume of the grid and its bounding box.
-/

set_option autoImplicit false
set_option linter.unusedSectionVars false

namespace Verif.Volumes

open Verif.Mpi Verif.GridComm

variable {P : ℕ} {C E K : Type}

/-! ### Tallies -/

open Classical in
theorem addElement_eq [AddCommMonoid K] (l : List (ℕ × K)) (s : Tally K) :
    let r := l.foldl (fun s d => ({ volume := Function.update s.volume d.1 (s.volume d.1 + d.2), total := s.total + d.2 } : Tally K)) s
    (∀ i, r.volume i = s.volume i + ((l.filter fun d => d.1 = i).map Prod.snd).sum) ∧ r.total = s.total + (l.map Prod.snd).sum := by
  induction l generalizing s with
  | nil => simp
  | cons a l ih =>
    obtain ⟨h1, h2⟩ := ih { volume := Function.update s.volume a.1 (s.volume a.1 + a.2), total := s.total + a.2 }
    refine ⟨fun i => (h1 i).trans ?_, h2.trans ?_⟩
    · by_cases ha : a.1 = i
      · subst ha
        simp [add_assoc]
      · simp [ha, Function.update_of_ne (Ne.symm ha)]
    · simp [add_assoc]

open Classical in
theorem tally_eq [AddCommMonoid K] (l : List (Element K)) :
    (∀ i, (tally l).volume i = ((l.filter (·.interior)).map fun e =>
      (((e.dofs.take e.numPrimary).filter fun d => d.1 = i).map Prod.snd).sum).sum) ∧
      (tally l).total = ((l.filter (·.interior)).map fun e => ((e.dofs.take e.numPrimary).map Prod.snd).sum).sum := by
  suffices h : ∀ s : Tally K,
      (∀ i, (l.foldl (fun s e => if e.interior then addElement s e else s) s).volume i = s.volume i +
        ((l.filter (·.interior)).map fun e => (((e.dofs.take e.numPrimary).filter fun d => d.1 = i).map Prod.snd).sum).sum) ∧
      (l.foldl (fun s e => if e.interior then addElement s e else s) s).total = s.total +
        ((l.filter (·.interior)).map fun e => ((e.dofs.take e.numPrimary).map Prod.snd).sum).sum by
    obtain ⟨h1, h2⟩ := h { volume := fun _ => 0, total := 0 }
    refine ⟨fun i => (h1 i).trans (zero_add _), h2.trans (zero_add _)⟩
  induction l with
  | nil => simp
  | cons a l ih =>
    intro s
    rw [List.foldl_cons]
    by_cases ha : a.interior = true
    · rw [if_pos ha]
      obtain ⟨h1, h2⟩ := ih (addElement s a)
      obtain ⟨k1, k2⟩ := addElement_eq (a.dofs.take a.numPrimary) s
      refine ⟨fun i => (h1 i).trans ?_, h2.trans ?_⟩
      · rw [List.filter_cons_of_pos ha, List.map_cons, List.sum_cons, ← add_assoc]
        congr 1
        exact k1 i
      · rw [List.filter_cons_of_pos ha, List.map_cons, List.sum_cons, ← add_assoc]
        congr 1
    · rw [if_neg ha, List.filter_cons_of_neg ha]
      exact ih s

section

variable [AddCommMonoid K] {g : Grid C E K} {owner : C → Fin P} {held : Fin P → List C} {view : Fin P → C → Element K}
  {face : Interface P E} {ents inner : Fin P → Set E}

/-- The elements of the process `p` -/
def elements (held : Fin P → List C) (view : Fin P → C → Element K) (p : Fin P) : List (Element K) := (held p).map (view p)

theorem interior_perm [DecidableEq (Fin P)] (h : Spread g owner held view face ents inner) (p : Fin P) :
    ((held p).filter fun c => (view p c).interior).Perm (g.cells.filter fun c => owner c = p) := by
  rw [List.perm_ext_iff_of_nodup ((h.heldNodup p).filter _) (h.nodup.filter _)]
  intro c
  simp only [List.mem_filter, decide_eq_true_eq]
  constructor
  · rintro ⟨h1, h2⟩
    exact ⟨h.heldCell p c h1, (h.interior p c h1).1 h2⟩
  · rintro ⟨h1, h2⟩
    have h3 : c ∈ held p := h2 ▸ h.owned c h1
    exact ⟨h3, (h.interior p c h3).2 h2⟩

open Classical in
theorem volume_local (h : Spread g owner held view face ents inner) (p : Fin P) (e : E) (he : e ∈ ents p) :
    (tally (elements held view p)).volume (face.index p e) =
      ((g.cells.filter fun c => owner c = p).map fun c => (((g.parts c).filter fun x => x.1 = e).map Prod.snd).sum).sum := by
  rw [(tally_eq _).1, elements, List.filter_map, List.map_map, ← ((interior_perm h p).map _).sum_eq]
  congr 1
  apply List.map_congr_left
  intro c hc
  obtain ⟨h1, h2⟩ := List.mem_filter.1 hc
  have ho := (h.interior p c h1).1 h2
  simp only [Function.comp]
  rw [h.dofs p c h1 ho, List.filter_map, List.map_map]
  congr 2
  apply List.filter_congr
  intro x hx
  have hm : x.1 ∈ ents p := ho ▸ h.innerHas _ (h.innerParts c (h.heldCell p c h1) x hx)
  simp only [Function.comp, decide_eq_decide]
  exact ⟨fun hh => h.proper.inj p hm he hh, fun hh => by rw [hh]⟩

theorem total_local [DecidableEq (Fin P)] (h : Spread g owner held view face ents inner) (p : Fin P) :
    (tally (elements held view p)).total =
      ((g.cells.filter fun c => owner c = p).map fun c => ((g.parts c).map Prod.snd).sum).sum := by
  rw [(tally_eq _).2, elements, List.filter_map, List.map_map, ← ((interior_perm h p).map _).sum_eq]
  congr 1
  apply List.map_congr_left
  intro c hc
  obtain ⟨h1, h2⟩ := List.mem_filter.1 hc
  have ho := (h.interior p c h1).1 h2
  simp only [Function.comp]
  rw [h.dofs p c h1 ho, List.map_map]
  rfl

theorem sum_owners [DecidableEq (Fin P)] (l : List C) (owner : C → Fin P) (f : C → K) :
    ∑ p, ((l.filter fun c => owner c = p).map f).sum = (l.map f).sum := by
  induction l with
  | nil => simp
  | cons a l ih =>
    have ha : f a = ∑ p, if owner a = p then f a else 0 := by simp
    rw [List.map_cons, List.sum_cons, ← ih, ha, ← Finset.sum_add_distrib]
    apply Finset.sum_congr rfl
    intro p _
    by_cases hp : owner a = p
    · simp [hp]
    · simp [hp]

open Classical in
/-- **C150** In whatever order messages are sent and received: when the exchange is over, the volume which each process has for each
degree of freedom is that of all its parts in all cells of the whole grid, and the exchange does not get stuck. -/
theorem C150_volume (h : Spread g owner held view face ents inner) {s : System (Fin P) (ℕ → K) (List K)}
    (hr : Reach (sumVolumes face (elements held view)) s) :
    (Finished s → ∀ p, ∀ e ∈ ents p, s.state p (face.index p e) = g.volume e) ∧ (¬Finished s → ∃ t, Step true s t) := by
  obtain ⟨h1, h2⟩ := communicate_apply h.proper (· + ·) _ (s := s) hr
  refine ⟨fun hf q e he => ?_, h2⟩
  rw [h1 hf q e he, foldl_sum, Grid.volume, ← sum_owners g.cells owner]
  have hz : ∀ p, e ∉ inner p →
      ((g.cells.filter fun c => owner c = p).map fun c => (((g.parts c).filter fun x => x.1 = e).map Prod.snd).sum).sum = 0 := by
    intro p hp
    apply List.sum_eq_zero
    intro v hv
    obtain ⟨c, hc, rfl⟩ := List.mem_map.1 hv
    obtain ⟨hc, ho⟩ := List.mem_filter.1 hc
    rw [List.filter_eq_nil_iff.2, List.map_nil, List.sum_nil]
    intro x hx hxe
    apply hp
    have := h.innerParts c hc x hx
    rwa [of_decide_eq_true ho, of_decide_eq_true hxe] at this
  rw [Verif.Sync.sum_split q ((face.peers q).filter fun p => decide (e ∈ face.sent p q)) ((h.proper.nodup q).filter _)
    (fun hq => h.proper.irrefl q (List.mem_filter.1 hq).1)]
  · rw [volume_local h q e he]
    congr 2
    apply List.map_congr_left
    intro p hp
    have hs := of_decide_eq_true (List.mem_filter.1 hp).2
    exact volume_local h p e (h.innerHas p ((h.sent p q e).1 hs).2.1)
  · intro p hpq hp
    apply hz
    intro hi
    have hs := (h.sent p q e).2 ⟨hpq, hi, he⟩
    exact hp (List.mem_filter.2 ⟨(h.proper.symm p q).1 (h.proper.has p q e hs).1, decide_eq_true hs⟩)

/-- **C150** The volume of the grid is that of all cells, each of which counts once, whatever copies processes have. -/
theorem C150_total (h : Spread g owner held view face ents inner) : gridTotalVolume (elements held view) = g.total := by
  classical
  rw [gridTotalVolume, Grid.total, ← sum_owners g.cells owner, List.sum_ofFn]
  exact Finset.sum_congr rfl fun p _ => total_local h p

end

section

variable [AddCommMonoid K] [LinearOrder K] [IsOrderedCancelAddMonoid K] {g : Grid C E K} {owner : C → Fin P}
  {held : Fin P → List C} {view : Fin P → C → Element K} {face : Interface P E} {ents inner : Fin P → Set E}

/-- **C150** If parts of control volumes have positive volumes: a degree of freedom is local on a process iff the control volume has
a part in a cell of the interior of this process. -/
theorem C150_local (h : Spread g owner held view face ents inner) (hpos : ∀ c ∈ g.cells, ∀ x ∈ g.parts c, 0 < x.2) (p : Fin P)
    (e : E) (he : e ∈ ents p) :
    isLocalDof (tally (elements held view p)) (face.index p e) = true ↔
      ∃ c ∈ g.cells, owner c = p ∧ e ∈ (g.parts c).map Prod.fst := by
  classical
  rw [isLocalDof, decide_eq_true_eq, volume_local h p e he]
  have nonneg : ∀ c ∈ g.cells, ∀ v ∈ ((g.parts c).filter fun x => x.1 = e).map Prod.snd, 0 < v := by
    intro c hc v hv
    obtain ⟨x, hx, rfl⟩ := List.mem_map.1 hv
    exact hpos c hc x (List.mem_filter.1 hx).1
  constructor
  · intro hne
    by_contra hno
    apply hne
    apply List.sum_eq_zero
    intro v hv
    obtain ⟨c, hc, rfl⟩ := List.mem_map.1 hv
    obtain ⟨hc, ho⟩ := List.mem_filter.1 hc
    rw [List.filter_eq_nil_iff.2, List.map_nil, List.sum_nil]
    intro x hx hxe
    exact hno ⟨c, hc, of_decide_eq_true ho, List.mem_map.2 ⟨x, hx, of_decide_eq_true hxe⟩⟩
  · rintro ⟨c, hc, ho, hm⟩
    obtain ⟨x, hx, rfl⟩ := List.mem_map.1 hm
    apply ne_of_gt
    have hcp : 0 < (((g.parts c).filter fun y => y.1 = x.1).map Prod.snd).sum := by
      refine List.sum_pos _ (nonneg c hc) ?_
      intro hnil
      have : x ∈ (g.parts c).filter fun y => y.1 = x.1 := List.mem_filter.2 ⟨hx, by simp⟩
      rw [List.map_eq_nil_iff.1 hnil] at this
      simp at this
    refine hcp.trans_le (List.single_le_sum ?_ _ (List.mem_map.2 ⟨c, List.mem_filter.2 ⟨hc, decide_eq_true ho⟩, rfl⟩))
    intro v hv
    obtain ⟨d, hd, rfl⟩ := List.mem_map.1 hv
    exact List.sum_nonneg fun w hw => (nonneg d (List.mem_filter.1 hd).1 w hw).le

end

/-! ### An example: two cells of length one in a row, with half a cell for each of their vertices; the process 0 also has a copy of
the cell of the process 1, and the processes number their vertices differently. -/

def rowGrid : Grid (Fin 2) ℕ ℚ where
  cells := [0, 1]
  parts c := [(c, 1 / 2), (c + 1, 1 / 2)]

def rowEnts (p : Fin 2) : List ℕ := if p = 0 then [0, 1, 2] else [1, 2]

def rowInner (p : Fin 2) : List ℕ := if p = 0 then [0, 1] else [1, 2]

def rowFace : Interface 2 ℕ where
  peers p := [1 - p]
  sent p q := if p = q then [] else if p = 0 then [1] else [1, 2]
  index p e := if p = 0 then e else 2 - e

def rowView (p c : Fin 2) : Element ℚ where
  interior := decide (c = p)
  dofs := [(rowFace.index p c, 1 / 2), (rowFace.index p (c + 1), 1 / 2)]
  numPrimary := 2

theorem row_spread : Spread rowGrid id (fun p => if p = 0 then [0, 1] else [1]) rowView rowFace (fun p => {e | e ∈ rowEnts p})
    fun p => {e | e ∈ rowInner p} where
  nodup := by decide
  heldNodup := by decide
  heldCell := by decide
  owned := by decide
  interior := by decide
  dofs := by
    intro p c _ _
    rfl
  proper :=
    { nodup := by decide
      symm := by decide
      irrefl := by decide
      inj := by
        intro p a ha b hb hab
        have key : ∀ p : Fin 2, ∀ a ∈ rowEnts p, ∀ b ∈ rowEnts p, rowFace.index p a = rowFace.index p b → a = b := by decide
        exact key p a ha b hb hab
      once := by decide
      has := by
        have key : ∀ p q : Fin 2, ∀ e ∈ rowFace.sent p q, q ∈ rowFace.peers p ∧ e ∈ rowEnts p ∧ e ∈ rowEnts q := by decide
        exact key }
  innerHas := by
    have key : ∀ p : Fin 2, ∀ e ∈ rowInner p, e ∈ rowEnts p := by decide
    exact fun p e => key p e
  innerParts := by
    have key : ∀ c : Fin 2, (c : ℕ) ∈ rowInner c ∧ (c : ℕ) + 1 ∈ rowInner c := by decide
    intro c _ x hx
    have hx' : x = ((c : ℕ), 1 / 2) ∨ x = ((c : ℕ) + 1, 1 / 2) := by simpa [rowGrid] using hx
    rcases hx' with rfl | rfl
    · exact (key c).1
    · exact (key c).2
  sent := by
    intro p q e
    fin_cases p <;> fin_cases q <;> simp [rowFace, rowInner, rowEnts] <;> omega

/-- The vertex between the cells has the volume 1 on both processes, and the grid has the volume 2. -/
example (s : System (Fin 2) (ℕ → ℚ) (List ℚ))
    (hr : Reach (sumVolumes rowFace (elements (fun p => if p = 0 then [0, 1] else [1]) rowView)) s) (hf : Finished s) :
    s.state 0 1 = 1 ∧ s.state 1 1 = 1 ∧ s.state 0 2 = 1 / 2 ∧
      gridTotalVolume (elements (fun p => if p = 0 then [0, 1] else [1]) rowView) = 2 := by
  have h := (C150_volume row_spread hr).1 hf
  have h0 := h 0 1 (by simp [rowEnts])
  have h1 := h 1 1 (by simp [rowEnts])
  have h2 := h 0 2 (by simp [rowEnts])
  have ht := C150_total row_spread
  simp only [rowFace, Grid.volume, rowGrid, Grid.total] at h0 h1 h2 ht
  norm_num at h0 h1 h2 ht
  refine ⟨h0, h1, h2, ?_⟩
  exact ht

/-! ### The bounding box -/

section

variable [LinearOrder K] [AddCommGroup K] {n : ℕ}

theorem localBox_eq (dim : ℕ) (l : List (Fin n → K)) (b : Box n K) (i : Fin n) (hi : (i : ℕ) < dim) :
    (l.foldl (grow dim) b).lower i = (l.map fun x => x i).foldl stdMin (b.lower i) ∧
      (l.foldl (grow dim) b).upper i = (l.map fun x => x i).foldl stdMax (b.upper i) := by
  induction l generalizing b with
  | nil => exact ⟨rfl, rfl⟩
  | cons a l ih =>
    obtain ⟨h1, h2⟩ := ih (grow dim b a)
    rw [List.foldl_cons, List.map_cons, List.foldl_cons, List.foldl_cons, h1, h2]
    simp [grow, hi]

theorem localBox_rest (dim : ℕ) (l : List (Fin n → K)) (b : Box n K) (i : Fin n) (hi : ¬(i : ℕ) < dim) :
    (l.foldl (grow dim) b).lower i = b.lower i ∧ (l.foldl (grow dim) b).upper i = b.upper i := by
  induction l generalizing b with
  | nil => exact ⟨rfl, rfl⟩
  | cons a l ih =>
    obtain ⟨h1, h2⟩ := ih (grow dim b a)
    rw [List.foldl_cons, h1, h2]
    simp [grow, hi]

/-- **C150** If the grid has as many dimensions as the space which it is in, the bounding box is the smallest one which contains
all vertices of all processes, and all processes have the same one, even those without vertices. -/
theorem C150_box_partial (big : K) (vertices : Fin (P + 1) → List (Fin n → K)) (p : Fin (P + 1)) (i : Fin n)
    (hsome : ∃ q, vertices q ≠ []) (hbig : ∀ q, ∀ x ∈ vertices q, -big ≤ x i ∧ x i ≤ big) :
    IsLeast {y | ∃ q, ∃ x ∈ vertices q, y = x i} ((box n big vertices p).lower i) ∧
      IsGreatest {y | ∃ q, ∃ x ∈ vertices q, y = x i} ((box n big vertices p).upper i) := by
  obtain ⟨q₀, hq₀⟩ := hsome
  obtain ⟨x₀, hx₀⟩ := List.exists_mem_of_ne_nil _ hq₀
  have hl : ∀ q, IsLeast {y | y = big ∨ y ∈ (vertices q).map fun x => x i} ((localBox n big (vertices q)).lower i) := by
    intro q
    rw [localBox, (localBox_eq n (vertices q) _ i i.2).1]
    exact foldl_min _ _
  have hu : ∀ q, IsGreatest {y | y = -big ∨ y ∈ (vertices q).map fun x => x i} ((localBox n big (vertices q)).upper i) := by
    intro q
    rw [localBox, (localBox_eq n (vertices q) _ i i.2).2]
    exact foldl_max _ _
  constructor
  · simp only [box, if_pos i.2]
    obtain ⟨hm, hle⟩ := foldl_min (List.ofFn fun q => (localBox n big (vertices q)).lower i) ((localBox n big (vertices 0)).lower i)
    set r := (List.ofFn fun q => (localBox n big (vertices q)).lower i).foldl stdMin ((localBox n big (vertices 0)).lower i) with hr
    have below : ∀ q, ∀ x ∈ vertices q, r ≤ x i := fun q x hx =>
      (hle (Or.inr (List.mem_ofFn.2 ⟨q, rfl⟩))).trans ((hl q).2 (Or.inr (List.mem_map.2 ⟨x, hx, rfl⟩)))
    refine ⟨?_, ?_⟩
    · obtain ⟨q, hq⟩ : ∃ q, r = (localBox n big (vertices q)).lower i := by
        rcases hm with hm | hm
        · exact ⟨0, hm⟩
        · obtain ⟨q, hq⟩ := List.mem_ofFn.1 hm
          exact ⟨q, hq.symm⟩
      rcases (hl q).1 with hb | hb
      · refine ⟨q₀, x₀, hx₀, ?_⟩
        rw [hq, hb]
        apply le_antisymm _ (hbig q₀ x₀ hx₀).2
        rw [← hb, ← hq]
        exact below q₀ x₀ hx₀
      · obtain ⟨x, hx, hxi⟩ := List.mem_map.1 hb
        exact ⟨q, x, hx, by rw [hq, ← hxi]⟩
    · rintro y ⟨q, x, hx, rfl⟩
      exact below q x hx
  · simp only [box, if_pos i.2]
    obtain ⟨hm, hle⟩ := foldl_max (List.ofFn fun q => (localBox n big (vertices q)).upper i) ((localBox n big (vertices 0)).upper i)
    set r := (List.ofFn fun q => (localBox n big (vertices q)).upper i).foldl stdMax ((localBox n big (vertices 0)).upper i) with hr
    have above : ∀ q, ∀ x ∈ vertices q, x i ≤ r := fun q x hx =>
      ((hu q).2 (Or.inr (List.mem_map.2 ⟨x, hx, rfl⟩))).trans (hle (Or.inr (List.mem_ofFn.2 ⟨q, rfl⟩)))
    refine ⟨?_, ?_⟩
    · obtain ⟨q, hq⟩ : ∃ q, r = (localBox n big (vertices q)).upper i := by
        rcases hm with hm | hm
        · exact ⟨0, hm⟩
        · obtain ⟨q, hq⟩ := List.mem_ofFn.1 hm
          exact ⟨q, hq.symm⟩
      rcases (hu q).1 with hb | hb
      · refine ⟨q₀, x₀, hx₀, ?_⟩
        rw [hq, hb]
        apply le_antisymm (hbig q₀ x₀ hx₀).1
        rw [← hb, ← hq]
        exact above q₀ x₀ hx₀
      · obtain ⟨x, hx, hxi⟩ := List.mem_map.1 hb
        exact ⟨q, x, hx, by rw [hq, ← hxi]⟩
    · rintro y ⟨q, x, hx, rfl⟩
      exact above q x hx

/-- **C150, violated** A grid of fewer dimensions than the space which it is in (a surface in space): the remaining coordinates of
the box stay what they were at the beginning, so that no vertex is within the box. -/
theorem C150_box_violated (dim : ℕ) (big : K) (vertices : Fin (P + 1) → List (Fin n → K)) (p : Fin (P + 1)) (i : Fin n)
    (hi : dim ≤ (i : ℕ)) : (box dim big vertices p).lower i = big ∧ (box dim big vertices p).upper i = -big := by
  have hn : ¬(i : ℕ) < dim := Nat.not_lt.2 hi
  simp only [box, if_neg hn, localBox]
  exact localBox_rest dim _ _ i hn

end

/-- A segment of a plane on three processes, the second of which has no vertices -/
example (p : Fin 3) : IsLeast {y : ℚ | ∃ q, ∃ x ∈ (![[![1, 2]], [], [![-1, 5], ![0, 0]]] : Fin 3 → List (Fin 2 → ℚ)) q, y = x 0}
    ((box 2 1000 ![[![1, 2]], [], [![-1, 5], ![0, 0]]] p).lower 0) := by
  refine (C150_box_partial 1000 _ p 0 ⟨0, by simp⟩ ?_).1
  intro q x hx
  fin_cases q
  · simp at hx; subst hx; norm_num
  · simp at hx
  · simp at hx
    rcases hx with rfl | rfl <;> norm_num

end Verif.Volumes
