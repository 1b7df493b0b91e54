import Verif.Overlap.Spec
import Verif.GlobalIdx.Lemmas

/-
The extension of the foreign overlap is a breadth-first search.
-/

set_option autoImplicit false
set_option linter.unusedSectionVars false

namespace Verif.Overlap

open Verif.GlobalIdx

variable {P : ℕ} {d : Native P}

/-! ### Local and native indices -/

theorem toLocal_iff (i l : ℕ) : d.nativeToLocal i = some l ↔ d.localToNative l = some i := by
  unfold Native.nativeToLocal Native.localToNative
  rw [nativeToLocal_eq]
  rfl

theorem isLocal_iff (i : ℕ) : d.IsLocal i ↔ ∃ l, d.nativeToLocal i = some l := by
  unfold Native.IsLocal
  have h : (∃ l, d.nativeToLocal i = some l) ↔ i ∈ locals (d.part []) := by
    unfold Native.nativeToLocal
    simp only [nativeToLocal_eq]
    constructor
    · rintro ⟨l, h⟩; exact List.mem_of_getElem? h
    · intro h
      obtain ⟨l, hl, e⟩ := List.getElem_of_mem h
      exact ⟨l, by rw [List.getElem?_eq_getElem hl, e]⟩
  rw [h]
  unfold locals
  rw [List.mem_filter, List.mem_range, decide_eq_true_eq]
  constructor
  · intro h
    exact ⟨(List.getElem?_eq_some_iff.1 h).1, h⟩
  · exact fun h => h.2

theorem toLocal_inj {i j l : ℕ} (hi : d.nativeToLocal i = some l) (hj : d.nativeToLocal j = some l) : i = j := by
  rw [toLocal_iff] at hi hj
  rw [hi] at hj
  exact Option.some.inj hj

theorem toLocal_lt {i l : ℕ} (hi : d.nativeToLocal i = some l) : l < d.numLocal := by
  unfold Native.numLocal
  rw [numLocal_eq]
  rw [toLocal_iff] at hi
  exact (List.getElem?_eq_some_iff.1 hi).1

theorem exists_native {l : ℕ} (hl : l < d.numLocal) : ∃ i, d.nativeToLocal i = some l := by
  unfold Native.numLocal at hl
  rw [numLocal_eq] at hl
  exact ⟨(locals (d.part []))[l], by rw [toLocal_iff]; exact List.getElem?_eq_getElem hl⟩

/-! ### One level -/

theorem addSeed_other (dist : ℕ) (s : Foreign P) (e : Seed P) :
    (addSeed d dist s e).seeds = s.seeds ∧ (addSeed d dist s e).peers = s.peers := by
  unfold addSeed
  cases d.nativeToLocal e.index with
  | none => exact ⟨rfl, rfl⟩
  | some k => dsimp only; split_ifs <;> exact ⟨rfl, rfl⟩

theorem addSeeds_other (dist : ℕ) (s : Foreign P) :
    (addSeeds d dist s).seeds = s.seeds ∧ (addSeeds d dist s).peers = s.peers := by
  have : ∀ (l : List (Seed P)) (s : Foreign P),
      (l.foldl (addSeed d dist) s).seeds = s.seeds ∧ (l.foldl (addSeed d dist) s).peers = s.peers := by
    intro l
    induction l with
    | nil => intro s; exact ⟨rfl, rfl⟩
    | cons e l ih =>
      intro s
      rw [List.foldl_cons]
      exact ⟨(ih _).1.trans (addSeed_other _ _ _).1, (ih _).2.trans (addSeed_other _ _ _).2⟩
  exact this s.seeds s

theorem addSeed_byLocal (dist : ℕ) (s : Foreign P) (e : Seed P) (l : ℕ) (r : Fin P) :
    (addSeed d dist s e).byLocal l r =
      if (s.byLocal l r).isSome then s.byLocal l r
      else if d.nativeToLocal e.index = some l ∧ e.peerRank = r then some dist else none := by
  unfold addSeed
  cases hn : d.nativeToLocal e.index with
  | none => cases h : s.byLocal l r <;> simp [h]
  | some k =>
    dsimp only
    by_cases hl : k = l ∧ e.peerRank = r
    · obtain ⟨rfl, rfl⟩ := hl
      by_cases hk : (s.byLocal k e.peerRank).isSome
      · rw [if_pos hk, if_pos hk]
      · rw [if_neg hk, if_neg hk]; simp
    · have hl' : ¬(some k = some l ∧ e.peerRank = r) := by simpa using hl
      rw [if_neg hl']
      have key : ∀ t : Foreign P, t.byLocal l r = s.byLocal l r →
          t.byLocal l r = if (s.byLocal l r).isSome then s.byLocal l r else none := by
        intro t ht; rw [ht]; cases s.byLocal l r <;> simp
      apply key
      split_ifs with hk
      · rfl
      · by_cases hlk : l = k
        · subst hlk
          simp only [Function.update_self]
          rw [Function.update_of_ne (fun h => hl ⟨rfl, h.symm⟩)]
        · simp only [Function.update_of_ne hlk]

theorem addSeeds_byLocal (dist : ℕ) (s : Foreign P) (l : ℕ) (r : Fin P) :
    (addSeeds d dist s).byLocal l r =
      if (s.byLocal l r).isSome then s.byLocal l r
      else if ∃ e ∈ s.seeds, d.nativeToLocal e.index = some l ∧ e.peerRank = r then some dist else none := by
  unfold addSeeds
  generalize s.seeds = seeds
  induction seeds generalizing s with
  | nil =>
    rw [List.foldl_nil]
    cases h : s.byLocal l r <;> simp
  | cons e seeds ih =>
    rw [List.foldl_cons, ih, addSeed_byLocal]
    by_cases hs : (s.byLocal l r).isSome
    · simp only [hs, if_true]
    · by_cases he : d.nativeToLocal e.index = some l ∧ e.peerRank = r
      · simp only [List.mem_cons, exists_eq_or_imp, he, hs]
        simp
      · simp only [List.mem_cons, exists_eq_or_imp, he, hs, false_or]
        simp

/-- `i` is the index of a seed for the process `r`. -/
def IsSeed (seeds : List (Seed P)) (r : Fin P) (i : ℕ) : Prop := ∃ e ∈ seeds, e.index = i ∧ e.peerRank = r

theorem addColumn_mem (b : ℕ → Fin P → Option ℕ) (e : Seed P) (next : List (Seed P)) (c : ℕ) (r : Fin P) (i : ℕ) :
    IsSeed (addColumn d b e next c) r i ↔
      IsSeed next r i ∨ (c = i ∧ e.peerRank = r ∧ ∃ l, d.nativeToLocal i = some l ∧ b l r = none) := by
  unfold addColumn
  cases hn : d.nativeToLocal c with
  | none =>
    dsimp only
    constructor
    · exact Or.inl
    · rintro (h | ⟨rfl, -, l, h, -⟩)
      · exact h
      · rw [hn] at h; cases h
  | some lc =>
    dsimp only
    by_cases hb : (b lc e.peerRank).isSome
    · rw [if_pos hb]
      constructor
      · exact Or.inl
      · rintro (h | ⟨rfl, rfl, l, h, h'⟩)
        · exact h
        · rw [hn] at h; cases h; rw [h'] at hb; cases hb
    · rw [if_neg hb]
      by_cases ha : next.any (fun t => t.index = c ∧ t.peerRank = e.peerRank) = true
      · rw [if_pos ha]
        constructor
        · exact Or.inl
        · rintro (h | ⟨rfl, rfl, -⟩)
          · exact h
          · rw [List.any_eq_true] at ha
            obtain ⟨t, ht, h⟩ := ha
            rw [decide_eq_true_eq] at h
            exact ⟨t, ht, h⟩
      · rw [if_neg ha]
        unfold IsSeed
        simp only [List.mem_append, List.mem_singleton]
        constructor
        · rintro ⟨t, ht | rfl, h1, h2⟩
          · exact Or.inl ⟨t, ht, h1, h2⟩
          · dsimp only at h1 h2
            subst h1; subst h2
            exact Or.inr ⟨rfl, rfl, lc, hn, by simpa using hb⟩
        · rintro (⟨t, ht, h⟩ | ⟨rfl, rfl, -⟩)
          · exact ⟨t, Or.inl ht, h⟩
          · exact ⟨_, Or.inr rfl, rfl, rfl⟩

theorem addColumns_mem (b : ℕ → Fin P → Option ℕ) (e : Seed P) (next : List (Seed P)) (cs : List ℕ) (r : Fin P) (i : ℕ) :
    IsSeed (cs.foldl (addColumn d b e) next) r i ↔
      IsSeed next r i ∨ (i ∈ cs ∧ e.peerRank = r ∧ ∃ l, d.nativeToLocal i = some l ∧ b l r = none) := by
  induction cs generalizing next with
  | nil => simp
  | cons c cs ih =>
    rw [List.foldl_cons, ih, addColumn_mem, List.mem_cons]
    constructor
    · rintro ((h | ⟨rfl, h⟩) | ⟨hm, h⟩)
      · exact Or.inl h
      · exact Or.inr ⟨Or.inl rfl, h⟩
      · exact Or.inr ⟨Or.inr hm, h⟩
    · rintro (h | ⟨rfl | hm, h⟩)
      · exact Or.inl (Or.inl h)
      · exact Or.inl (Or.inr ⟨rfl, h⟩)
      · exact Or.inr ⟨hm, h⟩

theorem nextSeeds_mem (s : Foreign P) (r : Fin P) (i : ℕ) :
    IsSeed (nextSeeds d s) r i ↔
      (∃ j, d.IsLocal j ∧ IsSeed s.seeds r j ∧ i ∈ d.cols j) ∧ ∃ l, d.nativeToLocal i = some l ∧ s.byLocal l r = none := by
  unfold nextSeeds
  have : ∀ (seeds : List (Seed P)) (next : List (Seed P)),
      IsSeed (seeds.foldl (addRow d s.byLocal) next) r i ↔
        IsSeed next r i ∨ ((∃ j, d.IsLocal j ∧ IsSeed seeds r j ∧ i ∈ d.cols j) ∧
          ∃ l, d.nativeToLocal i = some l ∧ s.byLocal l r = none) := by
    intro seeds
    induction seeds with
    | nil => intro next; simp [IsSeed]
    | cons e seeds ih =>
      intro next
      have split : (∃ j, d.IsLocal j ∧ IsSeed (e :: seeds) r j ∧ i ∈ d.cols j) ↔
          (d.IsLocal e.index ∧ e.peerRank = r ∧ i ∈ d.cols e.index) ∨ ∃ j, d.IsLocal j ∧ IsSeed seeds r j ∧ i ∈ d.cols j := by
        unfold IsSeed
        constructor
        · rintro ⟨j, hj, ⟨t, ht, rfl, rfl⟩, hi⟩
          rcases List.mem_cons.1 ht with rfl | ht
          · exact Or.inl ⟨hj, rfl, hi⟩
          · exact Or.inr ⟨_, hj, ⟨t, ht, rfl, rfl⟩, hi⟩
        · rintro (⟨h1, h2, h3⟩ | ⟨j, hj, ⟨t, ht, rfl, rfl⟩, hi⟩)
          · exact ⟨_, h1, ⟨e, List.mem_cons_self, rfl, h2⟩, h3⟩
          · exact ⟨_, hj, ⟨t, List.mem_cons_of_mem _ ht, rfl, rfl⟩, hi⟩
      rw [List.foldl_cons, ih, split]
      unfold addRow
      cases hn : d.nativeToLocal e.index with
      | none =>
        have : ¬d.IsLocal e.index := by rw [isLocal_iff, hn]; simp
        simp [this]
      | some k =>
        have : d.IsLocal e.index := by rw [isLocal_iff]; exact ⟨k, hn⟩
        dsimp only
        rw [addColumns_mem]
        constructor
        · rintro ((h | ⟨h1, h2, h3⟩) | ⟨h1, h2⟩)
          · exact Or.inl h
          · exact Or.inr ⟨Or.inl ⟨this, h2, h1⟩, h3⟩
          · exact Or.inr ⟨Or.inr h1, h2⟩
        · rintro (h | ⟨⟨-, h2, h3⟩ | h, h'⟩)
          · exact Or.inl (Or.inl h)
          · exact Or.inl (Or.inr ⟨h3, h2, h'⟩)
          · exact Or.inr ⟨h, h'⟩
  rw [this]
  simp [IsSeed]

/-! ### All levels -/

/-- Before the level `t` of the search: the overlap has the rows with less than `t` steps, and the seeds those with `t`. -/
structure Searched (d : Native P) (δ t : ℕ) (s : Foreign P) : Prop where
  byLocal : ∀ l r m, s.byLocal l r = some m ↔ ∃ i k, d.nativeToLocal i = some l ∧ k < t ∧ Dist d r k i ∧ m = δ + k
  seeds : ∀ r i, d.IsLocal i → (IsSeed s.seeds r i ↔ Dist d r t i)

theorem near_local {r : Fin P} {k i : ℕ} (h : Near d r k i) : d.IsLocal i := by
  cases h with
  | border e _ _ hl => exact hl
  | step _ _ _ _ _ hl => exact hl

theorem dist_unique {r : Fin P} {k k' i : ℕ} (h : Dist d r k i) (h' : Dist d r k' i) : k = k' := by
  rcases Nat.lt_trichotomy k k' with hk | hk | hk
  · exact absurd h.1 (h'.2 k hk)
  · exact hk
  · exact absurd h'.1 (h.2 k' hk)

theorem near_dist {r : Fin P} {k i : ℕ} (h : Near d r k i) : ∃ k' ≤ k, Dist d r k' i := by
  induction k using Nat.strong_induction_on with
  | _ k ih =>
    by_cases hk : ∃ k' < k, Near d r k' i
    · obtain ⟨k', hlt, hn⟩ := hk
      obtain ⟨m, hm, hd⟩ := ih k' hlt hn
      exact ⟨m, by omega, hd⟩
    · push Not at hk
      exact ⟨k, le_rfl, h, hk⟩

theorem near_zero (r : Fin P) (i : ℕ) (hi : d.IsLocal i) : Near d r 0 i ↔ ∃ e ∈ d.borderList, e.localIdx = i ∧ e.peerRank = r := by
  constructor
  · intro h
    cases h with
    | border e h hr hl => exact ⟨e, h, rfl, hr⟩
  · rintro ⟨e, he, rfl, hr⟩
    exact Near.border e he hr hi

theorem searched_init (δ : ℕ) : Searched d δ 0 (Foreign.init d) where
  byLocal l r m := by simp [Foreign.init]
  seeds r i hi := by
    unfold Dist
    rw [near_zero r i hi]
    simp only [Foreign.init, IsSeed, List.mem_map, Nat.not_lt_zero, false_imp_iff, implies_true, and_true]
    constructor
    · rintro ⟨_, ⟨e, he, rfl⟩, h1, h2⟩; exact ⟨e, he, h1, h2⟩
    · rintro ⟨e, he, h1, h2⟩; exact ⟨_, ⟨e, he, rfl⟩, h1, h2⟩

theorem searched_add {δ t : ℕ} {s : Foreign P} (h : Searched d δ t s) (l : ℕ) (r : Fin P) (m : ℕ) :
    (addSeeds d (δ + t) s).byLocal l r = some m ↔
      ∃ i k, d.nativeToLocal i = some l ∧ k < t + 1 ∧ Dist d r k i ∧ m = δ + k := by
  rw [addSeeds_byLocal]
  by_cases hs : (s.byLocal l r).isSome
  · rw [if_pos hs, h.byLocal]
    constructor
    · rintro ⟨i, k, h1, h2, h3⟩; exact ⟨i, k, h1, by omega, h3⟩
    · rintro ⟨i, k, h1, h2, h3, h4⟩
      obtain ⟨m', hm'⟩ := Option.isSome_iff_exists.1 hs
      obtain ⟨i', k', h1', h2', h3', h4'⟩ := (h.byLocal l r m').1 hm'
      have := toLocal_inj h1 h1'
      subst this
      have := dist_unique h3 h3'
      subst this
      exact ⟨i, k, h1, h2', h3, h4⟩
  · rw [if_neg hs]
    have hs' : s.byLocal l r = none := by simpa using hs
    constructor
    · intro he
      split_ifs at he with hex
      obtain ⟨e, he1, he2, he3⟩ := hex
      have hloc : d.IsLocal e.index := (isLocal_iff _).2 ⟨l, he2⟩
      have := (h.seeds r e.index hloc).1 ⟨e, he1, rfl, he3⟩
      exact ⟨e.index, t, he2, by omega, this, (Option.some.inj he).symm⟩
    · rintro ⟨i, k, h1, h2, h3, h4⟩
      have hk : k = t := by
        by_contra hne
        have := (h.byLocal l r m).2 ⟨i, k, h1, by omega, h3, h4⟩
        rw [hs'] at this; cases this
      subst hk
      obtain ⟨e, he1, rfl, he3⟩ := (h.seeds r i ((isLocal_iff _).2 ⟨l, h1⟩)).2 h3
      rw [if_pos ⟨e, he1, h1, he3⟩, h4]

theorem searched_level {δ t overlapSize : ℕ} {s : Foreign P} (h : Searched d δ t s) (hlt : δ + t < overlapSize) :
    Searched d δ (t + 1) (afterLevel d overlapSize (δ + t) s) := by
  unfold afterLevel
  dsimp only
  rw [if_neg (by omega)]
  constructor
  · exact searched_add h
  · intro r i hi
    dsimp only
    rw [nextSeeds_mem]
    have hnone : (∃ l, d.nativeToLocal i = some l ∧ (addSeeds d (δ + t) s).byLocal l r = none) ↔
        ∀ k ≤ t, ¬Near d r k i := by
      obtain ⟨l, hl⟩ := (isLocal_iff i).1 hi
      constructor
      · rintro ⟨l', hl', hb⟩ k hk hn
        obtain ⟨k', hk', hd⟩ := near_dist hn
        have := (searched_add h l' r (δ + k')).2 ⟨i, k', hl', by omega, hd, rfl⟩
        rw [hb] at this; cases this
      · intro hall
        refine ⟨l, hl, ?_⟩
        cases hb : (addSeeds d (δ + t) s).byLocal l r with
        | none => rfl
        | some m =>
          obtain ⟨i', k, h1, h2, h3, -⟩ := (searched_add h l r m).1 hb
          have := toLocal_inj h1 hl
          subst this
          exact absurd h3.1 (hall k (by omega))
    rw [hnone, (addSeeds_other _ _).1]
    constructor
    · rintro ⟨⟨j, hj, hs, hc⟩, hall⟩
      have := (h.seeds r j hj).1 hs
      exact ⟨Near.step t j i this.1 hc hi, fun k' hk' => hall k' (by omega)⟩
    · rintro ⟨hn, hmin⟩
      refine ⟨?_, fun k hk => hmin k (by omega)⟩
      cases hn with
      | step _ j _ hnj hc _ =>
        refine ⟨j, near_local hnj, (h.seeds r j (near_local hnj)).2 ⟨hnj, fun k' hk' hn' => ?_⟩, hc⟩
        exact hmin (k' + 1) (by omega) (Near.step k' j i hn' hc hi)

/-- The search of one process by itself, without what others send. -/
def search (d : Native P) (overlapSize : ℕ) (dists : List ℕ) (s : Foreign P) : Foreign P :=
  dists.foldl (fun s dist => afterLevel d overlapSize dist s) s

/-- The foreign overlap after all levels, if nothing is received from others. -/
def searched (d : Native P) (overlapSize : ℕ) : Foreign P := search d overlapSize (levels d overlapSize) (Foreign.init d)

theorem search_levels {δ overlapSize : ℕ} (n t : ℕ) {s : Foreign P} (h : Searched d δ t s) (hn : δ + t + n = overlapSize)
    (l : ℕ) (r : Fin P) (m : ℕ) :
    (search d overlapSize (List.range' (δ + t) (n + 1)) s).byLocal l r = some m ↔
      ∃ i k, d.nativeToLocal i = some l ∧ δ + k ≤ overlapSize ∧ Dist d r k i ∧ m = δ + k := by
  induction n generalizing t s with
  | zero =>
    unfold search
    rw [List.range'_one, List.foldl_cons, List.foldl_nil]
    unfold afterLevel
    dsimp only
    rw [if_pos (by omega), searched_add h]
    constructor <;> rintro ⟨i, k, h1, h2, h3⟩ <;> exact ⟨i, k, h1, by omega, h3⟩
  | succ n ih =>
    unfold search
    rw [List.range'_succ, List.foldl_cons]
    exact ih (t + 1) (searched_level h (by omega)) (by omega)

theorem minBorderDist_le (overlapSize : ℕ) : d.minBorderDist overlapSize ≤ overlapSize := by
  unfold Native.minBorderDist Part.minBorderDist
  generalize ((d.part []).borderList.map (·.borderDistance)) = l
  induction l generalizing overlapSize with
  | nil => exact le_rfl
  | cons a l ih => rw [List.foldl_cons]; exact le_trans (ih _) (min_le_left _ _)

theorem searched_byLocal (overlapSize l : ℕ) (r : Fin P) (m : ℕ) :
    (searched d overlapSize).byLocal l r = some m ↔
      ∃ i k, d.nativeToLocal i = some l ∧ d.minBorderDist overlapSize + k ≤ overlapSize ∧ Dist d r k i ∧
        m = d.minBorderDist overlapSize + k := by
  unfold searched levels
  have hle := minBorderDist_le (d := d) overlapSize
  have e : overlapSize + 1 - d.minBorderDist overlapSize = (overlapSize - d.minBorderDist overlapSize) + 1 := by omega
  rw [e]
  have := search_levels (δ := d.minBorderDist overlapSize) (overlapSize := overlapSize)
    (overlapSize - d.minBorderDist overlapSize) 0 (searched_init (d := d) _) (by omega) l r m
  simpa using this

theorem afterLevel_peers (overlapSize dist : ℕ) (s : Foreign P) : (afterLevel d overlapSize dist s).peers = s.peers := by
  unfold afterLevel
  dsimp only
  split_ifs <;> exact (addSeeds_other _ _).2

theorem search_peers (overlapSize : ℕ) (l : List ℕ) (s : Foreign P) : (search d overlapSize l s).peers = s.peers := by
  unfold search
  induction l generalizing s with
  | nil => rfl
  | cons a l ih => rw [List.foldl_cons, ih, afterLevel_peers]

theorem searched_peers (overlapSize : ℕ) (q : Fin P) : (searched d overlapSize).peers q ↔ q ∈ d.neighborPeers := by
  unfold searched
  rw [search_peers]
  rfl

end Verif.Overlap
