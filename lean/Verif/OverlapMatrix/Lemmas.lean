import Verif.OverlapMatrix.Spec
import Verif.Sync.Lemmas
import Verif.Mpi.Compose
import Mathlib.Data.List.Basic

/-
Lemmas about the matrices of all processes.
-/

set_option autoImplicit false
set_option linter.unusedSectionVars false
set_option linter.unusedSimpArgs false

namespace Verif.OverlapMatrix

open Verif.Mpi Verif.Sync Verif.Overlap

variable {P : ℕ} {G K : Type} {g : Grid P G} {number : G → ℕ} {o : Fin P → Overlap P} {black : Fin P → ℕ → Option ℕ}
  {a : Fin P → NativeMatrix K}

theorem mem_columnSet (l : List ℕ) (x : ℕ) : x ∈ columnSet l ↔ x ∈ l := by
  unfold columnSet
  rw [List.mem_mergeSort, List.mem_dedup]

theorem nodup_columnSet (l : List ℕ) : (columnSet l).Nodup := by
  unfold columnSet
  exact (List.mergeSort_perm _ _).nodup_iff.2 (List.nodup_dedup l)

theorem column_iff (L : Labelled g number o black) (p : Fin P) (m j : ℕ) : columnIndex (o p) (black p) m = some j ↔
    j < (o p).numDomestic ∧ ∃ c, (g.cells p)[m]? = some c ∧ (o p).domesticToGlobal j = number c := by
  unfold columnIndex
  cases h : (o p).nativeToDomestic m with
  | some l =>
    rw [Option.orElse_some]
    obtain ⟨hl, c, hc, ho, hn⟩ := (L.native p m l).1 h
    constructor
    · intro e; injection e with e; subst e; exact ⟨hl, c, hc, hn⟩
    · rintro ⟨hj, c', hc', hn'⟩
      rw [hc] at hc'; injection hc' with e; subst e
      exact congrArg some (global_inj L.coherent hl hj (hn.trans hn'.symm))
  | none =>
    rw [Option.orElse_none, L.copies]
    constructor
    · rintro ⟨hj, c, hc, -, hn⟩; exact ⟨hj, c, hc, hn⟩
    · rintro ⟨hj, c, hc, hn⟩
      refine ⟨hj, c, hc, ?_, hn⟩
      intro ho
      obtain ⟨l, hl⟩ := L.own p m c hc ho
      rw [h] at hl; exact absurd hl (by simp)

theorem column_some (L : Labelled g number o black) (p : Fin P) (m : ℕ) (h : m < (g.cells p).length) :
    ∃ j, columnIndex (o p) (black p) m = some j := by
  unfold columnIndex
  have hc := List.getElem?_eq_getElem h
  by_cases ho : g.owner ((g.cells p)[m]) = p
  · obtain ⟨l, hl⟩ := L.own p m _ hc ho
    exact ⟨l, by rw [hl, Option.orElse_some]⟩
  · obtain ⟨l, hl⟩ := L.copied p m _ hc ho
    cases h : (o p).nativeToDomestic m with
    | some x => exact ⟨x, by rw [Option.orElse_some]⟩
    | none => exact ⟨l, by rw [Option.orElse_none, hl]⟩

/-- The row and column numbers of the entries which are sent from `q` to `p`, in their order -/
def sentEntries (o : Fin P → Overlap P) (black : Fin P → ℕ → Option ℕ) (a : Fin P → NativeMatrix K) (q p : Fin P) : List (ℕ × ℕ) :=
  (sendIndices (o q) (black q) (a q) p).flatMap fun x => x.2.map fun c => (x.1, c)

theorem entries_globalToDomestic (o' : Overlap P) (l : List (ℕ × List ℕ)) :
    entries (globalToDomestic o' l) =
      (l.flatMap fun x => x.2.map fun c => (x.1, c)).map fun e => (o'.globalToDomestic e.1, o'.globalToDomestic e.2) := by
  unfold entries globalToDomestic
  induction l with
  | nil => rfl
  | cons x l ih =>
    rw [List.map_cons, List.flatMap_cons, List.flatMap_cons, List.map_append, ih]
    simp [List.map_map, Function.comp_def]

/-- The entries which are sent are those of own rows of the foreign overlap. -/
theorem mem_sentEntries (L : Labelled g number o black) (hN : Native g a) {q p : Fin P} (hp : p ∈ (o q).peerSet) (e : ℕ × ℕ) :
    e ∈ sentEntries o black a q p ↔ ∃ l n c m c', l ∈ (o q).foreignOverlap p ∧ (o q).nativeToDomestic n = some l ∧
      (g.cells q)[n]? = some c ∧ g.owner c = q ∧ (o q).domesticToGlobal l = number c ∧
      m ∈ (a q).cols n ∧ (g.cells q)[m]? = some c' ∧ e = (number c, number c') := by
  unfold sentEntries sendIndices
  simp only [List.mem_flatMap, List.mem_map, List.flatMap_map]
  constructor
  · rintro ⟨l, hl, y, hy, rfl⟩
    obtain ⟨n, hn⟩ := L.sent q p hp l hl
    have hn' := (L.back q n l).1 hn
    obtain ⟨-, c, hc, ho, hd⟩ := (L.native q n l).1 hn'
    rw [mem_columnSet, hn] at hy
    simp only [Option.elim_some, List.mem_map, List.mem_filterMap] at hy
    obtain ⟨j, ⟨m, hm, hj⟩, rfl⟩ := hy
    obtain ⟨-, c', hc', hd'⟩ := (column_iff L q m j).1 hj
    exact ⟨l, n, c, m, c', hl, hn', hc, ho, hd, hm, hc', by rw [hd, hd']⟩
  · rintro ⟨l, n, c, m, c', hl, hn, hc, ho, hd, hm, hc', rfl⟩
    refine ⟨l, hl, number c', ?_, by rw [hd]⟩
    rw [mem_columnSet, (L.back q n l).2 hn]
    simp only [Option.elim_some, List.mem_map, List.mem_filterMap]
    obtain ⟨j, hj⟩ := column_some L q m (((hN q).2 n).2 m hm)
    obtain ⟨-, c'', hc'', hd'⟩ := (column_iff L q m j).1 hj
    rw [hc'] at hc''; injection hc'' with e; subst e
    exact ⟨j, ⟨m, hm, hj⟩, hd'⟩

theorem nodup_sentEntries (L : Labelled g number o black) {q p : Fin P} (hp : p ∈ (o q).peerSet) :
    (sentEntries o black a q p).Nodup := by
  unfold sentEntries sendIndices
  rw [List.flatMap_map, List.nodup_flatMap]
  obtain ⟨h1, h2⟩ := L.coherent.listed q p hp
  refine ⟨fun l hl => ?_, ?_⟩
  · exact (nodup_columnSet _).map fun x y e => (Prod.mk.inj e).2
  · refine (List.Nodup.pairwise_of_forall_ne h1 ?_)
    intro l hl l' hl' hne e he he'
    simp only [List.mem_map] at he he'
    obtain ⟨x, -, rfl⟩ := he
    obtain ⟨y, -, hy⟩ := he'
    exact hne (global_inj L.coherent (h2 l hl).1 (h2 l' hl').1 (Prod.mk.inj hy).1.symm)

/-- For two cells of the overlap of `p`, the owner of the first one, and no other peer, sends the entry if the matrix has it. -/
theorem sent_iff (L : Labelled g number o black) (hN : Native g a) {q p : Fin P} (hp : p ∈ (o q).peerSet) {i j : ℕ} {c c' : G}
    (hi : i < (o p).numDomestic) (hc : c ∈ g.all) (hc' : c' ∈ g.all)
    (ei : (o p).domesticToGlobal i = number c) :
    (number c, number c') ∈ sentEntries o black a q p ↔ g.owner c = q ∧ ∃ x, Entry g a c c' x := by
  rw [mem_sentEntries L hN hp]
  constructor
  · rintro ⟨l, n, b, m, b', hl, hn, hb, ho, hd, hm, hb', e⟩
    obtain ⟨e1, e2⟩ := Prod.mk.inj e
    have hbc := L.inj hc (L.owned q b (List.mem_of_getElem? hb)) e1
    have hbc' := L.inj hc' (L.owned q b' (List.mem_of_getElem? hb')) e2
    subst hbc; subst hbc'
    subst ho
    exact ⟨rfl, _, n, m, hb, hb', hm, rfl⟩
  · rintro ⟨rfl, x, n, m, hn, hm, hmem, -⟩
    obtain ⟨b, hb, eb, ob⟩ := L.cell p i hi
    have := L.inj hc hb (ei.symm.trans eb)
    subst this
    rcases L.coherent.master p i hi with h | ⟨h1, l, hl, hd⟩
    · exfalso
      rw [ob] at h
      rw [h] at hp
      exact L.coherent.irrefl p hp
    · rw [ob] at hl hd
      have hd' : (o (g.owner c)).domesticToGlobal l = number c := hd.trans ei
      obtain ⟨n', hn'⟩ := L.sent _ p hp l hl
      have hn2 := (L.back _ n' l).1 hn'
      obtain ⟨-, c2, h2, o2, d2⟩ := (L.native _ n' l).1 hn2
      have := L.inj hc (L.owned _ c2 (List.mem_of_getElem? h2)) (hd'.symm.trans d2)
      subst this
      have hnn : n' = n := by
        obtain ⟨u, hu⟩ := List.getElem?_eq_some_iff.1 h2
        obtain ⟨w, hw⟩ := List.getElem?_eq_some_iff.1 hn
        exact (L.nodup _).getElem_inj_iff.1 (hu.trans hw.symm)
      subst hnn
      exact ⟨l, n', c, m, c', hl, hn2, h2, rfl, hd', hmem, hm, rfl⟩

theorem index_unique (L : Labelled g number o black) {p : Fin P} {n n' : ℕ} {c : G} (h : (g.cells p)[n]? = some c)
    (h' : (g.cells p)[n']? = some c) : n = n' := by
  obtain ⟨u, hu⟩ := List.getElem?_eq_some_iff.1 h
  obtain ⟨w, hw⟩ := List.getElem?_eq_some_iff.1 h'
  exact (L.nodup _).getElem_inj_iff.1 (hu.trans hw.symm)

theorem entry_unique (L : Labelled g number o black) {c c' : G} {x y : K} (h : Entry g a c c' x) (h' : Entry g a c c' y) : x = y := by
  obtain ⟨n, m, h1, h2, -, rfl⟩ := h
  obtain ⟨n', m', h1', h2', -, rfl⟩ := h'
  rw [index_unique L h1 h1', index_unique L h2 h2']

/-- Own rows are those of the native matrix. -/
theorem local_iff (L : Labelled g number o black) (hN : Native g a) {p : Fin P} {i j : ℕ} {c c' : G} (hi : i < (o p).numDomestic)
    (hj : j < (o p).numDomestic) (hc : c ∈ g.all) (hc' : c' ∈ g.all) (ei : (o p).domesticToGlobal i = number c)
    (ej : (o p).domesticToGlobal j = number c') (n m : ℕ) (hm : m ∈ (a p).cols n) :
    ((o p).nativeToDomestic n = some i ∧ columnIndex (o p) (black p) m = some j) ↔
      g.owner c = p ∧ (g.cells (g.owner c))[n]? = some c ∧ (g.cells (g.owner c))[m]? = some c' := by
  rw [L.native, column_iff L]
  constructor
  · rintro ⟨⟨-, b, hb, ob, db⟩, -, b', hb', db'⟩
    have e1 := L.inj hc (L.owned _ _ (List.mem_of_getElem? hb)) (ei.symm.trans db)
    have e2 := L.inj hc' (L.owned _ _ (List.mem_of_getElem? hb')) (ej.symm.trans db')
    subst e1; subst e2; subst ob
    exact ⟨rfl, hb, hb'⟩
  · rintro ⟨rfl, h1, h2⟩
    exact ⟨⟨hi, c, h1, rfl, ei⟩, hj, c', h2, ej⟩

theorem localPattern_iff (L : Labelled g number o black) (hN : Native g a) {p : Fin P} {i j : ℕ} {c c' : G} (hi : i < (o p).numDomestic)
    (hj : j < (o p).numDomestic) (hc : c ∈ g.all) (hc' : c' ∈ g.all) (ei : (o p).domesticToGlobal i = number c)
    (ej : (o p).domesticToGlobal j = number c') :
    localPattern (o p) (black p) (a p) i j ↔ g.owner c = p ∧ ∃ x, Entry g a c c' x := by
  unfold localPattern
  constructor
  · rintro ⟨n, -, h1, m, hm, h2⟩
    obtain ⟨rfl, h3, h4⟩ := (local_iff L hN hi hj hc hc' ei ej n m hm).1 ⟨h1, h2⟩
    exact ⟨rfl, _, n, m, h3, h4, hm, rfl⟩
  · rintro ⟨rfl, x, n, m, h1, h2, hm, -⟩
    obtain ⟨h3, h4⟩ := (local_iff L hN hi hj hc hc' ei ej n m hm).2 ⟨rfl, h1, h2⟩
    refine ⟨n, ?_, h3, m, hm, h4⟩
    rw [(hN _).1]
    exact (List.getElem?_eq_some_iff.1 h1).1

theorem foldl_last {α : Type} (l : List α) (f : α → Prop) [DecidablePred f] (v : α → K) (x0 x : K) (h : ∀ y ∈ l, f y → v y = x) :
    l.foldl (fun z y => if f y then v y else z) x0 = if ∃ y ∈ l, f y then x else x0 := by
  induction l generalizing x0 with
  | nil => simp
  | cons y l ih =>
    rw [List.foldl_cons, ih _ fun z hz => h z (List.mem_cons_of_mem _ hz)]
    by_cases hy : f y
    · rw [if_pos hy, h y List.mem_cons_self hy]
      simp [hy]
    · simp [hy]

theorem nativeValue_own [Zero K] (L : Labelled g number o black) (hN : Native g a) {p : Fin P} {i j : ℕ} {c c' : G}
    (hi : i < (o p).numDomestic) (hj : j < (o p).numDomestic) (hc : c ∈ g.all) (hc' : c' ∈ g.all)
    (ei : (o p).domesticToGlobal i = number c) (ej : (o p).domesticToGlobal j = number c') (ho : g.owner c = p) {x : K}
    (hx : Entry g a c c' x) : nativeValue (o p) (black p) (a p) i j = x := by
  unfold nativeValue
  rw [foldl_last (x := x) (f := fun y : ℕ × ℕ => (o p).nativeToDomestic y.1 = some i ∧ columnIndex (o p) (black p) y.2 = some j)
    (v := fun y => (a p).value y.1 y.2)]
  · rw [if_pos]
    obtain ⟨n, m, h1, h2, hm, hv⟩ := hx
    obtain ⟨h3, h4⟩ := (local_iff L hN hi hj hc hc' ei ej n m (ho ▸ hm)).2 ⟨ho, h1, h2⟩
    refine ⟨(n, m), ?_, h3, h4⟩
    simp only [List.mem_flatMap, List.mem_range, List.mem_map]
    refine ⟨n, ?_, m, ho ▸ hm, rfl⟩
    rw [(hN _).1, ← ho]
    exact (List.getElem?_eq_some_iff.1 h1).1
  · rintro ⟨n, m⟩ hmem ⟨h1, h2⟩
    simp only [List.mem_flatMap, List.mem_range, List.mem_map, Prod.mk.injEq] at hmem
    obtain ⟨n', -, m', hm, rfl, rfl⟩ := hmem
    obtain ⟨-, h3, h4⟩ := (local_iff L hN hi hj hc hc' ei ej n' m' hm).1 ⟨h1, h2⟩
    refine entry_unique L ⟨n', m', h3, h4, ho ▸ hm, ?_⟩ hx
    rw [ho]

theorem nativeValue_other [Zero K] (L : Labelled g number o black) (hN : Native g a) {p : Fin P} {i j : ℕ} {c c' : G}
    (hi : i < (o p).numDomestic) (hj : j < (o p).numDomestic) (hc : c ∈ g.all) (hc' : c' ∈ g.all)
    (ei : (o p).domesticToGlobal i = number c) (ej : (o p).domesticToGlobal j = number c') (ho : g.owner c ≠ p) :
    nativeValue (o p) (black p) (a p) i j = 0 := by
  unfold nativeValue
  have hno : ∀ y ∈ ((List.range (a p).numRows).flatMap fun n => ((a p).cols n).map fun m => (n, m)),
      ¬((o p).nativeToDomestic y.1 = some i ∧ columnIndex (o p) (black p) y.2 = some j) := by
    rintro ⟨n, m⟩ hmem ⟨h1, h2⟩
    simp only [List.mem_flatMap, List.mem_range, List.mem_map, Prod.mk.injEq] at hmem
    obtain ⟨n', -, m', hm, rfl, rfl⟩ := hmem
    exact ho ((local_iff L hN hi hj hc hc' ei ej n' m' hm).1 ⟨h1, h2⟩).1
  rw [foldl_last (x := 0) (f := fun y : ℕ × ℕ => (o p).nativeToDomestic y.1 = some i ∧ columnIndex (o p) (black p) y.2 = some j)
    (v := fun y => (a p).value y.1 y.2)]
  · split_ifs <;> rfl
  · intro y hy h
    exact absurd h (hno y hy)

/-! ### The messages -/

/-- After the indices have been exchanged -/
structure Buffers (o : Fin P → Overlap P) (black : Fin P → ℕ → Option ℕ) (a : Fin P → NativeMatrix K) (p : Fin P) (s : Matrix P K) :
    Prop where
  send : ∀ q ∈ (o p).peerSet, s.send q = globalToDomestic (o p) (sendIndices (o p) (black p) (a p) q)
  recv : ∀ q ∈ (o p).peerSet, s.recv q = globalToDomestic (o p) (sendIndices (o q) (black q) (a q) p)
  pattern : ∀ i j, s.pattern i j ↔ localPattern (o p) (black p) (a p) i j ∨
    ∃ q ∈ (o p).peerSet, ∃ e ∈ sentEntries o black a q p, (o p).globalToDomestic e.1 = some i ∧ (o p).globalToDomestic e.2 = some j

theorem receive_iff (o' : Overlap P) (l : List (ℕ × List ℕ)) (i j : ℕ) :
    (∃ x ∈ globalToDomestic o' l, x.1 = some i ∧ some j ∈ x.2) ↔
      ∃ e ∈ l.flatMap fun x => x.2.map fun c => (x.1, c), o'.globalToDomestic e.1 = some i ∧ o'.globalToDomestic e.2 = some j := by
  unfold globalToDomestic
  simp only [List.mem_map, List.mem_flatMap]
  constructor
  · rintro ⟨x, ⟨y, hy, rfl⟩, h1, h2⟩
    rw [List.mem_map] at h2
    obtain ⟨z, hz, h2⟩ := h2
    exact ⟨(y.1, z), ⟨y, hy, z, hz, rfl⟩, h1, h2⟩
  · rintro ⟨e, ⟨y, hy, z, hz, rfl⟩, h1, h2⟩
    exact ⟨_, ⟨y, hy, rfl⟩, h1, List.mem_map.2 ⟨z, hz, h2⟩⟩

theorem buildIndices_buffers (any : Fin P → ℕ → ℕ → K) (p : Fin P) :
    Buffers o black a p (runRound (fun p => (o p).peerSet) (fun p => Matrix.start (o p) (black p) (a p) (any p))
      (buildIndices o black a) p) := by
  set σ : Fin P → Matrix P K := fun p => Matrix.start (o p) (black p) (a p) (any p) with hσ
  have key : ∀ (l : List (Fin P)) (v : Matrix P K),
      let w := l.foldl (fun s q => (buildIndices o black a).recv p q ((buildIndices o black a).send q p (σ q)) s) v
      (∀ q, w.send q = if q ∈ l then globalToDomestic (o p) (sendIndices (o p) (black p) (a p) q) else v.send q) ∧
      (∀ q, w.recv q = if q ∈ l then globalToDomestic (o p) (sendIndices (o q) (black q) (a q) p) else v.recv q) ∧
      (∀ i j, w.pattern i j ↔ v.pattern i j ∨ ∃ q ∈ l, ∃ e ∈ sentEntries o black a q p,
        (o p).globalToDomestic e.1 = some i ∧ (o p).globalToDomestic e.2 = some j) := by
    intro l
    induction l with
    | nil => intro v; simp
    | cons q l ih =>
      intro v
      obtain ⟨h1, h2, h3⟩ := ih ((buildIndices o black a).recv p q ((buildIndices o black a).send q p (σ q)) v)
      dsimp only [List.foldl_cons]
      refine ⟨fun r => ?_, fun r => ?_, fun i j => ?_⟩
      · rw [h1 r]
        by_cases hr : r ∈ l
        · simp [hr]
        · by_cases e : r = q
          · subst e; simp [hr, buildIndices]
          · simp [hr, e, buildIndices]
      · rw [h2 r]
        by_cases hr : r ∈ l
        · simp [hr]
        · by_cases e : r = q
          · subst e; simp [hr, buildIndices]
          · simp [hr, e, buildIndices]
      · rw [h3 i j]
        have : ((buildIndices o black a).recv p q ((buildIndices o black a).send q p (σ q)) v).pattern i j ↔
            v.pattern i j ∨ ∃ e ∈ sentEntries o black a q p,
              (o p).globalToDomestic e.1 = some i ∧ (o p).globalToDomestic e.2 = some j := by
          show receiveIndices _ _ i j ↔ _
          unfold receiveIndices
          rw [receive_iff]
          rfl
        rw [this]
        simp only [List.mem_cons, exists_eq_or_imp, or_assoc]
  obtain ⟨h1, h2, h3⟩ := key (o p).peerSet (σ p)
  exact ⟨fun q hq => by rw [runRound, h1, if_pos hq], fun q hq => by rw [runRound, h2, if_pos hq], h3⟩

theorem receiveAddEntries_apply [AddMonoid K] (l : List ((Option ℕ × Option ℕ) × K)) (v : ℕ → ℕ → K) (i j : ℕ) :
    receiveAddEntries l v i j = v i j + (l.map fun x => if x.1 = (some i, some j) then x.2 else 0).sum := by
  unfold receiveAddEntries
  induction l generalizing v with
  | nil => simp
  | cons x l ih =>
    rw [List.foldl_cons, ih, List.map_cons, List.sum_cons, ← add_assoc]
    congr 1
    obtain ⟨⟨r, c⟩, y⟩ := x
    cases r with
    | none => simp
    | some r => cases c with
      | none => simp
      | some c =>
        dsimp only
        by_cases hr : i = r
        · subst hr
          by_cases hc : j = c
          · subst hc; simp
          · simp [Function.update_of_ne hc, Ne.symm hc]
        · simp [Function.update_of_ne hr, Ne.symm hr]

/-- What is added for the entries of one peer -/
def added [Zero K] (o : Fin P → Overlap P) (black : Fin P → ℕ → Option ℕ) (a : Fin P → NativeMatrix K) (s : Fin P → Matrix P K)
    (p q : Fin P) : List ((Option ℕ × Option ℕ) × K) :=
  (sentEntries o black a q p).map fun e => (((o p).globalToDomestic e.1, (o p).globalToDomestic e.2),
    (s q).entry ((o q).globalToDomestic e.1, (o q).globalToDomestic e.2))

theorem syncAdd_round [AddMonoid K] (L : Coherent o) (s : Fin P → Matrix P K) (hb : ∀ p, Buffers o black a p (s p)) (p : Fin P) :
    (runRound (fun p => (o p).peerSet) s syncAdd p).pattern = (s p).pattern ∧
    ∀ i j, (runRound (fun p => (o p).peerSet) s syncAdd p).value i j = (s p).value i j +
      ((o p).peerSet.map fun q => ((added o black a s p q).map fun x => if x.1 = (some i, some j) then x.2 else 0).sum).sum := by
  have key : ∀ (l : List (Fin P)), (∀ q ∈ l, q ∈ (o p).peerSet) → ∀ (v : Matrix P K), v.recv = (s p).recv →
      let w := l.foldl (fun v q => syncAdd.recv p q (syncAdd.send q p (s q)) v) v
      w.pattern = v.pattern ∧ ∀ i j, w.value i j = v.value i j +
        (l.map fun q => ((added o black a s p q).map fun x => if x.1 = (some i, some j) then x.2 else 0).sum).sum := by
    intro l
    induction l with
    | nil => intro _ v _; simp
    | cons q l ih =>
      intro hl v hv
      dsimp only [List.foldl_cons]
      obtain ⟨h1, h2⟩ := ih (fun q hq => hl q (List.mem_cons_of_mem _ hq)) (syncAdd.recv p q (syncAdd.send q p (s q)) v) hv
      refine ⟨h1, fun i j => ?_⟩
      rw [h2 i j, List.map_cons, List.sum_cons, ← add_assoc]
      congr 1
      have hq : q ∈ (o p).peerSet := hl q List.mem_cons_self
      have hp : p ∈ (o q).peerSet := (L.symm p q).1 hq
      show receiveAddEntries ((entries (v.recv q)).zip ((entries ((s q).send p)).map (s q).entry)) v.value i j = _
      rw [hv, (hb p).recv q hq, (hb q).send p hp, entries_globalToDomestic, entries_globalToDomestic, List.map_map, zip_map_eq,
        receiveAddEntries_apply]
      rfl
  exact key (o p).peerSet (fun _ h => h) (s p) rfl

theorem globalToDomestic_iff (L : Labelled g number o black) {p : Fin P} {i : ℕ} {c : G} (hi : i < (o p).numDomestic)
    (ei : (o p).domesticToGlobal i = number c) (x : ℕ) : (o p).globalToDomestic x = some i ↔ x = number c := by
  rw [L.coherent.index]
  exact ⟨fun h => h.2.symm.trans ei, fun h => ⟨hi, ei.trans h.symm⟩⟩

theorem added_sum [AddCommMonoid K] (L : Labelled g number o black) {s : Fin P → Matrix P K} {p q : Fin P}
    (hp : p ∈ (o q).peerSet) {i j : ℕ} {c c' : G} (hi : i < (o p).numDomestic) (hj : j < (o p).numDomestic)
    (ei : (o p).domesticToGlobal i = number c) (ej : (o p).domesticToGlobal j = number c') :
    ((added o black a s p q).map fun x => if x.1 = (some i, some j) then x.2 else 0).sum =
      if (number c, number c') ∈ sentEntries o black a q p then
        (s q).entry ((o q).globalToDomestic (number c), (o q).globalToDomestic (number c')) else 0 := by
  unfold added
  rw [List.map_map]
  have hk : ∀ e : ℕ × ℕ, ((o p).globalToDomestic e.1, (o p).globalToDomestic e.2) = (some i, some j) ↔ e = (number c, number c') := by
    intro e
    rw [Prod.mk.injEq, globalToDomestic_iff L hi ei, globalToDomestic_iff L hj ej, Prod.ext_iff]
  have := sum_single_list (K := K) (sentEntries o black a q p) (nodup_sentEntries L hp) (fun e => e = (number c, number c'))
    (fun e => (s q).entry ((o q).globalToDomestic e.1, (o q).globalToDomestic e.2)) (number c, number c') (fun _ _ => Iff.rfl)
  simp only [and_true] at this
  rw [← this]
  congr 1
  apply List.map_congr_left
  intro e _
  simp only [Function.comp, hk]

/-- Assigning native matrices and `syncAdd`, once the indices have been exchanged -/
theorem distributed_of_buffers [AddCommMonoid K] (L : Labelled g number o black) (hN : Native g a) (τ1 : Fin P → Matrix P K)
    (b1 : ∀ p, Buffers o black a p (τ1 p)) :
    Distributed g number o a (runRound (fun p => (o p).peerSet) (fun p => assignFromNative (o p) (black p) (a p) (τ1 p)) syncAdd) := by
  set τ2 : Fin P → Matrix P K := fun p => assignFromNative (o p) (black p) (a p) (τ1 p) with hτ2
  have b2 : ∀ p, Buffers o black a p (τ2 p) := fun p => ⟨(b1 p).send, (b1 p).recv, (b1 p).pattern⟩
  intro p i hi j hj c hc c' hc' ei ej x
  obtain ⟨r1, r2⟩ := syncAdd_round L.coherent τ2 b2 p
  -- the pattern
  have hpat : (runRound (fun p => (o p).peerSet) τ2 syncAdd p).pattern i j ↔ ∃ x, Entry g a c c' x := by
    rw [r1, (b2 p).pattern, localPattern_iff L hN hi hj hc hc' ei ej]
    constructor
    · rintro (⟨-, h⟩ | ⟨q, hq, ⟨e1, e2⟩, he, h1, h2⟩)
      · exact h
      · rw [globalToDomestic_iff L hi ei] at h1
        rw [globalToDomestic_iff L hj ej] at h2
        dsimp only at h1 h2
        subst h1; subst h2
        exact ((sent_iff (i := i) (j := j) L hN ((L.coherent.symm p q).1 hq) hi hc hc' ei).1 he).2
    · intro h
      by_cases ho : g.owner c = p
      · exact Or.inl ⟨ho, h⟩
      · right
        obtain ⟨b, hb, eb, ob⟩ := L.cell p i hi
        have := L.inj hc hb (ei.symm.trans eb)
        subst this
        have hpeer : g.owner c ∈ (o p).peerSet := by
          rcases L.coherent.master p i hi with h | ⟨h1, -⟩
          · exact absurd (ob.symm.trans h) ho
          · rwa [ob] at h1
        refine ⟨g.owner c, hpeer, (number c, number c'),
          (sent_iff (i := i) (j := j) L hN ((L.coherent.symm p _).1 hpeer) hi hc hc' ei).2 ⟨rfl, h⟩, ?_, ?_⟩
        · exact (globalToDomestic_iff L hi ei _).2 rfl
        · exact (globalToDomestic_iff L hj ej _).2 rfl
  -- the values
  have hval : ∀ x, Entry g a c c' x → (runRound (fun p => (o p).peerSet) τ2 syncAdd p).value i j = x := by
    intro x hx
    rw [r2 i j]
    have hs : ∀ q ∈ (o p).peerSet, ((added o black a τ2 p q).map fun x => if x.1 = (some i, some j) then x.2 else 0).sum =
        if g.owner c = q then x else 0 := by
      intro q hq
      have hp := (L.coherent.symm p q).1 hq
      rw [added_sum L hp hi hj ei ej]
      have hiff := sent_iff (i := i) (j := j) (c' := c') (a := a) L hN hp hi hc hc' ei
      by_cases ho : g.owner c = q
      · rw [if_pos (hiff.2 ⟨ho, x, hx⟩), if_pos ho]
        subst ho
        -- the own row of the peer
        obtain ⟨n, m, e1, e2, hm, ev⟩ := id hx
        obtain ⟨l, hl⟩ := L.own _ n c e1 rfl
        obtain ⟨hln, b, hb, -, hd⟩ := (L.native _ n l).1 hl
        rw [e1] at hb; injection hb with hb; subst hb
        obtain ⟨k, hk⟩ := column_some L (g.owner c) m (((hN _).2 n).2 m hm)
        obtain ⟨hkn, b', hb', hd'⟩ := (column_iff L _ m k).1 hk
        rw [e2] at hb'; injection hb' with hb'; subst hb'
        rw [(globalToDomestic_iff L hln hd _).2 rfl, (globalToDomestic_iff L hkn hd' _).2 rfl]
        exact nativeValue_own L hN hln hkn hc hc' hd hd' rfl hx
      · rw [if_neg ho, if_neg fun h => ho (hiff.1 h).1]
    rw [List.map_congr_left hs]
    by_cases ho : g.owner c = p
    · have : ((o p).peerSet.map fun q => if g.owner c = q then x else 0) = (o p).peerSet.map fun _ => (0 : K) := by
        apply List.map_congr_left
        intro q hq
        rw [if_neg]
        rintro rfl
        rw [ho] at hq
        exact L.coherent.irrefl p hq
      rw [this]
      have hz : ((o p).peerSet.map fun _ => (0 : K)).sum = 0 := by
        generalize (o p).peerSet = l
        induction l with
        | nil => rfl
        | cons q l ih => rw [List.map_cons, List.sum_cons, ih, add_zero]
      rw [hz, add_zero]
      exact nativeValue_own L hN hi hj hc hc' ei ej ho hx
    · have h0 : (τ2 p).value i j = 0 := nativeValue_other L hN hi hj hc hc' ei ej ho
      rw [h0, zero_add]
      obtain ⟨b, hb, eb, ob⟩ := L.cell p i hi
      have := L.inj hc hb (ei.symm.trans eb)
      subst this
      have hpeer : g.owner c ∈ (o p).peerSet := by
        rcases L.coherent.master p i hi with h | ⟨h1, -⟩
        · exact absurd (ob.symm.trans h) ho
        · rwa [ob] at h1
      have := sum_single_list (K := K) (o p).peerSet (L.coherent.nodup p) (fun q => g.owner c = q) (fun _ => x) (g.owner c)
        (fun q _ => eq_comm)
      rw [this, if_pos ⟨hpeer, rfl⟩]
  constructor
  · rintro ⟨h1, rfl⟩
    obtain ⟨x, hx⟩ := hpat.1 h1
    rw [hval x hx]
    exact hx
  · intro hx
    exact ⟨hpat.2 ⟨x, hx⟩, hval x hx⟩

/-- The matrices after they have been set up and assigned -/
theorem settles_matrix [AddCommMonoid K] (L : Labelled g number o black) (hN : Native g a) (any : Fin P → ℕ → ℕ → K) :
    ∃ τ, Settles (matrixProgram o black a) (fun p => Matrix.start (o p) (black p) (a p) (any p)) τ ∧ Distributed g number o a τ := by
  have h1 := Settles.rounds (σ := fun p => Matrix.start (o p) (black p) (a p) (any p)) (peers := fun p => (o p).peerSet) L.coherent.nodup
    L.coherent.symm L.coherent.irrefl [buildIndices o black a]
  set τ1 := runRound (fun p => (o p).peerSet) (fun p => Matrix.start (o p) (black p) (a p) (any p)) (buildIndices o black a) with hτ1
  set τ2 : Fin P → Matrix P K := fun p => assignFromNative (o p) (black p) (a p) (τ1 p) with hτ2
  have : Nonempty (Msg K) := ⟨.values []⟩
  have h2 : Settles (M := Msg K) (fun p => [.compute (assignFromNative (o p) (black p) (a p))]) τ1 τ2 :=
    Settles.compute (fun p => assignFromNative (o p) (black p) (a p))
  have h3 := Settles.rounds (σ := τ2) (peers := fun p => (o p).peerSet) L.coherent.nodup
    L.coherent.symm L.coherent.irrefl [syncAdd]
  refine ⟨runRound (fun p => (o p).peerSet) τ2 syncAdd, ?_, ?_⟩
  · have h := (h1.append h2).append h3
    have e : (fun p => (program (fun p => (o p).peerSet) [buildIndices o black a] p ++
        [Op.compute (assignFromNative (o p) (black p) (a p))]) ++ program (fun p => (o p).peerSet) [syncAdd] p) =
          matrixProgram o black a := by
      funext p
      simp [matrixProgram, program]
    rw [e] at h
    exact h
  · exact distributed_of_buffers L hN τ1 (buildIndices_buffers any)

end Verif.OverlapMatrix
