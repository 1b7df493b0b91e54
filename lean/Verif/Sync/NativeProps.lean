import Verif.Sync.Props

/-
C50: from native vectors to overlapping ones and back.
-/

set_option autoImplicit false
set_option linter.unusedSectionVars false

namespace Verif.Sync

open Verif.Mpi

variable {P : ℕ} {K : Type} {o : Fin P → Overlap P}

/-- **C50** A vector which is assigned from native vectors, synchronised and assigned to native ones again: a row of the result is the
native value which the row's master had for it, and zero if the row is not part of the overlapping problem. -/
theorem C50_round_trip [Zero K] (c : Coherent o) (native : Fin P → ℕ → K) (s : System (Fin P) (Vector P K) (Msg K))
    (h : Reach (start (assignProgram o) fun p => fresh (fromNative (o p) (native p))) s) (hf : Finished s) (p : Fin P) (n : ℕ) :
    ((o p).nativeToDomestic n = none → assignTo (o p) (s.state p).entries n = 0) ∧
    ∀ i < (o p).numDomestic, (o p).nativeToDomestic n = some i → ∀ m, (o p).masterRank i = m → ∀ j < (o m).numDomestic,
      (o m).domesticToGlobal j = (o p).domesticToGlobal i → ∀ n', (o m).domesticToNative j = some n' →
        assignTo (o p) (s.state p).entries n = native m n' := by
  refine ⟨fun hn => by simp only [assignTo, hn], fun i hi hn m hm j hj hg n' hn' => ?_⟩
  subst hm
  obtain ⟨a, ha, hga, hv⟩ := (C50_sync c _ s h).1 hf p i hi
  have haj : a = j := global_inj c ha hj (hga.trans hg.symm)
  simp only [assignTo, hn]
  rw [← hv, haj]
  simp only [fromNative, hn']

/-- **C50** In particular a row which the process is the master of comes back unchanged. -/
theorem C50_own_rows [Zero K] (c : Coherent o) (native : Fin P → ℕ → K) (s : System (Fin P) (Vector P K) (Msg K))
    (h : Reach (start (assignProgram o) fun p => fresh (fromNative (o p) (native p))) s) (hf : Finished s) (p : Fin P) (n i : ℕ)
    (hi : i < (o p).numDomestic) (h1 : (o p).nativeToDomestic n = some i) (h2 : (o p).domesticToNative i = some n)
    (hm : (o p).masterRank i = p) : assignTo (o p) (s.state p).entries n = native p n :=
  (C50_round_trip c native s h hf p n).2 i hi h1 p hm i hi rfl n h2

/-- **C50** After `assignAddBorder` the native rows have the sums of all contributions to their unknowns. -/
theorem C50_border_sums [AddCommMonoid K] (c : Coherent o) (hc : Complete o) (native : Fin P → ℕ → K)
    (s : System (Fin P) (Vector P K) (Msg K))
    (h : Reach (start (assignAddBorderProgram o) fun p => fresh (fromNative (o p) (native p))) s) (hf : Finished s) (p : Fin P)
    (n i : ℕ) (hi : i < (o p).numDomestic) (h1 : (o p).nativeToDomestic n = some i) :
    assignTo (o p) (s.state p).entries n = ∑ q, contribution (o q) (native q) ((o p).domesticToGlobal i) := by
  simp only [assignTo, h1]
  exact (C50_assignAddBorder c hc native s h).1 hf p i hi

/-! ### The hypotheses are met -/

/-- In the row of three processes the rows come back. -/
example (native : Fin 3 → ℕ → ℚ) (s : System (Fin 3) (Vector 3 ℚ) (Msg ℚ))
    (h : Reach (start (assignProgram row) fun p => fresh (fromNative (row p) (native p))) s) (hf : Finished s) :
    assignTo (row 1) (s.state 1).entries 1 = native 1 1 :=
  C50_own_rows row_coherent native s h hf 1 1 1 (by decide) (by decide) (by decide) (by decide)

end Verif.Sync
