import Verif.Decks.Lemmas
import Mathlib.Data.List.Nodup
import Mathlib.Algebra.Field.Rat
import Mathlib.Tactic.NormNum

/-
C156: set-up of extensions from a deck.
-/

set_option autoImplicit false
set_option linter.unusedSimpArgs false

namespace Verif.Decks

variable {K C T M R V : Type}

/-! ### The keyword of the extension -/

/-- **C156**  A program whose extension and a deck whose keyword do not go together is stopped with an exception, whatever else is in the deck. -/
theorem C156_keyword [Field K] (assertions enabled : Bool) (t0 : T) (r0 : R) (k0 : K) (v0 : V) (f : Defaults T) :
    (∀ (d : FoamDeck T R) p, enabled ≠ d.active → foamInit enabled d t0 r0 p = .threw) ∧
    (∀ (precipitation : Bool) (d : BrineDeck K C T) p, enabled ≠ d.active → brineInit assertions enabled precipitation d t0 (k0, k0) p = .threw) ∧
    (∀ (d : SolventDeck K T) p, enabled ≠ d.active → solventInit assertions enabled d f t0 k0 p = .threw) ∧
    (∀ (enabledMW : Bool) (d : PolymerDeck K T M R V) p, enabled ≠ d.active ∨ enabledMW ≠ d.polymw ∨ (enabledMW = true ∧ enabled = false) →
      polymerInit assertions enabled enabledMW d t0 r0 v0 p = .threw) := by
  refine ⟨fun d p h => ?_, fun pr d p h => ?_, fun d p h => ?_, fun mw d p h => ?_⟩
  · unfold foamInit
    cases enabled <;> cases hd : d.active <;> simp_all [throwIf]
  · unfold brineInit
    cases enabled <;> cases hd : d.active <;> simp_all [throwIf]
  · unfold solventInit
    cases enabled <;> cases hd : d.active <;> simp_all [throwIf]
  · unfold polymerInit
    cases enabled <;> cases hd : d.active <;> cases mw <;> cases hm : d.polymw <;> simp_all [throwIf]

/-- **C156**  Without the extension, nothing is changed. -/
theorem C156_off [Field K] (assertions : Bool) (t0 : T) (r0 : R) (k0 : K) (v0 : V) (f : Defaults T) :
    (∀ (d : FoamDeck T R) p, d.active = false → foamInit false d t0 r0 p = .done p) ∧
    (∀ (precipitation : Bool) (d : BrineDeck K C T) p, d.active = false → brineInit assertions false precipitation d t0 (k0, k0) p = .done p) ∧
    (∀ (d : SolventDeck K T) p, d.active = false → solventInit assertions false d f t0 k0 p = .done p) ∧
    (∀ (d : PolymerDeck K T M R V) p, d.active = false → d.polymw = false → polymerInit assertions false false d t0 r0 v0 p = .done p) := by
  refine ⟨fun d p h => ?_, fun pr d p h => ?_, fun d p h => ?_, fun d p h h' => ?_⟩
  · simp [foamInit, h, throwIf]
  · simp [brineInit, h, throwIf]
  · simp [solventInit, h, throwIf]
  · simp [polymerInit, h, h', throwIf]

/-! ### Foam -/

/-- **C156**  The set-up of foam succeeds for exactly those decks which have all tables that are needed, and then every look-up for a region of the
deck gives the table of that region. -/
theorem C156_foam (d : FoamDeck T R) (t0 : T) (r0 : R) (p p' : FoamParams T R) (ha : d.active = true) :
    foamInit true d t0 r0 p = .done p' ↔
      d.tab = true ∧ d.rock.length = d.numSat ∧ d.foamads.count = d.numSat ∧ 0 < d.numSat ∧ d.foammob.count = d.numPvt ∧ 0 < d.numPvt ∧
      p'.transport = d.transport ∧ p'.rock.length = d.numSat ∧ p'.ads.length = d.numSat ∧ p'.mob.length = d.numPvt ∧
      (∀ i, i < d.numSat → ∃ r t, d.rock[i]? = some r ∧ access p'.rock i = .done r ∧ d.foamads.table i = some t ∧ access p'.ads i = .done t) ∧
      (∀ i, i < d.numPvt → ∃ t, d.foammob.table i = some t ∧ access p'.mob i = .done t) := by
  unfold foamInit
  simp only [ha, fill_resize, bind_eq_done, throwIf_done, exists_unit, Bool.not_true, Bool.and_false, Bool.false_eq_true, if_false,
    Bool.not_eq_false', bne_eq_false_iff_eq, beq_eq_false_iff_ne, Res.done.injEq, true_and, access_done, collect_get]
  constructor
  · rintro ⟨-, h1, h2, h3, h4, rock, hr, ads, ⟨ha1, ha2⟩, h5, h6, mob, ⟨hm1, hm2⟩, rfl⟩
    obtain ⟨hr1, hr2⟩ := collect_done.1 hr
    refine ⟨h1, h2.symm, h4.symm, by omega, h6.symm, by omega, rfl, hr1, ha1, hm1, fun i hi => ?_, hm2⟩
    obtain ⟨r, hr3, hr4⟩ := hr2 i hi
    obtain ⟨t, ht1, ht2⟩ := ha2 i hi
    exact ⟨r, t, access_done.1 hr3, hr4, ht1, ht2⟩
  · rintro ⟨h1, h2, h3, h4, h5, h6, h7, h8, h9, h10, h11, h12⟩
    refine ⟨rfl, h1, h2.symm, by omega, h3.symm, p'.rock, collect_done.2 ⟨h8, fun i hi => ?_⟩, p'.ads, ⟨h9, fun i hi => ?_⟩, by omega, h5.symm,
      p'.mob, ⟨h10, h12⟩, ?_⟩
    · obtain ⟨r, t, hr1, hr2, -⟩ := h11 i hi
      exact ⟨r, access_done.2 hr1, hr2⟩
    · obtain ⟨r, t, -, -, ht1, ht2⟩ := h11 i hi
      exact ⟨t, ht1, ht2⟩
    · rw [← h7]

/-- **C156**  The set-up of foam has no undefined behaviour, and does not depend on what an earlier simulation has left behind. -/
theorem C156_foam_robust (enabled : Bool) (d : FoamDeck T R) (t0 : T) (r0 : R) (p q : FoamParams T R) :
    foamInit enabled d t0 r0 p ≠ .undefined ∧ foamInit enabled d t0 r0 p ≠ .aborted ∧
    (d.active = true → foamInit enabled d t0 r0 p = foamInit enabled d t0 r0 q) := by
  unfold foamInit
  simp only [fill_resize]
  refine ⟨fun h => ?_, fun h => ?_, fun h => by simp [h]⟩
  · simp only [bind_undefined (x := throwIf _), throwIf_undefined, throwIf_done, exists_unit, false_or] at h
    obtain ⟨-, -, h⟩ := h
    split at h
    · cases h
    simp only [bind_undefined, throwIf_undefined, throwIf_done, exists_unit, collect_get_undefined, false_or, reduceCtorEq, and_false, exists_const, or_false] at h
    obtain ⟨-, h1, -, -, h⟩ := h
    obtain ⟨i, hi, h⟩ := collect_undefined h
    rw [bne_eq_false_iff_eq] at h1
    rw [access_undefined] at h
    omega
  · simp only [bind_aborted (x := throwIf _), throwIf_aborted, throwIf_done, exists_unit, false_or] at h
    obtain ⟨-, -, h⟩ := h
    split at h
    · cases h
    simp only [bind_aborted, throwIf_aborted, throwIf_done, exists_unit, collect_get_aborted, false_or, reduceCtorEq, and_false, exists_const, or_false] at h
    obtain ⟨-, -, -, -, h⟩ := h
    obtain ⟨i, hi, h⟩ := collect_aborted h
    exact access_aborted h

/-! ### Brine -/

/-- **C156** (partial: the numbers of tables are not checked, see `C156_brine_violated`, and vectors of an earlier simulation survive, see
`C156_brine_again_violated`)  If there are not more tables than regions, and as many records for densities, the set-up of brine has no undefined
behaviour, and the look-ups of every region give what the deck says. -/
theorem C156_brine_partial (assertions enabled precipitation : Bool) (d : BrineDeck K C T) (t0 : T) (k0 : K × K) (p : BrineParams K T)
    (hb : d.bdensity.length = 0 ∨ (d.numPvt ≤ d.bdensity.length ∧ d.numPvt ≤ d.pvtwsalt.length))
    (hp : d.permfact.count ≤ d.numPvt) (hc : d.pcfact.count ≤ d.numSat) :
    brineInit assertions enabled precipitation d t0 k0 p ≠ .undefined ∧
    ∀ p', d.active = true → brineInit assertions enabled precipitation d t0 k0 p = .done p' →
      (d.bdensity ≠ [] → ∀ i, i < d.numPvt → ∃ x y, d.bdensity[i]? = some y ∧ d.pvtwsalt[i]? = some x ∧ access p'.bdensity i = .done (d.tabulate x y)) ∧
      (precipitation = true →
        (∀ i, i < d.permfact.count → ∃ t, d.permfact.table i = some t ∧ access p'.permfact i = .done t) ∧
        (d.saltsol.count ≠ 0 → ∀ i, i < d.numPvt → ∃ t, d.saltsol.table i = some t ∧ access p'.saltsol i = .done t) ∧
        (∀ i, i < d.pcfact.count → ∃ t, d.pcfact.table i = some t ∧ access p'.pcfact i = .done t)) := by
  have hp' : d.permfact.count ≤ (resize p.permfact d.numPvt t0).length := by rw [resize_length]; exact hp
  have hc' : d.pcfact.count ≤ (resize p.pcfact d.numSat t0).length := by rw [resize_length]; exact hc
  constructor
  · intro h
    unfold brineInit at h
    simp only [bind_undefined (x := throwIf _), throwIf_undefined, throwIf_done, exists_unit, false_or] at h
    obtain ⟨-, -, h⟩ := h
    split at h
    · cases h
    rcases bind_undefined.1 h with h | ⟨q, hq, h⟩
    · split at h
      · cases h
      simp only [bind_undefined, assertion_undefined, assertion_done, exists_unit, false_or, fill_resize, reduceCtorEq, and_false, exists_const,
        or_false] at h
      obtain ⟨i, hi, h⟩ := collect_undefined h.2
      simp only [bind_undefined, access_undefined, reduceCtorEq, and_false, exists_const, exists_false, or_false] at h
      rcases hb with hb | hb
      · contradiction
      rcases h with h | ⟨a, -, h⟩ <;> omega
    have hq' : q.permfact = p.permfact ∧ q.pcfact = p.pcfact := by
      split at hq
      · cases hq; exact ⟨rfl, rfl⟩
      simp only [bind_eq_done, assertion_done, exists_unit] at hq
      obtain ⟨-, b, -, h⟩ := hq
      cases h
      exact ⟨rfl, rfl⟩
    split at h
    · cases h
    rcases bind_undefined.1 h with h | ⟨f, -, h⟩
    · rw [hq'.1] at h
      obtain ⟨i, -, h⟩ := fill_undefined hp' h
      exact get_undefined _ _ h
    rcases bind_undefined.1 h with h | ⟨r, hr, h⟩
    · split at h
      · cases h
      simp [bind_undefined, fill_resize, collect_get_undefined] at h
    have hr' : r.pcfact = p.pcfact := by
      split at hr
      · cases hr; exact hq'.2
      simp only [bind_eq_done, assertion_done, exists_unit] at hr
      obtain ⟨-, b, -, h⟩ := hr
      cases h
      exact hq'.2
    split at h
    · cases h
    rcases bind_undefined.1 h with h | ⟨g, -, h⟩
    · rw [hr'] at h
      obtain ⟨i, -, h⟩ := fill_undefined hc' h
      exact get_undefined _ _ h
    · cases h
  · intro p' ha h
    unfold brineInit at h
    simp only [ha, bind_eq_done (x := throwIf _), throwIf_done, exists_unit, Bool.not_true, Bool.false_eq_true, if_false] at h
    obtain ⟨-, -, h⟩ := h
    obtain ⟨q, hq, h⟩ := bind_eq_done.1 h
    have hd : q.permfact = p.permfact ∧ q.pcfact = p.pcfact ∧ (d.bdensity ≠ [] → ∀ i, i < d.numPvt →
        ∃ x y, d.bdensity[i]? = some y ∧ d.pvtwsalt[i]? = some x ∧ access q.bdensity i = .done (d.tabulate x y)) := by
      split at hq
      · rename_i h0
        cases hq
        exact ⟨rfl, rfl, fun hn => absurd (List.length_eq_zero_iff.1 h0) hn⟩
      simp only [bind_eq_done, assertion_done, exists_unit, fill_resize] at hq
      obtain ⟨-, b, hq, h⟩ := hq
      cases h
      refine ⟨rfl, rfl, fun _ i hi => ?_⟩
      obtain ⟨h1, h2⟩ := collect_done.1 hq
      obtain ⟨a, hg, hm⟩ := h2 i hi
      simp only [bind_eq_done, access_done, Res.done.injEq] at hg
      obtain ⟨y, hy, x, hx, rfl⟩ := hg
      exact ⟨x, y, hy, hx, access_done.2 hm⟩
    obtain ⟨hd1, hd2, hd3⟩ := hd
    split at h
    · cases h
      exact ⟨hd3, fun hpr => by simp_all⟩
    obtain ⟨f, hf, h⟩ := bind_eq_done.1 h
    rw [hd1] at hf
    obtain ⟨-, hf, -⟩ := fill_done hp' hf
    obtain ⟨r, hr, h⟩ := bind_eq_done.1 h
    have hs : r.bdensity = q.bdensity ∧ r.permfact = f ∧ r.pcfact = p.pcfact ∧
        (d.saltsol.count ≠ 0 → ∀ i, i < d.numPvt → ∃ t, d.saltsol.table i = some t ∧ access r.saltsol i = .done t) := by
      split at hr
      · rename_i h0
        cases hr
        exact ⟨rfl, rfl, hd2, fun hn => absurd h0 hn⟩
      simp only [bind_eq_done, assertion_done, exists_unit, fill_resize, collect_get] at hr
      obtain ⟨-, b, ⟨h1, h2⟩, h⟩ := hr
      cases h
      refine ⟨rfl, rfl, hd2, fun _ i hi => ?_⟩
      obtain ⟨a, hg, hm⟩ := h2 i hi
      exact ⟨a, hg, access_done.2 hm⟩
    obtain ⟨hs1, hs2, hs3, hs4⟩ := hs
    have hf' : ∀ i, i < d.permfact.count → ∃ t, d.permfact.table i = some t ∧ access r.permfact i = .done t := fun i hi => by
      obtain ⟨a, hg, hm⟩ := hf i hi
      exact ⟨a, get_done.1 hg, by rw [hs2]; exact access_done.2 hm⟩
    split at h
    · rename_i h0
      cases h
      exact ⟨by rw [hs1]; exact hd3, fun _ => ⟨hf', hs4, fun i hi => by omega⟩⟩
    obtain ⟨g, hg, h⟩ := bind_eq_done.1 h
    cases h
    rw [hs3] at hg
    obtain ⟨-, hg, -⟩ := fill_done hc' hg
    refine ⟨by simp only; rw [hs1]; exact hd3, fun _ => ⟨hf', hs4, fun i hi => ?_⟩⟩
    obtain ⟨a, hg, hm⟩ := hg i hi
    exact ⟨a, get_done.1 hg, access_done.2 hm⟩

/-- A deck with brine: one region each, and tables as given -/
def brine (permfact pcfact : ℕ) (saltsol : Option (ℕ × ℕ)) : BrineDeck ℕ ℕ ℕ where
  active := true
  numSat := 1
  numPvt := 1
  bdensity := [7]
  pvtwsalt := [8]
  tabulate x y := x * y
  permfact := ⟨permfact, some⟩
  saltsol := ⟨if saltsol.isSome then 1 else 0, fun _ => saltsol⟩
  pcfact := ⟨pcfact, some⟩

/-- **C156**  Not so: with more tables of `PERMFACT` than regions for PVT, or of `PCFACT` than saturation regions, the set-up writes beyond the end of
a vector, and with fewer records of `PVTWSALT` than of `BDENSITY` it reads beyond one. -/
theorem C156_brine_violated (assertions : Bool) (p : BrineParams ℕ ℕ) :
    brineInit assertions true true (brine 2 0 none) 0 (0, 0) p = .undefined ∧
    brineInit assertions true true (brine 1 2 none) 0 (0, 0) p = .undefined ∧
    brineInit assertions true true { brine 1 1 none with pvtwsalt := [] } 0 (0, 0) p = .undefined := by
  refine ⟨?_, ?_, ?_⟩ <;> cases assertions <;>
    simp [brineInit, brine, throwIf, assertion, fill, resize_length, access, Tables.get]

/-- **C156**  Not so: solubility and densities of salt which an earlier simulation of the same program has read stay in force for a deck which has
none. -/
theorem C156_brine_again_violated :
    ∃ p : BrineParams ℕ ℕ, brineInit true true true (brine 1 1 (some (3, 4))) 0 (0, 0) ⟨[], [], [], []⟩ = .done p ∧
    ∃ q, brineInit true true true { brine 1 0 none with bdensity := [], pvtwsalt := [] } 0 (0, 0) p = .done q ∧
      access q.saltsol 0 = .done (3, 4) ∧ access q.bdensity 0 = .done 56 ∧ access q.pcfact 0 = .done 0 ∧
    ∃ q', brineInit true true true { brine 1 0 none with bdensity := [], pvtwsalt := [] } 0 (0, 0) ⟨[], [], [], []⟩ = .done q' ∧
      access q'.saltsol 0 = .undefined ∧ access q'.bdensity 0 = .undefined ∧ access q'.pcfact 0 = .undefined :=
  ⟨_, rfl, _, rfl, rfl, rfl, rfl, _, rfl, rfl, rfl, rfl⟩

/-- A deck to which the theorem applies -/
example : ∃ p', brineInit true true true (brine 1 1 (some (3, 4))) 0 (0, 0) ⟨[], [], [], []⟩ = .done p' ∧
    access p'.permfact 0 = .done 0 ∧ access p'.saltsol 0 = .done (3, 4) ∧ access p'.bdensity 0 = .done 56 :=
  ⟨_, rfl, rfl, rfl, rfl⟩

/-! ### Solvent -/

/-- What a vector of functions for `n` regions has to contain: the tables of the deck, or a default if there are none -/
def Holds {T : Type} (t : Tables T) (dflt : T) (n : ℕ) (l : List T) : Prop :=
  l.length = n ∧ ∀ i, i < n → if t.count = 0 then access l i = .done dflt else ∃ a, t.table i = some a ∧ access l i = .done a

theorem holds_of {a : Bool} {t : Tables T} {n : ℕ} {dflt t0 : T} {l m : List T} (h : fillOr a t n dflt t0 l = .done m) : Holds t dflt n m := by
  obtain ⟨h1, -, h2, h3⟩ := fillOr_done h
  refine ⟨h1, fun i hi => ?_⟩
  split_ifs with h0
  · exact h2 h0 i hi
  · exact h3 h0 i hi

/-- The tables of a miscible run -/
structure Miscible (assertions : Bool) (d : SolventDeck K T) (f : Defaults T) (p' : SolventParams K T) : Prop where
  /-- `SOF2` is needed for oil, -/
  oil : d.oil = true → d.sof2.count ≠ 0
  /-- and then holds for every saturation region. -/
  sof2 : d.sof2.count ≠ 0 → ∀ i, i < d.numSat → ∃ t, d.sof2.table i = some t ∧ access p'.sof2 i = .done t
  /-- The first table is that of the single region for miscibility. -/
  misc : ∃ t, d.misc.table 0 = some t ∧ p'.misc = [t]
  /-- Without `PMISC`, everything mixes. -/
  pmisc : Holds d.pmisc f.one 1 p'.pmisc
  /-- Without `MSFN`, relative permeabilities are linear. -/
  msfn : Holds d.msfn f.unit d.numSat p'.msfn
  /-- Residual saturations are zero by default. -/
  sorwmis : Holds d.sorwmis f.zero 1 p'.sorwmis
  sgcwmis : Holds d.sgcwmis f.zero 1 p'.sgcwmis
  /-- The parameters of Todd and Longstaff -/
  tlmix : ∃ k, d.tlmixpar[0]? = some k ∧ p'.tlmix = [k]
  /-- They do not depend on pressure by default. -/
  tlpmix : Holds d.tlpmixpa f.one 1 p'.tlpmix
  /-- With assertions, no deck has more than one region for miscibility. -/
  single : assertions = true → d.misc.count = 1 ∧ d.tlmixpar.length = 1

theorem miscibleInit_undefined (assertions : Bool) (d : SolventDeck K T) (f : Defaults T) (t0 : T) (k0 : K) (p : SolventParams K T) :
    miscibleInit assertions d f t0 k0 p ≠ .undefined := by
  intro h
  unfold miscibleInit at h
  rcases bind_undefined.1 h with h | ⟨_, -, h⟩
  · split at h
    · simp [bind_undefined] at h
    · rw [fill_resize] at h
      exact collect_get_undefined _ _ h
  rcases bind_undefined.1 h with h | ⟨_, -, h⟩
  · split at h
    · cases h
    · simp [bind_undefined, fill_resize, collect_get_undefined] at h
  rcases bind_undefined.1 h with h | ⟨_, -, h⟩
  · exact fillOr_undefined _ _ _ _ _ _ h
  rcases bind_undefined.1 h with h | ⟨_, -, h⟩
  · exact fillOr_undefined _ _ _ _ _ _ h
  rcases bind_undefined.1 h with h | ⟨_, -, h⟩
  · exact fillOr_undefined _ _ _ _ _ _ h
  rcases bind_undefined.1 h with h | ⟨_, -, h⟩
  · exact fillOr_undefined _ _ _ _ _ _ h
  rcases bind_undefined.1 h with h | ⟨_, -, h⟩
  · split at h
    · cases h
    · rename_i h0
      simp only [bind_undefined, assertion_undefined, false_or, assertion_done, exists_unit, fill_resize] at h
      obtain ⟨i, hi, h⟩ := collect_undefined h.2
      rw [access_undefined] at h
      omega
  rcases bind_undefined.1 h with h | ⟨_, -, h⟩
  · split_ifs at h
    · simp [bind_undefined, fill_resize, collect_get_undefined] at h
    · rw [fill_resize, collect_const] at h
      cases h
  · cases h

theorem miscibleInit_done {assertions : Bool} {d : SolventDeck K T} {f : Defaults T} {t0 : T} {k0 : K} {p p' : SolventParams K T}
    (h : miscibleInit assertions d f t0 k0 p = .done p') :
    Miscible assertions d f p' ∧ p'.ssfn = p.ssfn ∧ p'.miscible = p.miscible ∧ p'.soluble = p.soluble ∧ p'.co2 = p.co2 ∧ p'.h2 = p.h2 := by
  unfold miscibleInit at h
  obtain ⟨sof2, h1, h⟩ := bind_eq_done.1 h
  obtain ⟨misc, h2, h⟩ := bind_eq_done.1 h
  obtain ⟨pmisc, h3, h⟩ := bind_eq_done.1 h
  obtain ⟨msfn, h4, h⟩ := bind_eq_done.1 h
  obtain ⟨sorwmis, h5, h⟩ := bind_eq_done.1 h
  obtain ⟨sgcwmis, h6, h⟩ := bind_eq_done.1 h
  obtain ⟨tlmix, h7, h⟩ := bind_eq_done.1 h
  obtain ⟨tlpmix, h8, h⟩ := bind_eq_done.1 h
  cases h
  refine ⟨?_, rfl, rfl, rfl, rfl, rfl⟩
  have e2 : (assertions = true → d.misc.count = 1) ∧ ∃ t, d.misc.table 0 = some t ∧ misc = [t] := by
    split at h2
    · cases h2
    simp only [bind_eq_done, assertion_done, exists_unit, fill_resize, collect_get, beq_iff_eq] at h2
    obtain ⟨a1, a2, a3⟩ := h2
    obtain ⟨t, ht, hm⟩ := a3 0 (by omega)
    obtain ⟨y, rfl⟩ := List.length_eq_one_iff.1 a2
    exact ⟨fun ha => (a1 ha).symm, t, ht, by simpa using hm⟩
  have e7 : (assertions = true → d.tlmixpar.length = 1) ∧ ∃ t, d.tlmixpar[0]? = some t ∧ tlmix = [t] := by
    split at h7
    · cases h7
    simp only [bind_eq_done, assertion_done, exists_unit, fill_resize, collect_done, access_done, beq_iff_eq] at h7
    obtain ⟨a1, a2, a3⟩ := h7
    obtain ⟨t, ht, hm⟩ := a3 0 (by omega)
    obtain ⟨y, rfl⟩ := List.length_eq_one_iff.1 a2
    exact ⟨fun ha => (a1 ha).symm, t, ht, by simpa using hm⟩
  refine ⟨fun ho h0 => ?_, fun hn i hi => ?_, e2.2, holds_of h3, holds_of h4, holds_of h5, holds_of h6, e7.2, ?_, fun ha => ⟨e2.1 ha, e7.1 ha⟩⟩
  · rw [if_pos h0] at h1
    simp [ho, throwIf] at h1
  · rw [if_neg hn, fill_resize, collect_get] at h1
    obtain ⟨t, ht, hm⟩ := h1.2 i hi
    exact ⟨t, ht, access_done.2 hm⟩
  · refine holds_of (a := assertions) (t0 := t0) (l := p.tlpmix) ?_
    unfold fillOr
    by_cases h0 : d.tlpmixpa.count = 0
    · simpa [h0] using h8
    · simpa [h0] using h8

/-- **C156** (partial: with assertions compiled out, a deck with several regions for miscibility is accepted, see `C156_miscnum_violated`; whether
solvent dissolves in water is not reset, see `C156_solvent_again_violated`)  The set-up of solvent has no undefined behaviour, and afterwards every
vector of functions holds the tables of the deck or the default. -/
theorem C156_solvent_partial (assertions enabled : Bool) (d : SolventDeck K T) (f : Defaults T) (t0 : T) (k0 : K) (p : SolventParams K T) :
    solventInit assertions enabled d f t0 k0 p ≠ .undefined ∧
    ∀ p', d.active = true → solventInit assertions enabled d f t0 k0 p = .done p' →
      (∀ i, i < d.numSat → ∃ t, d.ssfn.table i = some t ∧ access p'.ssfn i = .done t) ∧
      p'.co2 = d.co2 ∧ p'.h2 = d.h2 ∧ ¬ (d.co2 = true ∧ d.h2 = true) ∧
      ((d.co2 = true ∨ d.h2 = true) ∧ d.disgasw = true → p'.soluble = true) ∧
      (p'.miscible = true ↔ d.misc.count ≠ 0) ∧ (d.misc.count ≠ 0 → Miscible assertions d f p') := by
  constructor
  · intro h
    unfold solventInit at h
    simp only [bind_undefined (x := throwIf _), throwIf_undefined, throwIf_done, exists_unit, false_or] at h
    obtain ⟨-, -, h⟩ := h
    split at h
    · cases h
    simp only [bind_undefined (x := throwIf _), throwIf_undefined, throwIf_done, exists_unit, false_or] at h
    rcases bind_undefined.1 h.2 with h | ⟨s, -, h⟩
    · rw [fill_resize] at h
      exact collect_get_undefined _ _ h
    split at h
    · cases h
    · exact miscibleInit_undefined _ _ _ _ _ _ h
  · intro p' ha h
    unfold solventInit at h
    simp only [ha, bind_eq_done (x := throwIf _), throwIf_done, exists_unit, Bool.not_true, Bool.false_eq_true, if_false, fill_resize] at h
    obtain ⟨-, -, hx, h⟩ := h
    obtain ⟨s, hs, h⟩ := bind_eq_done.1 h
    obtain ⟨hs1, hs2⟩ := collect_get.1 hs
    have hx' : ¬ (d.co2 = true ∧ d.h2 = true) := by simpa using hx
    have hss : ∀ i, i < d.numSat → ∃ t, d.ssfn.table i = some t ∧ access s i = .done t := fun i hi =>
      let ⟨t, ht, hm⟩ := hs2 i hi
      ⟨t, ht, access_done.2 hm⟩
    split at h
    · rename_i h0
      cases h
      refine ⟨hss, ?_, ?_, hx', fun hd => ?_, by simp [h0], fun hn => absurd h0 hn⟩
      · split <;> rfl
      · split <;> rfl
      · rw [if_pos (by simpa using hd)]
    · rename_i h0
      obtain ⟨hm, e1, e2, e3, e4, e5⟩ := miscibleInit_done h
      refine ⟨by rw [e1]; exact hss, ?_, ?_, hx', fun hd => ?_, by simp [h0, e2], fun _ => hm⟩
      · rw [e4]; split <;> rfl
      · rw [e5]; split <;> rfl
      · rw [e3]
        simp only
        rw [if_pos (by simpa using hd)]

/-- A deck with solvent and a number of tables for miscibility -/
def solvent (misc : ℕ) (co2 : Bool) : SolventDeck ℕ ℕ where
  active := true
  oil := true
  co2 := co2
  h2 := false
  disgasw := co2
  numSat := 1
  ssfn := ⟨1, fun i => some (i, i)⟩
  misc := ⟨misc, fun i => if i < misc then some (i + 10) else none⟩
  sof2 := ⟨1, some⟩
  pmisc := ⟨misc, some⟩
  msfn := ⟨0, fun _ => none⟩
  sorwmis := ⟨0, fun _ => none⟩
  sgcwmis := ⟨0, fun _ => none⟩
  tlmixpar := List.replicate misc (5, 6)
  tlpmixpa := ⟨0, fun _ => none⟩

/-- No parameters yet -/
def fresh : SolventParams ℕ ℕ := ⟨[], [], [], [], [], [], [], [], [], false, false, false, false⟩

/-- **C156**  Not so: a deck with two regions for miscibility is accepted if assertions are compiled out, and the look-up in a cell of the second one
has undefined behaviour. -/
theorem C156_miscnum_violated :
    ∃ p', solventInit false true (solvent 2 false) ⟨100, 200, (300, 400)⟩ 0 0 fresh = .done p' ∧ (solvent 2 false).misc.table 1 = some 11 ∧
      access p'.misc 1 = .undefined ∧ access p'.tlmix 1 = .undefined :=
  ⟨_, rfl, rfl, rfl, rfl⟩

/-- **C156**  Not so: once a deck has had a solvent which dissolves in water, that of every later deck of the same program does so as well. -/
theorem C156_solvent_again_violated :
    ∃ p', solventInit true true (solvent 1 true) ⟨100, 200, (300, 400)⟩ 0 0 fresh = .done p' ∧ p'.soluble = true ∧
    ∃ q, solventInit true true (solvent 1 false) ⟨100, 200, (300, 400)⟩ 0 0 p' = .done q ∧ q.co2 = false ∧ q.soluble = true ∧
    ∃ q', solventInit true true (solvent 1 false) ⟨100, 200, (300, 400)⟩ 0 0 fresh = .done q' ∧ q'.soluble = false :=
  ⟨_, rfl, rfl, _, rfl, rfl, rfl, _, rfl, rfl⟩

/-- A miscible run: tables and defaults -/
example : ∃ p', solventInit true true (solvent 1 false) ⟨100, 200, (300, 400)⟩ 0 0 fresh = .done p' ∧ p'.miscible = true ∧ p'.misc = [10] ∧
    p'.sorwmis = [200] ∧ p'.msfn = [(300, 400)] ∧ p'.pmisc = [0] ∧ p'.tlpmix = [100] :=
  ⟨_, rfl, rfl, rfl, rfl, rfl, rfl, rfl⟩

/-! ### Polymer -/

section Polymer
variable [Field K]

theorem shearInit_undefined {assertions enabledMW : Bool} {d : PolymerDeck K T M R V} {visc : List T} {l : List (List K × List K)}
    (hv : visc.length = d.numPvt) : shearInit assertions enabledMW d visc l ≠ .undefined := by
  intro h
  unfold shearInit at h
  split at h
  · simp only [bind_undefined (x := assertion _ _), assertion_undefined, false_or, assertion_done, exists_unit, fill_resize] at h
    obtain ⟨i, hi, h⟩ := collect_undefined h.2
    simp only [bind_undefined, get_undefined, false_or, access_undefined, reduceCtorEq, and_false, exists_false, or_false] at h
    obtain ⟨-, -, h⟩ := h
    omega
  · cases h

theorem shearInit_done {assertions : Bool} {d : PolymerDeck K T M R V} {visc : List T} {l m : List (List K × List K)}
    (hs : d.hasPlyshlog = true) (h : shearInit assertions false d visc l = .done m) (i : ℕ) (hi : i < d.numPvt) :
    ∃ c v k t, d.plyshlog.table i = some (c, v, k) ∧ visc[i]? = some t ∧ m[i]? = some (v, k.map (convert (d.evalVisc t c))) := by
  unfold shearInit at h
  simp only [hs, Bool.not_false, Bool.and_true, if_true, bind_eq_done (x := assertion _ _), assertion_done, exists_unit, fill_resize] at h
  obtain ⟨a, ha, hm⟩ := (collect_done.1 h.2).2 i hi
  simp only [bind_eq_done, get_done, access_done, Res.done.injEq] at ha
  obtain ⟨⟨c, v, k⟩, ht, t, hv, rfl⟩ := ha
  exact ⟨c, v, k, t, ht, hv, hm⟩

theorem shrateInit_undefined (enabledMW : Bool) (d : PolymerDeck K T M R V) (l : List K) : shrateInit enabledMW d l ≠ .undefined := by
  intro h
  unfold shrateInit at h
  split at h
  · simp only [bind_undefined, throwIf_undefined, false_or, throwIf_done, exists_unit, fill_resize] at h
    obtain ⟨i, hi, h⟩ := collect_undefined h.2
    split_ifs at h
    rw [access_undefined] at h
    omega
  · cases h

theorem polymerInit_cases {assertions enabled enabledMW : Bool} {d : PolymerDeck K T M R V} {t0 : T} {r0 : R} {v0 : V}
    {p p' : PolymerParams K T M R V} (ha : d.active = true) (h : polymerInit assertions enabled enabledMW d t0 r0 v0 p = .done p') :
    (∀ i, i < d.numSat → ∃ r t, d.plyrock.table i = some r ∧ p'.rock[i]? = some r ∧ d.plyads.table i = some t ∧ p'.ads[i]? = some t) ∧
    p'.visc.length = d.numPvt ∧
    (enabledMW = false → ∀ i, i < d.numPvt → ∃ t, d.plyvisc.table i = some t ∧ p'.visc[i]? = some t) ∧
    (0 < d.plymax.count ∧ ∀ i, i < d.plymax.count → ∃ t, d.plymax.table i = some t ∧ p'.maxConcentration[i]? = some t) ∧
    (enabledMW = false → d.plymax.count ≤ d.plmixpar.length → ∀ i, i < d.plymax.count → p'.mix[i]? = d.plmixpar[i]?) ∧
    shearInit assertions enabledMW d p'.visc p.shear = .done p'.shear ∧ shrateInit enabledMW d p.shrate = .done p'.shrate ∧
    (enabledMW = true → d.plymax.count ≤ d.plyvmh.length → ∀ i, i < d.plymax.count → p'.vmh[i]? = d.plyvmh[i]?) ∧
    p'.hasShrate = d.useShrate ∧ p'.hasPlyshlog = d.hasPlyshlog ∧
    (enabledMW = true → p'.plymwinj = insertAll p.plymwinj d.plymwinj ∧ p'.skprwat = insertAll p.skprwat d.skprwat ∧
      p'.skprpoly = insertAll p.skprpoly d.skprpoly) := by
  unfold polymerInit at h
  simp only [bind_eq_done (x := throwIf _), throwIf_done, exists_unit, ha, Bool.not_true, Bool.false_eq_true, if_false] at h
  obtain ⟨-, -, -, -, -, h⟩ := h
  obtain ⟨rock, h1, h⟩ := bind_eq_done.1 h
  obtain ⟨ads, h2, h⟩ := bind_eq_done.1 h
  obtain ⟨visc, h3, h⟩ := bind_eq_done.1 h
  obtain ⟨mx, h4, h⟩ := bind_eq_done.1 h
  obtain ⟨mix, h5, h⟩ := bind_eq_done.1 h
  obtain ⟨shear, h6, h⟩ := bind_eq_done.1 h
  obtain ⟨shrate, h7, h⟩ := bind_eq_done.1 h
  obtain ⟨vmh, h8, h⟩ := bind_eq_done.1 h
  cases h
  have e1 : ∀ i, i < d.numSat → ∃ r, d.plyrock.table i = some r ∧ rock[i]? = some r := by
    split at h1
    · cases h1
    simp only [bind_eq_done, assertion_done, exists_unit, fill_resize, collect_get] at h1
    exact h1.2.2
  have e2 : ∀ i, i < d.numSat → ∃ r, d.plyads.table i = some r ∧ ads[i]? = some r := by
    split at h2
    · cases h2
    simp only [bind_eq_done, assertion_done, exists_unit, fill_resize, collect_get] at h2
    exact h2.2.2
  have e3 : visc.length = d.numPvt ∧ (enabledMW = false → ∀ i, i < d.numPvt → ∃ t, d.plyvisc.table i = some t ∧ visc[i]? = some t) := by
    split at h3
    · simp only [bind_eq_done, throwIf_done, exists_unit, Bool.not_eq_false'] at h3
      obtain ⟨hm, h3⟩ := h3
      cases h3
      exact ⟨resize_length _ _ _, fun hf => by simp_all⟩
    split at h3
    · rename_i hm
      cases h3
      exact ⟨resize_length _ _ _, fun hf => by simp_all⟩
    simp only [bind_eq_done, assertion_done, exists_unit, fill_resize, collect_get] at h3
    exact ⟨h3.2.1, fun _ => h3.2.2⟩
  have e4 : 0 < d.plymax.count ∧ ∀ i, i < d.plymax.count → ∃ t, d.plymax.table i = some t ∧ mx[i]? = some t := by
    split at h4
    · cases h4
    simp only [fill_resize, collect_get] at h4
    exact ⟨by omega, h4.2⟩
  refine ⟨fun i hi => ?_, e3.1, e3.2, e4, fun hf hl i hi => ?_, h6, h7, fun hf hl i hi => ?_, rfl, rfl, fun hf => by simp [hf]⟩
  · obtain ⟨r, hr1, hr2⟩ := e1 i hi
    obtain ⟨t, ht1, ht2⟩ := e2 i hi
    exact ⟨r, t, hr1, hr2, ht1, ht2⟩
  · rw [if_neg (by omega), hf] at h5
    simp only [Bool.false_eq_true, if_false, fill_resize] at h5
    obtain ⟨-, rfl⟩ := collect_access h5
    exact List.getElem?_take_of_lt hi
  · rw [if_pos hf, if_neg (by omega)] at h8
    simp only [bind_eq_done, assertion_done, exists_unit, fill_resize] at h8
    obtain ⟨-, rfl⟩ := collect_access h8.2
    exact List.getElem?_take_of_lt hi

/-- **C156** (partial: records of `PLMIXPAR` and `PLYVMH` are taken to be as many as those of `PLYMAX`, see `C156_polymer_violated`)  The set-up of
polymer has no undefined behaviour, and afterwards the look-ups give what the deck says. -/
theorem C156_polymer_partial (assertions enabled enabledMW : Bool) (d : PolymerDeck K T M R V) (t0 : T) (r0 : R) (v0 : V)
    (p : PolymerParams K T M R V)
    (hmix : enabledMW = false → d.plmixpar = [] ∨ d.plymax.count ≤ d.plmixpar.length)
    (hvmh : enabledMW = true → d.plyvmh = [] ∨ d.plymax.count ≤ d.plyvmh.length) :
    polymerInit assertions enabled enabledMW d t0 r0 v0 p ≠ .undefined ∧
    ∀ p', d.active = true → polymerInit assertions enabled enabledMW d t0 r0 v0 p = .done p' →
      (∀ i, i < d.numSat → ∃ r t, d.plyrock.table i = some r ∧ access p'.rock i = .done r ∧ d.plyads.table i = some t ∧ access p'.ads i = .done t) ∧
      (∀ i, i < d.plymax.count → ∃ t, d.plymax.table i = some t ∧ access p'.maxConcentration i = .done t) ∧
      (enabledMW = false →
        (∀ i, i < d.numPvt → ∃ t, d.plyvisc.table i = some t ∧ access p'.visc i = .done t) ∧
        (d.plymax.count ≤ d.plmixpar.length → ∀ i, i < d.plymax.count → ∃ k, d.plmixpar[i]? = some k ∧ access p'.mix i = .done k) ∧
        (d.useShrate = true → d.hasPlyshlog = true ∧ ∀ i, i < d.numPvt →
          access p'.shrate i = if d.shrate = [] then .done (48 / 10) else access d.shrate i)) ∧
      (enabledMW = true → d.plymax.count ≤ d.plyvmh.length → ∀ i, i < d.plymax.count → ∃ v, d.plyvmh[i]? = some v ∧ access p'.vmh i = .done v) := by
  constructor
  · intro h
    unfold polymerInit at h
    simp only [bind_undefined (x := throwIf _), throwIf_undefined, throwIf_done, exists_unit, false_or] at h
    obtain ⟨-, -, -, -, -, h⟩ := h
    split at h
    · cases h
    rcases bind_undefined.1 h with h | ⟨_, -, h⟩
    · split at h
      · cases h
      · simp [bind_undefined, fill_resize, collect_get_undefined] at h
    rcases bind_undefined.1 h with h | ⟨_, -, h⟩
    · split at h
      · cases h
      · simp [bind_undefined, fill_resize, collect_get_undefined] at h
    rcases bind_undefined.1 h with h | ⟨visc, h3, h⟩
    · split at h
      · simp [bind_undefined] at h
      split at h
      · cases h
      · simp [bind_undefined, fill_resize, collect_get_undefined] at h
    have e3 : visc.length = d.numPvt := by
      split at h3
      · simp only [bind_eq_done, throwIf_done, exists_unit, Bool.not_eq_false'] at h3
        obtain ⟨-, h3⟩ := h3
        cases h3
        exact resize_length _ _ _
      split at h3
      · cases h3
        exact resize_length _ _ _
      simp only [bind_eq_done, assertion_done, exists_unit, fill_resize, collect_get] at h3
      exact h3.2.1
    rcases bind_undefined.1 h with h | ⟨_, -, h⟩
    · split at h
      · cases h
      · rw [fill_resize] at h
        exact collect_get_undefined _ _ h
    rcases bind_undefined.1 h with h | ⟨_, -, h⟩
    · split at h
      · simp [bind_undefined] at h
      split at h
      · cases h
      · rename_i h0 hm
        rw [fill_resize] at h
        obtain ⟨i, hi, h⟩ := collect_undefined h
        rw [access_undefined] at h
        rcases hmix (by simpa using hm) with h' | h'
        · simp [h'] at h0
        · omega
    rcases bind_undefined.1 h with h | ⟨_, -, h⟩
    · exact shearInit_undefined e3 h
    rcases bind_undefined.1 h with h | ⟨_, -, h⟩
    · exact shrateInit_undefined _ _ _ h
    rcases bind_undefined.1 h with h | ⟨_, -, h⟩
    · split at h
      · rename_i hm
        split at h
        · cases h
        rename_i h0
        simp only [bind_undefined (x := assertion _ _), assertion_undefined, assertion_done, exists_unit, false_or, fill_resize] at h
        obtain ⟨i, hi, h⟩ := collect_undefined h.2
        rw [access_undefined] at h
        rcases hvmh hm with h' | h'
        · simp [h'] at h0
        · omega
      · cases h
    · cases h
  · intro p' ha h
    obtain ⟨h1, h2, h3, h4, h5, h6, h7, h8, -⟩ := polymerInit_cases ha h
    refine ⟨fun i hi => ?_, fun i hi => ?_, fun hf => ⟨fun i hi => ?_, fun hl i hi => ?_, fun hs => ?_⟩, fun hf hl i hi => ?_⟩
    · obtain ⟨r, t, a1, a2, a3, a4⟩ := h1 i hi
      exact ⟨r, t, a1, access_done.2 a2, a3, access_done.2 a4⟩
    · obtain ⟨t, a1, a2⟩ := h4.2 i hi
      exact ⟨t, a1, access_done.2 a2⟩
    · obtain ⟨t, a1, a2⟩ := h3 hf i hi
      exact ⟨t, a1, access_done.2 a2⟩
    · refine ⟨d.plmixpar[i]'(by omega), List.getElem?_eq_getElem _, access_done.2 ?_⟩
      rw [h5 hf hl i hi]
      exact List.getElem?_eq_getElem _
    · unfold shrateInit at h7
      simp only [hs, hf, Bool.not_false, Bool.and_true, if_true, bind_eq_done, throwIf_done, exists_unit, Bool.not_eq_false', fill_resize] at h7
      refine ⟨h7.1, fun i hi => ?_⟩
      obtain ⟨a, a1, a2⟩ := (collect_done.1 h7.2).2 i hi
      rw [access_done.2 a2]
      by_cases h0 : d.shrate = []
      · rw [if_pos (by simp [h0])] at a1
        rw [if_pos h0]
        exact a1.symm
      · rw [if_neg (by simpa using h0)] at a1
        rw [if_neg h0]
        split at a1
        · exact a1.symm
        · cases a1
    · refine ⟨d.plyvmh[i]'(by omega), List.getElem?_eq_getElem _, access_done.2 ?_⟩
      rw [h8 hf hl i hi]
      exact List.getElem?_eq_getElem _

/-- **C156**  The multipliers of `PLYSHLOG` come back at the concentration they are given for: after the set-up, the tables looked up for a region are
those of the deck, and with the viscosity multiplier `P` at the reference concentration, the formula of the shear factor
`(1 + (P - 1) M) / P` gives the multipliers of the deck. -/
theorem C156_shear (assertions enabled : Bool) (d : PolymerDeck K T M R V) (t0 : T) (r0 : R) (v0 : V) (p p' : PolymerParams K T M R V)
    (ha : d.active = true) (h : polymerInit assertions enabled false d t0 r0 v0 p = .done p') :
    (d.hasPlyshlog = false → ∀ i, shearTables p' i = .done none) ∧
    (d.hasPlyshlog = true → ∀ i, i < d.numPvt → ∃ c v k t, d.plyshlog.table i = some (c, v, k) ∧ d.plyvisc.table i = some t ∧
      (v ≠ [] → ∃ m, shearTables p' i = .done (some (t, v, m)) ∧
        (d.evalVisc t c ≠ 0 → d.evalVisc t c ≠ 1 → m.map (fun z => (1 + (d.evalVisc t c - 1) * z) / d.evalVisc t c) = k))) := by
  obtain ⟨-, -, h3, -, -, h6, -, -, -, hy, -⟩ := polymerInit_cases ha h
  refine ⟨fun hs i => ?_, fun hs i hi => ?_⟩
  · simp [shearTables, hy, hs]
  · obtain ⟨c, v, k, t, a1, a2, a3⟩ := shearInit_done hs h6 i hi
    obtain ⟨t', b1, b2⟩ := h3 rfl i hi
    obtain rfl : t = t' := by rw [a2] at b2; exact Option.some.inj b2
    refine ⟨c, v, k, t, a1, b1, fun hv => ⟨k.map (convert (d.evalVisc t c)), ?_, fun hP0 hP1 => ?_⟩⟩
    · obtain ⟨x, l, rfl⟩ := List.exists_cons_of_ne_nil hv
      simp [shearTables, hy, hs, access, a2, a3]
    · rw [List.map_map]
      refine (List.map_congr_left fun z _ => ?_).trans (List.map_id k)
      have hP1' : d.evalVisc t c - 1 ≠ 0 := sub_ne_zero.2 hP1
      simp only [Function.comp, convert, id]
      rw [mul_div_cancel₀ _ hP1', div_eq_iff hP0]
      ring

/-- **C156**  Not so: `PLYSHLOG` is said to have no effect if molecular weight is tracked, but the shear factors are looked up all the same, in
vectors without an element. -/
theorem C156_shear_violated (assertions enabled : Bool) (d : PolymerDeck K T M R V) (t0 : T) (r0 : R) (v0 : V) (p p' : PolymerParams K T M R V)
    (ha : d.active = true) (hs : d.hasPlyshlog = true) (hp : p.shear = []) (h : polymerInit assertions enabled true d t0 r0 v0 p = .done p') (i : ℕ) :
    shearTables p' i = .undefined := by
  obtain ⟨-, -, -, -, -, h6, -, -, -, hy, -⟩ := polymerInit_cases ha h
  simp only [shearInit, Bool.not_true, Bool.and_false, Bool.false_eq_true, if_false, Res.done.injEq] at h6
  rw [hp] at h6
  unfold shearTables
  rw [hy, hs]
  simp only [Bool.not_true, Bool.false_eq_true, if_false]
  cases hv : access p'.visc i with
  | done t => simp [access, ← h6]
  | threw => exact absurd hv access_threw
  | aborted => exact absurd hv access_aborted
  | undefined => rfl

/-- **C156** (partial: only if the program has not read another deck before, see `C156_maps_violated`)  With molecular weight, a table of
`PLYMWINJ`, `SKPRWAT` or `SKPRPOLY` is found if and only if the deck has one with that number; else there is an exception. -/
theorem C156_maps_partial (assertions enabled : Bool) (d : PolymerDeck K T M R V) (t0 : T) (r0 : R) (v0 : V) (p p' : PolymerParams K T M R V)
    (ha : d.active = true) (hp : ∀ k, p.plymwinj k = none ∧ p.skprwat k = none ∧ p.skprpoly k = none)
    (h : polymerInit assertions enabled true d t0 r0 v0 p = .done p') (k : ℤ) :
    (∀ m, (d.plymwinj.map Prod.fst).Nodup → (lookup p'.plymwinj k = .done m ↔ (k, m) ∈ d.plymwinj)) ∧
    (∀ m, (d.skprwat.map Prod.fst).Nodup → (lookup p'.skprwat k = .done m ↔ (k, m) ∈ d.skprwat)) ∧
    (∀ m, (d.skprpoly.map Prod.fst).Nodup → (lookup p'.skprpoly k = .done m ↔ (k, m) ∈ d.skprpoly)) := by
  obtain ⟨-, -, -, -, -, -, -, -, -, -, hm⟩ := polymerInit_cases ha h
  obtain ⟨h1, h2, h3⟩ := hm rfl
  have key : ∀ (o : ℤ → Option M) (l : List (ℤ × M)), o k = none → ∀ m, (l.map Prod.fst).Nodup →
      (lookup (insertAll o l) k = .done m ↔ (k, m) ∈ l) := by
    intro o l ho m hn
    obtain ⟨i1, i2⟩ := insertAll_eq l o k
    by_cases hk : k ∈ l.map Prod.fst
    · obtain ⟨e, he, hi⟩ := i2 hk
      simp only [lookup, hi, Res.done.injEq]
      constructor
      · rintro rfl; exact he
      · intro hm
        exact congrArg Prod.snd (List.inj_on_of_nodup_map hn he hm rfl)
    · simp only [lookup, i1 hk, ho, reduceCtorEq, false_iff]
      exact fun hm => hk (List.mem_map_of_mem (f := Prod.fst) hm)
  exact ⟨fun m hn => by rw [h1]; exact key _ _ (hp k).1 m hn, fun m hn => by rw [h2]; exact key _ _ (hp k).2.1 m hn,
    fun m hn => by rw [h3]; exact key _ _ (hp k).2.2 m hn⟩

end Polymer

/-- A deck with polymer -/
def polymer (mw : Bool) (plmixpar : List ℚ) (plymwinj : List (ℤ × ℕ)) : PolymerDeck ℚ ℕ ℕ ℕ ℕ where
  active := true
  polymw := mw
  numSat := 1
  numPvt := 1
  plyrock := ⟨1, some⟩
  plyads := ⟨1, some⟩
  plyvisc := ⟨if mw then 0 else 1, some⟩
  evalVisc _ c := 1 + c
  plymax := ⟨2, fun i => some (i : ℚ)⟩
  plmixpar := plmixpar
  hasPlyshlog := true
  plyshlog := ⟨1, fun _ => some (2, [0, 1], [1, 1 / 2])⟩
  useShrate := false
  shrate := []
  plyvmh := if mw then [3, 4] else []
  plymwinj := plymwinj
  skprwat := []
  skprpoly := []

/-- No parameters yet -/
def none_ : PolymerParams ℚ ℕ ℕ ℕ ℕ :=
  ⟨[], [], [], [], [], [], [], false, false, [], fun _ => none, fun _ => none, fun _ => none⟩

/-- **C156**  Not so: with fewer records of `PLMIXPAR` than of `PLYMAX`, the set-up reads beyond the end of the former. -/
theorem C156_polymer_violated (assertions : Bool) : polymerInit assertions true false (polymer false [1 / 2] []) 0 0 0 none_ = .undefined := by
  cases assertions <;> rfl

/-- **C156**  Not so: a table of an earlier deck is found although the present one does not have it. -/
theorem C156_maps_violated :
    ∃ p, polymerInit true true true (polymer true [] [(7, 70)]) 0 0 0 none_ = .done p ∧
    ∃ q, polymerInit true true true (polymer true [] []) 0 0 0 p = .done q ∧ lookup q.plymwinj 7 = .done 70 ∧
    ∃ q', polymerInit true true true (polymer true [] []) 0 0 0 none_ = .done q' ∧ lookup q'.plymwinj 7 = .threw :=
  ⟨_, rfl, _, rfl, rfl, _, rfl, rfl⟩

/-- A run of each kind succeeds: the shear factor with multiplier three at the reference concentration, and tables which are missing. -/
example : (∃ p, polymerInit true true false (polymer false [1 / 2, 1 / 3] []) 0 0 0 none_ = .done p ∧
      shearTables p 0 = .done (some (0, [0, 1], [1, 1 / 4]))) ∧
    ∃ p, polymerInit true true true (polymer true [] [(7, 70)]) 0 0 0 none_ = .done p ∧ shearTables p 0 = .undefined := by
  refine ⟨⟨_, rfl, ?_⟩, _, rfl, rfl⟩
  simp [shearTables, access, convert, polymer, resize, fill, Tables.get, none_]
  norm_num

/-- Foam: tables for two regions -/
example : ∃ p, foamInit true ⟨true, 1, true, 2, 1, [5, 6], ⟨2, fun i => some (i + 1)⟩, ⟨1, fun i => some (i + 8)⟩⟩ 0 0 ⟨0, [], [], []⟩ = .done p ∧
    p.rock = [5, 6] ∧ p.ads = [1, 2] ∧ p.mob = [8] :=
  ⟨_, rfl, rfl, rfl, rfl⟩

end Verif.Decks
