import Verif.Pvtsol.Lemmas
import Mathlib.Algebra.Field.Rat
import Mathlib.Tactic.NormNum

/-
C157: the extended black-oil model.
-/

set_option autoImplicit false
set_option linter.unusedSectionVars false
set_option linter.unusedSimpArgs false

namespace Verif.Pvtsol

open Verif.Decks

variable {K : Type} [Field K] [LinearOrder K]

/-! ### Set-up -/

theorem tabulated (cols : List (K × List (Row K))) (g : Region K) (h1 : g.xs = []) (h2 : g.samples = []) (h3 : g.bubble = []) :
    Tabulated cols (regionInit cols g) := by
  unfold regionInit
  constructor
  · rw [outer_xs]; simp [h1]
  · intro e he
    rcases (outer_range cols 0 _).1 e he with h | h
    · simp [h2] at h
    · omega
  · intro e he
    rcases (outer_range cols 0 _).2 e he with h | h
    · simp [h3] at h
    · omega
  · intro j z rows hj
    obtain ⟨k, hk⟩ := scan_kept z rows 0 0 0
    refine ⟨_, k, hk, ?_, ?_, ?_, ?_⟩
    · rw [(outer_samples j cols 0 _).1]; simp [h2, hj, column]
    · rw [(outer_samples j cols 0 _).2]; simp [h3, hj, column]
    · rw [(outer_oil cols 0 _).1]; simp [hj, column]
    · rw [(outer_oil cols 0 _).2]; simp [hj, column]
  · rcases outer_zLim cols 0 { g with zLim := 7 / 10, oilCmp := [], gasCmp := [] } with ⟨j, c, a1, a2, a3, a4⟩ | ⟨a1, a2⟩
    · refine Or.inl ⟨j, c.1, c.2, a1, (decays_iff c).1 a2, a3, fun j' z' rows' hj hc hd => ?_⟩
      have := (decays_iff (z', rows')).2 hd
      rw [a4 j' _ hj hc] at this
      cases this
    · refine Or.inr ⟨fun c hc hd => ?_, a2⟩
      have := (decays_iff c).2 hd
      rw [a1 c hc] at this
      cases this

/-- **C157**  A program and a deck which do not go together are stopped with an exception; without the extension nothing is changed; the set-up never
has undefined behaviour; and it succeeds if and only if there is a density for each region and (with assertions) each region has at least two
fractions of solvent. -/
theorem C157_accepts (assertions enabled : Bool) (d : Deck K) (p : Params K) :
    (enabled ≠ d.active → pvtsolInit assertions enabled d p = .threw) ∧
    (enabled = false → d.active = false → pvtsolInit assertions enabled d p = .done p) ∧
    pvtsolInit assertions enabled d p ≠ .undefined ∧
    (enabled = true → d.active = true → ((∃ p', pvtsolInit assertions enabled d p = .done p') ↔
      d.sdensity.length = d.regions.length ∧ (assertions = true → ∀ cols ∈ d.regions, 1 < cols.length))) := by
  refine ⟨fun h => ?_, fun h1 h2 => ?_, fun h => ?_, fun h1 h2 => ?_⟩
  · unfold pvtsolInit
    cases enabled <;> cases hd : d.active <;> simp_all [throwIf]
  · simp [pvtsolInit, h1, h2, throwIf]
  · unfold pvtsolInit at h
    simp only [bind_undefined (x := throwIf _), throwIf_undefined, throwIf_done, exists_unit, false_or] at h
    obtain ⟨-, -, h⟩ := h
    split at h
    · cases h
    rcases bind_undefined.1 h with h | ⟨r, -, h⟩
    · rw [fill_resize] at h
      obtain ⟨i, hi, h⟩ := collect_undefined h
      simp only [bind_undefined, access_undefined, assertion_undefined, assertion_done, exists_unit, false_or, reduceCtorEq, and_false, exists_false,
        or_false, resize_length] at h
      rcases h with h | ⟨_, -, -, h⟩ <;> omega
    · split at h
      · rcases bind_undefined.1 h with h | ⟨r, -, h⟩
        · rw [fill_resize] at h
          obtain ⟨i, hi, h⟩ := collect_undefined h
          rw [access_undefined] at h
          omega
        · cases h
      · cases h
  · unfold pvtsolInit
    simp only [h1, h2, bind_eq_done (x := throwIf _), throwIf_done, exists_unit, Bool.not_true, Bool.and_false, Bool.false_eq_true, if_false, fill_resize,
      true_and]
    constructor
    · rintro ⟨p', -, h⟩
      obtain ⟨r, hr, h⟩ := bind_eq_done.1 h
      split at h
      · rename_i hl
        refine ⟨hl, fun ha cols hc => ?_⟩
        obtain ⟨i, hi⟩ := List.getElem?_of_mem hc
        obtain ⟨hi', -⟩ := List.getElem?_eq_some_iff.1 hi
        obtain ⟨g, hg, -⟩ := (collect_done.1 hr).2 i hi'
        simp only [bind_eq_done, access_done, assertion_done, exists_unit, decide_eq_true_eq] at hg
        obtain ⟨c', hc', h', -⟩ := hg
        rw [hi] at hc'
        cases hc'
        exact h' ha
      · cases h
    · rintro ⟨hl, ha⟩
      have hlen := resize_length p.regions d.regions.length (Region.empty : Region K)
      have : ∀ n, n ≤ d.regions.length → ∃ m, collect (fun i => (do
          let cols ← access d.regions i
          assertion assertions (decide (1 < cols.length))
          let g ← access (resize p.regions d.regions.length Region.empty) i
          .done (regionInit cols g) : Res (Region K))) n = .done m := by
        intro n
        induction n with
        | zero => intro _; exact ⟨[], rfl⟩
        | succ n ih =>
          intro hn
          obtain ⟨m, hm⟩ := ih (by omega)
          have e1 : access d.regions n = .done (d.regions[n]'(by omega)) := access_done.2 (List.getElem?_eq_getElem _)
          have e2 : access (resize p.regions d.regions.length (Region.empty : Region K)) n = .done ((resize p.regions d.regions.length Region.empty)[n]'(by omega)) :=
            access_done.2 (List.getElem?_eq_getElem _)
          have e3 : assertion assertions (decide (1 < (d.regions[n]'(by omega)).length)) = .done () := by
            rw [assertion_done, decide_eq_true_eq]
            exact fun h => ha h _ (List.getElem_mem _)
          refine ⟨m ++ [regionInit (d.regions[n]'(by omega)) ((resize p.regions d.regions.length Region.empty)[n]'(by omega))], ?_⟩
          simp only [collect, hm, done_bind, e1, e2, e3]
      obtain ⟨m, hm⟩ := this _ le_rfl
      refine ⟨⟨m, d.sdensity.take d.regions.length⟩, by simp, ?_⟩
      rw [hm]
      simp only [done_bind, hl, if_true]
      rw [collect_access_le _ hl.ge]
      rfl

theorem init_regions {assertions enabled : Bool} {d : Deck K} {p p' : Params K} (ha : d.active = true)
    (h : pvtsolInit assertions enabled d p = .done p') :
    p'.density = d.sdensity ∧ p'.regions.length = d.regions.length ∧
    ∀ (i : ℕ) (cols : List (K × List (Row K))), d.regions[i]? = some cols →
      ∃ g, (resize p.regions d.regions.length Region.empty)[i]? = some g ∧ p'.regions[i]? = some (regionInit cols g) := by
  unfold pvtsolInit at h
  simp only [ha, bind_eq_done (x := throwIf _), throwIf_done, exists_unit, Bool.not_true, Bool.and_false, Bool.false_eq_true, if_false, fill_resize] at h
  obtain ⟨-, -, h⟩ := h
  obtain ⟨r, hr, h⟩ := bind_eq_done.1 h
  split at h
  · rename_i hl
    obtain ⟨s, hs, h⟩ := bind_eq_done.1 h
    cases h
    obtain ⟨-, rfl⟩ := collect_access hs
    obtain ⟨h1, h2⟩ := collect_done.1 hr
    refine ⟨List.take_of_length_le (by omega), h1, fun i cols hi => ?_⟩
    obtain ⟨hi', -⟩ := List.getElem?_eq_some_iff.1 hi
    obtain ⟨a, hg, hm⟩ := h2 i hi'
    simp only [bind_eq_done, access_done, assertion_done, exists_unit, Res.done.injEq] at hg
    obtain ⟨c', hc', -, g, hg, rfl⟩ := hg
    rw [hi] at hc'
    cases hc'
    exact ⟨g, hg, hm⟩
  · cases h

/-- **C157** (partial: for the first deck a program reads, see `C157_again_violated`)  The tables of each region hold, for each fraction of solvent, the
rows up to the first one whose formation volume factor of oil does not increase (this one too if the factor stays the same); compressibilities are the
differences after that row, and the limit is the last fraction for which the factor decays. -/
theorem C157_tables_partial (assertions enabled : Bool) (d : Deck K) (p' : Params K) (ha : d.active = true)
    (h : pvtsolInit assertions enabled d ⟨[], []⟩ = .done p') :
    p'.density = d.sdensity ∧ p'.regions.length = d.regions.length ∧
    ∀ (i : ℕ) (cols : List (K × List (Row K))), d.regions[i]? = some cols → ∃ g, p'.regions[i]? = some g ∧ Tabulated cols g := by
  obtain ⟨h1, h2, h3⟩ := init_regions ha h
  refine ⟨h1, h2, fun i cols hi => ?_⟩
  obtain ⟨g, hg, hp⟩ := h3 i cols hi
  refine ⟨_, hp, ?_⟩
  have : g = Region.empty := by
    simp only [resize, List.take_nil, List.nil_append, List.length_nil, Nat.sub_zero] at hg
    rw [List.getElem?_replicate] at hg
    split at hg
    · exact (Option.some.inj hg).symm
    · cases hg
  subst this
  exact tabulated cols _ rfl rfl rfl

/-- **C157**  Not so: if the same program reads a deck again, every table gets the positions twice, so that they are not in ascending order. -/
theorem C157_again_violated (assertions enabled : Bool) (d : Deck K) (p p' : Params K) (ha : d.active = true)
    (h : pvtsolInit assertions enabled d ⟨[], []⟩ = .done p) (h' : pvtsolInit assertions enabled d p = .done p')
    (i : ℕ) (cols : List (K × List (Row K))) (hi : d.regions[i]? = some cols) (hc : cols ≠ []) :
    ∃ g, p'.regions[i]? = some g ∧ g.xs = cols.map Prod.fst ++ cols.map Prod.fst ∧ ¬ Ascending g := by
  obtain ⟨-, hl, h1⟩ := C157_tables_partial assertions enabled d p ha h
  obtain ⟨g, hg, hT⟩ := h1 i cols hi
  obtain ⟨-, -, h2⟩ := init_regions ha h'
  obtain ⟨g', hg', hp'⟩ := h2 i cols hi
  have e : resize p.regions d.regions.length Region.empty = p.regions := by
    simp [resize, ← hl]
  rw [e, hg] at hg'
  cases hg'
  have hx : (regionInit cols g).xs = cols.map Prod.fst ++ cols.map Prod.fst := by
    unfold regionInit
    rw [outer_xs]
    simp [hT.xs]
  refine ⟨_, hp', hx, fun hA => ?_⟩
  have := hA.xs
  rw [hx] at this
  obtain ⟨c, l, rfl⟩ := List.exists_cons_of_ne_nil hc
  exact lt_irrefl c.1 ((List.pairwise_append.1 this).2.2 c.1 (by simp) c.1 (by simp))

variable [IsStrictOrderedRing K]

/-- **C157**  If fractions of solvent and pressures are in ascending order in the deck, and dissolution factors do not decrease as long as the formation
volume factor of oil increases, the tables get their positions in strictly ascending order: equal dissolution factors are told apart. -/
theorem C157_ascending (cols : List (K × List (Row K))) (g : Region K) (hT : Tabulated cols g)
    (hz : (cols.map Prod.fst).Pairwise (· < ·))
    (hp : ∀ c ∈ cols, c.2.Pairwise (fun a b => a.p < b.p))
    (hr : ∀ c ∈ cols, ∀ m, Increasing c.2 m → (c.2.take m).Pairwise (fun a b => a.rs ≤ b.rs ∧ a.rv ≤ b.rv)) : Ascending g := by
  have hnone : ∀ (l : List (ℕ × Row K)) (j : ℕ), (∀ e ∈ l, e.1 < cols.length) → cols[j]? = none → l.filter (fun e => e.1 = j) = [] := by
    intro l j hl hj
    rw [List.filter_eq_nil_iff]
    intro e he
    have := hl e he
    rw [List.getElem?_eq_none_iff] at hj
    simp only [decide_eq_true_eq]
    omega
  refine ⟨by rw [hT.xs]; exact hz, fun j => ?_, fun j => ?_, fun j => ?_⟩
  · cases hj : cols[j]? with
    | none => simp [hnone _ _ hT.samples hj]
    | some c =>
      obtain ⟨z, rows⟩ := c
      obtain ⟨c, k, hk, h1, -⟩ := hT.kept j z rows hj
      rw [h1]
      have hs : ∃ m, c.samples.map Row.p = (rows.take m).map Row.p := by
        rw [hk.samples]
        cases hrk : rows[k]? with
        | none => exact ⟨k, by simp [shifted_p]⟩
        | some r =>
          simp only
          split
          · refine ⟨k + 1, ?_⟩
            obtain ⟨hlt, he⟩ := List.getElem?_eq_some_iff.1 hrk
            rw [List.take_succ, hrk]
            simp [shifted_p, Row.shift]
          · exact ⟨k, by simp [shifted_p]⟩
      obtain ⟨m, hm⟩ := hs
      have := (hp _ (List.mem_of_getElem? hj)).sublist (List.take_sublist m rows)
      rw [← List.pairwise_map (f := Row.p) (R := fun a b => a < b)] at this ⊢
      rw [hm]
      exact this
  · cases hj : cols[j]? with
    | none => simp [hnone _ _ hT.bubble hj]
    | some c =>
      obtain ⟨z, rows⟩ := c
      obtain ⟨c, k, hk, -, h1, -⟩ := hT.kept j z rows hj
      rw [h1, hk.bubble]
      exact shifted_inc Row.rs (fun _ _ => rfl) _ 0 ((hr _ (List.mem_of_getElem? hj) k hk.inc).imp fun h => h.1)
  · cases hj : cols[j]? with
    | none => simp [hnone _ _ hT.bubble hj]
    | some c =>
      obtain ⟨z, rows⟩ := c
      obtain ⟨c, k, hk, -, h1, -⟩ := hT.kept j z rows hj
      rw [h1, hk.bubble]
      exact shifted_inc Row.rv (fun _ _ => rfl) _ 0 ((hr _ (List.mem_of_getElem? hj) k hk.inc).imp fun h => h.2)

/-- **C157**  For positive, ascending pressures, every compressibility of oil is finite and negative: above its bubble point oil shrinks. -/
theorem C157_oil_compressibility (cols : List (K × List (Row K))) (g : Region K) (hT : Tabulated cols g)
    (hp : ∀ c ∈ cols, c.2.Pairwise (fun a b => a.p < b.p) ∧ ∀ r ∈ c.2, 0 < r.p) (j : ℕ) (z : K) (rows : List (Row K)) (hj : cols[j]? = some (z, rows)) :
    ∃ k, g.oilCmp[j]? = some (z, some k) ∧ k < 0 := by
  obtain ⟨c, k, hk, -, -, h1, -⟩ := hT.kept j z rows hj
  obtain ⟨hp1, hp2⟩ := hp _ (List.mem_of_getElem? hj)
  have hd : (-4 / 10 ^ 9 : K) < 0 := by
    rw [neg_div]
    exact neg_lt_zero.2 (by positivity)
  suffices h : ∃ v, c.oil = some v ∧ v < 0 by
    obtain ⟨v, hv, hv'⟩ := h
    exact ⟨v, by rw [h1, hv], hv'⟩
  rw [hk.oil]
  cases hr : rows[k]? with
  | none => exact ⟨_, rfl, hd⟩
  | some r =>
    simp only
    split
    · rename_i hlt
      have hpos : before Row.p 0 rows k < r.p := by
        cases k with
        | zero => exact hp2 r (List.mem_of_getElem? hr)
        | succ k =>
          obtain ⟨hlt, he⟩ := List.getElem?_eq_some_iff.1 hr
          simp only [before]
          rw [List.getElem?_eq_getElem (by omega)]
          simp only
          rw [← he]
          exact List.pairwise_iff_getElem.1 hp1 k (k + 1) _ _ (by omega)
      refine ⟨_, ?_, div_neg_of_neg_of_pos (sub_neg.2 hlt) (sub_pos.2 hpos)⟩
      unfold divide
      rw [if_neg (sub_pos.2 hpos).ne']
    · exact ⟨_, rfl, hd⟩

/-! ### Use -/

/-- **C157** (partial: without vaporized water, see `C157_mass_violated`)  Oil and gas weigh as much as the components in them: the densities of both
phases agree with the amounts of oil, gas and solvent per volume. -/
theorem C157_mass_partial (disgas vapoil : Bool) (rsMax rvMax : K) (t : Pvt K) (s : Surface K) (invBo invBg rvw : K) (c : Cell K) (so sg : K) :
    let q := (update disgas vapoil false rsMax rvMax t s invBo invBg rvw c).1
    let f := (update disgas vapoil false rsMax rvMax t s invBo invBg rvw c).2
    let oil := so * f.invBo + sg * f.invBg * f.rv
    let freeAndDissolved := sg * f.invBg + so * f.invBo * f.rs
    let solvent := sg * f.invBg * q.y + so * f.invBo * f.rs * q.x
    so * f.rhoO + sg * f.rhoG = oil * s.oil + (freeAndDissolved - solvent) * s.gas + solvent * t.rhoZ := by
  intro q f oil freeAndDissolved solvent
  simp only [oil, freeAndDissolved, solvent, f, q, update, zPvtUpdate]
  ring

/-- **C157**  Densities are positive. -/
theorem C157_density (t : Pvt K) (s : Surface K) (q : Quantities K) (f : Fluid K) (hs : 0 < s.oil ∧ 0 < s.gas ∧ 0 < t.rhoZ) (hb : 0 < q.bo ∧ 0 < q.bg)
    (hx : 0 ≤ q.x ∧ q.x ≤ 1) (hy : 0 ≤ q.y ∧ q.y ≤ 1) (hr : 0 ≤ f.rs ∧ 0 ≤ f.rv) :
    s.oil / q.bo ≤ (zPvtUpdate t s q f).rhoO ∧ min s.gas t.rhoZ / q.bg ≤ (zPvtUpdate t s q f).rhoG := by
  obtain ⟨h1, h2, h3⟩ := hs
  simp only [zPvtUpdate, one_div, ← div_eq_inv_mul]
  constructor
  · refine div_le_div_of_nonneg_right ?_ hb.1.le
    have a1 := mul_nonneg (mul_nonneg (sub_nonneg.2 hx.2) hr.1) h2.le
    have a2 := mul_nonneg (mul_nonneg hx.1 hr.1) h3.le
    linarith
  · refine div_le_div_of_nonneg_right ?_ hb.2.le
    have a1 : min s.gas t.rhoZ * (1 - q.y) ≤ s.gas * (1 - q.y) := mul_le_mul_of_nonneg_right (min_le_left _ _) (sub_nonneg.2 hy.2)
    have a2 : q.y * min s.gas t.rhoZ ≤ q.y * t.rhoZ := mul_le_mul_of_nonneg_left (min_le_right _ _) hy.1
    have a3 := mul_nonneg h1.le hr.2
    linarith

/-- **C157** (partial: for fractions of solvent up to the limit, see `C157_bubble_violated`)  Nothing jumps where the last gas disappears: a cell with gas
at saturation, and one in which the dissolution factor is the variable and has the saturated value, have the same formation volume factors, densities
and amounts of solvent. -/
theorem C157_bubble_partial (disgas vapoil vapwat : Bool) (rsMax rvMax : K) (t : Pvt K) (s : Surface K) (invBo invBg rvw : K) (c : Cell K) (x : K)
    (hd : disgas = true) (hw : c.waterFilled = false) (hz : c.z ≤ t.zLim) (hinv : t.pbubRs c.z (t.rs c.po c.z) = c.po) (hmax : t.rs c.po c.z ≤ rsMax) :
    (update disgas vapoil vapwat rsMax rvMax t s invBo invBg rvw { c with meaning := .rs, switching := t.rs c.po c.z }) =
      update disgas vapoil vapwat rsMax rvMax t s invBo invBg rvw { c with meaning := .sg, switching := x } := by
  simp [update, zFractionUpdate, composition, hd, hw, not_lt.2 hz, hinv, hmax]

/-- **C157** (partial: without capillary pressure between oil and gas, see `C157_dew_violated`)  Nothing jumps where the last oil disappears. -/
theorem C157_dew_partial (disgas vapoil vapwat : Bool) (rsMax rvMax : K) (t : Pvt K) (s : Surface K) (invBo invBg rvw : K) (c : Cell K) (x : K)
    (hd : vapoil = true) (hp : c.pg = c.po) (hmax : t.rv c.pg c.z ≤ rvMax) :
    (update disgas vapoil vapwat rsMax rvMax t s invBo invBg rvw { c with meaning := .rv, switching := t.rv c.pg c.z }) =
      update disgas vapoil vapwat rsMax rvMax t s invBo invBg rvw { c with meaning := .sg, switching := x } := by
  rw [hp] at hmax
  cases hw : c.waterFilled <;> simp [update, zFractionUpdate, composition, hd, hp, hw, hmax]

/-- Simple tables: formation volume factors and dissolution factors are proportional to pressure. -/
def simple : Pvt ℚ where
  muO _ _ := 1
  muG _ _ := 1
  bo p _ := 1 + p
  bg p _ := 1 + p
  rs p z := p * (1 + z)
  rv p _ := p
  x _ _ := 1 / 2
  y _ _ := 1 / 2
  pbubRs z rs := rs / (1 + z)
  zLim := 0
  oilCmp _ := -1
  gasCmp _ := 0
  rhoZ := 1

/-- **C157**  Not so: water vapour is dropped from the density of gas. -/
theorem C157_mass_violated :
    (blackoilDensities true true true (⟨3, 1, 2⟩ : Surface ℚ) (1 / 2) (1 / 2) 0 0 1).2 = 3 / 2 ∧
    (update true true true 0 0 simple (⟨3, 1, 2⟩ : Surface ℚ) (1 / 2) (1 / 2) 1 ⟨1, 1, 0, .sg, 0, false⟩).2.rhoG = 1 / 2 := by
  decide +kernel

/-- **C157**  Not so: beyond the limit, the bubble point is looked up for the limit and not for the fraction of solvent at hand, so that the formation
volume factor of oil jumps although the tables for pressure and dissolution factor are inverse to each other. -/
theorem C157_bubble_violated :
    (∀ z rs : ℚ, 0 ≤ z → simple.rs (simple.pbubRs z rs) z = rs) ∧ simple.rs 1 1 = 2 ∧
    (update true true false 10 10 simple (⟨3, 1, 2⟩ : Surface ℚ) (1 / 2) (1 / 2) 0 ⟨1, 1, 1, .sg, 0, false⟩).2.invBo = 1 / 2 ∧
    (update true true false 10 10 simple (⟨3, 1, 2⟩ : Surface ℚ) (1 / 2) (1 / 2) 0 ⟨1, 1, 1, .rs, 2, false⟩).2.invBo = 1 / 4 := by
  refine ⟨fun z rs hz => ?_, by decide +kernel⟩
  exact div_mul_cancel₀ _ (by linarith : (1 + z : ℚ) ≠ 0)

/-- **C157**  Not so: in a cell without oil, properties of gas are those at the pressure of oil; with capillary pressure they jump. -/
theorem C157_dew_violated :
    simple.rv 2 0 = 2 ∧
    (update true true false 10 10 simple (⟨3, 1, 2⟩ : Surface ℚ) (1 / 2) (1 / 2) 0 ⟨1, 2, 0, .sg, 0, false⟩).2.invBg = 1 / 3 ∧
    (update true true false 10 10 simple (⟨3, 1, 2⟩ : Surface ℚ) (1 / 2) (1 / 2) 0 ⟨1, 2, 0, .rv, 2, false⟩).2.invBg = 1 / 2 := by
  decide +kernel

/-! ### Examples -/

/-- A row with pressure, formation volume factors and dissolution factors -/
def row (p bo bg rs rv : ℚ) : Row ℚ := ⟨p, bo, bg, rs, rv, 0, 0, 1, 1⟩

/-- Two fractions of solvent: for the first, oil shrinks beyond its bubble point; for the second, the formation volume factor stays constant. -/
def columns : List (ℚ × List (Row ℚ)) :=
  [(0, [row 1 1 9 5 0, row 2 2 8 5 0, row 3 1 7 5 0, row 4 1 6 5 0]),
   (1 / 2, [row 1 1 9 5 3, row 2 2 8 6 3, row 3 2 7 7 4, row 4 2 5 7 3])]

/-- The tables for it: rows, limit and compressibilities -/
example : ∃ p', pvtsolInit true true ⟨true, [columns], [4]⟩ (⟨[], []⟩ : Params ℚ) = .done p' ∧ ∃ g, p'.regions = [g] ∧
    g.xs = [0, 1 / 2] ∧ g.samples.map (fun e => (e.1, e.2.p)) = [(0, 1), (0, 2), (1, 1), (1, 2), (1, 3)] ∧
    g.bubble.map (fun e => (e.1, e.2.rs)) = [(0, 5), (0, 5 + 1 / 10 ^ 10), (1, 5), (1, 6 + 1 / 10 ^ 10)] ∧
    g.zLim = 0 ∧ g.oilCmp = [(0, some (-1)), (1 / 2, some (-4 / 10 ^ 9))] ∧ g.gasCmp = [(0, some (-8 / 100)), (1 / 2, some 2)] :=
  ⟨_, rfl, _, rfl, by decide +kernel⟩

/-- It is in the order which is asked for. -/
example : (columns.map Prod.fst).Pairwise (· < ·) ∧ (∀ c ∈ columns, c.2.Pairwise (fun a b => a.p < b.p) ∧ ∀ r ∈ c.2, 0 < r.p) ∧
    ∀ c ∈ columns, (c.2.take 3).Pairwise (fun a b => a.rs ≤ b.rs ∧ a.rv ≤ b.rv) := by
  decide +kernel

/-- **C157**  Not so: if the dissolution factor of oil in gas is the same in two rows beyond the dew point, the compressibility of gas is not a
number. -/
theorem C157_gas_violated :
    (scan (1 / 2 : ℚ) [row 1 1 9 5 3, row 2 2 8 6 3, row 3 2 7 7 3, row 4 2 5 7 3] 0 0 0).gas = none := by
  decide +kernel

/-- A cell at its bubble point and one at its dew point -/
example : simple.pbubRs 0 (simple.rs 3 0) = 3 ∧ (0 : ℚ) ≤ simple.zLim ∧
    (update true true false 10 10 simple (⟨3, 1, 2⟩ : Surface ℚ) (1 / 2) (1 / 2) 0 ⟨3, 3, 0, .rs, 3, false⟩).2 = ⟨3, 3, 1 / 4, 1 / 4, 3 / 2, 5 / 2⟩ := by
  refine ⟨by decide +kernel, by decide +kernel, ?_⟩
  ext <;> decide +kernel

end Verif.Pvtsol
