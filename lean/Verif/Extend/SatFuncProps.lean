import Verif.Extend.SatFunc
import Mathlib.Tactic.Ring
import Mathlib.Tactic.Linarith
import Mathlib.Tactic.NormNum
import Mathlib.Tactic.FieldSimp
import Mathlib.Algebra.Order.Ring.Rat

set_option autoImplicit false
set_option linter.unusedSectionVars false
/-
C123: solvent and gas share what the saturation functions say for their sum.
-/
namespace Verif.Extend.SatFunc

variable {K : Type} [Field K] [LinearOrder K] [IsStrictOrderedRing K] (r : Rock K) (v : Pv K)

omit [LinearOrder K] [IsStrictOrderedRing K] in
theorem cutOff_pos' [LinearOrder K] [IsStrictOrderedRing K] : (0 : K) < cutOff := by unfold cutOff; positivity

/-- C123: the saturations of the fluid state are those of the primary variables, and with the solvent they fill the pores. -/
theorem C123_saturations : (update r v).sw = v.sw ∧ (update r v).sg = v.sg ∧
    (update r v).sw + (update r v).so + (update r v).sg + v.ss = 1 := by
  have h : (update r v).sw = v.sw ∧ (update r v).sg = v.sg ∧ (update r v).so = 1 - v.sw - v.sg - v.ss := by
    unfold update post
    simp only
    split
    · exact ⟨rfl, rfl, rfl⟩
    · cases r.miscible <;> simp only [if_true, Bool.false_eq_true, if_false] <;> split <;> exact ⟨rfl, rfl, rfl⟩
  obtain ⟨h1, h2, h3⟩ := h
  refine ⟨h1, h2, ?_⟩
  rw [h1, h2, h3]; ring

/-- C123: without solvent nothing differs from the model without the extension. -/
theorem C123_no_solvent (h : v.ss = 0) :
    (update r v).krw = r.krWater v.sw (1 - v.sw - v.sg) v.sg ∧ (update r v).kro = r.krOil v.sw (1 - v.sw - v.sg) v.sg ∧
    (update r v).krg = r.krGas v.sw (1 - v.sw - v.sg) v.sg ∧ (update r v).krs = 0 := by
  have hc : v.ss < cutOff := by rw [h]; exact cutOff_pos'
  have ho : satOil v = 1 - v.sw - v.sg := by unfold satOil; rw [h, sub_zero]
  have hg : gasForTables v = v.sg := by unfold gasForTables; rw [if_pos hc]
  unfold update post
  simp only [if_pos hc]
  unfold pre
  simp only [ho, hg, and_self]

/-- C123: if the solvent does not mix with the oil, gas and solvent together flow as the same amount of gas would, and each of
them as its share says, provided the tables are the identity. -/
theorem C123_immiscible (hm : r.miscible = false) (hs : cutOff ≤ v.ss) (hg : 0 ≤ v.sg) (hkg : ∀ x, r.ssfnKrg x = x)
    (hks : ∀ x, r.ssfnKrs x = x) :
    (update r v).krg + (update r v).krs = r.krGas v.sw (satOil v) (v.sg + v.ss) ∧
    (update r v).krs * v.sg = (update r v).krg * v.ss ∧
    (update r v).kro = r.krOil v.sw (satOil v) (v.sg + v.ss) ∧ (update r v).krw = r.krWater v.sw (satOil v) (v.sg + v.ss) := by
  have hc : ¬ v.ss < cutOff := not_lt.2 hs
  have hc2 : ¬ v.sg + v.ss < cutOff := not_lt.2 (by linarith)
  have hp : v.sg + v.ss ≠ 0 := by have := cutOff_pos' (K := K); intro h; linarith
  have hgt : gasForTables v = v.sg + v.ss := by unfold gasForTables; rw [if_neg hc]
  unfold update post
  simp only [if_neg hc, if_neg hc2, hm, Bool.false_eq_true, if_false, hkg, hks]
  unfold pre
  simp only [hgt]
  refine ⟨?_, ?_, trivial, trivial⟩
  · rw [← mul_add, ← add_div, div_self hp, mul_one]
  · field_simp

/-- C123: with miscibility, oil, gas and solvent flow by the mean of immiscible and miscible flow, weighted by the miscibility: the
value of `MISC` at the fraction of solvent times the value of `PMISC` at the oil pressure, which lies between zero and one. -/
theorem C123_miscible (hs : cutOff ≤ v.ss) (hg : 0 ≤ v.sg)
    (hmisc : ∀ x, 0 ≤ r.misc x ∧ r.misc x ≤ 1) (hp : ∀ x, 0 ≤ r.pmisc x ∧ r.pmisc x ≤ 1) (hm : r.miscible = true) :
    ∃ m, m = r.misc (v.ss / (v.sg + v.ss)) * r.pmisc (update r v).po ∧ 0 ≤ m ∧ m ≤ 1 ∧
      (update r v).kro = (1 - m) * r.krOil v.sw (satOil v) (v.sg + v.ss) + m * mkro r m v ∧
      (update r v).krs = ((1 - m) * r.krGas v.sw (satOil v) (v.sg + v.ss) + m * mkrgt r m v) * r.ssfnKrs (v.ss / (v.sg + v.ss)) ∧
      (update r v).krg = ((1 - m) * r.krGas v.sw (satOil v) (v.sg + v.ss) + m * mkrgt r m v) * r.ssfnKrg (v.sg / (v.sg + v.ss)) := by
  have hc : ¬ v.ss < cutOff := not_lt.2 hs
  have hc2 : ¬ v.sg + v.ss < cutOff := not_lt.2 (by linarith)
  have hgt : gasForTables v = v.sg + v.ss := by unfold gasForTables; rw [if_neg hc]
  have hu : update r v = post r v (pre r v) := rfl
  refine ⟨_, rfl, mul_nonneg (hmisc _).1 (hp _).1, mul_le_one₀ (hmisc _).2 (hp _).1 (hp _).2, ?_⟩
  rw [hu]
  unfold post
  simp only [if_neg hc, if_neg hc2, hm, if_true]
  have hk : (pre r v).kro = r.krOil v.sw (satOil v) (v.sg + v.ss) ∧ (pre r v).krg = r.krGas v.sw (satOil v) (v.sg + v.ss) := by
    unfold pre; simp only [hgt, and_self]
  rw [hk.1, hk.2]
  unfold miscibility
  simp only
  refine ⟨?_, ?_, ?_⟩ <;> ring

/-- C123: where nothing mixes (`PMISC` is zero), the pressures differ by the capillary pressures at the saturation of gas and
solvent together. -/
theorem C123_pressure_immiscible (hs : cutOff ≤ v.ss) (hp : ∀ x, r.pmisc x = 0) :
    (update r v).pg - (update r v).po = r.pcGas v.sw (satOil v) (v.sg + v.ss) - r.pcOil v.sw (satOil v) (v.sg + v.ss) := by
  have hc : ¬ v.ss < cutOff := not_lt.2 hs
  have hgt : gasForTables v = v.sg + v.ss := by unfold gasForTables; rw [if_neg hc]
  unfold update post
  simp only [if_neg hc]
  have hmg : ∀ s : State K, miscibleGasPressure r v s = s.pg := fun s => by
    unfold miscibleGasPressure; simp only [hp]; ring
  simp only [hmg]
  cases r.miscible <;> simp only [Bool.false_eq_true, if_false, if_true] <;> split <;> unfold pre <;> simp only [hgt] <;> ring

/-- C123: where everything mixes (`PMISC` is one) and the oil pressure is the primary variable, the solvent does not contribute to
the capillary pressure: gas and oil differ by the one at the saturation of the hydrocarbon gas. -/
theorem C123_pressure_miscible_partial (hm : r.miscible = true) (hs : cutOff ≤ v.ss) (hp : ∀ x, r.pmisc x = 1)
    (hv : v.meaning = .po) :
    (update r v).pg - (update r v).po = r.pcGas v.sw (satOil v) v.sg - r.pcOil v.sw (satOil v) v.sg := by
  have hc : ¬ v.ss < cutOff := not_lt.2 hs
  unfold update post
  simp only [if_neg hc, hm, if_true]
  split <;> (unfold miscibleGasPressure pre; simp only [hp, hv]; ring)

/-- A rock with a capillary pressure proportional to the gas saturation. -/
def rock : Rock ℚ :=
  { miscible := true, pcWater := fun _ _ _ => 0, pcOil := fun _ _ _ => 0, pcGas := fun _ _ g => g, krWater := fun w _ _ => w,
    krOil := fun _ o _ => o, krGas := fun _ _ g => g, misc := fun _ => 1, pmisc := fun _ => 1, sorwmis := fun _ => 0,
    sgcwmis := fun _ => 0, msfnKro := fun x => 1 - x, msfnKrsg := fun x => x, sof2Krn := fun x => x, ssfnKrg := fun x => x,
    ssfnKrs := fun x => x, sogcr := 0, sgcr := 0 }

/-- The hypotheses can be met. -/
example : (update rock ⟨1 / 4, 1 / 4, 1 / 4, .po, 10⟩).pg - (update rock ⟨1 / 4, 1 / 4, 1 / 4, .po, 10⟩).po = 1 / 4 := by
  rw [C123_pressure_miscible_partial rock _ rfl (by norm_num [cutOff]) (fun _ => rfl) rfl]; norm_num [rock]

example : (update { rock with miscible := false } ⟨1 / 4, 1 / 8, 1 / 4, .po, 10⟩).krg +
    (update { rock with miscible := false } ⟨1 / 4, 1 / 8, 1 / 4, .po, 10⟩).krs = 3 / 8 := by
  rw [(C123_immiscible { rock with miscible := false } _ rfl (by norm_num [cutOff]) (by norm_num) (fun _ => rfl) (fun _ => rfl)).1]
  norm_num [rock]

/-- C123, violated: if the gas pressure is the primary variable, the solvent contributes to the capillary pressure as if nothing
mixed. -/
theorem C123_pressure_violated :
    ∃ (r : Rock ℚ) (v : Pv ℚ), r.miscible = true ∧ cutOff ≤ v.ss ∧ (∀ x, r.pmisc x = 1) ∧
      (update r v).pg - (update r v).po ≠ r.pcGas v.sw (satOil v) v.sg - r.pcOil v.sw (satOil v) v.sg := by
  refine ⟨rock, ⟨1 / 4, 1 / 4, 1 / 4, .pg, 10⟩, rfl, by norm_num [cutOff], fun _ => rfl, ?_⟩
  norm_num [update, post, pre, miscibleGasPressure, rock, cutOff, gasForTables, satOil, miscibility]

/-- C123, violated: the gas pressure depends on which pressure is the primary variable: with the water pressure, the capillary
pressure between water and oil is lost. -/
theorem C123_pressure_water_violated :
    ∃ (r : Rock ℚ) (v : Pv ℚ), r.miscible = true ∧ cutOff ≤ v.ss ∧ (∀ x, r.pmisc x = 1) ∧ v.meaning = .pw ∧
      (update r v).pg - (update r v).po ≠ r.pcGas v.sw (satOil v) v.sg - r.pcOil v.sw (satOil v) v.sg := by
  refine ⟨{ rock with pcWater := fun _ _ _ => -1 }, ⟨1 / 4, 1 / 4, 1 / 4, .pw, 10⟩, rfl, by norm_num [cutOff], fun _ => rfl, rfl, ?_⟩
  norm_num [update, post, pre, miscibleGasPressure, rock, cutOff, gasForTables, satOil, miscibility]

/-- C123: as long as the cell holds at least the residual oil, immiscible and miscible, the relative permeabilities of oil, gas and
solvent stay between zero and one if the values of all tables do, on the interval from zero to one. -/
theorem C123_bounds_partial (hs : cutOff ≤ v.ss) (hg : 0 ≤ v.sg)
    (hmisc : ∀ x, 0 ≤ x → x ≤ 1 → 0 ≤ r.misc x ∧ r.misc x ≤ 1) (hp : ∀ x, 0 ≤ r.pmisc x ∧ r.pmisc x ≤ 1)
    (hko : ∀ x, 0 ≤ x → x ≤ 1 → 0 ≤ r.msfnKro x ∧ r.msfnKro x ≤ 1) (hkg : ∀ x, 0 ≤ x → x ≤ 1 → 0 ≤ r.msfnKrsg x ∧ r.msfnKrsg x ≤ 1)
    (hn : ∀ x, 0 ≤ x → x ≤ 1 → 0 ≤ r.sof2Krn x ∧ r.sof2Krn x ≤ 1)
    (hsg : ∀ x, 0 ≤ x → x ≤ 1 → 0 ≤ r.ssfnKrg x ∧ r.ssfnKrg x ≤ 1) (hss : ∀ x, 0 ≤ x → x ≤ 1 → 0 ≤ r.ssfnKrs x ∧ r.ssfnKrs x ≤ 1)
    (ho1 : 0 ≤ r.krOil v.sw (satOil v) (v.sg + v.ss)) (ho2 : r.krOil v.sw (satOil v) (v.sg + v.ss) ≤ 1)
    (hg1 : 0 ≤ r.krGas v.sw (satOil v) (v.sg + v.ss)) (hg2 : r.krGas v.sw (satOil v) (v.sg + v.ss) ≤ 1)
    (hw : 0 ≤ v.sw) (hso : 0 ≤ satOil v) (hr1 : r.sorwmis v.sw ≤ satOil v) (hr2 : r.sogcr ≤ satOil v) :
    (0 ≤ (update r v).kro ∧ (update r v).kro ≤ 1) ∧ (0 ≤ (update r v).krg ∧ (update r v).krg ≤ 1) ∧
      (0 ≤ (update r v).krs ∧ (update r v).krs ≤ 1) := by
  have hcp := cutOff_pos' (K := K)
  have hc : ¬ v.ss < cutOff := not_lt.2 hs
  have hc2 : ¬ v.sg + v.ss < cutOff := not_lt.2 (by linarith)
  have hgs : 0 < v.sg + v.ss := by linarith
  have hx1 : 0 ≤ v.ss / (v.sg + v.ss) := div_nonneg (by linarith) hgs.le
  have hx2 : v.ss / (v.sg + v.ss) ≤ 1 := (div_le_one hgs).2 (by linarith)
  have hy1 : 0 ≤ v.sg / (v.sg + v.ss) := div_nonneg hg hgs.le
  have hy2 : v.sg / (v.sg + v.ss) ≤ 1 := (div_le_one hgs).2 (by linarith)
  have hgt : gasForTables v = v.sg + v.ss := by unfold gasForTables; rw [if_neg hc]
  have hk : (pre r v).kro = r.krOil v.sw (satOil v) (v.sg + v.ss) ∧ (pre r v).krg = r.krGas v.sw (satOil v) (v.sg + v.ss) := by
    unfold pre; simp only [hgt, and_self]
  have hF : ∀ m, 0 ≤ m → m ≤ 1 → 0 ≤ totalGas r m v ∧ totalGas r m v ≤ 1 := by
    intro m h0 h1
    unfold totalGas
    simp only
    split
    · next h =>
      have he : 0 < max (v.sg + v.ss + satOil v - sor r m v - sgc r m v) 0 := lt_trans hcp h
      have hsor : sor r m v ≤ satOil v := by
        unfold sor
        have h2 := mul_le_mul_of_nonneg_left hr1 h0
        have h3 := mul_le_mul_of_nonneg_left hr2 (sub_nonneg.2 h1)
        linarith
      refine ⟨div_nonneg (le_max_right _ _) he.le, (div_le_one he).2 ?_⟩
      exact max_le_max (by linarith) le_rfl
    · exact ⟨le_rfl, zero_le_one⟩
  have hmean : ∀ m a b : K, 0 ≤ m → m ≤ 1 → 0 ≤ a → a ≤ 1 → 0 ≤ b → b ≤ 1 → 0 ≤ a * (1 - m) + m * b ∧ a * (1 - m) + m * b ≤ 1 := by
    intro m a b h0 h1 a0 a1 b0 b1
    have h2 := mul_nonneg a0 (sub_nonneg.2 h1)
    have h3 := mul_nonneg h0 b0
    have h4 := mul_le_mul_of_nonneg_right a1 (sub_nonneg.2 h1)
    have h5 := mul_le_mul_of_nonneg_left b1 h0
    constructor <;> linarith
  have hprod : ∀ a b : K, 0 ≤ a ∧ a ≤ 1 → 0 ≤ b ∧ b ≤ 1 → 0 ≤ a * b ∧ a * b ≤ 1 :=
    fun a b ha hb => ⟨mul_nonneg ha.1 hb.1, mul_le_one₀ ha.2 hb.1 hb.2⟩
  have hS : 0 ≤ v.sg + v.ss + satOil v ∧ v.sg + v.ss + satOil v ≤ 1 := ⟨by linarith, by unfold satOil; linarith⟩
  have hu : update r v = post r v (pre r v) := rfl
  rw [hu]
  unfold post
  cases hm : r.miscible
  · simp only [if_neg hc, if_neg hc2, Bool.false_eq_true, if_false, hk.1, hk.2]
    exact ⟨⟨ho1, ho2⟩, hprod _ _ ⟨hg1, hg2⟩ (hsg _ hy1 hy2), hprod _ _ ⟨hg1, hg2⟩ (hss _ hx1 hx2)⟩
  · simp only [if_neg hc, if_neg hc2, if_true, hk.1, hk.2]
    unfold miscibility
    simp only
    generalize hme : r.misc (v.ss / (v.sg + v.ss)) * r.pmisc (pre r v).po = m
    have hm0 : 0 ≤ m ∧ m ≤ 1 := by rw [← hme]; exact hprod _ _ (hmisc _ hx1 hx2) (hp _)
    have hFm := hF m hm0.1 hm0.2
    have h1 := hprod _ _ (hko _ hFm.1 hFm.2) (hn _ hS.1 hS.2)
    have h2 := hprod _ _ (hkg _ hFm.1 hFm.2) (hn _ hS.1 hS.2)
    have h3 := hmean m _ _ hm0.1 hm0.2 hg1 hg2 h2.1 h2.2
    refine ⟨hmean m _ _ hm0.1 hm0.2 ho1 ho2 h1.1 h1.2, ?_, ?_⟩
    · exact hprod _ _ h3 (hsg _ hy1 hy2)
    · exact hprod _ _ h3 (hss _ hx1 hx2)

/-- The hypotheses can be met. -/
example : 0 ≤ (update { rock with sorwmis := fun _ => 1 / 8 } ⟨1 / 4, 1 / 4, 1 / 4, .po, 10⟩).kro :=
  (C123_bounds_partial { rock with sorwmis := fun _ => 1 / 8 } ⟨1 / 4, 1 / 4, 1 / 4, .po, 10⟩ (by norm_num [cutOff]) (by norm_num)
    (fun _ _ _ => by norm_num [rock]) (fun _ => by norm_num [rock]) (fun x h1 h2 => by simp only [rock]; constructor <;> linarith)
    (fun x h1 h2 => by simp only [rock]; constructor <;> linarith) (fun x h1 h2 => by simp only [rock]; constructor <;> linarith)
    (fun x h1 h2 => by simp only [rock]; constructor <;> linarith) (fun x h1 h2 => by simp only [rock]; constructor <;> linarith)
    (by norm_num [rock, satOil]) (by norm_num [rock, satOil]) (by norm_num [rock]) (by norm_num [rock]) (by norm_num)
    (by norm_num [satOil]) (by norm_num [satOil]) (by norm_num [rock, satOil])).1.1

/-- C123, violated: in a cell which holds less than the residual oil of the mixture the oil has a negative relative permeability, and
gas and solvent together one above one, with the tables the code puts in place of missing ones. -/
theorem C123_bounds_violated :
    ∃ (r : Rock ℚ) (v : Pv ℚ), cutOff ≤ v.ss ∧ 0 ≤ v.sg ∧ 0 ≤ v.sw ∧ 0 ≤ satOil v ∧ r.miscible = true ∧ (∀ x, r.misc x = 1) ∧
      (∀ x, r.pmisc x = 1) ∧ (∀ x, r.msfnKro x = 1 - x) ∧ (∀ x, r.msfnKrsg x = x) ∧ (∀ x, r.sof2Krn x = x) ∧
      (∀ x, r.ssfnKrg x = x) ∧ (∀ x, r.ssfnKrs x = x) ∧ (∀ x, r.sorwmis x = 1 / 4) ∧
      (update r v).kro < 0 ∧ 1 < (update r v).krg + (update r v).krs := by
  refine ⟨{ rock with sorwmis := fun _ => 1 / 4 }, ⟨0, 1 / 8, 3 / 4, .po, 10⟩, by norm_num [cutOff], by norm_num, by norm_num,
    by norm_num [satOil], rfl, fun _ => rfl, fun _ => rfl, fun _ => rfl, fun _ => rfl, fun _ => rfl, fun _ => rfl, fun _ => rfl,
    fun _ => rfl, ?_, ?_⟩ <;>
  norm_num [update, post, pre, miscibleGasPressure, rock, cutOff, gasForTables, satOil, miscibility, mkro, mkrgt, totalGas, sor, sgc]

/-- C123: the residual saturations of oil and of gas are those of the saturation functions without miscibility, those of the
tables for miscible flow with full miscibility, and between them otherwise. -/
theorem C123_residual (m : K) (h0 : 0 ≤ m) (h1 : m ≤ 1) :
    (sor r 0 v = r.sogcr ∧ sgc r 0 v = r.sgcr) ∧ (sor r 1 v = r.sorwmis v.sw ∧ sgc r 1 v = r.sgcwmis v.sw) ∧
      (r.sogcr ≤ r.sorwmis v.sw → r.sogcr ≤ sor r m v ∧ sor r m v ≤ r.sorwmis v.sw) ∧
      (r.sorwmis v.sw ≤ r.sogcr → r.sorwmis v.sw ≤ sor r m v ∧ sor r m v ≤ r.sogcr) ∧
      (r.sgcr ≤ r.sgcwmis v.sw → r.sgcr ≤ sgc r m v ∧ sgc r m v ≤ r.sgcwmis v.sw) ∧
      (r.sgcwmis v.sw ≤ r.sgcr → r.sgcwmis v.sw ≤ sgc r m v ∧ sgc r m v ≤ r.sgcr) := by
  have h2 : 0 ≤ 1 - m := sub_nonneg.2 h1
  refine ⟨⟨by simp [sor], by simp [sgc]⟩, ⟨by simp [sor], by simp [sgc]⟩, fun h => ?_, fun h => ?_, fun h => ?_, fun h => ?_⟩ <;>
  · have h3 := mul_le_mul_of_nonneg_left h h0
    have h4 := mul_le_mul_of_nonneg_left h h2
    simp only [sor, sgc]
    constructor <;> linarith

example : (0 : ℚ) ≤ 1 / 4 ∧ (1 / 4 : ℚ) ≤ 1 ∧ sgc { rock with sgcwmis := fun _ => 1 / 8, sgcr := 1 / 4 } (1 / 4) ⟨1 / 4, 1 / 4, 1 / 4, .po, 10⟩ = 7 / 32 := by
  norm_num [sgc, rock]

end Verif.Extend.SatFunc
