import Verif.Guard.Model
import Mathlib.Data.List.Count
/-
C30: scope guards.
-/

set_option autoImplicit false
set_option linter.unusedSimpArgs false

namespace Verif.Guard

/-! ### Specification

Histories are read from the latest operation to the first. -/

/-- The guard for whose callback `g` is responsible: itself, or the one at the beginning of the chain of moves. -/
def origin : List Op → ℕ → ℕ
  | [], g => g
  | .move src dst :: older, g => if g = dst then origin older src else origin older g
  | _ :: older, g => origin older g

/-- The duty of `g` was moved to another guard. -/
def movedFrom : List Op → ℕ → Bool
  | [], _ => false
  | .move src _ :: older, g => g = src || movedFrom older g
  | _ :: older, g => movedFrom older g

/-- What the latest `setEnabled` for a guard of the chain that begins with `c` said; guards are on duty at first. -/
def onDuty : List Op → ℕ → Bool
  | [], _ => true
  | .setEnabled g value :: older, c => if origin older g = c then value else onDuty older c
  | _ :: older, c => onDuty older c

/-- Guards are not used any more once they were moved from, except for being destroyed. -/
def NoUseAfterMove : List Op → Prop
  | [] => True
  | .setEnabled g _ :: older => movedFrom older g = false ∧ NoUseAfterMove older
  | .move src _ :: older => movedFrom older src = false ∧ NoUseAfterMove older
  | _ :: older => NoUseAfterMove older

theorem exec_append (l m : List Op) : ∀ s : State, exec s (l ++ m) = (exec s l).bind fun s => exec s m := by
  induction l with
  | nil => intro s; simp [exec]
  | cons a l ih => intro s; simp only [List.cons_append, exec, Option.bind_assoc, ih]

/-- The state after a history. -/
structure Inv (h : List Op) (s : State) : Prop where
  usedObj : ∀ g o, s.objs g = some o → s.used g = true
  created : ∀ g, Op.create g ∈ h → s.used g = true
  unused : ∀ g, s.used g = false → movedFrom h g = false ∧ origin h g = g
  cb : ∀ g o, s.objs g = some o → o.callback = origin h g ∧ Op.create (origin h g) ∈ h
  moved : ∀ g o, s.objs g = some o → movedFrom h g = true → o.enabled = false
  duty : ∀ g o, s.objs g = some o → movedFrom h g = false → o.enabled = onDuty h (origin h g)
  fresh : ∀ c, s.used c = false → onDuty h c = true ∧ s.calls.count c = 0
  unique : ∀ g g' o o', s.objs g = some o → s.objs g' = some o' → movedFrom h g = false → movedFrom h g' = false →
    origin h g = origin h g' → g = g'
  alive : ∀ g o, s.objs g = some o → movedFrom h g = false → s.calls.count (origin h g) = 0
  over : ∀ c, Op.create c ∈ h → (∃ g o, s.objs g = some o ∧ movedFrom h g = false ∧ origin h g = c) ∨
    s.calls.count c = (onDuty h c).toNat

theorem inv_init : Inv [] init := by
  constructor <;> simp [init, onDuty, movedFrom, origin]

theorem inv_step (h : List Op) (s s' : State) (op : Op) (I : Inv h s) (hn : NoUseAfterMove (op :: h))
    (hs : step s op = some s') : Inv (op :: h) s' := by
  cases op with
  | create g =>
    simp only [step] at hs
    split at hs
    · cases hs
    · rename_i hu
      have hu : s.used g = false := by simpa using hu
      cases hs
      obtain ⟨hm, ho⟩ := I.unused g hu
      obtain ⟨hd, hc⟩ := I.fresh g hu
      have hne : ∀ g' o, s.objs g' = some o → g' ≠ g := by
        rintro g' o h1 rfl; simp [I.usedObj _ _ h1] at hu
      have hno : ∀ g' o, s.objs g' = some o → origin h g' ≠ g := by
        intro g' o h1 h2
        have := I.created _ (I.cb g' o h1).2
        rw [h2] at this; simp [this] at hu
      constructor
      · intro g' o h1
        by_cases hg : g' = g
        · subst hg; simp
        · simp only [Function.update_of_ne hg] at h1 ⊢; exact I.usedObj _ _ h1
      · intro g' h1
        by_cases hg : g' = g
        · subst hg; simp
        · simp only [Function.update_of_ne hg]
          exact I.created g' (by simpa [hg] using h1)
      · intro g' h1
        by_cases hg : g' = g
        · subst hg; simp at h1
        · simp only [Function.update_of_ne hg] at h1; exact I.unused g' h1
      · intro g' o h1
        simp only [origin]
        by_cases hg : g' = g
        · subst hg; simp at h1; subst h1; simp [ho]
        · simp only [Function.update_of_ne hg] at h1
          exact ⟨(I.cb g' o h1).1, by simp [(I.cb g' o h1).2]⟩
      · intro g' o h1 h2
        simp only [movedFrom] at h2
        by_cases hg : g' = g
        · subst hg; simp [hm] at h2
        · simp only [Function.update_of_ne hg] at h1; exact I.moved g' o h1 h2
      · intro g' o h1 h2
        simp only [movedFrom, onDuty, origin] at h2 ⊢
        by_cases hg : g' = g
        · subst hg; simp at h1; subst h1; simp [ho, hd]
        · simp only [Function.update_of_ne hg] at h1; exact I.duty g' o h1 h2
      · intro c h1
        by_cases hg : c = g
        · subst hg; simp at h1
        · simp only [Function.update_of_ne hg] at h1; exact I.fresh c h1
      · intro g1 g2 o1 o2 h1 h2 m1 m2 ho'
        simp only [movedFrom, origin] at m1 m2 ho'
        by_cases hg1 : g1 = g
        · by_cases hg2 : g2 = g
          · rw [hg1, hg2]
          · exfalso; simp only [Function.update_of_ne hg2] at h2
            rw [hg1, ho] at ho'; exact hno _ _ h2 ho'.symm
        · simp only [Function.update_of_ne hg1] at h1
          by_cases hg2 : g2 = g
          · exfalso; rw [hg2, ho] at ho'; exact hno _ _ h1 ho'
          · simp only [Function.update_of_ne hg2] at h2
            exact I.unique _ _ _ _ h1 h2 m1 m2 ho'
      · intro g' o h1 h2
        simp only [movedFrom, origin] at h2 ⊢
        by_cases hg : g' = g
        · subst hg; rw [ho]; exact hc
        · simp only [Function.update_of_ne hg] at h1; exact I.alive _ _ h1 h2
      · intro c h1
        simp only [movedFrom, origin, onDuty]
        by_cases hg : c = g
        · subst hg; left; exact ⟨c, _, by simp; rfl, hm, ho⟩
        · rcases I.over c (by simpa [hg] using h1) with ⟨g', o, h2, h3, h4⟩ | h2
          · left; exact ⟨g', o, by simp only [Function.update_of_ne (hne _ _ h2)]; exact h2, h3, h4⟩
          · exact .inr h2
  | move src dst =>
    obtain ⟨hms, hn⟩ := hn
    simp only [step] at hs
    split at hs
    · cases hs
    · rename_i o0 ho0
      split at hs
      · cases hs
      · rename_i hu
        have hu : s.used dst = false := by simpa using hu
        cases hs
        have hsd : src ≠ dst := by rintro rfl; simp [I.usedObj _ _ ho0] at hu
        obtain ⟨hm, ho⟩ := I.unused dst hu
        obtain ⟨hd, hc⟩ := I.fresh dst hu
        have hget : ∀ g o, Function.update (Function.update s.objs dst (some o0)) src
            (some { o0 with enabled := false }) g = some o →
            (g = src ∧ o = { o0 with enabled := false }) ∨ (g = dst ∧ o = o0) ∨
            (g ≠ src ∧ g ≠ dst ∧ s.objs g = some o) := by
          intro g o h1
          by_cases h2 : g = src
          · subst h2; simp at h1; exact .inl ⟨rfl, h1.symm⟩
          · rw [Function.update_of_ne h2] at h1
            by_cases h3 : g = dst
            · subst h3; simp at h1; exact .inr (.inl ⟨rfl, h1.symm⟩)
            · rw [Function.update_of_ne h3] at h1; exact .inr (.inr ⟨h2, h3, h1⟩)
        have hor : ∀ g, g ≠ dst → origin (.move src dst :: h) g = origin h g := by
          intro g hg; simp [origin, hg]
        have hod : origin (.move src dst :: h) dst = origin h src := by simp [origin]
        have hmv : ∀ g, movedFrom (.move src dst :: h) g = (decide (g = src) || movedFrom h g) := fun g => rfl
        have hon : ∀ c, onDuty (.move src dst :: h) c = onDuty h c := fun c => rfl
        constructor
        · intro g o h1
          by_cases hg : g = dst
          · subst hg; simp
          · simp only [Function.update_of_ne hg]
            rcases hget g o h1 with ⟨rfl, _⟩ | ⟨h2, _⟩ | ⟨_, _, h2⟩
            · exact I.usedObj _ _ ho0
            · exact absurd h2 hg
            · exact I.usedObj _ _ h2
        · intro g h1
          by_cases hg : g = dst
          · subst hg; simp
          · simp only [Function.update_of_ne hg]; exact I.created g (by simpa using h1)
        · intro g h1
          by_cases hg : g = dst
          · subst hg; simp at h1
          · simp only [Function.update_of_ne hg] at h1
            have hgs : g ≠ src := by rintro rfl; simp [I.usedObj _ _ ho0] at h1
            rw [hor g hg, hmv]
            simpa [hgs] using I.unused g h1
        · intro g o h1
          rcases hget g o h1 with ⟨rfl, rfl⟩ | ⟨rfl, rfl⟩ | ⟨_, hg, h2⟩
          · rw [hor _ hsd]; exact ⟨(I.cb _ _ ho0).1, by simp [(I.cb _ _ ho0).2]⟩
          · rw [hod]; exact ⟨(I.cb _ _ ho0).1, by simp [(I.cb _ _ ho0).2]⟩
          · rw [hor _ hg]; exact ⟨(I.cb _ _ h2).1, by simp [(I.cb _ _ h2).2]⟩
        · intro g o h1 h2
          rw [hmv] at h2
          rcases hget g o h1 with ⟨rfl, rfl⟩ | ⟨rfl, rfl⟩ | ⟨hs, hg, h3⟩
          · rfl
          · simp [hm, Ne.symm hsd] at h2
          · simp [hs] at h2; exact I.moved _ _ h3 h2
        · intro g o h1 h2
          rw [hmv] at h2
          rw [hon]
          rcases hget g o h1 with ⟨rfl, rfl⟩ | ⟨rfl, rfl⟩ | ⟨hs, hg, h3⟩
          · simp at h2
          · rw [hod]; exact I.duty _ _ ho0 hms
          · rw [hor _ hg]; simp [hs] at h2; exact I.duty _ _ h3 h2
        · intro c h1
          by_cases hg : c = dst
          · subst hg; simp at h1
          · simp only [Function.update_of_ne hg] at h1; exact I.fresh c h1
        · intro g1 g2 o1 o2 h1 h2 m1 m2 he
          rw [hmv] at m1 m2
          rcases hget g1 o1 h1 with ⟨rfl, rfl⟩ | ⟨rfl, rfl⟩ | ⟨hs1, hg1, h1'⟩
          · simp at m1
          · rcases hget g2 o2 h2 with ⟨rfl, rfl⟩ | ⟨rfl, rfl⟩ | ⟨hs2, hg2, h2'⟩
            · simp at m2
            · rfl
            · rw [hod, hor _ hg2] at he
              simp [hs2] at m2
              exact absurd (I.unique _ _ _ _ ho0 h2' hms m2 he).symm hs2
          · simp [hs1] at m1
            rcases hget g2 o2 h2 with ⟨rfl, rfl⟩ | ⟨rfl, rfl⟩ | ⟨hs2, hg2, h2'⟩
            · simp at m2
            · rw [hod, hor _ hg1] at he
              exact absurd (I.unique _ _ _ _ h1' ho0 m1 hms he) hs1
            · simp [hs2] at m2
              rw [hor _ hg1, hor _ hg2] at he
              exact I.unique _ _ _ _ h1' h2' m1 m2 he
        · intro g o h1 h2
          rw [hmv] at h2
          rcases hget g o h1 with ⟨rfl, rfl⟩ | ⟨rfl, rfl⟩ | ⟨hs, hg, h3⟩
          · simp at h2
          · rw [hod]; exact I.alive _ _ ho0 hms
          · rw [hor _ hg]; simp [hs] at h2; exact I.alive _ _ h3 h2
        · intro c h1
          rw [hon]
          rcases I.over c (by simpa using h1) with ⟨g, o, h2, h3, h4⟩ | h2
          · left
            by_cases hg : g = src
            · subst hg
              exact ⟨dst, o0, by simp only [Function.update_of_ne (Ne.symm hsd), Function.update_self], by rw [hmv]; simp [hm, Ne.symm hsd],
                by rw [hod]; exact h4⟩
            · have hgd : g ≠ dst := by rintro rfl; simp [I.usedObj _ _ h2] at hu
              exact ⟨g, o, by simp only [Function.update_of_ne hg, Function.update_of_ne hgd]; exact h2,
                by rw [hmv]; simp [hg, h3], by rw [hor _ hgd]; exact h4⟩
          · exact .inr h2
  | setEnabled g v =>
    obtain ⟨hms, hn⟩ := hn
    simp only [step] at hs
    split at hs
    · cases hs
    · rename_i o0 ho0
      cases hs
      have hget : ∀ g' o, Function.update s.objs g (some { o0 with enabled := v }) g' = some o →
          (g' = g ∧ o = { o0 with enabled := v }) ∨ (g' ≠ g ∧ s.objs g' = some o) := by
        intro g' o h1
        by_cases h2 : g' = g
        · subst h2; simp at h1; exact .inl ⟨rfl, h1.symm⟩
        · rw [Function.update_of_ne h2] at h1; exact .inr ⟨h2, h1⟩
      have hcg := (I.cb g o0 ho0).2
      constructor
      · intro g' o h1
        rcases hget g' o h1 with ⟨rfl, _⟩ | ⟨_, h2⟩
        · exact I.usedObj _ _ ho0
        · exact I.usedObj _ _ h2
      · intro g' h1; exact I.created g' (by simpa using h1)
      · exact I.unused
      · intro g' o h1
        simp only [origin]
        rcases hget g' o h1 with ⟨rfl, rfl⟩ | ⟨_, h2⟩
        · exact ⟨(I.cb _ _ ho0).1, by simp [hcg]⟩
        · exact ⟨(I.cb _ _ h2).1, by simp [(I.cb _ _ h2).2]⟩
      · intro g' o h1 h2
        simp only [movedFrom] at h2
        rcases hget g' o h1 with ⟨rfl, rfl⟩ | ⟨_, h3⟩
        · simp [hms] at h2
        · exact I.moved _ _ h3 h2
      · intro g' o h1 h2
        simp only [movedFrom, onDuty, origin] at h2 ⊢
        rcases hget g' o h1 with ⟨rfl, rfl⟩ | ⟨hne, h3⟩
        · simp
        · have : origin h g ≠ origin h g' := fun he => hne (I.unique _ _ _ _ h3 ho0 h2 hms he.symm)
          simp [this, I.duty _ _ h3 h2]
      · intro c h1
        have : origin h g ≠ c := by
          rintro rfl; have := I.created _ hcg; simp only at h1; simp [this] at h1
        simpa [onDuty, this] using I.fresh c h1
      · intro g1 g2 o1 o2 h1 h2 m1 m2 he
        simp only [movedFrom, origin] at m1 m2 he
        rcases hget g1 o1 h1 with ⟨rfl, _⟩ | ⟨_, h1'⟩
        · rcases hget g2 o2 h2 with ⟨rfl, _⟩ | ⟨_, h2'⟩
          · rfl
          · exact I.unique _ _ _ _ ho0 h2' m1 m2 he
        · rcases hget g2 o2 h2 with ⟨rfl, _⟩ | ⟨_, h2'⟩
          · exact I.unique _ _ _ _ h1' ho0 m1 m2 he
          · exact I.unique _ _ _ _ h1' h2' m1 m2 he
      · intro g' o h1 h2
        simp only [movedFrom, origin] at h2 ⊢
        rcases hget g' o h1 with ⟨rfl, _⟩ | ⟨_, h3⟩
        · exact I.alive _ _ ho0 hms
        · exact I.alive _ _ h3 h2
      · intro c h1
        simp only [movedFrom, origin, onDuty]
        rcases I.over c (by simpa using h1) with ⟨g', o, h2, h3, h4⟩ | h2
        · left
          by_cases hg : g' = g
          · subst hg; exact ⟨g', _, by simp; rfl, h3, h4⟩
          · exact ⟨g', o, by rw [Function.update_of_ne hg]; exact h2, h3, h4⟩
        · by_cases hc : origin h g = c
          · left; exact ⟨g, _, by simp; rfl, hms, hc⟩
          · right; simpa [hc] using h2
  | destroy g =>
    simp only [step] at hs
    split at hs
    · cases hs
    · rename_i o0 ho0
      cases hs
      have hget : ∀ g' o, Function.update s.objs g none g' = some o → g' ≠ g ∧ s.objs g' = some o := by
        intro g' o h1
        by_cases h2 : g' = g
        · subst h2; simp at h1
        · rw [Function.update_of_ne h2] at h1; exact ⟨h2, h1⟩
      obtain ⟨hcb, hcr⟩ := I.cb g o0 ho0
      have hcount : ∀ c, c ≠ origin h g →
          (if o0.enabled then o0.callback :: s.calls else s.calls).count c = s.calls.count c := by
        intro c hc
        split
        · rw [List.count_cons_of_ne]; rw [hcb]; exact Ne.symm hc
        · rfl
      have hmoved : movedFrom h g = true → o0.enabled = false := I.moved g o0 ho0
      constructor
      · intro g' o h1; exact I.usedObj _ _ (hget _ _ h1).2
      · intro g' h1; exact I.created g' (by simpa using h1)
      · exact I.unused
      · intro g' o h1
        have h2 := (hget _ _ h1).2
        exact ⟨(I.cb _ _ h2).1, by simp only [origin]; simp [(I.cb _ _ h2).2]⟩
      · intro g' o h1; exact I.moved _ _ (hget _ _ h1).2
      · intro g' o h1; exact I.duty _ _ (hget _ _ h1).2
      · intro c h1
        have hc : c ≠ origin h g := by rintro rfl; have := I.created _ hcr; simp only at h1; simp [this] at h1
        obtain ⟨h2, h3⟩ := I.fresh c h1
        exact ⟨h2, by simp only; rw [hcount c hc]; exact h3⟩
      · intro g1 g2 o1 o2 h1 h2; exact I.unique _ _ _ _ (hget _ _ h1).2 (hget _ _ h2).2
      · intro g' o h1 h2
        simp only [movedFrom, origin] at h2 ⊢
        obtain ⟨hne, h3⟩ := hget _ _ h1
        by_cases hc : origin h g' = origin h g
        · by_cases hm : movedFrom h g = true
          · simp [hmoved hm, I.alive _ _ h3 h2]
          · exact absurd (I.unique _ _ _ _ h3 ho0 h2 (by simpa using hm) hc) hne
        · rw [hcount _ hc]; exact I.alive _ _ h3 h2
      · intro c h1
        simp only [movedFrom, origin, onDuty]
        rcases I.over c (by simpa using h1) with ⟨g', o, h2, h3, h4⟩ | h2
        · by_cases hg : g' = g
          · subst hg
            right
            have h5 := I.alive _ _ ho0 h3
            have h6 := I.duty _ _ ho0 h3
            rw [ho0] at h2; cases h2
            rw [h4] at hcb h5 h6
            by_cases he : o0.enabled = true
            · rw [← h6, he, hcb]; simp [h5]
            · simp only [Bool.not_eq_true] at he
              rw [← h6, he]; simp [h5]
          · left; exact ⟨g', o, by rw [Function.update_of_ne hg]; exact h2, h3, h4⟩
        · by_cases hc : c = origin h g
          · by_cases hm : movedFrom h g = true
            · right; simp [hmoved hm, h2]
            · have hm : movedFrom h g = false := by simpa using hm
              have h5 := I.alive _ _ ho0 hm
              have h6 := I.duty _ _ ho0 hm
              rw [← hc] at hcb h5 h6
              right
              rw [h5] at h2
              by_cases hd : onDuty h c = true
              · simp [hd] at h2
              · simp only [Bool.not_eq_true] at hd
                rw [h6, hd]; simp [h5]
          · right; rw [hcount c hc]; exact h2

theorem inv_exec (h : List Op) (s : State) (hs : exec init h.reverse = some s) (hn : NoUseAfterMove h) : Inv h s := by
  induction h generalizing s with
  | nil => simp [exec] at hs; subst hs; exact inv_init
  | cons op h ih =>
    rw [List.reverse_cons, exec_append] at hs
    cases h1 : exec init h.reverse with
    | none => simp [h1] at hs
    | some s1 =>
      rw [h1] at hs
      simp only [Option.bind_some, exec] at hs
      have hs' : step s1 op = some s := by
        cases h2 : step s1 op with
        | none => simp [h2] at hs
        | some x => simpa [h2] using hs
      have hn' : NoUseAfterMove h := by cases op <;> first | exact hn.2 | exact hn
      exact inv_step h s1 s op (ih s1 h1 hn') hn hs'

/-- **C30** (partial) For every well-formed program of constructions, moves, `setEnabled` calls and destructions after
which no guard is left: the callback of a guard was called exactly once if the guard, or what it was moved to, was on
duty in the end, and never otherwise.  Missing: programs which use guards they have moved from, for which the claim is
false (`C30_moved_from_violated`). -/
theorem C30_exactly_once_partial (ops : List Op) (s : State) (hs : exec init ops = some s)
    (hn : NoUseAfterMove ops.reverse) (hall : ∀ g, s.objs g = none) (c : ℕ) (hc : Op.create c ∈ ops) :
    s.calls.count c = (onDuty ops.reverse c).toNat := by
  have I := inv_exec ops.reverse s (by simpa using hs) hn
  rcases I.over c (by simpa using hc) with ⟨g, o, h, _⟩ | h
  · simp [hall] at h
  · exact h

/-- **C30** At no point of such a program has a callback been called twice, or while its guard was still alive. -/
theorem C30_never_early_partial (ops : List Op) (s : State) (hs : exec init ops = some s)
    (hn : NoUseAfterMove ops.reverse) (c : ℕ) (hc : Op.create c ∈ ops) :
    s.calls.count c ≤ 1 ∧
      ∀ g o, s.objs g = some o → movedFrom ops.reverse g = false → s.calls.count (origin ops.reverse g) = 0 := by
  have I := inv_exec ops.reverse s (by simpa using hs) hn
  refine ⟨?_, fun g o h1 h2 => I.alive g o h1 h2⟩
  rcases I.over c (by simpa using hc) with ⟨g, o, h1, h2, h3⟩ | h
  · rw [← h3, I.alive g o h1 h2]; exact Nat.zero_le _
  · rw [h]; cases onDuty ops.reverse c <;> simp

/-- guard 0 is moved to 1, guard 2 is switched off -/
example : let ops := [Op.create 0, .move 0 1, .create 2, .destroy 0, .setEnabled 2 false, .destroy 1, .destroy 2]
    (exec init ops).map State.calls = some [0] ∧ NoUseAfterMove ops.reverse ∧
      onDuty ops.reverse 0 = true ∧ onDuty ops.reverse 2 = false := by
  refine ⟨by decide, by simp [NoUseAfterMove, movedFrom], by decide, by decide⟩

/-- **C30** is false for guards which were moved from: `setEnabled(true)` puts them on duty again, and the callback is
called twice. -/
theorem C30_moved_from_violated : ∃ (ops : List Op) (s : State), exec init ops = some s ∧
    (∀ g, s.objs g = none) ∧ s.calls.count 0 = 2 := by
  refine ⟨[.create 0, .move 0 1, .setEnabled 0 true, .destroy 0, .destroy 1], _, rfl, fun g => ?_, by decide⟩
  by_cases h0 : g = 0
  · subst h0; rfl
  · by_cases h1 : g = 1
    · subst h1; rfl
    · simp [Function.update_of_ne h0, Function.update_of_ne h1, init]

end Verif.Guard
