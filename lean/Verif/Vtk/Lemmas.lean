import Verif.Vtk.Model
import Mathlib.Data.List.Basic
import Mathlib.Tactic.Linarith

set_option autoImplicit false
set_option linter.unusedSimpArgs false

namespace Verif.Vtk

open ForcedSteps Restart

variable {K D : Type}

/-- The entries which a list of outputs should leave in the meta file: time, number and fields of those which are not discarded. -/
def wanted (l : List (Output K D)) : List (K × ℕ × D) :=
  ((l.filter fun e => !e.discard).zipIdx).map fun x => (x.1.time, x.2, x.1.fields)

/-- The lines of some entries. -/
def lines (c : Config K) (l : List (K × ℕ × D)) : List Char := l.flatMap fun x => entry c x.1 (fileName c x.2.1)

/-- A complete meta file. -/
def document (c : Config K) (l : List (K × ℕ × D)) : List Char := header ++ lines c l ++ closing

theorem wanted_append (l : List (Output K D)) (e : Output K D) :
    wanted (l ++ [e]) = wanted l ++ (if e.discard then [] else [(e.time, (wanted l).length, e.fields)]) := by
  unfold wanted
  cases h : e.discard <;> simp [List.filter_append, h, List.zipIdx_append]

theorem lines_append (c : Config K) (l m : List (K × ℕ × D)) : lines c (l ++ m) = lines c l ++ lines c m := by
  simp [lines]

theorem lines_single (c : Config K) (x : K × ℕ × D) : lines c [x] = entry c x.1 (fileName c x.2.1) := by simp [lines]

/-- New text which ends with the closing lines replaces the old closing lines. -/
theorem overwrite_closing (a b x : List Char) (h : x.length ≤ b.length) : overwrite (a ++ x) a.length b = a ++ b := by
  unfold overwrite
  rw [List.take_left, List.drop_eq_nil_of_le (by simp; omega)]
  simp

theorem overwrite_nil (b : List Char) : overwrite [] 0 b = b := by simp [overwrite]

/-- The stream: entries `F` are on the disk, `U` in the buffer; before anything was written to the disk the header is in the
buffer as well. -/
def Stream0 (c : Config K) (disk buf : List Char) (pos : ℕ) (F U : List (K × ℕ × D)) : Prop :=
  (disk = [] ∧ pos = 0 ∧ F = [] ∧ buf = header ++ lines c U) ∨
  (disk = document c F ∧ pos = (header ++ lines c F).length ∧ buf = lines c U)

theorem Stream0.more {c : Config K} {disk buf : List Char} {pos : ℕ} {F U : List (K × ℕ × D)} (h : Stream0 c disk buf pos F U)
    (x : K × ℕ × D) : Stream0 c disk (buf ++ entry c x.1 (fileName c x.2.1)) pos F (U ++ [x]) := by
  rcases h with ⟨h1, h2, h3, h4⟩ | ⟨h1, h2, h3⟩
  · exact Or.inl ⟨h1, h2, h3, by rw [h4, lines_append, lines_single]; simp⟩
  · exact Or.inr ⟨h1, h2, by rw [h3, lines_append, lines_single]⟩

theorem Stream0.close {c : Config K} {disk buf : List Char} {pos : ℕ} {F U : List (K × ℕ × D)} (h : Stream0 c disk buf pos F U) :
    overwrite disk pos (buf ++ closing) = document c (F ++ U) ∧ pos + buf.length = (header ++ lines c (F ++ U)).length := by
  rcases h with ⟨rfl, rfl, rfl, rfl⟩ | ⟨rfl, rfl, rfl⟩
  · exact ⟨by rw [overwrite_nil]; simp [document], by simp⟩
  · refine ⟨?_, by rw [lines_append]; simp; omega⟩
    rw [document, overwrite_closing _ _ _ (by simp)]
    simp [document, lines_append]

theorem document_ne_nil (c : Config K) (F : List (K × ℕ × D)) : document c F ≠ [] := by
  simp [document, closing]

/-- The states of the writer on the first process. -/
structure Good (c : Config K) (prog : List (Output K D)) (s : State K D) : Prop where
  split : prog = s.past ++ (match s.pc with
    | .barrier e | .fill e | .finalize e | .tell e | .footer e | .seek e => [e]
    | _ => []) ++ s.todo
  number : s.num = (match s.pc with
    | .fill _ | .finalize _ => (wanted s.past).length + 1
    | .tell e | .footer e | .seek e => (wanted (s.past ++ [e])).length
    | _ => (wanted s.past).length)
  fresh : match s.pc with
    | .fill e => s.curTime = e.time ∧ s.curName = fileName c (wanted s.past).length ∧ s.pending = false
    | .finalize e => s.curTime = e.time ∧ s.curName = fileName c (wanted s.past).length ∧ s.fields = e.fields ∧ s.pending = false
    | .closed => s.pending = false
    | _ => True
  last : s.pc = .destroy ∨ s.pc = .closed → s.todo = []
  sync : c.async = false → s.pending = false

/-- What has been written: `F` is on the disk, `U` in the buffer, `P` still to be written by the worker. -/
structure Written (c : Config K) (s : State K D) (F U P : List (K × ℕ × D)) : Prop where
  data : s.data = (F ++ U).map fun x => (c.fileOf (fileName c x.2.1), x.2.2)
  none : s.pending = false → P = []
  one : s.pending = true → ∃ x, P = [x] ∧ s.curTime = x.1 ∧ s.curName = fileName c x.2.1 ∧ s.fields = x.2.2

/-- … and how it relates to what should be written, unless the destructor has returned. -/
structure Related (c : Config K) (s : State K D) (F U P : List (K × ℕ × D)) : Prop where
  total : F ++ U ++ P = (match s.pc with
    | .tell e | .footer e | .seek e => wanted (s.past ++ [e])
    | _ => wanted s.past)
  current : (match s.pc with
    | .tell _ | .footer _ | .seek _ => P = [] ∨ F ++ U = wanted s.past
    | _ => True)
  lag : wanted s.past.dropLast <+: F
  start : s.disk = [] → s.past = []
  sync : c.async = false → P = [] ∧ (match s.pc with
    | .tell _ | .footer _ | .seek _ => F = wanted s.past
    | _ => U = [])

/-- The meta file. -/
def FileOk (c : Config K) (s : State K D) (F U : List (K × ℕ × D)) : Prop :=
  match s.pc with
  | .footer _ => s.isOpen = true ∧ Stream0 c s.disk s.buf s.pos F U ∧ s.mark = s.pos + s.buf.length
  | .seek _ => s.isOpen = true ∧ ∃ b, Stream0 c s.disk b s.pos F U ∧ s.mark = s.pos + b.length ∧ s.buf = b ++ closing
  | .idle | .destroy => (s.isOpen = false ∧ s.past = [] ∧ F = [] ∧ U = [] ∧ s.disk = []) ∨ (s.isOpen = true ∧ Stream0 c s.disk s.buf s.pos F U)
  | .closed => (s.isOpen = false ∧ s.past = [] ∧ F = [] ∧ U = [] ∧ s.disk = []) ∨ s.disk = document c (F ++ U)
  | _ => s.isOpen = true ∧ Stream0 c s.disk s.buf s.pos F U

/-- The invariant of the writer on the first process. -/
def Inv (c : Config K) (prog : List (Output K D)) (s : State K D) : Prop :=
  Good c prog s ∧ ∃ F U P, Written c s F U P ∧ Related c s F U P ∧ FileOk c s F U

/-- The worker does not write while the main thread closes the meta file. -/
def calm (s : State K D) (t : Thread) : Prop := t = .worker → ∀ e, s.pc ≠ .footer e ∧ s.pc ≠ .seek e

end Verif.Vtk
