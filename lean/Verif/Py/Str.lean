import Verif.Py.Basic
import Verif.Py.Text

/-!
# Python string operations on character lists
-/

namespace Verif.Py

/-- `s.rfind(c)`, `none` for -1 -/
def rfind (c : Char) : List Char → Option Nat
  | [] => none
  | x :: xs => match rfind c xs with
    | some n => some (n + 1)
    | none => if x = c then some 0 else none

/-- `s.find(c)`, `none` for -1 -/
def sfind (c : Char) : List Char → Option Nat
  | [] => none
  | x :: xs => if x = c then some 0 else (sfind c xs).map (· + 1)

/-- `s.replace(c, r)` for a single character `c` -/
def replaceChar (c : Char) (r : List Char) (s : List Char) : List Char :=
  s.flatMap fun x => if x = c then r else [x]

/-- `s[-n:]` for `n > 0`: the whole string when shorter -/
def lastN (n : Nat) (s : List Char) : List Char := s.drop (s.length - n)

/-- `s.startswith(p)` -/
def startsWith (p s : List Char) : Bool := p.isPrefixOf s

/-- `s.endswith(p)` -/
def endsWith (p s : List Char) : Bool := p.isSuffixOf s

theorem rfind_none (c : Char) (s : List Char) : rfind c s = none ↔ c ∉ s := by
  induction s with
  | nil => simp [rfind]
  | cons x xs ih =>
    unfold rfind
    cases h : rfind c xs with
    | some n =>
      rw [h] at ih
      have : c ∈ xs := by simpa using ih
      simp [this]
    | none =>
      have hx : c ∉ xs := ih.1 h
      by_cases hc : x = c
      · simp [hc]
      · simp [hc, hx, Ne.symm hc]

theorem rfind_append (c : Char) (a b : List Char) (h : c ∉ b) : rfind c (a ++ c :: b) = some a.length := by
  induction a with
  | nil =>
    have := (rfind_none c b).2 h
    simp [rfind, this]
  | cons x xs ih => simp [rfind, ih]

theorem rfind_some {c : Char} {s : List Char} {n : Nat} (h : rfind c s = some n) :
    ∃ a b, s = a ++ c :: b ∧ a.length = n ∧ c ∉ b := by
  induction s generalizing n with
  | nil => simp [rfind] at h
  | cons x xs ih =>
    unfold rfind at h
    cases hr : rfind c xs with
    | some m =>
      rw [hr] at h
      simp only [Option.some.injEq] at h
      obtain ⟨a, b, h1, h2, h3⟩ := ih hr
      exact ⟨x :: a, b, by simp [h1], by simp [h2, h], h3⟩
    | none =>
      rw [hr] at h
      by_cases hc : x = c
      · simp only [hc, if_true, Option.some.injEq] at h
        exact ⟨[], xs, by simp [hc], by simpa using h, (rfind_none c xs).1 hr⟩
      · simp [hc] at h

theorem lastN_append (a b : List Char) : lastN b.length (a ++ b) = b := by
  simp [lastN]

end Verif.Py
