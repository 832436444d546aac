import Verif.ArrayFile.Spec
import Verif.Keywords.Lemmas
import Verif.Surface.Lemmas
import Mathlib.Tactic.Linarith
import Mathlib.Tactic.Ring
import Mathlib.Tactic.FieldSimp
import Mathlib.Tactic.Positivity

/-!
# Lemmas on arrays in text files
-/

namespace Verif.ArrayFile

open Verif.Py

/-! ### Words -/

theorem splitWSAux_append (s t : List Char) (c : Char) (hc : isWS c = true) (cur : List Char) :
    splitWSAux cur (s ++ c :: t) = splitWSAux cur s ++ splitWS t := by
  induction s generalizing cur with
  | nil =>
    rw [List.nil_append]
    unfold splitWS
    by_cases h : cur = [] <;> simp [splitWSAux, hc, h]
  | cons x s ih =>
    rw [List.cons_append]
    by_cases hx : isWS x = true
    · by_cases h : cur = []
      · simp [splitWSAux, hx, h, ih]
      · simp [splitWSAux, hx, h, ih]
    · simp only [Bool.not_eq_true] at hx
      simp [splitWSAux, hx, ih]

/-- Splitting where white space is. -/
theorem splitWS_append {s t : List Char} (h : t = [] ∨ ∃ c t', t = c :: t' ∧ isWS c = true) : splitWS (s ++ t) = splitWS s ++ splitWS t := by
  rcases h with rfl | ⟨c, t', rfl, hc⟩
  · simp [splitWS, splitWSAux]
  · rw [splitWS_ws _ _ hc]
    exact splitWSAux_append s t' c hc []

theorem splitWS_append_ws {s t : List Char} (c : Char) (hc : isWS c = true) : splitWS (s ++ c :: t) = splitWS s ++ splitWS t :=
  splitWSAux_append s t c hc []

/-- The words of white space and words which take turns. -/
theorem splitWS_pieces (L : List (Char × List Char)) (hL : ∀ p ∈ L, isWS p.1 = true ∧ ∀ c ∈ p.2, isWS c = false) :
    splitWS (L.flatMap fun p => p.1 :: p.2) = (L.map Prod.snd).filter (· ≠ []) := by
  induction L with
  | nil => rfl
  | cons p L ih =>
    obtain ⟨h1, h2⟩ := hL p List.mem_cons_self
    have ih := ih fun q hq => hL q (List.mem_cons_of_mem _ hq)
    have hT : (L.flatMap fun p => p.1 :: p.2) = [] ∨ ∃ c t', (L.flatMap fun p => p.1 :: p.2) = c :: t' ∧ isWS c = true := by
      cases L with
      | nil => left; rfl
      | cons q L => right; exact ⟨q.1, _, rfl, (hL q (by simp)).1⟩
    rw [List.flatMap_cons, List.cons_append, splitWS_ws _ _ h1, splitWS_append hT, ih, List.map_cons]
    by_cases hp : p.2 = []
    · rw [List.filter_cons]
      simp [hp, splitWS, splitWSAux]
    · rw [splitWS_word _ h2 hp, List.filter_cons]
      simp [hp]

/-- The first word of a text which begins with a word and white space. -/
theorem splitWS_first {w t : List Char} (hw : ∀ c ∈ w, isWS c = false) (hne : w ≠ []) (c : Char) (hc : isWS c = true) :
    ∃ ws, splitWS (w ++ c :: t) = w :: ws := ⟨_, splitWS_word_ws w t c hw hne hc⟩

theorem splitWSAux_pos {cur : List Char} (h : cur ≠ []) (s : List Char) : 0 < (splitWSAux cur s).length := by
  induction s generalizing cur with
  | nil => simp [splitWSAux, h]
  | cons c s ih =>
    by_cases hc : isWS c = true
    · simp [splitWSAux, hc, h]
    · simp only [Bool.not_eq_true] at hc
      simp only [splitWSAux, hc, Bool.false_eq_true, if_false]
      exact ih (by simp)

/-- Nothing is left after all the words; something which begins with the next word after fewer. -/
theorem afterWords_spec (s : List Char) :
    (∀ n, (splitWS s).length ≤ n → afterWords false n s = []) ∧
    (∀ cur, cur ≠ [] → ∀ n, (splitWSAux cur s).length ≤ n → afterWords true n s = []) ∧
    (∀ n, n < (splitWS s).length → splitWS (afterWords false n s) = (splitWS s).drop n ∧ ∀ c ∈ (afterWords false n s).head?, isWS c = false) ∧
    (∀ cur, cur ≠ [] → ∀ n, 0 < n → n < (splitWSAux cur s).length →
      splitWS (afterWords true n s) = (splitWSAux cur s).drop n ∧ ∀ c ∈ (afterWords true n s).head?, isWS c = false) := by
  induction s with
  | nil =>
    refine ⟨by simp [afterWords], by simp [afterWords], by simp [splitWS, splitWSAux], ?_⟩
    intro cur hc n h0 h
    simp [splitWSAux, hc] at h
    omega
  | cons c s ih =>
    obtain ⟨h1, h2, h3, h4⟩ := ih
    by_cases hc : isWS c = true
    · refine ⟨?_, ?_, ?_, ?_⟩
      · intro n hn
        rw [splitWS_ws _ _ hc] at hn
        simp only [afterWords, hc, if_true]
        exact h1 n hn
      · intro cur hcur n hn
        simp only [splitWSAux, hc, if_true, hcur, if_false, List.length_cons] at hn
        simp only [afterWords, hc, if_true]
        exact h1 _ (by unfold splitWS; omega)
      · intro n hn
        rw [splitWS_ws _ _ hc] at hn ⊢
        simp only [afterWords, hc, if_true]
        exact h3 n hn
      · intro cur hcur n h0 hn
        simp only [splitWSAux, hc, if_true, hcur, if_false, List.length_cons] at hn ⊢
        simp only [afterWords, hc, if_true]
        obtain ⟨m, rfl⟩ : ∃ m, n = m + 1 := ⟨n - 1, by omega⟩
        rw [List.drop_succ_cons, Nat.add_sub_cancel]
        exact h3 m (by unfold splitWS; omega)
    · simp only [Bool.not_eq_true] at hc
      refine ⟨?_, ?_, ?_, ?_⟩
      · intro n hn
        simp only [splitWS, splitWSAux, hc, Bool.false_eq_true, if_false] at hn
        have := splitWSAux_pos (cur := [c]) (by simp) s
        simp only [afterWords, hc, Bool.false_eq_true, if_false]
        rw [if_neg (by omega)]
        exact h2 [c] (by simp) n hn
      · intro cur hcur n hn
        simp only [splitWSAux, hc, Bool.false_eq_true, if_false] at hn
        simp only [afterWords, hc, Bool.false_eq_true, if_false]
        exact h2 _ (by simp) n hn
      · intro n hn
        simp only [afterWords, hc, Bool.false_eq_true, if_false]
        by_cases h0 : n = 0
        · subst h0
          simp [hc]
        · rw [if_neg h0]
          simp only [splitWS, splitWSAux, hc, Bool.false_eq_true, if_false] at hn ⊢
          exact h4 [c] (by simp) n (by omega) hn
      · intro cur hcur n h0 hn
        simp only [afterWords, hc, Bool.false_eq_true, if_false]
        simp only [splitWSAux, hc, Bool.false_eq_true, if_false] at hn ⊢
        exact h4 _ (by simp) n h0 hn

/-! ### Lines -/

theorem splitLines_line {l : List Char} (hl : '\n' ∉ l) (rest : List Char) : splitLines (l ++ '\n' :: rest) = (l ++ ['\n']) :: splitLines rest := by
  induction l with
  | nil => simp [splitLines]
  | cons c l ih =>
    simp only [List.mem_cons, not_or] at hl
    rw [List.cons_append, splitLines, if_neg (Ne.symm hl.1), ih hl.2]
    rfl

theorem splitLines_flatten (t : List Char) : (splitLines t).flatten = t := by
  induction t with
  | nil => rfl
  | cons c t ih =>
    rw [splitLines]
    by_cases hc : c = '\n'
    · rw [if_pos hc]
      simp [ih]
    · rw [if_neg hc]
      cases h : splitLines t with
      | nil =>
        rw [h] at ih
        simp only [List.flatten_nil] at ih
        simp [← ih]
      | cons l ls =>
        rw [h] at ih
        simp only [List.flatten_cons] at ih
        simp [← ih]

theorem splitLines_nil_iff (t : List Char) : splitLines t = [] ↔ t = [] := by
  constructor
  · intro h
    rw [← splitLines_flatten t, h]
    rfl
  · rintro rfl
    rfl

/-- Lines which are complete. -/
theorem splitLines_lines (L : List (List Char)) (hL : ∀ l ∈ L, '\n' ∉ l) (rest : List Char) :
    splitLines ((L.flatMap fun l => l ++ ['\n']) ++ rest) = (L.map fun l => l ++ ['\n']) ++ splitLines rest := by
  induction L with
  | nil => rfl
  | cons l L ih =>
    rw [List.flatMap_cons, List.map_cons, List.append_assoc, List.append_assoc, List.singleton_append,
      splitLines_line (hL l List.mem_cons_self), ih fun q hq => hL q (List.mem_cons_of_mem _ hq)]
    rfl

/-- The first line of a text which does not begin with a newline begins as the text does. -/
theorem splitLines_first (w t : List Char) (c : Char) (hw : '\n' ∉ w) : ∃ l ls, splitLines (w ++ c :: t) = (w ++ c :: l) :: ls := by
  induction w with
  | nil =>
    by_cases hc : c = '\n'
    · exact ⟨[], splitLines t, by simp [splitLines, hc]⟩
    · cases h : splitLines t with
      | nil => exact ⟨[], [], by simp [splitLines, hc, h]⟩
      | cons l ls => exact ⟨l, ls, by simp [splitLines, hc, h]⟩
  | cons x w ih =>
    simp only [List.mem_cons, not_or] at hw
    obtain ⟨l, ls, h⟩ := ih hw.2
    refine ⟨l, ls, ?_⟩
    rw [List.cons_append, splitLines, if_neg (Ne.symm hw.1), h]
    rfl

/-! ### Keywords -/

theorem findLoop_found (upper : List Char → List Char) (kw : List Char) (L : List Keywords.Line) (x : Keywords.Line) (R : List Keywords.Line)
    (m : Option Nat) (pos : Nat) (hL : ∀ l ∈ L, Keywords.startsWith upper kw l = false) (hx : Keywords.startsWith upper kw x = true)
    (hm : ∀ k, m = some k → L.length < k) : Keywords.findLoop upper kw (L ++ x :: R) pos m = some (pos + L.length) := by
  induction L generalizing pos m with
  | nil =>
    cases m with
    | none => simp [Keywords.findLoop, hx]
    | some k =>
      cases k with
      | zero => exact absurd (hm 0 rfl) (by simp)
      | succ k => simp [Keywords.findLoop, hx]
  | cons l L ih =>
    have hl := hL l List.mem_cons_self
    have hL' := fun q hq => hL q (List.mem_cons_of_mem _ hq)
    cases m with
    | none =>
      rw [List.cons_append, Keywords.findLoop, hl, ih none (pos + 1) hL' (by simp), List.length_cons]
      simp; omega
    | some k =>
      cases k with
      | zero => exact absurd (hm 0 rfl) (by simp)
      | succ k =>
        rw [List.cons_append, Keywords.findLoop, hl, ih (some k) (pos + 1) hL' (by
          intro k' hk'
          simp only [Option.some.injEq] at hk'
          have := hm (k + 1) rfl
          simp only [List.length_cons] at this
          omega), List.length_cons]
        simp; omega

/-! ### Comments -/

theorem strip_append (s t : List Char) (hs : '!' ∉ s) : stripComments ['!'] false (s ++ t) = s ++ stripComments ['!'] false t := by
  induction s with
  | nil => rfl
  | cons c s ih =>
    simp only [List.mem_cons, not_or] at hs
    have hc : (c == '!') = false := by simpa using Ne.symm hs.1
    rw [List.cons_append, stripComments]
    by_cases h : c = '\n'
    · rw [if_pos h, ih hs.2]
      rfl
    · rw [if_neg h]
      simp only [List.isPrefixOf, Bool.false_or]
      rw [show ('!' == c) = false by simpa using hs.1]
      simp [ih hs.2]

end Verif.ArrayFile
