import Verif.Keywords.Spec
import Mathlib.Data.List.Basic

/-! # The searches in terms of the tests made of a line -/

namespace Verif.Keywords

variable (upper : Word → Word)

theorem drop_cons {file : List Line} {pos : Nat} {w : Line} {rest : List Line} (h : file.drop pos = w :: rest) :
    file[pos]? = some w ∧ file.drop (pos + 1) = rest := by
  have hlt : pos < file.length := by
    by_contra hc
    rw [List.drop_eq_nil_of_le (by omega)] at h
    cases h
  rw [List.drop_eq_getElem_cons hlt] at h
  cases h
  exact ⟨List.getElem?_eq_getElem hlt, rfl⟩

theorem none_beyond {file : List Line} {pos : Nat} (h : file.drop pos = []) (j : Nat) (hj : pos ≤ j) : file[j]? = none := by
  rw [List.drop_eq_nil_iff] at h
  exact List.getElem?_eq_none (by omega)

theorem findLoop_spec (file : List Line) (keyword : Word) (rest : List Line) (pos : Nat) (m : Option Nat)
    (h : file.drop pos = rest) :
    (∃ i, findLoop upper keyword rest pos m = some i ∧ First (startsWith upper keyword) file pos (stopAt file pos m) i) ∨
      (findLoop upper keyword rest pos m = none ∧ NoneFrom (startsWith upper keyword) file pos (stopAt file pos m)) := by
  induction rest generalizing pos m with
  | nil =>
    right
    refine ⟨by rw [findLoop], fun j l h1 _ h3 => ?_⟩
    rw [none_beyond h j h1] at h3
    cases h3
  | cons w rest ih =>
    obtain ⟨hw, hrest⟩ := drop_cons h
    have hlt : pos < file.length := (List.getElem?_eq_some_iff.1 hw).1
    have step : ∀ m' : Option Nat, stopAt file (pos + 1) m' = stopAt file pos m → pos < stopAt file pos m →
        (findLoop upper keyword (w :: rest) pos m =
          if startsWith upper keyword w then some pos else findLoop upper keyword rest (pos + 1) m') →
        ((∃ i, findLoop upper keyword (w :: rest) pos m = some i ∧
          First (startsWith upper keyword) file pos (stopAt file pos m) i) ∨
        (findLoop upper keyword (w :: rest) pos m = none ∧ NoneFrom (startsWith upper keyword) file pos (stopAt file pos m))) := by
      intro m' hs hp he
      rw [he]
      by_cases hk : startsWith upper keyword w = true
      · left
        refine ⟨pos, by rw [if_pos hk], Nat.le_refl _, hp, ⟨w, hw, hk⟩, ?_⟩
        intro j l h1 h2; omega
      · rw [if_neg hk]
        have extend : ∀ (j : Nat) (l : Line), j = pos → file[j]? = some l → startsWith upper keyword l = false := by
          intro j l hj hl
          subst hj
          rw [hw] at hl
          cases hl
          exact Bool.eq_false_iff.2 hk
        rcases ih (pos + 1) m' hrest with ⟨i, e, h1, h2, h3, h4⟩ | ⟨e, hn⟩
        · left
          refine ⟨i, e, by omega, by omega, h3, ?_⟩
          intro j l hj1 hj2 hl
          by_cases hjp : j = pos
          · exact extend j l hjp hl
          · exact h4 j l (by omega) hj2 hl
        · right
          refine ⟨e, ?_⟩
          intro j l hj1 hj2 hl
          by_cases hjp : j = pos
          · exact extend j l hjp hl
          · exact hn j l (by omega) (by omega) hl
    match m with
    | none => exact step none rfl hlt (by rw [findLoop])
    | some 0 =>
      right
      refine ⟨by rw [findLoop], fun j l h1 h2 => ?_⟩
      simp only [stopAt] at h2
      omega
    | some (k + 1) => exact step (some k) (by simp only [stopAt]; omega) (by simp only [stopAt]; omega) (by rw [findLoop])

/-- Searching for a keyword gives true with the file at the first line starting with it, if there is one (among as many lines as
may be looked at); otherwise false with the file where it was. -/
theorem find_keyword (file : List Line) (pos : Nat) (keyword : Word) (m : Option Nat) :
    (∃ i, findKeyword upper file pos keyword m = (true, i) ∧ First (startsWith upper keyword) file pos (stopAt file pos m) i) ∨
      (findKeyword upper file pos keyword m = (false, pos) ∧
        NoneFrom (startsWith upper keyword) file pos (stopAt file pos m)) := by
  unfold findKeyword
  rcases findLoop_spec upper file keyword _ pos m rfl with ⟨i, e, h⟩ | ⟨e, h⟩
  · left; exact ⟨i, by rw [e], h⟩
  · right; exact ⟨by rw [e], h⟩

/-- The search which may not pass another keyword stops at the first line starting with either, giving true if it is the
keyword wanted; with neither the file is left at its end. -/
theorem without_passing (file : List Line) (pos : Nat) (hpos : pos ≤ file.length) (keyword noPass : Word) :
    (∃ i l, First (fun l => startsWith upper keyword l || startsWith upper noPass l) file pos file.length i ∧ file[i]? = some l ∧
        findWithoutPassing upper keyword noPass (file.drop pos) pos = (startsWith upper keyword l, i)) ∨
      (NoneFrom (fun l => startsWith upper keyword l || startsWith upper noPass l) file pos file.length ∧
        findWithoutPassing upper keyword noPass (file.drop pos) pos = (false, file.length)) := by
  generalize hr : file.drop pos = rest
  induction rest generalizing pos with
  | nil =>
    right
    have hlen : file.length ≤ pos := List.drop_eq_nil_iff.1 hr
    refine ⟨fun j l h1 _ h3 => ?_, ?_⟩
    · rw [none_beyond hr j h1] at h3; cases h3
    · rw [findWithoutPassing, show pos = file.length by omega]
  | cons w rest ih =>
    obtain ⟨hw, hrest⟩ := drop_cons hr
    have hlt : pos < file.length := (List.getElem?_eq_some_iff.1 hw).1
    rw [findWithoutPassing]
    by_cases hk : startsWith upper keyword w = true
    · left
      refine ⟨pos, w, ⟨Nat.le_refl _, hlt, ⟨w, hw, by simp [hk]⟩, fun j l h1 h2 => by omega⟩, hw, ?_⟩
      rw [if_pos hk, hk]
    · rw [if_neg hk]
      have hkf := Bool.eq_false_iff.2 hk
      by_cases hn : startsWith upper noPass w = true
      · left
        refine ⟨pos, w, ⟨Nat.le_refl _, hlt, ⟨w, hw, by simp [hn]⟩, fun j l h1 h2 => by omega⟩, hw, ?_⟩
        rw [if_pos hn, hkf]
      · rw [if_neg hn]
        have hnf := Bool.eq_false_iff.2 hn
        have extend : ∀ (j : Nat) (l : Line), j = pos → file[j]? = some l →
            (startsWith upper keyword l || startsWith upper noPass l) = false := by
          intro j l hj hl
          subst hj
          rw [hw] at hl
          cases hl
          rw [hkf, hnf]; rfl
        rcases ih (pos + 1) (by omega) hrest with ⟨i, l, ⟨h1, h2, h3, h4⟩, hl, e⟩ | ⟨hno, e⟩
        · left
          refine ⟨i, l, ⟨by omega, h2, h3, ?_⟩, hl, e⟩
          intro j l hj1 hj2 hl
          by_cases hjp : j = pos
          · exact extend j l hjp hl
          · exact h4 j l (by omega) hj2 hl
        · right
          refine ⟨?_, e⟩
          intro j l hj1 hj2 hl
          by_cases hjp : j = pos
          · exact extend j l hjp hl
          · exact hno j l (by omega) hj2 hl

/-- The search with copying stops at the first line starting with the keyword, or at the end of the file, and the lines copied are
exactly those between. -/
theorem with_copy (file : List Line) (pos : Nat) (hpos : pos ≤ file.length) (keyword : Word) (out : List Line) :
    (∃ i, First (startsWith upper keyword) file pos file.length i ∧
        findWithCopy upper keyword (file.drop pos) pos out = (true, i, out ++ (file.drop pos).take (i - pos))) ∨
      (NoneFrom (startsWith upper keyword) file pos file.length ∧
        findWithCopy upper keyword (file.drop pos) pos out = (false, file.length, out ++ file.drop pos)) := by
  generalize hr : file.drop pos = rest
  induction rest generalizing pos out with
  | nil =>
    right
    have hlen : file.length ≤ pos := List.drop_eq_nil_iff.1 hr
    refine ⟨fun j l h1 _ h3 => ?_, ?_⟩
    · rw [none_beyond hr j h1] at h3; cases h3
    · rw [findWithCopy, show pos = file.length by omega, List.append_nil]
  | cons w rest ih =>
    obtain ⟨hw, hrest⟩ := drop_cons hr
    have hlt : pos < file.length := (List.getElem?_eq_some_iff.1 hw).1
    rw [findWithCopy]
    by_cases hk : startsWith upper keyword w = true
    · left
      refine ⟨pos, ⟨Nat.le_refl _, hlt, ⟨w, hw, hk⟩, fun j l h1 h2 => by omega⟩, ?_⟩
      rw [if_pos hk]
      simp
    · rw [if_neg hk]
      have extend : ∀ (j : Nat) (l : Line), j = pos → file[j]? = some l → startsWith upper keyword l = false := by
        intro j l hj hl
        subst hj
        rw [hw] at hl
        cases hl
        exact Bool.eq_false_iff.2 hk
      rcases ih (pos + 1) (by omega) (out ++ [w]) hrest with ⟨i, ⟨h1, h2, h3, h4⟩, e⟩ | ⟨hno, e⟩
      · left
        refine ⟨i, ⟨by omega, h2, h3, ?_⟩, ?_⟩
        · intro j l hj1 hj2 hl
          by_cases hjp : j = pos
          · exact extend j l hjp hl
          · exact h4 j l (by omega) hj2 hl
        · rw [e, show i - pos = (i - (pos + 1)) + 1 by omega]
          simp
      · right
        refine ⟨?_, by rw [e]; simp⟩
        intro j l hj1 hj2 hl
        by_cases hjp : j = pos
        · exact extend j l hjp hl
        · exact hno j l (by omega) hj2 hl

/-- Skipping blank lines and comments leaves the file at the first line which is neither, or at its end. -/
theorem skip (file : List Line) (pos : Nat) (hpos : pos ≤ file.length) (c : Char) (skipC : Bool) :
    First (fun l => !isBlankOrComment c skipC l) file pos file.length (skipBlank c skipC (file.drop pos) pos) ∨
      (skipBlank c skipC (file.drop pos) pos = file.length ∧
        NoneFrom (fun l => !isBlankOrComment c skipC l) file pos file.length) := by
  generalize hr : file.drop pos = rest
  induction rest generalizing pos with
  | nil =>
    right
    have hlen : file.length ≤ pos := List.drop_eq_nil_iff.1 hr
    refine ⟨by rw [skipBlank]; omega, fun j l h1 _ h3 => ?_⟩
    rw [none_beyond hr j h1] at h3; cases h3
  | cons w rest ih =>
    obtain ⟨hw, hrest⟩ := drop_cons hr
    have hlt : pos < file.length := (List.getElem?_eq_some_iff.1 hw).1
    rw [skipBlank]
    by_cases hb : isBlankOrComment c skipC w = true
    · rw [if_pos hb]
      have extend : ∀ (j : Nat) (l : Line), j = pos → file[j]? = some l → (!isBlankOrComment c skipC l) = false := by
        intro j l hj hl
        subst hj
        rw [hw] at hl
        cases hl
        rw [hb]; rfl
      rcases ih (pos + 1) (by omega) hrest with ⟨h1, h2, h3, h4⟩ | ⟨e, hno⟩
      · left
        refine ⟨by omega, h2, h3, ?_⟩
        intro j l hj1 hj2 hl
        by_cases hjp : j = pos
        · exact extend j l hjp hl
        · exact h4 j l (by omega) hj2 hl
      · right
        refine ⟨e, ?_⟩
        intro j l hj1 hj2 hl
        by_cases hjp : j = pos
        · exact extend j l hjp hl
        · exact hno j l (by omega) hj2 hl
    · rw [if_neg hb]
      left
      refine ⟨Nat.le_refl _, hlt, ⟨w, hw, ?_⟩, fun j l h1 h2 => by omega⟩
      show (!isBlankOrComment c skipC w) = true
      rw [Bool.eq_false_iff.2 hb]; rfl

theorem specificLoop_eq (file : List Line) (keyword : Word) (skip : Bool) (c : Char) (rest : List Line) (pos fp : Nat)
    (h : file.drop pos = rest) :
    specificLoop upper keyword skip c rest pos fp =
      (match file[skipBlank c false rest pos]? with
        | none => false
        | some l => startsWith upper keyword l,
       if skip then skipBlank c false rest pos else fp) := by
  induction rest generalizing pos fp with
  | nil =>
    rw [specificLoop, skipBlank, none_beyond h pos (Nat.le_refl _)]
  | cons w rest ih =>
    obtain ⟨hw, hrest⟩ := drop_cons h
    rw [specificLoop, skipBlank]
    by_cases hb : isBlankOrComment c false w = true
    · rw [if_pos hb, if_pos hb, ih (pos + 1) _ hrest]
      cases skip <;> simp
    · rw [if_neg hb, if_neg hb, hw]

/-- The test for a keyword coming next is true exactly when the first line which is neither blank nor a comment starts with
it; the file is left at that line (or its end), or where it was if blank lines are not to be skipped. -/
theorem specific_next (file : List Line) (pos : Nat) (keyword : Word) (skip : Bool) (c : Char) :
    (specificNext upper file pos keyword skip c).1 =
      (match file[skipBlank c false (file.drop pos) pos]? with
        | none => false
        | some l => startsWith upper keyword l) ∧
      (specificNext upper file pos keyword skip c).2 =
        if skip then skipBlank c false (file.drop pos) pos else pos := by
  unfold specificNext
  rw [specificLoop_eq upper file keyword skip c _ pos pos rfl]
  exact ⟨rfl, rfl⟩

/-- both keywords start the line -/
def pairStarts (upper : Word → Word) (primary secondary : Word) (l : Line) : Bool :=
  startsWith upper primary l && secondIs upper secondary l

theorem findPair_spec (file : List Line) (primary secondary : Word) (fuel pos : Nat) (hf : file.length - pos < fuel) :
    (∃ i, findPair upper file primary secondary fuel pos = (true, i) ∧
        First (pairStarts upper primary secondary) file pos file.length i) ∨
      (∃ p, findPair upper file primary secondary fuel pos = (false, p) ∧ pos ≤ p ∧
        NoneFrom (startsWith upper primary) file p file.length ∧
        NoneFrom (pairStarts upper primary secondary) file pos file.length) := by
  induction fuel generalizing pos with
  | zero => omega
  | succ fuel ih =>
    rw [findPair]
    rcases find_keyword upper file pos primary none with ⟨i, e, h1, h2, ⟨l, hl, hp⟩, h4⟩ | ⟨e, hn⟩
    · rw [e]
      simp only [hl]
      have before : ∀ (j : Nat) (l' : Line), pos ≤ j → j < i → file[j]? = some l' →
          pairStarts upper primary secondary l' = false := by
        intro j l' hj1 hj2 hl'
        rw [pairStarts, h4 j l' hj1 hj2 hl', Bool.false_and]
      simp only [stopAt] at h2
      by_cases hs : secondIs upper secondary l = true
      · rw [if_pos hs]
        left
        exact ⟨i, rfl, h1, h2, ⟨l, hl, by rw [pairStarts, hp, hs]; rfl⟩, before⟩
      · rw [if_neg hs]
        have at_i : ∀ (j : Nat) (l' : Line), j = i → file[j]? = some l' → pairStarts upper primary secondary l' = false := by
          intro j l' hj hl'
          subst hj
          rw [hl] at hl'
          cases hl'
          rw [pairStarts, Bool.eq_false_iff.2 hs, Bool.and_false]
        rcases ih (i + 1) (by omega) with ⟨k, e', k1, k2, k3, k4⟩ | ⟨p, e', p1, p2, p3⟩
        · left
          refine ⟨k, e', by omega, k2, k3, ?_⟩
          intro j l' hj1 hj2 hl'
          rcases Nat.lt_trichotomy j i with hji | hji | hji
          · exact before j l' hj1 hji hl'
          · exact at_i j l' hji hl'
          · exact k4 j l' (by omega) hj2 hl'
        · right
          refine ⟨p, e', by omega, p2, ?_⟩
          intro j l' hj1 hj2 hl'
          rcases Nat.lt_trichotomy j i with hji | hji | hji
          · exact before j l' hj1 hji hl'
          · exact at_i j l' hji hl'
          · exact p3 j l' (by omega) hj2 hl'
    · rw [e]
      right
      refine ⟨pos, rfl, Nat.le_refl _, hn, ?_⟩
      intro j l hj1 hj2 hl
      rw [pairStarts, hn j l hj1 hj2 hl, Bool.false_and]

/-- Searching for a pair of keywords gives true with the file at the first line starting with them, if there is one;
otherwise false.
-/
theorem find_pair (file : List Line) (pos : Nat) (primary secondary : Word) :
    (∃ i, findPair upper file primary secondary (file.length - pos + 1) pos = (true, i) ∧
        First (pairStarts upper primary secondary) file pos file.length i) ∨
      (∃ p, findPair upper file primary secondary (file.length - pos + 1) pos = (false, p) ∧ pos ≤ p ∧
        NoneFrom (startsWith upper primary) file p file.length ∧
        NoneFrom (pairStarts upper primary secondary) file pos file.length) :=
  findPair_spec upper file primary secondary _ pos (by omega)

theorem startsWith_eq (keyword : Word) : startsWith upper keyword = firstWordIs upper keyword := by
  funext l
  cases l with
  | nil => rfl
  | cons w l => by_cases h : upper w = upper keyword <;> simp [startsWith, firstWordIs, h]

theorem secondIs_eq (keyword : Word) : secondIs upper keyword = secondWordIs upper keyword := by
  funext l
  match l with
  | [] => rfl
  | [w] => rfl
  | w :: v :: l => by_cases h : upper v = upper keyword <;> simp [secondIs, secondWordIs, h]

theorem pairStarts_eq (primary secondary : Word) : pairStarts upper primary secondary =
    fun l => firstWordIs upper primary l && secondWordIs upper secondary l := by
  funext l
  rw [pairStarts, startsWith_eq, secondIs_eq]

theorem blank_eq (c : Char) (skipC : Bool) : isBlankOrComment c skipC = toSkip c skipC := by
  funext l
  match l with
  | [] => rfl
  | [] :: l => cases skipC <;> simp [isBlankOrComment, toSkip]
  | (d :: w) :: l =>
    by_cases h : d = c <;> by_cases h1 : d = 'C' <;> by_cases h2 : d = 'c' <;> cases w <;> cases skipC <;>
      simp [isBlankOrComment, toSkip, beq_eq_decide, h, h1, h2]

end Verif.Keywords
