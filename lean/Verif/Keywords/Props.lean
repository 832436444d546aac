import Verif.Keywords.Lemmas

/-! # C33: searching files for keywords -/

namespace Verif.Keywords

variable (upper : Word → Word)

/-- Searching for a keyword gives true with the file at the first line starting with it, if there is one (among as many lines as
may be looked at); otherwise false with the file where it was. -/
theorem C33_find_keyword (file : List Line) (pos : Nat) (keyword : Word) (m : Option Nat) :
    (∃ i, findKeyword upper file pos keyword m = (true, i) ∧ First (firstWordIs upper keyword) file pos (stopAt file pos m) i) ∨
      (findKeyword upper file pos keyword m = (false, pos) ∧
        NoneFrom (firstWordIs upper keyword) file pos (stopAt file pos m)) := by
  rw [← startsWith_eq]
  exact find_keyword upper file pos keyword m

/-- The search which may not pass another keyword stops at the first line starting with either, giving true if it is the
keyword wanted; with neither the file is left at its end. -/
theorem C33_without_passing (file : List Line) (pos : Nat) (hpos : pos ≤ file.length) (keyword noPass : Word) :
    (∃ i l, First (fun l => firstWordIs upper keyword l || firstWordIs upper noPass l) file pos file.length i ∧ file[i]? = some l ∧
        findWithoutPassing upper keyword noPass (file.drop pos) pos = (firstWordIs upper keyword l, i)) ∨
      (NoneFrom (fun l => firstWordIs upper keyword l || firstWordIs upper noPass l) file pos file.length ∧
        findWithoutPassing upper keyword noPass (file.drop pos) pos = (false, file.length)) := by
  rw [← startsWith_eq, ← startsWith_eq]
  exact without_passing upper file pos hpos keyword noPass

/-- The search with copying stops at the first line starting with the keyword, or at the end of the file, and the lines copied are
exactly those between. -/
theorem C33_with_copy (file : List Line) (pos : Nat) (hpos : pos ≤ file.length) (keyword : Word) (out : List Line) :
    (∃ i, First (firstWordIs upper keyword) file pos file.length i ∧
        findWithCopy upper keyword (file.drop pos) pos out = (true, i, out ++ (file.drop pos).take (i - pos))) ∨
      (NoneFrom (firstWordIs upper keyword) file pos file.length ∧
        findWithCopy upper keyword (file.drop pos) pos out = (false, file.length, out ++ file.drop pos)) := by
  rw [← startsWith_eq]
  exact with_copy upper file pos hpos keyword out

/-- Skipping blank lines and comments leaves the file at the first line which is neither, or at its end. -/
theorem C33_skip (file : List Line) (pos : Nat) (hpos : pos ≤ file.length) (c : Char) (skipC : Bool) :
    First (fun l => !toSkip c skipC l) file pos file.length (skipBlank c skipC (file.drop pos) pos) ∨
      (skipBlank c skipC (file.drop pos) pos = file.length ∧
        NoneFrom (fun l => !toSkip c skipC l) file pos file.length) := by
  rw [← blank_eq]
  exact skip file pos hpos c skipC

/-- The test for a keyword coming next is true exactly when the first line which is neither blank nor a comment starts with
it; the file is left at that line (or its end), or where it was if blank lines are not to be skipped. -/
theorem C33_specific_next (file : List Line) (pos : Nat) (hpos : pos ≤ file.length) (keyword : Word) (skip : Bool) (c : Char) :
    (∃ i l, First (fun l => !toSkip c false l) file pos file.length i ∧ file[i]? = some l ∧
        specificNext upper file pos keyword skip c = (firstWordIs upper keyword l, if skip then i else pos)) ∨
      (NoneFrom (fun l => !toSkip c false l) file pos file.length ∧
        specificNext upper file pos keyword skip c = (false, if skip then file.length else pos)) := by
  have h := specific_next upper file pos keyword skip c
  have e : specificNext upper file pos keyword skip c =
      ((specificNext upper file pos keyword skip c).1, (specificNext upper file pos keyword skip c).2) := rfl
  rw [e, h.1, h.2, ← startsWith_eq]
  rcases C33_skip file pos hpos c false with hf | ⟨h1, h2⟩
  · left
    obtain ⟨l, hl, -⟩ := hf.2.2.1
    refine ⟨_, l, hf, hl, ?_⟩
    rw [hl]
  · right
    refine ⟨h2, ?_⟩
    rw [h1, List.getElem?_eq_none (Nat.le_refl _)]

/-- Searching for a pair of keywords gives true with the file at the first line starting with them, if there is one;
otherwise false.
Full statement wanted: in that case the file is left where it was; see `C33_find_pair_violated`. -/
theorem C33_find_pair_partial (file : List Line) (pos : Nat) (primary secondary : Word) :
    (∃ i, findPair upper file primary secondary (file.length - pos + 1) pos = (true, i) ∧
        First (fun l => firstWordIs upper primary l && secondWordIs upper secondary l) file pos file.length i) ∨
      (∃ p, findPair upper file primary secondary (file.length - pos + 1) pos = (false, p) ∧ pos ≤ p ∧
        NoneFrom (firstWordIs upper primary) file p file.length ∧
        NoneFrom (fun l => firstWordIs upper primary l && secondWordIs upper secondary l) file pos file.length) := by
  rw [← pairStarts_eq, ← startsWith_eq]
  exact find_pair upper file pos primary secondary

/-- When a pair of keywords is not found the file is left after the last line starting with the first of them, not where it was. -/
theorem C33_find_pair_violated :
    findPair id [[['A'], ['B']], [['A'], ['C']], [['D']]] ['A'] ['X'] 4 0 = (false, 2) := by
  decide

/-! ## Trailing comments -/

theorem strip_prefix (line : List Char) : ∃ nl : List Char, line = stripNewlines line ++ nl ∧ ∀ c ∈ nl, c = '\n' ∨ c = '\r' := by
  unfold stripNewlines
  refine ⟨(line.reverse.takeWhile fun c => c == '\n' || c == '\r').reverse, ?_, ?_⟩
  · rw [← List.reverse_append, List.takeWhile_append_dropWhile, List.reverse_reverse]
  · intro c hc
    rw [List.mem_reverse] at hc
    have := List.all_takeWhile (l := line.reverse) (p := fun c => c == '\n' || c == '\r')
    have := List.all_eq_true.1 this c hc
    simpa using this

/-- Apart from newlines at the end of the line, nothing is lost when a trailing comment is split off, unless the comment is a single character;
and the first part has no comment mark in it.
Full statement wanted: the same for all comments; see `C33_comment_violated`. -/
theorem C33_comment_partial (line : List Char) (c : Char) :
    ∃ nl : List Char, (∀ d ∈ nl, d = '\n' ∨ d = '\r') ∧ c ∉ (splitTrailingComment line c).1 ∧
      (line = (splitTrailingComment line c).1 ++ nl ∧ (splitTrailingComment line c).2 = [] ∨
        line = (splitTrailingComment line c).1 ++ c :: (splitTrailingComment line c).2 ++ nl ∨
        ∃ d, line = (splitTrailingComment line c).1 ++ [c, d] ++ nl) := by
  obtain ⟨nl, hnl, hc⟩ := strip_prefix line
  refine ⟨nl, hc, ?_⟩
  unfold splitTrailingComment
  dsimp only
  generalize hs : stripNewlines line = s at *
  by_cases hm : c ∈ s
  · rw [if_pos hm]
    have hidx : s.idxOf c < s.length := List.idxOf_lt_length_iff.2 hm
    have hget : s[s.idxOf c] = c := List.getElem_idxOf hidx
    have hsplit : s = s.take (s.idxOf c) ++ c :: s.drop (s.idxOf c + 1) := by
      conv_lhs => rw [← List.take_append_drop (s.idxOf c) s, List.drop_eq_getElem_cons hidx, hget]
    refine ⟨?_, ?_⟩
    · dsimp only
      rw [List.mem_take_iff_idxOf_lt hm]
      omega
    · dsimp only
      right
      by_cases hlong : s.idxOf c + 2 < s.length
      · left
        rw [if_pos hlong]
        rw [hnl]
        congr 1
      · rw [if_neg hlong]
        have hlen : (s.drop (s.idxOf c + 1)).length ≤ 1 := by rw [List.length_drop]; omega
        match hd : s.drop (s.idxOf c + 1), hlen with
        | [], _ => left; rw [hnl]; congr 1; rw [hd] at hsplit; exact hsplit
        | [d], _ => right; refine ⟨d, ?_⟩; rw [hnl]; congr 1; rw [hd] at hsplit; exact hsplit
  · rw [if_neg hm]
    exact ⟨hm, Or.inl ⟨hnl, rfl⟩⟩

/-- A comment of a single character is lost. -/
theorem C33_comment_violated : splitTrailingComment ['a', '!', 'b', '\n'] '!' = (['a'], []) := by decide

/-- the hypotheses are met -/
example : splitTrailingComment ['a', '!', 'b', 'c', '\r', '\n'] '!' = (['a'], ['b', 'c']) := by decide

example : findKeyword id [[['A']], [], [['B'], ['C']], [['B']]] 0 ['B'] none = (true, 2) ∧
    findKeyword id [[['A']], [], [['B'], ['C']], [['B']]] 0 ['B'] (some 2) = (false, 0) ∧
    specificNext id [[['!', 'A']], [], [['B'], ['C']], [['B']]] 0 ['B'] true '!' = (true, 2) ∧
    specificNext id [[['!', 'A']], [], [['B'], ['C']], [['B']]] 0 ['B'] false '!' = (true, 0) := by decide

end Verif.Keywords
