import Verif.ArrayFile.Lemmas2

/-!
# Lemmas on finding the data in a file
-/

namespace Verif.ArrayFile

open Verif.Py

theorem splitLines_single {t : List Char} (h : '\n' ∉ t) : splitLines t = if t = [] then [] else [t] := by
  induction t with
  | nil => rfl
  | cons c t ih =>
    simp only [List.mem_cons, not_or] at h
    rw [splitLines, if_neg (Ne.symm h.1), ih h.2]
    by_cases ht : t = [] <;> simp [ht]

/-- The words of a text are those of its lines. -/
theorem lines_words (t : List Char) : (splitLines t).flatMap splitWS = splitWS t := by
  induction hn : t.length using Nat.strongRecOn generalizing t with
  | _ n ih =>
    by_cases h : '\n' ∈ t
    · obtain ⟨l, r, rfl, hl⟩ := List.eq_append_cons_of_mem h
      rw [splitLines_line hl, List.flatMap_cons, ih r.length (by simp at hn; omega) r rfl, splitWS_append_ws '\n' (by decide),
        splitWS_append_ws '\n' (by decide)]
      simp [splitWS, splitWSAux]
    · rw [splitLines_single h]
      by_cases ht : t = []
      · subst ht
        rfl
      · rw [if_neg ht]
        simp

theorem guess_none (n : Nat) (ls : List (List Char)) (h : ∀ l ∈ ls, ∀ w ∈ splitWS l, w ∉ marks) : guess n ls = none := by
  induction ls generalizing n with
  | nil => cases n <;> rfl
  | cons l ls ih =>
    cases n with
    | zero => rfl
    | succ n =>
      have ih := ih n fun q hq => h q (List.mem_cons_of_mem _ hq)
      rw [guess]
      cases hw : splitWS l with
      | nil => exact ih
      | cons w ws =>
        simp only
        rw [if_neg (h l List.mem_cons_self w (by rw [hw]; exact List.mem_cons_self)), ih]

/-- The lines at the head of a file, without their newlines. -/
def headLines (w : WriteArgs) (nk nj ni : Nat) : List (List Char) :=
  if w.headers then
    ["! Data written by write_array_to_ascii_file() python function".toList,
     "! Extent of array is: [".toList ++ showNat ni ++ [',', ' '] ++ showNat nj ++ [',', ' '] ++ showNat nk ++ [']'],
     "! Maximum ".toList ++ showNat w.columns ++ " data items per line".toList]
  else []

theorem headerText_lines (w : WriteArgs) (nk nj ni : Nat) : headerText w nk nj ni = (headLines w nk nj ni).flatMap fun l => l ++ ['\n'] := by
  unfold headerText headLines
  by_cases h : w.headers = true
  · have e1 : "! Data written by write_array_to_ascii_file() python function\n".toList =
        "! Data written by write_array_to_ascii_file() python function".toList ++ ['\n'] := by decide +kernel
    have e2 : " data items per line\n".toList = " data items per line".toList ++ ['\n'] := by decide +kernel
    rw [if_pos h, if_pos h, e1, e2]
    simp
  · rw [if_neg h, if_neg h]
    rfl

theorem showNat_newline (n : Nat) : '\n' ∉ showNat n := by
  intro h
  obtain ⟨d, hd, he⟩ := showNat_digits n _ h
  have := (digit_ok hd).1
  rw [← he] at this
  exact absurd this (by decide)

theorem headLines_spec (w : WriteArgs) (nk nj ni : Nat) : ∀ l ∈ headLines w nk nj ni, '\n' ∉ l ∧ w.headers = true ∧ ∃ x, l = ['!'] ++ ' ' :: x := by
  intro l hl
  unfold headLines at hl
  by_cases h : w.headers = true
  · rw [if_pos h] at hl
    have e1 : "! Data written by write_array_to_ascii_file() python function".toList =
        ['!'] ++ ' ' :: "Data written by write_array_to_ascii_file() python function".toList := by decide +kernel
    have e2 : "! Extent of array is: [".toList = ['!'] ++ ' ' :: "Extent of array is: [".toList := by decide +kernel
    have e3 : "! Maximum ".toList = ['!'] ++ ' ' :: "Maximum ".toList := by decide +kernel
    simp only [List.mem_cons, List.not_mem_nil, or_false] at hl
    rcases hl with rfl | rfl | rfl
    · exact ⟨by decide +kernel, h, _, e1⟩
    · refine ⟨?_, h, _, by rw [e2]; simp only [List.append_assoc, List.cons_append, List.nil_append]; rfl⟩
      have e4 : '\n' ∉ "! Extent of array is: [".toList := by decide +kernel
      simp only [List.mem_append, not_or]
      exact ⟨⟨⟨⟨⟨⟨e4, showNat_newline _⟩, by decide⟩, showNat_newline _⟩, by decide⟩, showNat_newline _⟩, by decide⟩
    · refine ⟨?_, h, _, by rw [e3]; simp only [List.append_assoc, List.cons_append, List.nil_append]; rfl⟩
      have e4 : '\n' ∉ "! Maximum ".toList := by decide +kernel
      have e5 : '\n' ∉ " data items per line".toList := by decide +kernel
      simp only [List.mem_append, not_or]
      exact ⟨⟨e4, showNat_newline _⟩, e5⟩
  · rw [if_neg h] at hl
    exact absurd hl (by simp)

theorem headLines_length (w : WriteArgs) (nk nj ni : Nat) : (headLines w nk nj ni).length = if w.headers then 3 else 0 := by
  unfold headLines
  by_cases h : w.headers = true
  · rw [if_pos h, if_pos h]; rfl
  · rw [if_neg h, if_neg h]; rfl

theorem bang_words (x : List Char) : ∃ ws, splitWS (['!'] ++ ' ' :: x ++ ['\n']) = ['!'] :: ws :=
  splitWS_first (w := ['!']) (t := x ++ ['\n']) (by decide) (by decide) ' ' (by decide)

/-- Passing over the head of a file. -/
theorem skip_head (w : WriteArgs) (nk nj ni : Nat) (skipC : Bool) (rest : List (List Char)) :
    skipLines ['!'] skipC (((headLines w nk nj ni).map fun l => l ++ ['\n']) ++ rest) = skipLines ['!'] skipC rest := by
  have h := headLines_spec w nk nj ni
  unfold skipLines
  generalize headLines w nk nj ni = L at h
  induction L with
  | nil => rfl
  | cons l L ih =>
    obtain ⟨_, _, x, hx⟩ := h l List.mem_cons_self
    have hs : skipLine ['!'] skipC (l ++ ['\n']) = true := by
      obtain ⟨ws, hws⟩ := bang_words x
      unfold skipLine
      rw [hx, hws]
      simp
    rw [List.map_cons, List.cons_append, List.dropWhile_cons, if_pos hs]
    exact ih fun q hq => h q (List.mem_cons_of_mem _ hq)

/-- Passing over what precedes the first element. -/
theorem skip_data (w : WriteArgs) (nk nj ni : Nat) (text : Nat → Nat → Nat → List Char) (ht : ∀ k j i, Plain (text k j i))
    (hk : 0 < nk) (hj : 0 < nj) (hi : 0 < ni) (mark : List Char) (hm : mark = ['!'] ∨ mark = []) (skipC : Bool) (post : List Char) :
    ∃ X, dataText w nk nj ni text = '\n' :: X ∧ (skipLines mark skipC (splitLines (dataText w nk nj ni text ++ post))).flatten = X ++ post := by
  obtain ⟨c, t, hd, hc⟩ := data_begin w nk nj ni text ht hk hj hi
  refine ⟨_, hd, ?_⟩
  rw [hd, List.cons_append, splitLines, if_pos rfl, skipLines, List.dropWhile_cons, if_pos (by simp [skipLine, splitWS, splitWSAux, isWS])]
  have hp := ht 0 0 0
  have hnl : '\n' ∉ text 0 0 0 := fun h => absurd (hp.chars _ h).1 (by decide)
  rw [List.append_assoc, List.cons_append]
  obtain ⟨l, ls, hl⟩ := splitLines_first (text 0 0 0) (t ++ post) c hnl
  have hno : skipLine mark skipC (text 0 0 0 ++ c :: l) = false := by
    unfold skipLine
    rw [splitWS_word_ws _ l c (fun c hc => (hp.chars c hc).1) hp.ne hc]
    have h1 : (text 0 0 0).take 1 ≠ mark := by
      cases hh : text 0 0 0 with
      | nil => exact absurd hh hp.ne
      | cons a as =>
        have := (hp.chars a (by rw [hh]; exact List.mem_cons_self)).2
        rcases hm with rfl | rfl
        · simpa using this
        · simp
    simp [h1, hp.notC.1, hp.notC.2]
  have hf := splitLines_flatten (text 0 0 0 ++ c :: (t ++ post))
  rw [hl] at hf ⊢
  rw [List.dropWhile_cons, if_neg (by simp [hno])]
  exact hf

theorem skip_blank (mark : List Char) (skipC : Bool) (t : List Char) (h : splitWS t = []) : skipLines mark skipC (splitLines t) = [] := by
  have hw := lines_words t
  rw [h] at hw
  unfold skipLines
  have hall : ∀ l ∈ splitLines t, skipLine mark skipC l = true := by
    intro l hl
    have : splitWS l = [] := by
      rw [← List.length_eq_zero_iff]
      by_contra hne
      obtain ⟨x, hx⟩ := List.exists_mem_of_length_pos (Nat.pos_of_ne_zero hne)
      have : x ∈ (splitLines t).flatMap splitWS := List.mem_flatMap.2 ⟨l, hl, hx⟩
      rw [hw] at this
      exact absurd this (by simp)
    unfold skipLine
    rw [this]
  generalize splitLines t = L at hall
  induction L with
  | nil => rfl
  | cons l L ih =>
    rw [List.dropWhile_cons, if_pos (hall l List.mem_cons_self)]
    exact ih fun q hq => hall q (List.mem_cons_of_mem _ hq)

/-- The lines of a file with an array in it, written with a keyword or at the head of the file. -/
theorem file_lines (L : List (List Char)) (hL : ∀ l ∈ L, '\n' ∉ l) (w : WriteArgs) (nk nj ni : Nat) (text : Nat → Nat → Nat → List Char)
    (hkw : ∀ s, w.keyword = some s → '\n' ∉ s) (post : List Char) :
    splitLines ((L.flatMap fun l => l ++ ['\n']) ++ (headerText w nk nj ni ++ keywordText w ++ dataText w nk nj ni text) ++ post) =
      (L.map fun l => l ++ ['\n']) ++ (((headLines w nk nj ni).map fun l => l ++ ['\n']) ++
        ((w.keyword.toList.map fun l => l ++ ['\n']) ++ splitLines (dataText w nk nj ni text ++ post))) := by
  have e : keywordText w = w.keyword.toList.flatMap fun l => l ++ ['\n'] := by
    unfold keywordText
    cases w.keyword <;> simp
  rw [headerText_lines, e, List.append_assoc, splitLines_lines L hL, List.append_assoc, List.append_assoc,
    splitLines_lines _ (fun l hl => (headLines_spec w nk nj ni l hl).1), splitLines_lines]
  intro l hl
  rw [Option.mem_toList] at hl
  exact hkw l hl

/-- The lines after the keyword. -/
theorem after_keyword (upper : List Char → List Char) (L : List (List Char)) (w : WriteArgs) (r : ReadArgs) (nk nj ni : Nat)
    {s w0 : List Char} {ws : List (List Char)} {kw : List Char} (hs : w.keyword = some s) (hw0 : splitWS s = w0 :: ws)
    (hr : r.keyword = some kw) (hu : upper kw = upper w0) (hh : w.headers = true → upper ['!'] ≠ upper w0)
    (hL : ∀ l ∈ L, ¬ StartsWith upper kw l) (hm : ∀ m, r.maxLines = some m → L.length + (if w.headers then 3 else 0) < m)
    (rest : List (List Char)) :
    afterKeyword upper r ((L.map fun l => l ++ ['\n']) ++ (((headLines w nk nj ni).map fun l => l ++ ['\n']) ++
      ((w.keyword.toList.map fun l => l ++ ['\n']) ++ rest))) = rest := by
  have hnl : ∀ l : List Char, splitWS (l ++ ['\n']) = splitWS l := by
    intro l
    rw [splitWS_append_ws (t := []) '\n' (by decide)]
    simp [splitWS, splitWSAux]
  unfold afterKeyword
  rw [hr, hs]
  simp only [Keywords.findKeyword, List.drop_zero, Option.toList_some, List.map_cons, List.map_nil, List.singleton_append]
  rw [List.map_append, List.map_append, List.map_cons, ← List.append_assoc]
  rw [findLoop_found upper kw _ _ _ r.maxLines 0]
  · simp only
    rw [← List.append_assoc, List.drop_append]
    simp
  · intro l hl
    rcases List.mem_append.1 hl with hl | hl
    · simp only [List.mem_map] at hl
      obtain ⟨_, ⟨l', hl', rfl⟩, rfl⟩ := hl
      rw [hnl]
      have hno := hL l' hl'
      unfold Keywords.startsWith
      cases hx : splitWS l' with
      | nil => rfl
      | cons x xs =>
        simp only [beq_eq_false_iff_ne, ne_eq]
        intro hxu
        exact hno ⟨x, xs, hx, hxu⟩
    · simp only [List.mem_map] at hl
      obtain ⟨_, ⟨l', hl', rfl⟩, rfl⟩ := hl
      obtain ⟨_, h2, x, hx⟩ := headLines_spec w nk nj ni l' hl'
      obtain ⟨ws', hws⟩ := bang_words x
      rw [hx, hws]
      unfold Keywords.startsWith
      simp only [beq_eq_false_iff_ne, ne_eq]
      rw [hu]
      exact hh h2
  · rw [hnl, hw0]
    unfold Keywords.startsWith
    simp [hu]
  · intro k hk
    simp only [List.length_append, List.length_map, headLines_length]
    exact hm k hk

/-- The guess of the comment mark for a file which has been written. -/
theorem guess_written (w : WriteArgs) (nk nj ni : Nat) (text : Nat → Nat → Nat → List Char) (ht : ∀ k j i, Plain (text k j i))
    (hkw : ∀ s, w.keyword = some s → ∃ w0 ws, splitWS s = w0 :: ws ∧ w0 ∉ marks) :
    (guess 10 (((headLines w nk nj ni).map fun l => l ++ ['\n']) ++ ((w.keyword.toList.map fun l => l ++ ['\n']) ++
      splitLines (dataText w nk nj ni text)))).getD ['!'] = ['!'] := by
  by_cases h : w.headers = true
  · have hL := headLines_spec w nk nj ni
    cases hl : headLines w nk nj ni with
    | nil =>
      have := headLines_length w nk nj ni
      rw [hl, if_pos h] at this
      exact absurd this (by simp)
    | cons l L =>
      rw [hl] at hL
      obtain ⟨_, _, x, hx⟩ := hL l List.mem_cons_self
      obtain ⟨ws, hws⟩ := bang_words x
      rw [List.map_cons, List.cons_append, guess, hx, hws]
      simp [marks]
  · have hl : headLines w nk nj ni = [] := by
      rw [← List.length_eq_zero_iff, headLines_length, if_neg h]
    rw [hl, List.map_nil, List.nil_append]
    have hd : ∀ n, guess n (splitLines (dataText w nk nj ni text)) = none := by
      intro n
      apply guess_none
      intro l hl v hv
      have : v ∈ splitWS (dataText w nk nj ni text) := by
        rw [← lines_words]
        exact List.mem_flatMap.2 ⟨l, hl, hv⟩
      rw [data_words w nk nj ni text ht] at this
      unfold wordsOf at this
      simp only [List.mem_flatMap, List.mem_map] at this
      obtain ⟨k, _, j, _, i, _, rfl⟩ := this
      exact (ht k j i).notMark
    cases hk : w.keyword with
    | none => simp [hd]
    | some s =>
      obtain ⟨w0, ws, h1, h2⟩ := hkw s hk
      simp only [Option.toList_some, List.map_cons, List.map_nil, List.singleton_append, guess]
      rw [splitWS_append_ws (t := []) '\n' (by decide), h1]
      simp [h2, hd]

/-- What is left to be read of a file which has been written: a text with the words of the array. -/
theorem rest_written (upper : List Char → List Char) (w : WriteArgs) (r : ReadArgs) (nk nj ni : Nat) (text : Nat → Nat → Nat → List Char)
    (ht : ∀ k j i, Plain (text k j i)) (hkw : SameKeyword upper w r) (hmk : MarkKnown w r) :
    ∃ X mark, splitWS X = wordsOf nk nj ni text ∧ '!' ∉ X ∧ (mark = ['!'] ∨ (mark = [] ∧ r.dataFree = true)) ∧
      commentMark r (splitLines (headerText w nk nj ni ++ keywordText w ++ dataText w nk nj ni text)) = mark ∧
      (skipLines mark r.skipC (afterKeyword upper r (splitLines (headerText w nk nj ni ++ keywordText w ++ dataText w nk nj ni text)))).flatten =
        X := by
  have hfl := file_lines [] (by simp) w nk nj ni text (by
    intro s hs
    rcases hkw with ⟨h1, _⟩ | ⟨s', w0, ws, kw, h1, h2, _⟩
    · rw [h1] at hs
      exact absurd hs (by simp)
    · rw [h1] at hs
      simp only [Option.some.injEq] at hs
      rwa [← hs]) []
  simp only [List.flatMap_nil, List.nil_append, List.append_nil, List.map_nil] at hfl
  rw [hfl]
  have hmark : ∃ mark, commentMark r (((headLines w nk nj ni).map fun l => l ++ ['\n']) ++ ((w.keyword.toList.map fun l => l ++ ['\n']) ++
      splitLines (dataText w nk nj ni text))) = mark ∧ (mark = ['!'] ∨ (mark = [] ∧ r.dataFree = true ∧ w.headers = false)) := by
    unfold commentMark
    rcases hmk with h | ⟨h1, h2⟩
    · rw [h]
      exact ⟨_, rfl, Or.inl rfl⟩
    · rw [h1]
      by_cases hd : r.dataFree = true
      · simp only [hd, if_true]
        refine ⟨_, rfl, Or.inr ⟨rfl, trivial, ?_⟩⟩
        rcases h2 with h2 | h2
        · rw [h2] at hd
          exact absurd hd (by simp)
        · exact h2
      · simp only [hd, Bool.false_eq_true, if_false]
        refine ⟨_, rfl, Or.inl ?_⟩
        apply guess_written w nk nj ni text ht
        intro s hs
        rcases hkw with ⟨h1, _⟩ | ⟨s', w0, ws, kw, h1, h2, h3, h4, _⟩
        · rw [h1] at hs
          exact absurd hs (by simp)
        · rw [h1] at hs
          simp only [Option.some.injEq] at hs
          subst hs
          exact ⟨w0, ws, h3, h4⟩
  obtain ⟨mark, hm1, hm2⟩ := hmark
  have hskip : skipLines mark r.skipC (afterKeyword upper r (((headLines w nk nj ni).map fun l => l ++ ['\n']) ++
      ((w.keyword.toList.map fun l => l ++ ['\n']) ++ splitLines (dataText w nk nj ni text)))) =
      skipLines mark r.skipC (splitLines (dataText w nk nj ni text)) := by
    rcases hkw with ⟨h1, h2⟩ | ⟨s, w0, ws, kw, h1, h2, h3, h4, h5, h6, h7, h8⟩
    · unfold afterKeyword
      rw [h1, h2]
      simp only [Option.toList_none, List.map_nil, List.nil_append]
      rcases hm2 with rfl | ⟨_, _, hh⟩
      · exact skip_head w nk nj ni r.skipC _
      · have : headLines w nk nj ni = [] := by
          rw [← List.length_eq_zero_iff, headLines_length, hh]
          rfl
        rw [this]
        rfl
    · have := after_keyword upper [] w r nk nj ni h1 h3 h5 h6 h7 (by simp) (by simpa using h8) (splitLines (dataText w nk nj ni text))
      simp only [List.map_nil, List.nil_append] at this
      rw [this]
  have hm3 : mark = ['!'] ∨ (mark = [] ∧ r.dataFree = true) := by
    rcases hm2 with h | ⟨h1, h2, _⟩
    · exact Or.inl h
    · exact Or.inr ⟨h1, h2⟩
  by_cases hn : nk * nj * ni = 0
  · refine ⟨[], mark, ?_, by simp, hm3, hm1, ?_⟩
    · rw [← data_words w nk nj ni text ht, data_none w nk nj ni text ht hn]
      rfl
    · rw [hskip, skip_blank _ _ _ (data_none w nk nj ni text ht hn)]
      rfl
  · have h0 : 0 < nk ∧ 0 < nj ∧ 0 < ni := by
      refine ⟨Nat.pos_of_ne_zero ?_, Nat.pos_of_ne_zero ?_, Nat.pos_of_ne_zero ?_⟩ <;> rintro rfl <;> simp at hn
    obtain ⟨X, hX, hs⟩ := skip_data w nk nj ni text ht h0.1 h0.2.1 h0.2.2 mark (by
      rcases hm3 with h | h
      · exact Or.inl h
      · exact Or.inr h.1) r.skipC []
    rw [List.append_nil, List.append_nil] at hs
    refine ⟨X, mark, ?_, ?_, hm3, hm1, ?_⟩
    · rw [← data_words w nk nj ni text ht, hX, splitWS_ws _ _ (by decide)]
    · have := data_chars w nk nj ni text ht
      rw [hX] at this
      exact fun h => this (List.mem_cons_of_mem _ h)
    · rw [hskip, hs]

end Verif.ArrayFile
