import Verif.ArrayFile.Lemmas

/-!
# Lemmas on the text written for an array
-/

namespace Verif.ArrayFile

open Verif.Py

/-- A word which is neither a comment nor begins one. -/
structure Plain (w : List Char) : Prop where
  ne : w ≠ []
  chars : ∀ c ∈ w, isWS c = false ∧ c ≠ '!'
  notC : w ≠ ['C'] ∧ w ≠ ['c']
  notMark : w ∉ marks

theorem plain_of {w : List Char} (hc : ∀ c ∈ w, isWS c = false ∧ c ≠ '!') (h : ∃ c ∈ w, c = 'n' ∨ ∃ d, d < 10 ∧ c = digitChar d) : Plain w := by
  have key : ∀ v ∈ [['!'], ['C'], ['c'], ['#'], ['-', '-'], []], w ≠ v := by
    rintro v hv rfl
    obtain ⟨c, hcv, hd⟩ := h
    have hd' : c = 'n' ∨ c.isDigit = true := by
      rcases hd with h | ⟨d, hd, rfl⟩
      · exact Or.inl h
      · right
        have : ∀ d : Fin 10, (digitChar d.val).isDigit = true := by decide
        exact this ⟨d, hd⟩
    simp only [List.mem_cons, List.not_mem_nil, or_false] at hv
    rcases hv with rfl | rfl | rfl | rfl | rfl | rfl <;> simp at hcv <;> subst hcv <;> revert hd' <;> decide
  refine ⟨key [] (by simp), hc, ⟨key _ (by simp), key _ (by simp)⟩, ?_⟩
  intro hm
  simp only [marks, List.mem_cons, List.not_mem_nil, or_false] at hm
  rcases hm with h | h | h | h <;> exact key _ (by simp) h

theorem digit_ok {d : Nat} (h : d < 10) : isWS (digitChar d) = false ∧ digitChar d ≠ '!' ∧ digitChar d ≠ '.' ∧ digitChar d ≠ 'n' := by
  have : ∀ d : Fin 10, isWS (digitChar d.val) = false ∧ digitChar d.val ≠ '!' ∧ digitChar d.val ≠ '.' ∧ digitChar d.val ≠ 'n' := by decide
  exact this ⟨d, h⟩

/-! ### Integers and booleans -/

theorem showNat_last (n : Nat) : ∃ c ∈ showNat n, ∃ d, d < 10 ∧ c = digitChar d := by
  obtain ⟨c, hc⟩ := List.exists_mem_of_ne_nil _ (showNat_ne_nil n)
  exact ⟨c, hc, showNat_digits n c hc⟩

theorem plain_int (z : Int) : Plain (showInt z) := by
  have hn : ∀ n, ∀ c ∈ showNat n, isWS c = false ∧ c ≠ '!' := by
    intro n c hc
    obtain ⟨d, hd, rfl⟩ := showNat_digits n c hc
    exact ⟨(digit_ok hd).1, (digit_ok hd).2.1⟩
  cases z with
  | ofNat n =>
    obtain ⟨c, hc, hd⟩ := showNat_last n
    exact plain_of (hn n) ⟨c, hc, Or.inr hd⟩
  | negSucc n =>
    obtain ⟨c, hc, hd⟩ := showNat_last (n + 1)
    refine plain_of ?_ ⟨c, List.mem_cons_of_mem _ hc, Or.inr hd⟩
    intro c hc
    rcases List.mem_cons.1 hc with rfl | hc
    · decide
    · exact hn _ c hc

theorem plain_bool (b : Bool) : Plain (fmtBool b) := by
  cases b
  · exact plain_of (by decide) ⟨'0', by decide, Or.inr ⟨0, by decide⟩⟩
  · exact plain_of (by decide) ⟨'1', by decide, Or.inr ⟨1, by decide⟩⟩

theorem readBool_fmt (b : Bool) : readBool (fmtBool b) = some b := by
  cases b <;> decide

/-! ### Real numbers -/

theorem padded_length (d n : Nat) : (padded d n).length = d := by
  induction d generalizing n with
  | zero => rfl
  | succ d ih => simp [padded, ih]

theorem padded_digits (d n : Nat) : ∀ c ∈ padded d n, ∃ e, e < 10 ∧ c = digitChar e := by
  induction d generalizing n with
  | zero => simp [padded]
  | succ d ih =>
    intro c hc
    rw [padded, List.mem_append] at hc
    rcases hc with hc | hc
    · exact ih _ c hc
    · exact ⟨n % 10, by omega, by simpa using hc⟩

theorem readDigits_padded (d n acc : Nat) : readDigits acc (padded d n) = some (acc * 10 ^ d + n % 10 ^ d) := by
  induction d generalizing n acc with
  | zero => simp [padded, readDigits, Nat.mod_one]
  | succ d ih =>
    rw [padded, readDigits_append, ih, Option.bind_some]
    simp only [readDigits, digitVal?_digitChar (n % 10) (by omega)]
    congr 1
    rw [Nat.pow_succ', Nat.mod_mul]
    ring

theorem readNat_fixed (m d : Nat) : readNat? (showNat (m / 10 ^ d) ++ padded d m) = some m := by
  have h : readDigits 0 (showNat (m / 10 ^ d) ++ padded d m) = some m := by
    rw [readDigits_append, readDigits_showNat, Option.bind_some, readDigits_padded]
    congr 1
    exact Nat.div_add_mod' m (10 ^ d)
  cases hs : showNat (m / 10 ^ d) ++ padded d m with
  | nil =>
    exact absurd (List.append_eq_nil_iff.1 hs).1 (showNat_ne_nil _)
  | cons c cs =>
    rw [hs] at h
    exact h

theorem takeWhile_digits {s t : List Char} (hs : ∀ c ∈ s, c ≠ '.') :
    (s ++ '.' :: t).takeWhile (· ≠ '.') = s ∧ (s ++ '.' :: t).dropWhile (· ≠ '.') = '.' :: t := by
  induction s with
  | nil => simp
  | cons c s ih =>
    have hc := hs c List.mem_cons_self
    obtain ⟨h1, h2⟩ := ih fun q hq => hs q (List.mem_cons_of_mem _ hq)
    rw [List.cons_append]
    constructor
    · rw [List.takeWhile_cons, if_pos (by simpa using hc), h1]
    · rw [List.dropWhile_cons, if_pos (by simpa using hc), h2]

theorem whileAll {s : List Char} (hs : ∀ c ∈ s, c ≠ '.') : s.takeWhile (· ≠ '.') = s ∧ s.dropWhile (· ≠ '.') = [] := by
  induction s with
  | nil => simp
  | cons c s ih =>
    have hc := hs c List.mem_cons_self
    obtain ⟨h1, h2⟩ := ih fun q hq => hs q (List.mem_cons_of_mem _ hq)
    constructor
    · rw [List.takeWhile_cons, if_pos (by simpa using hc), h1]
    · rw [List.dropWhile_cons, if_pos (by simpa using hc), h2]

theorem readUnsigned_fixed (m d : Nat) :
    readUnsigned (showNat (m / 10 ^ d) ++ (if d = 0 then [] else '.' :: padded d m)) = some ((m : ℚ) / 10 ^ d) := by
  have hdig : ∀ c ∈ showNat (m / 10 ^ d), c ≠ '.' := by
    intro c hc
    obtain ⟨e, he, rfl⟩ := showNat_digits _ c hc
    exact (digit_ok he).2.2.1
  by_cases hd : d = 0
  · subst hd
    simp only [if_true, List.append_nil, pow_zero, Nat.div_one, div_one]
    rw [pow_zero, Nat.div_one] at hdig
    unfold readUnsigned
    simp only
    have h1 : (showNat m).dropWhile (· ≠ '.') = [] := by
      exact (whileAll hdig).2
    have h2 : (showNat m).takeWhile (· ≠ '.') = showNat m := by
      exact (whileAll hdig).1
    rw [h1, h2, readNat?_showNat]
    rfl
  · rw [if_neg hd]
    obtain ⟨h1, h2⟩ := takeWhile_digits (t := padded d m) hdig
    unfold readUnsigned
    simp only
    rw [h1, h2]
    simp only
    rw [readNat_fixed, padded_length]
    rfl

theorem roundEven_near {x : ℚ} (hx : 0 ≤ x) : 2 * |(roundEven x : ℚ) - x| ≤ 1 := by
  have hf : ((⌊x⌋.toNat : Nat) : ℚ) = ((⌊x⌋ : Int) : ℚ) := by
    have h0 : 0 ≤ ⌊x⌋ := by
        exact Int.floor_nonneg.2 hx
    have : ((⌊x⌋.toNat : Nat) : Int) = ⌊x⌋ := Int.toNat_of_nonneg h0
    exact_mod_cast this
  have h1 : ((⌊x⌋ : Int) : ℚ) ≤ x := by
    exact Int.floor_le x
  have h2 : x < ((⌊x⌋ : Int) : ℚ) + 1 := by
    exact Int.lt_floor_add_one x
  unfold roundEven
  simp only
  rw [← hf] at h1 h2
  generalize ⌊x⌋.toNat = f at h1 h2
  split_ifs with ha hb hc
  · rw [abs_of_nonpos (by linarith)]
    linarith
  · push_cast
    rw [abs_of_nonneg (by linarith)]
    linarith
  · rw [abs_of_nonpos (by linarith)]
    linarith
  · push_cast
    rw [abs_of_nonneg (by linarith)]
    linarith

theorem fmtReal_chars (d : Nat) (v : Option ℚ) : Plain (fmtReal d v) := by
  cases v with
  | none => exact plain_of (w := ['n', 'a', 'n']) (by decide) ⟨'n', by decide, Or.inl rfl⟩
  | some q =>
    unfold fmtReal
    simp only
    generalize roundEven (|q| * 10 ^ d) = m
    have hd : ∀ c, (∃ e, e < 10 ∧ c = digitChar e) → isWS c = false ∧ c ≠ '!' := by
      rintro c ⟨e, he, rfl⟩
      exact ⟨(digit_ok he).1, (digit_ok he).2.1⟩
    obtain ⟨c, hc, hcd⟩ := showNat_last (m / 10 ^ d)
    refine plain_of ?_ ⟨c, by simp [hc], Or.inr hcd⟩
    intro c hc
    rw [List.mem_append, List.mem_append] at hc
    rcases hc with (hc | hc) | hc
    · by_cases hq : q < 0
      · rw [if_pos hq, List.mem_singleton] at hc
        subst hc
        decide
      · rw [if_neg hq] at hc
        exact absurd hc (by simp)
    · exact hd c (showNat_digits _ c hc)
    · by_cases h0 : d = 0
      · rw [if_pos h0] at hc
        exact absurd hc (by simp)
      · rw [if_neg h0] at hc
        rcases List.mem_cons.1 hc with rfl | hc
        · decide
        · exact hd c (padded_digits _ _ c hc)

/-- A number which is written and read is rounded. -/
theorem readReal_fmt (d : Nat) (q : ℚ) : ∃ r, readReal (fmtReal d (some q)) = some (some r) ∧ Rounded d q r := by
  have hx : 0 ≤ |q| * 10 ^ d := by positivity
  have hn := roundEven_near hx
  have hp : (0 : ℚ) < 10 ^ d := by positivity
  have hread := readUnsigned_fixed (roundEven (|q| * 10 ^ d)) d
  unfold fmtReal
  simp only
  revert hn hread
  generalize roundEven (|q| * 10 ^ d) = m
  intro hn hread
  have hdiff : 2 * |(m : ℚ) / 10 ^ d - abs q| ≤ 1 / 10 ^ d := by
    have e : (m : ℚ) / 10 ^ d - |q| = ((m : ℚ) - |q| * 10 ^ d) / 10 ^ d := by field_simp
    rw [e, abs_div, abs_of_pos hp, ← mul_div_assoc]
    exact div_le_div_of_nonneg_right hn (le_of_lt hp)
  obtain ⟨c, cs, hcs, hdig⟩ : ∃ c cs, showNat (m / 10 ^ d) ++ (if d = 0 then [] else '.' :: padded d m) = c :: cs ∧ ∃ e, e < 10 ∧ c = digitChar e := by
    cases hs : showNat (m / 10 ^ d) with
    | nil => exact absurd hs (showNat_ne_nil _)
    | cons c cs =>
      exact ⟨c, _, rfl, showNat_digits (m / 10 ^ d) c (by rw [hs]; exact List.mem_cons_self)⟩
  rw [hcs] at hread
  rw [List.append_assoc, hcs]
  obtain ⟨e, he, rfl⟩ := hdig
  by_cases hq : q < 0
  · rw [if_pos hq, List.singleton_append]
    refine ⟨-((m : ℚ) / 10 ^ d), ?_, ⟨-(m : Int), by push_cast; ring⟩, ?_⟩
    · unfold readReal
      rw [if_neg (by simp)]
      simp [hread]
    · rw [abs_of_neg hq] at hdiff
      rw [show -((m : ℚ) / 10 ^ d) - q = -((m : ℚ) / 10 ^ d - -q) by ring, abs_neg]
      exact hdiff
  · rw [if_neg hq, List.nil_append]
    refine ⟨(m : ℚ) / 10 ^ d, ?_, ⟨(m : Int), by push_cast; rfl⟩, ?_⟩
    · unfold readReal
      have h3 := digitChar_ne_sign e he
      rw [if_neg (by
        intro h
        rw [List.cons.injEq] at h
        exact (digit_ok he).2.2.2 h.1)]
      split
      · rename_i h
        rw [List.cons.injEq] at h
        exact absurd h.1 h3.1
      · rename_i h
        rw [List.cons.injEq] at h
        exact absurd h.1 h3.2
      · rw [hread]
        rfl
    · rw [abs_of_nonneg (not_lt.1 hq)] at hdiff
      exact hdiff

/-- A number with no more decimals is kept. -/
theorem rounded_exact {d : Nat} {q r : ℚ} (h : Rounded d q r) {y : Int} (hq : q = y / 10 ^ d) : r = q := by
  obtain ⟨⟨z, rfl⟩, h2⟩ := h
  subst hq
  have hp : (0 : ℚ) < 10 ^ d := by positivity
  rw [← sub_div, abs_div, abs_of_pos hp, ← mul_div_assoc, div_le_div_iff_of_pos_right hp] at h2
  have h3 : 2 * |z - y| ≤ 1 := by exact_mod_cast h2
  have h4 : z = y := by
    rw [← sub_eq_zero, ← abs_eq_zero]
    have := abs_nonneg (z - y)
    omega
  rw [h4]

/-! ### The text of an array -/

/-- White space and words, in turns, of the text of an array. -/
def pieces (w : WriteArgs) (nk nj ni : Nat) (text : Nat → Nat → Nat → List Char) : List (Char × List Char) :=
  ((List.range nk).flatMap fun k => ((List.range nj).flatMap fun j =>
    ((List.range ni).map fun i => (before w i, text k j i)) ++ (if w.blankI then [('\n', [])] else [])) ++
    (if w.blankJ then [('\n', [])] else [])) ++
  (if !(w.blankI || w.blankJ) then [('\n', [])] else [])

theorem dataText_pieces (w : WriteArgs) (nk nj ni : Nat) (text : Nat → Nat → Nat → List Char) :
    dataText w nk nj ni text = (pieces w nk nj ni text).flatMap fun p => p.1 :: p.2 := by
  have hb : ∀ b : Bool, (if b then ['\n'] else []) = (if b then [('\n', ([] : List Char))] else []).flatMap fun p => p.1 :: p.2 := by
    intro b
    cases b <;> rfl
  unfold dataText pieces rowText
  simp only [List.flatMap_append, List.flatMap_assoc, List.flatMap_map, hb]

theorem before_ws (w : WriteArgs) (i : Nat) : isWS (before w i) = true := by
  unfold before
  split_ifs <;> decide

/-- The elements of an array, in order. -/
def wordsOf {V : Type} (nk nj ni : Nat) (text : Nat → Nat → Nat → V) : List V :=
  (List.range nk).flatMap fun k => (List.range nj).flatMap fun j => (List.range ni).map fun i => text k j i

theorem filter_words (L : List Nat) (f : Nat → List (Char × List Char)) :
    ((L.flatMap f).map Prod.snd).filter (· ≠ []) = L.flatMap fun x => ((f x).map Prod.snd).filter (· ≠ []) := by
  rw [List.map_flatMap, List.filter_flatMap]

theorem pieces_ok (w : WriteArgs) (nk nj ni : Nat) (text : Nat → Nat → Nat → List Char) (ht : ∀ k j i, Plain (text k j i)) :
    ∀ p ∈ pieces w nk nj ni text, isWS p.1 = true ∧ ∀ c ∈ p.2, isWS c = false ∧ c ≠ '!' := by
  have hn : isWS '\n' = true := by decide
  intro p hp
  unfold pieces at hp
  simp only [List.mem_append, List.mem_flatMap, List.mem_map, List.mem_range] at hp
  have hb : ∀ b : Bool, (p ∈ if b then [('\n', ([] : List Char))] else []) → isWS p.1 = true ∧ ∀ c ∈ p.2, isWS c = false ∧ c ≠ '!' := by
    intro b h
    cases b
    · exact absurd h (by simp)
    · simp only [if_true, List.mem_singleton] at h
      subst h
      exact ⟨hn, by simp⟩
  rcases hp with ⟨k, _, ⟨j, _, ⟨i, _, rfl⟩ | h⟩ | h⟩ | h
  · exact ⟨before_ws w i, fun c hc => (ht k j i).chars c hc⟩
  · exact hb _ h
  · exact hb _ h
  · exact hb _ h

theorem data_words (w : WriteArgs) (nk nj ni : Nat) (text : Nat → Nat → Nat → List Char) (ht : ∀ k j i, Plain (text k j i)) :
    splitWS (dataText w nk nj ni text) = wordsOf nk nj ni text := by
  have hb : ∀ b : Bool, ((if b then [('\n', ([] : List Char))] else []).map Prod.snd).filter (· ≠ []) = [] := by
    intro b
    cases b <;> rfl
  rw [dataText_pieces, splitWS_pieces _ (fun p hp => ⟨(pieces_ok w nk nj ni text ht p hp).1, fun c hc => ((pieces_ok w nk nj ni text ht p hp).2 c hc).1⟩)]
  unfold pieces wordsOf
  rw [List.map_append, List.filter_append, hb, List.append_nil, filter_words]
  apply Surface.flatMap_congr'
  intro k _
  rw [List.map_append, List.filter_append, hb, List.append_nil, filter_words]
  apply Surface.flatMap_congr'
  intro j _
  rw [List.map_append, List.filter_append, hb, List.append_nil, List.map_map, List.filter_eq_self.2]
  · rfl
  · intro x hx
    obtain ⟨i, _, rfl⟩ := List.mem_map.1 hx
    simpa using (ht k j i).ne

theorem data_chars (w : WriteArgs) (nk nj ni : Nat) (text : Nat → Nat → Nat → List Char) (ht : ∀ k j i, Plain (text k j i)) :
    '!' ∉ dataText w nk nj ni text := by
  rw [dataText_pieces, List.mem_flatMap]
  rintro ⟨p, hp, hc⟩
  obtain ⟨h1, h2⟩ := pieces_ok w nk nj ni text ht p hp
  rcases List.mem_cons.1 hc with h | h
  · rw [← h] at h1
    exact absurd h1 (by decide)
  · exact (h2 _ h).2 rfl

theorem wordsOf_holds {V : Type} (nk nj ni : Nat) (text : Nat → Nat → Nat → V) : Holds (wordsOf nk nj ni text) nk nj ni text := by
  obtain ⟨h1, h2⟩ := Surface.getElem_nested nk nj ni (fun k j => (List.range ni).map fun i => text k j i) (by simp)
  refine ⟨h1, ?_⟩
  intro k j i hk hj hi
  unfold wordsOf
  rw [h2 k j i hk hj hi]
  simp [hi]

/-- The text of an array ends with a newline. -/
theorem data_end (w : WriteArgs) (nk nj ni : Nat) (text : Nat → Nat → Nat → List Char) (hk : 0 < nk) (hj : 0 < nj) :
    ∃ s, dataText w nk nj ni text = s ++ ['\n'] := by
  obtain ⟨nk, rfl⟩ : ∃ m, nk = m + 1 := ⟨nk - 1, by omega⟩
  obtain ⟨nj, rfl⟩ : ∃ m, nj = m + 1 := ⟨nj - 1, by omega⟩
  unfold dataText
  by_cases hI : w.blankI = true
  · by_cases hJ : w.blankJ = true
    · simp only [hI, hJ, Bool.or_self, Bool.not_true, Bool.false_eq_true, if_false, if_true, List.append_nil, List.range_succ,
        List.flatMap_append, List.flatMap_singleton]
      exact ⟨_, by rw [← List.append_assoc]⟩
    · simp only [Bool.not_eq_true] at hJ
      simp only [hI, hJ, Bool.or_false, Bool.not_true, Bool.false_eq_true, if_false, List.append_nil, List.range_succ,
        List.flatMap_append, List.flatMap_singleton, rowText, if_true]
      exact ⟨_, by rw [← List.append_assoc, ← List.append_assoc]⟩
  · simp only [Bool.not_eq_true] at hI
    by_cases hJ : w.blankJ = true
    · simp only [hI, hJ, Bool.or_true, Bool.not_true, Bool.false_eq_true, if_false, if_true, List.append_nil, List.range_succ,
        List.flatMap_append, List.flatMap_singleton]
      exact ⟨_, by rw [← List.append_assoc]⟩
    · simp only [Bool.not_eq_true] at hJ
      simp only [hI, hJ, Bool.or_false, Bool.not_false, if_true]
      exact ⟨_, rfl⟩

/-- The text of an array which is not empty begins with a newline, the first element and white space. -/
theorem data_begin (w : WriteArgs) (nk nj ni : Nat) (text : Nat → Nat → Nat → List Char) (ht : ∀ k j i, Plain (text k j i))
    (hk : 0 < nk) (hj : 0 < nj) (hi : 0 < ni) :
    ∃ c t, dataText w nk nj ni text = '\n' :: (text 0 0 0 ++ c :: t) ∧ isWS c = true := by
  obtain ⟨s, hs⟩ := data_end w nk nj ni text hk hj
  have hp : ∃ R, pieces w nk nj ni text = ('\n', text 0 0 0) :: R := by
    obtain ⟨nk, rfl⟩ : ∃ m, nk = m + 1 := ⟨nk - 1, by omega⟩
    obtain ⟨nj, rfl⟩ : ∃ m, nj = m + 1 := ⟨nj - 1, by omega⟩
    obtain ⟨ni, rfl⟩ : ∃ m, ni = m + 1 := ⟨ni - 1, by omega⟩
    unfold pieces
    simp only [List.range_succ_eq_map, List.flatMap_cons, List.map_cons, List.cons_append]
    exact ⟨_, by simp [before]; rfl⟩
  obtain ⟨R, hR⟩ := hp
  have hok := pieces_ok w nk nj ni text ht
  rw [dataText_pieces, hR, List.flatMap_cons] at hs
  rw [dataText_pieces, hR, List.flatMap_cons]
  cases R with
  | nil =>
    exfalso
    simp only [List.flatMap_nil, List.append_nil] at hs
    have hl : (text 0 0 0).getLast? = some '\n' := by
      have h := congrArg List.getLast? hs
      rw [List.getLast?_concat, List.getLast?_cons] at h
      cases hg : (text 0 0 0).getLast? with
      | none => exact absurd (List.getLast?_eq_none_iff.1 hg) (ht 0 0 0).ne
      | some x =>
        rw [hg] at h
        simpa using h
    have := ((ht 0 0 0).chars '\n' (List.mem_of_getLast? hl)).1
    exact absurd this (by decide)
  | cons p R =>
    rw [hR] at hok
    exact ⟨p.1, _, rfl, (hok p (by simp)).1⟩

/-- Without elements there are only newlines. -/
theorem data_none (w : WriteArgs) (nk nj ni : Nat) (text : Nat → Nat → Nat → List Char) (ht : ∀ k j i, Plain (text k j i))
    (h : nk * nj * ni = 0) : splitWS (dataText w nk nj ni text) = [] := by
  rw [data_words w nk nj ni text ht, ← List.length_eq_zero_iff, (wordsOf_holds nk nj ni text).1, h]

end Verif.ArrayFile
