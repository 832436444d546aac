import Verif.ArrayFile.Lemmas3

/-!
# C158, C159: arrays written to and read from text files
-/

namespace Verif.ArrayFile

open Verif.Py

/-! ### Reading the words of an array -/

theorem mapM_append_some {α β : Type} {f : α → Option β} {l l' : List α} {a b : List β} (h1 : l.mapM f = some a) (h2 : l'.mapM f = some b) :
    (l ++ l').mapM f = some (a ++ b) := by
  simp [List.mapM_append, h1, h2]

theorem mapM_flatMap_some {ι α β : Type} {f : α → Option β} (L : List ι) {g : ι → List α} {h : ι → List β}
    (hg : ∀ x, (g x).mapM f = some (h x)) : (L.flatMap g).mapM f = some (L.flatMap h) := by
  induction L with
  | nil => rfl
  | cons x L ih => exact mapM_append_some (hg x) ih

theorem mapM_words {V : Type} {parse : List Char → Option V} {text : Nat → Nat → Nat → List Char} {a : Nat → Nat → Nat → V}
    (hp : ∀ k j i, parse (text k j i) = some (a k j i)) (nk nj ni : Nat) :
    (wordsOf nk nj ni text).mapM parse = some (wordsOf nk nj ni a) := by
  apply mapM_flatMap_some
  intro k
  apply mapM_flatMap_some
  intro j
  induction (List.range ni) with
  | nil => rfl
  | cons i L ih => simp [hp, ih]

theorem mapM_take {α β : Type} {f : α → Option β} {l : List α} {a : List β} (h : l.mapM f = some a) (n : Nat) :
    (l.take n).mapM f = some (a.take n) := by
  induction l generalizing a n with
  | nil =>
    simp at h
    subst h
    simp
  | cons x l ih =>
    simp only [List.mapM_cons, Option.bind_eq_bind, Option.bind_eq_some_iff, Option.pure_def, Option.some.injEq] at h
    obtain ⟨y, hy, ys, hys, rfl⟩ := h
    cases n with
    | zero => simp
    | succ n => simp [hy, ih hys n]

theorem dropWhile_all {α : Type} {p : α → Bool} {l : List α} (h : l.dropWhile p = []) : ∀ x ∈ l, p x = true := by
  induction l with
  | nil => simp
  | cons y l ih =>
    rw [List.dropWhile_cons] at h
    by_cases hy : p y = true
    · rw [if_pos hy] at h
      intro x hx
      rcases List.mem_cons.1 hx with rfl | hx
      · exact hy
      · exact ih h x hx
    · rw [if_neg hy] at h
      exact absurd h (by simp)

/-- The array which is read from a file written with the same keyword. -/
theorem load_written {V : Type} (upper : List Char → List Char) {parse : List Char → Option V} {text : Nat → Nat → Nat → List Char}
    {a : Nat → Nat → Nat → V} (ht : ∀ k j i, Plain (text k j i)) (hp : ∀ k j i, parse (text k j i) = some (a k j i)) (w : WriteArgs)
    (r : ReadArgs) (nk nj ni : Nat) {file : List Char} (hw : writeText w nk nj ni text = .ok file) (hkw : SameKeyword upper w r)
    (hmk : MarkKnown w r) :
    (r.count = none ∨ r.count = some (nk * nj * ni) → loadAscii upper parse r file = .ok (wordsOf nk nj ni a)) ∧
    (∀ m, r.count = some m → nk * nj * ni < m → ∃ e, loadAscii upper parse r file = .error e) ∧
    (∀ m, r.count = some m → m < nk * nj * ni → loadAscii upper parse r file =
      if r.dataFree then .error .assertion else .ok ((wordsOf nk nj ni a).take m)) := by
  have hf : file = headerText w nk nj ni ++ keywordText w ++ dataText w nk nj ni text := by
    unfold writeText at hw
    split at hw
    · exact absurd hw (by simp)
    · simp only [Except.ok.injEq] at hw
      exact hw.symm
  obtain ⟨X, mark, h1, h2, h3, h4, h5⟩ := rest_written upper w r nk nj ni text ht hkw hmk
  have hlen : (wordsOf nk nj ni text).length = nk * nj * ni := (wordsOf_holds nk nj ni text).1
  have hlena : (wordsOf nk nj ni a).length = nk * nj * ni := (wordsOf_holds nk nj ni a).1
  have hmap := mapM_words hp nk nj ni
  have hall : ∀ m, r.count = none ∨ r.count = some (nk * nj * ni) ∨ (r.count = some m ∧ m < nk * nj * ni) →
      numbers parse r.count (wordsOf nk nj ni text) =
        .ok ((wordsOf nk nj ni a).take (if r.count = some m then m else nk * nj * ni)) := by
    intro m hc
    have htake : (wordsOf nk nj ni a).take (nk * nj * ni) = wordsOf nk nj ni a := List.take_of_length_le (by omega)
    rcases hc with hc | hc | ⟨hc, hm⟩
    · rw [hc]
      simp [numbers, hmap, htake]
    · rw [hc]
      unfold numbers
      simp only
      rw [if_neg (by omega), mapM_take hmap]
      by_cases he : some (nk * nj * ni) = some m
      · rw [if_pos he]
        simp only [Option.some.injEq] at he
        rw [he]
      · rw [if_neg he]
    · rw [hc]
      unfold numbers
      simp only
      rw [if_neg (by omega), mapM_take hmap]
      simp
  have hload : loadAscii upper parse r file =
      if r.dataFree then
        (match numbers parse r.count (wordsOf nk nj ni text) with
        | .error e => .error e
        | .ok vs => if skipLines mark r.skipC (splitLines (afterWords false vs.length X)) = [] then .ok vs else .error .assertion)
      else numbers parse r.count (wordsOf nk nj ni text) := by
    unfold loadAscii
    simp only
    rw [hf, h4, h5]
    by_cases hd : r.dataFree = true
    · rw [if_pos hd, if_pos hd, h1]
      all_goals (cases numbers parse r.count (wordsOf nk nj ni text) <;> rfl)
    · rw [if_neg hd, if_neg hd]
      have hm : mark = ['!'] := by
        rcases h3 with h | ⟨_, h⟩
        · exact h
        · exact absurd h hd
      have := strip_append X [] h2
      rw [List.append_nil] at this
      rw [hm, this]
      simp only [stripComments, List.append_nil]
      rw [h1]
  refine ⟨?_, ?_, ?_⟩
  · intro hc
    have hn := hall (nk * nj * ni) (by rcases hc with h | h <;> simp [h])
    rw [ite_self, List.take_of_length_le (by omega)] at hn
    rw [hload, hn]
    by_cases hd : r.dataFree = true
    · rw [if_pos hd]
      simp only
      rw [hlena, (afterWords_spec X).1 _ (by rw [h1, hlen])]
      simp [splitLines, skipLines]
    · rw [if_neg hd]
  · intro m hc hm
    have : numbers parse r.count (wordsOf nk nj ni text) = .error .value := by
      rw [hc]
      unfold numbers
      simp only
      rw [if_pos (by omega)]
    rw [hload, this]
    by_cases hd : r.dataFree = true
    · exact ⟨_, by rw [if_pos hd]⟩
    · exact ⟨_, by rw [if_neg hd]⟩
  · intro m hc hm
    have hn := hall m (Or.inr (Or.inr ⟨hc, hm⟩))
    rw [if_pos hc] at hn
    rw [hload, hn]
    by_cases hd : r.dataFree = true
    · rw [if_pos hd, if_pos hd]
      simp only
      rw [if_neg]
      rw [List.length_take, Nat.min_eq_left (by omega)]
      intro hskip
      obtain ⟨q1, _⟩ := (afterWords_spec X).2.2.1 m (by rw [h1, hlen]; exact hm)
      have hall2 : ∀ l ∈ splitLines (afterWords false m X), splitWS l = [] := by
        intro l hl
        have hs : skipLine mark r.skipC l = true := by
          unfold skipLines at hskip
          exact dropWhile_all hskip l hl
        unfold skipLine at hs
        cases hx : splitWS l with
        | nil => rfl
        | cons v vs =>
          exfalso
          rw [hx] at hs
          simp only at hs
          have hv : v ∈ wordsOf nk nj ni text := by
            have : v ∈ splitWS (afterWords false m X) := by
              rw [← lines_words]
              exact List.mem_flatMap.2 ⟨l, hl, by rw [hx]; exact List.mem_cons_self⟩
            rw [q1, h1] at this
            exact List.mem_of_mem_drop this
          have hplain : Plain v := by
            unfold wordsOf at hv
            simp only [List.mem_flatMap, List.mem_map] at hv
            obtain ⟨k, _, j, _, i, _, rfl⟩ := hv
            exact ht k j i
          have hno : v.take 1 ≠ mark := by
            cases v with
            | nil => exact absurd rfl hplain.ne
            | cons c cs =>
              have := (hplain.chars c List.mem_cons_self).2
              rcases h3 with rfl | ⟨rfl, _⟩
              · simpa using this
              · simp
          simp [hno, hplain.notC.1, hplain.notC.2] at hs
      have hnil : splitWS (afterWords false m X) = [] := by
        rw [← lines_words, List.flatMap_eq_nil_iff]
        exact hall2
      rw [q1, h1] at hnil
      have := congrArg List.length hnil
      rw [List.length_drop, hlen, List.length_nil] at this
      omega
    · rw [if_neg hd, if_neg hd]

/-! ### Round trips -/

/-- C158: integers written to a file are read again: whatever the number of columns, the separators, blank lines, comment lines at the
head of the file and keyword. -/
theorem C158_ints (upper : List Char → List Char) (a : Nat → Nat → Nat → Int) (w : WriteArgs) (r : ReadArgs) (nk nj ni : Nat) {file : List Char}
    (hw : writeText w nk nj ni (fun k j i => showInt (a k j i)) = .ok file) (hkw : SameKeyword upper w r) (hmk : MarkKnown w r)
    (hc : r.count = none ∨ r.count = some (nk * nj * ni)) :
    ∃ vs, loadAscii upper readInt? r file = .ok vs ∧ Holds vs nk nj ni a :=
  ⟨_, (load_written upper (fun _ _ _ => plain_int _) (fun _ _ _ => readInt?_showInt _) w r nk nj ni hw hkw hmk).1 hc, wordsOf_holds _ _ _ _⟩

/-- C158: booleans written to a file are read again. -/
theorem C158_bools (upper : List Char → List Char) (a : Nat → Nat → Nat → Bool) (w : WriteArgs) (r : ReadArgs) (nk nj ni : Nat)
    {file : List Char} (hw : writeText w nk nj ni (fun k j i => fmtBool (a k j i)) = .ok file) (hkw : SameKeyword upper w r)
    (hmk : MarkKnown w r) (hc : r.count = none ∨ r.count = some (nk * nj * ni)) :
    ∃ vs, loadAscii upper readBool r file = .ok vs ∧ Holds vs nk nj ni a :=
  ⟨_, (load_written upper (fun _ _ _ => plain_bool _) (fun _ _ _ => readBool_fmt _) w r nk nj ni hw hkw hmk).1 hc, wordsOf_holds _ _ _ _⟩

/-- C158: real numbers written to a file are read as rounded to the decimals asked for; missing ones as the value put in their place, or
missing if there is none. -/
theorem C158_reals (upper : List Char → List Char) (a : Nat → Nat → Nat → Option ℚ) (decimals : Nat) (sub : Option ℚ) (w : WriteArgs)
    (r : ReadArgs) (nk nj ni : Nat) {file : List Char}
    (hw : writeText w nk nj ni (fun k j i => fmtRealSub decimals sub (a k j i)) = .ok file) (hkw : SameKeyword upper w r)
    (hmk : MarkKnown w r) (hc : r.count = none ∨ r.count = some (nk * nj * ni)) :
    ∃ vs b, loadAscii upper readReal r file = .ok vs ∧ Holds vs nk nj ni b ∧ ∀ k j i,
      (∀ q, a k j i = some q → ∃ x, b k j i = some x ∧ Rounded decimals q x) ∧
      (∀ q, a k j i = none → sub = some q → ∃ x, b k j i = some x ∧ Rounded decimals q x) ∧
      (a k j i = none → sub = none → b k j i = none) := by
  have hex : ∀ k j i, ∃ x, readReal (fmtRealSub decimals sub (a k j i)) = some x ∧
      (∀ q, (a k j i).or sub = some q → ∃ y, x = some y ∧ Rounded decimals q y) ∧ ((a k j i).or sub = none → x = none) := by
    intro k j i
    unfold fmtRealSub
    cases (a k j i).or sub with
    | none => exact ⟨none, by simp [fmtReal, readReal], by simp, by simp⟩
    | some q =>
      obtain ⟨y, h1, h2⟩ := readReal_fmt decimals q
      refine ⟨some y, h1, ?_, by simp⟩
      intro q' hq'
      simp only [Option.some.injEq] at hq'
      subst hq'
      exact ⟨y, rfl, h2⟩
  choose b hb1 hb2 hb3 using hex
  refine ⟨_, b, (load_written upper (fun _ _ _ => fmtReal_chars _ _) hb1 w r nk nj ni hw hkw hmk).1 hc, wordsOf_holds _ _ _ _, ?_⟩
  intro k j i
  refine ⟨?_, ?_, ?_⟩
  · intro q hq
    exact hb2 k j i q (by simp [hq])
  · intro q hq hs
    exact hb2 k j i q (by simp [hq, hs])
  · intro hq hs
    exact hb3 k j i (by simp [hq, hs])

/-- C158: numbers with no more than the decimals asked for are read as they were. -/
theorem C158_reals_exact {decimals : Nat} {q r : ℚ} (h : Rounded decimals q r) {y : Int} (hq : q = y / 10 ^ decimals) : r = q :=
  rounded_exact h hq

/-- C158: an array is read by its keyword from among others in one file (written with `append`), if no line before it begins with the
keyword; whatever comes after it. -/
theorem C158_among (upper : List Char → List Char) (L : List (List Char)) (hL : ∀ l ∈ L, '\n' ∉ l) (post : List Char)
    (a : Nat → Nat → Nat → Int) (w : WriteArgs) (r : ReadArgs) (nk nj ni : Nat) {text : List Char}
    (hw : writeText w nk nj ni (fun k j i => showInt (a k j i)) = .ok text)
    {s w0 kw : List Char} {ws : List (List Char)} (hs : w.keyword = some s) (hsn : '\n' ∉ s) (hw0 : splitWS s = w0 :: ws)
    (hr : r.keyword = some kw) (hu : upper kw = upper w0) (hh : w.headers = true → upper ['!'] ≠ upper w0)
    (hno : ∀ l ∈ L, ¬ StartsWith upper kw l) (hm : ∀ m, r.maxLines = some m → L.length + (if w.headers then 3 else 0) < m)
    (hmark : r.comment = some ['!']) (hd : r.dataFree = false) (hc : r.count = some (nk * nj * ni)) :
    ∃ vs, loadAscii upper readInt? r ((L.flatMap fun l => l ++ ['\n']) ++ text ++ post) = .ok vs ∧ Holds vs nk nj ni a := by
  have hf : text = headerText w nk nj ni ++ keywordText w ++ dataText w nk nj ni (fun k j i => showInt (a k j i)) := by
    unfold writeText at hw
    split at hw
    · exact absurd hw (by simp)
    · simp only [Except.ok.injEq] at hw
      exact hw.symm
  have ht : ∀ k j i, Plain (showInt (a k j i)) := fun _ _ _ => plain_int _
  have hmap := mapM_words (fun k j i => readInt?_showInt (a k j i)) nk nj ni
  have hlen : (wordsOf nk nj ni fun k j i => showInt (a k j i)).length = nk * nj * ni := (wordsOf_holds nk nj ni _).1
  have hlena : (wordsOf nk nj ni a).length = nk * nj * ni := (wordsOf_holds nk nj ni _).1
  refine ⟨wordsOf nk nj ni a, ?_, wordsOf_holds _ _ _ _⟩
  unfold loadAscii
  simp only
  rw [hf, file_lines L hL w nk nj ni _ (by
    intro s' hs'
    rw [hs] at hs'
    simp only [Option.some.injEq] at hs'
    rwa [← hs']) post, after_keyword upper L w r nk nj ni hs hw0 hr hu hh hno hm]
  have hcm : ∀ ls, commentMark r ls = ['!'] := by
    intro ls
    unfold commentMark
    rw [hmark]
  rw [hcm, if_neg (by simp [hd]), hc]
  by_cases hn : nk * nj * ni = 0
  · rw [hn]
    have hnil : wordsOf nk nj ni a = [] := by
      rw [← List.length_eq_zero_iff, hlena, hn]
    rw [hnil]
    unfold numbers
    simp
  · have h0 : 0 < nk ∧ 0 < nj ∧ 0 < ni := by
      refine ⟨Nat.pos_of_ne_zero ?_, Nat.pos_of_ne_zero ?_, Nat.pos_of_ne_zero ?_⟩ <;> rintro rfl <;> simp at hn
    obtain ⟨X, hX, hsk⟩ := skip_data w nk nj ni _ ht h0.1 h0.2.1 h0.2.2 ['!'] (Or.inl rfl) r.skipC post
    have hXc : '!' ∉ X := by
      have := data_chars w nk nj ni _ ht
      rw [hX] at this
      exact fun h => this (List.mem_cons_of_mem _ h)
    obtain ⟨Y, hY⟩ : ∃ Y, X = Y ++ ['\n'] := by
      obtain ⟨t, hend⟩ := data_end w nk nj ni (fun k j i => showInt (a k j i)) h0.1 h0.2.1
      rw [hX] at hend
      cases t with
      | nil =>
        exfalso
        simp only [List.nil_append, List.cons.injEq, true_and] at hend
        have := data_words w nk nj ni _ ht
        rw [hX, hend] at this
        have := congrArg List.length this
        rw [hlen] at this
        simp [splitWS, splitWSAux, isWS] at this
        omega
      | cons c t =>
        simp only [List.cons_append, List.cons.injEq] at hend
        exact ⟨t, hend.2⟩
    have hwords : splitWS (stripComments ['!'] false (X ++ post)) =
        wordsOf nk nj ni (fun k j i => showInt (a k j i)) ++ splitWS (stripComments ['!'] false post) := by
      rw [strip_append _ _ hXc]
      have e : splitWS X = wordsOf nk nj ni (fun k j i => showInt (a k j i)) := by
        rw [← data_words w nk nj ni _ ht, hX, splitWS_ws _ _ (by decide)]
      rw [← e, hY, List.append_assoc, List.singleton_append, splitWS_append_ws '\n' (by decide), splitWS_append_ws '\n' (by decide)]
      simp [splitWS, splitWSAux]
    rw [hsk, hwords]
    unfold numbers
    simp only
    rw [if_neg (by rw [List.length_append]; omega), List.take_left' hlen, hmap]

/-- A file with comment lines at its head, which `write_array_to_ascii_file` writes if not told otherwise, cannot be read with
`data_free_of_comments` if the comment mark is not given: the comment lines at the head are not passed over. -/
theorem C158_headers_violated (upper : List Char → List Char) (a : Nat → Nat → Nat → Int) (w : WriteArgs) (r : ReadArgs) (nk nj ni : Nat)
    {file : List Char} (hw : writeText w nk nj ni (fun k j i => showInt (a k j i)) = .ok file) (hh : w.headers = true)
    (hk : r.keyword = none) (hd : r.dataFree = true) (hm : r.comment = none) (hc : r.count = some (nk * nj * ni))
    (hn : 0 < nk * nj * ni) : ∃ e, loadAscii upper readInt? r file = .error e := by
  have hf : file = headerText w nk nj ni ++ keywordText w ++ dataText w nk nj ni (fun k j i => showInt (a k j i)) := by
    unfold writeText at hw
    split at hw
    · exact absurd hw (by simp)
    · simp only [Except.ok.injEq] at hw
      exact hw.symm
  have e1 : "! Data written by write_array_to_ascii_file() python function\n".toList =
      ['!'] ++ ' ' :: "Data written by write_array_to_ascii_file() python function\n".toList := by decide +kernel
  obtain ⟨t, ht⟩ : ∃ t, file = ['!'] ++ ' ' :: t := by
    rw [hf]
    unfold headerText
    rw [if_pos hh, e1]
    exact ⟨_, by simp only [List.append_assoc, List.cons_append, List.nil_append]; rfl⟩
  obtain ⟨l, ls, hl⟩ := splitLines_first ['!'] t ' ' (by decide)
  have hmark : commentMark r (splitLines file) = [] := by
    unfold commentMark
    rw [hm]
    simp [hd]
  have hskip : skipLine [] r.skipC (['!'] ++ ' ' :: l) = false := by
    unfold skipLine
    rw [splitWS_word_ws ['!'] l ' ' (by decide) (by decide) (by decide)]
    simp
  have hrest : (skipLines [] r.skipC (afterKeyword upper r (splitLines file))).flatten = file := by
    unfold afterKeyword
    rw [hk]
    simp only
    unfold skipLines
    rw [ht, hl, List.dropWhile_cons, if_neg (by rw [hskip]; decide), ← hl, splitLines_flatten]
  have hwords : splitWS file = ['!'] :: splitWS t := by
    rw [ht]
    exact splitWS_word_ws ['!'] t ' ' (by decide) (by decide) (by decide)
  have hnum : numbers readInt? r.count (splitWS file) = .error .value := by
    rw [hc, hwords]
    unfold numbers
    simp only
    split
    · rfl
    · obtain ⟨n, hn'⟩ : ∃ n, nk * nj * ni = n + 1 := ⟨nk * nj * ni - 1, by omega⟩
      rw [hn', List.take_succ_cons]
      have : readInt? ['!'] = none := by decide
      simp [this]
  unfold loadAscii
  simp only
  rw [hmark, hrest, hnum, if_pos hd]
  exact ⟨_, rfl⟩

/-! ### Wrong numbers of elements -/

/-- C159: a file with fewer numbers than asked for is refused. -/
theorem C159_too_few (upper : List Char → List Char) (a : Nat → Nat → Nat → Int) (w : WriteArgs) (r : ReadArgs) (nk nj ni : Nat)
    {file : List Char} (hw : writeText w nk nj ni (fun k j i => showInt (a k j i)) = .ok file) (hkw : SameKeyword upper w r)
    (hmk : MarkKnown w r) {m : Nat} (hc : r.count = some m) (hm : nk * nj * ni < m) : ∃ e, loadAscii upper readInt? r file = .error e :=
  (load_written upper (fun _ _ _ => plain_int _) (fun _ _ _ => readInt?_showInt _) w r nk nj ni hw hkw hmk).2.1 m hc hm

/-- C159 says that a file with more numbers than asked for is refused too.  This holds with `data_free_of_comments`. -/
theorem C159_too_many_partial (upper : List Char → List Char) (a : Nat → Nat → Nat → Int) (w : WriteArgs) (r : ReadArgs) (nk nj ni : Nat)
    {file : List Char} (hw : writeText w nk nj ni (fun k j i => showInt (a k j i)) = .ok file) (hkw : SameKeyword upper w r)
    (hmk : MarkKnown w r) {m : Nat} (hc : r.count = some m) (hm : m < nk * nj * ni) (hd : r.dataFree = true) :
    loadAscii upper readInt? r file = .error .assertion := by
  rw [(load_written upper (fun _ _ _ => plain_int _) (fun _ _ _ => readInt?_showInt _) w r nk nj ni hw hkw hmk).2.2 m hc hm, if_pos hd]

/-- Without it a file with more numbers is accepted, and the first ones are taken, whatever the number asked for: the message on too much
data is never given. -/
theorem C159_too_many_violated (upper : List Char → List Char) (a : Nat → Nat → Nat → Int) (w : WriteArgs) (r : ReadArgs) (nk nj ni : Nat)
    {file : List Char} (hw : writeText w nk nj ni (fun k j i => showInt (a k j i)) = .ok file) (hkw : SameKeyword upper w r)
    (hmk : MarkKnown w r) {m : Nat} (hc : r.count = some m) (hm : m < nk * nj * ni) (hd : r.dataFree = false) :
    ∃ vs, loadAscii upper readInt? r file = .ok vs ∧ vs.length = m ∧ ∃ all, Holds all nk nj ni a ∧ vs = all.take m := by
  refine ⟨(wordsOf nk nj ni a).take m, ?_, ?_, wordsOf nk nj ni a, wordsOf_holds _ _ _ _, rfl⟩
  · rw [(load_written upper (fun _ _ _ => plain_int _) (fun _ _ _ => readInt?_showInt _) w r nk nj ni hw hkw hmk).2.2 m hc hm,
      if_neg (by simp [hd])]
  · rw [List.length_take, (wordsOf_holds nk nj ni a).1]
    omega

/-! ### Cases which meet the hypotheses -/

/-- a file with comments at its head, a keyword of two words and three numbers to a line -/
def exampleArgs : WriteArgs := ⟨true, some "KX VALUE".toList, 3, true, false, false⟩

/-- how it is read -/
def exampleRead : ReadArgs := ⟨some 20, some ['K', 'X'], some 4, none, false, true⟩

example : SameKeyword id exampleArgs exampleRead ∧ MarkKnown exampleArgs exampleRead ∧
    ∃ file, writeText exampleArgs 2 2 5 (fun k j i => showInt ((i : Int) - 10 * j + 7 * k)) = .ok file := by
  refine ⟨Or.inr ⟨_, ['K', 'X'], [['V', 'A', 'L', 'U', 'E']], _, rfl, by decide +kernel, by decide +kernel, by decide +kernel, rfl, rfl,
    by decide, ?_⟩, Or.inr ⟨rfl, Or.inl rfl⟩, _, rfl⟩
  intro m hm
  simp only [exampleRead, Option.some.injEq] at hm
  subst hm
  decide

example : fmtReal 3 (some (-1 / 16)) = "-0.062".toList ∧ fmtReal 0 (some (5 / 2)) = "2".toList ∧ fmtReal 2 (some (1234567 / 1000)) = "1234.57".toList := by
  refine ⟨by decide +kernel, by decide +kernel, by decide +kernel⟩

end Verif.ArrayFile
