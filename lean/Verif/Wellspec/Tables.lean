import Verif.Wellspec.Lemmas

/-! # Lemmas: tables in WELLSPEC files -/

namespace Verif.Wellspec
open Verif.Py Verif.Keywords

section
variable {upper : Word → Word}

/-- Comments.; for `addPlace` (wellspec_keywords.py:368-371) -/
def cc (l : Line) : Bool := decide (l ≠ []) && isBlankOrComment '!' true l

/-- Blank lines and comments marked with `!`.; for `addPlace` (wellspec_keywords.py:368-371) -/
def bb (l : Line) : Bool := isBlankOrComment '!' false l

theorem skipComments_eq : ∀ (ls : List Line) (pos : Nat), skipComments ls pos = pos + (ls.takeWhile cc).length := by
  intro ls
  induction ls with
  | nil => intro pos; rfl
  | cons l ls ih =>
    intro pos
    unfold skipComments
    by_cases h : cc l = true
    · rw [if_pos (by simpa [cc] using h), List.takeWhile_cons_of_pos h, ih, List.length_cons]
      omega
    · rw [if_neg (by simpa [cc] using h), List.takeWhile_cons_of_neg h]
      rfl

theorem skipBlank_eq : ∀ (ls : List Line) (pos : Nat), skipBlank '!' true ls pos = pos + (ls.takeWhile (isBlankOrComment '!' true)).length := by
  intro ls
  induction ls with
  | nil => intro pos; rfl
  | cons l ls ih =>
    intro pos
    unfold skipBlank
    by_cases h : isBlankOrComment '!' true l = true
    · rw [if_pos h, List.takeWhile_cons_of_pos h, ih, List.length_cons]
      omega
    · rw [if_neg h, List.takeWhile_cons_of_neg h]
      rfl

theorem specificLoop_next (k : Word) : ∀ (ls : List Line) (pos fp : Nat),
    specificLoop upper k true '!' ls pos fp = (((ls.dropWhile bb).head?.any fun l => startsWith upper k l), pos + (ls.takeWhile bb).length) := by
  intro ls
  induction ls with
  | nil => intro pos fp; rfl
  | cons l ls ih =>
    intro pos fp
    unfold specificLoop
    dsimp only
    by_cases h : bb l = true
    · rw [if_pos (show isBlankOrComment '!' false l = true from h), List.takeWhile_cons_of_pos h, List.dropWhile_cons_of_pos h, ih, List.length_cons]
      simp only [Prod.mk.injEq, true_and]
      omega
    · rw [if_neg (show ¬ isBlankOrComment '!' false l = true from h), List.takeWhile_cons_of_neg h, List.dropWhile_cons_of_neg h]
      rfl

theorem drop_takeWhile (p : Line → Bool) (file : List Line) (pos : Nat) :
    file.drop (pos + ((file.drop pos).takeWhile p).length) = (file.drop pos).dropWhile p := by
  rw [← List.drop_drop]
  generalize file.drop pos = l
  induction l with
  | nil => rfl
  | cons a l ih =>
    by_cases h : p a = true
    · rw [List.takeWhile_cons_of_pos h, List.dropWhile_cons_of_pos h, List.length_cons, List.drop_succ_cons, ih]
    · rw [List.takeWhile_cons_of_neg h, List.dropWhile_cons_of_neg h]
      rfl

theorem stopNext_eq (file : List Line) : ∀ (ks : List Word) (pos : Nat), ks ≠ [] →
    stopNext upper file ks pos = (ks.any fun k => ((file.drop pos).dropWhile bb).head?.any fun l => startsWith upper k l, pos + ((file.drop pos).takeWhile bb).length) := by
  intro ks
  induction ks with
  | nil => intro pos h; exact absurd rfl h
  | cons k ks ih =>
    intro pos _
    unfold stopNext specificNext
    rw [specificLoop_next]
    have hd := drop_takeWhile bb file pos
    cases hk : (((file.drop pos).dropWhile bb).head?.any fun l => startsWith upper k l) with
    | true => simp [hk]
    | false =>
      dsimp only
      cases ks with
      | nil => simp [stopNext, hk]
      | cons k' ks =>
        rw [ih _ (by simp), hd]
        have e1 : ((file.drop pos).dropWhile bb).dropWhile bb = (file.drop pos).dropWhile bb := by
          generalize file.drop pos = l
          induction l with
          | nil => rfl
          | cons a l ih =>
            by_cases h : bb a = true
            · rw [List.dropWhile_cons_of_pos h, ih]
            · rw [List.dropWhile_cons_of_neg h, List.dropWhile_cons_of_neg h]
        have e2 : ((file.drop pos).dropWhile bb).takeWhile bb = [] := by
          generalize file.drop pos = l
          induction l with
          | nil => rfl
          | cons a l ih =>
            by_cases h : bb a = true
            · rw [List.dropWhile_cons_of_pos h, ih]
            · rw [List.dropWhile_cons_of_neg h, List.takeWhile_cons_of_neg h]
        rw [e1, e2]
        simp [hk]

/-! ### Kinds of lines -/

theorem bb_iff (line : List Char) : bb (splitWS line) = true ↔ Blank line ∨ Bang line := by
  unfold bb Blank Bang isBlankOrComment
  cases splitWS line with
  | nil => simp
  | cons w r =>
    cases w <;> simp

theorem skip_iff (line : List Char) : isBlankOrComment '!' true (splitWS line) = true ↔ Blank line ∨ Bang line ∨ LetterC line := by
  unfold Blank Bang LetterC isBlankOrComment
  cases splitWS line with
  | nil => simp
  | cons w r =>
    cases w <;> simp

theorem cc_iff (line : List Char) : cc (splitWS line) = true ↔ Bang line ∨ LetterC line := by
  unfold cc Bang LetterC isBlankOrComment
  cases splitWS line with
  | nil => simp
  | cons w r =>
    cases w <;> simp

theorem stop_iff (line : List Char) : (stopWords.any fun k => startsWith upper k (splitWS line)) = true ↔ Stop upper line := by
  unfold Stop stopWords
  rw [List.any_eq_true]
  simp only [startsWith_eq]

/-- Comments, before they are split.; for `addPlace` (wellspec_keywords.py:368-371) -/
def cL (l : List Char) : Bool := cc (splitWS l)

/-- Blank lines and comments marked with `!`, before they are split.; for `addPlace` (wellspec_keywords.py:368-371) -/
def bL (l : List Char) : Bool := bb (splitWS l)

/-- What is read next: after comments, and then blank lines and comments.; for `addPlace` (wellspec_keywords.py:368-371) -/
def rest (b : Bool) (ls : List (List Char)) : List (List Char) :=
  if b then ls.dropWhile bL else (ls.dropWhile cL).dropWhile bL

theorem body_next {b : Bool} {ls : List (List Char)} {rows : List (List Word)} (h : Body upper b ls rows) :
    (rows = [] ∧ (rest b ls = [] ∨ ∃ line l, rest b ls = line :: l ∧ Stop upper line)) ∨
    ∃ line l rs, rest b ls = line :: l ∧ ¬ Stop upper line ∧ valuesOf line ≠ [] ∧ rows = valuesOf line :: rs ∧ Body upper false l rs := by
  induction h with
  | eof b => left; cases b <;> simp [rest]
  | @stop b line l hs h1 h2 =>
    left
    have h3 : ¬ Blank line := by
      rintro hb
      obtain ⟨k, -, hk⟩ := hs
      unfold Blank at hb
      rw [hb] at hk
      simp [firstWordIs] at hk
    have hb : ¬ bL line = true := by rw [bL, bb_iff]; tauto
    have hc : ¬ cL line = true := by rw [cL, cc_iff]; tauto
    refine ⟨rfl, Or.inr ⟨line, l, ?_, hs⟩⟩
    unfold rest
    cases b
    · rw [if_neg (by simp), List.dropWhile_cons_of_neg hc, List.dropWhile_cons_of_neg hb]
    · rw [if_pos rfl, List.dropWhile_cons_of_neg hb]
  | @blank b line l rows hbl hB ih =>
    have hb : bL line = true := by rw [bL, bb_iff]; tauto
    have hc : ¬ cL line = true := by
      unfold Blank at hbl
      simp [cL, cc, hbl]
    have e : rest b (line :: l) = rest true l := by
      unfold rest
      cases b
      · rw [if_neg (by simp), List.dropWhile_cons_of_neg hc, List.dropWhile_cons_of_pos hb, if_pos rfl]
      · rw [if_pos rfl, List.dropWhile_cons_of_pos hb, if_pos rfl]
    rw [e]
    exact ih
  | @bang b line l rows hba hB ih =>
    have hb : bL line = true := by rw [bL, bb_iff]; tauto
    have hc : cL line = true := by rw [cL, cc_iff]; tauto
    have e : rest b (line :: l) = rest b l := by
      unfold rest
      cases b
      · rw [if_neg (by simp), List.dropWhile_cons_of_pos hc, if_neg (by simp)]
      · rw [if_pos rfl, List.dropWhile_cons_of_pos hb, if_pos rfl]
    rw [e]
    exact ih
  | @letter line l rows hl hB ih =>
    have hc : cL line = true := by rw [cL, cc_iff]; tauto
    have e : rest false (line :: l) = rest false l := by
      unfold rest
      rw [if_neg (by simp), List.dropWhile_cons_of_pos hc, if_neg (by simp)]
    rw [e]
    exact ih
  | @row b line l rows h1 h0 h2 h3 h4 hB ih =>
    right
    have hb : ¬ bL line = true := by rw [bL, bb_iff]; tauto
    have hc : ¬ cL line = true := by rw [cL, cc_iff]; tauto
    refine ⟨line, l, rows, ?_, h4, h0, rfl, hB⟩
    unfold rest
    cases b
    · rw [if_neg (by simp), List.dropWhile_cons_of_neg hc, List.dropWhile_cons_of_neg hb]
    · rw [if_pos rfl, List.dropWhile_cons_of_neg hb]

/-- Rows in turn, until the first failure. -/
def eachRow (mk : List Word → Res (List Cell)) : List (List Word) → Res (List (List Cell))
  | [] => .ok []
  | v :: vs =>
    match mk v with
    | .error e => .error e
    | .ok r =>
      match eachRow mk vs with
      | .error e => .error e
      | .ok rs => .ok (r :: rs)

theorem rowLoop_body (mk : List Word → Res (List Cell)) (file : File) : ∀ (fuel pos : Nat) acc rows, file.length < fuel + pos →
    Body upper false (file.drop pos) rows →
    rowLoop upper mk file fuel pos acc = (match eachRow mk rows with | .error e => .error e | .ok rs => .ok (acc ++ rs)) := by
  intro fuel
  induction fuel with
  | zero =>
    intro pos acc rows h hB
    rw [List.drop_eq_nil_of_le (by omega)] at hB
    have : rows = [] := by
      rcases body_next hB with ⟨h1, -⟩ | ⟨line, l, rs, h1, -⟩
      · exact h1
      · simp [rest] at h1
    subst this
    simp [rowLoop, eachRow]
  | succ fuel ih =>
    intro pos acc rows h hB
    have hdrop : ∀ q, (wordsOf file).drop q = (file.drop q).map splitWS := by
      intro q
      unfold wordsOf
      rw [List.map_drop]
    -- the place reached
    obtain ⟨p, hp1, hp2, hp3⟩ : ∃ p, stopNext upper (wordsOf file) stopWords (skipComments ((wordsOf file).drop pos) pos) =
        ((rest false (file.drop pos)).head?.any fun l => stopWords.any fun k => startsWith upper k (splitWS l), p) ∧
        file.drop p = rest false (file.drop pos) ∧ pos ≤ p := by
      rw [skipComments_eq, stopNext_eq _ _ _ (by decide)]
      have e1 := drop_takeWhile cc (wordsOf file) pos
      rw [e1]
      generalize hq : pos + (((wordsOf file).drop pos).takeWhile cc).length = q at *
      have e2 := drop_takeWhile bb (wordsOf file) q
      rw [e1] at e2
      have e3 : (((wordsOf file).drop pos).dropWhile cc).dropWhile bb = (rest false (file.drop pos)).map splitWS := by
        unfold rest
        rw [if_neg (by simp), hdrop]
        generalize file.drop pos = ls
        have dm : ∀ (f : Line → Bool) (ls : List (List Char)), (ls.map splitWS).dropWhile f = (ls.dropWhile fun l => f (splitWS l)).map splitWS := by
          intro f ls
          induction ls with
          | nil => rfl
          | cons a ls ih =>
            by_cases h : f (splitWS a) = true
            · rw [List.map_cons, List.dropWhile_cons_of_pos h, List.dropWhile_cons_of_pos (p := fun l => f (splitWS l)) h, ih]
            · rw [List.map_cons, List.dropWhile_cons_of_neg h, List.dropWhile_cons_of_neg (p := fun l => f (splitWS l)) h, List.map_cons]
        rw [dm, dm]
        rfl
      refine ⟨_, Prod.ext ?_ rfl, ?_, by omega⟩
      · dsimp only
        rw [e3]
        cases rest false (file.drop pos) with
        | nil => simp
        | cons a l => simp
      · have e4 := e2.trans e3
        have : ∀ (q' : Nat), (wordsOf file).drop q' = (rest false (file.drop pos)).map splitWS →
            q' = pos + ((file.drop pos).length - (rest false (file.drop pos)).length) ∨ rest false (file.drop pos) = [] ∧ file.drop q' = [] := by
          intro q' hq'
          rw [hdrop] at hq'
          have hl := congrArg List.length hq'
          simp only [List.length_map, List.length_drop] at hl
          have hle : (rest false (file.drop pos)).length ≤ (file.drop pos).length := by
            unfold rest
            rw [if_neg (by simp)]
            exact ((List.dropWhile_sublist _).trans (List.dropWhile_sublist _)).length_le
          rw [List.length_drop] at hle ⊢
          by_cases h0 : rest false (file.drop pos) = []
          · right
            refine ⟨h0, ?_⟩
            rw [h0, List.length_nil] at hl
            exact List.drop_eq_nil_of_le (by omega)
          · left
            have := List.length_pos_iff.2 h0
            omega
        have suff : rest false (file.drop pos) = (file.drop pos).drop ((file.drop pos).length - (rest false (file.drop pos)).length) := by
          unfold rest
          rw [if_neg (by simp)]
          exact List.suffix_iff_eq_drop.1 ((List.dropWhile_suffix _).trans (List.dropWhile_suffix _))
        rcases this _ e4 with h5 | ⟨h5, h6⟩
        · rw [h5, ← List.drop_drop]
          exact suff.symm
        · rw [h5, h6]
    unfold rowLoop
    rw [hp1]
    rcases body_next hB with ⟨hr, h1 | ⟨line, l, h1, h2⟩⟩ | ⟨line, l, rs, h1, h2, hne, h3, h4⟩
    · rw [h1] at hp2 ⊢
      have : file[p]? = none := by
        have := congrArg List.head? hp2
        simpa using this
      simp [this, hr, eachRow]
    · rw [h1]
      have := (stop_iff line).2 h2
      simp only [List.head?_cons, Option.any_some, this, hr, eachRow, List.append_nil]
    · rw [h1] at hp2 ⊢
      have hl : file[p]? = some line := by
        have := congrArg List.head? hp2
        simpa using this
      have hl' : file.drop (p + 1) = l := by
        have := congrArg List.tail hp2
        simpa using this
      have hns : (stopWords.any fun k => startsWith upper k (splitWS line)) = false := by
        rw [← Bool.not_eq_true, stop_iff]
        exact h2
      simp only [List.head?_cons, Option.any_some, hns, hl, if_neg hne]
      rw [h3, eachRow]
      cases hc : mk (valuesOf line) with
      | error e => rfl
      | ok c =>
        dsimp only
        rw [ih (p + 1) _ rs (by omega) (by rw [hl']; exact h4)]
        cases eachRow mk rs with
        | error e => rfl
        | ok r => simp

theorem eachRow_ok (mk : List Word → Res (List Cell)) : ∀ (vs : List (List Word)) rs, eachRow mk vs = .ok rs ↔ List.Forall₂ (fun v r => mk v = .ok r) vs rs := by
  intro vs
  induction vs with
  | nil => intro rs; simp [eachRow, eq_comm]
  | cons v vs ih =>
    intro rs
    rw [eachRow]
    cases h : mk v with
    | error e => simp [List.forall₂_cons_left_iff, h]
    | ok r =>
      cases h2 : eachRow mk vs with
      | error e =>
        have : ∀ u, ¬ List.Forall₂ (fun v r => mk v = .ok r) vs u := by
          intro u hu
          rw [← ih, h2] at hu
          cases hu
        simp [List.forall₂_cons_left_iff, this]
      | ok l =>
        have := (ih l).1 h2
        simp only [Except.ok.injEq, List.forall₂_cons_left_iff, h, ← ih, h2]
        constructor
        · rintro rfl; exact ⟨r, l, rfl, rfl, rfl⟩
        · rintro ⟨_, _, rfl, rfl, rfl⟩; rfl

theorem eachCell_ok {α : Type} (f : α → Res Cell) : ∀ (vs : List α) rs, eachCell f vs = .ok rs ↔ List.Forall₂ (fun v r => f v = .ok r) vs rs := by
  intro vs
  induction vs with
  | nil => intro rs; simp [eachCell, eq_comm]
  | cons v vs ih =>
    intro rs
    rw [eachCell]
    cases h : f v with
    | error e => simp [List.forall₂_cons_left_iff, h]
    | ok r =>
      cases h2 : eachCell f vs with
      | error e =>
        have : ∀ u, ¬ List.Forall₂ (fun v r => f v = .ok r) vs u := by
          intro u hu
          rw [← ih, h2] at hu
          cases hu
        simp [List.forall₂_cons_left_iff, this]
      | ok l =>
        have := (ih l).1 h2
        simp only [Except.ok.injEq, List.forall₂_cons_left_iff, h, ← ih, h2]
        constructor
        · rintro rfl; exact ⟨r, l, rfl, rfl, rfl⟩
        · rintro ⟨_, _, rfl, rfl, rfl⟩; rfl

theorem cellOf_ok (conv : Word → Word → Res Cell) (col v : Word) (c : Cell) : cellOf conv col v = .ok c ↔
    ((v = "NA".toList ∧ c = .nan) ∨ (v = "#".toList ∧ c = .text v) ∨ (v ≠ "NA".toList ∧ v ≠ "#".toList ∧ conv col v = .ok c)) := by
  unfold cellOf
  by_cases h1 : v = "NA".toList
  · subst h1
    rw [if_pos rfl]
    simp [eq_comm]
  · rw [if_neg h1]
    by_cases h2 : v = "#".toList
    · subst h2
      rw [if_pos rfl]
      simp [eq_comm]
    · rw [if_neg h2]
      simp only [ne_eq, h1, h2, not_false_eq_true, false_and, true_and, false_or]

theorem idxOf_of_get {l : List Word} (h : l.Nodup) {m : Nat} {w : Word} (hm : l[m]? = some w) : l.idxOf w = m := by
  obtain ⟨hlt, rfl⟩ := List.getElem?_eq_some_iff.1 hm
  exact h.idxOf_getElem _ _

theorem selectedCell_ok (conv : Word → Word → Res Cell) {names values : List Word} (hn : names.Nodup) (hl : names.length ≤ values.length) (col : Word) (c : Cell) :
    selectedCell upper conv names values col = .ok c ↔ CellOk upper conv names values col c := by
  unfold selectedCell CellOk
  by_cases h : upper col ∈ names
  · rw [if_pos h]
    have hlt := List.idxOf_lt_length_iff.2 h
    have e : values[names.idxOf (upper col)]? = some values[names.idxOf (upper col)] := List.getElem?_eq_getElem (by omega)
    rw [e]
    dsimp only
    rw [cellOf_ok]
    constructor
    · intro hc
      exact Or.inl ⟨names.idxOf (upper col), _, by rw [List.getElem?_eq_getElem hlt, List.getElem_idxOf], e, hc⟩
    · rintro (⟨m, v, hm, hv, hc⟩ | ⟨h', -⟩)
      · have := idxOf_of_get hn hm
        subst this
        rw [e] at hv
        injection hv with hv
        rw [hv]
        exact hc
      · exact absurd h h'
  · rw [if_neg h]
    constructor
    · intro hc
      right
      refine ⟨h, ?_⟩
      by_cases hg : upper col = "GRID".toList
      · rw [if_pos hg] at hc ⊢; injection hc with hc; exact hc.symm
      · rw [if_neg hg] at hc ⊢; injection hc with hc; exact hc.symm
    · rintro (⟨m, v, hm, -⟩ | ⟨-, hc⟩)
      · exact absurd (List.mem_of_getElem? hm) h
      · by_cases hg : upper col = "GRID".toList
        · rw [if_pos hg] at hc ⊢; rw [hc]
        · rw [if_neg hg] at hc ⊢; rw [hc]

theorem readRow_ok (conv : Word → Word → Res Cell) (hup : ∀ w, upper (upper w) = upper w) {names : List Word} (hn : names.Nodup) (hu : ∀ n ∈ names, upper n = n)
    (columnList values : List Word) (cells : List Cell) : readRow upper conv names columnList values = .ok cells ↔
    RowOk upper conv names (if columnList ≠ [] then columnList else names) values cells := by
  unfold readRow RowOk
  by_cases hl : values.length < names.length
  · rw [if_pos hl]
    simp only [reduceCtorEq, false_iff]
    omega
  · rw [if_neg hl]
    have hl' : names.length ≤ values.length := by omega
    simp only [hl', true_and]
    by_cases hc : columnList ≠ []
    · rw [if_pos hc, if_pos hc, eachCell_ok]
      exact ⟨fun h => h.imp fun _ _ => (selectedCell_ok conv hn hl' _ _).1, fun h => h.imp fun _ _ => (selectedCell_ok conv hn hl' _ _).2⟩
    · rw [if_neg hc, if_neg hc, eachCell_ok]
      rw [List.forall₂_iff_get, List.forall₂_iff_get]
      have hlz : (names.zip (values.take names.length)).length = names.length := by simp; omega
      refine and_congr (by rw [hlz]) ?_
      have key : ∀ i (h1 : i < names.length) (h2 : i < values.length) c, cellOf conv names[i] values[i] = .ok c ↔ CellOk upper conv names values names[i] c := by
        intro i h1 h2 c
        rw [← selectedCell_ok conv hn hl']
        unfold selectedCell
        have e := hu _ (List.getElem_mem h1)
        rw [e, if_pos (List.getElem_mem h1), hn.idxOf_getElem, List.getElem?_eq_getElem h2]
      constructor
      · intro h i h1 h2
        have := h i (by rw [hlz]; exact h1) h2
        simp only [List.get_eq_getElem, List.getElem_zip, List.getElem_take] at this ⊢
        exact (key i h1 (by omega) _).1 this
      · intro h i h1 h2
        have := h i (by rw [hlz] at h1; exact h1) h2
        simp only [List.get_eq_getElem, List.getElem_zip, List.getElem_take] at this ⊢
        exact (key i (by omega) (by omega) _).2 this

theorem dropWhile_pre {p : Line → Bool} : ∀ {pre : List Line} {a : Line} {l : List Line}, (∀ x ∈ pre, p x = true) → ¬ p a = true → (pre ++ a :: l).takeWhile p = pre := by
  intro pre
  induction pre with
  | nil => intro a l _ h; exact List.takeWhile_cons_of_neg h
  | cons x pre ih =>
    intro a l h1 h2
    rw [List.cons_append, List.takeWhile_cons_of_pos (h1 x (by simp)), ih (fun y hy => h1 y (by simp [hy])) h2]

theorem readTable_layout (conv : Word → Word → Res Cell) (hup : ∀ w, upper (upper w) = upper w) {file : File} {pointer : Nat} {names : List Word}
    {rows : List (List Word)} (hL : Layout upper file pointer names rows) (columnList : List Word) (t : Table) :
    readTable upper conv file pointer columnList = .ok t ↔
    t.cols = (if columnList ≠ [] then columnList else names) ∧ List.Forall₂ (RowOk upper conv names t.cols) rows t.rows := by
  obtain ⟨⟨pre, header, body, hf, hpre, h1, h2, h3, rfl, hB⟩, hne, hn⟩ := hL
  have hlen := congrArg List.length hf
  simp only [List.length_drop, List.length_append, List.length_cons] at hlen
  have hp : skipBlank '!' true ((wordsOf file).drop pointer) pointer = pointer + pre.length := by
    rw [skipBlank_eq]
    have : (wordsOf file).drop pointer = pre.map splitWS ++ splitWS header :: body.map splitWS := by
      unfold wordsOf
      rw [← List.map_drop, hf]
      simp
    rw [this, dropWhile_pre]
    · simp
    · intro x hx
      obtain ⟨l, hl, rfl⟩ := List.mem_map.1 hx
      exact (skip_iff l).2 (hpre l hl)
    · rw [skip_iff]
      tauto
  have hd : file.drop (pointer + pre.length) = header :: body := by
    rw [← List.drop_drop, hf, List.drop_left']
    rfl
  have hh : file[pointer + pre.length]? = some header := by
    have := congrArg List.head? hd
    simpa using this
  have hd' : file.drop (pointer + pre.length + 1) = body := by
    have := congrArg List.tail hd
    simpa using this
  unfold readTable
  dsimp only
  rw [hp, hh]
  dsimp only
  rw [rowLoop_body _ file _ _ _ rows (by omega) (by rw [hd']; exact hB)]
  have hu : ∀ n ∈ (valuesOf header).map upper, upper n = n := by
    intro n hn
    obtain ⟨w, -, rfl⟩ := List.mem_map.1 hn
    exact hup w
  have key : ∀ rs, eachRow (readRow upper conv ((valuesOf header).map upper) columnList) rows = .ok rs ↔
      List.Forall₂ (RowOk upper conv ((valuesOf header).map upper) (if columnList ≠ [] then columnList else (valuesOf header).map upper)) rows rs := by
    intro rs
    rw [eachRow_ok]
    exact ⟨fun h => h.imp fun _ _ => (readRow_ok conv hup hn hu _ _ _).1, fun h => h.imp fun _ _ => (readRow_ok conv hup hn hu _ _ _).2⟩
  obtain ⟨tc, tr⟩ := t
  cases hE : eachRow (readRow upper conv ((valuesOf header).map upper) columnList) rows with
  | error e =>
    simp only [reduceCtorEq, false_iff]
    rintro ⟨hc, hr⟩
    rw [hc, ← key, hE] at hr
    cases hr
  | ok rs =>
    dsimp only
    rw [List.nil_append, Except.ok.injEq, Table.mk.injEq]
    constructor
    · rintro ⟨rfl, rfl⟩
      exact ⟨rfl, (key _).1 hE⟩
    · rintro ⟨hc, hr⟩
      subst hc
      rw [← key, hE] at hr
      injection hr with hr
      exact ⟨rfl, hr⟩

end
end Verif.Wellspec
