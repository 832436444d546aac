import Verif.FaultTable.Spec
import Mathlib.Data.List.Infix

/-! # Properties of reading fault multiplier tables -/

namespace Verif.FaultTable
open Verif.Py

variable {K : Type}

theorem contains_iff (k w : Word) : contains k w = true ↔ k <:+: w := by
  unfold contains
  simp only [List.any_eq_true, List.mem_tails, List.isPrefixOf_iff_prefix]
  constructor
  · rintro ⟨t, h1, h2⟩
    exact h2.isInfix.trans h1.isInfix
  · rintro ⟨a, b, rfl⟩
    exact ⟨k ++ b, ⟨a, by simp⟩, ⟨b, rfl⟩⟩

theorem splitWS_skip {b : List Char} (hb : ∀ x ∈ b, isWS x = true) (l : List Char) : splitWS (b ++ l) = splitWS l := by
  induction b with
  | nil => rfl
  | cons c b ih =>
    rw [List.cons_append, splitWS_ws _ _ (hb c (by simp))]
    exact ih fun x hx => hb x (List.mem_cons_of_mem _ hx)

theorem splitWSAux_first (l : List Char) : ∀ (cur : List Char) (c : Char), ∃ w ws, splitWSAux (cur ++ [c]) l = (c :: w) :: ws := by
  induction l with
  | nil =>
    intro cur c
    exact ⟨cur.reverse, [], by simp [splitWSAux]⟩
  | cons x l ih =>
    intro cur c
    by_cases hx : isWS x = true
    · exact ⟨cur.reverse, splitWSAux [] l, by simp [splitWSAux, hx]⟩
    · obtain ⟨w, ws, h⟩ := ih (x :: cur) c
      refine ⟨w, ws, ?_⟩
      rw [splitWSAux, if_neg hx]
      exact h

theorem splitWS_first {c : Char} (hc : isWS c = false) (l : List Char) : ∃ w ws, splitWS (c :: l) = (c :: w) :: ws := by
  obtain ⟨w, ws, h⟩ := splitWSAux_first l [] c
  refine ⟨w, ws, ?_⟩
  unfold splitWS
  rw [splitWSAux, if_neg (by simp [hc])]
  exact h

theorem content_blank {l : List Char} (h : ∀ c ∈ l, isWS c = true) : content l = none := by
  have := splitWS_skip h []
  rw [List.append_nil] at this
  unfold content
  rw [this]
  rfl

theorem content_comment {b : List Char} {c : Char} {rest : List Char} (hb : ∀ x ∈ b, isWS x = true) (hc : c = '!' ∨ c = 'C') : content (b ++ c :: rest) = none := by
  have hw : isWS c = false := by rcases hc with rfl | rfl <;> decide
  obtain ⟨w, ws, h⟩ := splitWS_first hw rest
  unfold content
  rw [splitWS_skip hb, h]
  simp only
  rw [if_pos hc]

theorem content_words {b : List Char} {c : Char} {body rest : List Char} (hb : ∀ x ∈ b, isWS x = true) (hc : isWS c = false) (hC : c ≠ 'C') (hn : '!' ∉ b ++ c :: body)
    (hr : rest = [] ∨ ∃ r, rest = '!' :: r) : content (b ++ c :: body ++ rest) = some (splitWS (c :: body)) := by
  obtain ⟨w, ws, h⟩ := splitWS_first hc (body ++ rest)
  have ht : (b ++ c :: body ++ rest).takeWhile (fun c => decide (c ≠ '!')) = b ++ c :: body := by
    rw [List.takeWhile_append_of_pos]
    · rcases hr with rfl | ⟨r, rfl⟩ <;> simp
    · intro x hx
      simp only [decide_eq_true_eq]
      rintro rfl
      exact hn hx
  have hx : c ≠ '!' := by
    rintro rfl
    exact hn (by simp)
  unfold content
  rw [ht, splitWS_skip hb, show b ++ c :: body ++ rest = b ++ c :: (body ++ rest) from by simp, splitWS_skip hb, h]
  simp only
  rw [if_neg (by simp [hx, hC])]

theorem says_content {file : List (List Char)} {ws : List (List Word)} (h : Says file ws) : file.filterMap content = ws := by
  induction h with
  | done => rfl
  | blank h _ ih => rw [List.filterMap_cons, content_blank h]; exact ih
  | comment h1 h2 _ ih => rw [List.filterMap_cons, content_comment h1 h2]; exact ih
  | words h1 h2 h3 h4 h5 _ ih => rw [List.filterMap_cons, content_words h1 h2 h3 h4 h5, ih]

theorem steps_append (R : Reader K) (a b : List (List Word)) : ∀ st : State K, steps R st (a ++ b) = (match steps R st a with
    | .error e => .error e
    | .ok st => steps R st b) := by
  induction a with
  | nil => intro st; rfl
  | cons w a ih =>
    intro st
    simp only [List.cons_append, steps]
    cases step R st w with
    | error e => rfl
    | ok st => exact ih st

theorem rowOf_isRow {R : Reader K} {grid name face : Word} {ws : List Word} {r : Row K} (h : IsRow R grid name face ws r) : rowOf R grid name face ws = .ok r := by
  obtain ⟨a, b, c, d, e, f, g, rfl, _, h1, h2, h3, h4, h5, h6, h7, rfl, rfl, rfl⟩ := h
  simp only [rowOf, h1, h2, h3, h4, h5, h6, h7]

theorem rowsOf_isRow {R : Reader K} {grid name face : Word} {L : List (List Word)} {rs : List (Row K)} (h : List.Forall₂ (IsRow R grid name face) L rs) :
    rowsOf R grid name face L = .ok rs := by
  induction h with
  | nil => rfl
  | cons h _ ih =>
    simp only [rowsOf, rowOf_isRow h, ih]
    rfl

/-- Between tables, or at the end of one whose rows have not been made yet, the result so far being `out`. -/
def Waiting (R : Reader K) (st : State K) (out : List (Row K)) : Prop :=
  (st.record = false ∧ st.chunks = [] ∧ st.out = out) ∨ (st.table = true ∧ st.record = true ∧ close R st = .ok ⟨false, false, st.grid, st.name, st.face, [], out⟩)

theorem step_mult {R : Reader K} (hR : R.Keywords) {st : State K} {out : List (Row K)} (hw : Waiting R st out) {d : Word} {f : Word} (hd : faceDict.lookup d = some f)
    (options : List Word) (hm : d ≠ "MINUS".toList) : step R st ("MULT".toList :: d :: options) =
      .ok ⟨true, false, "ROOT".toList, "NONE".toList, f ++ (if "MINUS".toList ∈ options then ['-'] else []), [], out⟩ := by
  have hs : ∀ st : State K, st.record = false → st.chunks = [] → st.out = out → (start { st with table := false } "MULT".toList (d :: options) : Res (State K)) =
      .ok ⟨true, false, "ROOT".toList, "NONE".toList, f ++ (if "MINUS".toList ∈ options then ['-'] else []), [], out⟩ := by
    intro st h1 h2 h3
    unfold start
    rw [if_neg (by simp)]
    simp only [hd, h1, h2, h3, List.mem_cons, hm.symm, false_or]
    rw [if_congr (show (("MINUS".toList : Word) = "MULT".toList ∨ "MINUS".toList ∈ options) ↔ "MINUS".toList ∈ options from by simp) rfl rfl]
  unfold step
  simp only [hR.mult, Bool.false_eq_true, and_false, if_false]
  rcases hw with ⟨h1, h2, h3⟩ | ⟨h1, h2, h3⟩
  · rw [if_neg (by simp [h1])]
    simp only
    unfold inner
    cases ht : st.table with
    | false =>
      simp only [Bool.not_false, if_true]
      have hst : st = { st with table := false } := by rw [← ht]
      rw [hst]
      exact hs st h1 h2 h3
    | true =>
      simp only [Bool.not_true, Bool.false_eq_true, if_false]
      rw [if_neg (by decide), if_neg (by decide), if_pos True.intro]
      simp only
      have := hs { st with record := false, chunks := [] } rfl rfl h3
      exact this
  · rw [if_pos (by simp [h1, h2]), h3]
    simp only [inner, Bool.not_false, if_true]
    exact hs ⟨false, false, st.grid, st.name, st.face, [], out⟩ rfl rfl rfl

theorem step_head {R : Reader K} (hR : R.Keywords) {st : State K} (ht : st.table = true) (hr : st.record = false) (h : Head) :
    step R st h.words = .ok { st with grid := gridOf st.grid [h], name := nameOf st.name [h] } := by
  have n1 : R.isNum "GRID".toList = false := by
    cases e : R.isNum "GRID".toList with
    | false => rfl
    | true => exact absurd (List.infix_refl _) (hR.grid _ e)
  have n2 : R.isNum "FNAME".toList = false := by
    cases e : R.isNum "FNAME".toList with
    | false => rfl
    | true => exact absurd (List.infix_refl _) (hR.name _ e)
  cases h with
  | grid g more =>
    simp only [Head.words, step, n1, Bool.false_eq_true, and_false, if_false, hr, false_and, ht]
    unfold inner
    simp only [ht, Bool.not_true, Bool.false_eq_true, if_false]
    rw [if_pos (by decide)]
    simp only [start]
    rw [if_pos (by decide), ← hr]
    rfl
  | name n more =>
    simp only [Head.words, step, n2, Bool.false_eq_true, and_false, if_false, hr, false_and, ht]
    unfold inner
    simp only [ht, Bool.not_true, Bool.false_eq_true, if_false]
    rw [if_neg (by decide), if_pos (by decide)]
    simp only [start]
    rw [if_pos (by decide), ← hr]
    rfl

theorem steps_heads {R : Reader K} (hR : R.Keywords) (hs : List Head) : ∀ {st : State K}, st.table = true → st.record = false →
    steps R st (hs.map Head.words) = .ok { st with grid := gridOf st.grid hs, name := nameOf st.name hs } := by
  induction hs with
  | nil => intro st _ _; rfl
  | cons h hs ih =>
    intro st ht hr
    simp only [List.map_cons, steps, step_head hR ht hr]
    rw [ih (st := { st with grid := gridOf st.grid [h], name := nameOf st.name [h] }) ht hr]
    cases h <;> rfl

theorem step_row {R : Reader K} (hR : R.Keywords) {st : State K} (ht : st.table = true) {t : Word} {ts : List Word} (hn : R.isNum t = true) :
    step R st (t :: ts) = .ok { st with record := true, chunks := st.chunks ++ [t :: ts] } := by
  have hm : t ≠ "MULT".toList := by
    rintro rfl
    rw [hR.mult] at hn
    cases hn
  have hg : contains "GRID".toList t = false := by
    rw [← Bool.not_eq_true, contains_iff]
    exact hR.grid _ hn
  have hf : contains "FNAME".toList t = false := by
    rw [← Bool.not_eq_true, contains_iff]
    exact hR.name _ hn
  unfold step
  simp only [ht, hn, and_self, if_true, Bool.true_eq_false, and_false, if_false]
  unfold inner
  simp only [Bool.not_true, Bool.false_eq_true, if_false, hg, hf]
  rw [if_neg hm]
  simp only [start]
  rw [if_pos hm]

theorem steps_rows {R : Reader K} (hR : R.Keywords) {L : List (List Word)} : ∀ {st : State K}, st.table = true → (∀ ws ∈ L, ∃ t ts, ws = t :: ts ∧ R.isNum t = true) →
    steps R st L = .ok { st with record := st.record || !L.isEmpty, chunks := st.chunks ++ L } := by
  induction L with
  | nil => intro st _ _; simp [steps]
  | cons ws L ih =>
    intro st ht h
    obtain ⟨t, ts, rfl, hn⟩ := h ws (by simp)
    simp only [steps, step_row hR ht hn]
    rw [ih (st := { st with record := true, chunks := st.chunks ++ [t :: ts] }) ht fun x hx => h x (List.mem_cons_of_mem _ hx)]
    simp

theorem steps_out {R : Reader K} {L : List (List Word)} (h : ∀ ws ∈ L, ws ≠ [] ∧ ws.head? ≠ some "MULT".toList) {st : State K} (ht : st.table = false) :
    steps R st L = .ok st := by
  induction L with
  | nil => rfl
  | cons ws L ih =>
    obtain ⟨h1, h2⟩ := h ws (by simp)
    cases ws with
    | nil => exact absurd rfl h1
    | cons t ts =>
      simp only [List.head?_cons, ne_eq, Option.some.injEq] at h2
      simp only [steps, step, ht, Bool.false_eq_true, false_and, if_false, inner, Bool.not_false, if_true, start]
      rw [if_pos h2]
      exact ih fun x hx => h x (List.mem_cons_of_mem _ hx)

theorem lookup_dir {d x : Word} (h : dirOf d = some x) : faceDict.lookup d = some x ∧ d ≠ "MINUS".toList := by
  unfold dirOf at h
  split at h
  · rename_i h1
    cases h
    rcases h1 with rfl | rfl <;> decide
  · split at h
    · rename_i h1
      cases h
      rcases h1 with rfl | rfl <;> decide
    · split at h
      · rename_i h1
        cases h
        rcases h1 with rfl | rfl <;> decide
      · cases h

theorem forall₂_isNum {R : Reader K} {grid name face : Word} {L : List (List Word)} {rs : List (Row K)} (h : List.Forall₂ (IsRow R grid name face) L rs) :
    ∀ ws ∈ L, ∃ t ts, ws = t :: ts ∧ R.isNum t = true := by
  induction h with
  | nil => simp
  | cons h _ ih =>
    intro ws hws
    rcases List.mem_cons.1 hws with rfl | hws
    · obtain ⟨a, b, c, d, e, f, g, rfl, hn, _⟩ := h
      exact ⟨a, _, rfl, hn⟩
    · exact ih ws hws

theorem steps_table {R : Reader K} (hR : R.Keywords) {st : State K} {out : List (Row K)} (hw : Waiting R st out) {t : Table} {rs : List (Row K)} (ht : Stands R t rs) :
    ∃ st', steps R st t.words = .ok st' ∧ Waiting R st' (out ++ rs) := by
  obtain ⟨d, hd, hrows⟩ := ht.rows
  obtain ⟨hl, hm⟩ := lookup_dir hd
  have hface : d ++ (if "MINUS".toList ∈ t.options then ['-'] else []) = t.face d := by
    unfold Table.face
    split <;> simp
  have e1 := step_mult hR hw hl t.options hm
  rw [hface] at e1
  have e2 := steps_heads hR t.heads (st := ⟨true, false, "ROOT".toList, "NONE".toList, t.face d, [], out⟩) rfl rfl
  simp only at e2
  have e3 := steps_rows hR (L := t.rows) (st := ⟨true, false, gridOf "ROOT".toList t.heads, nameOf "NONE".toList t.heads, t.face d, [], out⟩) rfl (forall₂_isNum hrows)
  simp only [Bool.false_or, List.nil_append] at e3
  have e : steps R st t.words = steps R ⟨true, !t.rows.isEmpty, gridOf "ROOT".toList t.heads, nameOf "NONE".toList t.heads, t.face d, t.rows, out⟩ t.after := by
    unfold Table.words
    simp only [List.cons_append, steps, e1]
    rw [List.append_assoc, steps_append, e2]
    simp only
    rw [steps_append, e3]
  have hclose : close R ⟨true, !t.rows.isEmpty, gridOf "ROOT".toList t.heads, nameOf "NONE".toList t.heads, t.face d, t.rows, out⟩ =
      .ok ⟨false, false, gridOf "ROOT".toList t.heads, nameOf "NONE".toList t.heads, t.face d, [], out ++ rs⟩ := by
    unfold close
    simp only [rowsOf_isRow hrows]
    rfl
  rw [e]
  cases ha : t.after with
  | nil =>
    refine ⟨_, rfl, ?_⟩
    cases hr : t.rows with
    | nil =>
      rw [hr] at hrows
      cases hrows
      exact Or.inl ⟨rfl, rfl, by simp⟩
    | cons r L =>
      rw [hr] at hclose
      exact Or.inr ⟨rfl, by simp, hclose⟩
  | cons ws L =>
    obtain ⟨hne, hnum⟩ := ht.first ws (by rw [ha]; rfl)
    obtain ⟨h1, h2⟩ := ht.after ws (by rw [ha]; simp)
    cases ws with
    | nil => exact absurd rfl h1
    | cons w ws =>
      have hw1 := hnum w rfl
      have hrec : (!t.rows.isEmpty) = true := by
        cases hr : t.rows with
        | nil => exact absurd hr hne
        | cons => rfl
      simp only [List.head?_cons, ne_eq, Option.some.injEq] at h2
      refine ⟨⟨false, false, gridOf "ROOT".toList t.heads, nameOf "NONE".toList t.heads, t.face d, [], out ++ rs⟩, ?_, Or.inl ⟨rfl, rfl, rfl⟩⟩
      simp only [steps, step, hw1, Bool.false_eq_true, and_false, if_false]
      rw [if_pos (by simp [hrec]), hclose]
      simp only [inner, Bool.not_false, if_true, start]
      rw [if_pos h2]
      exact steps_out (fun x hx => ht.after x (by rw [ha]; exact List.mem_cons_of_mem _ hx)) rfl

theorem steps_tables {R : Reader K} (hR : R.Keywords) {ts : List Table} {rss : List (List (Row K))} (h : List.Forall₂ (Stands R) ts rss) :
    ∀ {st : State K} {out : List (Row K)}, Waiting R st out → ∃ st', steps R st (ts.flatMap Table.words) = .ok st' ∧ Waiting R st' (out ++ rss.flatten) := by
  induction h with
  | nil =>
    intro st out hw
    exact ⟨st, rfl, by simpa using hw⟩
  | cons h _ ih =>
    intro st out hw
    obtain ⟨st1, e1, w1⟩ := steps_table hR hw h
    obtain ⟨st2, e2, w2⟩ := ih w1
    refine ⟨st2, ?_, by simpa [List.append_assoc] using w2⟩
    rw [List.flatMap_cons, steps_append, e1]
    exact e2

/-- C197: all rows of all tables in a file are read in order, each with the grid, fault name and faces which the lines before it say; blank lines, comments, and lines outside
of tables make no difference. -/
theorem C197_read {R : Reader K} (hR : R.Keywords) {file : List (List Char)} {before : List (List Word)} {ts : List Table} {rss : List (List (Row K))}
    (hs : Says file (before ++ ts.flatMap Table.words)) (hb : ∀ ws ∈ before, ws ≠ [] ∧ ws.head? ≠ some "MULT".toList) (ht : List.Forall₂ (Stands R) ts rss) :
    load R file = .ok rss.flatten := by
  obtain ⟨st, e, hw⟩ := steps_tables hR ht (st := ⟨false, false, "ROOT".toList, [], [], [], []⟩) (Or.inl ⟨rfl, rfl, rfl⟩)
  unfold load
  rw [says_content hs, steps_append, steps_out hb rfl]
  simp only [e]
  rw [List.nil_append] at hw
  rcases hw with ⟨h1, _, h3⟩ | ⟨h1, h2, h3⟩
  · rw [if_neg (by simp [h1]), h3]
  · rw [if_pos ⟨h1, h2⟩, h3]
    rfl

end Verif.FaultTable
