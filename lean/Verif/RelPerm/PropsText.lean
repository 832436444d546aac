import Verif.RelPerm.PropsInterp
import Mathlib.Data.List.SplitOn

/-! # C193: tables written as text and read -/

namespace Verif.RelPerm
open Verif.Py

/-- A word which stays one word when read. -/
def Plain (w : Word) : Prop := w ≠ [] ∧ ∀ c ∈ w, c ≠ ' ' ∧ c ≠ '!' ∧ 32 ≤ c.toNat

theorem mem_lineOf {ws : List Word} {c : Char} (h : c ∈ lineOf ws) : c = ' ' ∨ ∃ w ∈ ws, c ∈ w := by
  unfold lineOf List.intercalate at h
  rw [List.mem_flatten] at h
  obtain ⟨l, hl, hc⟩ := h
  have : l ∈ ws ∨ l = [' '] := by
    clear hc
    induction ws with
    | nil => simp at hl
    | cons w ws ih =>
      cases ws with
      | nil =>
        simp at hl
        exact Or.inl (by simp [hl])
      | cons w' ws =>
        rw [List.intersperse_cons_cons] at hl
        rcases List.mem_cons.1 hl with rfl | hl
        · simp
        · rcases List.mem_cons.1 hl with rfl | hl
          · simp
          · rcases ih hl with h | h
            · exact Or.inl (List.mem_cons_of_mem _ h)
            · exact Or.inr h
  rcases this with h | rfl
  · exact Or.inr ⟨l, h, hc⟩
  · simp at hc
    exact Or.inl hc

theorem stripControl_id {l : List Char} (h : ∀ c ∈ l, 32 ≤ c.toNat) : stripControl l = l := by
  have key : ∀ l : List Char, (∀ c ∈ l, 32 ≤ c.toNat) → (l.dropWhile fun c => 1 ≤ c.toNat ∧ c.toNat < 32) = l := by
    intro l hl
    cases l with
    | nil => rfl
    | cons c l =>
      have := hl c (by simp)
      rw [List.dropWhile_cons, if_neg]
      simp
      omega
  unfold stripControl
  rw [key l h, key l.reverse fun c hc => h c (List.mem_reverse.1 hc), List.reverse_reverse]

theorem dataOf_append (a b : List (List Char)) : dataOf (a ++ b) = dataOf a ++ dataOf b := by
  simp [dataOf]

theorem dataOf_lines (L : List (List Word)) (h : ∀ ws ∈ L, ws ≠ [] ∧ ∀ w ∈ ws, Plain w) : dataOf (L.map lineOf) = L := by
  induction L with
  | nil => rfl
  | cons ws L ih =>
    obtain ⟨h1, h2⟩ := h ws (by simp)
    have hch : ∀ c ∈ lineOf ws, c ≠ '!' ∧ 32 ≤ c.toNat := by
      intro c hc
      rcases mem_lineOf hc with rfl | ⟨w, hw, hc⟩
      · decide
      · exact ((h2 w hw).2 c hc).2
    have hsplit : (lineOf ws).splitOn ' ' = ws := List.splitOn_intercalate _ (fun w hw hc => ((h2 w hw).2 _ hc).1 rfl) h1
    have hne : lineOf ws ≠ [] := by
      intro h0
      rw [h0] at hsplit
      rw [← hsplit] at h2
      exact (h2 [] (by simp)).1 rfl
    have e : dataOf ((ws :: L).map lineOf) = dataOf [lineOf ws] ++ dataOf (L.map lineOf) := by
      rw [← dataOf_append]
      rfl
    rw [e, ih fun x hx => h x (List.mem_cons_of_mem _ hx)]
    have : dataOf [lineOf ws] = [ws] := by
      unfold dataOf
      rw [List.filter_cons, if_pos]
      · simp only [List.filter_nil, List.map_cons, List.map_nil, List.cons.injEq, and_true]
        rw [stripControl_id fun c hc => (hch c hc).2, hsplit]
        exact List.filter_eq_self.2 fun w hw => by simpa using (h2 w hw).1
      · simp only [decide_eq_true_eq]
        exact ⟨hne, fun hc => (hch _ hc).1 rfl⟩
    rw [this]
    rfl

theorem blocks_none (rows rest : List (List Word)) (h : ∀ r ∈ rows, isStart r = false) : blocks (rows ++ rest) = blocks rest := by
  induction rows with
  | nil => rfl
  | cons r rows ih =>
    rw [List.cons_append, blocks, h r (by simp)]
    simp only [Bool.false_eq_true, if_false]
    exact ih fun x hx => h x (List.mem_cons_of_mem _ hx)

theorem blocks_one (first names : List Word) (rows rest : List (List Word)) (h1 : isStart first = true) (h2 : isStart names = false) (h3 : ∀ r ∈ rows, isStart r = false)
    (h4 : ∀ l, rest.head? = some l → isStart l = true) : blocks (first :: names :: (rows ++ rest)) = (first, some names, rows) :: blocks rest := by
  have hw : ((names :: (rows ++ rest)).takeWhile fun m => !isStart m) = names :: rows := by
    rw [List.takeWhile_cons, if_pos (by simp [h2]), List.takeWhile_append_of_pos (by simpa using h3)]
    cases rest with
    | nil => simp
    | cons l rest => simp [h4 l rfl]
  rw [blocks, if_pos h1, hw]
  rw [show names :: (rows ++ rest) = (names :: rows) ++ rest from rfl, blocks_none (names :: rows) rest (by
    intro r hr
    rcases List.mem_cons.1 hr with rfl | hr
    · exact h2
    · exact h3 r hr)]
  rfl

/-- The words of a table. -/
def wordsOf (fmt : ℚ → Word) (r : Rel) (first names : List Word) : List (List Word) := first :: names :: r.frame.rows.map fun row => (present row).map fmt

theorem number_plain {fmt : ℚ → Word} {num : Word → Val} {x : ℚ} (h : Prints fmt num x) : Plain (fmt x) ∧ fmt x ∉ keywords := by
  obtain ⟨_, h2, h3⟩ := h
  refine ⟨⟨h2, fun c hc => ?_⟩, ?_⟩
  · have : ∀ c ∈ "0123456789+-.e".toList, c ≠ ' ' ∧ c ≠ '!' ∧ 32 ≤ c.toNat := by decide
    exact this c (h3 c hc)
  · intro hk
    have : ∀ w ∈ keywords, 'T' ∈ w := by decide
    have hT := h3 'T' (this _ hk)
    exact absurd hT (by decide)

instance (w : Word) : Decidable (Plain w) := by
  unfold Plain
  infer_instance

instance (fmt : ℚ → Word) (num : Word → Val) (x : ℚ) : Decidable (Prints fmt num x) := by
  unfold Prints
  infer_instance

/-- What is needed of the heading of a table. -/
def Heading (p q : Phase) (cols : List Word) (first names : List Word) : Prop :=
  (first ≠ [] ∧ ∀ w ∈ first, Plain w) ∧ (∀ w ∈ names, Plain w) ∧ names.length = cols.length ∧ isStart first = true ∧ isStart names = false ∧
    comboIn first = .ok (usual p q) ∧ allSome (fun n => columnNames.lookup n) names = some cols

instance (p q : Phase) (cols first names : List Word) : Decidable (Heading p q cols first names) := by
  unfold Heading
  infer_instance

/-- What the heading of a table is. -/
theorem headings_ok {r : Rel} {p q : Phase} (hpq : p ≠ q) (ho : p ≠ .oil) (hl : Layout p q r.frame.cols) : ∃ first names, headings r = .ok (first, names) ∧
    Heading p q r.frame.cols first names := by
  have key : ∀ (b : Bool), ∀ p ∈ [Phase.water, Phase.oil, Phase.gas], ∀ q ∈ [Phase.water, Phase.oil, Phase.gas], p ≠ q → p ≠ .oil →
      ∀ cols ∈ [[sat p, kr p, kr q], [sat p, kr q, kr p], [sat p, kr p, kr q, pc], [sat p, kr q, kr p, pc]],
      (match headings ⟨⟨cols, []⟩, [], .bool b⟩ with
        | .ok (first, names) => decide (Heading p q cols first names)
        | .error _ => false) = true := by
    decide +kernel
  have hp : ∀ p : Phase, p ∈ [Phase.water, Phase.oil, Phase.gas] := by
    intro p
    cases p <;> decide
  have hc : r.frame.cols ∈ [[sat p, kr p, kr q], [sat p, kr q, kr p], [sat p, kr p, kr q, pc], [sat p, kr q, kr p, pc]] := by
    rcases hl with h | h | h | h <;> rw [h] <;> simp
  have h := key r.low.truthy p (hp p) q (hp q) hpq ho _ hc
  have e : headings ⟨⟨r.frame.cols, []⟩, [], .bool r.low.truthy⟩ = headings r := rfl
  rw [e] at h
  cases hh : headings r with
  | error e => rw [hh] at h; cases h
  | ok x =>
    rw [hh] at h
    exact ⟨x.1, x.2, rfl, of_decide_eq_true h⟩

/-- A row of a table which can be written. -/
theorem row_shape {t : Frame} {p q : Phase} (hpq : p ≠ q) (hg : Good t p q) (hf : ∀ r ∈ t.rows, r.length = t.cols.length) {r : List Val} (hr : r ∈ t.rows) :
    ∃ a b c : ℚ, t.get (sat p) r = some a ∧ ((t.cols.length = 3 ∧ pc ∉ t.cols ∧ r = [some a, some b, some c]) ∨
      (t.cols.length = 4 ∧ pc ∈ t.cols ∧ ∃ v, t.get pc r = v ∧ r = [some a, some b, some c, v])) := by
  have hlen := hf r hr
  obtain ⟨a, ha, _⟩ := hg.whole (sat p) (by simp) _ (List.mem_map_of_mem hr)
  obtain ⟨b, hb, _⟩ := hg.whole (kr p) (by simp) _ (List.mem_map_of_mem hr)
  obtain ⟨c, hc, _⟩ := hg.whole (kr q) (by simp) _ (List.mem_map_of_mem hr)
  have n1 := sat_ne_kr p p
  have n2 := sat_ne_kr p q
  have n3 := kr_inj hpq
  have n4 := sat_ne_pc p
  have n5 := kr_ne_pc p
  have n6 := kr_ne_pc q
  unfold Frame.get at ha hb hc
  rcases hg.layout with h | h | h | h <;> rw [h] at hlen ha hb hc <;>
    simp only [List.idxOf_cons_self, List.idxOf_cons_ne _ n1, List.idxOf_cons_ne _ n2, List.idxOf_cons_ne _ n3, List.idxOf_cons_ne _ n3.symm, Nat.succ_eq_add_one, Nat.reduceAdd] at ha hb hc
  · match r, hlen with
    | [x, y, z], _ =>
      simp at ha hb hc
      subst ha hb hc
      exact ⟨a, b, c, by simp [Frame.get, h], Or.inl ⟨by rw [h]; rfl, by rw [h]; simp [n4.symm, n5.symm, n6.symm], rfl⟩⟩
  · match r, hlen with
    | [x, y, z], _ =>
      simp at ha hb hc
      subst ha hb hc
      exact ⟨a, c, b, by simp [Frame.get, h], Or.inl ⟨by rw [h]; rfl, by rw [h]; simp [n4.symm, n5.symm, n6.symm], rfl⟩⟩
  · match r, hlen with
    | [x, y, z, w], _ =>
      simp at ha hb hc
      subst ha hb hc
      refine ⟨a, b, c, by simp [Frame.get, h], Or.inr ⟨by rw [h]; rfl, by rw [h]; simp, w, ?_, rfl⟩⟩
      unfold Frame.get
      rw [h, List.idxOf_cons_ne _ n4, List.idxOf_cons_ne _ n5, List.idxOf_cons_ne _ n6]
      simp
  · match r, hlen with
    | [x, y, z, w], _ =>
      simp at ha hb hc
      subst ha hb hc
      refine ⟨a, c, b, by simp [Frame.get, h], Or.inr ⟨by rw [h]; rfl, by rw [h]; simp, w, ?_, rfl⟩⟩
      unfold Frame.get
      rw [h, List.idxOf_cons_ne _ n4, List.idxOf_cons_ne _ n6, List.idxOf_cons_ne _ n5]
      simp

theorem sat_found {p q : Phase} {cols : List Word} (h : Layout p q cols) : cols.find? (fun x => 'S' ∈ x) = some (sat p) := by
  rcases h with h | h | h | h <;> rw [h] <;> simp [sat]

theorem max_le {rows : List (List Word)} {n : Nat} (h : ∀ r ∈ rows, r.length ≤ n) : rows.foldr (fun r n => max r.length n) 0 ≤ n := by
  induction rows with
  | nil => simp
  | cons r rows ih =>
    rw [List.foldr_cons]
    exact Nat.max_le.2 ⟨h r (by simp), ih fun x hx => h x (List.mem_cons_of_mem _ hx)⟩

theorem le_max {rows : List (List Word)} {r : List Word} (h : r ∈ rows) : r.length ≤ rows.foldr (fun r n => max r.length n) 0 := by
  induction rows with
  | nil => simp at h
  | cons s rows ih =>
    rw [List.foldr_cons]
    rcases List.mem_cons.1 h with rfl | h
    · exact Nat.le_max_left _ _
    · exact le_trans (ih h) (Nat.le_max_right _ _)

/-- The table is made from its words. -/
theorem makeFrame_ok {fmt : ℚ → Word} {num : Word → Val} {t : Frame} {p q : Phase} (hw : Writable t p q) (hn : ∀ r ∈ t.rows, ∀ x, some x ∈ r → Prints fmt num x)
    {names : List Word} (h1 : names.length = t.cols.length) (h2 : allSome (fun n => columnNames.lookup n) names = some t.cols) :
    makeFrame num names (t.rows.map fun row => (present row).map fmt) = .ok t := by
  have hrow : ∀ r ∈ t.rows, ((List.range names.length).map fun i => (((present r).map fmt)[i]?).bind num) = r ∧ ((present r).map fmt).length ≤ names.length ∧
      (pc ∈ t.cols → t.get pc r ≠ none → ((present r).map fmt).length = names.length) ∧ (pc ∉ t.cols → ((present r).map fmt).length = names.length) ∧
      (t.get (sat p) r).isSome = true := by
    intro r hr
    obtain ⟨a, b, c, hs, h⟩ := row_shape hw.phases hw.good hw.full hr
    rcases h with ⟨e1, e2, rfl⟩ | ⟨e1, e2, v, e3, rfl⟩
    · have na := (hn _ hr a (by simp)).1
      have nb := (hn _ hr b (by simp)).1
      have nc := (hn _ hr c (by simp)).1
      rw [h1, e1]
      refine ⟨?_, ?_, ?_, ?_, ?_⟩
      · simp [present, List.range_succ, na, nb, nc]
      · simp [present]
      · exact fun h => absurd h e2
      · simp [present]
      · rw [hs]
        rfl
    · have na := (hn _ hr a (by simp)).1
      have nb := (hn _ hr b (by simp)).1
      have nc := (hn _ hr c (by simp)).1
      rw [h1, e1]
      refine ⟨?_, ?_, ?_, ?_, ?_⟩
      · cases v with
        | none => simp [present, List.range_succ, na, nb, nc]
        | some d =>
          have nd := (hn _ hr d (by simp)).1
          simp [present, List.range_succ, na, nb, nc, nd]
      · cases v <;> simp [present]
      · intro _ h
        cases v with
        | none => exact absurd e3 h
        | some d => simp [present]
      · exact fun h => absurd e2 h
      · rw [hs]
        rfl
  have hmax : (t.rows.map fun row => (present row).map fmt).foldr (fun r n => max r.length n) 0 = names.length := by
    apply le_antisymm
    · apply max_le
      intro w hw'
      rw [List.mem_map] at hw'
      obtain ⟨r, hr, rfl⟩ := hw'
      exact (hrow r hr).2.1
    · have : ∃ r ∈ t.rows, ((present r).map fmt).length = names.length := by
        by_cases hpc : pc ∈ t.cols
        · obtain ⟨r, hr, h⟩ := hw.some hpc
          exact ⟨r, hr, (hrow r hr).2.2.1 hpc h⟩
        · obtain ⟨r, hr⟩ := List.exists_mem_of_ne_nil _ hw.rows
          exact ⟨r, hr, (hrow r hr).2.2.2.1 hpc⟩
      obtain ⟨r, hr, h⟩ := this
      rw [← h]
      exact le_max (List.mem_map_of_mem (f := fun row => (present row).map fmt) hr)
  unfold makeFrame
  rw [if_neg (by rw [hmax]; simp), h2]
  simp only [sat_found hw.good.layout, List.map_map]
  have e : (t.rows.map ((fun r => (List.range names.length).map fun i => (r[i]?).bind num) ∘ fun row => (present row).map fmt)) = t.rows := by
    conv_rhs => rw [← List.map_id t.rows]
    apply List.map_congr_left
    intro r hr
    exact (hrow r hr).1
  rw [e]
  have hfil : (t.rows.filter fun r => ((⟨t.cols, t.rows⟩ : Frame).get (sat p) r).isSome) = t.rows := List.filter_eq_self.2 fun r hr => (hrow r hr).2.2.2.2
  rw [hfil]

theorem rows_plain {fmt : ℚ → Word} {num : Word → Val} {t : Frame} {p q : Phase} (hw : Writable t p q) (hn : ∀ r ∈ t.rows, ∀ x, some x ∈ r → Prints fmt num x)
    {r : List Val} (hr : r ∈ t.rows) : (present r).map fmt ≠ [] ∧ (∀ w ∈ (present r).map fmt, Plain w) ∧ isStart ((present r).map fmt) = false := by
  have hall : ∀ w ∈ (present r).map fmt, Plain w ∧ w ∉ keywords := by
    intro w hw'
    rw [List.mem_map] at hw'
    obtain ⟨x, hx, rfl⟩ := hw'
    have : some x ∈ r := by
      unfold present at hx
      simpa using hx
    exact number_plain (hn r hr x this)
  refine ⟨?_, fun w h => (hall w h).1, ?_⟩
  · obtain ⟨a, b, c, _, h⟩ := row_shape hw.phases hw.good hw.full hr
    rcases h with ⟨_, _, rfl⟩ | ⟨_, _, v, _, rfl⟩ <;> simp [present]
  · unfold isStart
    have : (keywords.filter fun k => k ∈ (present r).map fmt) = [] := by
      rw [List.filter_eq_nil_iff]
      intro k hk hk2
      exact (hall k (by simpa using hk2)).2 hk
    rw [this]
    rfl

/-- Lines of a table and what their words are. -/
theorem table_words {fmt : ℚ → Word} {num : Word → Val} {r : Rel} {p q : Phase} (hw : Writable r.frame p q)
    (hn : ∀ row ∈ r.frame.rows, ∀ x, some x ∈ row → Prints fmt num x) : ∃ ls first names, tableLines fmt r = .ok ls ∧
      dataOf ls = first :: names :: (r.frame.rows.map fun row => (present row).map fmt) ∧ Heading p q r.frame.cols first names := by
  obtain ⟨first, names, h1, h2⟩ := headings_ok (r := r) hw.phases hw.notOil hw.good.layout
  refine ⟨_, first, names, by unfold tableLines; rw [h1], ?_, h2⟩
  have e : (lineOf first :: lineOf names :: r.frame.rows.map fun row => lineOf ((present row).map fmt)) =
      (first :: names :: (r.frame.rows.map fun row => (present row).map fmt)).map lineOf := by
    simp
  rw [e]
  apply dataOf_lines
  intro ws hws
  obtain ⟨g1, g2, g3, _⟩ := h2
  rcases List.mem_cons.1 hws with rfl | hws
  · exact g1
  · rcases List.mem_cons.1 hws with rfl | hws
    · refine ⟨?_, g2⟩
      rintro rfl
      rcases hw.good.layout with h | h | h | h <;> rw [h] at g3 <;> simp at g3
    · rw [List.mem_map] at hws
      obtain ⟨row, hrow, rfl⟩ := hws
      obtain ⟨k1, k2, _⟩ := rows_plain hw hn hrow
      exact ⟨k1, k2⟩

/-- Words of tables, one after the other. -/
inductive Words (fmt : ℚ → Word) : List (Rel × Phase × Phase) → List (List Word) → Prop
  | nil : Words fmt [] []
  | cons {r p q ts first names D} : Heading p q r.frame.cols first names → Words fmt ts D →
      Words fmt ((r, p, q) :: ts) (first :: names :: ((r.frame.rows.map fun row => (present row).map fmt) ++ D))

theorem words_head {fmt : ℚ → Word} {ts : List (Rel × Phase × Phase)} {D : List (List Word)} (h : Words fmt ts D) : ∀ l, D.head? = some l → isStart l = true := by
  intro l hl
  cases h with
  | nil => simp at hl
  | cons h _ =>
    simp only [List.head?_cons, Option.some.injEq] at hl
    subst hl
    exact h.2.2.2.1

theorem words_read {fmt : ℚ → Word} {num : Word → Val} {ts : List (Rel × Phase × Phase)} {D : List (List Word)} (h : Words fmt ts D)
    (hw : ∀ x ∈ ts, Writable x.1.frame x.2.1 x.2.2 ∧ ∀ row ∈ x.1.frame.rows, ∀ v, some v ∈ row → Prints fmt num v) :
    readBlocks num (blocks D) = .ok (ts.map fun x => (usual x.2.1 x.2.2, x.1.frame)) := by
  induction h with
  | nil => rfl
  | cons hh hD ih =>
    rename_i r p q ts first names D
    obtain ⟨w1, w2⟩ := hw (r, p, q) (by simp)
    obtain ⟨g1, g2, g3, g4, g5, g6, g7⟩ := hh
    rw [blocks_one first names _ D g4 g5 ?_ (words_head hD)]
    · simp only [readBlocks, g6, makeFrame_ok w1 w2 g3 g7, ih fun x hx => hw x (List.mem_cons_of_mem _ hx), List.map_cons]
    · intro ws hws
      rw [List.mem_map] at hws
      obtain ⟨row, hrow, rfl⟩ := hws
      exact (rows_plain w1 w2 hrow).2.2

theorem words_append {fmt : ℚ → Word} {a b : List (Rel × Phase × Phase)} {D E : List (List Word)} (h1 : Words fmt a D) (h2 : Words fmt b E) : Words fmt (a ++ b) (D ++ E) := by
  induction h1 with
  | nil => exact h2
  | cons h _ ih =>
    have := Words.cons h ih
    simpa using this

theorem write_words {fmt : ℚ → Word} {num : Word → Val} (ts : List (Rel × Phase × Phase)) :
    ∀ (done : List (Rel × Phase × Phase)) (old : List (List Char)), Words fmt done (dataOf old) →
    (∀ x ∈ ts, Writable x.1.frame x.2.1 x.2.2 ∧ ∀ row ∈ x.1.frame.rows, ∀ v, some v ∈ row → Prints fmt num v) →
    ∃ file, writeAll fmt (some old) (ts.map Prod.fst) = .ok (some file) ∧ Words fmt (done ++ ts) (dataOf file) := by
  induction ts with
  | nil =>
    intro done old h _
    exact ⟨old, rfl, by simpa using h⟩
  | cons x ts ih =>
    intro done old h hw
    obtain ⟨r, p, q⟩ := x
    obtain ⟨w1, w2⟩ := hw (r, p, q) (by simp)
    obtain ⟨ls, first, names, h1, h2, h3⟩ := table_words w1 w2
    have h4 : Words fmt (done ++ [(r, p, q)]) (dataOf (old ++ [[]] ++ ls)) := by
      rw [dataOf_append, dataOf_append, show dataOf [[]] = [] from rfl, List.append_nil, h2]
      have := Words.cons h3 (Words.nil (fmt := fmt))
      rw [List.append_nil] at this
      exact words_append h this
    obtain ⟨file, e1, e2⟩ := ih _ _ h4 fun x hx => hw x (List.mem_cons_of_mem _ hx)
    refine ⟨file, ?_, by simpa using e2⟩
    simp only [List.map_cons, writeAll, toText, h1]
    exact e1

/-- C193: tables written one after the other to a new file are read from it in the same order, each with its phases and all of its values, missing ones as well. -/
theorem C193_round_trip_partial {fmt : ℚ → Word} {num : Word → Val} {ts : List (Rel × Phase × Phase)} (hne : ts ≠ [])
    (hw : ∀ x ∈ ts, Writable x.1.frame x.2.1 x.2.2) (hn : ∀ x ∈ ts, ∀ row ∈ x.1.frame.rows, ∀ v, some v ∈ row → Prints fmt num v) :
    ∃ file, writeAll fmt none (ts.map Prod.fst) = .ok (some file) ∧ readText num file = .ok (ts.map fun x => (usual x.2.1 x.2.2, x.1.frame)) := by
  cases ts with
  | nil => exact absurd rfl hne
  | cons x ts =>
    obtain ⟨r, p, q⟩ := x
    have w1 := hw (r, p, q) (by simp)
    have w2 := hn (r, p, q) (by simp)
    obtain ⟨ls, first, names, h1, h2, h3⟩ := table_words w1 w2
    have h4 : Words fmt [(r, p, q)] (dataOf ls) := by
      rw [h2]
      have := Words.cons h3 (Words.nil (fmt := fmt))
      rw [List.append_nil] at this
      exact this
    obtain ⟨file, e1, e2⟩ := write_words (num := num) ts _ _ h4 fun x hx => ⟨hw x (List.mem_cons_of_mem _ hx), hn x (List.mem_cons_of_mem _ hx)⟩
    refine ⟨file, ?_, ?_⟩
    · simp only [List.map_cons, writeAll, toText, h1]
      exact e1
    · exact words_read e2 fun x hx => ⟨hw x hx, hn x hx⟩

/-- C193: a table is added to what is in the file, of which nothing is changed. -/
theorem C193_appended {fmt : ℚ → Word} {old new : List (List Char)} {r : Rel} (h : toText fmt (some old) r = .ok new) :
    ∃ ls, toText fmt none r = .ok ls ∧ new = old ++ [] :: ls := by
  unfold toText at h ⊢
  cases e : tableLines fmt r with
  | error err => rw [e] at h; cases h
  | ok ls =>
    rw [e] at h
    simp only [Except.ok.injEq] at h
    exact ⟨ls, rfl, by rw [← h]; simp⟩

/-- C193 (violated): a table by saturation of oil is written, but it cannot be read, since no name is known for that column. -/
theorem C193_oil_violated {fmt : ℚ → Word} {num : Word → Val} {r : Rel} {q : Phase} (hq : q ≠ .oil) (hg : Good r.frame .oil q)
    (hf : ∀ row ∈ r.frame.rows, row.length = r.frame.cols.length) (hn : ∀ row ∈ r.frame.rows, ∀ v, some v ∈ row → Prints fmt num v) :
    ∃ file e, toText fmt none r = .ok file ∧ readText num file = .error e := by
  have key : ∀ (b : Bool), ∀ q ∈ [Phase.water, Phase.gas],
      ∀ cols ∈ [[sat .oil, kr .oil, kr q], [sat .oil, kr q, kr .oil], [sat .oil, kr .oil, kr q, pc], [sat .oil, kr q, kr .oil, pc]],
      (match headings ⟨⟨cols, []⟩, [], .bool b⟩ with
        | .ok (first, names) => decide ((first ≠ [] ∧ ∀ w ∈ first, Plain w) ∧ (names ≠ [] ∧ ∀ w ∈ names, Plain w) ∧ isStart first = true ∧ isStart names = false ∧
            comboIn first = .ok (usual .oil q) ∧ allSome (fun n => columnNames.lookup n) names = none)
        | .error _ => false) = true := by
    decide +kernel
  have hp : q ∈ [Phase.water, Phase.gas] := by
    cases q <;> first | decide | exact absurd rfl hq
  have hc : r.frame.cols ∈ [[sat .oil, kr .oil, kr q], [sat .oil, kr q, kr .oil], [sat .oil, kr .oil, kr q, pc], [sat .oil, kr q, kr .oil, pc]] := by
    rcases hg.layout with h | h | h | h <;> rw [h] <;> simp
  have h := key r.low.truthy q hp _ hc
  have e : headings ⟨⟨r.frame.cols, []⟩, [], .bool r.low.truthy⟩ = headings r := rfl
  rw [e] at h
  cases hh : headings r with
  | error e => rw [hh] at h; cases h
  | ok x =>
    rw [hh] at h
    obtain ⟨first, names⟩ := x
    have h := of_decide_eq_true h
    obtain ⟨g1, g2, g3, g4, g5, g6⟩ := h
    have hrows : ∀ row ∈ r.frame.rows, (present row).map fmt ≠ [] ∧ (∀ w ∈ (present row).map fmt, Plain w) ∧ isStart ((present row).map fmt) = false := by
      intro row hrow
      have hall : ∀ w ∈ (present row).map fmt, Plain w ∧ w ∉ keywords := by
        intro w hw'
        rw [List.mem_map] at hw'
        obtain ⟨x, hx, rfl⟩ := hw'
        have : some x ∈ row := by
          unfold present at hx
          simpa using hx
        exact number_plain (hn row hrow x this)
      refine ⟨?_, fun w h => (hall w h).1, ?_⟩
      · obtain ⟨a, b, c, _, h⟩ := row_shape (Ne.symm hq) hg hf hrow
        rcases h with ⟨_, _, rfl⟩ | ⟨_, _, v, _, rfl⟩ <;> simp [present]
      · unfold isStart
        have : (keywords.filter fun k => k ∈ (present row).map fmt) = [] := by
          rw [List.filter_eq_nil_iff]
          intro k hk hk2
          exact (hall k (by simpa using hk2)).2 hk
        rw [this]
        rfl
    have e2 : (lineOf first :: lineOf names :: r.frame.rows.map fun row => lineOf ((present row).map fmt)) =
        (first :: names :: (r.frame.rows.map fun row => (present row).map fmt)).map lineOf := by
      simp
    have hdata : dataOf (lineOf first :: lineOf names :: r.frame.rows.map fun row => lineOf ((present row).map fmt)) =
        first :: names :: ((r.frame.rows.map fun row => (present row).map fmt) ++ []) := by
      rw [e2, List.append_nil]
      apply dataOf_lines
      intro ws hws
      rcases List.mem_cons.1 hws with rfl | hws
      · exact g1
      · rcases List.mem_cons.1 hws with rfl | hws
        · exact g2
        · rw [List.mem_map] at hws
          obtain ⟨row, hrow, rfl⟩ := hws
          exact ⟨(hrows row hrow).1, (hrows row hrow).2.1⟩
    have hread : ∃ e, readText num (lineOf first :: lineOf names :: r.frame.rows.map fun row => lineOf ((present row).map fmt)) = .error e := by
      unfold readText
      rw [hdata, blocks_one first names _ [] g3 g4 (by
        intro ws hws
        rw [List.mem_map] at hws
        obtain ⟨row, hrow, rfl⟩ := hws
        exact (hrows row hrow).2.2) (by simp)]
      simp only [readBlocks, g5, makeFrame, g6]
      by_cases hv : (r.frame.rows.map fun row => (present row).map fmt) ≠ [] ∧
          (r.frame.rows.map fun row => (present row).map fmt).foldr (fun r n => max r.length n) 0 ≠ names.length
      · exact ⟨.value, by rw [if_pos hv]⟩
      · exact ⟨.type, by rw [if_neg hv]⟩
    obtain ⟨err, he⟩ := hread
    exact ⟨_, err, by unfold toText tableLines; rw [hh], he⟩

/-- C193 (violated): a table with a column for capillary pressure in which all are missing is written, but it cannot be read. -/
theorem C193_all_missing_violated {fmt : ℚ → Word} {num : Word → Val} {r : Rel} {p q : Phase} (hpq : p ≠ q) (ho : p ≠ .oil) (hg : Good r.frame p q)
    (hr : r.frame.rows ≠ []) (hf : ∀ row ∈ r.frame.rows, row.length = r.frame.cols.length) (hn : ∀ row ∈ r.frame.rows, ∀ v, some v ∈ row → Prints fmt num v)
    (hc : pc ∈ r.frame.cols) (hm : ∀ row ∈ r.frame.rows, r.frame.get pc row = none) : ∃ file, toText fmt none r = .ok file ∧ readText num file = .error .value := by
  obtain ⟨first, names, h1, ⟨g1, g2, g3, g4, g5, g6, g7⟩⟩ := headings_ok (r := r) hpq ho hg.layout
  have hrows : ∀ row ∈ r.frame.rows, ((present row).map fmt).length = 3 ∧ names.length = 4 ∧ (∀ w ∈ (present row).map fmt, Plain w) ∧
      isStart ((present row).map fmt) = false := by
    intro row hrow
    have hall : ∀ w ∈ (present row).map fmt, Plain w ∧ w ∉ keywords := by
      intro w hw'
      rw [List.mem_map] at hw'
      obtain ⟨x, hx, rfl⟩ := hw'
      have : some x ∈ row := by
        unfold present at hx
        simpa using hx
      exact number_plain (hn row hrow x this)
    refine ⟨?_, ?_, fun w h => (hall w h).1, ?_⟩
    · obtain ⟨a, b, c, _, h⟩ := row_shape hpq hg hf hrow
      rcases h with ⟨_, h, _⟩ | ⟨_, _, v, hv, rfl⟩
      · exact absurd hc h
      · rw [hm _ hrow] at hv
        simp [present, ← hv]
    · obtain ⟨a, b, c, _, h⟩ := row_shape hpq hg hf hrow
      rcases h with ⟨_, h, _⟩ | ⟨h, _⟩
      · exact absurd hc h
      · rw [g3, h]
    · unfold isStart
      have : (keywords.filter fun k => k ∈ (present row).map fmt) = [] := by
        rw [List.filter_eq_nil_iff]
        intro k hk hk2
        exact (hall k (by simpa using hk2)).2 hk
      rw [this]
      rfl
  refine ⟨lineOf first :: lineOf names :: r.frame.rows.map fun row => lineOf ((present row).map fmt), by unfold toText tableLines; rw [h1], ?_⟩
  obtain ⟨row0, hrow0⟩ := List.exists_mem_of_ne_nil _ hr
  have hdata : dataOf (lineOf first :: lineOf names :: r.frame.rows.map fun row => lineOf ((present row).map fmt)) =
      first :: names :: ((r.frame.rows.map fun row => (present row).map fmt) ++ []) := by
    have e2 : (lineOf first :: lineOf names :: r.frame.rows.map fun row => lineOf ((present row).map fmt)) =
        (first :: names :: (r.frame.rows.map fun row => (present row).map fmt)).map lineOf := by
      simp
    rw [e2, List.append_nil]
    apply dataOf_lines
    intro ws hws
    rcases List.mem_cons.1 hws with rfl | hws
    · exact g1
    · rcases List.mem_cons.1 hws with rfl | hws
      · refine ⟨?_, g2⟩
        rintro rfl
        have := (hrows row0 hrow0).2.1
        simp at this
      · rw [List.mem_map] at hws
        obtain ⟨row, hrow, rfl⟩ := hws
        refine ⟨?_, (hrows row hrow).2.2.1⟩
        intro h0
        have := (hrows row hrow).1
        rw [h0] at this
        simp at this
  unfold readText
  rw [hdata, blocks_one first names _ [] g4 g5 (by
    intro ws hws
    rw [List.mem_map] at hws
    obtain ⟨row, hrow, rfl⟩ := hws
    exact (hrows row hrow).2.2.2) (by simp)]
  have hmax : (r.frame.rows.map fun row => (present row).map fmt).foldr (fun r n => max r.length n) 0 ≤ 3 := by
    apply max_le
    intro w hw
    rw [List.mem_map] at hw
    obtain ⟨row, hrow, rfl⟩ := hw
    exact le_of_eq (hrows row hrow).1
  have h4 := (hrows row0 hrow0).2.1
  simp only [readBlocks, g6, makeFrame]
  rw [if_pos ⟨by simpa using hr, by omega⟩]

/-- C193 (violated): a table for water and oil which is not for low salinity, once stored in a model, is written as if it was. -/
theorem C193_low_salinity_violated {fmt : ℚ → Word} {r : Rel} {p q : Phase} (hpq : p = .water ∧ q = .oil ∨ p = .oil ∧ q = .water) (hg : Good r.frame p q)
    (hl : r.low = .bool false) : (∃ ls, toText fmt none r = .ok (lineOf ["WOTABLE".toList] :: ls)) ∧
      ∃ ls, toText fmt none (reload (store r)) = .ok (lineOf ["WOTABLE".toList, "(LOW_SAL)".toList] :: ls) := by
  have hn : "KRW".toList ∈ r.frame.cols.map upper ∧ "KRO".toList ∈ r.frame.cols.map upper := by
    rcases hpq with ⟨rfl, rfl⟩ | ⟨rfl, rfl⟩ <;> rcases hg.layout with h | h | h | h <;> rw [h] <;> decide
  constructor
  · have ht : Flag.truthy (.bool false) = false := rfl
    unfold toText tableLines headings
    simp only [hn, and_self, if_true, hl, ht, Bool.false_eq_true, if_false]
    exact ⟨_, rfl⟩
  · have e : reload (store r) = ⟨r.frame, r.combo, .text "false".toList⟩ := by
      unfold reload store
      rw [hl]
      rfl
    have ht : Flag.truthy (.text "false".toList) = true := by decide
    rw [e]
    unfold toText tableLines headings
    simp only [hn, and_self, if_true, ht]
    exact ⟨_, rfl⟩

/-- Numbers of the table as text. -/
def exText : List (ℚ × Word) :=
  [(1/10, "0.1".toList), (1/2, "0.5".toList), (9/10, "0.9".toList), (0, "0.0".toList), (1, "1.0".toList), (1/4, "0.25".toList), (5, "5.0".toList)]

/-- A number as text. -/
def exFmt (x : ℚ) : Word := (exText.lookup x).getD []

/-- Text as a number. -/
def exNum (w : Word) : Val := (exText.find? fun e => e.2 = w).map Prod.fst

example : Writable exTable .water .oil ∧ (∀ row ∈ exTable.rows, ∀ v, some v ∈ row → Prints exFmt exNum v) ∧
    (match toText exFmt none ⟨exTable, [], .bool false⟩ with
      | .ok file => readText exNum file
      | .error e => .error e) = .ok [("water-oil".toList, exTable)] := by
  refine ⟨⟨by decide, by decide, exTable_good, by decide, by decide, by decide +kernel⟩, ?_, by decide +kernel⟩
  have h : ∀ row ∈ exTable.rows, ∀ v ∈ row, (match v with
      | some x => decide (Prints exFmt exNum x)
      | none => true) = true := by
    decide +kernel
  intro row hrow v hv
  exact of_decide_eq_true (h row hrow _ hv)

end Verif.RelPerm
