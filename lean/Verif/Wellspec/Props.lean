import Verif.Wellspec.Finish

/-! # Properties of reading WELLSPEC files: C181 – C184 -/

namespace Verif.Wellspec
open Verif.Py Verif.Keywords

section
variable {upper : Word → Word}

/-! ### C181: wells and places -/

/-- **C181 (wells).**  The wells found are those named after WELLSPEC, each once, in the order in which they come first; the places of a well are those after its
lines, from first to last. -/
theorem C181_wells {D : Type} [LinearOrder D] {parse : Word → Option D} {zero : Option D} {file : File} {r : List (Word × List (Nat × Option D))}
    (h : getWellPointers upper parse zero file = .ok r) :
    r.map Prod.fst = firsts (namesIn upper file) ∧ ∀ n ps, (n, ps) ∈ r → ps.map Prod.fst = placesOf upper n file ∧ ps ≠ [] := by
  obtain ⟨hn, ts, -, hr⟩ := pointers_ok h
  rw [grouped_spec _ hn] at hr
  have e := (dateWells_eq ts ((firsts ((marked upper "WELLSPEC".toList file).filterMap fun x => x.2[1]?)).map fun n =>
    (n, ((marked upper "WELLSPEC".toList file).filter fun x => x.2[1]? = some n).map fun x => x.1 + 1)) zero).1
  rw [← hr] at e
  constructor
  · have := congrArg (List.map Prod.fst) e
    rw [List.map_map, List.map_map] at this
    have e2 : (Prod.fst ∘ fun w : Word × List (Nat × Option D) => (w.1, w.2.map Prod.fst)) = Prod.fst := rfl
    rw [e2] at this
    rw [this]
    exact List.map_id _
  · intro n ps hm
    have : (n, ps.map Prod.fst) ∈ r.map fun w => (w.1, w.2.map Prod.fst) := List.mem_map.2 ⟨(n, ps), hm, rfl⟩
    rw [e, List.mem_map] at this
    obtain ⟨m, hm', he⟩ := this
    injection he with e1 e2
    subst e1
    refine ⟨e2.symm, ?_⟩
    rintro rfl
    rw [firsts_mem, List.mem_filterMap] at hm'
    obtain ⟨x, hx, hxm⟩ := hm'
    have : x ∈ (marked upper "WELLSPEC".toList file).filter fun x => x.2[1]? = some m := List.mem_filter.2 ⟨hx, by simpa using hxm⟩
    simp only [List.map_nil, List.map_eq_nil_iff] at e2
    rw [e2] at this
    cases this

/-- **C181 (refused).**  A file is refused exactly if a line with WELLSPEC has no name, or a line with TIME has no date which can be read, or one before the date
of the start. -/
theorem C181_refused {D : Type} [LinearOrder D] (parse : Word → Option D) (zero : Option D) (file : File) :
    (∃ e, getWellPointers upper parse zero file = .error e) ↔ (∃ x ∈ marked upper "WELLSPEC".toList file, x.2[1]? = none) ∨
      ∃ x ∈ marked upper "TIME".toList file, ∀ d, dateIn parse x.2 = some d → ∃ z, zero = some z ∧ d < z := pointers_error parse zero file

/-- A file with two wells, one of them twice. -/
def sampleFile : File := ["! wells".toList, "WELLSPEC A".toList, "IW JW L".toList, "1 2 3".toList, "TIME 5(x)".toList, "wellspec B".toList, "WELLSPEC A".toList]

/-- Small letters to capitals. -/
def up (w : Word) : Word := w.map Char.toUpper

example : getWellPointers up readNat? none sampleFile = .ok [("A".toList, [(2, none), (7, some 5)]), ("B".toList, [(6, some 5)])] := by decide +kernel

example : namesIn up sampleFile = ["A".toList, "B".toList, "A".toList] ∧ placesOf up "A".toList sampleFile = [2, 7] := by decide +kernel

example : getWellPointers up readNat? none ["WELLSPEC".toList] = .error .assertion := by decide +kernel

/-! ### C182: dates -/

/-- **C182 (dates, partial).**  A place after any line with TIME is given the date of the last such line before it.  Missing: a place before all such lines, which
is given the date of a place of another well; see below. -/
theorem C182_dates_partial {D : Type} [LinearOrder D] {parse : Word → Option D} {zero : Option D} {file : File} {r : List (Word × List (Nat × Option D))}
    (h : getWellPointers upper parse zero file = .ok r) {n : Word} {ps : List (Nat × Option D)} (hn : (n, ps) ∈ r) {p : Nat} {date : Option D} (hp : (p, date) ∈ ps)
    {d : D} (hd : dateBefore upper parse file p = some d) : date = some d := by
  obtain ⟨-, ts, ht, hr⟩ := pointers_ok h
  subst hr
  obtain ⟨c', hc⟩ := (dateWells_eq ts _ zero).2 _ hn _ hp
  dsimp only at hc
  rw [hc, dateAt_eq _ _ _ (times_sorted ht), ← dateBefore_eq ht, hd]
  rfl

theorem places_sorted (n : Word) (file : File) : (placesOf upper n file).Pairwise (· < ·) := by
  unfold placesOf
  rw [List.pairwise_map]
  have hs := markedFrom_sorted (upper := upper) "WELLSPEC".toList (wordsOf file) 0
  rw [← marked_eq] at hs
  exact (hs.sublist List.filter_sublist).imp fun h => by omega

/-- **C182 (first well).**  The places of the first well in the file have the date of the last line with TIME before them, or of the start if there is none. -/
theorem C182_first_partial {D : Type} [LinearOrder D] {parse : Word → Option D} {zero : Option D} {file : File} {r : List (Word × List (Nat × Option D))}
    {n : Word} {ps : List (Nat × Option D)} (h : getWellPointers upper parse zero file = .ok ((n, ps) :: r)) {p : Nat} {date : Option D} (hp : (p, date) ∈ ps) :
    date = (dateBefore upper parse file p).or zero := by
  obtain ⟨hn, ts, ht, hr⟩ := pointers_ok h
  have hs := times_sorted ht
  have hpl := ((C181_wells h).2 n ps (by simp)).1
  cases hg : grouped ((marked upper "WELLSPEC".toList file).map fun x => (x.2[1]?.getD [], x.1 + 1)) with
  | nil => rw [hg] at hr; cases hr
  | cons w ws =>
    obtain ⟨m, qs⟩ := w
    rw [hg, dateWells] at hr
    injection hr with h1 h2
    injection h1 with h1 h3
    have hq : ps.map Prod.fst = qs := by rw [h3]; exact (dateList_eq ts qs zero).1
    rw [hpl] at hq
    have hsort : qs.Pairwise (· < ·) := hq ▸ places_sorted n file
    have h0 : zero = dateAt ts 0 zero := by
      rw [dateAt_eq _ _ _ hs]
      simp
    have := (dateList_sorted ts hs zero qs zero 0 h0 (by simp) hsort).1 (p, date) (by rw [← h3]; exact hp)
    dsimp only at this
    rw [this, dateAt_eq _ _ _ hs, dateBefore_eq ht]

/-- **C182 (each well once).**  If no well comes twice in the file, every place has the date of the last line with TIME before it, or of the start if there is
none. -/
theorem C182_once_partial {D : Type} [LinearOrder D] {parse : Word → Option D} {zero : Option D} {file : File} {r : List (Word × List (Nat × Option D))}
    (hnd : (namesIn upper file).Nodup) (h : getWellPointers upper parse zero file = .ok r) {n : Word} {ps : List (Nat × Option D)} (hm : (n, ps) ∈ r)
    {p : Nat} {date : Option D} (hp : (p, date) ∈ ps) : date = (dateBefore upper parse file p).or zero := by
  obtain ⟨hn, ts, ht, hr⟩ := pointers_ok h
  have hs := times_sorted ht
  have h0 : zero = dateAt ts 0 zero := by
    rw [dateAt_eq _ _ _ hs]
    simp
  -- all places in turn
  have hflat : (grouped ((marked upper "WELLSPEC".toList file).map fun x => (x.2[1]?.getD [], x.1 + 1))).flatMap Prod.snd =
      (marked upper "WELLSPEC".toList file).map fun x => x.1 + 1 := by
    rw [grouped_spec _ hn]
    unfold namesIn at hnd
    generalize marked upper "WELLSPEC".toList file = l at hnd hn
    clear hr hm h
    have hf : ∀ k : List Word, k.Nodup → firsts k = k := by
      intro k
      induction k with
      | nil => intro _; rfl
      | cons a k ih =>
        intro hk
        obtain ⟨h1, h2⟩ := List.nodup_cons.1 hk
        rw [firsts, ih h2, List.filter_eq_self.2]
        intro b hb
        simp only [ne_eq, decide_not, Bool.not_eq_true', decide_eq_false_iff_not]
        rintro rfl
        exact h1 hb
    rw [hf _ hnd, List.flatMap_map]
    induction l with
    | nil => rfl
    | cons x l ih =>
      obtain ⟨w, hw⟩ := Option.isSome_iff_exists.1 (hn x (by simp))
      rw [List.filterMap_cons, hw] at hnd ⊢
      obtain ⟨h1, h2⟩ := List.nodup_cons.1 hnd
      rw [List.flatMap_cons, List.map_cons]
      have e1 : (x :: l).filter (fun y => decide (y.2[1]? = some w)) = [x] := by
        rw [List.filter_cons_of_pos (by simpa using hw), List.filter_eq_nil_iff.2]
        intro y hy hyw
        exact h1 (List.mem_filterMap.2 ⟨y, hy, by simpa using hyw⟩)
      dsimp only
      rw [e1]
      have e2 : (l.filterMap fun x => x.2[1]?).flatMap (fun n => ((x :: l).filter fun y => decide (y.2[1]? = some n)).map fun y => y.1 + 1) =
          (l.filterMap fun x => x.2[1]?).flatMap (fun n => (l.filter fun y => decide (y.2[1]? = some n)).map fun y => y.1 + 1) := by
        apply List.flatMap_congr
        intro n hn'
        rw [List.filter_cons_of_neg]
        simp only [hw, decide_eq_true_eq, Option.some.injEq]
        rintro rfl
        exact h1 hn'
      have := ih h2 (fun y hy => hn y (by simp [hy]))
      dsimp only at this
      rw [e2, this]
      rfl
  have hall : (p, date) ∈ (dateList ts ((marked upper "WELLSPEC".toList file).map fun x => x.1 + 1) zero).1 := by
    rw [← hflat, ← dateWells_flat, ← hr]
    exact List.mem_flatMap.2 ⟨(n, ps), hm, hp⟩
  have hsort : ((marked upper "WELLSPEC".toList file).map fun x => x.1 + 1).Pairwise (· < ·) := by
    rw [List.pairwise_map]
    have hs := markedFrom_sorted (upper := upper) "WELLSPEC".toList (wordsOf file) 0
    rw [← marked_eq] at hs
    exact hs.imp fun h => by omega
  have := (dateList_sorted ts hs zero _ zero 0 h0 (by simp) hsort).1 _ hall
  dsimp only at this
  rw [this, dateAt_eq _ _ _ hs, dateBefore_eq ht]

/-- **C182 is violated**: a well whose only table stands before any line with TIME is given the date of the last table of the well before it. -/
theorem C182_carry_violated : ∃ file : File, getWellPointers up readNat? none file = .ok [("A".toList, [(1, none), (4, some 7)]), ("B".toList, [(2, some 7)])] ∧
    dateBefore up readNat? file 2 = none := by
  refine ⟨["WELLSPEC A".toList, "WELLSPEC B".toList, "TIME 7".toList, "WELLSPEC A".toList], ?_, ?_⟩
  · decide +kernel
  · decide +kernel

example : (namesIn up ["WELLSPEC A".toList, "TIME 7".toList, "WELLSPEC B".toList]).Nodup ∧
    getWellPointers up readNat? none ["WELLSPEC A".toList, "TIME 7".toList, "WELLSPEC B".toList] = .ok [("A".toList, [(1, none)]), ("B".toList, [(3, some 7)])] := by
  decide +kernel

/-! ### C183: the values of a table -/

/-- **C183 (tables, partial).**  For a table laid out with a line of names, rows of values, blank lines and comments, reading succeeds exactly if each row holds
as many values as there are names, and each value can be read; there is a row for each row in the file, in order, and each value is that under the name of its
column.  Columns asked for which are not in the file have no value, but for GRID which is ROOT.  Missing: comments marked with a letter after a blank line. -/
theorem C183_table_partial (conv : Word → Word → Res Cell) (hup : ∀ w, upper (upper w) = upper w) {file : File} {pointer : Nat} {names : List Word}
    {rows : List (List Word)} (hL : Layout upper file pointer names rows) (columnList : List Word) (t : Table) :
    readTable upper conv file pointer columnList = .ok t ↔
    t.cols = (if columnList ≠ [] then columnList else names) ∧ List.Forall₂ (RowOk upper conv names t.cols) rows t.rows :=
  readTable_layout conv hup hL columnList t

/-- Whole numbers under IW, JW and L; text under others. -/
def sampleConv (col value : Word) : Res Cell :=
  if col ∈ keyCols then (match readInt? value with | some n => .ok (.int n) | none => .error .value) else .ok (.text value)

/-- A table with comments. -/
def sampleTable : File := ["".toList, "iw JW l Stat ! names".toList, "C one".toList, "1 2 3 ON ! first".toList, "".toList, "! two".toList, "4 NA 6 off 9".toList, "WELLSPEC B".toList]

theorem sample_layout : Layout up sampleTable 0 ["IW".toList, "JW".toList, "L".toList, "STAT".toList]
    [["1".toList, "2".toList, "3".toList, "ON".toList], ["4".toList, "NA".toList, "6".toList, "off".toList, "9".toList]] := by
  refine ⟨⟨["".toList], "iw JW l Stat ! names".toList, ["C one".toList, "1 2 3 ON ! first".toList, "".toList, "! two".toList, "4 NA 6 off 9".toList, "WELLSPEC B".toList],
    rfl, ?_, by unfold Blank; decide +kernel, ?_, ?_, by decide +kernel, ?_⟩, by simp, by decide +kernel⟩
  · intro l hl
    rw [List.mem_singleton] at hl
    subst hl
    exact Or.inl (by unfold Blank; decide +kernel)
  · rintro ⟨w, r, h, h'⟩
    rw [show splitWS "iw JW l Stat ! names".toList = ["iw".toList, "JW".toList, "l".toList, "Stat".toList, "!".toList, "names".toList] by decide +kernel] at h
    injection h with h1 h2
    subst h1
    revert h'
    decide
  · rintro ⟨w, r, h, h'⟩
    rw [show splitWS "iw JW l Stat ! names".toList = ["iw".toList, "JW".toList, "l".toList, "Stat".toList, "!".toList, "names".toList] by decide +kernel] at h
    injection h with h1 h2
    subst h1
    revert h'
    decide
  · refine Body.letter ⟨"C".toList, ["one".toList], by decide +kernel, by decide⟩ ?_
    have e1 : ["1".toList, "2".toList, "3".toList, "ON".toList] = valuesOf "1 2 3 ON ! first".toList := by decide +kernel
    have e2 : ["4".toList, "NA".toList, "6".toList, "off".toList, "9".toList] = valuesOf "4 NA 6 off 9".toList := by decide +kernel
    rw [e1, e2]
    have w1 : splitWS "1 2 3 ON ! first".toList = ["1".toList, "2".toList, "3".toList, "ON".toList, "!".toList, "first".toList] := by decide +kernel
    have w2 : splitWS "4 NA 6 off 9".toList = ["4".toList, "NA".toList, "6".toList, "off".toList, "9".toList] := by decide +kernel
    have w3 : splitWS "WELLSPEC B".toList = ["WELLSPEC".toList, "B".toList] := by decide +kernel
    have nc : ∀ (line : List Char) w r, splitWS line = w :: r → w[0]? ≠ some '!' → w ≠ ['C'] → w ≠ ['c'] → ¬ Bang line ∧ ¬ LetterC line := by
      intro line w r h h1 h2 h3
      constructor
      · rintro ⟨w', r', h', h4⟩
        rw [h] at h'
        injection h' with e _
        exact h1 (e ▸ h4)
      · rintro ⟨w', r', h', h4⟩
        rw [h] at h'
        injection h' with e _
        subst e
        tauto
    have ns : ∀ (line : List Char), (["WELLSPEC".toList, "WELLMOD".toList, "TIME".toList, "INCLUDE".toList].all fun k => !(firstWordIs up k (splitWS line))) = true →
        ¬ Stop up line := by
      intro line h
      rintro ⟨k, hk, h'⟩
      have := List.all_eq_true.1 h k hk
      rw [h'] at this
      cases this
    refine Body.row (by rw [Blank, w1]; simp) (by decide +kernel) (nc _ _ _ w1 (by decide) (by decide) (by decide)).1
      (nc _ _ _ w1 (by decide) (by decide) (by decide)).2 (ns _ (by decide +kernel)) ?_
    refine Body.blank (by unfold Blank; decide +kernel) (Body.bang ⟨"!".toList, ["two".toList], by decide +kernel, by decide⟩ ?_)
    refine Body.row (by rw [Blank, w2]; simp) (by decide +kernel) (nc _ _ _ w2 (by decide) (by decide) (by decide)).1
      (nc _ _ _ w2 (by decide) (by decide) (by decide)).2 (ns _ (by decide +kernel)) ?_
    exact Body.stop ⟨"WELLSPEC".toList, by simp, by decide +kernel⟩ (nc _ _ _ w3 (by decide) (by decide) (by decide)).1
      (nc _ _ _ w3 (by decide) (by decide) (by decide)).2

example : readTable up sampleConv sampleTable 0 [] = .ok ⟨["IW".toList, "JW".toList, "L".toList, "STAT".toList],
    [[.int 1, .int 2, .int 3, .text "ON".toList], [.int 4, .nan, .int 6, .text "off".toList]]⟩ := by decide +kernel

example : readTable up sampleConv sampleTable 0 ["L".toList, "grid".toList, "SKIN".toList] = .ok ⟨["L".toList, "grid".toList, "SKIN".toList],
    [[.int 3, .text "ROOT".toList, .nan], [.int 6, .text "ROOT".toList, .nan]]⟩ := by decide +kernel

/-- **C183 is violated**: a comment marked with a letter, which is passed over elsewhere, is read as a row if a blank line comes before it. -/
theorem C183_letter_violated :
    readTable up sampleConv ["NAME X".toList, "a b".toList, "C note".toList, "x d".toList] 0 [] =
      .ok ⟨["NAME".toList, "X".toList], [[.text "a".toList, .text "b".toList], [.text "x".toList, .text "d".toList]]⟩ ∧
    readTable up sampleConv ["NAME X".toList, "a b".toList, "".toList, "C note".toList, "x d".toList] 0 [] =
      .ok ⟨["NAME".toList, "X".toList], [[.text "a".toList, .text "b".toList], [.text "C".toList, .text "note".toList], [.text "x".toList, .text "d".toList]]⟩ := by
  constructor
  · decide +kernel
  · decide +kernel

/-! ### C184: tables as returned -/

/-- **C184 (none).**  Nothing is returned for a well exactly if its table has no value at all. -/
theorem C184_none (t : Table) (keepDuplicates keepNull : Bool) : finish t keepDuplicates keepNull = .ok none ↔ ∀ r ∈ t.rows, ∀ c ∈ r, c = .nan := by
  unfold finish
  by_cases h : ∀ r ∈ t.rows, ∀ c ∈ r, c = .nan
  · rw [if_pos (by simpa using h)]
    simpa using h
  · rw [if_neg (by simpa using h)]
    simp only [h, iff_false]
    split
    · simp
    · split <;> simp

/-- **C184 (table, partial).**  The columns returned are those of the table, or only those with any value if null columns are not kept; there is a row for each
row of the table, or, if duplicates are not kept, for each after which there is no other for the same cell; values are as they were read, but status and indices
are whole numbers.  Missing: tables for which this fails, see below. -/
theorem C184_table_partial {t u : Table} {keepDuplicates keepNull : Bool} (hw : ∀ r ∈ t.rows, r.length = t.cols.length)
    (h : finish t keepDuplicates keepNull = .ok (some u)) :
    u.cols = (if keepNull then t.cols else t.cols.filter fun c => t.rows.any fun r => valueAt t c r ≠ some .nan) ∧
    List.Forall₂ (fun r r' => ∀ col ∈ u.cols, ∃ c c', valueAt t col r = some c ∧ valueAt u col r' = some c' ∧ FinalOk col c c')
      (if keepDuplicates then t.rows else lasts (sameCell t) t.rows) u.rows := by
  unfold finish at h
  by_cases hall : (t.rows.all fun r => r.all fun c => decide (c = .nan)) = true
  · rw [if_pos hall] at h
    injection h with h
    cases h
  rw [if_neg hall] at h
  dsimp only at h
  -- without null columns
  obtain ⟨t1, ht1⟩ : ∃ t1, t1 = if keepNull then t else dropNull t := ⟨_, rfl⟩
  rw [← ht1] at h
  obtain ⟨g, hg⟩ : ∃ g : List Cell → List Cell, g = if keepNull then id else fun r => t1.cols.map fun c => t.get c r := ⟨_, rfl⟩
  have hc1 : t1.cols = (if keepNull then t.cols else t.cols.filter fun c => t.rows.any fun r => valueAt t c r ≠ some .nan) := by
    rw [ht1]
    cases keepNull with
    | true => rfl
    | false =>
      rw [if_neg (by simp), if_neg (by simp), dropNull]
      dsimp only
      apply List.filter_congr
      intro c hc
      apply Bool.eq_iff_iff.2
      rw [List.any_eq_true, List.any_eq_true]
      constructor
      · rintro ⟨r, hr, h'⟩
        refine ⟨r, hr, ?_⟩
        rw [valueAt_get (hw r hr) hc]
        simpa using h'
      · rintro ⟨r, hr, h'⟩
        refine ⟨r, hr, ?_⟩
        rw [valueAt_get (hw r hr) hc] at h'
        simpa using h'
  have hsub : ∀ c ∈ t1.cols, c ∈ t.cols := by
    intro c hc
    rw [hc1] at hc
    split_ifs at hc
    · exact hc
    · exact (List.mem_filter.1 hc).1
  have hr1 : t1.rows = t.rows.map g := by
    rw [hg]
    cases keepNull with
    | true => rw [ht1]; simp
    | false =>
      rw [if_neg (by simp)]
      rw [ht1]
      rfl
  have hlen : ∀ r ∈ t.rows, (g r).length = t1.cols.length := by
    intro r hr
    rw [hg]
    cases keepNull with
    | true => rw [ht1]; exact hw r hr
    | false => simp
  have hget : ∀ r ∈ t.rows, ∀ c ∈ t1.cols, t1.get c (g r) = t.get c r := by
    intro r hr c hc
    rw [hg]
    cases keepNull with
    | true => rw [ht1]; rfl
    | false =>
      rw [if_neg (by simp)]
      unfold Table.get
      have hlt := List.idxOf_lt_length_iff.2 hc
      rw [List.getD_eq_getElem?_getD, List.getElem?_map, List.getElem?_eq_getElem hlt, List.getElem_idxOf]
      rfl
  -- without duplicates
  have hdup : ∀ t2, (if keepDuplicates then .ok t1 else dropDuplicates t1) = Except.ok t2 → t2.cols = t1.cols ∧
      t2.rows = (if keepDuplicates then t.rows else lasts (sameCell t) t.rows).map g := by
    intro t2 h2
    cases keepDuplicates with
    | true =>
      rw [if_pos rfl] at h2
      injection h2 with h2
      subst h2
      exact ⟨rfl, hr1⟩
    | false =>
      rw [if_neg (by simp)] at h2 ⊢
      unfold dropDuplicates at h2
      split_ifs at h2 with hk
      injection h2 with h2
      subst h2
      refine ⟨rfl, ?_⟩
      dsimp only
      rw [keepLast_eq _ (fun r s => decide ((keyCols.map fun c => t1.get c s) = keyCols.map fun c => t1.get c r)) (by simp), hr1, lasts_map]
      congr 1
      apply lasts_congr
      intro a ha b hb
      unfold sameCell
      apply Bool.eq_iff_iff.2
      rw [decide_eq_true_eq, List.all_eq_true, List.map_inj_left]
      unfold keyCols at hk ⊢
      rw [List.all_eq_true] at hk
      refine forall₂_congr fun c hc => ?_
      have hc' : c ∈ t1.cols := by simpa using hk c hc
      rw [hget a ha c hc', hget b hb c hc', valueAt_get (hw a ha) (hsub c hc'), valueAt_get (hw b hb) (hsub c hc')]
      simp [eq_comm]
  split at h
  · cases h
  · rename_i t2 h2
    obtain ⟨c2, r2⟩ := hdup t2 h2
    split at h
    · cases h
    · rename_i rows hf
      injection h with h
      injection h with h
      subst h
      refine ⟨c2.trans hc1, ?_⟩
      have hF := finalRows_ok _ _ _ hf
      rw [r2, List.forall₂_map_left_iff] at hF
      have hmem : ∀ r ∈ (if keepDuplicates then t.rows else lasts (sameCell t) t.rows), r ∈ t.rows := by
        intro r hr
        split_ifs at hr
        · exact hr
        · exact lasts_mem hr
      revert hF hmem
      generalize (if keepDuplicates then t.rows else lasts (sameCell t) t.rows) = kept
      intro hF hmem
      clear hf
      have hval : ∀ (rs : List (List Cell)) col r', valueAt ⟨t2.cols, rs⟩ col r' = r'[t2.cols.idxOf col]? := fun _ _ _ => rfl
      simp only [hval]
      induction hF with
      | nil => exact List.Forall₂.nil
      | @cons r r' l l' h1 h2 ih =>
        refine List.Forall₂.cons ?_ (ih (fun x hx => hmem x (by simp [hx])))
        intro col hcol
        have hr := hmem r (by simp)
        have hcol1 : col ∈ t1.cols := c2 ▸ hcol
        obtain ⟨c, c', e1, e2, e3⟩ := final_values (by rw [hlen r hr, c2]) h1 hcol
        refine ⟨c, c', ?_, e2, e3⟩
        rw [valueAt_get (hw r hr) (hsub col hcol1), ← hget r hr col hcol1]
        rw [c2] at e1
        have e4 : valueAt t1 col (g r) = some c := e1
        rw [valueAt_get (hlen r hr) hcol1] at e4
        exact e4

example : finish ⟨["IW".toList, "JW".toList, "L".toList, "STAT".toList, "SKIN".toList],
    [[.int 1, .int 2, .int 3, .text "ON".toList, .nan], [.int 4, .int 5, .int 6, .text "ON".toList, .nan], [.int 1, .int 2, .int 3, .text "OFF".toList, .nan]]⟩ false false =
    .ok (some ⟨["IW".toList, "JW".toList, "L".toList, "STAT".toList], [[.int 4, .int 5, .int 6, .int 1], [.int 1, .int 2, .int 3, .int 0]]⟩) := by decide +kernel

/-- **C184 is violated** for columns without indices: unless duplicates are kept, which they are not by default, a table with any value is refused if one of the
columns IW, JW and L is not in it, in capitals. -/
theorem C184_key_violated (t : Table) (hv : ∃ r ∈ t.rows, ∃ c ∈ r, c ≠ .nan) (keepNull : Bool) {c : Word} (hc : c ∈ ["IW".toList, "JW".toList, "L".toList])
    (hm : c ∉ t.cols) : finish t false keepNull = .error .key := by
  have h : ¬ (t.rows.all fun r => r.all fun c => decide (c = .nan)) = true := by
    obtain ⟨r, hr, c, hc, hn⟩ := hv
    intro h
    rw [List.all_eq_true] at h
    have := h r hr
    rw [List.all_eq_true] at this
    exact hn (by simpa using this c hc)
  unfold finish
  rw [if_neg h]
  dsimp only
  rw [if_neg (by simp)]
  have : dropDuplicates (if keepNull then t else dropNull t) = .error .key := by
    unfold dropDuplicates
    rw [if_neg]
    intro ha
    rw [List.all_eq_true] at ha
    have := ha c hc
    rw [decide_eq_true_eq] at this
    cases keepNull with
    | true => exact hm this
    | false => exact hm (List.mem_filter.1 this).1
  rw [this]

example : finish ⟨["iw".toList, "jw".toList, "l".toList], [[.int 1, .int 2, .int 3]]⟩ false true = .error .key :=
  C184_key_violated _ ⟨_, List.mem_singleton.2 rfl, .int 1, by simp, by simp⟩ true (c := "IW".toList) (by simp) (by decide)

/-- **C184 is violated** for the status in small letters: it is taken for off. -/
theorem C184_status_violated (keepNull : Bool) : finish ⟨["STAT".toList], [[.text "on".toList]]⟩ true keepNull = .ok (some ⟨["STAT".toList], [[.int 0]]⟩) := by
  cases keepNull
  · decide +kernel
  · decide +kernel

/-- **C184 (wells).**  With the last data only, what is returned for all wells is, for each well in the file, the table at its last place, if it has any value. -/
theorem C184_wells {D : Type} [LinearOrder D] {known : Word → Bool} {parse : Word → Option D} {conv : Word → Word → Res Cell} {file : File} {columnList : List Word}
    {keepDuplicates keepNull : Bool} {l : List (Word × Table)} (h : loadWellspecs upper known parse conv file none columnList keepDuplicates keepNull = .ok l) (n : Word) (t : Table) :
    (n, t) ∈ l ↔ ∃ p, (placesOf upper n file).getLast? = some p ∧ getWellData upper conv file p columnList keepDuplicates keepNull = .ok (some t) := by
  unfold loadWellspecs at h
  split_ifs at h with hk
  cases hp : getWellPointers upper parse none file with
  | error e => rw [hp] at h; cases h
  | ok ws =>
    rw [hp] at h
    dsimp only at h
    obtain ⟨-, h2⟩ := eachWell_ok _ _ _ h
    obtain ⟨w1, w2⟩ := C181_wells hp
    rw [h2]
    unfold lastTime
    constructor
    · rintro ⟨ps, hps, hf⟩
      obtain ⟨e1, -⟩ := w2 n ps hps
      cases hl : ps.getLast? with
      | none => rw [hl] at hf; cases hf
      | some x =>
        rw [hl] at hf
        refine ⟨x.1, ?_, hf⟩
        rw [← e1, List.getLast?_map, hl]
        rfl
    · rintro ⟨p, hpl, hf⟩
      have hn : n ∈ ws.map Prod.fst := by
        rw [w1, firsts_mem]
        have : p ∈ placesOf upper n file := List.mem_of_getLast? hpl
        unfold placesOf at this
        obtain ⟨x, hx, -⟩ := List.mem_map.1 this
        obtain ⟨hx1, hx2⟩ := List.mem_filter.1 hx
        exact List.mem_filterMap.2 ⟨x, hx1, by simpa using hx2⟩
      obtain ⟨⟨m, ps⟩, hm, rfl⟩ := List.mem_map.1 hn
      obtain ⟨e1, -⟩ := w2 m ps hm
      refine ⟨ps, hm, ?_⟩
      dsimp only at hpl
      rw [← e1, List.getLast?_map] at hpl
      cases hl : ps.getLast? with
      | none => rw [hl] at hpl; cases hpl
      | some x =>
        rw [hl] at hpl
        injection hpl with hpl
        subst hpl
        exact hf

/-- **C184 (unknown).**  A well which is not in the file is refused. -/
theorem C184_unknown {D : Type} [LinearOrder D] {known : Word → Bool} {parse : Word → Option D} {conv : Word → Word → Res Cell} {file : File} {columnList : List Word}
    {keepDuplicates keepNull : Bool} {w : Word} (hw : w ∉ namesIn upper file) :
    ∃ e, loadWellspecs upper known parse conv file (some w) columnList keepDuplicates keepNull = .error e := by
  unfold loadWellspecs
  split_ifs with hk
  swap
  · exact ⟨_, rfl⟩
  cases hp : getWellPointers upper parse none file with
  | error e => exact ⟨e, rfl⟩
  | ok ws =>
    dsimp only
    have : ws.lookup w = none := by
      rw [List.lookup_eq_none_iff]
      intro x hx
      have h1 := (C181_wells hp).1
      have : x.1 ∈ ws.map Prod.fst := List.mem_map.2 ⟨x, hx, rfl⟩
      rw [h1, firsts_mem] at this
      simp only [beq_iff_eq, bne_iff_ne, ne_eq, Bool.not_eq_true, beq_eq_false_iff_ne]
      rintro rfl
      exact hw this
    rw [this]
    exact ⟨_, rfl⟩

/-- **C184 (columns).**  A column asked for which is not known is refused, whatever the others. -/
theorem C184_columns {D : Type} [LinearOrder D] {known : Word → Bool} {parse : Word → Option D} {conv : Word → Word → Res Cell} {file : File} {well : Option Word}
    {columnList : List Word} {keepDuplicates keepNull : Bool} {c : Word} (hc : c ∈ columnList) (hk : known (upper c) = false) :
    loadWellspecs upper known parse conv file well columnList keepDuplicates keepNull = .error .assertion := by
  unfold loadWellspecs
  rw [if_pos]
  intro h
  rw [List.all_eq_true] at h
  have := h c hc
  rw [hk] at this
  cases this

/-- **C184 (all tables).**  Where tables of all dates are asked for, those of a well are the ones which have any value, with their dates and all columns. -/
theorem C184_all_tables {D : Type} {conv : Word → Word → Res Cell} {file : File} {columnList : List Word} {keepDuplicates : Bool} :
    ∀ {ps : List (Nat × Option D)} {l : List (Table × Option D)}, allTimes upper conv file columnList keepDuplicates ps = .ok l →
    ∀ t d, (t, d) ∈ l ↔ ∃ p, (p, d) ∈ ps ∧ getWellData upper conv file p columnList keepDuplicates true = .ok (some t)
  | [], l, h, t, d => by
    unfold allTimes at h
    injection h with h
    subst h
    simp
  | (p, d') :: ps, l, h, t, d => by
    unfold allTimes at h
    split at h
    · cases h
    · rename_i t' ht
      split at h
      · cases h
      · rename_i l' hl
        injection h with h
        subst h
        have ih := C184_all_tables hl t d
        rw [List.mem_append, ih]
        constructor
        · rintro (h | ⟨q, h1, h2⟩)
          · cases t' with
            | none => simp at h
            | some x =>
              have : (t, d) = (x, d') := by simpa using h
              injection this with e1 e2
              subst e1 e2
              exact ⟨p, by simp, ht⟩
          · exact ⟨q, by simp [h1], h2⟩
        · rintro ⟨q, h1, h2⟩
          rcases List.mem_cons.mp h1 with h1 | h1
          · injection h1 with e1 e2
            subst e1 e2
            rw [ht] at h2
            injection h2 with h2
            subst h2
            left
            simp
          · exact Or.inr ⟨q, h1, h2⟩

/-- **C182 (dates).**  The dates listed are those of the tables, each once. -/
theorem C182_date_list {D : Type} [DecidableEq D] (wells : List (Word × List (Nat × Option D))) :
    (datesOf wells).Nodup ∧ ∀ d, d ∈ datesOf wells ↔ ∃ n ps p, (n, ps) ∈ wells ∧ (p, some d) ∈ ps := by
  have key : ∀ (l acc : List D), acc.Nodup →
      (l.foldl (fun l d => if d ∈ l then l else l ++ [d]) acc).Nodup ∧ ∀ d, d ∈ l.foldl (fun l d => if d ∈ l then l else l ++ [d]) acc ↔ d ∈ acc ∨ d ∈ l := by
    intro l
    induction l with
    | nil => intro acc h; exact ⟨h, by simp⟩
    | cons a l ih =>
      intro acc h
      rw [List.foldl_cons]
      by_cases ha : a ∈ acc
      · rw [if_pos ha]
        obtain ⟨h1, h2⟩ := ih acc h
        refine ⟨h1, fun d => ?_⟩
        rw [h2, List.mem_cons]
        constructor
        · rintro (h | h)
          · exact Or.inl h
          · exact Or.inr (Or.inr h)
        · rintro (h | rfl | h)
          · exact Or.inl h
          · exact Or.inl ha
          · exact Or.inr h
      · rw [if_neg ha]
        obtain ⟨h1, h2⟩ := ih (acc ++ [a]) (by
          rw [List.nodup_append]
          refine ⟨h, by simp, ?_⟩
          intro x hx y hy e
          have : y = a := by simpa using hy
          subst this
          exact ha (e ▸ hx))
        refine ⟨h1, fun d => ?_⟩
        rw [h2, List.mem_append, List.mem_singleton, or_assoc, ← List.mem_cons]
  unfold datesOf
  obtain ⟨h1, h2⟩ := key (wells.flatMap fun w => w.2.filterMap Prod.snd) [] List.nodup_nil
  refine ⟨h1, fun d => ?_⟩
  rw [h2]
  simp only [List.not_mem_nil, false_or, List.mem_flatMap, List.mem_filterMap]
  constructor
  · rintro ⟨⟨n, ps⟩, hw, ⟨p, o⟩, hp, e⟩
    have e : o = some d := e
    subst e
    exact ⟨n, ps, p, hw, hp⟩
  · rintro ⟨n, ps, p, hw, hp⟩
    exact ⟨(n, ps), hw, (p, some d), hp, rfl⟩

example : datesOf [("A".toList, [(1, some 7), (5, some 8)]), ("B".toList, [(3, some 7), (9, none)])] = [7, 8] := by decide

example : loadWellspecs up (fun _ => true) readNat? sampleConv (["WELLSPEC A".toList] ++ sampleTable ++ ["IW JW L".toList, "1 1 1".toList, "WELLSPEC A".toList, "IW JW L STAT".toList, "7 8 9 ON".toList]) none [] false true =
    .ok [("A".toList, ⟨["IW".toList, "JW".toList, "L".toList, "STAT".toList], [[.int 7, .int 8, .int 9, .int 1]]⟩), ("B".toList, ⟨["IW".toList, "JW".toList, "L".toList], [[.int 1, .int 1, .int 1]]⟩)] := by
  decide +kernel

end
end Verif.Wellspec
