import Verif.FaultTable.Props
import Verif.Gcs.PropsTrans

/-! # Properties of reading what was written as text -/

namespace Verif.FaultTable
open Verif.Py

variable {K : Type}

theorem load_words {R : Reader K} (hR : R.Keywords) {file : List (List Char)} {before : List (List Word)} {ts : List Table} {rss : List (List (Row K))}
    (hs : file.filterMap content = before ++ ts.flatMap Table.words) (hb : ∀ ws ∈ before, ws ≠ [] ∧ ws.head? ≠ some "MULT".toList) (ht : List.Forall₂ (Stands R) ts rss) :
    load R file = .ok rss.flatten := by
  obtain ⟨st, e, hw⟩ := steps_tables hR ht (st := ⟨false, false, "ROOT".toList, [], [], [], []⟩) (Or.inl ⟨rfl, rfl, rfl⟩)
  unfold load
  rw [hs, steps_append, steps_out hb rfl]
  simp only [e]
  rw [List.nil_append] at hw
  rcases hw with ⟨h1, _, h3⟩ | ⟨h1, h2, h3⟩
  · rw [if_neg (by simp [h1]), h3]
  · rw [if_pos ⟨h1, h2⟩, h3]
    rfl

theorem splitWS_tabs {ws : List Word} (h : ∀ w ∈ ws, w ≠ [] ∧ ∀ c ∈ w, isWS c = false) : splitWS ((ws.map fun w => '\t' :: w).flatten ++ ['\n']) = ws := by
  induction ws with
  | nil => decide
  | cons w ws ih =>
    obtain ⟨h1, h2⟩ := h w (by simp)
    have ih := ih fun x hx => h x (List.mem_cons_of_mem _ hx)
    simp only [List.map_cons, List.flatten_cons, List.cons_append]
    rw [splitWS_ws _ _ (by decide), List.append_assoc]
    cases ws with
    | nil => exact splitWS_word_ws w [] '\n' h2 h1 (by decide)
    | cons x ws =>
      simp only [List.map_cons, List.flatten_cons, List.cons_append] at ih ⊢
      rw [splitWS_word_ws w _ '\t' h2 h1 (by decide)]
      rw [splitWS_ws _ _ (by decide)] at ih
      rw [ih]

theorem content_plain {line : List Char} (h : '!' ∉ line) {c : Char} {w : Word} {ws : List Word} (hs : splitWS line = (c :: w) :: ws) (hc : c ≠ 'C') (hb : c ≠ '!') :
    content line = some ((c :: w) :: ws) := by
  unfold content
  rw [hs]
  simp only
  have ht : line.takeWhile (fun c => decide (c ≠ '!')) = line := by
    have := List.takeWhile_append_of_pos (p := fun c => decide (c ≠ '!')) (l₁ := line) (l₂ := []) (by
      intro x hx
      simp only [decide_eq_true_eq]
      rintro rfl
      exact h hx)
    simpa using this
  rw [if_neg (by simp [hc, hb]), ht, hs]

theorem content_tabs {c : Char} {w : Word} {ws : List Word} (h : ∀ x ∈ (c :: w) :: ws, x ≠ [] ∧ ∀ c ∈ x, isWS c = false ∧ c ≠ '!') (hc : c ≠ 'C') :
    content ((((c :: w) :: ws).map fun w => '\t' :: w).flatten ++ ['\n']) = some ((c :: w) :: ws) := by
  refine content_plain ?_ (splitWS_tabs fun x hx => ⟨(h x hx).1, fun c hc => ((h x hx).2 c hc).1⟩) hc ((h (c :: w) (by simp)).2 c (by simp)).2
  intro hm
  simp only [List.mem_append, List.mem_flatten, List.mem_map, List.mem_singleton] at hm
  rcases hm with ⟨l, ⟨x, hx, rfl⟩, hm⟩ | hm
  · rcases List.mem_cons.1 hm with hm | hm
    · exact absurd hm (by decide)
    · exact ((h x hx).2 _ hm).2 rfl
  · exact absurd hm (by decide)

/-- What Python makes of the numbers which are written: integers are kept, multipliers have the value `value`. -/
structure Prints (R : Reader K) (fmt : K → Word) (value : K → K) : Prop where
  isNum : ∀ z, R.isNum (showInt z) = true
  int : ∀ z, R.int? (showInt z) = some z
  num : ∀ m, R.num? (fmt m) = some (value m)
  plain : ∀ m, fmt m ≠ [] ∧ ∀ c ∈ fmt m, isWS c = false ∧ c ≠ '!'

/-- A name which is one word without exclamation mark. -/
def Plain (name : String) : Prop := name.toList ≠ [] ∧ ∀ c ∈ name.toList, isWS c = false ∧ c ≠ '!'

theorem digit_facts : ∀ d, d < 10 → isWS (digitChar d) = false ∧ digitChar d ≠ '!' ∧ digitChar d ≠ 'C' := by decide

theorem showNat_plain (n : Nat) : showInt (n : Int) ≠ [] ∧ ∀ c ∈ showInt (n : Int), isWS c = false ∧ c ≠ '!' ∧ c ≠ 'C' := by
  refine ⟨showInt_ne_nil _, ?_⟩
  intro c hc
  obtain ⟨d, hd, rfl⟩ := showNat_digits n c hc
  exact digit_facts d hd

/-- The words of a row. -/
def rowWords (fmt : K → Word) (i1 i2 j1 j2 k1 k2 : Nat) (m : K) : List Word :=
  [showInt i1, showInt i2, showInt j1, showInt j2, showInt k1, showInt k2, fmt m]

theorem content_row {R : Reader K} {fmt : K → Word} {value : K → K} (hp : Prints R fmt value) (i1 i2 j1 j2 k1 k2 : Nat) (m : K) :
    (textOf fmt (.row i1 i2 j1 j2 k1 k2 m)).filterMap content = [rowWords fmt i1 i2 j1 j2 k1 k2 m] := by
  have hall : ∀ x ∈ rowWords fmt i1 i2 j1 j2 k1 k2 m, x ≠ [] ∧ ∀ c ∈ x, isWS c = false ∧ c ≠ '!' := by
    have hn : ∀ n : Nat, showInt (n : Int) ≠ [] ∧ ∀ c ∈ showInt (n : Int), isWS c = false ∧ c ≠ '!' := fun n =>
      ⟨(showNat_plain n).1, fun c hc => ⟨((showNat_plain n).2 c hc).1, ((showNat_plain n).2 c hc).2.1⟩⟩
    intro x hx
    simp only [rowWords, List.mem_cons, List.not_mem_nil, or_false] at hx
    rcases hx with rfl | rfl | rfl | rfl | rfl | rfl | rfl
    iterate 6 exact hn _
    exact hp.plain m
  have htext : textOf fmt (.row i1 i2 j1 j2 k1 k2 m) = [((rowWords fmt i1 i2 j1 j2 k1 k2 m).map fun w => '\t' :: w).flatten ++ ['\n']] := by
    simp [textOf, rowWords]
  rw [htext]
  cases e : showInt (i1 : Int) with
  | nil => exact absurd e (showNat_plain i1).1
  | cons c w =>
    have hC : c ≠ 'C' := ((showNat_plain i1).2 c (by rw [e]; simp)).2.2
    simp only [rowWords, e] at hall ⊢
    simp only [List.filterMap_cons, List.filterMap_nil, content_tabs hall hC]

/-- The word for a direction. -/
def axisWord (axis : Nat) : Word := 'T' :: (if axis = 0 then ['Z'] else if axis = 1 then ['Y'] else ['X'])

/-- The words of options. -/
def optionWords (pol : Nat) : List Word := ["ALL".toList, if pol = 0 then "MINUS".toList else "PLUS".toList, "MULT".toList]

theorem content_header {fmt : K → Word} (axis pol : Nat) {name : String} (hn : Plain name) :
    (textOf fmt (.header axis pol name)).filterMap content =
      [("MULT".toList :: axisWord axis :: optionWords pol), "GRID".toList :: "ROOT".toList :: [], "FNAME".toList :: name.toList :: []] := by
  have h1 : content ['\n'] = none := by decide
  have h2 : content ("MULT\tT".toList ++ (if axis = 0 then ['Z'] else if axis = 1 then ['Y'] else ['X']) ++ "\tALL\t".toList ++
      (if pol = 0 then "MINUS".toList else "PLUS".toList) ++ "\tMULT\n".toList) = some ("MULT".toList :: axisWord axis :: optionWords pol) := by
    unfold axisWord optionWords
    split_ifs <;> decide +kernel
  have h3 : content "\tGRID\tROOT\n".toList = some ["GRID".toList, "ROOT".toList] := by decide +kernel
  have h4 : content ("\tFNAME\t".toList ++ name.toList ++ ['\n']) = some ["FNAME".toList, name.toList] := by
    have := content_tabs (c := 'F') (w := "NAME".toList) (ws := [name.toList]) (by
      intro x hx
      rcases List.mem_cons.1 hx with rfl | hx
      · exact ⟨by simp, by decide⟩
      · rw [List.mem_singleton.1 hx]
        exact hn) (by decide)
    simpa using this
  simp only [textOf, List.filterMap_cons, List.filterMap_nil, h1, h2, h3, h4]

/-- Rows before the first header, and tables. -/
def grouped (fmt : K → Word) : List (Gcs.Line K) → List (List Word) × List Table
  | [] => ([], [])
  | .row i1 i2 j1 j2 k1 k2 m :: ls => (rowWords fmt i1 i2 j1 j2 k1 k2 m :: (grouped fmt ls).1, (grouped fmt ls).2)
  | .header axis pol name :: ls =>
    ([], ⟨axisWord axis, optionWords pol, [.grid "ROOT".toList [], .name name.toList []], (grouped fmt ls).1, []⟩ :: (grouped fmt ls).2)

theorem content_lines {R : Reader K} {fmt : K → Word} {value : K → K} (hp : Prints R fmt value) {L : List (Gcs.Line K)} (hL : ∀ a p n, Gcs.Line.header a p n ∈ L → Plain n) :
    (L.flatMap (textOf fmt)).filterMap content = (grouped fmt L).1 ++ (grouped fmt L).2.flatMap Table.words := by
  induction L with
  | nil => rfl
  | cons l L ih =>
    have ih := ih fun a p n h => hL a p n (List.mem_cons_of_mem _ h)
    rw [List.flatMap_cons, List.filterMap_append, ih]
    cases l with
    | row => rw [content_row hp]; rfl
    | header a p n =>
      rw [content_header a p (hL a p n (by simp))]
      simp [grouped, Table.words, Head.words]

theorem dirOf_axis (axis : Nat) : dirOf (axisWord axis) = some (if axis = 0 then ['K'] else if axis = 1 then ['J'] else ['I']) := by
  unfold axisWord
  split_ifs <;> decide

theorem grouped_stands {R : Reader K} {fmt : K → Word} {value : K → K} (hp : Prints R fmt value) (L : List (Gcs.Line K)) :
    ∃ rss, List.Forall₂ (Stands R) (grouped fmt L).2 rss ∧ tableOf value none L = rss.flatten ∧
      ∀ axis pol name, ∃ rs, List.Forall₂ (IsRow R "ROOT".toList name.toList ((if axis = 0 then ['K'] else if axis = 1 then ['J'] else ['I']) ++ (if pol = 0 then ['-'] else [])))
          (grouped fmt L).1 rs ∧ tableOf value (some (axis, pol, name)) L = rs ++ rss.flatten := by
  induction L with
  | nil => exact ⟨[], .nil, rfl, fun _ _ _ => ⟨[], .nil, rfl⟩⟩
  | cons l L ih =>
    obtain ⟨rss, h1, h2, h3⟩ := ih
    cases l with
    | row i1 i2 j1 j2 k1 k2 m =>
      refine ⟨rss, h1, h2, ?_⟩
      intro axis pol name
      obtain ⟨rs, h4, h5⟩ := h3 axis pol name
      refine ⟨⟨i1, i2, j1, j2, k1, k2, value m, "ROOT".toList, name.toList,
        (if axis = 0 then ['K'] else if axis = 1 then ['J'] else ['I']) ++ (if pol = 0 then ['-'] else [])⟩ :: rs, .cons ?_ h4, ?_⟩
      · exact ⟨_, _, _, _, _, _, _, rfl, hp.isNum _, hp.int _, hp.int _, hp.int _, hp.int _, hp.int _, hp.int _, hp.num _, rfl, rfl, rfl⟩
      · simp only [tableOf, h5, List.cons_append]
    | header a p n =>
      obtain ⟨rs, h4, h5⟩ := h3 a p n
      have hst : Stands R ⟨axisWord a, optionWords p, [.grid "ROOT".toList [], .name n.toList []], (grouped fmt L).1, []⟩ rs := by
        refine ⟨⟨_, dirOf_axis a, ?_⟩, by simp, by simp⟩
        have : (Table.face ⟨axisWord a, optionWords p, [.grid "ROOT".toList [], .name n.toList []], (grouped fmt L).1, []⟩ (if a = 0 then ['K'] else if a = 1 then ['J'] else ['I'])) =
            (if a = 0 then ['K'] else if a = 1 then ['J'] else ['I']) ++ (if p = 0 then ['-'] else []) := by
          unfold Table.face optionWords
          by_cases hp : p = 0
          · rw [if_pos (by simp [hp]), if_pos hp]
          · rw [if_neg (by simp [hp]), if_neg hp]
            simp
        simp only [gridOf, nameOf]
        rw [this]
        exact h4
      refine ⟨rs :: rss, .cons hst h1, ?_, ?_⟩
      · simp only [tableOf, h5, List.flatten_cons]
      · intro axis pol name
        exact ⟨[], .nil, by simp only [tableOf, h5, List.flatten_cons, List.nil_append]⟩

theorem grouped_before (fmt : K → Word) {R : Reader K} {value : K → K} (hp : Prints R fmt value) (hR : R.Keywords) (L : List (Gcs.Line K)) :
    ∀ ws ∈ (grouped fmt L).1, ws ≠ [] ∧ ws.head? ≠ some "MULT".toList := by
  induction L with
  | nil => simp [grouped]
  | cons l L ih =>
    cases l with
    | header => simp [grouped]
    | row i1 =>
      intro ws hws
      rcases List.mem_cons.1 hws with rfl | hws
      · refine ⟨by simp [rowWords], ?_⟩
        simp only [rowWords, List.head?_cons, ne_eq, Option.some.injEq]
        intro h
        have := hp.isNum i1
        rw [h, hR.mult] at this
        cases this
      · exact ih ws hws

/-- C198: lines of a file for a simulator, written as text, are read as a table: each row with its cells, the value of its multiplier, and the fault name and faces of the last
header before it. -/
theorem C198_text_read {R : Reader K} (hR : R.Keywords) {fmt : K → Word} {value : K → K} (hp : Prints R fmt value) {L : List (Gcs.Line K)}
    (hL : ∀ a p n, Gcs.Line.header a p n ∈ L → Plain n) : load R (L.flatMap (textOf fmt)) = .ok (tableOf value none L) := by
  obtain ⟨rss, h1, h2, _⟩ := grouped_stands hp L
  rw [h2]
  exact load_words hR (content_lines hp hL) (grouped_before fmt hp hR L) h1

/-- The axis which a face is named after. -/
def axisIn (f : Word) : Nat := if f.head? = some 'K' then 0 else if f.head? = some 'J' then 1 else 2

/-- The lower (0) or upper (1) face. -/
def polIn (f : Word) : Nat := if '-' ∈ f then 0 else 1

/-- The cell faces of a row of the table, with zero based indices. -/
def Row.faces (r : Row K) : List (Word × Gcs.Face × K) :=
  (List.range' r.k1.toNat (r.k2.toNat + 1 - r.k1.toNat)).flatMap fun k => (List.range' r.j1.toNat (r.j2.toNat + 1 - r.j1.toNat)).flatMap fun j =>
    (List.range' r.i1.toNat (r.i2.toNat + 1 - r.i1.toNat)).map fun i => (r.name, ((k - 1, j - 1, i - 1), (axisIn r.face, polIn r.face)), r.mult)

theorem table_faces {value : K → K} {L : List (Gcs.Line K)} (hL : ∀ a p n, Gcs.Line.header a p n ∈ L → a ≤ 2 ∧ p ≤ 1) :
    ∀ h : Option (Nat × Nat × String), (∀ a p n, h = some (a, p, n) → a ≤ 2 ∧ p ≤ 1) →
      (tableOf value h L).flatMap Row.faces = (Gcs.readLines h L).map fun x => (x.1.toList, x.2.1, value x.2.2) := by
  induction L with
  | nil => intro h _; cases h <;> rfl
  | cons l L ih =>
    have ih := ih fun a p n h => hL a p n (List.mem_cons_of_mem _ h)
    intro h hh
    cases l with
    | header a p n =>
      rw [show tableOf value h (Gcs.Line.header a p n :: L) = tableOf value (some (a, p, n)) L from by cases h <;> rfl]
      rw [ih (some (a, p, n)) (by
        intro a' p' n' e
        cases e
        exact hL a p n (by simp))]
      cases h <;> rfl
    | row i1 i2 j1 j2 k1 k2 m =>
      cases h with
      | none =>
        show (tableOf value none L).flatMap Row.faces = _
        rw [ih none (by simp)]
        rfl
      | some h =>
        obtain ⟨a, p, n⟩ := h
        obtain ⟨ha, hp⟩ := hh a p n rfl
        have ih := ih (some (a, p, n)) hh
        simp only [tableOf, List.flatMap_cons, ih, Gcs.readLines, List.map_append]
        congr 1
        unfold Row.faces
        simp only [Int.toNat_natCast, List.map_flatMap, List.map_map]
        have e1 : axisIn ((if a = 0 then ['K'] else if a = 1 then ['J'] else ['I']) ++ (if p = 0 then ['-'] else [])) = a := by
          have : a = 0 ∨ a = 1 ∨ a = 2 := by omega
          rcases this with rfl | rfl | rfl <;> simp [axisIn]
        have e2 : polIn ((if a = 0 then ['K'] else if a = 1 then ['J'] else ['I']) ++ (if p = 0 then ['-'] else [])) = p := by
          have h1 : p = 0 ∨ p = 1 := by omega
          have h2 : '-' ∉ (if a = 0 then ['K'] else if a = 1 then ['J'] else ['I'] : Word) := by split_ifs <;> decide
          rcases h1 with rfl | rfl
          · simp [polIn]
          · simp [polIn, h2]
        rw [e1, e2]
        rfl

theorem inverse_range (f : Nat) : (Gcs.faceIndexInverse f).1 ≤ 2 ∧ (Gcs.faceIndexInverse f).2 ≤ 1 := by
  unfold Gcs.faceIndexInverse
  split <;> simp

theorem runs_range {P : Nat → Nat → Prop} : ∀ (fs : List (Gcs.FaceRow K)) (r : Option Gcs.Run) (t : K), (∀ f ∈ fs, P f.axis f.pol) → (∀ r', r = some r' → P r'.axis r'.pol) →
    ∀ o ∈ Gcs.runs r fs t, P o.axis o.pol := by
  intro fs
  induction fs with
  | nil =>
    intro r t _ hr o ho
    cases r with
    | none => simp [Gcs.runs] at ho
    | some r =>
      simp only [Gcs.runs, List.mem_singleton] at ho
      subst ho
      exact hr r rfl
  | cons f fs ih =>
    intro r t hf hr o ho
    have hfs : ∀ x ∈ fs, P x.axis x.pol := fun x hx => hf x (List.mem_cons_of_mem _ hx)
    have hf0 := hf f (by simp)
    have hnew : ∀ r', some (⟨f.i, f.j, f.k, f.k, f.axis, f.pol⟩ : Gcs.Run) = some r' → P r'.axis r'.pol := by
      intro r' e
      cases e
      exact hf0
    cases r with
    | none => exact ih _ _ hfs hnew o ho
    | some r =>
      have hr0 := hr r rfl
      simp only [Gcs.runs] at ho
      split at ho
      · rcases List.mem_cons.1 ho with rfl | ho
        · exact hr0
        · exact ih _ _ hfs hnew o ho
      · exact ih _ _ hfs (by
          intro r' e
          cases e
          exact hr0) o ho

theorem writeRows_headers {P : Nat → Nat → Prop} {name : String} : ∀ (rs : List (Gcs.OutRow K)) (head : Option (Nat × Nat × String)), (∀ o ∈ rs, P o.axis o.pol) →
    ∀ a p n, Gcs.Line.header a p n ∈ (Gcs.writeRows name head rs).1 → P a p ∧ n = name := by
  intro rs
  induction rs with
  | nil => intro head _ a p n h; simp [Gcs.writeRows] at h
  | cons r rs ih =>
    intro head hr a p n h
    unfold Gcs.writeRows at h
    simp only [List.mem_append, List.mem_cons] at h
    rcases h with h | h | h
    · split at h
      · cases h
      · simp only [List.mem_singleton, Gcs.Line.header.injEq] at h
        obtain ⟨rfl, rfl, rfl⟩ := h
        exact ⟨hr r (by simp), rfl⟩
    · cases h
    · exact ih _ (fun o ho => hr o (List.mem_cons_of_mem _ ho)) a p n h

theorem side_headers (e : Gcs.Ext) (t0 : K) (name : String) (cs : List (Gcs.Conn × K)) (sides : List Nat) : ∀ st : List (Gcs.Line K) × Option (Nat × Nat × String),
    (∀ a p n, Gcs.Line.header a p n ∈ st.1 → (a ≤ 2 ∧ p ≤ 1) ∧ n = name) →
    ∀ a p n, Gcs.Line.header a p n ∈ (sides.foldl (fun st side =>
      let w := Gcs.writeRows name st.2 (Gcs.runs none (Gcs.sortRows (Gcs.sideRows e side cs)) t0)
      (st.1 ++ w.1, w.2)) st).1 → (a ≤ 2 ∧ p ≤ 1) ∧ n = name := by
  induction sides with
  | nil => intro st h; exact h
  | cons side sides ih =>
    intro st h
    rw [List.foldl_cons]
    refine ih _ ?_
    intro a p n hm
    rcases List.mem_append.1 hm with hm | hm
    · exact h a p n hm
    · refine writeRows_headers (P := fun a p => a ≤ 2 ∧ p ≤ 1) _ _ ?_ a p n hm
      refine runs_range (P := fun a p => a ≤ 2 ∧ p ≤ 1) _ _ _ ?_ (by simp)
      intro f hf
      have hf := (List.perm_insertionSort (fun a b : Gcs.FaceRow K => a.le b = true) (Gcs.sideRows e side cs)).mem_iff.1 hf
      unfold Gcs.sideRows at hf
      obtain ⟨c, _, rfl⟩ := List.mem_map.1 hf
      simp only [Gcs.decode]
      split <;> exact inverse_range _

theorem export_headers (e : Gcs.Ext) (sides : List Nat) (t0 : K) (feats : List (String × List (Gcs.Conn × K))) : ∀ head : Option (Nat × Nat × String),
    ∀ a p n, Gcs.Line.header a p n ∈ Gcs.exportLines e sides t0 feats head → (a ≤ 2 ∧ p ≤ 1) ∧ ∃ f ∈ feats, n = f.1 := by
  induction feats with
  | nil => intro head a p n h; simp [Gcs.exportLines] at h
  | cons f feats ih =>
    intro head a p n h
    obtain ⟨name, cs⟩ := f
    unfold Gcs.exportLines at h
    rcases List.mem_append.1 h with h | h
    · obtain ⟨h1, h2⟩ := side_headers e t0 name cs sides ([], head) (by simp) a p n h
      exact ⟨h1, (name, cs), by simp, h2⟩
    · obtain ⟨h1, f, h2, h3⟩ := ih _ a p n h
      exact ⟨h1, f, List.mem_cons_of_mem _ h2, h3⟩

/-- C198: the file which is written for the faults of a connection set is read as a table of exactly the cell faces of its connections, on each side which is written, with the
names of the faults. -/
theorem C198_written_faces {R : Reader K} (hR : R.Keywords) {fmt : K → Word} {value : K → K} (hp : Prints R fmt value) (e : Gcs.Ext) (sides : List Nat) (t0 : K)
    (feats : List (String × List (Gcs.Conn × K))) (hf : ∀ f ∈ feats, Plain f.1) :
    ∃ rows, load R ((Gcs.exportLines e sides t0 feats none).flatMap (textOf fmt)) = .ok rows ∧
      ((rows.flatMap Row.faces).map fun x => (x.1, x.2.1)).Perm
        (feats.flatMap fun f => sides.flatMap fun side => f.2.map fun c => (f.1.toList, Gcs.sideOf e side c.1)) := by
  refine ⟨_, C198_text_read hR hp ?_, ?_⟩
  · intro a p n h
    obtain ⟨_, f, h1, rfl⟩ := export_headers e sides t0 feats none a p n h
    exact hf f h1
  · rw [table_faces (fun a p n h => (export_headers e sides t0 feats none a p n h).1) none (by simp)]
    have := (Gcs.C54_faces e sides t0 feats).map fun x : String × Gcs.Face => (x.1.toList, x.2)
    simpa [List.map_flatMap, Function.comp_def] using this

/-- C198 (partial): if all connections of a fault have the same multiplier, the values of multipliers are read with the faces.  Missing: multipliers which vary (see C54). -/
theorem C198_written_multipliers_partial {R : Reader K} (hR : R.Keywords) {fmt : K → Word} {value : K → K} (hp : Prints R fmt value) (e : Gcs.Ext) (sides : List Nat) (t0 : K)
    (feats : List (String × List (Gcs.Conn × K))) (hf : ∀ f ∈ feats, Plain f.1) (m : String × List (Gcs.Conn × K) → K) (hm : ∀ f ∈ feats, ∀ c ∈ f.2, c.2 = m f) :
    ∃ rows, load R ((Gcs.exportLines e sides t0 feats none).flatMap (textOf fmt)) = .ok rows ∧
      (rows.flatMap Row.faces).Perm (feats.flatMap fun f => sides.flatMap fun side => f.2.map fun c => (f.1.toList, Gcs.sideOf e side c.1, value c.2)) := by
  refine ⟨_, C198_text_read hR hp ?_, ?_⟩
  · intro a p n h
    obtain ⟨_, f, h1, rfl⟩ := export_headers e sides t0 feats none a p n h
    exact hf f h1
  · rw [table_faces (fun a p n h => (export_headers e sides t0 feats none a p n h).1) none (by simp)]
    have := (Gcs.C54_multipliers_partial e sides t0 feats m hm).map fun x : String × Gcs.Face × K => (x.1.toList, x.2.1, value x.2.2)
    simpa [List.map_flatMap, Function.comp_def] using this

theorem content_mark {a b : List Char} (ha : ∀ c ∈ a, isWS c = false ∧ c ≠ '!') :
    content ("\tFNAME\t".toList ++ (a ++ '!' :: b) ++ ['\n']) = some (if a = [] then ["FNAME".toList] else ["FNAME".toList, a]) := by
  have h := content_words (b := ['\t']) (c := 'F') (body := "NAME\t".toList ++ a) (rest := '!' :: (b ++ ['\n'])) (by decide) (by decide) (by decide) (by
    intro h
    have h' : '!' ∈ "\tFNAME\t".toList ++ a := h
    rcases List.mem_append.1 h' with h | h
    · exact absurd h (by decide)
    · exact (ha _ h).2 rfl) (Or.inr ⟨_, rfl⟩)
  have e : ['\t'] ++ 'F' :: ("NAME\t".toList ++ a) ++ '!' :: (b ++ ['\n']) = "\tFNAME\t".toList ++ (a ++ '!' :: b) ++ ['\n'] := by simp
  rw [e] at h
  rw [h]
  by_cases h0 : a = []
  · subst h0
    decide +kernel
  · rw [if_neg h0]
    have h1 := splitWS_word_ws "FNAME".toList a '\t' (by decide) (by decide) (by decide)
    rw [splitWS_word a (fun c hc => (ha c hc).1) h0] at h1
    exact congrArg some h1

/-- C198 (violated): the name of a fault with an exclamation mark is written, but not read: what comes before the mark is taken for the name, and a file with a name which begins
with the mark cannot be read. -/
theorem C198_mark_violated {R : Reader K} (hR : R.Keywords) {fmt : K → Word} {value : K → K} (hp : Prints R fmt value) {name : String} {a b : List Char}
    (hn : name.toList = a ++ '!' :: b) (ha : ∀ c ∈ a, isWS c = false ∧ c ≠ '!') (axis pol i1 i2 j1 j2 k1 k2 : Nat) (m : K) :
    (a = [] → ∀ L, load R ((.header axis pol name :: L).flatMap (textOf fmt)) = .error .index) ∧
    (a ≠ [] → ∃ r, load R ([.header axis pol name, .row i1 i2 j1 j2 k1 k2 m].flatMap (textOf fmt)) = .ok [r] ∧ r.name = a ∧ r.name ≠ name.toList) := by
  have h1 : content ['\n'] = none := by decide
  have h2 : content ("MULT\tT".toList ++ (if axis = 0 then ['Z'] else if axis = 1 then ['Y'] else ['X']) ++ "\tALL\t".toList ++
      (if pol = 0 then "MINUS".toList else "PLUS".toList) ++ "\tMULT\n".toList) = some ("MULT".toList :: axisWord axis :: optionWords pol) := by
    unfold axisWord optionWords
    split_ifs <;> decide +kernel
  have h3 : content "\tGRID\tROOT\n".toList = some ["GRID".toList, "ROOT".toList] := by decide +kernel
  have h4 := content_mark (b := b) ha
  rw [← hn] at h4
  have hc : (textOf fmt (.header axis pol name)).filterMap content = [("MULT".toList :: axisWord axis :: optionWords pol), ["GRID".toList, "ROOT".toList],
      (if a = [] then ["FNAME".toList] else ["FNAME".toList, a])] := by
    simp only [textOf, List.filterMap_cons, List.filterMap_nil, h1, h2, h3, h4]
  have hdir := lookup_dir (dirOf_axis axis)
  constructor
  · rintro rfl L
    unfold load
    rw [List.flatMap_cons, List.filterMap_append, hc]
    simp only [List.cons_append, List.nil_append, if_true, steps]
    rw [step_mult hR (st := ⟨false, false, "ROOT".toList, [], [], [], []⟩) (out := []) (Or.inl ⟨rfl, rfl, rfl⟩) hdir.1 _ hdir.2]
    simp only
    have hg := step_head hR (st := (⟨true, false, "ROOT".toList, "NONE".toList, (if axis = 0 then ['K'] else if axis = 1 then ['J'] else ['I']) ++
      (if "MINUS".toList ∈ optionWords pol then ['-'] else []), [], []⟩ : State K)) rfl rfl (.grid "ROOT".toList [])
    simp only [Head.words, gridOf, nameOf] at hg
    rw [hg]
    have n2 : R.isNum "FNAME".toList = false := by
      cases e : R.isNum "FNAME".toList with
      | false => rfl
      | true => exact absurd (List.infix_refl _) (hR.name _ e)
    have hs : ∀ f : Word, step R ⟨true, false, "ROOT".toList, "NONE".toList, f, [], []⟩ ["FNAME".toList] = .error .index := by
      intro f
      simp only [step, n2, Bool.false_eq_true, and_false, if_false, false_and]
      unfold inner
      simp only [Bool.not_true, Bool.false_eq_true, if_false]
      rw [if_neg (by decide), if_pos (by decide)]
    simp only [hs]
  · intro h0
    let r : Row K := ⟨i1, i2, j1, j2, k1, k2, value m, "ROOT".toList, a, Table.face ⟨axisWord axis, optionWords pol, [], [], []⟩
      (if axis = 0 then ['K'] else if axis = 1 then ['J'] else ['I'])⟩
    refine ⟨r, ?_, rfl, ?_⟩
    · have := load_words hR (file := [.header axis pol name, .row i1 i2 j1 j2 k1 k2 m].flatMap (textOf fmt)) (before := [])
        (ts := [⟨axisWord axis, optionWords pol, [.grid "ROOT".toList [], .name a []], [rowWords fmt i1 i2 j1 j2 k1 k2 m], []⟩]) (rss := [[r]]) (by
          rw [List.flatMap_cons, List.filterMap_append, hc, List.flatMap_cons, List.filterMap_append, content_row hp, if_neg h0]
          rfl) (by simp) (.cons ⟨⟨_, dirOf_axis axis, .cons ⟨_, _, _, _, _, _, _, rfl, hp.isNum _, hp.int _, hp.int _, hp.int _, hp.int _, hp.int _, hp.int _, hp.num _, rfl, rfl, rfl⟩
            .nil⟩, by simp, by simp⟩ .nil)
      rw [this]
      rfl
    · show a ≠ name.toList
      rw [hn]
      intro h
      have := congrArg List.length h
      simp at this

/-- Integers as words, and one multiplier only. -/
def exReader : Reader Unit := ⟨fun w => (readInt? w).isSome, readInt?, fun w => if w = "1.0000".toList then some () else none⟩

/-- A file with comments, a line outside of tables and two tables. -/
def exFile : List (List Char) := ["! faults\n".toList, "KEYWORD 1\n".toList, "MULT TX ALL MINUS MULT ! first\n".toList, "  FNAME F1\n".toList, "C comment\n".toList,
  "1 1 2 3 4 5 1.0000\n".toList, "\n".toList, " 2 2 2 3 4 5 1.0000 ! last\n".toList, "OTHER\n".toList, "MULT TK ALL PLUS MULT\n".toList, "GRID LGR\n".toList, "7 7 7 7 7 7 1.0000".toList]

example : load exReader exFile = .ok [⟨1, 1, 2, 3, 4, 5, (), "ROOT".toList, "F1".toList, "I-".toList⟩, ⟨2, 2, 2, 3, 4, 5, (), "ROOT".toList, "F1".toList, "I-".toList⟩,
    ⟨7, 7, 7, 7, 7, 7, (), "LGR".toList, "NONE".toList, "K".toList⟩] := by decide +kernel

theorem readDigits_mem {cs : List Char} {c : Char} (hc : digitVal? c = none) (hm : c ∈ cs) : ∀ acc, readDigits acc cs = none := by
  induction cs with
  | nil => cases hm
  | cons x cs ih =>
    intro acc
    unfold readDigits
    rcases List.mem_cons.1 hm with rfl | hm
    · rw [hc]
    · cases digitVal? x with
      | none => rfl
      | some d => exact ih hm _

theorem readInt_mem {w : Word} {c : Char} (hc : digitVal? c = none) (h1 : c ≠ '-') (h2 : c ≠ '+') (hm : c ∈ w) : readInt? w = none := by
  have hn : ∀ cs : List Char, c ∈ cs → readNat? cs = none := by
    intro cs h
    cases cs with
    | nil => rfl
    | cons x cs => exact readDigits_mem hc h 0
  unfold readInt?
  split
  · rename_i cs
    rcases List.mem_cons.1 hm with h | h
    · exact absurd h h1
    · rw [hn cs h]; rfl
  · rename_i cs
    rcases List.mem_cons.1 hm with h | h
    · exact absurd h h2
    · rw [hn cs h]; rfl
  · rw [hn w hm]; rfl

/-- The hypotheses are met. -/
example : exReader.Keywords ∧ Prints exReader (fun _ => "1.0000".toList) id ∧ Plain "F1" := by
  have hk : ∀ (c : Char) (k w : Word), c ∈ k → digitVal? c = none → c ≠ '-' → c ≠ '+' → exReader.isNum w = true → ¬ k <:+: w := by
    intro c k w hc h1 h2 h3 hn hi
    have hm : c ∈ w := hi.subset hc
    simp [exReader, readInt_mem h1 h2 h3 hm] at hn
  refine ⟨⟨by decide, fun w hw => hk 'G' _ w (by decide) (by decide) (by decide) (by decide) hw, fun w hw => hk 'F' _ w (by decide) (by decide) (by decide) (by decide) hw⟩,
    ⟨fun z => by simp [exReader, readInt?_showInt], fun z => readInt?_showInt z, fun m => rfl, fun m => by decide⟩, by unfold Plain; decide⟩

end Verif.FaultTable
