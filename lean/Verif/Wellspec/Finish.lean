import Verif.Wellspec.Tables
import Mathlib.Tactic.Linarith

/-! # Lemmas: what is done with the values of a table, and all wells -/

namespace Verif.Wellspec
open Verif.Py Verif.Keywords

section
variable {upper : Word → Word}

theorem keepLast_eq (key : List Cell → List Cell) (alike : List Cell → List Cell → Bool) (h : ∀ r s, alike r s = true ↔ key s = key r) (rows : List (List Cell)) :
    keepLast key rows = lasts alike rows := by
  unfold lasts
  induction rows with
  | nil => rfl
  | cons r rs ih =>
    rw [keepLast, List.length_cons, List.range_succ_eq_map, List.filterMap_cons]
    have e : (rs.any fun s => decide (key s = key r)) = rs.any (alike r) := by
      congr 1
      funext s
      rw [Bool.eq_iff_iff, h]
      simp
    rw [e, List.filterMap_map, ih]
    simp only [List.getElem?_cons_zero, Option.bind_some, List.drop_succ_cons, List.drop_zero, Nat.zero_add]
    cases rs.any (alike r) with
    | true => simp [Function.comp_def]
    | false => simp [Function.comp_def]

theorem finalCell_ok {col : Word} {c c' : Cell} (h : finalCell (col, c) = .ok c') : FinalOk col c c' := by
  unfold finalCell at h
  dsimp only at h
  unfold FinalOk
  by_cases h1 : col = "STAT".toList
  · rw [if_pos h1] at h
    injection h with h
    subst h h1
    refine ⟨fun _ => ?_, fun h => absurd h (by decide), fun h => absurd (by decide) h⟩
    unfold status
    split_ifs <;> rfl
  · rw [if_neg h1] at h
    refine ⟨fun h' => absurd h' h1, fun h2 => ?_, fun h2 => ?_⟩
    · have h3 : col ∈ intCols := by
        unfold intCols
        simp only [List.mem_cons, List.not_mem_nil, or_false] at h2 ⊢
        tauto
      rw [if_pos h3] at h
      unfold toInt at h
      cases c with
      | nan => cases h
      | text w => cases h
      | int n =>
        injection h with h
        exact ⟨n, h.symm, Or.inl rfl⟩
      | num q =>
        injection h with h
        refine ⟨_, h.symm, Or.inr ⟨q, rfl, ?_⟩⟩
        constructor
        · intro hq
          rw [if_pos hq]
          exact ⟨Int.floor_le q, Int.lt_floor_add_one q⟩
        · intro hq
          rw [if_neg (not_le.2 hq)]
          refine ⟨Int.le_ceil q, ?_⟩
          have := Int.ceil_lt_add_one q
          linarith
    · have h3 : ¬ col ∈ intCols := by
        unfold intCols
        simpa only [List.mem_cons, List.not_mem_nil, or_false] using h2
      rw [if_neg h3] at h
      injection h with h
      exact h.symm

theorem finalRows_ok (cols : List Word) : ∀ (rows : List (List Cell)) rs, finalRows cols rows = .ok rs →
    List.Forall₂ (fun r r' => List.Forall₂ (fun cv c' => finalCell cv = .ok c') (cols.zip r) r') rows rs := by
  intro rows
  induction rows with
  | nil => intro rs h; cases h; exact List.Forall₂.nil
  | cons r rows ih =>
    intro rs h
    rw [finalRows] at h
    cases h1 : eachCell finalCell (cols.zip r) with
    | error e => rw [h1] at h; cases h
    | ok r' =>
      rw [h1] at h
      dsimp only at h
      cases h2 : finalRows cols rows with
      | error e => rw [h2] at h; cases h
      | ok rs' =>
        rw [h2] at h
        cases h
        exact List.Forall₂.cons ((eachCell_ok _ _ _).1 h1) (ih _ h2)

theorem final_values {cols : List Word} {r r' : List Cell} (hl : r.length = cols.length)
    (h : List.Forall₂ (fun cv c' => finalCell cv = .ok c') (cols.zip r) r') {col : Word} (hc : col ∈ cols) :
    ∃ c c', r[cols.idxOf col]? = some c ∧ r'[cols.idxOf col]? = some c' ∧ FinalOk col c c' := by
  have hlt := List.idxOf_lt_length_iff.2 hc
  rw [List.forall₂_iff_get] at h
  obtain ⟨h1, h2⟩ := h
  have hz : (cols.zip r).length = cols.length := by simp [hl]
  have := h2 (cols.idxOf col) (by omega) (by omega)
  simp only [List.get_eq_getElem, List.getElem_zip] at this
  refine ⟨_, _, List.getElem?_eq_getElem (by omega), List.getElem?_eq_getElem (by omega), ?_⟩
  have e : cols[cols.idxOf col] = col := List.getElem_idxOf hlt
  rw [e] at this
  exact finalCell_ok this

theorem valueAt_get {t : Table} {r : List Cell} (hl : r.length = t.cols.length) {col : Word} (hc : col ∈ t.cols) : valueAt t col r = some (t.get col r) := by
  have hlt := List.idxOf_lt_length_iff.2 hc
  unfold valueAt Table.get
  rw [List.getElem?_eq_getElem (by omega), List.getD_eq_getElem?_getD, List.getElem?_eq_getElem (by omega)]
  rfl

theorem lasts_mem {α : Type} {alike : α → α → Bool} {rows : List α} {r : α} (h : r ∈ lasts alike rows) : r ∈ rows := by
  unfold lasts at h
  obtain ⟨i, -, hi⟩ := List.mem_filterMap.1 h
  cases hr : rows[i]? with
  | none => rw [hr] at hi; cases hi
  | some x =>
    rw [hr] at hi
    dsimp only [Option.bind_some] at hi
    split_ifs at hi
    injection hi with hi
    subst hi
    exact List.mem_of_getElem? hr

theorem lasts_map {α β : Type} (f : α → β) (alike : β → β → Bool) (rows : List α) : lasts alike (rows.map f) = (lasts (fun a b => alike (f a) (f b)) rows).map f := by
  unfold lasts
  rw [List.length_map, List.map_filterMap]
  congr 1
  funext i
  rw [List.getElem?_map]
  cases rows[i]? with
  | none => rfl
  | some r =>
    simp only [Option.map_some, Option.bind_some, ← List.map_drop, List.any_map, Function.comp_def]
    split_ifs <;> rfl

theorem lasts_congr {α : Type} {f g : α → α → Bool} {rows : List α} (h : ∀ a ∈ rows, ∀ b ∈ rows, f a b = g a b) : lasts f rows = lasts g rows := by
  unfold lasts
  apply List.filterMap_congr
  intro i _
  cases hr : rows[i]? with
  | none => rfl
  | some r =>
    simp only [Option.bind_some]
    have : (rows.drop (i + 1)).any (f r) = (rows.drop (i + 1)).any (g r) := by
      apply Bool.eq_iff_iff.2
      rw [List.any_eq_true, List.any_eq_true]
      constructor
      · rintro ⟨x, hx, h'⟩; exact ⟨x, hx, by rw [← h r (List.mem_of_getElem? hr) x (List.mem_of_mem_drop hx)]; exact h'⟩
      · rintro ⟨x, hx, h'⟩; exact ⟨x, hx, by rw [h r (List.mem_of_getElem? hr) x (List.mem_of_mem_drop hx)]; exact h'⟩
    rw [this]

/-! ### All wells -/

theorem eachWell_ok {D : Type} (f : List (Nat × Option D) → Res (Option Table)) : ∀ (ws : List (Word × List (Nat × Option D))) l, eachWell f ws = .ok l →
    (∀ w ∈ ws, ∃ t, f w.2 = .ok t) ∧ ∀ n t, (n, t) ∈ l ↔ ∃ ps, (n, ps) ∈ ws ∧ f ps = .ok (some t) := by
  intro ws
  induction ws with
  | nil => intro l h; cases h; simp
  | cons w ws ih =>
    intro l h
    obtain ⟨n0, ps0⟩ := w
    rw [eachWell] at h
    cases h1 : f ps0 with
    | error e => rw [h1] at h; cases h
    | ok t0 =>
      rw [h1] at h
      dsimp only at h
      cases h2 : eachWell f ws with
      | error e => rw [h2] at h; cases h
      | ok l' =>
        rw [h2] at h
        injection h with h
        obtain ⟨i1, i2⟩ := ih l' h2
        subst h
        refine ⟨?_, fun n t => ?_⟩
        · intro w hw
          rcases List.mem_cons.1 hw with rfl | hw
          · exact ⟨t0, h1⟩
          · exact i1 w hw
        · rw [List.mem_append, i2]
          constructor
          · rintro (hx | ⟨ps, hp, hf⟩)
            · simp only [List.mem_map, Option.mem_toList, Option.mem_def] at hx
              obtain ⟨x, hx, he⟩ := hx
              injection he with e1 e2
              subst e1 e2
              exact ⟨ps0, by simp, by rw [h1, hx]⟩
            · exact ⟨ps, by simp [hp], hf⟩
          · rintro ⟨ps, hp, hf⟩
            rcases List.mem_cons.1 hp with e | hp
            · injection e with e1 e2
              subst e1 e2
              left
              rw [h1] at hf
              injection hf with hf
              simp [hf]
            · exact Or.inr ⟨ps, hp, hf⟩

theorem pointers_ok {D : Type} [LinearOrder D] {parse : Word → Option D} {zero : Option D} {file : File} {r : List (Word × List (Nat × Option D))}
    (h : getWellPointers upper parse zero file = .ok r) :
    (∀ x ∈ marked upper "WELLSPEC".toList file, x.2[1]?.isSome) ∧ ∃ ts : List (Nat × D),
      List.Forall₂ (fun x td => td.1 = x.1 + 1 ∧ dateIn parse x.2 = some td.2) (marked upper "TIME".toList file) ts ∧
      r = dateWells ts (grouped ((marked upper "WELLSPEC".toList file).map fun x => (x.2[1]?.getD [], x.1 + 1))) zero := by
  unfold getWellPointers at h
  have hl : (wordsOf file).length = file.length := List.length_map ..
  rw [place_loop _ _ _ _ (by omega), List.drop_zero, ← marked_eq] at h
  split_ifs at h with hn
  · refine ⟨hn, ?_⟩
    cases ht : timeLoop upper parse zero (wordsOf file) (file.length + 1) 0 [] with
    | error e => rw [ht] at h; cases h
    | ok ts =>
      rw [ht] at h
      injection h with h
      obtain ⟨l, hl1, hl2⟩ := (time_loop parse zero (wordsOf file) (file.length + 1) 0 [] (by omega)).1 ts ht
      rw [List.drop_zero, ← marked_eq] at hl2
      rw [List.nil_append] at hl1
      subst hl1
      refine ⟨ts, hl2, ?_⟩
      rw [← h, ← fold_grouped, List.foldl_map]

theorem pointers_error {D : Type} [LinearOrder D] (parse : Word → Option D) (zero : Option D) (file : File) :
    (∃ e, getWellPointers upper parse zero file = .error e) ↔ (∃ x ∈ marked upper "WELLSPEC".toList file, x.2[1]? = none) ∨
      ∃ x ∈ marked upper "TIME".toList file, ∀ d, dateIn parse x.2 = some d → ∃ z, zero = some z ∧ d < z := by
  unfold getWellPointers
  have hl : (wordsOf file).length = file.length := List.length_map ..
  have ht := (time_loop (upper := upper) parse zero (wordsOf file) (file.length + 1) 0 [] (by omega)).2
  rw [List.drop_zero, ← marked_eq] at ht
  rw [← ht, place_loop _ _ _ _ (by omega), List.drop_zero, ← marked_eq]
  by_cases hn : ∀ x ∈ marked upper "WELLSPEC".toList file, x.2[1]?.isSome
  · rw [if_pos hn]
    dsimp only
    have h1 : ¬ ∃ x ∈ marked upper "WELLSPEC".toList file, x.2[1]? = none := by
      rintro ⟨x, hx, h⟩
      have := hn x hx
      rw [h] at this
      cases this
    simp only [h1, false_or]
    cases timeLoop upper parse zero (wordsOf file) (file.length + 1) 0 [] with
    | error e => simp
    | ok ts => simp
  · rw [if_neg hn]
    push Not at hn
    obtain ⟨x, hx, h⟩ := hn
    simp only [Except.error.injEq, exists_eq', true_iff]
    exact Or.inl ⟨x, hx, by simpa using h⟩

theorem grouped_spec (l : List (Nat × Line)) (hn : ∀ x ∈ l, x.2[1]?.isSome) :
    grouped (l.map fun x => (x.2[1]?.getD [], x.1 + 1)) =
      (firsts (l.filterMap fun x => x.2[1]?)).map fun n => (n, (l.filter fun x => x.2[1]? = some n).map fun x => x.1 + 1) := by
  unfold grouped
  have e1 : (l.map fun x => (x.2[1]?.getD [], x.1 + 1)).map Prod.fst = l.filterMap fun x => x.2[1]? := by
    rw [List.map_map]
    induction l with
    | nil => rfl
    | cons x l ih =>
      have := hn x (by simp)
      obtain ⟨w, hw⟩ := Option.isSome_iff_exists.1 this
      rw [List.map_cons, List.filterMap_cons, hw, ih (fun y hy => hn y (by simp [hy]))]
      simp [hw]
  rw [e1]
  apply List.map_congr_left
  intro n _
  congr 1
  rw [List.filter_map, List.map_map]
  have e2 : l.filter ((fun x : Word × Nat => decide (x.1 = n)) ∘ fun x => (x.2[1]?.getD [], x.1 + 1)) = l.filter fun x => x.2[1]? = some n := by
    apply List.filter_congr
    intro x hx
    obtain ⟨w, hw⟩ := Option.isSome_iff_exists.1 (hn x hx)
    simp [hw]
  rw [e2]
  rfl

theorem dateBefore_eq {D : Type} {parse : Word → Option D} {file : File} {ts : List (Nat × D)}
    (h : List.Forall₂ (fun (x : Nat × Line) td => td.1 = x.1 + 1 ∧ dateIn parse x.2 = some td.2) (marked upper "TIME".toList file) ts) (p : Nat) :
    dateBefore upper parse file p = ((ts.filter fun x => x.1 < p).getLast?).map Prod.snd := by
  unfold dateBefore
  generalize marked upper "TIME".toList file = l at h
  have h' : List.Forall₂ (fun (x : Nat × Line) (td : Nat × D) => td.1 = x.1 + 1 ∧ dateIn parse x.2 = some td.2) (l.filter fun x => x.1 + 1 < p) (ts.filter fun x => x.1 < p) := by
    induction h with
    | nil => exact List.Forall₂.nil
    | @cons x td l ts h1 h2 ih =>
      by_cases hp : x.1 + 1 < p
      · rw [List.filter_cons_of_pos (by simpa using hp), List.filter_cons_of_pos (by simpa [h1.1] using hp)]
        exact List.Forall₂.cons h1 ih
      · rw [List.filter_cons_of_neg (by simpa using hp), List.filter_cons_of_neg (by simpa [h1.1] using hp)]
        exact ih
  have h'' := List.rel_reverse h'
  rw [← List.head?_reverse, ← List.head?_reverse]
  generalize (l.filter fun x => x.1 + 1 < p).reverse = a at h''
  generalize (ts.filter fun x => x.1 < p).reverse = b at h''
  cases h'' with
  | nil => rfl
  | cons h1 _ => simp [h1.2]

theorem times_sorted {D : Type} {parse : Word → Option D} {file : File} {ts : List (Nat × D)}
    (h : List.Forall₂ (fun (x : Nat × Line) td => td.1 = x.1 + 1 ∧ dateIn parse x.2 = some td.2) (marked upper "TIME".toList file) ts) :
    ts.Pairwise fun x y => x.1 < y.1 := by
  have hs := markedFrom_sorted (upper := upper) "TIME".toList (wordsOf file) 0
  rw [← marked_eq] at hs
  have e : ts.map Prod.fst = (marked upper "TIME".toList file).map fun x => x.1 + 1 := by
    clear hs
    generalize marked upper "TIME".toList file = l at h
    induction h with
    | nil => rfl
    | cons h1 _ ih => simp [h1.1, ih]
  have : (ts.map Prod.fst).Pairwise (· < ·) := by
    rw [e, List.pairwise_map]
    exact hs.imp fun h => by omega
  rwa [List.pairwise_map] at this

theorem dateList_append {D : Type} (times : List (Nat × D)) : ∀ (a b : List Nat) (c : Option D),
    dateList times (a ++ b) c = ((dateList times a c).1 ++ (dateList times b (dateList times a c).2).1, (dateList times b (dateList times a c).2).2) := by
  intro a
  induction a with
  | nil => intro b c; simp [dateList]
  | cons p a ih =>
    intro b c
    rw [List.cons_append, dateList, dateList]
    dsimp only
    rw [ih]
    simp

theorem dateWells_flat {D : Type} (times : List (Nat × D)) : ∀ (ws : List (Word × List Nat)) (c : Option D),
    (dateWells times ws c).flatMap Prod.snd = (dateList times (ws.flatMap Prod.snd) c).1 := by
  intro ws
  induction ws with
  | nil => intro c; rfl
  | cons w ws ih =>
    intro c
    obtain ⟨n, ps⟩ := w
    rw [dateWells, List.flatMap_cons, List.flatMap_cons, dateList_append, ih]

end
end Verif.Wellspec
