import Verif.Unstruct.Spec
import Mathlib.Tactic.Push
import Mathlib.Tactic.Linarith
import Mathlib.Data.Int.Cast.Basic
import Mathlib.Data.List.Basic

namespace Verif.Unstruct
open Verif.Py

theorem start_packed {a : Jagged} {rows : List (List Nat)} (h : Packs a rows) {n : Nat} (hn : n < rows.length) :
    a.start n = .ok (rows.take n).flatten.length := by
  unfold Jagged.start
  rcases n with _ | n
  · simp
  · have h1 : n < a.cl.length := by rw [h.length]; omega
    have h2 : a.cl[n]? = some (rows.take (n + 1)).flatten.length := by
      rw [List.getElem?_eq_getElem h1, h.cl n h1]
    simp only [Nat.succ_ne_zero, if_false, Nat.add_sub_cancel]
    rw [h2]

theorem stop_packed {a : Jagged} {rows : List (List Nat)} (h : Packs a rows) {n : Nat} (hn : n < rows.length) :
    a.stop n = .ok (rows.take (n + 1)).flatten.length := by
  unfold Jagged.stop
  have h1 : n < a.cl.length := by rw [h.length]; omega
  rw [List.getElem?_eq_getElem h1, h.cl n h1]

theorem flatten_take_succ (rows : List (List Nat)) (n : Nat) (hn : n < rows.length) :
    (rows.take (n + 1)).flatten = (rows.take n).flatten ++ rows[n] := by
  rw [← List.take_append_getElem hn, List.flatten_append]; simp

theorem flatten_split (rows : List (List Nat)) (n : Nat) : rows.flatten = (rows.take n).flatten ++ (rows.drop n).flatten := by
  rw [← List.flatten_append, List.take_append_drop]

theorem row_packed {a : Jagged} {rows : List (List Nat)} (h : Packs a rows) {n : Nat} (hn : n < rows.length) :
    a.row n = .ok rows[n] := by
  unfold Jagged.row
  rw [start_packed h hn, stop_packed h hn, h.elements]
  simp only [bind, Except.bind, pure, Except.pure]
  congr 1
  rw [flatten_split rows (n + 1), List.take_left, flatten_take_succ rows n hn, List.drop_left]

theorem count_packed {a : Jagged} {rows : List (List Nat)} (h : Packs a rows) {n : Nat} (hn : n < rows.length) :
    a.count n = .ok (rows[n].length : Int) := by
  unfold Jagged.count
  rw [start_packed h hn, stop_packed h hn]
  simp only [bind, Except.bind, pure, Except.pure]
  congr 1
  rw [flatten_take_succ rows n hn, List.length_append]
  push_cast
  omega

theorem stop_outside {a : Jagged} {rows : List (List Nat)} (h : Packs a rows) {n : Nat} (hn : rows.length ≤ n) :
    a.stop n = .error .index := by
  unfold Jagged.stop
  rw [List.getElem?_eq_none (by rw [h.length]; exact hn)]

theorem row_outside {a : Jagged} {rows : List (List Nat)} (h : Packs a rows) {n : Nat} (hn : rows.length ≤ n) :
    a.row n = .error .index := by
  unfold Jagged.row
  rw [stop_outside h hn]
  unfold Jagged.start
  split_ifs
  · rfl
  · cases a.cl[n - 1]? <;> rfl

/-! ## the table of cells for faces -/

/-- the pairs of cell and face the loop visits -/
def pairs (rows : List (List Nat)) (leftOut : Nat → Bool) (cells : List Nat) : List (Nat × Nat) :=
  (cells.filter fun c => !leftOut c).flatMap fun c => (rows.getD c []).map fun f => (c, f)

/-- the users of a face among pairs -/
def usersIn (ps : List (Nat × Nat)) (f : Nat) : List Nat := (ps.filter fun p => decide (p.2 = f)).map (·.1)

/-- the loop over pairs -/
def enterPairs : List (Nat × Nat) → Table → Table × Option PyErr
  | [], t => (t, none)
  | p :: ps, t =>
    match enter t p.1 p.2 with
    | .error e => (t, some e)
    | .ok t' => enterPairs ps t'

theorem enterAll_pairs (c : Nat) : ∀ (fs : List Nat) (t : Table), enterAll c fs t = enterPairs (fs.map fun f => (c, f)) t
  | [], _ => rfl
  | f :: fs, t => by
    simp only [enterAll, List.map_cons, enterPairs]
    cases enter t c f with
    | error e => rfl
    | ok t' => exact enterAll_pairs c fs t'

theorem enterPairs_append : ∀ (ps qs : List (Nat × Nat)) (t : Table),
    enterPairs (ps ++ qs) t = match enterPairs ps t with
      | (t', some e) => (t', some e)
      | (t', none) => enterPairs qs t'
  | [], _, _ => rfl
  | p :: ps, qs, t => by
    simp only [List.cons_append, enterPairs]
    cases enter t p.1 p.2 with
    | error e => rfl
    | ok t' => exact enterPairs_append ps qs t'

theorem scanCells_pairs {a : Jagged} {rows : List (List Nat)} (h : Packs a rows) (leftOut : Nat → Bool) :
    ∀ (cs : List Nat) (t : Table), (∀ c ∈ cs, c < rows.length) →
      scanCells a leftOut cs t = enterPairs (pairs rows leftOut cs) t
  | [], _, _ => rfl
  | c :: cs, t, hc => by
    have hlt : c < rows.length := hc c (by simp)
    have ih := fun t => scanCells_pairs h leftOut cs t (fun c' hc' => hc c' (by simp [hc']))
    unfold scanCells
    by_cases hs : leftOut c = true
    · rw [if_pos hs, ih]
      simp [pairs, hs]
    · rw [if_neg hs, row_packed h hlt]
      have hp : pairs rows leftOut (c :: cs) = (rows[c].map fun f => (c, f)) ++ pairs rows leftOut cs := by
        simp only [Bool.not_eq_true] at hs
        simp [pairs, hs, List.getD, hlt]
      rw [hp, enterPairs_append, ← enterAll_pairs]
      simp only
      rcases enterAll c rows[c] t with ⟨t', _ | e⟩
      · exact ih t'
      · rfl

/-- the table is filled with given pairs -/
structure Filled (n : Nat) (t : Table) (ps : List (Nat × Nat)) : Prop where
  length : t.length = n
  range : ∀ p ∈ ps, p.2 < n
  most : ∀ f, (usersIn ps f).length ≤ 2
  at_ : ∀ f, f < n → t[f]? = some ((usersIn ps f)[0]?, (usersIn ps f)[1]?)

theorem usersIn_append (ps : List (Nat × Nat)) (c g f : Nat) :
    usersIn (ps ++ [(c, g)]) f = usersIn ps f ++ if g = f then [c] else [] := by
  unfold usersIn
  rw [List.filter_append, List.map_append]
  by_cases h : g = f <;> simp [h]

theorem filled_empty (n : Nat) : Filled n (emptyTable n) [] := by
  refine ⟨by simp [emptyTable], by simp, by simp [usersIn], ?_⟩
  intro f hf
  simp [emptyTable, usersIn, hf]

theorem enter_ok {n : Nat} {t : Table} {ps : List (Nat × Nat)} (h : Filled n t ps) {c f : Nat} (hf : f < n)
    (hm : (usersIn ps f).length < 2) : ∃ t', enter t c f = .ok t' ∧ Filled n t' (ps ++ [(c, f)]) := by
  have ht := h.at_ f hf
  have key : ∀ r : Option Nat × Option Nat, enter t c f = .ok (t.set f r) →
      r = ((usersIn (ps ++ [(c, f)]) f)[0]?, (usersIn (ps ++ [(c, f)]) f)[1]?) →
      ∃ t', enter t c f = .ok t' ∧ Filled n t' (ps ++ [(c, f)]) := by
    intro r h1 h2
    refine ⟨_, h1, ?_, ?_, ?_, ?_⟩
    · simp [h.length]
    · intro p hp
      rcases List.mem_append.mp hp with hp | hp
      · exact h.range p hp
      · simp only [List.mem_singleton] at hp; subst hp; exact hf
    · intro g
      rw [usersIn_append]
      by_cases hg : f = g
      · subst hg; simp; omega
      · simp [hg, h.most g]
    · intro g hg
      by_cases hfg : f = g
      · subst hfg
        rw [List.getElem?_set_self (by rw [h.length]; exact hf), h2]
      · rw [List.getElem?_set_ne hfg, h.at_ g hg, usersIn_append]
        simp [hfg]
  rw [usersIn_append] at key
  simp only [if_true] at key
  rcases hu : usersIn ps f with _ | ⟨a, _ | ⟨b, l⟩⟩
  · rw [hu] at ht key
    refine key (some c, none) ?_ (by simp)
    unfold enter
    rw [ht]; rfl
  · rw [hu] at ht key
    refine key (some a, some c) ?_ (by simp)
    unfold enter
    rw [ht]; rfl
  · rw [hu] at hm; simp only [List.length_cons] at hm; omega

theorem enter_index {n : Nat} {t : Table} {ps : List (Nat × Nat)} (h : Filled n t ps) {c f : Nat} (hf : n ≤ f) :
    enter t c f = .error .index := by
  unfold enter
  rw [List.getElem?_eq_none (by rw [h.length]; exact hf)]

theorem enter_assertion {n : Nat} {t : Table} {ps : List (Nat × Nat)} (h : Filled n t ps) {c f : Nat} (hf : f < n)
    (hm : 2 ≤ (usersIn ps f).length) : enter t c f = .error .assertion := by
  have ht := h.at_ f hf
  rcases hu : usersIn ps f with _ | ⟨a, _ | ⟨b, l⟩⟩
  · rw [hu] at hm; simp at hm
  · rw [hu] at hm; simp at hm
  · rw [hu] at ht
    unfold enter
    rw [ht]; rfl

theorem usersIn_length_mono (ps qs : List (Nat × Nat)) (f : Nat) :
    (usersIn ps f).length ≤ (usersIn (ps ++ qs) f).length := by
  unfold usersIn
  simp

/-- the loop over pairs succeeds exactly when faces exist and are used at most twice, and then the table is filled -/
theorem enterPairs_spec {n : Nat} : ∀ (qs ps : List (Nat × Nat)) (t : Table), Filled n t ps →
    ((enterPairs qs t).2 = none ↔ (∀ p ∈ qs, p.2 < n) ∧ ∀ f, f < n → (usersIn (ps ++ qs) f).length ≤ 2) ∧
    ((enterPairs qs t).2 = none → Filled n (enterPairs qs t).1 (ps ++ qs))
  | [], ps, t, h => by
    simp only [enterPairs, List.append_nil]
    exact ⟨⟨fun _ => ⟨by simp, fun f _ => h.most f⟩, fun _ => trivial⟩, fun _ => h⟩
  | (c, f) :: qs, ps, t, h => by
    have happ : ps ++ (c, f) :: qs = (ps ++ [(c, f)]) ++ qs := by simp
    unfold enterPairs
    by_cases hf : f < n
    · by_cases hm : (usersIn ps f).length < 2
      · obtain ⟨t', h1, h2⟩ := enter_ok h (c := c) hf hm
        have ih := enterPairs_spec qs (ps ++ [(c, f)]) t' h2
        simp only [h1]
        rw [happ]
        refine ⟨⟨fun h3 => ?_, fun h3 => ?_⟩, ih.2⟩
        · have := ih.1.mp h3
          refine ⟨?_, this.2⟩
          intro p hp
          rcases List.mem_cons.mp hp with hp | hp
          · subst hp; exact hf
          · exact this.1 p hp
        · exact ih.1.mpr ⟨fun p hp => h3.1 p (by simp [hp]), h3.2⟩
      · have he := enter_assertion h (c := c) hf (by omega)
        simp only [he]
        refine ⟨⟨fun h3 => by simp at h3, fun h3 => ?_⟩, fun h3 => by simp at h3⟩
        exfalso
        have h4 := h3.2 f hf
        rw [happ] at h4
        have h5 := usersIn_length_mono (ps ++ [(c, f)]) qs f
        rw [usersIn_append, if_pos rfl, List.length_append] at h5
        simp only [List.length_cons, List.length_nil] at h5
        omega
    · have he := enter_index h (c := c) (by omega : n ≤ f)
      simp only [he]
      refine ⟨⟨fun h3 => by simp at h3, fun h3 => ?_⟩, fun h3 => by simp at h3⟩
      exact absurd (h3.1 (c, f) (by simp)) hf

theorem usersIn_flatMap (rows : List (List Nat)) (f : Nat) : ∀ cs : List Nat,
    usersIn (cs.flatMap fun c => (rows.getD c []).map fun f => (c, f)) f =
      cs.flatMap fun c => List.replicate ((rows.getD c []).count f) c
  | [] => rfl
  | c :: cs => by
    have ih := usersIn_flatMap rows f cs
    have h1 : ∀ l : List Nat, usersIn (l.map fun f => (c, f)) f = List.replicate (l.count f) c := by
      intro l
      induction l with
      | nil => rfl
      | cons x l ih =>
        unfold usersIn at ih ⊢
        by_cases hx : x = f
        · subst hx; simp [List.replicate_succ] at ih ⊢; exact ih
        · simp [hx] at ih ⊢; exact ih
    have h2 : ∀ ps qs : List (Nat × Nat), usersIn (ps ++ qs) f = usersIn ps f ++ usersIn qs f := by
      intro ps qs; unfold usersIn; simp
    simp only [List.flatMap_cons]
    rw [h2, h1, ih]

theorem usersIn_pairs (rows : List (List Nat)) (leftOut : Nat → Bool) (f : Nat) :
    usersIn (pairs rows leftOut (List.range rows.length)) f = users rows leftOut f :=
  usersIn_flatMap rows f _

theorem pairs_range (rows : List (List Nat)) (leftOut : Nat → Bool) (n : Nat) :
    (∀ p ∈ pairs rows leftOut (List.range rows.length), p.2 < n) ↔
      ∀ c, c < rows.length → leftOut c = false → ∀ f ∈ rows.getD c [], f < n := by
  constructor
  · intro h c hc hl f hf
    refine h (c, f) ?_
    unfold pairs
    simp only [List.mem_flatMap, List.mem_filter, List.mem_range, List.mem_map]
    exact ⟨c, ⟨hc, by simp [hl]⟩, f, hf, rfl⟩
  · intro h p hp
    unfold pairs at hp
    simp only [List.mem_flatMap, List.mem_filter, List.mem_range, List.mem_map] at hp
    obtain ⟨c, ⟨hc, hl⟩, f, hf, rfl⟩ := hp
    exact h c hc (by simpa using hl) f hf

theorem filled_table {rows : List (List Nat)} {leftOut : Nat → Bool} {n : Nat} {t : Table}
    (h : Filled n t (pairs rows leftOut (List.range rows.length))) : IsTable rows n leftOut t := by
  unfold IsTable
  apply List.ext_getElem?
  intro f
  by_cases hf : f < n
  · rw [h.at_ f hf, usersIn_pairs]
    simp [hf]
  · rw [List.getElem?_eq_none (by rw [h.length]; omega), List.getElem?_eq_none (by simp; omega)]

/-- the loop over all the cells: it succeeds exactly for a valid topology, and the table is then the right one -/
theorem scan_spec {a : Jagged} {rows : List (List Nat)} (h : Packs a rows) (leftOut : Nat → Bool) (n : Nat) :
    ((scanCells a leftOut (List.range rows.length) (emptyTable n)).2 = none ↔ Valid rows n leftOut) ∧
    ((scanCells a leftOut (List.range rows.length) (emptyTable n)).2 = none →
      IsTable rows n leftOut (scanCells a leftOut (List.range rows.length) (emptyTable n)).1) := by
  rw [scanCells_pairs h leftOut _ _ (by simp)]
  have := enterPairs_spec (n := n) (pairs rows leftOut (List.range rows.length)) [] _ (filled_empty n)
  simp only [List.nil_append, usersIn_pairs, pairs_range] at this
  exact ⟨this.1, fun h => filled_table (this.2 h)⟩

theorem whereTable_map (g : Nat → Option Nat × Option Nat) (p : Option Nat × Option Nat → Bool) (n : Nat) :
    whereTable ((List.range n).map g) p = (List.range n).filter fun f => p (g f) := by
  unfold whereTable
  have : ((List.range n).map g).zipIdx = (List.range n).map fun f => (g f, f) := by
    apply List.ext_getElem?
    intro i
    simp only [List.getElem?_zipIdx, List.getElem?_map, List.getElem?_range', Nat.zero_add]
    by_cases hi : i < n
    · simp [hi]
    · simp [List.getElem?_eq_none (l := List.range n) (by simpa using hi)]
  rw [this, List.filter_map, List.map_map]
  simp only [Function.comp_def]
  simp

end Verif.Unstruct
