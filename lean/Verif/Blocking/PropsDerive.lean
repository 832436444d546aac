import Verif.Blocking.Derive
import Verif.Wells.Spec
import Mathlib.Tactic.Linarith
import Mathlib.Tactic.Ring
import Mathlib.Algebra.Order.Field.Basic
import Mathlib.Algebra.Field.Rat
import Mathlib.Tactic.IntervalCases
import Mathlib.Data.List.Range

/-!
# C125: blocked wells derived from tables of cells
-/

namespace Verif.Blocking
open Verif.Py
open Verif.Volume (Vec)
open Verif.Wells.Spec (IntervalOfCell)

variable {K : Type} [Field K] [LinearOrder K]

theorem res_bind {α β : Type} (a : α) (f : α → Res β) : ((Except.ok a : Res α) >>= f) = f a := rfl

theorem err_bind {α β : Type} (x : PyErr) (f : α → Res β) : ((Except.error x : Res α) >>= f) = .error x := rfl

/-! ## the path -/

/-- what holds of the lists while rows are added; `p` is where the trajectory is -/
structure Path (e : Setting K) (p : Vec K) (mds : List K) (points : List (Vec K)) (intervals : List Int) (cells : List Cell)
    (pairs : List (Face × Face)) : Prop where
  last : points.getLast? = some p
  len1 : mds.length = points.length
  len2 : intervals.length + 1 = points.length
  zero : mds[0]? = some 0
  law : ∀ (n : Nat) (m m' : K) (a b : Vec K), mds[n]? = some m → mds[n + 1]? = some m' → points[n]? = some a → points[n + 1]? = some b →
    m' = m + e.len (b - a)
  len3 : pairs.length = cells.length
  count : (intervals.filter fun g => decide (0 ≤ g)).length = cells.length
  kinds : ∀ x ∈ intervals, x = 0 ∨ x = -1
  blocked : ∀ (c : Nat) (cell : Cell) (entry exit : Face), cells[c]? = some cell → pairs[c]? = some (entry, exit) →
    ∃ (n : Nat) (q : Vec K), IntervalOfCell intervals c n ∧ points[n]? = some q ∧ points[n + 1]? = some (faceCentre (e.corners cell) exit) ∧
      isClose q (faceCentre (e.corners cell) entry) = true ∧
      (∀ k, n = k + 1 → intervals[k]? = some (-1) → q = faceCentre (e.corners cell) entry)
  gaps : ∀ (n : Nat), intervals[n]? = some (-1) → intervals[n + 1]? ≠ some (-1) ∧
    ∃ (a b : Vec K), points[n]? = some a ∧ points[n + 1]? = some b ∧ isClose a b = false

variable {e : Setting K} {p : Vec K} {mds : List K} {points : List (Vec K)} {intervals : List Int} {cells : List Cell}
  {pairs : List (Face × Face)}

theorem getElem?_snoc {α : Type} (l : List α) (x : α) (n : Nat) :
    (l ++ [x])[n]? = if n < l.length then l[n]? else if n = l.length then some x else none := by
  rw [List.getElem?_append]
  split_ifs with h1 h2
  · rfl
  · subst h2; simp
  · rw [List.getElem?_eq_none]; simp; omega

theorem getLastD_eq {α : Type} (l : List α) (a d : α) (h : l.getLast? = some a) : l.getLastD d = a := by
  rw [List.getLastD_eq_getLast?, h]
  rfl

theorem getLast_index {α : Type} (l : List α) (a : α) (n : Nat) (h : l.getLast? = some a) (hn : n + 1 = l.length) : l[n]? = some a := by
  rw [List.getLast?_eq_getElem?] at h
  rw [← h]
  congr 1
  omega

/-- extending the law -/
theorem law_snoc (h : Path e p mds points intervals cells pairs) (q : Vec K) :
    ∀ (n : Nat) (m m' : K) (a b : Vec K), (mds ++ [mds.getLastD 0 + e.len (q - p)])[n]? = some m →
      (mds ++ [mds.getLastD 0 + e.len (q - p)])[n + 1]? = some m' → (points ++ [q])[n]? = some a → (points ++ [q])[n + 1]? = some b →
      m' = m + e.len (b - a) := by
  intro n m m' a b h1 h2 h3 h4
  rw [getElem?_snoc] at h1 h2 h3 h4
  have hl := h.len1
  rw [hl] at h1 h2
  split_ifs at h2 with h5 h5
  · rw [if_pos h5] at h4
    rw [if_pos (by omega)] at h1 h3
    exact h.law n m m' a b h1 h2 h3 h4
  · rw [if_neg (by omega), if_pos h5] at h4
    rw [if_pos (by omega)] at h1 h3
    have e1 := getLast_index points p n h.last (by omega)
    have e2 : mds.getLastD 0 = m := by
      refine getLastD_eq mds m 0 ?_
      rw [List.getLast?_eq_getElem?, ← h1]
      congr 1
      omega
    rw [e1] at h3
    cases h2; cases h3; cases h4
    rw [e2]

theorem intervalOf_snoc {l : List Int} {x : Int} {c n : Nat} (h : IntervalOfCell l c n) : IntervalOfCell (l ++ [x]) c n := by
  obtain ⟨⟨g, h1, h2⟩, h3⟩ := h
  have hn : n < l.length := by
    by_contra hc
    rw [List.getElem?_eq_none (by omega)] at h1
    cases h1
  refine ⟨⟨g, ?_, h2⟩, ?_⟩
  · rw [List.getElem?_append_left hn]; exact h1
  · rw [List.take_append_of_le_length (by omega)]; exact h3

theorem index_lt {α : Type} {l : List α} {n : Nat} {a : α} (h : l[n]? = some a) : n < l.length := by
  by_contra hc
  rw [List.getElem?_eq_none (by omega)] at h
  cases h

theorem intervalOf_lt {l : List Int} {c n : Nat} (h : IntervalOfCell l c n) : n < l.length := by
  obtain ⟨⟨g, h1, -⟩, -⟩ := h
  exact index_lt h1

theorem path_unblocked (h : Path e p mds points intervals cells pairs) (q : Vec K) (hq : isClose p q = false)
    (hl : intervals.getLast? ≠ some (-1)) :
    Path e q (mds ++ [mds.getLastD 0 + e.len (q - p)]) (points ++ [q]) (intervals ++ [-1]) cells pairs := by
  have l1 := h.len1
  have l2 := h.len2
  refine ⟨by simp, by simp [l1], by simp; omega, ?_, law_snoc h q, h.len3, ?_, ?_, ?_, ?_⟩
  · rw [List.getElem?_append_left (index_lt h.zero)]; exact h.zero
  · rw [List.filter_append, List.length_append, h.count]; simp
  · intro x hx
    rcases List.mem_append.mp hx with hx | hx
    · exact h.kinds x hx
    · right; simpa using hx
  · intro c cell entry exit hc hp
    obtain ⟨n, q', h1, h2, h3, h4, h5⟩ := h.blocked c cell entry exit hc hp
    refine ⟨n, q', intervalOf_snoc h1, ?_, ?_, h4, ?_⟩
    · rw [List.getElem?_append_left (index_lt h2)]; exact h2
    · rw [List.getElem?_append_left (index_lt h3)]; exact h3
    · intro k hk hi
      have := intervalOf_lt h1
      rw [List.getElem?_append_left (by omega)] at hi
      exact h5 k hk hi
  · intro n hn
    rw [getElem?_snoc] at hn
    split_ifs at hn with h1 h2
    · obtain ⟨g1, a, b, g2, g3, g4⟩ := h.gaps n hn
      refine ⟨?_, a, b, ?_, ?_, g4⟩
      · rw [getElem?_snoc]
        split_ifs with h3 h4
        · exact g1
        · intro _
          apply hl
          rw [List.getLast?_eq_getElem?, ← hn]
          congr 1
          omega
        · simp
      · rw [List.getElem?_append_left (index_lt g2)]; exact g2
      · rw [List.getElem?_append_left (index_lt g3)]; exact g3
    · refine ⟨?_, p, q, ?_, ?_, hq⟩
      · rw [getElem?_snoc, if_neg (by omega), if_neg (by omega)]; simp
      · rw [List.getElem?_append_left (by omega)]
        exact getLast_index points p n h.last (by omega)
      · rw [getElem?_snoc, if_neg (by omega), if_pos (by omega)]

theorem path_blocked (h : Path e p mds points intervals cells pairs) (entry exit : Face) (cell : Cell)
    (hc : isClose p (faceCentre (e.corners cell) entry) = true)
    (hl : intervals.getLast? = some (-1) → p = faceCentre (e.corners cell) entry) :
    Path e (faceCentre (e.corners cell) exit) (mds ++ [mds.getLastD 0 + e.len (faceCentre (e.corners cell) exit - p)])
      (points ++ [faceCentre (e.corners cell) exit]) (intervals ++ [0]) (cells ++ [cell]) (pairs ++ [(entry, exit)]) := by
  have l1 := h.len1
  have l2 := h.len2
  have l3 := h.len3
  refine ⟨by simp, by simp [l1], by simp; omega, ?_, law_snoc h _, by simp [l3], ?_, ?_, ?_, ?_⟩
  · rw [List.getElem?_append_left (index_lt h.zero)]; exact h.zero
  · rw [List.filter_append, List.length_append, h.count]; simp
  · intro x hx
    rcases List.mem_append.mp hx with hx | hx
    · exact h.kinds x hx
    · left; simpa using hx
  · intro c cell' entry' exit' hcl hp
    rw [getElem?_snoc] at hcl hp
    rw [l3] at hp
    split_ifs at hcl hp with h0 h0
    · obtain ⟨n, q', h1, h2, h3, h4, h5⟩ := h.blocked c cell' entry' exit' hcl hp
      refine ⟨n, q', intervalOf_snoc h1, ?_, ?_, h4, ?_⟩
      · rw [List.getElem?_append_left (index_lt h2)]; exact h2
      · rw [List.getElem?_append_left (index_lt h3)]; exact h3
      · intro k hk hi
        have := intervalOf_lt h1
        rw [List.getElem?_append_left (by omega)] at hi
        exact h5 k hk hi
    · cases hcl; cases hp
      refine ⟨intervals.length, p, ⟨⟨0, by simp, le_refl 0⟩, ?_⟩, ?_, ?_, hc, ?_⟩
      · rw [List.take_append_of_le_length (by omega), List.take_length, h.count, h0]
      · rw [List.getElem?_append_left (by omega)]
        exact getLast_index points p _ h.last (by omega)
      · rw [getElem?_snoc, if_neg (by omega), if_pos (by omega)]
      · intro k hk hi
        apply hl
        rw [List.getElem?_append_left (by omega)] at hi
        rw [List.getLast?_eq_getElem?, ← hi]
        congr 1
        omega
  · intro n hn
    rw [getElem?_snoc] at hn
    split_ifs at hn with h1 h2
    · obtain ⟨g1, a, b, g2, g3, g4⟩ := h.gaps n hn
      refine ⟨?_, a, b, ?_, ?_, g4⟩
      · rw [getElem?_snoc]
        split_ifs with h3 h4
        · exact g1
        · simp
        · simp
      · rw [List.getElem?_append_left (index_lt g2)]; exact g2
      · rw [List.getElem?_append_left (index_lt g3)]; exact g3
    · simp at hn

/-- the state between rows: nothing yet, or a path with a blocked interval at its end -/
def Between (e : Setting K) (s : State K) : Prop :=
  (s.prev = none ∧ s.mds = [] ∧ s.points = [] ∧ s.intervals = [] ∧ s.cells = [] ∧ s.pairs = []) ∨
  (∃ p, s.prev = some p ∧ Path e p s.mds s.points s.intervals s.cells s.pairs ∧ s.intervals.getLast? = some 0)

variable [IsStrictOrderedRing K]

theorem isClose_self (a : Vec K) : isClose a a = true := by simp [isClose]

theorem between_add {s : State K} (h : Between e s) (entry exit : Face) (cell : Cell) :
    Between e (addInterval e.len s entry (faceCentre (e.corners cell) entry) exit (faceCentre (e.corners cell) exit) cell) := by
  have start : ∃ (p : Vec K) (s' : State K), startAt s (faceCentre (e.corners cell) entry) = (p, s') ∧
      Path e p s'.mds s'.points s'.intervals s'.cells s'.pairs ∧ s'.intervals.getLast? ≠ some (-1) := by
    rcases h with ⟨h1, h2, h3, h4, h5, h6⟩ | ⟨p, h1, h2, h3⟩
    · unfold startAt
      rw [h1]
      refine ⟨_, _, rfl, ?_, ?_⟩
      · simp only [h2, h3, h4, h5, h6, List.nil_append]
        refine ⟨rfl, rfl, rfl, rfl, ?_, rfl, rfl, by simp, by simp, by simp⟩
        intro n m m' a b _ h8
        simp at h8
      · simp [h4]
    · unfold startAt
      rw [h1]
      refine ⟨p, s, rfl, h2, ?_⟩
      rw [h3]; simp
  obtain ⟨p, s', h1, h2, h3⟩ := start
  unfold addInterval
  rw [h1]
  simp only
  right
  unfold addUnblocked
  split_ifs with hcl
  · refine ⟨_, rfl, path_blocked h2 entry exit cell hcl (fun hh => absurd hh h3), ?_⟩
    simp [addBlocked]
  · have := path_unblocked h2 (faceCentre (e.corners cell) entry) (by simpa using hcl) h3
    refine ⟨_, rfl, path_blocked this entry exit cell (isClose_self _) (fun _ => rfl), ?_⟩
    simp [addBlocked]

theorem step_between {s s' : State K} (i : Nat) (r : Row) (next : Option Row) (h : Between e s) (hs : step e i r next s = .ok s') : Between e s' := by
  unfold step at hs
  cases hc : cellOf r with
  | none =>
    rw [hc] at hs
    cases hs
    exact h
  | some cell =>
    rw [hc] at hs
    simp only at hs
    split_ifs at hs with hk
    · cases hs
      exact h
    · cases hf : facesFor e i r next cell s.cells with
      | error x => rw [hf, err_bind] at hs; cases hs
      | ok ff =>
        rw [hf, res_bind] at hs
        obtain ⟨entry, exit⟩ := ff
        simp only at hs
        unfold entryExitPoints at hs
        split_ifs at hs
        · rw [res_bind] at hs
          cases hs
          have := between_add (s := { s with lastCell := some cell, skipped := (verifyGridName e.upper e.check r s.skipped).1 }) (e := e) h entry exit cell
          exact this
        · rw [err_bind] at hs; cases hs

theorem loop_between : ∀ (rows : List Row) (i : Nat) {s s' : State K}, Between e s → loop e i rows s = .ok s' → Between e s'
  | [], _, s, s', h, hs => by unfold loop at hs; cases hs; exact h
  | r :: rest, i, s, s', h, hs => by
    unfold loop at hs
    cases h1 : step e i r rest.head? s with
    | error x => rw [h1, err_bind] at hs; cases hs
    | ok s1 =>
      rw [h1, res_bind] at hs
      exact loop_between rest (i + 1) (step_between i r _ h h1) hs

theorem init_between : Between e (State.init : State K) := Or.inl ⟨rfl, rfl, rfl, rfl, rfl, rfl⟩

/-- what a well that was made comes from -/
theorem derive_inv {g : GridInfo} {rows : List Row} {w : Well K} (h : deriveFromDataframe e g rows = .ok w) :
    ∃ s : State K, loop e 0 rows State.init = .ok s ∧ s.cells ≠ [] ∧ addTail g s = .ok (w.trajPoints, w.trajMds) ∧
      w.nodeCount = s.mds.length ∧ w.nodeMds = s.mds ∧ w.cellCount = s.cells.length ∧ w.gridIndices = s.intervals ∧
      w.cellIndices = s.cells.map (natural g) ∧ w.facePairs = s.pairs := by
  unfold deriveFromDataframe at h
  split_ifs at h
  cases hl : loop e 0 rows State.init with
  | error x => rw [hl, err_bind] at h; cases h
  | ok s =>
    rw [hl, res_bind] at h
    split_ifs at h with hc
    cases ht : addTail g s with
    | error x => rw [ht, err_bind] at h; cases h
    | ok t =>
      rw [ht, res_bind] at h
      obtain ⟨a, b⟩ := t
      simp only at h
      cases h
      exact ⟨s, rfl, hc, ht, rfl, rfl, rfl, rfl, rfl, rfl⟩

theorem tail_prefix {g : GridInfo} {s : State K} {a : List (Vec K)} {b : List K} (h : addTail g s = .ok (a, b)) :
    (a = s.points ∧ b = s.mds) ∨ (s.points ≠ [] ∧ ∃ q, a = s.points ++ [q] ∧ b = s.mds ++ [s.mds.getLastD 0 + 10]) := by
  unfold addTail at h
  by_cases hx : s.lastExit = some (0, 1)
  · rw [if_pos hx] at h
    cases hl : s.lastCell with
    | none => rw [hl] at h; simp only at h; cases h
    | some c =>
      rw [hl] at h
      simp only at h
      by_cases hk : c.1 = g.nk - 1 ∧ g.kDown = true
      · rw [if_pos hk] at h
        cases hp : s.points.getLast? with
        | none => rw [hp] at h; simp only at h; cases h
        | some p =>
          rw [hp] at h
          simp only at h
          cases h
          refine Or.inr ⟨?_, _, rfl, rfl⟩
          rintro h0
          rw [h0] at hp
          cases hp
      · rw [if_neg hk] at h
        cases h; exact Or.inl ⟨rfl, rfl⟩
  · rw [if_neg hx] at h
    cases h; exact Or.inl ⟨rfl, rfl⟩

/-- **C125** the numbers of nodes, intervals and cells of a derived blocked well agree: one interval between each two nodes, blocked (0) or
unblocked (-1), and as many blocked intervals as cells and pairs of faces -/
theorem C125_counts (e : Setting K) (g : GridInfo) (rows : List Row) (w : Well K) (h : deriveFromDataframe e g rows = .ok w) :
    w.nodeMds.length = w.nodeCount ∧ w.gridIndices.length + 1 = w.nodeCount ∧ 0 < w.cellCount ∧
    w.cellIndices.length = w.cellCount ∧ w.facePairs.length = w.cellCount ∧ w.gridIndices.count 0 = w.cellCount ∧
    ∀ x ∈ w.gridIndices, x = 0 ∨ x = -1 := by
  obtain ⟨s, h1, h2, -, h4, h5, h6, h7, h8, h9⟩ := derive_inv h
  rcases loop_between rows 0 init_between h1 with hb | ⟨p, -, hp, -⟩
  · exact absurd hb.2.2.2.2.1 h2
  · rw [h4, h5, h6, h7, h8, h9]
    refine ⟨rfl, by rw [hp.len2, hp.len1], List.length_pos_iff.mpr h2, by simp, hp.len3, ?_, hp.kinds⟩
    rw [← hp.count, List.count_eq_length_filter]
    congr 1
    refine List.filter_congr ?_
    intro x hx
    rcases hp.kinds x hx with rfl | rfl <;> decide

/-- **C125** measured depths start at zero and increase along the path by the lengths between successive points of the trajectory, whose first
points are those of the nodes -/
theorem C125_measured_depths (e : Setting K) (g : GridInfo) (rows : List Row) (w : Well K) (h : deriveFromDataframe e g rows = .ok w) :
    w.nodeMds[0]? = some 0 ∧ w.nodeMds = w.trajMds.take w.nodeCount ∧ w.trajMds.length = w.trajPoints.length ∧
    ∀ (n : Nat) (m m' : K) (a b : Vec K), n + 1 < w.nodeCount → w.trajMds[n]? = some m → w.trajMds[n + 1]? = some m' →
      w.trajPoints[n]? = some a → w.trajPoints[n + 1]? = some b → m' = m + e.len (b - a) := by
  obtain ⟨s, h1, h2, ht, h4, h5, -⟩ := derive_inv h
  rcases loop_between rows 0 init_between h1 with hb | ⟨p, -, hp, -⟩
  · exact absurd hb.2.2.2.2.1 h2
  · rw [h4, h5]
    have l1 := hp.len1
    rcases tail_prefix ht with ⟨h6, h7⟩ | ⟨-, q, h6, h7⟩
    · rw [h6, h7]
      exact ⟨hp.zero, by rw [List.take_length], l1, fun n m m' a b _ => hp.law n m m' a b⟩
    · rw [h6, h7]
      refine ⟨hp.zero, by simp, by simp [l1], ?_⟩
      intro n m m' a b hn e1 e2 e3 e4
      rw [List.getElem?_append_left (by omega)] at e1 e2 e3 e4
      exact hp.law n m m' a b e1 e2 e3 e4

/-- **C125** if lengths are not negative, measured depths never decrease -/
theorem C125_increasing_partial (e : Setting K) (g : GridInfo) (rows : List Row) (w : Well K) (h : deriveFromDataframe e g rows = .ok w)
    (hl : ∀ v, 0 ≤ e.len v) (n : Nat) (m m' : K) (h1 : w.nodeMds[n]? = some m) (h2 : w.nodeMds[n + 1]? = some m') : m ≤ m' := by
  obtain ⟨s, h3, h4, ht, h5, h6, -⟩ := derive_inv h
  rcases loop_between rows 0 init_between h3 with hb | ⟨p, -, hp, -⟩
  · exact absurd hb.2.2.2.2.1 h4
  · rw [h6] at h1 h2
    have b1 := index_lt h1
    have b2 := index_lt h2
    rw [hp.len1] at b1 b2
    have := hp.law n m m' s.points[n] s.points[n + 1] h1 h2 (List.getElem?_eq_getElem b1) (List.getElem?_eq_getElem b2)
    have := hl (s.points[n + 1] - s.points[n])
    linarith

/-- **C125** the interval of each cell ends at the centre of the face by which the cell is left, and begins at the centre of the face by which it
is entered, if the trajectory was not within 0.05 of that already; each unblocked interval joins points further apart than that, and two
unblocked intervals never follow each other -/
theorem C125_intervals (e : Setting K) (g : GridInfo) (rows : List Row) (w : Well K) (h : deriveFromDataframe e g rows = .ok w) :
    ∃ cells : List Cell, w.cellIndices = cells.map (natural g) ∧
    (∀ (c : Nat) (cell : Cell) (entry exit : Face), cells[c]? = some cell → w.facePairs[c]? = some (entry, exit) →
      ∃ (n : Nat) (q : Vec K), IntervalOfCell w.gridIndices c n ∧ w.trajPoints[n]? = some q ∧
        w.trajPoints[n + 1]? = some (faceCentre (e.corners cell) exit) ∧ isClose q (faceCentre (e.corners cell) entry) = true ∧
        (∀ k, n = k + 1 → w.gridIndices[k]? = some (-1) → q = faceCentre (e.corners cell) entry)) ∧
    (∀ (n : Nat), w.gridIndices[n]? = some (-1) → w.gridIndices[n + 1]? ≠ some (-1) ∧
      ∃ (a b : Vec K), w.trajPoints[n]? = some a ∧ w.trajPoints[n + 1]? = some b ∧ isClose a b = false) := by
  obtain ⟨s, h1, h2, ht, h4, h5, h6, h7, h8, h9⟩ := derive_inv h
  rcases loop_between rows 0 init_between h1 with hb | ⟨p, -, hp, -⟩
  · exact absurd hb.2.2.2.2.1 h2
  · rw [h7, h8, h9]
    have keep : ∀ (n : Nat) (a : Vec K), s.points[n]? = some a → w.trajPoints[n]? = some a := by
      intro n a ha
      rcases tail_prefix ht with ⟨h6, -⟩ | ⟨-, q, h6, -⟩
      · rw [h6]; exact ha
      · rw [h6, List.getElem?_append_left (index_lt ha)]; exact ha
    refine ⟨s.cells, rfl, ?_, ?_⟩
    · intro c cell entry exit hc hpr
      obtain ⟨n, q, g1, g2, g3, g4, g5⟩ := hp.blocked c cell entry exit hc hpr
      exact ⟨n, q, g1, keep _ _ g2, keep _ _ g3, g4, g5⟩
    · intro n hn
      obtain ⟨g1, a, b, g2, g3, g4⟩ := hp.gaps n hn
      exact ⟨g1, a, b, keep _ _ g2, keep _ _ g3, g4⟩

/-! ## the cells and the faces -/

/-- the row is of a cell of the grid that is looked at, as far as names tell -/
def Kept (e : Setting K) (r : Row) : Prop :=
  ∀ c g, e.check = some c → r.grid = some g → e.upper g = c

/-- entry and exit faces of cells visited one after the other -/
def facesList : Option Cell → List Cell → List (Face × Face)
  | _, [] => []
  | prev, c :: rest =>
    let entry : Face := (prev.map fun p => entryFace (move p c)).getD (0, 0)
    (entry, (rest.head?.map fun n => exitFace (move c n)).getD (entry.1, 1 - entry.2)) :: facesList (some c) rest

omit [IsStrictOrderedRing K] in
theorem kept_not_skipped {r : Row} (h : Kept e r) (s : Option String) : verifyGridName e.upper e.check r s = (s, false) := by
  unfold verifyGridName
  cases hc : e.check with
  | none => rfl
  | some c =>
    cases hg : r.grid with
    | none => rfl
    | some g => simp [h c g hc hg]

omit [IsStrictOrderedRing K] in
theorem addInterval_lists (len : Vec K → K) (s : State K) (en : Face) (a : Vec K) (ex : Face) (b : Vec K) (cell : Cell) :
    (addInterval len s en a ex b cell).cells = s.cells ++ [cell] ∧ (addInterval len s en a ex b cell).pairs = s.pairs ++ [(en, ex)] ∧
    (addInterval len s en a ex b cell).points ≠ [] ∧ (addInterval len s en a ex b cell).lastCell = s.lastCell ∧
    (addInterval len s en a ex b cell).skipped = s.skipped := by
  unfold addInterval startAt
  cases hp : s.prev <;> simp only <;> unfold addUnblocked <;> split_ifs <;> simp [addBlocked]

omit [IsStrictOrderedRing K] in
theorem step_ok (ha : e.angles = none) (i : Nat) (r : Row) (next : Option Row) (s : State K) (c : Cell) (en : Face) (nm : Option String)
    (h1 : cellOf r = some c) (hv : verifyGridName e.upper e.check r s.skipped = (nm, false)) (hen : fabricateEntry i c s.cells = .ok en) :
    ∃ s1 : State K, step e i r next s = .ok s1 ∧ s1.cells = s.cells ++ [c] ∧ s1.pairs = s.pairs ++ [(en, fabricateExit c en next)] ∧
      s1.points ≠ [] ∧ s1.lastCell = some c ∧ s1.skipped = nm := by
  have hf : facesFor e i r next c s.cells = .ok (en, fabricateExit c en next) := by
    unfold facesFor
    rw [ha]
    simp only
    rw [hen, res_bind]
  have hcu : centresUsed e = true := by simp [centresUsed, ha]
  have hst : step e i r next s = .ok { addInterval e.len { s with lastCell := some c, skipped := nm } en (faceCentre (e.corners c) en)
      (fabricateExit c en next) (faceCentre (e.corners c) (fabricateExit c en next)) c with lastExit := some (fabricateExit c en next) } := by
    unfold step
    rw [h1]
    simp only
    rw [hv]
    simp only [Bool.false_eq_true, if_false]
    rw [hf, res_bind]
    simp only [entryExitPoints, hcu, if_true]
    rw [res_bind]
  obtain ⟨a1, a2, a3, a4, a5⟩ := addInterval_lists e.len { s with lastCell := some c, skipped := nm } en (faceCentre (e.corners c) en)
      (fabricateExit c en next) (faceCentre (e.corners c) (fabricateExit c en next)) c
  exact ⟨_, hst, a1, a2, a3, a4, a5⟩

omit [IsStrictOrderedRing K] in
theorem loop_lists (ha : e.angles = none) : ∀ (rows : List Row) (cells : List Cell) (i : Nat) (s : State K), rows.map cellOf = cells.map some →
    (∀ r ∈ rows, Kept e r) → (i = 0 ↔ s.cells = []) → ∃ s', loop e i rows s = .ok s' ∧ s'.cells = s.cells ++ cells ∧
      s'.pairs = s.pairs ++ facesList s.cells.getLast? cells ∧ (rows ≠ [] → s'.points ≠ [] ∧ s'.lastCell ≠ none)
  | [], cells, i, s, h, _, _ => by
    have : cells = [] := by simpa using h
    subst this
    exact ⟨s, rfl, by simp, by simp [facesList], fun h => absurd rfl h⟩
  | r :: rest, cells, i, s, h, hk, hi => by
    cases cells with
    | nil => simp at h
    | cons c cs =>
      simp only [List.map_cons, List.cons.injEq] at h
      obtain ⟨h1, h2⟩ := h
      have hn : ∀ en : Face, fabricateExit c en rest.head? = (cs.head?.map fun n => exitFace (move c n)).getD (en.1, 1 - en.2) := by
        intro en
        cases rest with
        | nil =>
          have : cs = [] := by simpa using h2.symm
          subst this
          rfl
        | cons r2 rest2 =>
          cases cs with
          | nil => simp at h2
          | cons c2 cs2 =>
            simp only [List.map_cons, List.cons.injEq] at h2
            simp [fabricateExit, h2.1]
      have hen : fabricateEntry i c s.cells = .ok ((s.cells.getLast?.map fun p => entryFace (move p c)).getD (0, 0)) := by
        unfold fabricateEntry
        by_cases hi0 : i = 0
        · rw [if_pos hi0, hi.mp hi0]
          rfl
        · rw [if_neg hi0]
          cases hl : s.cells.getLast? with
          | none => exact absurd (hi.mpr (by simpa using hl)) hi0
          | some p => rfl
      obtain ⟨s1, g1, g2, g3, g4, g5, -⟩ := step_ok ha i r rest.head? s c _ _ h1
        (kept_not_skipped (hk r (List.mem_cons_self ..)) s.skipped) hen
      rw [hn] at g3
      obtain ⟨s2, f1, f2, f3, f4⟩ := loop_lists ha rest cs (i + 1) s1 h2 (fun r hr => hk r (List.mem_cons_of_mem _ hr)) (by simp [g2])
      refine ⟨s2, ?_, ?_, ?_, ?_⟩
      · unfold loop
        rw [g1, res_bind, f1]
      · rw [f2, g2]; simp
      · rw [f3, g3, g2]
        simp [facesList]
      · intro _
        by_cases hr : rest = []
        · subst hr
          unfold loop at f1
          cases f1
          exact ⟨g4, by rw [g5]; simp⟩
        · exact f4 hr

theorem tail_ok (g : GridInfo) (s : State K) (h1 : s.points ≠ []) (h2 : s.lastCell ≠ none) : ∃ t, addTail g s = .ok t := by
  unfold addTail
  by_cases hx : s.lastExit = some (0, 1)
  · rw [if_pos hx]
    cases hl : s.lastCell with
    | none => exact absurd hl h2
    | some c =>
      simp only
      by_cases hk : c.1 = g.nk - 1 ∧ g.kDown = true
      · rw [if_pos hk]
        cases hp : s.points.getLast? with
        | none => exact absurd (by simpa using hp) h1
        | some p => exact ⟨_, rfl⟩
      · rw [if_neg hk]; exact ⟨_, rfl⟩
  · rw [if_neg hx]; exact ⟨_, rfl⟩

theorem derive_lists (ha : e.angles = none) (g : GridInfo) (rows : List Row) (cells : List Cell) (hr : rows ≠ [])
    (hc : rows.map cellOf = cells.map some) (hk : ∀ r ∈ rows, Kept e r) :
    ∃ w, deriveFromDataframe e g rows = .ok w ∧ w.cellIndices = cells.map (natural g) ∧ w.facePairs = facesList none cells := by
  obtain ⟨s, h1, h2, h3, h4⟩ := loop_lists (e := e) ha rows cells 0 State.init hc hk (by simp [State.init])
  obtain ⟨h5, h6⟩ := h4 hr
  obtain ⟨t, h7⟩ := tail_ok g s h5 h6
  have hne : cells ≠ [] := by
    rintro rfl
    apply hr
    simpa using hc
  have h2' : s.cells = cells := by rw [h2]; simp [State.init]
  unfold deriveFromDataframe
  rw [if_neg hr, h1, res_bind, if_neg (by rw [h2']; exact hne), h7, res_bind]
  refine ⟨_, rfl, by simp [h2'], ?_⟩
  simp only
  rw [h3]
  simp [State.init]

/-- **C125** a table with no missing indices and no other grid's name gives a blocked well whose cells are those of the rows, in order; with
angles, missing values or other grids' rows see the violations below -/
theorem C125_cells_partial (e : Setting K) (ha : e.angles = none) (g : GridInfo) (rows : List Row) (cells : List Cell) (hr : rows ≠ [])
    (hc : rows.map cellOf = cells.map some) (hk : ∀ r ∈ rows, ∀ c n, e.check = some c → r.grid = some n → e.upper n = c) :
    ∃ w, deriveFromDataframe e g rows = .ok w ∧ w.cellIndices = cells.map (natural g) ∧ w.cellCount = rows.length := by
  obtain ⟨w, h1, h2, h3⟩ := derive_lists ha g rows cells hr hc hk
  refine ⟨w, h1, h2, ?_⟩
  obtain ⟨-, -, -, h4, -⟩ := C125_counts e g rows w h1
  have := congrArg List.length hc
  rw [← h4, h2]
  simp at this ⊢
  exact this.symm

theorem facesList_get : ∀ (cells : List Cell) (prev : Option Cell) (n : Nat) (a b : Cell), cells[n]? = some a → cells[n + 1]? = some b →
    ∃ en ex, (facesList prev cells)[n]? = some (en, exitFace (move a b)) ∧ (facesList prev cells)[n + 1]? = some (entryFace (move a b), ex)
  | [], _, n, a, b, h, _ => by simp at h
  | [c], _, n, a, b, _, h => by simp at h
  | c :: d :: rest, prev, 0, a, b, h1, h2 => by
    simp at h1 h2
    subst h1 h2
    exact ⟨_, _, rfl, rfl⟩
  | c :: d :: rest, prev, n + 1, a, b, h1, h2 => by
    have := facesList_get (d :: rest) (some c) n a b (by simpa using h1) (by simpa using h2)
    simpa [facesList] using this

theorem facesList_last : ∀ (cells : List Cell) (prev : Option Cell) (en ex : Face), (facesList prev cells).getLast? = some (en, ex) →
    ex = (en.1, 1 - en.2)
  | [], _, en, ex, h => by simp [facesList] at h
  | [c], prev, en, ex, h => by
    simp [facesList] at h
    obtain ⟨rfl, rfl⟩ := h
    rfl
  | c :: d :: rest, prev, en, ex, h => by
    refine facesList_last (d :: rest) (some c) en ex ?_
    rw [← h]
    simp [facesList, List.getLast?_cons_cons]

/-- the neighbour of a cell on the other side of one of its faces -/
def beyond (c : Cell) (f : Face) : Cell :=
  let d : Int := if f.2 = 0 then -1 else 1
  if f.1 = 0 then (c.1 + d, c.2.1, c.2.2) else if f.1 = 1 then (c.1, c.2.1 + d, c.2.2) else (c.1, c.2.1, c.2.2 + d)

/-- **C125** where successive cells share a face, the first is left by it and the second is entered by it; the well enters by the top of the first
cell and leaves the last cell opposite to where it entered -/
theorem C125_faces (e : Setting K) (ha : e.angles = none) (g : GridInfo) (rows : List Row) (cells : List Cell)
    (hc : rows.map cellOf = cells.map some) (hk : ∀ r ∈ rows, ∀ c n, e.check = some c → r.grid = some n → e.upper n = c) (w : Well K)
    (hw : deriveFromDataframe e g rows = .ok w) :
    (∀ (n : Nat) (a : Cell) (ax pol : Nat), ax < 3 → pol < 2 → cells[n]? = some a → cells[n + 1]? = some (beyond a (ax, pol)) →
      ∃ en ex, w.facePairs[n]? = some (en, (ax, pol)) ∧ w.facePairs[n + 1]? = some ((ax, 1 - pol), ex)) ∧
    (∀ en ex, w.facePairs[0]? = some (en, ex) → en = (0, 0)) ∧
    (∀ en ex, w.facePairs.getLast? = some (en, ex) → ex = (en.1, 1 - en.2)) := by
  have hr : rows ≠ [] := by
    rintro rfl
    simp [deriveFromDataframe] at hw
  obtain ⟨w', h1, -, h3⟩ := derive_lists ha g rows cells hr hc hk
  rw [hw] at h1
  cases h1
  rw [h3]
  refine ⟨?_, ?_, fun en ex h => facesList_last cells none en ex h⟩
  · intro n a ax pol hax hpol h5 h6
    have hm : exitFace (move a (beyond a (ax, pol))) = (ax, pol) ∧ entryFace (move a (beyond a (ax, pol))) = (ax, 1 - pol) := by
      obtain ⟨k, j, i⟩ := a
      interval_cases ax <;> interval_cases pol <;> simp [move, beyond, exitFace, entryFace]
    have := facesList_get cells none n a _ h5 h6
    rw [hm.1, hm.2] at this
    exact this
  · intro en ex h
    cases cells with
    | nil => simp [facesList] at h
    | cons c rest =>
      simp [facesList] at h
      exact h.1.symm

theorem facesList_column (j i : Int) : ∀ (ks : List Nat) (prev : Option Nat), (prev.toList ++ ks).Pairwise (· < ·) →
    ∀ x ∈ facesList (prev.map fun (k : Nat) => ((k : Int), j, i)) (ks.map fun (k : Nat) => ((k : Int), j, i)), x = ((0, 0), (0, 1))
  | [], prev, _, x, hx => by simp [facesList] at hx
  | k :: ks, prev, h, x, hx => by
    have he : ((Option.map (fun p => entryFace (move p ((k : Int), j, i))) (prev.map fun (k : Nat) => ((k : Int), j, i))).getD (0, 0)) = (0, 0) := by
      cases prev with
      | none => rfl
      | some p =>
        have : p < k := by
          simp at h
          exact h.1.1
        simp [move, entryFace]
        omega
    simp only [List.map_cons, facesList, List.mem_cons] at hx
    rw [he] at hx
    rcases hx with rfl | hx
    · cases ks with
      | nil => simp
      | cons k2 ks =>
        have : k < k2 := by
          cases prev <;> simp at h <;> simp [h]
        simp [move, exitFace]
        omega
    · refine facesList_column j i ks (some k) ?_ x (by simpa using hx)
      cases prev with
      | none => simpa using h
      | some p =>
        simp at h ⊢
        exact h.2

/-- **C125** for a column: the layers not left out, from the top down, each entered by its top and left by its bottom -/
theorem C125_column (e : Setting K) (ha : e.angles = none) (g : GridInfo) (nk : Nat) (j i : Int) (left : Nat → Bool)
    (hl : ∃ k < nk, left k = false) :
    ∃ w, deriveFromDataframe e g (columnRows nk j i left) = .ok w ∧
      w.cellIndices = ((List.range nk).filter fun k => !left k).map (fun (k : Nat) => ((k : Int) * g.nj + j) * g.ni + i) ∧
      ∀ x ∈ w.facePairs, x = ((0, 0), (0, 1)) := by
  have hc : (columnRows nk j i left).map cellOf =
      (((List.range nk).filter fun k => !left k).map fun (k : Nat) => (((k : Int), j, i) : Cell)).map some := by
    unfold columnRows
    rw [List.map_map, List.map_map]
    refine List.map_congr_left ?_
    intro k _
    simp [cellOf]
  have hr : columnRows nk j i left ≠ [] := by
    obtain ⟨k, hk, hk2⟩ := hl
    intro h0
    have : k ∈ (List.range nk).filter fun k => !left k := by simp [hk, hk2]
    unfold columnRows at h0
    rw [List.map_eq_nil_iff] at h0
    rw [h0] at this
    cases this
  obtain ⟨w, h1, h2, h3⟩ := derive_lists ha g (columnRows nk j i left) _ hr hc (by
    intro r hr' c n _ hn
    unfold columnRows at hr'
    obtain ⟨k, -, rfl⟩ := List.mem_map.mp hr'
    cases hn)
  refine ⟨w, h1, ?_, ?_⟩
  · rw [h2, List.map_map]
    rfl
  · rw [h3]
    refine facesList_column j i _ none ?_
    simp only [Option.toList, List.nil_append]
    exact List.Pairwise.filter _ List.pairwise_lt_range

/-! ## where the claim fails -/

/-- the grid of unit cubes, names as they are, the grid called A -/
def cubes (angles : Option (Row → Cell → Res (Face × Face))) (centres : Bool) : Setting ℚ :=
  { upper := id, check := some "A", len := fun v => v.x + v.y + v.z, angles := angles, useFaceCentres := centres,
    corners := fun c kp jp ip => ⟨(c.2.2 : ℚ) + ip, (c.2.1 : ℚ) + jp, (c.1 : ℚ) + kp⟩ }

def slab : GridInfo := ⟨10, 1, 1, false, true⟩

/-- **C125 fails** for tables with other grids: of several rows of another grid only the first is passed over; the others are taken to be cells
of this grid -/
theorem C125_other_grid_violated :
    ∃ w, deriveFromDataframe (cubes none true) slab
      [⟨some 1, some 1, some 1, some "A"⟩, ⟨some 1, some 1, some 2, some "B"⟩, ⟨some 1, some 1, some 3, some "B"⟩] = .ok w ∧
      w.cellIndices = [0, 2] := by
  obtain ⟨s1, a1, a2, a3, a4, a5, a6⟩ := step_ok (e := cubes none true) rfl 0 ⟨some 1, some 1, some 1, some "A"⟩
    (some ⟨some 1, some 1, some 2, some "B"⟩) State.init (0, 0, 0) (0, 0) none (by decide) (by simp [verifyGridName, cubes, State.init]) rfl
  have a2' : s1.cells = [(0, 0, 0)] := a2
  obtain ⟨s2, b1, b2, b3, b4, b5, b6⟩ := step_ok (e := cubes none true) rfl 2 ⟨some 1, some 1, some 3, some "B"⟩
    none { s1 with lastCell := some (1, 0, 0), skipped := some "B" } (2, 0, 0) (0, 0) (some "B") (by decide)
    (by simp [verifyGridName, cubes]) (by simp [fabricateEntry, a2', move, entryFace])
  obtain ⟨t, ht⟩ := tail_ok slab s2 b4 (by rw [b5]; simp)
  have hstep : step (cubes none true) 1 ⟨some 1, some 1, some 2, some "B"⟩ (some ⟨some 1, some 1, some 3, some "B"⟩) s1 =
      .ok { s1 with lastCell := some (1, 0, 0), skipped := some "B" } := by
    simp [step, cellOf, verifyGridName, cubes, a6]
  have hl : loop (cubes none true) 0
      [⟨some 1, some 1, some 1, some "A"⟩, ⟨some 1, some 1, some 2, some "B"⟩, ⟨some 1, some 1, some 3, some "B"⟩] State.init = .ok s2 := by
    simp only [loop, List.head?_cons, List.head?_nil]
    rw [a1, res_bind, hstep, res_bind, b1]
    rfl
  have hc : s2.cells = [(0, 0, 0), (2, 0, 0)] := by rw [b2]; simp [a2']
  unfold deriveFromDataframe
  rw [if_neg (by simp), hl, res_bind, if_neg (by rw [hc]; simp), ht, res_bind]
  exact ⟨_, rfl, by simp [hc, natural, slab]⟩

/-- **C125 fails** if the first row is passed over, for a missing value or as of another grid: there is no cell before the second row's, and no
blocked well is made although other rows have cells -/
theorem C125_first_row_violated (g : GridInfo) :
    deriveFromDataframe (cubes none true) g [⟨none, some 1, some 1, some "A"⟩, ⟨some 1, some 1, some 2, some "A"⟩] = .error .index ∧
    deriveFromDataframe (cubes none true) g [⟨some 1, some 1, some 1, some "B"⟩, ⟨some 1, some 1, some 2, some "A"⟩] = .error .index := by
  constructor <;> rfl

/-- **C125 fails** with angles and without face centres: however the faces come out, no blocked well is made -/
theorem C125_angles_violated (e : Setting K) (f : Row → Cell → Res (Face × Face)) (ha : e.angles = some f) (hf : e.useFaceCentres = false)
    (g : GridInfo) (r : Row) (rest : List Row) (c : Cell) (hr : cellOf r = some c) (hk : ∀ c n, e.check = some c → r.grid = some n → e.upper n = c)
    (w : Well K) : deriveFromDataframe e g (r :: rest) ≠ .ok w := by
  have : ∃ x, step e 0 r rest.head? State.init = .error x := by
    unfold step
    rw [hr]
    simp only
    rw [kept_not_skipped hk]
    simp only [Bool.false_eq_true, if_false]
    cases h : facesFor e 0 r rest.head? c (State.init : State K).cells with
    | error x => exact ⟨x, by rw [err_bind]⟩
    | ok ff =>
      refine ⟨.type, ?_⟩
      rw [res_bind]
      simp [entryExitPoints, centresUsed, ha, hf]
      rfl
  obtain ⟨x, hx⟩ := this
  unfold deriveFromDataframe
  rw [if_neg (by simp)]
  unfold loop
  rw [hx, err_bind, err_bind]
  simp

/-- **C125 fails** where the well starts upwards: the first cell is entered by its top and left by its top, an interval of no length -/
theorem C125_upwards_violated (e : Setting K) (ha : e.angles = none) (g : GridInfo) (k : Int) :
    ∃ w, deriveFromDataframe e g (rowsOfCells [(k, 0, 0), (k - 1, 0, 0)]) = .ok w ∧ w.facePairs[0]? = some ((0, 0), (0, 0)) := by
  obtain ⟨w, h1, h2, h3⟩ := derive_lists ha g (rowsOfCells [(k, 0, 0), (k - 1, 0, 0)]) [(k, 0, 0), (k - 1, 0, 0)] (by simp [rowsOfCells])
    (by simp [rowsOfCells, cellOf]) (by
      intro r hr c n _ hn
      unfold rowsOfCells at hr
      obtain ⟨k, -, rfl⟩ := List.mem_map.mp hr
      cases hn)
  refine ⟨w, h1, ?_⟩
  rw [h3]
  simp [facesList, exitFace, move]

/-- **C125 fails** for the values of columns: if a row was passed over there are fewer cells than rows and the table's columns are not taken -/
theorem C125_columns_violated :
    ∃ (rows : List Row) (w : Well ℚ), deriveFromDataframe (cubes none true) slab rows = .ok w ∧
      addColumn w (rows.map fun r => r.l) = .error .assertion := by
  obtain ⟨w, h1, h2⟩ := C125_other_grid_violated
  obtain ⟨-, -, -, h4, -⟩ := C125_counts _ _ _ w h1
  refine ⟨_, w, h1, ?_⟩
  rw [h2] at h4
  unfold addColumn
  rw [← h4]
  rfl

/-- **C125 fails** for well specifications with dates, if properties are wanted and not only of the last: no blocked well is made -/
theorem C125_dates_violated (e : Setting K) (g : GridInfo) (rows : List Row) : deriveFromWellspec e g true false true rows = .error .type := rfl

/-- otherwise the well specification is treated as any table -/
theorem C125_wellspec_partial (e : Setting K) (g : GridInfo) (rows : List Row) (addProperties lastDataOnly dated : Bool)
    (h : addProperties = false ∨ lastDataOnly = true ∨ dated = false) :
    deriveFromWellspec e g addProperties lastDataOnly dated rows = deriveFromDataframe e g rows := by
  unfold deriveFromWellspec
  rcases h with rfl | rfl | rfl <;> simp

/-! ## the hypotheses can be met -/

example : ∃ w, deriveFromDataframe (cubes none true) slab (columnRows 5 0 0 fun k => k == 2) = .ok w ∧ w.cellIndices = [0, 1, 3, 4] := by
  obtain ⟨w, h1, h2, -⟩ := C125_column (cubes none true) rfl slab 5 0 0 (fun k => k == 2) ⟨0, by decide, by decide⟩
  exact ⟨w, h1, by rw [h2]; decide⟩

example : ∃ w, deriveFromDataframe (cubes none true) slab (rowsOfCells [(0, 0, 0), (0, 0, 1), (1, 0, 1)]) = .ok w ∧
    w.facePairs = [((0, 0), (2, 1)), ((2, 0), (0, 1)), ((0, 0), (0, 1))] := by
  obtain ⟨w, h1, -, h3⟩ := derive_lists (e := cubes none true) rfl slab (rowsOfCells [(0, 0, 0), (0, 0, 1), (1, 0, 1)])
    [(0, 0, 0), (0, 0, 1), (1, 0, 1)] (by simp [rowsOfCells]) (by simp [rowsOfCells, cellOf]) (by
      intro r hr c n _ hn
      unfold rowsOfCells at hr
      obtain ⟨k, -, rfl⟩ := List.mem_map.mp hr
      cases hn)
  exact ⟨w, h1, by rw [h3]; decide⟩

end Verif.Blocking
