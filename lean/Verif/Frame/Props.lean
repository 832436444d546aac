import Verif.Frame.Lemmas
import Mathlib.Algebra.BigOperators.Field
import Mathlib.Algebra.BigOperators.Ring.List
import Mathlib.Tactic.IntervalCases

/-!
# C155, C156: the intervals of a wellbore frame and the cells of a blocked well
-/

namespace Verif.Frame

open Verif.Py

variable {K : Type} [Field K] [LinearOrder K] [IsStrictOrderedRing K]

/-- C155: a measured depth is found in the interval of the frame it lies in, with the fraction of the way along it; above the frame the
answer is (-1, 0), below it (-1, 1).  A depth at a node is in the interval above the node, except at the first node. -/
theorem C155_interval_for_md {nodes : List K} {md : Nat → K} (h : IsFrame nodes md) (x : K) :
    (x < md 0 → intervalForMd nodes x = (-1, 0)) ∧ (md (nodes.length - 1) < x → intervalForMd nodes x = (-1, 1)) ∧
    (md 0 ≤ x → x ≤ md (nodes.length - 1) → ∃ (i : Nat) (f : K), intervalForMd nodes x = ((i : Int), f) ∧ i + 1 < nodes.length ∧
      x = md i + f * (md (i + 1) - md i) ∧ 0 ≤ f ∧ f ≤ 1 ∧ (f = 0 → i = 0)) := by
  refine ⟨interval_above h, interval_below h, fun h0 h1 => ?_⟩
  obtain ⟨i, i1, i2, i3, i4, i5⟩ := interval_in h h0 h1
  have hp := md_lt h (i := i) (j := i + 1) (by omega) i1
  have hp' : 0 < md (i + 1) - md i := by linarith
  refine ⟨i, _, i2, i1, ?_, div_nonneg (by linarith) (by linarith), ?_, ?_⟩
  · rw [div_mul_cancel₀ _ (ne_of_gt hp')]
    ring
  · rw [div_le_one hp']
    linarith
  · intro hf
    rcases i5 with i5 | i5
    · exact i5
    · rw [div_eq_zero_iff] at hf
      rcases hf with hf | hf <;> linarith

/-- C155: every place along an interval is found again: `md` at a fraction, not at the start of the interval. -/
theorem C155_found_again {nodes : List K} {md : Nat → K} (h : IsFrame nodes md) {i : Nat} (hi : i + 1 < nodes.length) {f : K} (h0 : 0 < f)
    (h1 : f ≤ 1) : intervalForMd nodes (md i + f * (md (i + 1) - md i)) = ((i : Int), f) := by
  have hp := md_lt h (i := i) (j := i + 1) (by omega) hi
  have hp' : 0 < md (i + 1) - md i := by linarith
  have hm : 0 < f * (md (i + 1) - md i) := mul_pos h0 hp'
  have hm' : f * (md (i + 1) - md i) ≤ md (i + 1) - md i := by
    calc f * (md (i + 1) - md i) ≤ 1 * (md (i + 1) - md i) := mul_le_mul_of_nonneg_right h1 (le_of_lt hp')
      _ = _ := one_mul _
  have hz := md_le h (i := 0) (j := i) (Nat.zero_le _) (by omega)
  have hl := md_le h (i := i + 1) (j := nodes.length - 1) (by omega) (by omega)
  obtain ⟨j, j1, j2, j3, j4, j5⟩ := interval_in h (x := md i + f * (md (i + 1) - md i)) (by linarith) (by linarith)
  have : j = i := by
    rcases Nat.lt_trichotomy j i with hlt | rfl | hlt
    · have := md_le h (i := j + 1) (j := i) (by omega) (by omega)
      linarith
    · rfl
    · have := md_le h (i := i + 1) (j := j) (by omega) (by omega)
      have j5' := j5.resolve_left (by omega)
      linarith
  subst this
  rw [j2]
  refine Prod.ext rfl ?_
  simp only
  rw [add_sub_cancel_left, mul_div_cancel_right₀ _ (ne_of_gt hp')]

/-- C156: what the intervals of a frame share with a cell is found, for every frame and every cell with some length of well in it. -/
theorem C156_cell {nodes : List K} {md : Nat → K} (h : IsFrame nodes md) {a b : K} (hab : a < b) :
    ∃ l, cellContrib nodes a b = .ok l ∧ Shares nodes.length md a b l := by
  obtain ⟨l, hl, hr⟩ := cellContrib_spec h hab
  refine ⟨l, hl, ?_⟩
  have h2 := h.two
  rcases hr with ⟨rfl, hz⟩ | ⟨p, q, hpq, hq, rfl, hz, hne, c1, c2, c3, c4, c5⟩
  · refine ⟨by simp, ?_, by simp⟩
    intro i
    simp only [List.map_nil, List.not_mem_nil, false_iff, not_and, not_or, not_lt]
    intro hi
    refine ⟨le_of_eq (hz i hi), ?_⟩
    intro ha
    by_contra hi2
    rw [not_le] at hi2
    have h1 := md_lt h (i := i + 1) (j := i + 2) (by omega) (by omega)
    have := hz (i + 1) (by omega)
    rw [show i + 1 + 1 = i + 2 by omega, overlap_of (le_of_lt hab) (le_of_lt h1) (by linarith) (by linarith), ha, max_self] at this
    rcases le_total b (md (i + 2)) with hb | hb
    · rw [min_eq_left hb] at this
      linarith
    · rw [min_eq_right hb] at this
      linarith
  · have hmem : ∀ i, i ∈ (listed md a b p q).map Prod.fst ↔ p ≤ i ∧ i ≤ q := by
      intro i
      simp only [listed, List.map_map, List.mem_map, List.mem_range, Function.comp]
      constructor
      · rintro ⟨k, hk, rfl⟩
        omega
      · rintro ⟨h1, h2⟩
        exact ⟨i - p, by omega, by omega⟩
    refine ⟨?_, ?_, ?_⟩
    · unfold listed
      rw [List.map_map, List.pairwise_map]
      exact List.pairwise_lt_range.imp fun {x y} hxy => by simpa [Function.comp] using hxy
    · intro i
      rw [hmem]
      constructor
      · rintro ⟨i1, i2⟩
        refine ⟨by omega, ?_⟩
        rcases Nat.lt_or_eq_of_le i1 with hlt | rfl
        · left
          have d1 := md_lt h (i := i) (j := i + 1) (by omega) (by omega)
          have d2 : md i < b := lt_of_le_of_lt (md_le h i2 (by omega)) (c4.resolve_left (by omega))
          have d3 : a ≤ md i := le_trans c1 (md_le h (by omega) (by omega))
          rw [overlap_of (le_of_lt hab) (le_of_lt d1) (by linarith) (by linarith), max_eq_right d3]
          have : md i < min b (md (i + 1)) := lt_min d2 d1
          linarith
        · by_cases hpq' : p = q
          · left
            exact lt_of_le_of_ne (overlap_nonneg _ _ _ _) (Ne.symm (hne hpq'))
          · have d1 := md_lt h (i := p) (j := p + 1) (by omega) (by omega)
            have d2 : md p < b := lt_of_le_of_lt (md_le h (by omega) (by omega)) (c4.resolve_left (by omega))
            rcases lt_or_eq_of_le c1 with c1 | c1
            · left
              rw [overlap_of (le_of_lt hab) (le_of_lt d1) (by linarith) (by linarith)]
              have : max a (md p) < min b (md (p + 1)) := max_lt (lt_min hab c1) (lt_min d2 d1)
              linarith
            · exact Or.inr ⟨c1, by omega⟩
      · rintro ⟨i1, i2⟩
        by_contra hc
        have hc' : i < p ∨ q < i := by omega
        rcases i2 with i2 | ⟨i2, i3⟩
        · rw [hz i i1 hc'] at i2
          exact lt_irrefl _ i2
        · rcases hc' with hc' | hc'
          · have d1 : md p < a := c2.resolve_left (by omega)
            have d2 := md_le h (i := i + 1) (j := p) (by omega) (by omega)
            linarith
          · have d1 : b ≤ md (q + 1) := c5.resolve_left (by omega)
            have d2 := md_le h (i := q + 1) (j := i + 1) (by omega) (by omega)
            linarith
    · intro c hc
      simp only [listed, List.mem_map, List.mem_range] at hc
      obtain ⟨k, _, rfl⟩ := hc
      exact ⟨rfl, rfl⟩

omit [IsStrictOrderedRing K] in
theorem inCells_nil (mds : List K) : inCells mds [] = [] := by
  cases mds with
  | nil => rfl
  | cons a l => cases l <;> rfl

omit [IsStrictOrderedRing K] in
theorem contributions_forall {nodes : List K} (P : K × K → List (Contrib K) → Prop) {mds : List K} (gi : List Int)
    (hm : mds.Pairwise (· < ·)) (hP : ∀ a b, a < b → ∃ l, cellContrib nodes a b = .ok l ∧ P (a, b) l) :
    ∃ cs, contributions nodes mds gi = .ok cs ∧ List.Forall₂ P (inCells mds gi) cs := by
  induction gi generalizing mds with
  | nil =>
    refine ⟨[], ?_, ?_⟩
    · cases mds with
      | nil => rfl
      | cons a l => cases l <;> rfl
    · have : inCells mds [] = [] := inCells_nil mds
      rw [this]
      exact List.Forall₂.nil
  | cons g gi ih =>
    cases mds with
    | nil => exact ⟨[], by simp [contributions], by simp [inCells]⟩
    | cons a mds =>
      cases mds with
      | nil => exact ⟨[], by simp [contributions], by simp [inCells]⟩
      | cons b mds =>
        rw [List.pairwise_cons] at hm
        obtain ⟨cs, h1, h2⟩ := ih hm.2
        by_cases hg : g < 0
        · refine ⟨cs, ?_, ?_⟩
          · rw [contributions, if_pos hg, h1]
          · rw [inCells, if_pos hg]
            exact h2
        · obtain ⟨l, l1, l2⟩ := hP a b (hm.1 b (by simp))
          refine ⟨l :: cs, ?_, ?_⟩
          · rw [contributions, if_neg hg, l1, h1]
          · rw [inCells, if_neg hg]
            exact List.Forall₂.cons l2 h2

/-- C156: for a blocked well with increasing measured depths there is one list for each stretch in a cell, in order, with what the
intervals of the frame share with that stretch. -/
theorem C156_well {nodes : List K} {md : Nat → K} (h : IsFrame nodes md) {mds : List K} (gi : List Int) (hm : mds.Pairwise (· < ·)) :
    ∃ cs, contributions nodes mds gi = .ok cs ∧ List.Forall₂ (fun ab l => Shares nodes.length md ab.1 ab.2 l) (inCells mds gi) cs :=
  contributions_forall _ gi hm fun _ _ hab => C156_cell h hab

/-- C156: the fractions of a cell add up to the fraction of it in the frame. -/
theorem C156_cell_fractions {nodes : List K} {md : Nat → K} (h : IsFrame nodes md) {a b : K} (hab : a < b) {l : List (Contrib K)}
    (hl : cellContrib nodes a b = .ok l) : (l.map fun c => c.2.2).sum = overlap a b (md 0) (md (nodes.length - 1)) / (b - a) := by
  rw [sum_contrib h hab hl (fun _ _ y => y) (fun _ => rfl), ← Finset.sum_div, sum_overlap h (le_of_lt hab)]

theorem overlap_add {a b z c d : K} (h1 : a ≤ b) (h2 : b ≤ z) (h3 : c ≤ d) : overlap a b c d + overlap b z c d = overlap a z c d := by
  rw [overlap_comm a b, overlap_comm b z, overlap_comm a z, overlap_clamp h3 h1, overlap_clamp h3 h2, overlap_clamp h3 (le_trans h1 h2)]
  ring

theorem overlap_mono {a b z c d : K} (h1 : a ≤ b) (h2 : b ≤ z) (h3 : c ≤ d) : overlap b z c d ≤ overlap a z c d := by
  rw [← overlap_add h1 h2 h3]
  have := overlap_nonneg a b c d
  linarith

omit [IsStrictOrderedRing K] in
theorem le_last {b : K} {mds : List K} (h : (b :: mds).Pairwise (· < ·)) : b ≤ (b :: mds).getLastD 0 := by
  cases hm : mds.getLast? with
  | none =>
    rw [List.getLast?_eq_none_iff] at hm
    subst hm
    simp
  | some z =>
    have hz : z ∈ mds := List.mem_of_getLast? hm
    have : (b :: mds).getLastD 0 = z := by
      rw [List.getLastD_eq_getLast?]
      cases mds with
      | nil => simp at hm
      | cons x xs => rw [List.getLast?_cons_cons, hm]; rfl
    rw [this]
    exact le_of_lt ((List.pairwise_cons.1 h).1 z hz)

theorem sum_cells {c d : K} (hcd : c ≤ d) {a : K} {mds : List K} (gi : List Int) (hm : (a :: mds).Pairwise (· < ·)) :
    ((inCells (a :: mds) gi).map fun ab => overlap ab.1 ab.2 c d).sum ≤ overlap a ((a :: mds).getLastD 0) c d ∧
    (mds.length = gi.length → (∀ g ∈ gi, 0 ≤ g) →
      ((inCells (a :: mds) gi).map fun ab => overlap ab.1 ab.2 c d).sum = overlap a ((a :: mds).getLastD 0) c d) := by
  induction gi generalizing a mds with
  | nil =>
    have : inCells (a :: mds) [] = [] := inCells_nil _
    rw [this]
    refine ⟨by simpa using overlap_nonneg _ _ _ _, ?_⟩
    intro hl _
    have : mds = [] := by simpa using hl
    subst this
    simp only [List.map_nil, List.sum_nil, List.getLastD_cons, List.getLastD_nil]
    rw [overlap_comm, overlap_clamp hcd (le_refl a), sub_self]
  | cons g gi ih =>
    cases mds with
    | nil =>
      refine ⟨by simpa [inCells] using overlap_nonneg _ _ _ _, ?_⟩
      intro hl
      simp at hl
    | cons b mds =>
      obtain ⟨h1, h2⟩ := List.pairwise_cons.1 hm
      obtain ⟨i1, i2⟩ := ih h2
      have hab : a ≤ b := le_of_lt (h1 b (by simp))
      have hbz := le_last h2
      have hlast : (a :: b :: mds).getLastD 0 = (b :: mds).getLastD 0 := by simp [List.getLastD_cons]
      rw [hlast, ← overlap_add hab hbz hcd]
      by_cases hg : g < 0
      · rw [inCells, if_pos hg]
        refine ⟨?_, ?_⟩
        · have := overlap_nonneg a b c d
          linarith
        · intro _ hall
          have := hall g (by simp)
          omega
      · rw [inCells, if_neg hg, List.map_cons, List.sum_cons]
        refine ⟨by linarith, ?_⟩
        intro hl hall
        rw [i2 (by simpa using hl) fun x hx => hall x (by simp [hx])]

/-- the sum over the cells of what the lists give -/
theorem sum_wells {nodes : List K} {md : Nat → K} (h : IsFrame nodes md) {mds : List K} (gi : List Int) (hm : mds.Pairwise (· < ·))
    {cs : List (List (Contrib K))} (hc : contributions nodes mds gi = .ok cs) (f : Nat → K → K → K) (hf : ∀ i, f i 0 0 = 0) :
    (cs.map fun l => (l.map fun c => f c.1 c.2.1 c.2.2).sum) = (inCells mds gi).map fun ab =>
      ∑ i ∈ Finset.range (nodes.length - 1), f i (overlap ab.1 ab.2 (md i) (md (i + 1)) / (md (i + 1) - md i))
        (overlap ab.1 ab.2 (md i) (md (i + 1)) / (ab.2 - ab.1)) := by
  obtain ⟨cs', h1, h2⟩ := contributions_forall (nodes := nodes) (fun ab l => (l.map fun c => f c.1 c.2.1 c.2.2).sum =
      ∑ i ∈ Finset.range (nodes.length - 1), f i (overlap ab.1 ab.2 (md i) (md (i + 1)) / (md (i + 1) - md i))
        (overlap ab.1 ab.2 (md i) (md (i + 1)) / (ab.2 - ab.1))) gi hm (by
    intro a b hab
    obtain ⟨l, hl, _⟩ := cellContrib_spec h hab
    exact ⟨l, hl, sum_contrib h hab hl f hf⟩)
  rw [hc] at h1
  simp only [Except.ok.injEq] at h1
  subst h1
  clear hc
  generalize inCells mds gi = ic at h2
  induction h2 with
  | nil => rfl
  | cons e _ ih => rw [List.map_cons, List.map_cons, e, ih]

/-- C156: the fractions of an interval of the frame in the cells of a well add up to no more than one; to the fraction of the interval
within the well if all of the well is in cells, and so to one where that is all of the interval. -/
theorem C156_interval_fractions {nodes : List K} {md : Nat → K} (h : IsFrame nodes md) {a : K} {mds : List K} (gi : List Int)
    (hm : (a :: mds).Pairwise (· < ·)) {cs : List (List (Contrib K))} (hc : contributions nodes (a :: mds) gi = .ok cs) {i : Nat}
    (hi : i + 1 < nodes.length) :
    (cs.map fun l => (l.map fun c => if c.1 = i then c.2.1 else 0).sum).sum ≤ 1 ∧
    (mds.length = gi.length → (∀ g ∈ gi, 0 ≤ g) → (cs.map fun l => (l.map fun c => if c.1 = i then c.2.1 else 0).sum).sum =
      overlap a ((a :: mds).getLastD 0) (md i) (md (i + 1)) / (md (i + 1) - md i)) ∧
    (mds.length = gi.length → (∀ g ∈ gi, 0 ≤ g) → a ≤ md i → md (i + 1) ≤ (a :: mds).getLastD 0 →
      (cs.map fun l => (l.map fun c => if c.1 = i then c.2.1 else 0).sum).sum = 1) := by
  have hp := md_lt h (i := i) (j := i + 1) (by omega) hi
  have hp' : 0 < md (i + 1) - md i := by linarith
  have e := sum_wells h gi hm hc (fun j x _ => if j = i then x else 0) (fun j => by simp)
  have e2 : (cs.map fun l => (l.map fun c => if c.1 = i then c.2.1 else 0).sum).sum =
      ((inCells (a :: mds) gi).map fun ab => overlap ab.1 ab.2 (md i) (md (i + 1))).sum / (md (i + 1) - md i) := by
    rw [e, div_eq_mul_inv, ← List.sum_map_mul_right]
    congr 1
    apply List.map_congr_left
    intro ab _
    rw [Finset.sum_ite_eq' (Finset.range (nodes.length - 1)) i, if_pos (by simp; omega), div_eq_mul_inv]
  obtain ⟨s1, s2⟩ := sum_cells (le_of_lt hp) gi hm
  rw [e2]
  refine ⟨?_, ?_, ?_⟩
  · rw [div_le_one hp']
    have : overlap a ((a :: mds).getLastD 0) (md i) (md (i + 1)) ≤ md (i + 1) - md i := by
      rw [overlap_comm]
      exact overlap_le_left (le_of_lt hp)
    linarith
  · intro hl hall
    rw [s2 hl hall]
  · intro hl hall ha hz
    have := le_last hm
    rw [s2 hl hall, overlap_of this (le_of_lt hp) (by linarith) (by linarith), min_eq_right hz, max_eq_right ha, div_self (ne_of_gt hp')]

/-- a frame with three intervals and a well with four stretches, one of them in no cell -/
example : IsFrame [(0 : ℚ), 10, 20, 40] (fun i => [(0 : ℚ), 10, 20, 40].getD i 0) ∧ [(0 : ℚ), 5, 10, 18, 41].Pairwise (· < ·) ∧
    contributions [(0 : ℚ), 10, 20, 40] [0, 5, 10, 18, 41] [0, -1, 0, 0] =
      .ok [[(0, 1 / 2, 1)], [(0, 0, 0), (1, 4 / 5, 1)], [(1, 1 / 5, 2 / 23), (2, 1, 20 / 23)]] := by
  refine ⟨⟨by decide, ?_, by decide +kernel⟩, by decide +kernel, by decide +kernel⟩
  intro i hi
  simp only [List.length_cons, List.length_nil] at hi
  interval_cases i <;> rfl

end Verif.Frame
