import Verif.TriEdges.Spec
import Mathlib.Tactic.Push
import Mathlib.Tactic.Ring
import Mathlib.Tactic.Linarith
import Mathlib.Data.List.Sort

/-!
# C121: edges of a triangulation
-/

namespace Verif.TriEdges
open Verif.Py

theorem before_trans {a b c : Edge} (h1 : before a b = true) (h2 : before b c = true) : before a c = true := by
  unfold before at *
  simp only [Bool.or_eq_true, Bool.and_eq_true, decide_eq_true_eq, beq_iff_eq] at *
  omega

theorem before_irrefl (a : Edge) : before a a = false := by
  unfold before
  simp

theorem before_total {a b : Edge} (h1 : before a b = false) (h2 : a ≠ b) : before b a = true := by
  unfold before at *
  obtain ⟨a1, a2⟩ := a
  obtain ⟨b1, b2⟩ := b
  simp only [Bool.or_eq_false_iff, Bool.and_eq_false_iff, decide_eq_false_iff_not, beq_eq_false_iff_ne, ne_eq, Prod.mk.injEq,
    Bool.or_eq_true, Bool.and_eq_true, decide_eq_true_eq, beq_iff_eq] at *
  omega

/-- the rows are strictly in order -/
def InOrder (l : List (Edge × Nat)) : Prop := l.Pairwise fun x y => before x.1 y.1 = true

theorem insertCount_mem_fst (e : Edge) (l : List (Edge × Nat)) : ∀ x ∈ insertCount e l, x.1 = e ∨ x.1 ∈ l.map (·.1) := by
  induction l with
  | nil => simp [insertCount]
  | cons y l ih =>
    obtain ⟨d, n⟩ := y
    intro x hx
    unfold insertCount at hx
    split_ifs at hx with h1 h2
    · rcases List.mem_cons.mp hx with rfl | hx
      · exact Or.inl rfl
      · exact Or.inr (List.mem_map.mpr ⟨x, hx, rfl⟩)
    · rcases List.mem_cons.mp hx with rfl | hx
      · exact Or.inl h2.symm
      · exact Or.inr (List.mem_map.mpr ⟨x, List.mem_cons_of_mem _ hx, rfl⟩)
    · rcases List.mem_cons.mp hx with rfl | hx
      · exact Or.inr (by simp)
      · rcases ih x hx with h | h
        · exact Or.inl h
        · exact Or.inr (by simp only [List.map_cons, List.mem_cons]; exact Or.inr h)

theorem insertCount_order (e : Edge) (l : List (Edge × Nat)) (h : InOrder l) : InOrder (insertCount e l) := by
  induction l with
  | nil => simp [insertCount, InOrder]
  | cons y l ih =>
    obtain ⟨d, n⟩ := y
    have h' := List.pairwise_cons.mp h
    unfold insertCount
    split_ifs with h1 h2
    · refine List.pairwise_cons.mpr ⟨?_, h⟩
      intro x hx
      rcases List.mem_cons.mp hx with rfl | hx
      · exact h1
      · exact before_trans h1 (h'.1 x hx)
    · subst h2
      exact List.pairwise_cons.mpr ⟨h'.1, h'.2⟩
    · refine List.pairwise_cons.mpr ⟨?_, ih h'.2⟩
      intro x hx
      have hd : before d e = true := before_total (by simpa using h1) h2
      rcases insertCount_mem_fst e l x hx with h3 | h3
      · simp only [h3, hd]
      · obtain ⟨y, hy, hy'⟩ := List.mem_map.mp h3
        have := h'.1 y hy
        simp only [← hy']
        exact this

/-- the count of an edge in a list of counted edges -/
def countIn (e : Edge) (l : List (Edge × Nat)) : Nat := ((l.filter fun x => decide (x.1 = e)).map (·.2)).sum

theorem countIn_insert (e d : Edge) (l : List (Edge × Nat)) (h : InOrder l) :
    countIn d (insertCount e l) = countIn d l + if e = d then 1 else 0 := by
  induction l with
  | nil =>
    unfold insertCount countIn
    by_cases hd : e = d <;> simp [hd]
  | cons y l ih =>
    obtain ⟨c, n⟩ := y
    have h' := List.pairwise_cons.mp h
    unfold insertCount
    have ih' := ih h'.2
    by_cases h1 : before e c = true
    · rw [if_pos h1]
      by_cases h2 : e = d
      · subst h2
        unfold countIn
        rw [List.filter_cons, if_pos (by simp), if_pos rfl]
        simp only [List.map_cons, List.sum_cons]
        omega
      · unfold countIn
        rw [List.filter_cons, if_neg (by simpa using h2), if_neg h2]
        rfl
    · rw [if_neg h1]
      by_cases h3 : e = c
      · subst h3
        rw [if_pos rfl]
        unfold countIn
        simp only [List.filter_cons]
        by_cases h2 : e = d
        · simp [h2]; omega
        · simp [h2]
      · rw [if_neg h3]
        unfold countIn at ih' ⊢
        simp only [List.filter_cons]
        by_cases h4 : c = d
        · simp only [h4, decide_true, if_true, List.map_cons, List.sum_cons]; omega
        · simp only [h4, decide_false, Bool.false_eq_true, if_false]; exact ih'

theorem counts_positive (es : List Edge) : ∀ x ∈ es.foldr insertCount [], 0 < x.2 := by
  have step : ∀ (e : Edge) (l : List (Edge × Nat)), (∀ x ∈ l, 0 < x.2) → ∀ x ∈ insertCount e l, 0 < x.2 := by
    intro e l hl
    induction l with
    | nil => simp [insertCount]
    | cons y l ih =>
      obtain ⟨d, n⟩ := y
      intro x hx
      unfold insertCount at hx
      split_ifs at hx with h1 h2
      · rcases List.mem_cons.mp hx with rfl | hx
        · simp
        · exact hl x hx
      · rcases List.mem_cons.mp hx with rfl | hx
        · simp
        · exact hl x (List.mem_cons_of_mem _ hx)
      · rcases List.mem_cons.mp hx with rfl | hx
        · exact hl (d, n) (by simp)
        · exact ih (fun x hx => hl x (List.mem_cons_of_mem _ hx)) x hx
  induction es with
  | nil => simp
  | cons e es ih => exact step e _ ih

theorem counts_order (es : List Edge) : InOrder (es.foldr insertCount []) := by
  induction es with
  | nil => simp [InOrder]
  | cons e es ih => exact insertCount_order e _ ih

theorem counts_count (es : List Edge) (d : Edge) : countIn d (es.foldr insertCount []) = es.count d := by
  induction es with
  | nil => simp [countIn]
  | cons e es ih =>
    rw [List.foldr_cons, countIn_insert e d _ (counts_order es), ih, List.count_cons]
    by_cases h : e = d <;> simp [h]

theorem mem_order {l : List (Edge × Nat)} (h : InOrder l) {e : Edge} {n : Nat} (hm : (e, n) ∈ l) : countIn e l = n := by
  induction l with
  | nil => simp at hm
  | cons y l ih =>
    have h' := List.pairwise_cons.mp h
    have none : ∀ x ∈ l, x.1 = y.1 → False := by
      intro x hx he
      have := h'.1 x hx
      rw [he, before_irrefl] at this
      simp at this
    rcases List.mem_cons.mp hm with he | hm
    · subst he
      unfold countIn
      rw [List.filter_cons, if_pos (by simp)]
      rw [List.filter_eq_nil_iff.mpr (fun x hx => by simpa using fun he => none x hx he)]
      simp
    · have hne : y.1 ≠ e := fun he => none _ hm he.symm
      have := ih h'.2 hm
      unfold countIn at this ⊢
      rw [List.filter_cons, if_neg (by simpa using hne)]
      exact this

theorem countIn_pos {l : List (Edge × Nat)} {e : Edge} (h : 0 < countIn e l) : ∃ n, (e, n) ∈ l := by
  by_contra hc
  push Not at hc
  unfold countIn at h
  rw [List.filter_eq_nil_iff.mpr] at h
  · simp at h
  · intro x hx he
    have : x.1 = e := by simpa using he
    apply hc x.2
    rw [← this]
    exact hx

theorem sorted_eq {e : Edge} {a b : Nat} (hab : a ≤ b) : sorted e = (a, b) ↔ e = (a, b) ∨ e = (b, a) := by
  obtain ⟨x, y⟩ := e
  unfold sorted
  split_ifs with h <;> simp only [Prod.mk.injEq] at * <;> omega

theorem sorted_le (e : Edge) : (sorted e).1 ≤ (sorted e).2 := by
  unfold sorted
  split_ifs with h
  · exact h.le
  · omega

theorem allEdges_count (ts : List Tri) {a b : Nat} (hab : a ≤ b) : (allEdges ts).count (a, b) = uses ts a b := by
  induction ts with
  | nil => rfl
  | cons t ts ih =>
    obtain ⟨x, y, z⟩ := t
    have h1 : allEdges ((x, y, z) :: ts) = [sorted (x, y), sorted (y, z), sorted (z, x)] ++ allEdges ts := by
      simp [allEdges]
    have h2 : uses ((x, y, z) :: ts) a b = ((sides (x, y, z)).filter fun s => decide (s = (a, b) ∨ s = (b, a))).length + uses ts a b := by
      simp [uses]
    rw [h1, List.count_append, ih, h2]
    congr 1
    rw [List.count_eq_length_filter]
    have h3 : [sorted (x, y), sorted (y, z), sorted (z, x)] = (sides (x, y, z)).map sorted := rfl
    rw [h3, List.filter_map, List.length_map]
    congr 1
    apply List.filter_congr
    intro s _
    simp only [Function.comp_apply]
    rw [Bool.eq_iff_iff]
    simp only [beq_iff_eq, decide_eq_true_eq]
    exact sorted_eq hab

/-- **C121** the edges of a triangulation and their counts, for every list of triangles: the pairs are in strictly increasing order (so
none is listed twice), the lower index first, and a pair is listed with a count exactly when that is how often triangles have it as a side
(in either direction), the count not being zero -/
theorem C121_edges (ts : List Tri) :
    ((edges ts).map (·.1)).Pairwise (fun d e => d.1 < e.1 ∨ (d.1 = e.1 ∧ d.2 < e.2)) ∧
    ∀ a b n, ((a, b), n) ∈ edges ts ↔ a ≤ b ∧ n = uses ts a b ∧ 0 < n := by
  constructor
  · rw [List.pairwise_map]
    refine List.Pairwise.imp ?_ (counts_order (allEdges ts))
    intro x y h
    unfold before at h
    simpa only [Bool.or_eq_true, Bool.and_eq_true, decide_eq_true_eq, beq_iff_eq] using h
  · intro a b n
    have hle : ∀ e ∈ allEdges ts, e.1 ≤ e.2 := by
      intro e he
      unfold allEdges at he
      simp only [List.mem_flatMap, List.mem_cons, List.not_mem_nil, or_false] at he
      obtain ⟨t, -, rfl | rfl | rfl⟩ := he <;> exact sorted_le _
    constructor
    · intro h
      have h1 := mem_order (counts_order (allEdges ts)) h
      rw [counts_count] at h1
      have h2 := counts_positive (allEdges ts) _ h
      simp only at h2
      have hm : (a, b) ∈ allEdges ts := by
        rw [← List.count_pos_iff]; omega
      have hab := hle _ hm
      simp only at hab
      exact ⟨hab, by rw [← h1, allEdges_count ts hab], h2⟩
    · rintro ⟨hab, rfl, hpos⟩
      rw [← allEdges_count ts hab, ← counts_count] at hpos ⊢
      obtain ⟨n, hn⟩ := countIn_pos hpos
      have := mem_order (counts_order (allEdges ts)) hn
      rw [this]
      exact hn

example : edges [(0, 1, 2), (2, 1, 3)] = [((0, 1), 1), ((0, 2), 1), ((1, 2), 2), ((1, 3), 1), ((2, 3), 1)] := by decide

/-- **C121** the rim edges are those used exactly once and the internal ones those used exactly twice, in order -/
theorem C121_rim_edges (ts : List Tri) :
    (∀ a b, (a, b) ∈ rimEdges (edges ts) ↔ a ≤ b ∧ uses ts a b = 1) ∧
    (∀ a b, (a, b) ∈ internalEdges (edges ts) ↔ a ≤ b ∧ uses ts a b = 2) ∧
    (rimEdges (edges ts)).Pairwise (fun d e => d.1 < e.1 ∨ (d.1 = e.1 ∧ d.2 < e.2)) ∧
    (internalEdges (edges ts)).Pairwise (fun d e => d.1 < e.1 ∨ (d.1 = e.1 ∧ d.2 < e.2)) := by
  have hmem := (C121_edges ts).2
  have hord : ∀ p : Edge × Nat → Bool, (((edges ts).filter p).map (·.1)).Pairwise (fun d e => d.1 < e.1 ∨ (d.1 = e.1 ∧ d.2 < e.2)) := by
    intro p
    have := (C121_edges ts).1
    rw [List.pairwise_map] at this ⊢
    exact this.filter p
  refine ⟨?_, ?_, hord _, hord _⟩
  · intro a b
    unfold rimEdges
    simp only [List.mem_map, List.mem_filter, beq_iff_eq]
    constructor
    · rintro ⟨⟨e, n⟩, ⟨h1, h2⟩, h3⟩
      simp only at h2 h3
      subst h3; subst h2
      have := (hmem a b 1).mp h1
      exact ⟨this.1, this.2.1.symm⟩
    · rintro ⟨h1, h2⟩
      exact ⟨((a, b), 1), ⟨(hmem a b 1).mpr ⟨h1, h2.symm, by omega⟩, rfl⟩, rfl⟩
  · intro a b
    unfold internalEdges
    simp only [List.mem_map, List.mem_filter, beq_iff_eq]
    constructor
    · rintro ⟨⟨e, n⟩, ⟨h1, h2⟩, h3⟩
      simp only at h2 h3
      subst h3; subst h2
      have := (hmem a b 2).mp h1
      exact ⟨this.1, this.2.1.symm⟩
    · rintro ⟨h1, h2⟩
      exact ⟨((a, b), 2), ⟨(hmem a b 2).mpr ⟨h1, h2.symm, by omega⟩, rfl⟩, rfl⟩

theorem indicesWhere_spec {α : Type} (p : α → Bool) (l : List α) :
    (indicesWhere p l).Pairwise (· < ·) ∧ (∀ i, i ∈ indicesWhere p l ↔ ∃ x, l[i]? = some x ∧ p x = true) ∧
    (indicesWhere p l).length = (l.filter p).length := by
  unfold indicesWhere
  have gen : ∀ (l : List α) (s : Nat), (((l.zipIdx s).filter fun x => p x.1).map (·.2)).Pairwise (· < ·) ∧
      (∀ i, i ∈ ((l.zipIdx s).filter fun x => p x.1).map (·.2) ↔ s ≤ i ∧ ∃ x, l[i - s]? = some x ∧ p x = true) ∧
      (((l.zipIdx s).filter fun x => p x.1).map (·.2)).length = (l.filter p).length := by
    intro l
    induction l with
    | nil => intro s; simp
    | cons y l ih =>
      intro s
      obtain ⟨h1, h2, h3⟩ := ih (s + 1)
      rw [List.zipIdx_cons, List.filter_cons, List.filter_cons]
      have shift : ∀ i, s + 1 ≤ i → (y :: l)[i - s]? = l[i - (s + 1)]? := by
        intro i hi
        rw [show i - s = (i - (s + 1)) + 1 by omega, List.getElem?_cons_succ]
      by_cases hp : p y = true
      · rw [if_pos hp, if_pos hp]
        simp only [List.map_cons, List.length_cons]
        refine ⟨List.pairwise_cons.mpr ⟨?_, h1⟩, ?_, by rw [h3]⟩
        · intro i hi
          have := ((h2 i).mp hi).1
          omega
        · intro i
          rw [List.mem_cons, h2]
          constructor
          · rintro (rfl | ⟨h4, x, h5⟩)
            · exact ⟨by omega, y, by simp, hp⟩
            · exact ⟨by omega, x, by rw [shift i h4]; exact h5⟩
          · rintro ⟨h4, x, h5⟩
            by_cases hi : i = s
            · exact Or.inl hi
            · refine Or.inr ⟨by omega, x, ?_⟩
              rw [← shift i (by omega)]
              exact h5
      · rw [if_neg hp, if_neg hp]
        refine ⟨h1, ?_, h3⟩
        intro i
        rw [h2]
        constructor
        · rintro ⟨h4, x, h5⟩
          exact ⟨by omega, x, by rw [shift i h4]; exact h5⟩
        · rintro ⟨h4, x, h5⟩
          by_cases hi : i = s
          · subst hi
            simp only [Nat.sub_self, List.getElem?_cons_zero, Option.some.injEq] at h5
            rw [h5.1] at hp
            exact absurd h5.2 hp
          · refine ⟨by omega, x, ?_⟩
            rw [← shift i (by omega)]
            exact h5
  obtain ⟨h1, h2, h3⟩ := gen l 0
  refine ⟨h1, ?_, h3⟩
  intro i
  rw [h2]
  simp

theorem hasPoint_iff (p : Nat) (t : Tri) : hasPoint p t = true ↔ t.1 = p ∨ t.2.1 = p ∨ t.2.2 = p := by
  unfold hasPoint
  simp only [Bool.or_eq_true, beq_iff_eq, or_assoc]

/-- **C121** the triangles using a point, and those using both ends of an edge: exactly those with these corners, in increasing order; a
request for an edge from a point to itself is refused -/
theorem C121_triangles_using (ts : List Tri) (p q : Nat) :
    ((usingPoint ts p).Pairwise (· < ·) ∧
      ∀ i, i ∈ usingPoint ts p ↔ ∃ t, ts[i]? = some t ∧ (t.1 = p ∨ t.2.1 = p ∨ t.2.2 = p)) ∧
    (p = q → usingEdge ts p q = .error .assertion) ∧
    (p ≠ q → ∃ l, usingEdge ts p q = .ok l ∧ l.Pairwise (· < ·) ∧
      ∀ i, i ∈ l ↔ ∃ t, ts[i]? = some t ∧ ((p, q) ∈ sides t ∨ (q, p) ∈ sides t)) := by
  refine ⟨⟨(indicesWhere_spec _ ts).1, ?_⟩, ?_, ?_⟩
  · intro i
    unfold usingPoint
    rw [(indicesWhere_spec _ ts).2.1]
    simp only [hasPoint_iff]
  · intro h
    unfold usingEdge
    rw [if_pos h]
  · intro h
    unfold usingEdge
    rw [if_neg h]
    refine ⟨_, rfl, (indicesWhere_spec _ ts).1, ?_⟩
    intro i
    rw [(indicesWhere_spec _ ts).2.1]
    have key : ∀ t : Tri, (hasPoint p t && hasPoint q t) = true ↔ (p, q) ∈ sides t ∨ (q, p) ∈ sides t := by
      rintro ⟨x, y, z⟩
      rw [Bool.and_eq_true, hasPoint_iff, hasPoint_iff]
      simp only [sides, List.mem_cons, List.not_mem_nil, or_false, Prod.mk.injEq]
      omega
    simp only [key]

example : usingEdge [(0, 1, 2), (2, 1, 3), (3, 4, 5)] 1 2 = .ok [0, 1] := by decide

theorem usingEdge_length (ts : List Tri) (hp : ∀ t ∈ ts, Proper t) (p q : Nat) (h : p ≠ q) :
    ∃ l, usingEdge ts p q = .ok l ∧ l.length = uses ts p q := by
  unfold usingEdge
  rw [if_neg h]
  refine ⟨_, rfl, ?_⟩
  rw [(indicesWhere_spec _ ts).2.2]
  induction ts with
  | nil => rfl
  | cons t ts ih =>
    have ih' := ih (fun t ht => hp t (List.mem_cons_of_mem _ ht))
    have hu : uses (t :: ts) p q = ((sides t).filter fun s => decide (s = (p, q) ∨ s = (q, p))).length + uses ts p q := by
      simp [uses]
    rw [hu, ← ih', List.filter_cons]
    obtain ⟨x, y, z⟩ := t
    obtain ⟨g1, g2, g3⟩ := hp (x, y, z) (by simp)
    simp only at g1 g2 g3
    have b : (hasPoint p (x, y, z) && hasPoint q (x, y, z)) = true ↔ (x = p ∨ y = p ∨ z = p) ∧ (x = q ∨ y = q ∨ z = q) := by
      rw [Bool.and_eq_true, hasPoint_iff, hasPoint_iff]
    simp only [sides, List.filter_cons, List.filter_nil, Prod.mk.injEq, decide_eq_true_eq]
    by_cases hb : (x = p ∨ y = p ∨ z = p) ∧ (x = q ∨ y = q ∨ z = q)
    · rw [if_pos (b.mpr hb), List.length_cons]
      obtain ⟨h1, h2⟩ := hb
      by_cases c1 : x = p ∧ y = q ∨ x = q ∧ y = p
      · rw [if_neg (by omega : ¬ (z = p ∧ x = q ∨ z = q ∧ x = p)), if_neg (by omega : ¬ (y = p ∧ z = q ∨ y = q ∧ z = p)), if_pos c1]
        simp only [List.length_cons, List.length_nil]; omega
      · by_cases c2 : y = p ∧ z = q ∨ y = q ∧ z = p
        · rw [if_neg (by omega : ¬ (z = p ∧ x = q ∨ z = q ∧ x = p)), if_pos c2, if_neg c1]
          simp only [List.length_cons, List.length_nil]; omega
        · rw [if_pos (by omega : z = p ∧ x = q ∨ z = q ∧ x = p), if_neg c2, if_neg c1]
          simp only [List.length_cons, List.length_nil]; omega
    · rw [if_neg (fun h => hb (b.mp h))]
      rw [if_neg (by omega : ¬ (z = p ∧ x = q ∨ z = q ∧ x = p)), if_neg (by omega : ¬ (y = p ∧ z = q ∨ y = q ∧ z = p)),
        if_neg (by omega : ¬ (x = p ∧ y = q ∨ x = q ∧ y = p))]
      simp

/-- **C121** for triangles with three different corners, the triangles on either side of each edge are found exactly when no edge asked for is
used more than twice; there are then as many as the count of the edge says, and they are the triangles using it -/
theorem C121_triangles_using_edges (ts : List Tri) (hp : ∀ t ∈ ts, Proper t) (es : List Edge) (he : ∀ e ∈ es, e.1 ≠ e.2) :
    (∃ r, usingEdges ts es = .ok r) ↔ ∀ e ∈ es, uses ts e.1 e.2 ≤ 2 := by
  induction es with
  | nil => simp [usingEdges]
  | cons e es ih =>
    have ih' := ih (fun e h => he e (List.mem_cons_of_mem _ h))
    obtain ⟨l, h1, h2⟩ := usingEdge_length ts hp e.1 e.2 (he e (by simp))
    simp only [List.mem_cons, forall_eq_or_imp, ← ih']
    rw [usingEdges.eq_2, h1]
    simp only [bind, Except.bind, pure, Except.pure]
    rw [h2]
    by_cases hu : uses ts e.1 e.2 > 2
    · rw [if_pos hu]
      simp only [reduceCtorEq, exists_false, false_iff, not_and]
      intro; omega
    · rw [if_neg hu]
      cases hr : usingEdges ts es with
      | error x => simp
      | ok r => simp; omega

/-- **C121** and the triangles found for each edge are the first and second of those using it, nothing being put where there is none -/
theorem C121_triangles_using_edges_values (ts : List Tri) : ∀ (es : List Edge) (r : List (Option Nat × Option Nat)),
    usingEdges ts es = .ok r → r.length = es.length ∧
      ∀ n, (h : n < es.length) → ∃ l, usingEdge ts es[n].1 es[n].2 = .ok l ∧ l.length ≤ 2 ∧ r[n]? = some (l[0]?, l[1]?)
  | [], r, h => by
    simp only [usingEdges, Except.ok.injEq] at h
    subst h
    simp
  | e :: es, r, h => by
    unfold usingEdges at h
    rcases hu : usingEdge ts e.1 e.2 with x | l
    · rw [hu] at h; simp [bind, Except.bind] at h
    · rw [hu] at h
      simp only [bind, Except.bind, pure, Except.pure] at h
      split_ifs at h with hl
      rcases hr : usingEdges ts es with x | r'
      · rw [hr] at h; simp at h
      · rw [hr] at h
        simp only [Except.ok.injEq] at h
        subst h
        obtain ⟨h1, h2⟩ := C121_triangles_using_edges_values ts es r' hr
        refine ⟨by simp [h1], ?_⟩
        intro n hn
        rcases n with _ | n
        · exact ⟨l, hu, by omega, rfl⟩
        · obtain ⟨l', h3, h4, h5⟩ := h2 n (by simpa using hn)
          exact ⟨l', h3, h4, by simpa using h5⟩

example : usingEdges [(0, 1, 2), (2, 1, 3)] [(0, 1), (1, 2)] = .ok [(some 0, none), (some 0, some 1)] := by decide
example : Proper (0, 1, 2) ∧ Proper (2, 1, 3) := by decide

end Verif.TriEdges
