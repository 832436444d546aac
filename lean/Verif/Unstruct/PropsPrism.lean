import Verif.Unstruct.Prism
import Verif.Unstruct.Props
import Verif.Unstruct.PropsHexa
import Verif.TriEdges.PropsRims

/-!
# C123: vertical prism grids made from surfaces
-/

namespace Verif.Unstruct.Prism
open Verif.Py Verif.Unstruct
open Verif.TriEdges (Tri Edge sorted edges before uses Proper sides rimEdges allEdges)
open Verif.Unstruct.Hexa (rank_inj rank_lt unrank getElem_flatMap_const)

/-! ## looking up a pair by halving -/

/-- the rows are strictly in order -/
def Ordered (a : List Edge) : Prop := a.Pairwise fun d e => d.1 < e.1 ∨ (d.1 = e.1 ∧ d.2 < e.2)

theorem ordered_get {a : List Edge} (h : Ordered a) {i j : Nat} {d e : Edge} (hij : i < j) (hi : a[i]? = some d) (hj : a[j]? = some e) :
    d.1 < e.1 ∨ (d.1 = e.1 ∧ d.2 < e.2) := by
  obtain ⟨hi', rfl⟩ := List.getElem?_eq_some_iff.mp hi
  obtain ⟨hj', rfl⟩ := List.getElem?_eq_some_iff.mp hj
  exact List.pairwise_iff_getElem.mp h i j hi' hj' hij

theorem ordered_unique {a : List Edge} (h : Ordered a) {i j : Nat} {d : Edge} (hi : a[i]? = some d) (hj : a[j]? = some d) : i = j := by
  rcases Nat.lt_trichotomy i j with hl | hl | hl
  · have := ordered_get h hl hi hj
    omega
  · exact hl
  · have := ordered_get h hl hj hi
    omega

theorem frp_spec {a : List Edge} (h : Ordered a) (pair : Edge) : ∀ (n b c : Nat), c - b = n → b ≤ c → c ≤ a.length →
    (∀ i : Nat, a[i]? = some pair → b ≤ i ∧ i < c) →
    (∀ i : Nat, a[i]? = some pair → frp a pair b c = .ok i) ∧ ((∀ i : Nat, a[i]? ≠ some pair) → frp a pair b c = .error .assertion) := by
  intro n
  induction n using Nat.strong_induction_on with
  | _ n ih =>
    intro b c hn hbc hc hin
    rw [frp]
    rcases hm : a[b + (c - b) / 2]? with _ | e
    · refine ⟨fun i hi => ?_, fun _ => rfl⟩
      rw [List.getElem?_eq_none_iff] at hm
      obtain ⟨h1, h2⟩ := hin i hi
      exfalso
      omega
    · simp only
      by_cases he : e = pair
      · subst he
        simp only [if_true]
        refine ⟨fun i hi => ?_, fun hno => absurd hm (hno _)⟩
        rw [ordered_unique h hi hm]
      · rw [if_neg he]
        by_cases hlt : b < c
        · rw [if_pos hlt]
          have up : (∀ i : Nat, a[i]? = some pair → b + (c - b) / 2 < i) →
              (∀ i : Nat, a[i]? = some pair → frp a pair (b + (c - b) / 2 + 1) c = .ok i) ∧
              ((∀ i : Nat, a[i]? ≠ some pair) → frp a pair (b + (c - b) / 2 + 1) c = .error .assertion) := by
            intro hup
            refine ih (c - (b + (c - b) / 2 + 1)) (by omega) _ _ rfl (by omega) hc ?_
            intro i hi
            have := hup i hi
            exact ⟨by omega, (hin i hi).2⟩
          have down : (∀ i : Nat, a[i]? = some pair → i < b + (c - b) / 2) →
              (∀ i : Nat, a[i]? = some pair → frp a pair b (b + (c - b) / 2) = .ok i) ∧
              ((∀ i : Nat, a[i]? ≠ some pair) → frp a pair b (b + (c - b) / 2) = .error .assertion) := by
            intro hdn
            refine ih (b + (c - b) / 2 - b) (by omega) _ _ rfl (by omega) (by omega) ?_
            intro i hi
            exact ⟨(hin i hi).1, hdn i hi⟩
          have left : ∀ i : Nat, a[i]? = some pair → ¬ i < b + (c - b) / 2 → b + (c - b) / 2 < i := by
            intro i hi hni
            rcases Nat.lt_or_eq_of_le (Nat.le_of_not_lt hni) with h1 | h1
            · exact h1
            · rw [← h1, hm] at hi
              simp only [Option.some.injEq] at hi
              exact absurd hi he
          have cmp1 : ∀ i : Nat, a[i]? = some pair → i < b + (c - b) / 2 → pair.1 < e.1 ∨ (pair.1 = e.1 ∧ pair.2 < e.2) := fun i hi hl => ordered_get h hl hi hm
          have cmp2 : ∀ i : Nat, a[i]? = some pair → b + (c - b) / 2 < i → e.1 < pair.1 ∨ (e.1 = pair.1 ∧ e.2 < pair.2) := fun i hi hl => ordered_get h hl hm hi
          split_ifs with h1 h2 h3
          · refine up fun i hi => left i hi fun hl => ?_
            have := cmp1 i hi hl
            omega
          · refine down fun i hi => ?_
            by_contra hnl
            have := cmp2 i hi (left i hi hnl)
            omega
          · refine up fun i hi => left i hi fun hl => ?_
            have := cmp1 i hi hl
            omega
          · refine down fun i hi => ?_
            by_contra hnl
            have := cmp2 i hi (left i hi hnl)
            have h5 : e.1 = pair.1 := by omega
            have h6 : e.2 ≠ pair.2 := fun h6 => he (Prod.ext h5 h6)
            omega
        · rw [if_neg hlt]
          refine ⟨fun i hi => ?_, fun _ => rfl⟩
          obtain ⟨h1, h2⟩ := hin i hi
          exfalso
          omega

/-- **C123** looking up a pair of nodes in the ordered list of column edges by halving: it always finds the place of a pair which is there,
and refuses one which is not -/
theorem C123_find_pair (a : List Edge) (h : a.Pairwise fun d e => d.1 < e.1 ∨ (d.1 = e.1 ∧ d.2 < e.2)) (pair : Edge) (n : Nat) :
    (findPair a pair = .ok n ↔ a[n]? = some pair) ∧ (findPair a pair = .error .assertion ↔ pair ∉ a) := by
  have hs := frp_spec h pair _ 0 a.length rfl (Nat.zero_le _) (Nat.le_refl _) (by
    intro i hi
    obtain ⟨hi', _⟩ := List.getElem?_eq_some_iff.mp hi
    exact ⟨Nat.zero_le _, hi'⟩)
  unfold findPair
  by_cases hm : pair ∈ a
  · obtain ⟨i, hi⟩ := List.mem_iff_getElem?.mp hm
    rw [hs.1 i hi]
    refine ⟨⟨?_, ?_⟩, by simp [hm]⟩
    · intro h1
      simp only [Except.ok.injEq] at h1
      subst h1
      exact hi
    · intro h1
      rw [ordered_unique h hi h1]
  · have hno : ∀ i : Nat, a[i]? ≠ some pair := fun i hi => hm (List.mem_iff_getElem?.mpr ⟨i, hi⟩)
    rw [hs.2 hno]
    exact ⟨⟨by simp, fun h1 => absurd h1 (hno n)⟩, by simp [hm]⟩

example : findPair [(0, 1), (0, 2), (1, 2), (1, 3), (2, 3)] (1, 3) = .ok 3 :=
  ((C123_find_pair _ (by decide) _ 3).1).mpr rfl

/-! ## the column edges -/

/-- the column edges of a triangulation -/
def colEdges (ts : List Tri) : List Edge := (edges ts).map (·.1)

theorem colEdges_ordered (ts : List Tri) : Ordered (colEdges ts) := (Verif.TriEdges.C121_edges ts).1

theorem mem_colEdges (ts : List Tri) (a b : Nat) : (a, b) ∈ colEdges ts ↔ a ≤ b ∧ 0 < uses ts a b := by
  unfold colEdges
  rw [List.mem_map]
  constructor
  · rintro ⟨⟨⟨x, y⟩, n⟩, h1, h2⟩
    simp only [Prod.mk.injEq] at h2
    obtain ⟨rfl, rfl⟩ := h2
    obtain ⟨h3, rfl, h5⟩ := ((Verif.TriEdges.C121_edges ts).2 x y n).mp h1
    exact ⟨h3, h5⟩
  · rintro ⟨h1, h2⟩
    exact ⟨((a, b), uses ts a b), ((Verif.TriEdges.C121_edges ts).2 a b _).mpr ⟨h1, rfl, h2⟩, rfl⟩

/-- the side a triangle has for an edge place 0, 1 or 2: the corners there and before, lower index first -/
def side (t : Tri) (e : Nat) : Edge := sorted ((triEdges t).getD e (0, 0))

theorem sorted_mem {ts : List Tri} {t : Tri} (ht : t ∈ ts) {d : Edge} (hd : d ∈ triEdges t) : sorted d ∈ colEdges ts := by
  have h1 : sorted d ∈ allEdges ts := by
    unfold allEdges
    rw [List.mem_flatMap]
    refine ⟨t, ht, ?_⟩
    obtain ⟨a, b, c⟩ := t
    simp only [triEdges, List.mem_cons, List.not_mem_nil, or_false] at hd
    rcases hd with rfl | rfl | rfl <;> simp
  have h2 := Verif.TriEdges.allEdges_count ts (Verif.TriEdges.sorted_le d)
  rw [← List.count_pos_iff] at h1
  have h3 : (sorted d) = ((sorted d).1, (sorted d).2) := rfl
  rw [h3, mem_colEdges]
  refine ⟨Verif.TriEdges.sorted_le d, ?_⟩
  rw [← h2]
  exact h1

theorem findPair_mem {a : List Edge} (h : Ordered a) {d : Edge} (hd : d ∈ a) : findPair a d = .ok (a.idxOf d) := by
  rw [(C123_find_pair a h d _).1]
  rw [List.getElem?_eq_getElem (List.idxOf_lt_length_of_mem hd), List.getElem_idxOf]

/-- the places of the sides of a triangle among the column edges -/
def sideNos (ts : List Tri) (t : Tri) : List Nat := (triEdges t).map fun d => (colEdges ts).idxOf (sorted d)

theorem columnSides_ok {ts : List Tri} {t : Tri} (ht : t ∈ ts) : ∀ (es : List Edge), (∀ d ∈ es, d ∈ triEdges t) →
    columnSides (colEdges ts) es = .ok (es.map fun d => (colEdges ts).idxOf (sorted d))
  | [], _ => rfl
  | d :: es, h => by
    unfold columnSides
    rw [findPair_mem (colEdges_ordered ts) (sorted_mem ht (h d (by simp))), columnSides_ok ht es (fun d hd => h d (by simp [hd]))]
    rfl

theorem allSides_ok (ts : List Tri) : ∀ (us : List Tri), (∀ t ∈ us, t ∈ ts) → allSides (colEdges ts) us = .ok (us.map (sideNos ts))
  | [], _ => rfl
  | t :: us, h => by
    unfold allSides
    rw [columnSides_ok (h t (by simp)) _ (fun d hd => hd), allSides_ok ts us (fun t ht => h t (by simp [ht]))]
    rfl

theorem sideNos_lt {ts : List Tri} {t : Tri} (ht : t ∈ ts) : ∀ n ∈ sideNos ts t, n < (colEdges ts).length := by
  intro n hn
  unfold sideNos at hn
  obtain ⟨d, hd, rfl⟩ := List.mem_map.mp hn
  exact List.idxOf_lt_length_of_mem (sorted_mem ht hd)

/-! ## how often a face is used -/

/-- how often a face is listed by cells -/
def total (rows : List (List Nat)) (f : Nat) : Nat := (rows.map fun r => r.count f).sum

theorem users_length (rows : List (List Nat)) (f : Nat) : (users rows nobody f).length = total rows f := by
  unfold users nobody total
  have h1 : ((List.range rows.length).filter fun _ => !false) = List.range rows.length := List.filter_eq_self.mpr (by simp)
  rw [h1, List.length_flatMap]
  congr 1
  have h2 : rows.map (fun r => r.count f) = (List.range rows.length).map fun c => (rows.getD c []).count f := by
    apply List.ext_getElem (by simp)
    intro n h3 h4
    simp only [List.length_map] at h3
    simp [h3]
  rw [h2]
  simp

theorem total_flatten (rows : List (List Nat)) (f : Nat) : rows.flatten.count f = total rows f := by
  unfold total
  rw [List.count_flatten]

theorem sum_ite (n a x : Nat) : ((List.range n).map fun i => if i = a then x else 0).sum = if a < n then x else 0 := by
  induction n with
  | zero => simp
  | succ n ih =>
    rw [List.range_succ, List.map_append, List.sum_append, ih]
    simp only [List.map_cons, List.map_nil, List.sum_cons, List.sum_nil]
    split_ifs <;> omega

theorem total_nested (s c : Nat) (F : Nat → Nat → List Nat) (f : Nat) :
    total ((List.range s).flatMap fun l => (List.range c).map fun col => F l col) f =
      ((List.range s).map fun l => ((List.range c).map fun col => (F l col).count f).sum).sum := by
  unfold total
  induction s with
  | zero => rfl
  | succ s ih =>
    rw [List.range_succ, List.flatMap_append, List.map_append, List.sum_append, ih, List.map_append, List.sum_append]
    simp only [List.flatMap_cons, List.flatMap_nil, List.append_nil, List.map_cons, List.map_nil, List.sum_cons, List.sum_nil, List.map_map,
      Function.comp_def, Nat.add_zero]

theorem sum_congr {n : Nat} {f g : Nat → Nat} (h : ∀ i, i < n → f i = g i) : ((List.range n).map f).sum = ((List.range n).map g).sum := by
  congr 1
  apply List.map_congr_left
  intro i hi
  exact h i (List.mem_range.mp hi)

theorem sum_add (n : Nat) (f g : Nat → Nat) :
    ((List.range n).map fun i => f i + g i).sum = ((List.range n).map f).sum + ((List.range n).map g).sum := by
  induction n with
  | zero => rfl
  | succ n ih =>
    rw [List.range_succ]
    simp only [List.map_append, List.sum_append, List.map_cons, List.map_nil, List.sum_cons, List.sum_nil, ih]
    omega

/-- the faces of the cells of the grid made -/
def cellFaces (ts : List Tri) (s : Nat) : List (List Nat) := faceRows ts.length s (colEdges ts).length (ts.map (sideNos ts))

theorem total_triangle (ts : List Tri) (s k c : Nat) (hc : c < ts.length) (hk : k < s) :
    total (cellFaces ts s) (k * ts.length + c) = (if 0 < k then 1 else 0) + (if k + 1 < s then 1 else 0) := by
  unfold cellFaces faceRows
  rw [total_nested]
  have hf : k * ts.length + c < ts.length * s := by
    rw [Nat.mul_comm ts.length s]; exact rank_lt hk hc
  have inner : ∀ l, l < s - 1 → ((List.range ts.length).map fun col =>
      (cellRow ts.length s (colEdges ts).length l col ((ts.map (sideNos ts)).getD col [])).count (k * ts.length + c)).sum =
        (if l = k then 1 else 0) + (if l = k - 1 then (if 0 < k then 1 else 0) else 0) := by
    intro l hl
    have h1 : ∀ col, col < ts.length →
        (cellRow ts.length s (colEdges ts).length l col ((ts.map (sideNos ts)).getD col [])).count (k * ts.length + c) =
          (if col = c then (if l = k then 1 else 0) else 0) +
            (if col = c then (if l = k - 1 then (if 0 < k then 1 else 0) else 0) else 0) := by
      intro col hcol
      unfold cellRow
      rw [List.count_append]
      have h2 : ((((ts.map (sideNos ts)).getD col []).map fun n => ts.length * s + n + l * (colEdges ts).length).count
          (k * ts.length + c)) = 0 := by
        rw [List.count_eq_zero]
        intro hm
        obtain ⟨n, -, hn⟩ := List.mem_map.mp hm
        omega
      rw [h2, Nat.add_zero]
      simp only [List.count_cons, List.count_nil, beq_iff_eq]
      have e1 : (l * ts.length + col = k * ts.length + c) ↔ (col = c ∧ l = k) := by
        constructor
        · intro h
          obtain ⟨h1, h2⟩ := rank_inj hcol hc h
          exact ⟨h2, h1⟩
        · rintro ⟨rfl, rfl⟩; rfl
      have e2 : ((l + 1) * ts.length + col = k * ts.length + c) ↔ (col = c ∧ l = k - 1 ∧ 0 < k) := by
        constructor
        · intro h
          obtain ⟨h1, h2⟩ := rank_inj hcol hc h
          exact ⟨h2, by omega, by omega⟩
        · rintro ⟨rfl, rfl, h3⟩
          have : k - 1 + 1 = k := by omega
          rw [this]
      simp only [e1, e2]
      split_ifs <;> omega
    rw [sum_congr h1, sum_add, sum_ite, sum_ite, if_pos hc, if_pos hc]
  rw [sum_congr inner, sum_add, sum_ite, sum_ite]
  split_ifs <;> omega

theorem uses_sideNos (ts : List Tri) (us : List Tri) (hus : ∀ t ∈ us, t ∈ ts) (n a b : Nat) (hn : (colEdges ts)[n]? = some (a, b)) :
    (us.map fun t => (sideNos ts t).count n).sum = uses us a b := by
  have hab : a ≤ b := ((mem_colEdges ts a b).mp (List.mem_iff_getElem?.mpr ⟨n, hn⟩)).1
  induction us with
  | nil => rfl
  | cons t us ih =>
    have h2 : uses (t :: us) a b = ((sides t).filter fun s => decide (s = (a, b) ∨ s = (b, a))).length + uses us a b := by
      simp [uses]
    rw [h2, List.map_cons, List.sum_cons, ih (fun t ht => hus t (by simp [ht]))]
    congr 1
    have h3 : ∀ d ∈ triEdges t, ((colEdges ts).idxOf (sorted d) = n ↔ d = (a, b) ∨ d = (b, a)) := by
      intro d hd
      have hm := sorted_mem (hus t (by simp)) hd
      rw [← Verif.TriEdges.sorted_eq hab]
      have hg : (colEdges ts)[(colEdges ts).idxOf (sorted d)]? = some (sorted d) := by
        rw [List.getElem?_eq_getElem (List.idxOf_lt_length_of_mem hm), List.getElem_idxOf]
      constructor
      · intro h
        rw [h, hn] at hg
        simpa using hg.symm
      · intro h
        rw [h] at hg ⊢
        exact ordered_unique (colEdges_ordered ts) hg hn
    have h4 : (sideNos ts t).count n = ((triEdges t).filter fun s => decide (s = (a, b) ∨ s = (b, a))).length := by
      unfold sideNos
      rw [List.count_eq_length_filter, List.filter_map, List.length_map]
      congr 1
      apply List.filter_congr
      intro d hd
      simp only [Function.comp_apply]
      rw [Bool.eq_iff_iff]
      simp only [beq_iff_eq, decide_eq_true_eq]
      exact h3 d hd
    rw [h4]
    obtain ⟨x, y, z⟩ := t
    simp only [triEdges, sides, List.filter_cons, List.filter_nil]
    split_ifs <;> rfl

theorem total_side (ts : List Tri) (s l n a b : Nat) (hl : l < s - 1) (hn : (colEdges ts)[n]? = some (a, b)) :
    total (cellFaces ts s) (ts.length * s + n + l * (colEdges ts).length) = uses ts a b := by
  have hn' : n < (colEdges ts).length := (List.getElem?_eq_some_iff.mp hn).1
  unfold cellFaces faceRows
  rw [total_nested]
  have inner : ∀ l', l' < s - 1 → ((List.range ts.length).map fun col =>
      (cellRow ts.length s (colEdges ts).length l' col ((ts.map (sideNos ts)).getD col [])).count
        (ts.length * s + n + l * (colEdges ts).length)).sum = if l' = l then uses ts a b else 0 := by
    intro l' hl'
    have h1 : ∀ col, col < ts.length →
        (cellRow ts.length s (colEdges ts).length l' col ((ts.map (sideNos ts)).getD col [])).count
          (ts.length * s + n + l * (colEdges ts).length) = if l' = l then ((ts.map (sideNos ts)).getD col []).count n else 0 := by
      intro col hcol
      unfold cellRow
      rw [List.count_append]
      have h2 : [l' * ts.length + col, (l' + 1) * ts.length + col].count (ts.length * s + n + l * (colEdges ts).length) = 0 := by
        have e1 : l' * ts.length + col < s * ts.length := rank_lt (by omega) hcol
        have e2 : (l' + 1) * ts.length + col < s * ts.length := rank_lt (by omega) hcol
        rw [Nat.mul_comm s] at e1 e2
        rw [List.count_eq_zero]
        simp only [List.mem_cons, List.not_mem_nil, or_false, not_or]
        omega
      rw [h2, Nat.zero_add]
      have hg : (ts.map (sideNos ts)).getD col [] = sideNos ts ts[col] := by simp [hcol]
      rw [hg]
      have hlt := sideNos_lt (List.getElem_mem hcol : ts[col] ∈ ts)
      rw [List.count_eq_length_filter, List.filter_map, List.length_map]
      split_ifs with hll
      · subst hll
        rw [List.count_eq_length_filter]
        congr 1
        apply List.filter_congr
        intro m hm
        simp only [Function.comp_apply]
        rw [Bool.eq_iff_iff]
        simp only [beq_iff_eq]
        omega
      · rw [List.length_eq_zero_iff, List.filter_eq_nil_iff]
        intro m hm he
        simp only [Function.comp_apply, beq_iff_eq] at he
        have := rank_inj (hlt m hm) hn' (by omega : l' * (colEdges ts).length + m = l * (colEdges ts).length + n)
        exact hll this.1
    rw [sum_congr h1]
    split_ifs with hll
    · rw [← uses_sideNos ts ts (fun t ht => ht) n a b hn]
      congr 1
      apply List.ext_getElem (by simp)
      intro m h3 h4
      simp only [List.length_map] at h3 h4
      simp [h4]
    · rw [List.sum_eq_zero]
      intro x hx
      obtain ⟨_, _, rfl⟩ := List.mem_map.mp hx
      rfl
  rw [sum_congr inner, sum_ite, if_pos hl]

end Verif.Unstruct.Prism
