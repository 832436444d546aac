import Verif.Extract.Spec
import Verif.CpGrid.Lemmas4
import Verif.Gcs.PropsFaceArrays

/-! # Lemmas: extracted grids -/

namespace Verif.Extract
open Verif.Py Verif.CpGrid

/-- corners in the order of `_cols_for_pillar` -/
def order : List (Nat × Nat) := [(1, 1), (1, 0), (0, 1), (0, 0)]

theorem mem_order {c : Nat × Nat} : c ∈ order ↔ c.1 ≤ 1 ∧ c.2 ≤ 1 := by
  obtain ⟨a, b⟩ := c
  unfold order
  simp only [List.mem_cons, Prod.mk.injEq, List.not_mem_nil, or_false]
  omega

/-- number of a column -/
def colNo (ni : Nat) (p c : Nat × Nat) : Nat := (p.1 - c.1) * ni + (p.2 - c.2)

theorem colsForPillar_eq {nj ni a b : Nat} (ha : a ≤ nj) (hb : b ≤ ni) :
    colsForPillar nj ni (a * (ni + 1) + b) =
      order.map fun c => if hasCol nj ni (a, b) c then some (colNo ni (a, b) c) else none := by
  obtain ⟨h1, h2⟩ := Pillars.div_mod_of (n := ni + 1) (a := b) (b := a) (by omega)
  unfold colsForPillar
  rw [h1, h2]
  dsimp only
  unfold order
  simp only [List.map_cons, List.map_nil]
  have e1 : hasCol nj ni (a, b) (1, 1) ↔ 0 < a ∧ 0 < b := by unfold hasCol; dsimp only; omega
  have e2 : hasCol nj ni (a, b) (1, 0) ↔ 0 < a ∧ b < ni := by unfold hasCol; dsimp only; omega
  have e3 : hasCol nj ni (a, b) (0, 1) ↔ a < nj ∧ 0 < b := by unfold hasCol; dsimp only; omega
  have e4 : hasCol nj ni (a, b) (0, 0) ↔ a < nj ∧ b < ni := by unfold hasCol; dsimp only; omega
  simp only [e1, e2, e3, e4]
  rfl

theorem localPillar_eq {g : Pillars.Grid} {b : Box} {pj pi : Nat} (hj : b.j0 ≤ b.j1) (hi : b.i0 ≤ b.i1) (hpi : pi ≤ g.ni) :
    localPillar g b (pj * (g.ni + 1) + pi) =
      if b.j0 ≤ pj ∧ pj ≤ b.j1 + 1 ∧ b.i0 ≤ pi ∧ pi ≤ b.i1 + 1 then some ((pj - b.j0) * (b.ni + 1) + (pi - b.i0)) else none := by
  obtain ⟨h1, h2⟩ := Pillars.div_mod_of (n := g.ni + 1) (a := pi) (b := pj) (by omega)
  unfold localPillar
  rw [h1, h2]
  dsimp only
  by_cases h : b.j0 ≤ pj ∧ pj ≤ b.j1 + 1 ∧ b.i0 ≤ pi ∧ pi ≤ b.i1 + 1
  · rw [if_pos h, if_neg (by omega)]
    rfl
  · rw [if_neg h, if_pos (by omega)]

theorem npUnique_two {P E : Nat} (hPE : P < E) (l : List Nat) (h : ∀ x ∈ l, x = P ∨ x = E) :
    npUnique l = (if P ∈ l then [P] else []) ++ (if E ∈ l then [E] else []) := by
  induction l with
  | nil => rfl
  | cons x xs ih =>
    have ih := ih fun y hy => h y (List.mem_cons_of_mem _ hy)
    unfold npUnique at ih ⊢
    rw [List.foldr_cons, ih]
    have hne : P ≠ E := by omega
    have hne' : E ≠ P := by omega
    have hnl : ¬ E < P := by omega
    rcases h x (by simp) with hx | hx <;> rw [hx] <;> by_cases a : P ∈ xs <;> by_cases b : E ∈ xs <;>
      simp [insertUnique, a, b, hne, hne', hPE, hnl]

/-- the corners of the box around a local pillar -/
def locals (b : Box) (q : Nat × Nat) : List (Nat × Nat) := order.filter fun c => decide (hasCol b.nj b.ni q c)

/-- those whose source column is listed -/
def mine (g : Pillars.Grid) (b : Box) (seg : List Nat) (pj pi : Nat) : List (Nat × Nat) :=
  (locals b (pj - b.j0, pi - b.i0)).filter fun c => decide (colNo g.ni (pj, pi) c ∈ seg)

/-- what the loop does, said with corners -/
def contrib (g : Pillars.Grid) (b : Box) (seg : List Nat) (n pj pi : Nat) : Contribution :=
  if ∀ c ∈ locals b (pj - b.j0, pi - b.i0), colNo g.ni (pj, pi) c ∈ seg then
    ⟨(pj - b.j0) * (b.ni + 1) + (pi - b.i0), (g.nj + 1) * (g.ni + 1) + n, []⟩
  else if mine g b seg pj pi = [] then
    ⟨(pj - b.j0) * (b.ni + 1) + (pi - b.i0), pj * (g.ni + 1) + pi, []⟩
  else
    ⟨(pj - b.j0) * (b.ni + 1) + (pi - b.i0), pj * (g.ni + 1) + pi,
      [((g.nj + 1) * (g.ni + 1) + n, (mine g b seg pj pi).map (colNo b.ni (pj - b.j0, pi - b.i0)))]⟩

theorem locals_ne_nil {b : Box} {pj pi : Nat} (h : b.j0 ≤ pj ∧ pj ≤ b.j1 + 1 ∧ b.i0 ≤ pi ∧ pi ≤ b.i1 + 1) (hj : b.j0 ≤ b.j1)
    (hi : b.i0 ≤ b.i1) : ∃ c, c ∈ locals b (pj - b.j0, pi - b.i0) := by
  refine ⟨(if pj = b.j0 then 0 else 1, if pi = b.i0 then 0 else 1), ?_⟩
  unfold locals
  rw [List.mem_filter, decide_eq_true_eq, mem_order]
  unfold hasCol Box.nj Box.ni
  dsimp only
  constructor
  · split <;> split <;> omega
  · split <;> split <;> omega

theorem hasCol_global {g : Pillars.Grid} {b : Box} {pj pi : Nat} (h : b.j0 ≤ pj ∧ pj ≤ b.j1 + 1 ∧ b.i0 ≤ pi ∧ pi ≤ b.i1 + 1)
    (hj : b.j1 < g.nj) (hi : b.i1 < g.ni) (hj' : b.j0 ≤ b.j1) (hi' : b.i0 ≤ b.i1) {c : Nat × Nat}
    (hc : hasCol b.nj b.ni (pj - b.j0, pi - b.i0) c) : hasCol g.nj g.ni (pj, pi) c := by
  unfold hasCol Box.nj Box.ni at *
  dsimp only at *
  omega

theorem contribution_eq {g : Pillars.Grid} {b : Box} {n pj pi : Nat} {seg : List Nat} (hseg : Pillars.segment g n = .ok seg)
    (hpj : pj ≤ g.nj) (hpi : pi ≤ g.ni) (hj : b.j1 < g.nj) (hi : b.i1 < g.ni) (hj' : b.j0 ≤ b.j1) (hi' : b.i0 ≤ b.i1) :
    contribution g b n (pj * (g.ni + 1) + pi) =
      .ok (if b.j0 ≤ pj ∧ pj ≤ b.j1 + 1 ∧ b.i0 ≤ pi ∧ pi ≤ b.i1 + 1 then some (contrib g b seg n pj pi) else none) := by
  unfold contribution
  rw [localPillar_eq hj' hi' hpi]
  by_cases hin : b.j0 ≤ pj ∧ pj ≤ b.j1 + 1 ∧ b.i0 ≤ pi ∧ pi ≤ b.i1 + 1
  swap
  · rw [if_neg hin, if_neg hin]
  rw [if_pos hin, if_pos hin, hseg]
  dsimp only
  have hq1 : pj - b.j0 ≤ b.nj := by unfold Box.nj; omega
  have hq2 : pi - b.i0 ≤ b.ni := by unfold Box.ni; omega
  rw [colsForPillar_eq hpj hpi, colsForPillar_eq hq1 hq2]
  set P := pj * (g.ni + 1) + pi with hP
  set E := (g.nj + 1) * (g.ni + 1) + n with hE
  have hPE : P < E := by
    have : pj * (g.ni + 1) ≤ g.nj * (g.ni + 1) := Nat.mul_le_mul_right _ hpj
    have h2 : (g.nj + 1) * (g.ni + 1) = g.nj * (g.ni + 1) + (g.ni + 1) := Nat.succ_mul _ _
    omega
  set q : Nat × Nat := (pj - b.j0, pi - b.i0) with hq
  have hpis : sourcePis seg P E (order.map fun c => if hasCol b.nj b.ni q c then some (colNo b.ni q c) else none)
      (order.map fun c => if hasCol g.nj g.ni (pj, pi) c then some (colNo g.ni (pj, pi) c) else none) =
      order.map fun c => if hasCol b.nj b.ni q c then some (if colNo g.ni (pj, pi) c ∈ seg then E else P) else none := by
    unfold sourcePis
    rw [List.zipWith_map_left, List.zipWith_map_right, List.zipWith_self]
    apply List.map_congr_left
    intro c _
    by_cases hc : hasCol b.nj b.ni q c
    · rw [if_pos hc, if_pos hc, if_pos (hasCol_global hin hj hi hj' hi' hc)]
      dsimp only
      split <;> rfl
    · rw [if_neg hc, if_neg hc]
  rw [hpis]
  have hfm : (order.map fun c => if hasCol b.nj b.ni q c then some (if colNo g.ni (pj, pi) c ∈ seg then E else P) else none).filterMap id =
      (locals b q).map fun c => if colNo g.ni (pj, pi) c ∈ seg then E else P := by
    unfold locals
    generalize order = l
    induction l with
    | nil => rfl
    | cons c cs ih =>
      rw [List.map_cons, List.filter_cons]
      by_cases hc : hasCol b.nj b.ni q c
      · rw [if_pos (c := decide (hasCol b.nj b.ni q c) = true) (decide_eq_true hc), List.map_cons, ← ih, if_pos hc]
        rfl
      · rw [if_neg (c := decide (hasCol b.nj b.ni q c) = true) (by rw [decide_eq_true_eq]; exact hc), ← ih, if_neg hc]
        rfl
  rw [hfm, npUnique_two hPE _ (by
    intro x hx
    obtain ⟨c, _, rfl⟩ := List.mem_map.mp hx
    split
    · exact Or.inr rfl
    · exact Or.inl rfl)]
  have hzip : ∀ v, v = E →
      (List.zip (order.map fun c => if hasCol b.nj b.ni q c then some (if colNo g.ni (pj, pi) c ∈ seg then E else P) else none)
        (order.map fun c => if hasCol b.nj b.ni q c then some (colNo b.ni q c) else none)).filterMap
        (fun w => if w.1 = some v then w.2 else none) = (mine g b seg pj pi).map (colNo b.ni q) := by
    rintro v rfl
    unfold mine
    rw [← hq]
    unfold locals
    generalize order = l
    induction l with
    | nil => rfl
    | cons c cs ih =>
      rw [List.map_cons, List.map_cons, List.zip_cons_cons, List.filterMap_cons, ih]
      by_cases hc : hasCol b.nj b.ni q c
      · by_cases hm : colNo g.ni (pj, pi) c ∈ seg
        · simp [hc, hm]
        · have hne : P ≠ E := by omega
          simp [hc, hm, hne]
      · simp [hc]
  have hPmem : P ∈ ((locals b q).map fun c => if colNo g.ni (pj, pi) c ∈ seg then E else P) ↔
      ¬ ∀ c ∈ locals b q, colNo g.ni (pj, pi) c ∈ seg := by
    rw [List.mem_map]
    constructor
    · rintro ⟨c, hc, h⟩ hall
      rw [if_pos (hall c hc)] at h
      omega
    · intro h
      push Not at h
      obtain ⟨c, hc, h⟩ := h
      exact ⟨c, hc, if_neg h⟩
  have hEmem : E ∈ ((locals b q).map fun c => if colNo g.ni (pj, pi) c ∈ seg then E else P) ↔ mine g b seg pj pi ≠ [] := by
    rw [List.mem_map]
    unfold mine
    rw [← hq]
    constructor
    · rintro ⟨c, hc, h⟩ hnil
      by_cases hm : colNo g.ni (pj, pi) c ∈ seg
      · have : c ∈ (locals b q).filter fun c => decide (colNo g.ni (pj, pi) c ∈ seg) := by
          rw [List.mem_filter, decide_eq_true_eq]
          exact ⟨hc, hm⟩
        rw [hnil] at this
        cases this
      · rw [if_neg hm] at h
        omega
    · intro h
      obtain ⟨c, hc⟩ := List.exists_mem_of_ne_nil _ h
      rw [List.mem_filter, decide_eq_true_eq] at hc
      exact ⟨c, hc.1, if_pos hc.2⟩
  unfold contrib
  rw [← hq]
  by_cases hall : ∀ c ∈ locals b q, colNo g.ni (pj, pi) c ∈ seg
  · rw [if_pos hall, if_neg (by rw [hPmem]; exact not_not.mpr hall), if_pos]
    · rfl
    · rw [hEmem]
      obtain ⟨c, hc⟩ := locals_ne_nil hin hj' hi'
      intro hnil
      have : c ∈ mine g b seg pj pi := by
        unfold mine
        rw [List.mem_filter, decide_eq_true_eq]
        exact ⟨hc, hall c hc⟩
      rw [hnil] at this
      cases this
  · rw [if_neg hall, if_pos (hPmem.mpr hall)]
    by_cases hm : mine g b seg pj pi = []
    · rw [if_pos hm, if_neg (by rw [hEmem]; exact not_not.mpr hm)]
      rfl
    · rw [if_neg hm, if_pos (hEmem.mpr hm)]
      simp only [List.cons_append, List.nil_append, List.map_cons, List.map_nil]
      rw [hzip E rfl]

end Verif.Extract
