import Verif.Polygon.Spec
import Mathlib.Tactic.Ring
import Mathlib.Tactic.Linarith
import Mathlib.Tactic.FieldSimp
import Mathlib.Tactic.Tauto
import Mathlib.Tactic.LinearCombination
import Mathlib.Data.List.Rotate
import Mathlib.Algebra.Order.Floor.Ring

/-! # Lemmas about point inclusion -/

namespace Verif.Polygon

section edges
variable {K : Type}

theorem edgesFrom_append (u : Pt K) (l m : List (Pt K)) (v : Pt K) :
    edgesFrom u (l ++ v :: m) = edgesFrom u (l ++ [v]) ++ edgesFrom v m := by
  induction l generalizing u with
  | nil => simp [edgesFrom]
  | cons a l ih => simp [edgesFrom, ih]

theorem edges_cons (v : Pt K) (l : List (Pt K)) :
    (edges (v :: l)).Perm (edgesFrom v (l ++ [v])) := by
  have : edgesFrom v (l ++ [v]) = edgesFrom v l ++ [((v :: l).getLast (List.cons_ne_nil v l), v)] := by
    clear * -
    suffices h : ∀ u : Pt K, edgesFrom u (l ++ [v]) =
        edgesFrom u l ++ [((u :: l).getLast (List.cons_ne_nil u l), v)] from h v
    induction l with
    | nil => intro u; simp [edgesFrom]
    | cons a l ih => intro u; simp [edgesFrom, ih]
  rw [this]
  simp only [edges, edgesFrom]
  exact (List.perm_append_singleton _ _).symm

theorem edges_rotate1 (v : Pt K) (l : List (Pt K)) : (edges (l ++ [v])).Perm (edges (v :: l)) := by
  refine List.Perm.trans ?_ (edges_cons v l).symm
  cases l with
  | nil => simp [edges, edgesFrom]
  | cons a l => simp [edges]

theorem edges_rotate (l : List (Pt K)) (n : Nat) : (edges (l.rotate n)).Perm (edges l) := by
  induction n generalizing l with
  | zero => simp
  | succ n ih =>
    cases l with
    | nil => simp
    | cons v l =>
      rw [List.rotate_cons_succ]
      exact (ih _).trans (edges_rotate1 v l)

theorem edgesFrom_reverse (u v : Pt K) (l : List (Pt K)) :
    edgesFrom v (l.reverse ++ [u]) = ((edgesFrom u (l ++ [v])).reverse).map Prod.swap := by
  induction l generalizing u with
  | nil => simp [edgesFrom]
  | cons a l ih =>
    have := edgesFrom_append v l.reverse [u] a
    simp only [List.reverse_cons, List.append_assoc, List.cons_append, List.nil_append]
    rw [this, ih]
    simp [edgesFrom]

theorem edges_reverse (l : List (Pt K)) : (edges l.reverse).Perm ((edges l).map Prod.swap) := by
  cases l with
  | nil => simp [edges]
  | cons v l =>
    rw [List.reverse_cons]
    refine (edges_rotate1 v l.reverse).trans ((edges_cons v l.reverse).trans ?_)
    rw [edgesFrom_reverse]
    refine List.Perm.map _ ?_
    exact (List.reverse_perm _).trans (edges_cons v l).symm

end edges

section
variable {K : Type} [Field K] [LinearOrder K]

/-- an edge going up past the level of the point, to the right of it -/
def Up (p : Pt K) (e : Pt K × Pt K) : Prop := e.1.y ≤ p.y ∧ p.y < e.2.y ∧ 0 < orient e.1 e.2 p
/-- an edge going down past the level of the point, to the right of it -/
def Dn (p : Pt K) (e : Pt K × Pt K) : Prop := p.y < e.1.y ∧ e.2.y ≤ p.y ∧ orient e.1 e.2 p < 0

instance (p : Pt K) (e : Pt K × Pt K) : Decidable (Up p e) := by unfold Up; infer_instance
instance (p : Pt K) (e : Pt K × Pt K) : Decidable (Dn p e) := by unfold Dn; infer_instance

theorem orient_swap (a b p : Pt K) : orient b a p = - orient a b p := by simp only [orient]; ring

variable [IsStrictOrderedRing K]

theorem up_swap (p : Pt K) (e : Pt K × Pt K) : Up p e.swap ↔ Dn p e := by
  unfold Up Dn
  simp only [Prod.fst_swap, Prod.snd_swap, orient_swap e.1 e.2 p]
  constructor
  · rintro ⟨h1, h2, h3⟩; exact ⟨h2, h1, by linarith⟩
  · rintro ⟨h1, h2, h3⟩; exact ⟨h2, h1, by linarith⟩

theorem dn_swap (p : Pt K) (e : Pt K × Pt K) : Dn p e.swap ↔ Up p e := by
  have := up_swap p e.swap
  rw [Prod.swap_swap] at this
  exact this.symm

/-- the share of the way from the first vertex to the second at the level of the point -/
theorem xAt_eq (y : K) (v1 v2 : Pt K) : xAt y v1 v2 = v1.x + (y - v1.y) / (v2.y - v1.y) * (v2.x - v1.x) := by
  unfold xAt; ring

theorem lt_xAt_up (p v1 v2 : Pt K) (h1 : v1.y ≤ p.y) (h2 : p.y < v2.y) :
    p.x < xAt p.y v1 v2 ↔ 0 < orient v1 v2 p := by
  have hd : 0 < v2.y - v1.y := by linarith
  unfold xAt orient
  rw [← sub_lt_iff_lt_add', lt_div_iff₀ hd]
  constructor <;> intro h <;> linarith

theorem lt_xAt_dn (p v1 v2 : Pt K) (h1 : p.y < v1.y) (h2 : v2.y ≤ p.y) :
    p.x < xAt p.y v1 v2 ↔ orient v1 v2 p < 0 := by
  have hd : v2.y - v1.y < 0 := by linarith
  unfold xAt orient
  rw [← sub_lt_iff_lt_add', lt_div_iff_of_neg hd]
  constructor <;> intro h <;> linarith

theorem up_imp (p : Pt K) (v1 v2 : Pt K) (h1 : v1.y ≤ p.y) (h2 : p.y < v2.y) (hx1 : p.x < v1.x) (hx2 : p.x < v2.x) :
    0 < orient v1 v2 p := by
  unfold orient
  nlinarith [mul_nonneg (sub_nonneg.2 hx2.le) (sub_nonneg.2 h1), mul_pos (sub_pos.2 hx1) (sub_pos.2 h2)]

theorem up_not (p : Pt K) (v1 v2 : Pt K) (h1 : v1.y ≤ p.y) (h2 : p.y < v2.y) (hx1 : v1.x ≤ p.x) (hx2 : v2.x ≤ p.x) :
    ¬ 0 < orient v1 v2 p := by
  unfold orient
  nlinarith [mul_nonneg (sub_nonneg.2 hx2) (sub_nonneg.2 h1), mul_nonneg (sub_nonneg.2 hx1) (sub_pos.2 h2).le]

theorem dn_imp (p : Pt K) (v1 v2 : Pt K) (h1 : p.y < v1.y) (h2 : v2.y ≤ p.y) (hx1 : p.x < v1.x) (hx2 : p.x < v2.x) :
    orient v1 v2 p < 0 := by
  have := up_imp p v2 v1 h2 h1 hx2 hx1
  rw [orient_swap] at this
  linarith

theorem dn_not (p : Pt K) (v1 v2 : Pt K) (h1 : p.y < v1.y) (h2 : v2.y ≤ p.y) (hx1 : v1.x ≤ p.x) (hx2 : v2.x ≤ p.x) :
    ¬ orient v1 v2 p < 0 := by
  have := up_not p v2 v1 h2 h1 hx2 hx1
  rw [orient_swap] at this
  intro h; apply this; linarith

/-- what an edge adds to the crossing count -/
def cnInc (p : Pt K) (e : Pt K × Pt K) : Nat := (if Up p e then 1 else 0) + (if Dn p e then 1 else 0)
/-- what an edge adds to the winding count -/
def wnInc (p : Pt K) (e : Pt K × Pt K) : Int := (if Up p e then 1 else 0) - (if Dn p e then 1 else 0)

omit [IsStrictOrderedRing K] in
theorem up_not_dn {p : Pt K} {e : Pt K × Pt K} (h : Up p e) : ¬ Dn p e := fun h' => absurd h.1 (not_le.2 h'.1)

theorem cnStep_eq (p : Pt K) (c : Nat) (e : Pt K × Pt K) : cnStep p c e = c + cnInc p e := by
  obtain ⟨v1, v2⟩ := e
  rcases le_or_gt v1.y p.y with h1 | h1 <;> rcases le_or_gt v2.y p.y with h2 | h2
  · have hu : ¬ Up p (v1, v2) := fun h => absurd h.2.1 (not_lt.2 h2)
    have hd : ¬ Dn p (v1, v2) := fun h => absurd h.1 (not_lt.2 h1)
    simp [cnStep, cnInc, hu, hd, not_lt.2 h1, not_lt.2 h2]
  · have hd : ¬ Dn p (v1, v2) := fun h => absurd h.1 (not_lt.2 h1)
    have hu : Up p (v1, v2) ↔ 0 < orient v1 v2 p := ⟨fun h => h.2.2, fun h => ⟨h1, h2, h⟩⟩
    simp only [cnStep, cnInc, hd, lt_xAt_up p v1 v2 h1 h2, hu, h1, h2, gt_iff_lt, if_false]
    by_cases hx1 : p.x < v1.x <;> by_cases hx2 : p.x < v2.x
    · simp [hx1, hx2, up_imp p v1 v2 h1 h2 hx1 hx2]
    · simp only [hx1, hx2]; by_cases ho : 0 < orient v1 v2 p <;> simp [ho]
    · simp only [hx1, hx2]; by_cases ho : 0 < orient v1 v2 p <;> simp [ho]
    · simp [hx1, hx2, up_not p v1 v2 h1 h2 (not_lt.1 hx1) (not_lt.1 hx2)]
  · have hd : ¬ Up p (v1, v2) := fun h => absurd h.1 (not_le.2 h1)
    have hu : Dn p (v1, v2) ↔ orient v1 v2 p < 0 := ⟨fun h => h.2.2, fun h => ⟨h1, h2, h⟩⟩
    simp only [cnStep, cnInc, hd, lt_xAt_dn p v1 v2 h1 h2, hu, h1, h2, gt_iff_lt, if_false]
    by_cases hx1 : p.x < v1.x <;> by_cases hx2 : p.x < v2.x
    · simp [hx1, hx2, dn_imp p v1 v2 h1 h2 hx1 hx2]
    · simp only [hx1, hx2]; by_cases ho : orient v1 v2 p < 0 <;> simp [ho]
    · simp only [hx1, hx2]; by_cases ho : orient v1 v2 p < 0 <;> simp [ho]
    · simp [hx1, hx2, dn_not p v1 v2 h1 h2 (not_lt.1 hx1) (not_lt.1 hx2)]
  · have hu : ¬ Up p (v1, v2) := fun h => absurd h.1 (not_le.2 h1)
    have hd : ¬ Dn p (v1, v2) := fun h => absurd h.2.1 (not_le.2 h2)
    simp [cnStep, cnInc, hu, hd, not_le.2 h1, not_le.2 h2]

theorem wnStep_eq (p : Pt K) (c : Int) (e : Pt K × Pt K) : wnStep p c e = c + wnInc p e := by
  obtain ⟨v1, v2⟩ := e
  rcases le_or_gt v1.y p.y with h1 | h1 <;> rcases le_or_gt v2.y p.y with h2 | h2
  · have hu : ¬ Up p (v1, v2) := fun h => absurd h.2.1 (not_lt.2 h2)
    have hd : ¬ Dn p (v1, v2) := fun h => absurd h.1 (not_lt.2 h1)
    simp [wnStep, wnInc, hu, hd, not_lt.2 h1, not_lt.2 h2]
  · have hd : ¬ Dn p (v1, v2) := fun h => absurd h.1 (not_lt.2 h1)
    have hu : Up p (v1, v2) ↔ 0 < orient v1 v2 p := ⟨fun h => h.2.2, fun h => ⟨h1, h2, h⟩⟩
    simp only [wnStep, wnInc, hd, lt_xAt_up p v1 v2 h1 h2, hu, h1, h2, gt_iff_lt, if_false]
    rcases le_or_gt v1.x p.x with hx1 | hx1 <;> rcases le_or_gt v2.x p.x with hx2 | hx2
    · simp [hx1, hx2, up_not p v1 v2 h1 h2 hx1 hx2]
    · simp only [hx1, hx2, not_lt.2 hx1, not_le.2 hx2]; by_cases ho : 0 < orient v1 v2 p <;> simp [ho]
    · simp only [hx1, hx2, not_le.2 hx1, not_lt.2 hx2]; by_cases ho : 0 < orient v1 v2 p <;> simp [ho]
    · simp [hx1, hx2, not_le.2 hx1, up_imp p v1 v2 h1 h2 hx1 hx2]
  · have hd : ¬ Up p (v1, v2) := fun h => absurd h.1 (not_le.2 h1)
    have hu : Dn p (v1, v2) ↔ orient v1 v2 p < 0 := ⟨fun h => h.2.2, fun h => ⟨h1, h2, h⟩⟩
    simp only [wnStep, wnInc, hd, lt_xAt_dn p v1 v2 h1 h2, hu, h1, h2, gt_iff_lt, if_false, not_le.2 h1]
    rcases le_or_gt v1.x p.x with hx1 | hx1 <;> rcases le_or_gt v2.x p.x with hx2 | hx2
    · simp [hx1, hx2, dn_not p v1 v2 h1 h2 hx1 hx2]
    · simp only [hx1, hx2, not_lt.2 hx1, not_le.2 hx2]; by_cases ho : orient v1 v2 p < 0 <;> simp [ho] <;> rfl
    · simp only [hx1, hx2, not_le.2 hx1, not_lt.2 hx2]; by_cases ho : orient v1 v2 p < 0 <;> simp [ho] <;> rfl
    · simp [hx1, hx2, not_le.2 hx1, dn_imp p v1 v2 h1 h2 hx1 hx2]; rfl
  · have hu : ¬ Up p (v1, v2) := fun h => absurd h.1 (not_le.2 h1)
    have hd : ¬ Dn p (v1, v2) := fun h => absurd h.2.1 (not_le.2 h2)
    simp [wnStep, wnInc, hu, hd, not_le.2 h1, not_le.2 h2]

omit [IsStrictOrderedRing K] in
theorem arrayTerm_step (p : Pt K) (c : Nat) (e : Pt K × Pt K) : c + arrayTerm p e = cnStep p c e := by
  unfold arrayTerm cnStep
  dsimp only
  split
  · rename_i h
    rw [if_pos h.1]
    split
    · rfl
    · rename_i h2
      rw [if_pos (h.2.resolve_left h2)]
  · rename_i h
    split
    · rename_i h1
      rw [if_neg (fun h2 => h ⟨h1, Or.inl h2⟩), if_neg (fun h2 => h ⟨h1, Or.inr h2⟩)]
      rfl
    · rfl

theorem foldl_cn (p : Pt K) (l : List (Pt K × Pt K)) (c : Nat) :
    l.foldl (cnStep p) c = c + (l.map (cnInc p)).sum := by
  induction l generalizing c with
  | nil => simp
  | cons e l ih => simp only [List.foldl_cons, ih, cnStep_eq, List.map_cons, List.sum_cons]; omega

theorem foldl_wn (p : Pt K) (l : List (Pt K × Pt K)) (c : Int) :
    l.foldl (wnStep p) c = c + (l.map (wnInc p)).sum := by
  induction l generalizing c with
  | nil => simp
  | cons e l ih => simp only [List.foldl_cons, ih, wnStep_eq, List.map_cons, List.sum_cons]; omega

/-- the crossing count -/
def cnSum (p : Pt K) (l : List (Pt K × Pt K)) : Nat := (l.map (cnInc p)).sum
/-- the winding count -/
def wnSum (p : Pt K) (l : List (Pt K × Pt K)) : Int := (l.map (wnInc p)).sum

theorem pipCn_eq (p : Pt K) (poly : List (Pt K)) : pipCn p poly = (cnSum p (edges poly) % 2 == 1) := by
  unfold pipCn cnSum
  rw [foldl_cn, Nat.zero_add]

theorem winding_eq (p : Pt K) (poly : List (Pt K)) : winding p poly = wnSum p (edges poly) := by
  unfold winding wnSum
  rw [foldl_wn, Int.zero_add]

omit [IsStrictOrderedRing K] in
theorem cnSum_perm {p : Pt K} {l m : List (Pt K × Pt K)} (h : l.Perm m) : cnSum p l = cnSum p m :=
  (h.map _).sum_eq

omit [IsStrictOrderedRing K] in
theorem wnSum_perm {p : Pt K} {l m : List (Pt K × Pt K)} (h : l.Perm m) : wnSum p l = wnSum p m :=
  (h.map _).sum_eq

omit [IsStrictOrderedRing K] in
@[simp] theorem cnSum_append (p : Pt K) (l m : List (Pt K × Pt K)) : cnSum p (l ++ m) = cnSum p l + cnSum p m := by
  simp [cnSum]
omit [IsStrictOrderedRing K] in
@[simp] theorem wnSum_append (p : Pt K) (l m : List (Pt K × Pt K)) : wnSum p (l ++ m) = wnSum p l + wnSum p m := by
  simp [wnSum]
omit [IsStrictOrderedRing K] in
@[simp] theorem cnSum_cons (p : Pt K) (e : Pt K × Pt K) (m : List (Pt K × Pt K)) :
    cnSum p (e :: m) = cnInc p e + cnSum p m := by simp [cnSum]
omit [IsStrictOrderedRing K] in
@[simp] theorem wnSum_cons (p : Pt K) (e : Pt K × Pt K) (m : List (Pt K × Pt K)) :
    wnSum p (e :: m) = wnInc p e + wnSum p m := by simp [wnSum]
omit [IsStrictOrderedRing K] in
@[simp] theorem cnSum_nil (p : Pt K) : cnSum p [] = 0 := rfl
omit [IsStrictOrderedRing K] in
@[simp] theorem wnSum_nil (p : Pt K) : wnSum p [] = 0 := rfl

theorem cnInc_swap (p : Pt K) (e : Pt K × Pt K) : cnInc p e.swap = cnInc p e := by
  unfold cnInc
  simp only [up_swap, dn_swap]
  omega

theorem wnInc_swap (p : Pt K) (e : Pt K × Pt K) : wnInc p e.swap = - wnInc p e := by
  unfold wnInc
  simp only [up_swap, dn_swap]
  omega

theorem cnSum_swap (p : Pt K) (l : List (Pt K × Pt K)) : cnSum p (l.map Prod.swap) = cnSum p l := by
  induction l with
  | nil => rfl
  | cons e l ih => simp [cnInc_swap, ih]

theorem wnSum_swap (p : Pt K) (l : List (Pt K × Pt K)) : wnSum p (l.map Prod.swap) = - wnSum p l := by
  induction l with
  | nil => rfl
  | cons e l ih => simp only [List.map_cons, wnSum_cons, wnInc_swap, ih]; omega

omit [IsStrictOrderedRing K] in
theorem cnInc_le (p : Pt K) (e : Pt K × Pt K) : cnInc p e ≤ 1 := by
  unfold cnInc
  by_cases hu : Up p e
  · simp [hu, up_not_dn hu]
  · by_cases hd : Dn p e <;> simp [hu, hd]

omit [IsStrictOrderedRing K] in
/-- the two counts have the same parity -/
theorem parity (p : Pt K) (l : List (Pt K × Pt K)) : wnSum p l % 2 = (cnSum p l : Int) % 2 := by
  induction l with
  | nil => rfl
  | cons e l ih =>
    simp only [wnSum_cons, cnSum_cons, wnInc, cnInc]
    split <;> split <;> push_cast <;> omega

omit [IsStrictOrderedRing K] in
theorem cnInc_self (p v : Pt K) : cnInc p (v, v) = 0 := by
  have hu : ¬ Up p (v, v) := fun h => absurd h.1 (not_le.2 h.2.1)
  have hd : ¬ Dn p (v, v) := fun h => absurd h.2.1 (not_le.2 h.1)
  simp [cnInc, hu, hd]

omit [IsStrictOrderedRing K] in
theorem wnInc_self (p v : Pt K) : wnInc p (v, v) = 0 := by
  have hu : ¬ Up p (v, v) := fun h => absurd h.1 (not_le.2 h.2.1)
  have hd : ¬ Dn p (v, v) := fun h => absurd h.2.1 (not_le.2 h.1)
  simp [wnInc, hu, hd]

end

end Verif.Polygon
