import Verif.FindFaces.Raw
import Mathlib.Tactic.Ring
import Mathlib.Tactic.FieldSimp
import Mathlib.Tactic.Positivity
import Mathlib.Tactic.Linarith
import Mathlib.Data.Rat.Cast.Lemmas

/-! # Mean layers -/

namespace Verif.FindFaces

theorem sum_list_range (f : Nat → Nat) (n : Nat) : ((List.range n).map f).sum = ∑ k ∈ Finset.range n, f k := by
  induction n with
  | zero => rfl
  | succ n ih => rw [List.range_succ, List.map_append, List.sum_append, ih, Finset.sum_range_succ]; simp

/-- layer by layer, or cell by cell -/
theorem sum_layers (l : List (Cell 3)) (N : Nat) (hl : ∀ c ∈ l, c 0 < N) (a : Cell 3 → Bool) :
    ((List.range N).map fun k => (k + 1) * (l.filter fun c => decide (c 0 = k) && a c).length).sum = ((l.filter a).map fun c => c 0 + 1).sum := by
  rw [sum_list_range]
  induction l with
  | nil => simp
  | cons c l ih =>
    have ih := ih fun d hd => hl d (List.mem_cons_of_mem _ hd)
    have hc := hl c List.mem_cons_self
    by_cases h : a c = true
    · rw [List.filter_cons_of_pos h, List.map_cons, List.sum_cons, ← ih]
      have : ∀ k, (k + 1) * ((c :: l).filter fun c => decide (c 0 = k) && a c).length =
          (if c 0 = k then k + 1 else 0) + (k + 1) * (l.filter fun c => decide (c 0 = k) && a c).length := by
        intro k
        by_cases hk : c 0 = k
        · rw [List.filter_cons_of_pos (by simp [hk, h]), if_pos hk, List.length_cons]; ring
        · rw [List.filter_cons_of_neg (by simp [hk]), if_neg hk, Nat.zero_add]
      rw [Finset.sum_congr rfl fun k _ => this k, Finset.sum_add_distrib, Finset.sum_ite_eq, if_pos (Finset.mem_range.mpr hc)]
    · rw [List.filter_cons_of_neg h, ← ih]
      refine Finset.sum_congr rfl fun k _ => ?_
      rw [List.filter_cons_of_neg (by simp [h])]

theorem layer_eq (ext : Cell 3) (a : Cell 3 → Bool) {k : Nat} (hk : k < ext 0) :
    ((cells ext).filter fun c => decide (c 0 = k) && a c).length = ((cells (Fin.tail ext)).filter fun r => a (Fin.cons k r)).length := by
  rw [cells, List.filter_flatMap, List.length_flatMap]
  have : ∀ x, (((cells (Fin.tail ext)).map (Fin.cons x) : List (Cell 3)).filter fun c => decide (c 0 = k) && a c).length =
      if k = x then ((cells (Fin.tail ext)).filter fun r => a (Fin.cons k r)).length else 0 := by
    intro x
    rw [List.filter_map, List.length_map]
    by_cases h : k = x
    · subst h
      rw [if_pos rfl]
      congr 1
      refine List.filter_congr fun r _ => ?_
      simp
    · rw [if_neg h, List.length_eq_zero_iff, List.filter_eq_nil_iff]
      intro r _
      simp [Ne.symm h]
  simp only [this]
  rw [sum_list_range, Finset.sum_ite_eq, if_pos (Finset.mem_range.mpr hk)]

theorem filter_not_length {α : Type} (l : List α) (a : α → Bool) : l.length - (l.filter a).length = (l.filter fun c => !(a c)).length := by
  have := List.length_eq_length_filter_add (l := l) a
  omega

theorem layer_total (ext : Cell 3) {k : Nat} (hk : k < ext 0) (a : Cell 3 → Bool) :
    ext 1 * ext 2 - ((cells ext).filter fun c => decide (c 0 = k) && a c).length =
      ((cells ext).filter fun c => decide (c 0 = k) && !(a c)).length := by
  rw [layer_eq ext a hk, layer_eq ext (fun c => !(a c)) hk]
  have h : (cells (Fin.tail ext)).length = ext 1 * ext 2 := length_cells2 _
  rw [← h]
  exact filter_not_length (cells (Fin.tail ext)) fun r => a (Fin.cons k r)

theorem cast_sum (l : List (Cell 3)) : (((l.map fun c => c 0 + 1).sum : Nat) : ℚ) = (l.map fun c => ((c 0 : ℚ) + 1)).sum := by
  induction l with
  | nil => rfl
  | cons c l ih => rw [List.map_cons, List.map_cons, List.sum_cons, List.sum_cons, ← ih]; push_cast; ring

theorem shallow_eq (ext : Cell 3) (a : Cell 3 → Bool) (raw : Bool) :
    shallowOrCurtain ext a (countTrue ext a) raw = (if MeanLayer ext (fun c => !(a c)) < MeanLayer ext a ∧ raw = false then fun c => !(a c) else a,
      decide (|MeanLayer ext a - MeanLayer ext fun c => !(a c)| ≤ 1 / 1000)) := by
  have hl : ∀ c ∈ cells ext, c 0 < ext 0 := fun c hc => mem_cells.mp hc 0
  have h1 : ((((List.range (ext 0)).map fun k => (k + 1) * ((cells ext).filter fun c => decide (c 0 = k) && a c).length).sum : Nat) : ℚ) / (countTrue ext a : ℚ) =
      MeanLayer ext a := by
    rw [sum_layers _ _ hl, cast_sum]
    rfl
  have h2 : ((((List.range (ext 0)).map fun k => (k + 1) * (ext 1 * ext 2 - ((cells ext).filter fun c => decide (c 0 = k) && a c).length)).sum : Nat) : ℚ) /
      ((ext 0 * ext 1 * ext 2 - countTrue ext a : Nat) : ℚ) = MeanLayer ext fun c => !(a c) := by
    have e : ((List.range (ext 0)).map fun k => (k + 1) * (ext 1 * ext 2 - ((cells ext).filter fun c => decide (c 0 = k) && a c).length)) =
        (List.range (ext 0)).map fun k => (k + 1) * ((cells ext).filter fun c => decide (c 0 = k) && !(a c)).length :=
      List.map_congr_left fun k hk => by rw [layer_total ext (List.mem_range.mp hk)]
    rw [e, sum_layers _ _ hl (fun c => !(a c)), cast_sum, ← length_cells3, countTrue, filter_not_length]
    rfl
  unfold shallowOrCurtain
  dsimp only
  rw [h1, h2]

/-- the mean layer of a column -/
theorem mean_of_columns (ext : Cell 3) (a : Cell 3 → Bool) (hsame : ∀ c d, InGrid ext c → InGrid ext d → c 1 = d 1 → c 2 = d 2 → a c = a d)
    (hpos : 0 < countTrue ext a) :
    MeanLayer ext a = (((∑ k ∈ Finset.range (ext 0), (k + 1) : Nat) : ℚ)) / ext 0 := by
  have hl : ∀ c ∈ cells ext, c 0 < ext 0 := fun c hc => mem_cells.mp hc 0
  obtain ⟨c0, hc0⟩ := List.length_pos_iff_exists_mem.mp hpos
  have hg : InGrid ext c0 := mem_cells.mp (List.mem_filter.mp hc0).1
  set m := ((cells (Fin.tail ext)).filter fun r => a (Fin.cons 0 r)).length with hm
  have hlayer : ∀ k, k < ext 0 → ((cells ext).filter fun c => decide (c 0 = k) && a c).length = m := by
    intro k hk
    rw [layer_eq ext a hk, hm]
    congr 1
    refine List.filter_congr fun r hr => ?_
    have hr' := mem_cells.mp hr
    refine hsame _ _ ?_ ?_ rfl rfl
    · rw [InGrid, Fin.forall_fin_succ]; exact ⟨hk, hr'⟩
    · rw [InGrid, Fin.forall_fin_succ]; exact ⟨lt_of_le_of_lt (Nat.zero_le _) hk, hr'⟩
  have hsum : (((cells ext).filter a).map (fun c => c 0 + 1)).sum = (∑ k ∈ Finset.range (ext 0), (k + 1)) * m := by
    rw [← sum_layers _ _ hl, sum_list_range, Finset.sum_mul]
    exact Finset.sum_congr rfl fun k hk => by rw [hlayer k (Finset.mem_range.mp hk)]
  have hcount : countTrue ext a = ext 0 * m := by
    unfold countTrue
    rw [cells, List.filter_flatMap, List.length_flatMap]
    have : ((List.range (ext 0)).map fun x => (((cells (Fin.tail ext)).map (Fin.cons x) : List (Cell 3)).filter a).length) =
        (List.range (ext 0)).map fun _ => m := by
      refine List.map_congr_left fun k hk => ?_
      rw [← hlayer k (List.mem_range.mp hk), layer_eq ext a (List.mem_range.mp hk), List.filter_map, List.length_map]
      rfl
    rw [this, List.map_const', List.sum_replicate, List.length_range, smul_eq_mul]
  have hm0 : m ≠ 0 := by
    intro e
    rw [hcount, e, Nat.mul_zero] at hpos
    exact Nat.lt_irrefl _ hpos
  have hn0 : ext 0 ≠ 0 := by
    have := hg 0
    omega
  unfold MeanLayer
  rw [← cast_sum, hsum]
  have : ((cells ext).filter a).length = ext 0 * m := hcount
  rw [this]
  have q1 : (m : ℚ) ≠ 0 := by exact_mod_cast hm0
  have q2 : (ext 0 : ℚ) ≠ 0 := by exact_mod_cast hn0
  push_cast
  field_simp

theorem countTrue_pos {ext : Cell 3} {a : Cell 3 → Bool} : 0 < countTrue ext a ↔ ∃ c, InGrid ext c ∧ a c = true := by
  unfold countTrue
  rw [List.length_pos_iff_exists_mem]
  constructor
  · rintro ⟨c, hc⟩
    exact ⟨c, mem_cells.mp (List.mem_filter.mp hc).1, (List.mem_filter.mp hc).2⟩
  · rintro ⟨c, hc, h⟩
    exact ⟨c, List.mem_filter.mpr ⟨mem_cells.mpr hc, h⟩⟩

theorem countTrue_lt {ext : Cell 3} {a : Cell 3 → Bool} : countTrue ext a < (cells ext).length ↔ ∃ c, InGrid ext c ∧ a c = false := by
  have h : 0 < countTrue ext (fun c => !(a c)) ↔ _ := countTrue_pos
  have h2 := filter_not_length (cells ext) a
  have h3 := List.length_filter_le a (cells ext)
  unfold countTrue at *
  rw [← h2] at h
  simp only [Bool.not_eq_true'] at h
  rw [← h]
  omega

end Verif.FindFaces
