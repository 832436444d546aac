import Verif.FineCoarse.Spec
import Verif.Box.Lemmas

namespace Verif.FineCoarse
open Verif.Py Verif.Box

theorem take_succ_sum (r : List Int) (c : Nat) (h : c < r.length) :
    (r.take (c + 1)).sum = (r.take c).sum + r[c] := by
  rw [List.take_succ_eq_append_getElem h, List.sum_append, List.sum_singleton]

theorem sum_take_mono (r : List Int) (hp : ∀ x ∈ r, 0 < x) (a b : Nat) (hab : a ≤ b) :
    (r.take a).sum ≤ (r.take b).sum := by
  induction b with
  | zero => have : a = 0 := by omega
            subst this; exact Int.le_refl _
  | succ b ih =>
    by_cases h : a = b + 1
    · subst h; exact Int.le_refl _
    · have := ih (by omega)
      by_cases hb : b < r.length
      · rw [take_succ_sum r b hb]
        have := hp r[b] (List.getElem_mem hb)
        omega
      · rw [List.take_of_length_le (by omega : r.length ≤ b + 1)]
        rw [List.take_of_length_le (by omega : r.length ≤ b)] at this
        exact this

theorem owns_unique (r : List Int) (hp : ∀ x ∈ r, 0 < x) (c d : Nat) (f : Int)
    (h1 : Owns r c f) (h2 : Owns r d f) : c = d := by
  rcases Nat.lt_trichotomy c d with h | h | h
  · have := sum_take_mono r hp (c + 1) d h
    unfold Owns at h1 h2; omega
  · exact h
  · have := sum_take_mono r hp (d + 1) c h
    unfold Owns at h1 h2; omega

theorem owns_exists (r : List Int) (hp : ∀ x ∈ r, 0 < x) (f : Int) (h0 : 0 ≤ f) (h1 : f < r.sum) :
    ∃ c, Owns r c f := by
  have : ∀ n, n ≤ r.length → f < (r.take n).sum → ∃ c, Owns r c f := by
    intro n
    induction n with
    | zero => intro _ h; simp at h; omega
    | succ n ih =>
      intro hn h
      by_cases hf : f < (r.take n).sum
      · exact ih (by omega) hf
      · exact ⟨n, by omega, by omega, h⟩
  exact this r.length (Nat.le_refl _) (by simpa using h1)

theorem owns_range (r : List Int) (hp : ∀ x ∈ r, 0 < x) (c : Nat) (f : Int) (h : Owns r c f) :
    0 ≤ f ∧ f < r.sum := by
  have h1 := sum_take_mono r hp 0 c (by omega)
  have h2 := sum_take_mono r hp (c + 1) r.length (by unfold Owns at h; omega)
  unfold Owns at h
  simp at h1 h2
  omega

theorem sum_replicate (n : Nat) (r : Int) : (List.replicate n r).sum = n * r := by
  induction n with
  | zero => simp
  | succ n ih => simp [List.replicate_succ, ih, Int.add_mul]; omega

/-- the facts about the ratios of a valid axis -/
structure AxisOk (a : Axis) (r : List Int) : Prop where
  len : (r.length : Int) = a.coarse
  pos : ∀ x ∈ r, 0 < x
  sum : r.sum = a.fine
  ratio : ∀ (c : Nat) (h : c < r.length), a.ratio c = .ok r[c]
  base : ∀ (c : Nat), c ≤ r.length → a.fineBase c = .ok (r.take c).sum
  scale : ∀ (c : Nat), c ≤ r.length → a.scaleIndex c = .ok (r.take c).sum

theorem axisOk_of_valid (a : Axis) (h : a.ratiosValid = true) (hf : 0 < a.fine) : ∃ r, AxisOk a r := by
  unfold Axis.ratiosValid at h
  cases hc : a.const with
  | none =>
    rw [hc] at h
    cases hv : a.vec with
    | none => rw [hv] at h; simp at h
    | some v =>
      rw [hv] at h
      simp only [Bool.and_eq_true, beq_iff_eq, List.all_eq_true, decide_eq_true_eq] at h
      refine ⟨v, h.1.1, h.1.2, h.2, ?_, ?_, ?_⟩
      · intro c hcl
        simp only [Axis.ratio, hc, hv]
        exact pyGet_nat v c hcl
      · intro c _
        simp only [Axis.fineBase, hc, hv, pyTake_nat]
      · intro c _
        simp only [Axis.scaleIndex, hc, hv]
        by_cases h0 : (c : Int) = 0
        · have : c = 0 := by omega
          subst this; simp
        · have h1 : ¬ ((c : Int) < 0) := by omega
          have h2 : ¬ (c = 0) := by omega
          simp [h2, pySlice, sliceBound, h1]
  | some r =>
    rw [hc] at h
    simp only [Bool.and_eq_true, beq_iff_eq, decide_eq_true_eq] at h
    have hcp : 0 < a.coarse := by
      have h1 := h.1.1
      have h2 := h.2
      rcases Int.lt_or_le 0 a.coarse with h3 | h3
      · exact h3
      · have : a.coarse * r ≤ 0 := Int.mul_nonpos_of_nonpos_of_nonneg h3 (by omega)
        omega
    refine ⟨List.replicate a.coarse.toNat r, ?_, ?_, ?_, ?_, ?_, ?_⟩
    · simp; omega
    · intro x hx; rw [List.eq_of_mem_replicate hx]; omega
    · rw [sum_replicate, ← h.2]
      rw [Int.toNat_of_nonneg (by omega)]
    · intro c _; simp [Axis.ratio, hc]
    · intro c hcl
      simp only [List.length_replicate] at hcl
      simp only [Axis.fineBase, hc, List.take_replicate, Nat.min_eq_left hcl, sum_replicate]
    · intro c hcl
      simp only [List.length_replicate] at hcl
      simp only [Axis.scaleIndex, hc, List.take_replicate, Nat.min_eq_left hcl, sum_replicate]

theorem fillLoop_spec (a : Axis) (rs : List Int) : ∀ (k : Nat) (f0 : Int) (arr : AxisMap),
    0 ≤ f0 → (∀ x ∈ rs, 0 < x) →
    (∀ (i : Nat) (h : i < rs.length), a.ratio ((k + i : Nat) : Int) = .ok rs[i]) →
    ∃ arr', fillLoop a (List.range' k rs.length) f0 arr = (arr', .ok (f0 + rs.sum)) ∧
      arr'.length = arr.length ∧
      (∀ n : Nat, (n : Int) < f0 → arr'[n]? = arr[n]?) ∧
      (∀ (n i : Nat), n < arr.length → i < rs.length → f0 + (rs.take i).sum ≤ n →
        (n : Int) < f0 + (rs.take (i + 1)).sum → arr'[n]? = some (some ((k + i : Nat) : Int))) := by
  induction rs with
  | nil =>
    intro k f0 arr _ _ _
    exact ⟨arr, by simp [fillLoop], rfl, fun _ _ => rfl, fun n i _ hi => by simp at hi⟩
  | cons r rs ih =>
    intro k f0 arr hf0 hpos hr
    have hrp : 0 < r := hpos r (by simp)
    have hr0 := hr 0 (by simp)
    simp only [Nat.add_zero, List.getElem_cons_zero] at hr0
    obtain ⟨arr', he, hl, hlo, hhi⟩ := ih (k + 1) (f0 + r) (pySetSlice arr f0 (f0 + r) (some (k : Int)))
      (by omega) (fun x hx => hpos x (by simp [hx])) (by
        intro i hi
        have := hr (i + 1) (by simp; omega)
        simp only [List.getElem_cons_succ] at this
        rw [← this]; congr 1; omega)
    refine ⟨arr', ?_, ?_, ?_, ?_⟩
    · simp only [List.length_cons, List.range'_succ, fillLoop, hr0, he, List.sum_cons]
      rw [Int.add_assoc]
    · rw [hl, pySetSlice_length]
    · intro n hn
      rw [hlo n (by omega), pySetSlice_getElem? _ _ _ _ _ hf0 (by omega), if_neg (by omega)]
    · intro n i hn hi h1 h2
      cases i with
      | zero =>
        simp at h1 h2
        rw [hlo n (by omega), pySetSlice_getElem? _ _ _ _ _ hf0 (by omega), if_pos (by omega)]
        rfl
      | succ i =>
        simp only [List.take_succ_cons, List.sum_cons] at h1 h2
        rw [hhi n i (by rw [pySetSlice_length]; exact hn) (by simpa using hi) (by omega) (by omega)]
        congr 3; omega

/-- The mapping vector of a valid axis is complete and says who owns each fine slice. -/
theorem fillAxis_spec (a : Axis) (r : List Int) (h : AxisOk a r) :
    ∃ v, fillAxis a = (v, .ok ()) ∧ (v.length : Int) = a.fine ∧
      ∀ (f : Int) (c : Nat), Owns r c f → pyGet v f = .ok (some (c : Int)) := by
  have hl : a.coarse.toNat = r.length := by have := h.len; omega
  obtain ⟨v, he, hlen, _, hv⟩ := fillLoop_spec a r 0 0 (List.replicate a.fine.toNat none) (by omega) h.pos
    (by intro i hi; simpa using h.ratio i hi)
  have hs : 0 ≤ r.sum := by
    have := sum_take_mono r h.pos 0 r.length (by omega)
    simpa using this
  have hfs := h.sum
  refine ⟨v, ?_, ?_, ?_⟩
  · unfold fillAxis
    rw [hl, List.range_eq_range', he]
    simp [h.sum]
  · rw [hlen]; simp; omega
  · intro f c ho
    have hrange := owns_range r h.pos c f ho
    rw [pyGet_ok_nat _ _ _ hrange.1, hv f.toNat c (by simp; omega) ho.1 ?_ ?_]
    · simp
    · have := ho.2.1; omega
    · have := ho.2.2; omega

theorem upd_self {α : Type} (f : Fin 3 → α) (a : Fin 3) (x : α) : upd f a x a = x := by simp [upd]

theorem fin3 (a : Fin 3) : a = 0 ∨ a = 1 ∨ a = 2 := by
  obtain ⟨a, ha⟩ := a
  have : a = 0 ∨ a = 1 ∨ a = 2 := by omega
  rcases this with h | h | h <;> subst h <;> simp

/-- A mapping that answers according to the ratios `r`. -/
def MapOk (s : FC) (r : Fin 3 → List Int) (m : Fin 3 → Option AxisMap) : Prop :=
  ∀ a, ∃ v, m a = some v ∧ (v.length : Int) = (s.ax a).fine ∧
    ∀ (f : Int) (c : Nat), Owns (r a) c f → pyGet v f = .ok (some (c : Int))

theorem setMapping_spec (s : FC) (r : Fin 3 → List Int) (h : ∀ a, AxisOk (s.ax a) (r a)) :
    ∃ m, setMapping s = ({ s with map := some m }, .ok ()) ∧ MapOk s r m := by
  obtain ⟨v0, e0, p0⟩ := fillAxis_spec _ _ (h 0)
  obtain ⟨v1, e1, p1⟩ := fillAxis_spec _ _ (h 1)
  obtain ⟨v2, e2, p2⟩ := fillAxis_spec _ _ (h 2)
  refine ⟨upd (upd (upd (fun _ => none) 0 (some v0)) 1 (some v1)) 2 (some v2), ?_, ?_⟩
  · simp [setMapping, fillAxes, e0, e1, e2]
  · intro a
    rcases fin3 a with rfl | rfl | rfl
    · exact ⟨v0, by simp [upd], p0⟩
    · exact ⟨v1, by simp [upd], p1⟩
    · exact ⟨v2, by simp [upd], p2⟩

theorem valid_axes (s : FC) (h : s.valid = true) (a : Fin 3) :
    0 < (s.ax a).fine ∧ (s.ax a).coarse ≤ (s.ax a).fine ∧ (s.ax a).ratiosValid = true ∧
      (s.ax a).propsValid = true := by
  simp only [FC.valid, extentsValid, Bool.and_eq_true, List.all_eq_true, decide_eq_true_eq] at h
  have hm : a ∈ [(0 : Fin 3), 1, 2] := by rcases fin3 a with rfl | rfl | rfl <;> simp
  exact ⟨(h.1 a hm).1, (h.1 a hm).2, (h.2 a hm).1, (h.2 a hm).2⟩

theorem exists_ratios (s : FC) (h : ∀ a, 0 < (s.ax a).fine ∧ (s.ax a).ratiosValid = true) :
    ∃ r : Fin 3 → List Int, ∀ a, AxisOk (s.ax a) (r a) := by
  obtain ⟨r0, h0⟩ := axisOk_of_valid _ (h 0).2 (h 0).1
  obtain ⟨r1, h1⟩ := axisOk_of_valid _ (h 1).2 (h 1).1
  obtain ⟨r2, h2⟩ := axisOk_of_valid _ (h 2).2 (h 2).1
  refine ⟨fun a => if a = 0 then r0 else if a = 1 then r1 else r2, ?_⟩
  intro a
  rcases fin3 a with rfl | rfl | rfl <;> simp [h0, h1, h2]

theorem fineBox_spec (s : FC) (r : Fin 3 → List Int) (h : ∀ a, AxisOk (s.ax a) (r a))
    (k j i : Nat) (hk : k < (r 0).length) (hj : j < (r 1).length) (hi : i < (r 2).length) :
    s.fineBox ⟨k, j, i⟩ = .ok
      ⟨⟨((r 0).take k).sum, ((r 1).take j).sum, ((r 2).take i).sum⟩,
       ⟨((r 0).take (k+1)).sum - 1, ((r 1).take (j+1)).sum - 1, ((r 2).take (i+1)).sum - 1⟩⟩ := by
  simp only [FC.fineBox, FC.fineBase, FC.ratio, (h 0).base k (by omega), (h 1).base j (by omega),
    (h 2).base i (by omega), (h 0).ratio k hk, (h 1).ratio j hj, (h 2).ratio i hi, ok_bind,
    take_succ_sum _ _ hk, take_succ_sum _ _ hj, take_succ_sum _ _ hi]
  rfl

end Verif.FineCoarse
