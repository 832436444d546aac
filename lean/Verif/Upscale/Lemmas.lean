import Verif.Upscale.Spec
import Mathlib.Tactic.Ring
import Mathlib.Tactic.FieldSimp
import Mathlib.Tactic.Linarith
import Mathlib.Tactic.Positivity
import Mathlib.Algebra.Order.BigOperators.Group.Finset

namespace Verif.Upscale

variable {K : Type} [Field K] [LinearOrder K]

omit [LinearOrder K] in
theorem range'_sum (f : Nat → K) (s n : Nat) : ((List.range' s n).map f).sum = ∑ x ∈ Finset.Ico s (s + n), f x := by
  induction n generalizing s with
  | zero => simp
  | succ n ih =>
    rw [List.range'_succ, List.map_cons, List.sum_cons, ih, Finset.sum_eq_sum_Ico_succ_bot (a := s) (b := s + (n + 1)) (by omega),
      show s + 1 + n = s + (n + 1) by omega]

theorem first_succ (r : List Nat) (c : Nat) : first r (c + 1) = first r c + r.getD c 0 := by
  unfold first
  induction r generalizing c with
  | nil => simp
  | cons a r ih =>
    cases c with
    | zero => simp
    | succ c => simp only [List.take_succ_cons, List.sum_cons, ih, List.getD_cons_succ]; omega

omit [LinearOrder K] in
theorem sum_flatMap {α β : Type} (l : List α) (g : α → List β) (f : β → K) :
    ((l.flatMap g).map f).sum = (l.map fun a => ((g a).map f).sum).sum := by
  induction l with
  | nil => simp
  | cons a l ih => simp [ih]

omit [LinearOrder K] in
theorem cells_sum (cz : Coarsening) (a : Full K) (k j i : Nat) :
    ((cells cz k j i).map fun c => a c.1 c.2.1 c.2.2).sum = total cz a k j i := by
  unfold cells total owned
  rw [sum_flatMap, range'_sum, first_succ]
  refine Finset.sum_congr rfl fun x _ => ?_
  rw [sum_flatMap, range'_sum, first_succ]
  refine Finset.sum_congr rfl fun y _ => ?_
  rw [List.map_map, range'_sum, first_succ]
  rfl

omit [LinearOrder K] in
theorem nansum_lift (cz : Coarsening) (a : Full K) (k j i : Nat) :
    nansum ((cells cz k j i).map (get (lift a))) = total cz a k j i := by
  rw [← cells_sum, nansum, List.map_map]; rfl

omit [LinearOrder K] in
theorem nansum_lift_mul (cz : Coarsening) (a w : Full K) (k j i : Nat) :
    nansum ((cells cz k j i).map fun c => mulV (get (lift a) c) (get (lift w) c)) =
      total cz (fun x y z => a x y z * w x y z) k j i := by
  rw [← cells_sum, nansum, List.map_map]; rfl

/-- the mean of `a` with weights `w` and total weight `W` -/
def wmean (cz : Coarsening) (a w W : Full K) : Full K := fun k j i =>
  if W k j i = 0 then 0 else total cz (fun x y z => a x y z * w x y z) k j i / W k j i

omit [LinearOrder K] in
theorem coarseSum_lift (cz : Coarsening) (a : Full K) : coarseSum cz (lift a) = lift (total cz a) := by
  funext k j i; simp only [coarseSum, nansum_lift]; rfl

theorem weightedMean_lift (cz : Coarsening) (a w W : Full K) :
    weightedMean cz (lift a) (lift w) (lift W) (some 0) = lift (wmean cz a w W) := by
  funext k j i
  simp only [weightedMean, nansum_lift_mul]
  simp only [lift]
  unfold wmean
  split <;> rfl

omit [LinearOrder K] in
theorem mulA_lift (a b : Full K) : mulA (lift a) (lift b) = lift fun k j i => a k j i * b k j i := rfl

section heap
omit [LinearOrder K]

theorem read_append_left (h l : Heap K) (r : Nat) (hr : r < h.length) : Heap.read (h ++ l) r = Heap.read h r := by
  unfold Heap.read; simp only [List.getD_eq_getElem?_getD, List.getElem?_append_left hr]

theorem addEach_heap {α : Type} (s : St K) (kind : α → Kind) (f : α → Arr K) (l : List α) :
    (s.addEach kind f l).heap = s.heap ++ l.map f := by
  induction l generalizing s with
  | nil => simp [St.addEach]
  | cons p l ih => simp [St.addEach, ih, St.add]

/-- every imported array is in memory -/
def Wf (s : St K) : Prop := ∀ q ∈ s.imported, q.2 < s.heap.length

theorem add_wf (s : St K) (h : Wf s) (kind : Kind) (a : Arr K) : Wf (s.add kind a) := by
  intro q hq
  simp only [St.add, List.mem_append, List.mem_singleton] at hq
  simp only [St.add, List.length_append, List.length_singleton]
  rcases hq with hq | hq
  · have := h q hq; omega
  · rw [hq]; simp

theorem written_add (s : St K) (h : Wf s) (kind : Kind) (a : Arr K) : written (s.add kind a) = written s ++ [(kind, a)] := by
  unfold written
  simp only [St.add, List.map_append, List.map_cons, List.map_nil]
  congr 1
  · refine List.map_congr_left fun q hq => ?_
    rw [read_append_left _ _ _ (h q hq)]
  · simp [Heap.read]

theorem addEach_wf {α : Type} (s : St K) (h : Wf s) (kind : α → Kind) (f : α → Arr K) (l : List α) : Wf (s.addEach kind f l) := by
  induction l generalizing s with
  | nil => exact h
  | cons p l ih => exact ih _ (add_wf _ h _ _)

theorem written_addEach {α : Type} (s : St K) (h : Wf s) (kind : α → Kind) (f : α → Arr K) (l : List α) :
    written (s.addEach kind f l) = written s ++ l.map fun p => (kind p, f p) := by
  induction l generalizing s with
  | nil => simp [St.addEach]
  | cons p l ih => rw [St.addEach, ih _ (add_wf _ h _ _), written_add _ h]; simp

theorem read_addEach {α : Type} (s : St K) (kind : α → Kind) (f : α → Arr K) (l : List α) (r : Nat) (hr : r < s.heap.length) :
    (s.addEach kind f l).heap.read r = s.heap.read r := by
  rw [addEach_heap, read_append_left _ _ _ hr]

end heap

/-- what is written after porosity, with `s` the state then -/
theorem written_tail (cz : Coarsening) (s : St K) (hs : Wf s) (fr cr fn cn : Nat) (hfr : fr < s.heap.length) (hcr : cr < s.heap.length)
    (hfn : fn < s.heap.length) (hcn : cn < s.heap.length) (sat perm : List (Arr K)) (lengths : List (Nat × Arr K)) (others : List (Bool × Arr K)) :
    let up (s : St K) (fw cw : Nat) (zero : Option K) (a : Arr K) : Arr K := weightedMean cz a (s.heap.read fw) (s.heap.read cw) zero
    let s5 := s.addEach (fun _ => Kind.saturation) (up s fn cn (some 0)) sat
    let s6 := s5.addEach (fun _ => Kind.permeability) (up s5 fn cn (some 0)) perm
    let s7 := s6.addEach (fun _ => Kind.length) (fun q => coarseLength cz q.1 q.2) lengths
    written (s7.addEach (fun q => if q.1 then Kind.continuous else Kind.discrete)
      (fun q => if q.1 then up s7 fr cr none q.2 else sample cz q.2) others) =
    written s ++ sat.map (fun a => (Kind.saturation, weightedMean cz a (s.heap.read fn) (s.heap.read cn) (some 0)))
      ++ perm.map (fun a => (Kind.permeability, weightedMean cz a (s.heap.read fn) (s.heap.read cn) (some 0)))
      ++ lengths.map (fun q => (Kind.length, coarseLength cz q.1 q.2))
      ++ others.map (fun q => if q.1 then (Kind.continuous, weightedMean cz q.2 (s.heap.read fr) (s.heap.read cr) none)
          else (Kind.discrete, sample cz q.2)) := by
  intro up s5 s6 s7
  have h5 : Wf s5 := addEach_wf _ hs _ _ _
  have h6 : Wf s6 := addEach_wf _ h5 _ _ _
  have h7 : Wf s7 := addEach_wf _ h6 _ _ _
  have l5 : s.heap.length ≤ s5.heap.length := by simp only [s5, addEach_heap, List.length_append]; omega
  have l6 : s5.heap.length ≤ s6.heap.length := by simp only [s6, addEach_heap, List.length_append]; omega
  have r5 : ∀ r, r < s.heap.length → s5.heap.read r = s.heap.read r := fun r hr => read_addEach _ _ _ _ _ hr
  have r7 : ∀ r, r < s.heap.length → s7.heap.read r = s.heap.read r := fun r hr => by
    rw [← r5 r hr, show s7.heap.read r = s6.heap.read r from read_addEach _ _ _ _ _ (by omega),
      show s6.heap.read r = s5.heap.read r from read_addEach _ _ _ _ _ (by omega)]
  rw [written_addEach _ h7, written_addEach _ h6, written_addEach _ h5, written_addEach _ hs]
  simp only [up, r5 _ hfn, r5 _ hcn, r7 _ hfr, r7 _ hcr]
  congr 1
  refine List.map_congr_left fun q _ => ?_
  cases q.1 <;> simp

section order
variable [IsStrictOrderedRing K]

theorem mem_of_Ico {cz : Coarsening} {k j i x y z : Nat} (hx : x ∈ Finset.Ico (first cz.rk k) (first cz.rk (k + 1)))
    (hy : y ∈ Finset.Ico (first cz.rj j) (first cz.rj (j + 1))) (hz : z ∈ Finset.Ico (first cz.ri i) (first cz.ri (i + 1))) :
    InCell cz k j i x y z := ⟨Finset.mem_Ico.1 hx, Finset.mem_Ico.1 hy, Finset.mem_Ico.1 hz⟩

theorem total_le (cz : Coarsening) (a b : Full K) (k j i : Nat) (h : ∀ x y z, InCell cz k j i x y z → a x y z ≤ b x y z) :
    total cz a k j i ≤ total cz b k j i :=
  Finset.sum_le_sum fun _ hx => Finset.sum_le_sum fun _ hy => Finset.sum_le_sum fun _ hz => h _ _ _ (mem_of_Ico hx hy hz)

omit [LinearOrder K] [IsStrictOrderedRing K] in
theorem total_mul_left (cz : Coarsening) (c : K) (a : Full K) (k j i : Nat) :
    total cz (fun x y z => c * a x y z) k j i = c * total cz a k j i := by
  simp only [total, Finset.mul_sum]

/-- a vanishing total of weights which are not negative leaves nothing to be weighted -/
theorem total_mul_eq_zero (cz : Coarsening) (a w : Full K) (k j i : Nat) (hw : ∀ x y z, 0 ≤ w x y z) (h : total cz w k j i = 0) :
    total cz (fun x y z => a x y z * w x y z) k j i = 0 := by
  have h0 : ∀ x ∈ Finset.Ico (first cz.rk k) (first cz.rk (k + 1)), ∀ y ∈ Finset.Ico (first cz.rj j) (first cz.rj (j + 1)),
      ∀ z ∈ Finset.Ico (first cz.ri i) (first cz.ri (i + 1)), w x y z = 0 := by
    intro x hx y hy z hz
    have h1 := (Finset.sum_eq_zero_iff_of_nonneg (fun x _ => Finset.sum_nonneg fun y _ => Finset.sum_nonneg fun z _ => hw x y z)).1 h x hx
    have h2 := (Finset.sum_eq_zero_iff_of_nonneg (fun y _ => Finset.sum_nonneg fun z _ => hw x y z)).1 h1 y hy
    exact (Finset.sum_eq_zero_iff_of_nonneg (fun z _ => hw x y z)).1 h2 z hz
  refine Finset.sum_eq_zero fun x hx => Finset.sum_eq_zero fun y hy => Finset.sum_eq_zero fun z hz => ?_
  show a x y z * w x y z = 0
  rw [h0 x hx y hy z hz, mul_zero]

omit [LinearOrder K] [IsStrictOrderedRing K] in
theorem mul_wmean [DecidableEq K] (cz : Coarsening) (a w W : Full K) (k j i : Nat)
    (h : W k j i = 0 → total cz (fun x y z => a x y z * w x y z) k j i = 0) :
    W k j i * (if W k j i = 0 then 0 else total cz (fun x y z => a x y z * w x y z) k j i / W k j i) =
      total cz (fun x y z => a x y z * w x y z) k j i := by
  split
  · next h0 => rw [mul_zero, h h0]
  · next h0 => field_simp

theorem mul_wmean_total (cz : Coarsening) (a w : Full K) (hw : ∀ x y z, 0 ≤ w x y z) (k j i : Nat) :
    total cz w k j i * wmean cz a w (total cz w) k j i = total cz (fun x y z => a x y z * w x y z) k j i :=
  mul_wmean cz a w _ k j i (total_mul_eq_zero cz a w k j i hw)

theorem wmean_range (cz : Coarsening) (a w : Full K) (hw : ∀ x y z, 0 ≤ w x y z) (k j i : Nat) (h0 : total cz w k j i ≠ 0)
    (lo hi : K) (h : ∀ x y z, InCell cz k j i x y z → lo ≤ a x y z ∧ a x y z ≤ hi) :
    lo ≤ wmean cz a w (total cz w) k j i ∧ wmean cz a w (total cz w) k j i ≤ hi := by
  have hp : 0 < total cz w k j i := lt_of_le_of_ne
    (Finset.sum_nonneg fun x _ => Finset.sum_nonneg fun y _ => Finset.sum_nonneg fun z _ => hw x y z) (Ne.symm h0)
  unfold wmean
  rw [if_neg h0, le_div_iff₀ hp, div_le_iff₀ hp, ← total_mul_left, ← total_mul_left]
  exact ⟨total_le _ _ _ _ _ _ fun x y z hc => mul_le_mul_of_nonneg_right (h x y z hc).1 (hw x y z),
    total_le _ _ _ _ _ _ fun x y z hc => mul_le_mul_of_nonneg_right (h x y z hc).2 (hw x y z)⟩

omit [LinearOrder K] [IsStrictOrderedRing K] in
theorem sum_first (r : List Nat) (f : Nat → K) (n : Nat) :
    ∑ c ∈ Finset.range n, ∑ x ∈ Finset.Ico (first r c) (first r (c + 1)), f x = ∑ x ∈ Finset.range (first r n), f x := by
  induction n with
  | zero => simp [first]
  | succ n ih =>
    rw [Finset.sum_range_succ, ih, Finset.range_eq_Ico, Finset.range_eq_Ico,
      Finset.sum_Ico_consecutive f (Nat.zero_le _) (by rw [first_succ]; omega)]

omit [LinearOrder K] [IsStrictOrderedRing K] in
theorem total_total (cz : Coarsening) (a : Full K) :
    ∑ k ∈ Finset.range cz.rk.length, ∑ j ∈ Finset.range cz.rj.length, ∑ i ∈ Finset.range cz.ri.length, total cz a k j i =
      ∑ x ∈ Finset.range cz.rk.sum, ∑ y ∈ Finset.range cz.rj.sum, ∑ z ∈ Finset.range cz.ri.sum, a x y z := by
  have e : ∀ r : List Nat, first r r.length = r.sum := fun r => by simp [first]
  have : ∀ k, ∑ j ∈ Finset.range cz.rj.length, ∑ i ∈ Finset.range cz.ri.length, total cz a k j i =
      ∑ x ∈ Finset.Ico (first cz.rk k) (first cz.rk (k + 1)), ∑ y ∈ Finset.range cz.rj.sum, ∑ z ∈ Finset.range cz.ri.sum, a x y z := by
    intro k
    unfold total
    have : ∀ j, ∑ i ∈ Finset.range cz.ri.length, ∑ x ∈ Finset.Ico (first cz.rk k) (first cz.rk (k + 1)),
        ∑ y ∈ Finset.Ico (first cz.rj j) (first cz.rj (j + 1)), ∑ z ∈ Finset.Ico (first cz.ri i) (first cz.ri (i + 1)), a x y z =
        ∑ x ∈ Finset.Ico (first cz.rk k) (first cz.rk (k + 1)), ∑ y ∈ Finset.Ico (first cz.rj j) (first cz.rj (j + 1)),
          ∑ z ∈ Finset.range cz.ri.sum, a x y z := by
      intro j
      rw [Finset.sum_comm]
      refine Finset.sum_congr rfl fun x _ => ?_
      rw [Finset.sum_comm]
      refine Finset.sum_congr rfl fun y _ => ?_
      rw [sum_first, e]
    simp only [this]
    rw [Finset.sum_comm]
    refine Finset.sum_congr rfl fun x _ => ?_
    rw [sum_first, e]
  simp only [this]
  rw [sum_first, e]

theorem double_bound (S T : Finset Nat) (g : Nat → Nat → K) (lo hi : K) (hS : S.Nonempty) (hT : T.Nonempty)
    (h : ∀ y ∈ S, ∀ z ∈ T, lo ≤ g y z ∧ g y z ≤ hi) :
    lo ≤ (∑ y ∈ S, ∑ z ∈ T, g y z) / ((S.card * T.card : Nat) : K) ∧ (∑ y ∈ S, ∑ z ∈ T, g y z) / ((S.card * T.card : Nat) : K) ≤ hi := by
  have hp : (0 : K) < ((S.card * T.card : Nat) : K) := by
    have := Nat.mul_pos hS.card_pos hT.card_pos
    exact_mod_cast this
  have e : ∀ c : K, c * ((S.card * T.card : Nat) : K) = ∑ y ∈ S, ∑ z ∈ T, c := fun c => by
    simp only [Finset.sum_const, nsmul_eq_mul, Nat.cast_mul]; ring
  rw [le_div_iff₀ hp, div_le_iff₀ hp, e, e]
  exact ⟨Finset.sum_le_sum fun y hy => Finset.sum_le_sum fun z hz => (h y hy z hz).1,
    Finset.sum_le_sum fun y hy => Finset.sum_le_sum fun z hz => (h y hy z hz).2⟩

end order

end Verif.Upscale
