import Verif.FineCoarse.Lemmas
import Mathlib.Algebra.Order.Field.Rat
import Mathlib.Tactic.Linarith
import Mathlib.Tactic.FieldSimp
import Mathlib.Tactic.Ring
import Mathlib.Algebra.BigOperators.Group.List.Basic

/-!
# Property C37: proportions of a refinement
-/

namespace Verif.FineCoarse
open Verif.Py Verif.Box

/-- A vector of `n` positive proportions adding up to one. -/
structure IsPartition (p : List Rat) (n : Int) : Prop where
  len : (p.length : Int) = n
  pos : ∀ x ∈ p, 0 < x
  sum : p.sum = 1

private theorem sum_replicate_rat (n : Nat) (x : Rat) : (List.replicate n x).sum = n * x := by
  induction n with
  | zero => simp
  | succ n ih => rw [List.replicate_succ, List.sum_cons, ih]; push_cast; ring

private theorem equal_partition (n : Int) (h : 0 < n) :
    IsPartition (List.replicate n.toNat (1 / (n : Rat))) n := by
  have hq : (0 : Rat) < (n : Rat) := by exact_mod_cast h
  refine ⟨by simp; omega, ?_, ?_⟩
  · intro x hx
    rw [List.eq_of_mem_replicate hx]
    exact one_div_pos.2 hq
  · rw [sum_replicate_rat]
    have : ((n.toNat : Nat) : Rat) = (n : Rat) := by
      have h1 : ((n.toNat : Nat) : Int) = n := by omega
      exact_mod_cast congrArg (fun z : Int => (z : Rat)) h1
    rw [this]
    field_simp

private theorem sum_map_div (v : List Rat) (t : Rat) : (v.map (· / t)).sum = v.sum / t := by
  induction v with
  | nil => simp
  | cons x xs ih => rw [List.map_cons, List.sum_cons, ih, List.sum_cons]; ring

private theorem sum_pos_of (v : List Rat) (h : ∀ x ∈ v, 0 < x) (hne : v ≠ []) : 0 < v.sum := by
  induction v with
  | nil => exact absurd rfl hne
  | cons x xs ih =>
    rw [List.sum_cons]
    have hx := h x (by simp)
    by_cases hxs : xs = []
    · subst hxs; simpa using hx
    · have := ih (fun y hy => h y (by simp [hy])) hxs
      linarith

/-- When no unequal proportions are in force, the proportions of each coarse slice are equal and add
up to one. -/
theorem C37_equal_proportions (a : Axis) (hv : a.ratiosValid = true) (hf : 0 < a.fine) (he : a.equal = true)
    (c : Nat) (hc : (c : Int) < a.coarse) :
    ∃ n p, a.ratio c = .ok n ∧ a.proportion c = .ok p ∧ IsPartition p n ∧ ∀ x ∈ p, x = 1 / (n : Rat) := by
  obtain ⟨r, hr⟩ := axisOk_of_valid a hv hf
  have hl := hr.len
  have hcl : c < r.length := by omega
  have hpos := hr.pos _ (List.getElem_mem hcl)
  refine ⟨_, _, hr.ratio c hcl, ?_, equal_partition _ hpos, ?_⟩
  · simp only [Axis.proportion, he, if_true, hr.ratio c hcl, ok_bind,
      if_neg (show ¬ r[c] = 0 by omega), if_neg (show ¬ r[c] < 0 by omega)]
    rfl
  · intro x hx; exact List.eq_of_mem_replicate hx

private theorem normalise_ok (a : Axis) (c : Nat) (v f : List Rat) (e : Bool)
    (h : normalise a c v = .ok (f, e)) :
    ∃ n : Int, a.ratio c = .ok n ∧ IsPartition f n ∧ f = v.map (· / v.sum) ∧
      (e = true → ∀ x ∈ f, ∀ y ∈ f, x - y ≤ 1 / 1000000) := by
  unfold normalise at h
  cases hr : a.ratio c with
  | error e => rw [hr] at h; simp [err_bind] at h
  | ok n =>
    rw [hr, ok_bind] at h
    split at h
    · simp at h
    · rename_i hlen
      rw [assert_bind] at h
      obtain ⟨hpos, h⟩ := h
      simp only [List.all_eq_true, decide_eq_true_eq] at hpos
      cases v with
      | nil => simp [rmax, err_bind] at h
      | cons x xs =>
        have hs := sum_pos_of (x :: xs) hpos (by simp)
        simp only [List.map_cons, rmax, rmin, ok_bind] at h
        simp only [pure, Except.pure, Except.ok.injEq, Prod.mk.injEq] at h
        obtain ⟨h1, h2⟩ := h
        subst h1
        refine ⟨n, rfl, ⟨?_, ?_, ?_⟩, rfl, ?_⟩
        · simp only [List.length_cons, List.length_map] at hlen ⊢
          push_neg at hlen; simpa using hlen
        · intro y hy
          have hy' : y ∈ (x :: xs).map (· / (x :: xs).sum) := hy
          obtain ⟨z, hz, rfl⟩ := List.mem_map.1 hy'
          exact div_pos (hpos z hz) hs
        · have := sum_map_div (x :: xs) (x :: xs).sum
          rw [List.map_cons] at this
          rw [this, div_self (ne_of_gt hs)]
        · intro he
          rw [← h2] at he
          simp only [decide_eq_true_eq, not_lt, gt_iff_lt] at he
          have hmax : ∀ (l : List Rat) (b : Rat), b ≤ l.foldl max b ∧ ∀ y ∈ l, y ≤ l.foldl max b := by
            intro l
            induction l with
            | nil => intro b; simp
            | cons z zs ih =>
              intro b
              have := ih (max b z)
              simp only [List.foldl_cons]
              refine ⟨le_trans (le_max_left _ _) this.1, ?_⟩
              intro y hy
              rcases List.mem_cons.1 hy with rfl | hy
              · exact le_trans (le_max_right _ _) this.1
              · exact this.2 y hy
          have hmin : ∀ (l : List Rat) (b : Rat), l.foldl min b ≤ b ∧ ∀ y ∈ l, l.foldl min b ≤ y := by
            intro l
            induction l with
            | nil => intro b; simp
            | cons z zs ih =>
              intro b
              have := ih (min b z)
              simp only [List.foldl_cons]
              refine ⟨le_trans this.1 (min_le_left _ _), ?_⟩
              intro y hy
              rcases List.mem_cons.1 hy with rfl | hy
              · exact le_trans this.1 (min_le_right _ _)
              · exact this.2 y hy
          intro u hu w hw
          have h1 : u ≤ (xs.map (· / (x :: xs).sum)).foldl max (x / (x :: xs).sum) := by
            rcases List.mem_cons.1 hu with rfl | hu
            · exact (hmax _ _).1
            · exact (hmax _ _).2 u hu
          have h2 : (xs.map (· / (x :: xs).sum)).foldl min (x / (x :: xs).sum) ≤ w := by
            rcases List.mem_cons.1 hw with rfl | hw
            · exact (hmin _ _).1
            · exact (hmin _ _).2 w hw
          simp only [List.sum_cons] at he h1 h2
          linarith

private theorem normaliseAll_ok (a : Axis) (vs : List (List Rat)) : ∀ (k : Nat) (fs : List (List Rat)) (e : Bool),
    normaliseAll a k vs = .ok (fs, e) → fs.length = vs.length ∧
      (∀ (c : Nat) (h : c < fs.length) (h' : c < vs.length),
        ∃ n : Int, a.ratio ((k + c : Nat) : Int) = .ok n ∧ IsPartition fs[c] n ∧
          fs[c] = vs[c].map (· / vs[c].sum) ∧
          (e = true → ∀ x ∈ fs[c], ∀ y ∈ fs[c], x - y ≤ 1 / 1000000)) := by
  induction vs with
  | nil =>
    intro k fs e h
    simp only [normaliseAll, Except.ok.injEq, Prod.mk.injEq] at h
    obtain ⟨rfl, rfl⟩ := h
    exact ⟨rfl, fun c h => by simp at h⟩
  | cons v vs ih =>
    intro k fs e h
    unfold normaliseAll at h
    cases h1 : normalise a k v with
    | error e => rw [h1] at h; simp [err_bind] at h
    | ok p =>
      obtain ⟨f, e1⟩ := p
      rw [h1, ok_bind] at h
      dsimp only at h
      cases h2 : normaliseAll a (k + 1) vs with
      | error e => rw [h2] at h; simp [err_bind] at h
      | ok q =>
        obtain ⟨gs, e2⟩ := q
        rw [h2, ok_bind] at h
        simp only [pure, Except.pure, Except.ok.injEq, Prod.mk.injEq] at h
        obtain ⟨rfl, rfl⟩ := h
        obtain ⟨hl, hall⟩ := ih _ _ _ h2
        refine ⟨by simp [hl], ?_⟩
        intro c hc hc'
        cases c with
        | zero =>
          obtain ⟨n, q1, q2, q3, q4⟩ := normalise_ok _ _ _ _ _ h1
          refine ⟨n, by simpa using q1, q2, q3, ?_⟩
          intro he
          simp only [Bool.and_eq_true] at he
          exact q4 he.1
        | succ c =>
          obtain ⟨n, q1, q2, q3, q4⟩ := hall c (by simpa using hc) (by simpa using hc')
          refine ⟨n, ?_, q2, q3, ?_⟩
          · rw [← q1]; congr 1; omega
          · intro he
            simp only [Bool.and_eq_true] at he
            exact q4 he.2

private theorem setProps_cases (a a' : Axis) (vs : List (List Rat)) (h : a.setProps vs = .ok a') :
    (vs.length : Int) = a.coarse ∧ ∃ fs e, normaliseAll a 0 vs = .ok (fs, e) ∧
      a' = if e then { a with equal := true, props := none } else { a with equal := false, props := some fs } := by
  unfold Axis.setProps at h
  rw [assert_bind] at h
  obtain ⟨h1, h⟩ := h
  simp only [beq_iff_eq] at h1
  refine ⟨h1, ?_⟩
  cases hn : normaliseAll a 0 vs with
  | error e => rw [hn] at h; simp [err_bind] at h
  | ok p =>
    obtain ⟨fs, e⟩ := p
    rw [hn, ok_bind] at h
    refine ⟨fs, e, rfl, ?_⟩
    dsimp only at h
    split at h
    · rename_i he; simp only [pure, Except.pure, Except.ok.injEq] at h; simp [he, h]
    · rename_i he; simp only [pure, Except.pure, Except.ok.injEq] at h; simp [he, h]

/-- After proportions are set, the proportions of each coarse slice number as many as its ratio, are
positive and add up to one.  They are in the ratios given, or equal if the given ones are all equal to
within one part in a million. -/
theorem C37_set_proportions (a a' : Axis) (vs : List (List Rat)) (hv : a.ratiosValid = true)
    (hf : 0 < a.fine) (h : a.setProps vs = .ok a') (c : Nat) (hc : (c : Int) < a.coarse) (hcl : c < vs.length) :
    ∃ n p, a'.ratio c = .ok n ∧ a'.proportion c = .ok p ∧ IsPartition p n ∧
      (p = vs[c].map (· / vs[c].sum) ∨
        ∀ x ∈ vs[c].map (· / vs[c].sum), ∀ y ∈ p, |x - y| ≤ 1 / 1000000) := by
  obtain ⟨hlen, fs, e, hn, ha'⟩ := setProps_cases a a' vs h
  obtain ⟨hl, hall⟩ := normaliseAll_ok a vs 0 fs e hn
  obtain ⟨n, q1, q2, q3, q4⟩ := hall c (by omega) hcl
  simp only [Nat.zero_add] at q1
  cases e with
  | false =>
    simp only [Bool.false_eq_true, if_false] at ha'
    subst ha'
    refine ⟨n, fs[c], q1, ?_, q2, .inl q3⟩
    simp only [Axis.proportion, Bool.false_eq_true, if_false]
    exact pyGet_nat fs c (by omega)
  | true =>
    simp only [if_true] at ha'
    subst ha'
    obtain ⟨n', p, r1, r2, r3, r4⟩ := C37_equal_proportions
      { a with equal := true, props := none } hv hf rfl c hc
    have hnn : n' = n := by
      have : a.ratio c = .ok n' := r1
      rw [q1] at this; simpa using this.symm
    subst hnn
    refine ⟨n', p, r1, r2, r3, .inr ?_⟩
    rw [← q3]
    intro x hx y hy
    have hnear := q4 rfl
    have hy' := r4 y hy
    -- x is within tolerance of the mean 1 / n
    have hnpos : (0 : Rat) < n' := by
      have hl2 : 0 < fs[c].length := List.length_pos_of_mem hx
      have := q2.len
      have : 0 < n' := by omega
      exact_mod_cast this
    have hlow : ∀ (l : List Rat) (b : Rat), (∀ z ∈ l, b ≤ z) → (l.length : Rat) * b ≤ l.sum := by
      intro l b hb
      induction l with
      | nil => simp
      | cons z zs ih =>
        have h1 := ih (fun w hw => hb w (by simp [hw]))
        have h2 := hb z (by simp)
        rw [List.sum_cons, List.length_cons]; push_cast; linarith
    have hupp : ∀ (l : List Rat) (b : Rat), (∀ z ∈ l, z ≤ b) → l.sum ≤ (l.length : Rat) * b := by
      intro l b hb
      induction l with
      | nil => simp
      | cons z zs ih =>
        have h1 := ih (fun w hw => hb w (by simp [hw]))
        have h2 := hb z (by simp)
        rw [List.sum_cons, List.length_cons]; push_cast; linarith
    have e1 := hlow fs[c] (x - 1 / 1000000) (fun z hz => by have := hnear x hx z hz; linarith)
    have e2 := hupp fs[c] (x + 1 / 1000000) (fun z hz => by have := hnear z hz x hx; linarith)
    rw [q2.sum] at e1 e2
    have hlr : ((fs[c].length : Nat) : Rat) = (n' : Rat) := by
      exact_mod_cast congrArg (fun z : Int => (z : Rat)) q2.len
    rw [hlr] at e1 e2
    have hyn : y * n' = 1 := by rw [hy']; field_simp
    rw [abs_le]
    constructor
    · have : n' * (x + 1 / 1000000 - y) ≥ 0 := by linarith [mul_comm y (n' : Rat)]
      have := (mul_nonneg_iff_of_pos_left hnpos).1 this
      linarith
    · have : n' * (y - (x - 1 / 1000000)) ≥ 0 := by linarith [mul_comm y (n' : Rat)]
      have := (mul_nonneg_iff_of_pos_left hnpos).1 this
      linarith

example : ∃ a', (⟨5, 2, none, some [2, 3], true, none⟩ : Axis).setProps [[1, 3], [2, 1, 1]] = .ok a' ∧
    a'.proportion 0 = .ok [1/4, 3/4] := by
  refine ⟨⟨5, 2, none, some [2, 3], false, some [[1/4, 3/4], [1/2, 1/4, 1/4]]⟩, ?_, ?_⟩
  · decide +kernel
  · decide +kernel

/-- The interpolation values of a slice are the running sums of its proportions: they start at zero,
increase, and stay below one. -/
theorem C37_interpolation (a : Axis) (c n : Int) (p : List Rat) (hn : 0 < n) (hr : a.ratio c = .ok n)
    (hp : a.proportion c = .ok p) (hpart : IsPartition p n) :
    ∃ l, a.interpolation c = .ok l ∧ l.length = n.toNat ∧
      (∀ (k : Nat) (h : k < l.length), l[k] = (p.take k).sum) ∧
      Increasing l ∧ ∀ x ∈ l, 0 ≤ x ∧ x < 1 := by
  have loop : ∀ (p : List Rat) (m : Nat) (x : Rat), m ≤ p.length →
      interpLoop p m x = .ok ((List.range m).map fun k => x + (p.take (k + 1)).sum) := by
    intro p
    induction p with
    | nil => intro m x hm; have : m = 0 := by simpa using hm
             subst this; rfl
    | cons y ys ih =>
      intro m x hm
      cases m with
      | zero => rfl
      | succ m =>
        simp only [interpLoop, ih m (x + y) (by simpa using hm), ok_bind, pure, Except.pure,
          List.range_succ_eq_map, List.map_cons, List.map_map]
        congr 2
        · simp
        · apply List.map_congr_left
          intro k _
          simp [add_assoc]
  have hlen := hpart.len
  have hm : n.toNat - 1 ≤ p.length := by omega
  let l : List Rat := (List.range n.toNat).map fun k => (p.take k).sum
  have hl : a.interpolation c = .ok l := by
    simp only [Axis.interpolation, hr, hp, ok_bind, if_neg (show ¬ n < 0 by omega),
      if_neg (show ¬ n = 0 by omega), loop p (n.toNat - 1) 0 hm, l]
    have : n.toNat = (n.toNat - 1) + 1 := by omega
    rw [this, List.range_succ_eq_map, List.map_cons, List.map_map]
    simp only [pure, Except.pure, List.take_zero, List.sum_nil, Nat.add_sub_cancel]
    congr 2
    apply List.map_congr_left
    intro k _
    simp
  have hstep : ∀ i j : Nat, i < j → j ≤ p.length → (p.take i).sum < (p.take j).sum := by
    intro i j hij hj
    induction j with
    | zero => omega
    | succ j ih =>
      have hjl : j < p.length := by omega
      have hs : (p.take (j + 1)).sum = (p.take j).sum + p[j] := by
        rw [List.take_succ_eq_append_getElem hjl, List.sum_append, List.sum_singleton]
      have hpj := hpart.pos _ (List.getElem_mem hjl)
      by_cases h : i = j
      · subst h; linarith
      · have := ih (by omega) (by omega); linarith
  have hsum := hpart.sum
  refine ⟨l, hl, by simp [l], ?_, ?_, ?_⟩
  · intro k h
    simp [l]
  · unfold Increasing
    simp only [l]
    rw [List.pairwise_map]
    refine List.Pairwise.imp_of_mem ?_ List.pairwise_lt_range
    intro i j _ hj hij
    rw [List.mem_range] at hj
    exact hstep i j hij (by omega)
  · intro x hx
    simp only [l, List.mem_map, List.mem_range] at hx
    obtain ⟨k, hk, rfl⟩ := hx
    have hlt := hstep k p.length (by omega) (le_refl _)
    rw [List.take_length, hsum] at hlt
    refine ⟨?_, hlt⟩
    rcases Nat.eq_zero_or_pos k with h0 | h0
    · subst h0; simp
    · have := hstep 0 k h0 (by omega)
      simp only [List.take_zero, List.sum_nil] at this
      linarith

example : (⟨5, 2, none, some [2, 3], false, some [[1/4, 3/4], [1/2, 1/4, 1/4]]⟩ : Axis).interpolation 1
    = .ok [0, 1/2, 3/4] := by decide +kernel

/-- The proportions for a whole axis are the proportions of its coarse slices put end to end. -/
theorem C37_proportions_for_axis (a : Axis) (hv : a.ratiosValid = true) (hf : 0 < a.fine)
    (hp : a.propsValid = true) :
    ∃ ps : List (List Rat), (ps.length : Int) = a.coarse ∧
      (∀ (c : Nat) (h : c < ps.length), a.proportion c = .ok ps[c]) ∧
      a.proportionsForAxis = .ok ps.flatten := by
  obtain ⟨r, hr⟩ := axisOk_of_valid a hv hf
  cases he : a.equal with
  | false =>
    simp only [Axis.propsValid, he, Bool.false_eq_true, if_false] at hp
    cases hps : a.props with
    | none => rw [hps] at hp; simp at hp
    | some ps =>
      rw [hps] at hp
      simp only [Bool.and_eq_true, beq_iff_eq] at hp
      refine ⟨ps, hp.1, ?_, ?_⟩
      · intro c h
        simp only [Axis.proportion, he, Bool.false_eq_true, if_false, hps]
        exact pyGet_nat ps c h
      · simp only [Axis.proportionsForAxis, he, Bool.false_eq_true, if_false, hps]
  | true =>
    refine ⟨r.map fun (n : Int) => List.replicate n.toNat (1 / (n : Rat)), by simpa using hr.len, ?_, ?_⟩
    · intro c h
      have hc : c < r.length := by simpa using h
      have hpos := hr.pos _ (List.getElem_mem hc)
      simp only [Axis.proportion, he, if_true, hr.ratio c hc, ok_bind,
        if_neg (show ¬ r[c] = 0 by omega), if_neg (show ¬ r[c] < 0 by omega), List.getElem_map]
      rfl
    · simp only [Axis.proportionsForAxis, he, if_true]
      cases hc : a.const with
      | none =>
        cases hvec : a.vec with
        | none => simp [Axis.ratiosValid, hc, hvec] at hv
        | some v =>
          have hlen : (v.length : Int) = a.coarse := by
            simp only [Axis.ratiosValid, hc, hvec, Bool.and_eq_true, beq_iff_eq] at hv
            exact hv.1.1
          have hrv : r = v := by
            have hl := hr.len
            apply List.ext_getElem (by omega)
            intro n h1 h2
            have e1 := hr.ratio n h1
            simp only [Axis.ratio, hc, hvec] at e1
            rw [pyGet_nat v n h2] at e1
            simpa using e1.symm
          subst hrv
          have heq : ∀ l : List Int, equalFractions l =
              (l.map fun (n : Int) => List.replicate n.toNat (1 / (n : Rat))).flatten := by
            intro l
            induction l with
            | nil => rfl
            | cons x xs ih => simp [equalFractions, ih]
          simp only [hlen, beq_self_eq_true, pyAssert_true, ok_bind, heq]
          rfl
      | some k =>
        have hall : ∀ (c : Nat) (h : c < r.length), r[c] = k := by
          intro c h
          have e1 := hr.ratio c h
          simp only [Axis.ratio, hc, Except.ok.injEq] at e1
          exact e1.symm
        have hrep : r = List.replicate r.length k := by
          apply List.ext_getElem (by simp)
          intro n h1 h2
          rw [hall n h1]; simp
        have hk : 0 < k ∧ a.coarse * k = a.fine := by
          simp only [Axis.ratiosValid, hc, Bool.and_eq_true, beq_iff_eq, decide_eq_true_eq] at hv
          exact ⟨hv.1.1, hv.2⟩
        simp only [if_neg (show ¬ k = 0 by omega)]
        congr 1
        rw [hrep, List.map_replicate]
        have hflat : ∀ (m n : Nat) (x : Rat), (List.replicate m (List.replicate n x)).flatten =
            List.replicate (m * n) x := by
          intro m n x
          simp
        rw [hflat]
        congr 1
        have hl := hr.len
        have h2 : ((r.length * k.toNat : Nat) : Int) = a.fine := by
          push_cast
          rw [Int.toNat_of_nonneg (by omega), hl, hk.2]
        omega

example : (⟨5, 2, none, some [2, 3], true, none⟩ : Axis).proportionsForAxis =
    .ok [1/2, 1/2, 1/3, 1/3, 1/3] := by decide +kernel

/-- The property for any history: the proportions reported for a slice are as many as its ratio. -/
def ProportionsMatchRatios : Prop :=
  ∀ (fine coarse : Fin 3 → Int) (s₀ : FC) (ops : List Op), init fine coarse = .ok s₀ →
    ∀ (a : Fin 3) (c n : Int) (p : List Rat), 0 ≤ c → c < coarse a →
      (run s₀ ops).ratio a c = .ok n → ((run s₀ ops).ax a).proportion c = .ok p → (p.length : Int) = n

/-- Changing the ratios of an axis keeps the old unequal proportions in force. -/
theorem C37_stale_proportions_violated : ¬ ProportionsMatchRatios := by
  intro h
  have := h (fun _ => 4) (fun _ => 2)
    { ax := fun _ => ⟨4, 2, none, none, true, none⟩, map := none }
    [.setVec 0 [1, 3], .setProps 0 [[1], [1, 2, 1]], .setVec 0 [3, 1]] rfl
    0 0 3 [1] (by decide) (by decide) (by decide +kernel) (by decide +kernel)
  exact absurd this (by decide)

end Verif.FineCoarse
