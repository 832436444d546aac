import Verif.Stencil.Sums
import Mathlib.Data.Rat.Cast.Order
import Mathlib.Tactic.Positivity

/-!
# C178: what a stencil is.  C179: applying it as a convolution.  C180: applying it as a mean.
-/

namespace Verif.Stencil
open Verif.Py

variable {K : Type*} [Field K] [LinearOrder K]

/-! ### C178 -/

omit [LinearOrder K] in
/-- C178: two nodes are neighbours exactly if they are one side of a triangle apart in the plane, `r` being half the root of three. -/
theorem C178_adjacent [CharZero K] {t r : K} (ht : t ≠ 0) (hr : 4 * r ^ 2 = 3) (a b : Node) :
    Adj a b ↔ ((((a.2 : K) + ((a.1 % 2 : ℤ) : K) / 2) * t - ((b.2 : K) + ((b.1 % 2 : ℤ) : K) / 2) * t) ^ 2 + (r * a.1 * t - r * b.1 * t) ^ 2 = t ^ 2) := by
  have e : (((a.2 : K) + ((a.1 % 2 : ℤ) : K) / 2) * t - ((b.2 : K) + ((b.1 % 2 : ℤ) : K) / 2) * t) ^ 2 + (r * a.1 * t - r * b.1 * t) ^ 2 =
      t ^ 2 / 4 * (((twoX a - twoX b) ^ 2 + 3 * (a.1 - b.1) ^ 2 : ℤ) : K) := by
    unfold twoX
    push_cast
    rw [← hr]
    ring
  rw [e]
  unfold Adj
  have ht2 : t ^ 2 ≠ 0 := pow_ne_zero 2 ht
  constructor
  · intro h
    rw [h]
    push_cast
    field_simp
  · intro h
    have h1 : (((twoX a - twoX b) ^ 2 + 3 * (a.1 - b.1) ^ 2 : ℤ) : K) = ((4 : ℤ) : K) := by
      have h4 : (4 : K) ≠ 0 := by norm_num
      apply mul_left_cancel₀ (div_ne_zero ht2 h4)
      rw [h]
      push_cast
      field_simp
    exact_mod_cast h1

/-- C178: around each node there is a disc of nodes for a pattern, any two discs have the same nodes and weights, and all its weights together are the
middle of the pattern, six times the next, twelve times the one after, and so on. -/
theorem C178_disc {p : List K} (hp : 0 < p.length) (a : Node) : (∃ nodes w, Disc p a nodes w) ∧
    (∀ n1 w1 n2 w2, Disc p a n1 w1 → Disc p a n2 w2 → n1.Perm n2 ∧ ∀ b ∈ n1, w1 b = w2 b) ∧
    ∀ nodes w, Disc p a nodes w → (nodes.map w).sum = weightTotal p := by
  refine ⟨⟨_, _, visits_disc hp a.1 a.2⟩, fun n1 w1 n2 w2 h1 h2 => disc_perm h1 h2, fun nodes w h => ?_⟩
  unfold weightTotal
  rw [disc_total hp h, list_range_sum]
  obtain ⟨n, hn⟩ : ∃ n, p.length = n + 1 := ⟨p.length - 1, by omega⟩
  rw [hn, Finset.sum_range_succ']
  simp only [ringSize, Nat.succ_ne_zero, if_false, if_true, Nat.cast_one, one_mul, Nat.add_sub_cancel]
  rw [add_comm]
  congr 1
  apply Finset.sum_congr rfl
  intro k _
  push_cast
  ring

omit [LinearOrder K] in
theorem hexTotal_eq (p : List K) : hexTotal p = weightTotal p := by
  unfold hexTotal weightTotal
  have : ∀ (l : List ℕ) (f : ℕ → K) (a : K), l.foldl (fun t k => t + f k) a = a + (l.map f).sum := by
    intro l f
    induction l with
    | nil => intro a; simp
    | cons b l ih => intro a; rw [List.foldl_cons, ih, List.map_cons, List.sum_cons, add_assoc]
  exact this _ _ _

omit [LinearOrder K] in
theorem getD_map_mul (p : List K) (c : K) (k : ℕ) : (p.map fun x => x * c).getD k 0 = p.getD k 0 * c := by
  rw [List.getD_eq_getElem?_getD, List.getD_eq_getElem?_getD, List.getElem?_map]
  cases p[k]? <;> simp

theorem rings_scaled (p : List K) (c : K) : ∑ k ∈ Finset.range p.length, (ringSize k : K) * (p.map fun x => x * c).getD k 0 =
    c * ∑ k ∈ Finset.range p.length, (ringSize k : K) * p.getD k 0 := by
  rw [Finset.mul_sum]
  apply Finset.sum_congr rfl
  intro k _
  rw [getD_map_mul]
  ring

theorem rings_hexTotal {p : List K} (hp : 0 < p.length) : ∑ k ∈ Finset.range p.length, (ringSize k : K) * p.getD k 0 = hexTotal p := by
  rw [hexTotal_eq, ← (C178_disc hp (0, 0)).2.2 _ _ (visits_disc hp 0 0), disc_total hp (visits_disc hp 0 0)]

/-- C178: a stencil made with a value to normalize to has that value as the sum of its weights.  In flat mode the weights are in the proportions of
the pattern, otherwise the sums of the weights of rings are. -/
theorem C178_normalized [IsStrictOrderedRing K] {pattern : List (Option K)} {v : K} {flat : Bool} {p : List K} (h : newPattern pattern (some v) flat = .ok p) :
    p.length = pattern.length ∧ (∀ a nodes w, Disc p a nodes w → (nodes.map w).sum = v) ∧
    ∃ c, c ≠ 0 ∧ ∀ (k : ℕ) x, pattern[k]? = some (some x) → p[k]? = some (if flat then c * x else c * x / (if k = 0 then 1 else 6 * (k : K))) := by
  unfold newPattern at h
  by_cases h1 : pattern.length > 1
  swap
  · rw [if_pos h1] at h
    simp at h
  rw [if_neg (by simpa using h1)] at h
  by_cases h2 : pattern.any Option.isNone = true
  · rw [if_pos h2] at h
    simp at h
  rw [if_neg h2] at h
  generalize hq : (pattern.map fun x => x.getD 0) = q at h
  have hql : q.length = pattern.length := by rw [← hq]; simp
  have hqk : ∀ (k : ℕ) x, pattern[k]? = some (some x) → q[k]? = some x := by
    intro k x hk
    rw [← hq, List.getElem?_map, hk]
    rfl
  unfold normalized at h
  dsimp only at h
  by_cases hv : v = 0
  · rw [if_pos hv] at h
    simp at h
  rw [if_neg hv] at h
  cases flat with
  | true =>
    simp only [if_true] at h
    by_cases ht : hexTotal q = 0
    · rw [if_pos ht] at h
      simp at h
    rw [if_neg ht] at h
    simp only [Except.ok.injEq] at h
    subst h
    refine ⟨by simp [hql], fun a nodes w hd => ?_, v / hexTotal q, div_ne_zero hv ht, fun k x hk => ?_⟩
    · rw [disc_total (by simp; omega) hd, List.length_map, rings_scaled, rings_hexTotal (by omega)]
      field_simp
    · rw [List.getElem?_map, hqk k x hk]
      simp [mul_comm]
  | false =>
    simp only [Bool.false_eq_true, if_false] at h
    by_cases ht : q.sum = 0
    · rw [if_pos ht] at h
      simp at h
    rw [if_neg ht] at h
    simp only [Except.ok.injEq] at h
    subst h
    have hget : ∀ k : ℕ, ((q.map fun x => x * (v / q.sum)).mapIdx fun i x => if i = 0 then x else x / ((6 * i : ℕ) : K))[k]? =
        q[k]?.map fun x => if k = 0 then x * (v / q.sum) else x * (v / q.sum) / ((6 * k : ℕ) : K) := by
      intro k
      rw [List.getElem?_mapIdx, List.getElem?_map]
      cases q[k]? <;> rfl
    refine ⟨by simp [hql], fun a nodes w hd => ?_, v / q.sum, div_ne_zero hv ht, fun k x hk => ?_⟩
    · rw [disc_total (by simp; omega) hd, List.length_mapIdx, List.length_map]
      have : ∀ k ∈ Finset.range q.length, (ringSize k : K) *
          ((q.map fun x => x * (v / q.sum)).mapIdx fun i x => if i = 0 then x else x / ((6 * i : ℕ) : K)).getD k 0 = (v / q.sum) * q.getD k 0 := by
        intro k _
        rw [List.getD_eq_getElem?_getD, hget, List.getD_eq_getElem?_getD]
        cases q[k]? with
        | none => simp
        | some x =>
          unfold ringSize
          by_cases hk : k = 0
          · simp [hk, mul_comm]
          · have : ((6 * k : ℕ) : K) ≠ 0 := by
              rw [Nat.cast_ne_zero]
              omega
            simp only [if_neg hk, Option.map_some, Option.getD_some]
            field_simp
      rw [Finset.sum_congr rfl this, ← Finset.mul_sum, sum_getD]
      field_simp
    · rw [hget, hqk k x hk]
      simp only [Option.map_some, Option.some.injEq, Bool.false_eq_true, if_false]
      by_cases hk0 : k = 0
      · simp [hk0, mul_comm]
      · simp only [if_neg hk0]
        push_cast
        ring

/-- C178: without normalization the pattern is used as it is. -/
theorem C178_plain {pattern : List K} (h : 1 < pattern.length) (flat : Bool) : newPattern (pattern.map some) none flat = .ok pattern := by
  unfold newPattern normalized
  rw [if_neg (by simpa using h), if_neg (by simp)]
  simp

/-- C178: a stencil is refused exactly if the pattern is shorter than two or has a NaN, or if it is to be normalized and the value is nought or the sum
to be scaled is nought. -/
theorem C178_refused {pattern : List (Option K)} {normalize : Option K} {flat : Bool} :
    (∃ e, newPattern pattern normalize flat = .error e) ↔ pattern.length ≤ 1 ∨ none ∈ pattern ∨ ∃ v, normalize = some v ∧
      (v = 0 ∨ (flat = true ∧ weightTotal (pattern.map fun x => x.getD 0) = 0) ∨ (flat = false ∧ (pattern.map fun x => x.getD 0).sum = 0)) := by
  rw [← hexTotal_eq]
  unfold newPattern
  by_cases h1 : pattern.length > 1
  swap
  · rw [if_pos h1]
    exact ⟨fun _ => Or.inl (by omega), fun _ => ⟨_, rfl⟩⟩
  rw [if_neg (by simpa using h1)]
  by_cases h2 : pattern.any Option.isNone = true
  · rw [if_pos h2]
    refine ⟨fun _ => Or.inr (Or.inl ?_), fun _ => ⟨_, rfl⟩⟩
    rw [List.any_eq_true] at h2
    obtain ⟨x, hx, hn⟩ := h2
    rw [Option.isNone_iff_eq_none] at hn
    exact hn ▸ hx
  rw [if_neg h2]
  have h2' : none ∉ pattern := fun hx => h2 (List.any_eq_true.2 ⟨none, hx, rfl⟩)
  have h1' : ¬ pattern.length ≤ 1 := by omega
  unfold normalized
  cases normalize with
  | none => simp [h2', h1']
  | some v =>
    simp only [h2', h1', false_or]
    cases flat <;> by_cases hv : v = 0 <;> simp [hv]
    · by_cases ht : (pattern.map fun x => x.getD 0).sum = 0 <;> simp [ht]
    · by_cases ht : hexTotal (pattern.map fun x => x.getD 0) = 0 <;> simp [ht]

/-- C178: the ready made patterns: constant ones, and ones which fall evenly from the centre to the outermost ring. -/
theorem C178_patterns [IsStrictOrderedRing K] {n : ℕ} (hn : 1 < n) (c centre outer : K) :
    constantPattern n c = .ok (List.replicate n (some c)) ∧
    (∃ l, linearPattern (K := K) n = .ok l ∧ l.length = n ∧ ∀ k < n, l[k]? = some (some ((n : K) - k))) ∧
    ∃ l, linearBetween n centre outer = .ok l ∧ l.length = n ∧ l[0]? = some (some centre) ∧ l[n - 1]? = some (some outer) ∧
      ∀ k < n, l[k]? = some (some (centre - (k : K) * ((centre - outer) / ((n : K) - 1)))) := by
  have h1 : ((n - 1 : ℕ) : K) = (n : K) - 1 := by
    rw [Nat.cast_sub (by omega)]
    simp
  have hne : (n : K) - 1 ≠ 0 := by
    rw [← h1, Nat.cast_ne_zero]
    omega
  have get : ∀ (f : ℕ → Option K) k, k < n → ((List.range n).map f).reverse[k]? = some (f (n - 1 - k)) := by
    intro f k hk
    rw [List.getElem?_reverse (by simpa using hk), List.length_map, List.length_range, List.getElem?_map, List.getElem?_range (by omega)]
    rfl
  have key : ∀ k < n, ((List.range n).map fun (k : ℕ) => some ((k : K) * (centre - outer) / ((n - 1 : ℕ) : K) + outer)).reverse[k]? =
      some (some (centre - (k : K) * ((centre - outer) / ((n : K) - 1)))) := by
    intro k hk
    rw [get _ k hk]
    have : ((n - 1 - k : ℕ) : K) = (n : K) - 1 - k := by
      rw [Nat.cast_sub (by omega), h1]
    rw [this, h1]
    congr 2
    field_simp
    ring
  refine ⟨by unfold constantPattern; rw [if_neg (by simpa using hn)], ⟨_, by unfold linearPattern; rw [if_neg (by simpa using hn)], by simp, ?_⟩,
    ⟨_, by unfold linearBetween; rw [if_neg (by simpa using hn)], by simp, ?_, ?_, key⟩⟩
  · intro k hk
    rw [get _ k hk]
    have : ((n - 1 - k + 1 : ℕ) : K) = (n : K) - k := by
      rw [show n - 1 - k + 1 = n - k by omega, Nat.cast_sub (by omega)]
    rw [this]
  · rw [key 0 (by omega)]
    simp
  · rw [key (n - 1) (by omega), h1]
    congr 2
    field_simp
    ring

/-! ### The mesh with its border -/

theorem borderOf_even (n : ℕ) : borderOf n % 2 = 0 ∧ n ≤ borderOf n := by
  unfold borderOf
  split_ifs <;> omega

/-- The node moved by the border. -/
def shifted (B : ℕ) (b : Node) : Node := (b.1 + B, b.2 + B)

theorem twoX_shifted {B : ℕ} (hB : B % 2 = 0) (b : Node) : twoX (shifted B b) = twoX b + 2 * B := by
  unfold shifted twoX
  dsimp only
  omega

theorem hd_shifted {B : ℕ} (hB : B % 2 = 0) (a b : Node) : hd (shifted B a) (shifted B b) = hd a b := by
  unfold hd
  rw [twoX_shifted hB, twoX_shifted hB]
  have h1 : ((shifted B a).1 - (shifted B b).1) = a.1 - b.1 := by
    unfold shifted
    dsimp only
    omega
  have h2 : (twoX a + 2 * (B : ℤ) - (twoX b + 2 * B)) = twoX a - twoX b := by omega
  rw [h1, h2]

theorem shifted_inj (B : ℕ) : Function.Injective (shifted B) := by
  intro a b h
  unfold shifted at h
  simp only [Prod.mk.injEq] at h
  exact Prod.ext (by omega) (by omega)

omit [Field K] [LinearOrder K] in
/-- The disc moved by an even border. -/
theorem disc_shifted {p : List K} {B : ℕ} (hB : B % 2 = 0) {a : Node} {nodes : List Node} {w : Node → K} (h : Disc p a nodes w) :
    Disc p (shifted B a) (nodes.map (shifted B)) fun b => w (b.1 - B, b.2 - B) := by
  have back : ∀ b : Node, shifted B (b.1 - B, b.2 - B) = b := by
    intro b
    unfold shifted
    exact Prod.ext (by dsimp only; omega) (by dsimp only; omega)
  refine ⟨h.nodup.map (shifted_inj B), fun b => ?_, fun b k hk hs => ?_⟩
  · rw [List.mem_map]
    constructor
    · rintro ⟨c, hc, rfl⟩
      obtain ⟨k, hk, hs⟩ := (h.mem c).1 hc
      exact ⟨k, hk, by rw [steps_iff, hd_shifted hB]; exact steps_iff.1 hs⟩
    · rintro ⟨k, hk, hs⟩
      refine ⟨(b.1 - B, b.2 - B), (h.mem _).2 ⟨k, hk, ?_⟩, back b⟩
      rw [steps_iff, ← hd_shifted hB, back]
      exact steps_iff.1 hs
  · apply h.weight _ k hk
    rw [steps_iff, ← hd_shifted hB, back]
    exact steps_iff.1 hs

omit [Field K] [LinearOrder K] in
/-- Within the border the array has the value of the mesh, or that of the border. -/
theorem look_ok {p : List K} {m : TM K} {bv : Option K} {j i : ℕ} (hj : j < m.nj) (hi : i < m.ni) {b : Node} (hb : hd ((j : ℤ), (i : ℤ)) b < p.length) :
    pyAt (m.nj + 2 * borderOf p.length) (m.ni + 2 * borderOf p.length) (bordered (borderOf p.length) m.nj m.ni bv m.z)
      (shifted (borderOf p.length) b).1 (shifted (borderOf p.length) b).2 = .ok (valueAt m bv b) := by
  obtain ⟨-, hB⟩ := borderOf_even p.length
  generalize borderOf p.length = B at *
  have hb' : max ((j : ℤ) - b.1).natAbs ((((2 * (i : ℤ) + (j : ℤ) % 2) - (2 * b.2 + b.1 % 2)).natAbs + ((j : ℤ) - b.1).natAbs) / 2) < p.length := hb
  have h1 : -(B : ℤ) ≤ b.1 ∧ b.1 < (m.nj : ℤ) + B ∧ -(B : ℤ) ≤ b.2 ∧ b.2 < (m.ni : ℤ) + B := by
    have e1 : ((j : ℤ) - b.1).natAbs < p.length := by omega
    have e2 : ((2 * (i : ℤ) + (j : ℤ) % 2) - (2 * b.2 + b.1 % 2)).natAbs + ((j : ℤ) - b.1).natAbs < 2 * p.length := by omega
    generalize p.length = n at *
    refine ⟨by omega, by omega, by omega, by omega⟩
  unfold pyAt shifted
  dsimp only
  rw [if_neg (show ¬ (b.1 + (B : ℤ) < 0) by omega), if_neg (show ¬ (b.2 + (B : ℤ) < 0) by omega), if_pos (by push_cast; omega)]
  unfold bordered valueAt
  have e1 : (B ≤ (b.1 + (B : ℤ)).toNat ∧ (b.1 + (B : ℤ)).toNat < B + m.nj ∧ B ≤ (b.2 + (B : ℤ)).toNat ∧ (b.2 + (B : ℤ)).toNat < B + m.ni) ↔
      (0 ≤ b.1 ∧ b.1 < m.nj ∧ 0 ≤ b.2 ∧ b.2 < m.ni) := by omega
  have e2 : (b.1 + (B : ℤ)).toNat - B = b.1.toNat := by omega
  have e3 : (b.2 + (B : ℤ)).toNat - B = b.2.toNat := by omega
  simp only [e1, e2, e3]

theorem visits_border {p : List K} (hp : 0 < p.length) {j i : ℕ} : ∃ nodes, Disc p ((j : ℤ), (i : ℤ)) nodes (fun b => p.getD (hd ((j : ℤ), (i : ℤ)) b) 0) ∧
    visits p (j + borderOf p.length : ℕ) (i + borderOf p.length : ℕ) =
      (nodes.map (shifted (borderOf p.length))).map fun b => (b, some (p.getD (hd ((j : ℤ), (i : ℤ)) (b.1 - borderOf p.length, b.2 - borderOf p.length)) 0)) := by
  obtain ⟨hB, -⟩ := borderOf_even p.length
  generalize hBB : borderOf p.length = B at *
  refine ⟨((visits p (j + B : ℕ) (i + B : ℕ)).map Prod.fst).map (fun b => (b.1 - B, b.2 - B)), ?_, ?_⟩
  · have h := visits_disc hp ((j + B : ℕ) : ℤ) ((i + B : ℕ) : ℤ)
    have e : (((j + B : ℕ) : ℤ), ((i + B : ℕ) : ℤ)) = shifted B ((j : ℤ), (i : ℤ)) := by
      unfold shifted
      push_cast
      rfl
    have inj : Function.Injective (fun b : Node => ((b.1 - B, b.2 - B) : Node)) := by
      intro a b h
      simp only [Prod.mk.injEq] at h
      exact Prod.ext (by omega) (by omega)
    have fwd : ∀ b : Node, (((shifted B b).1 - B, (shifted B b).2 - B) : Node) = b := by
      intro b
      unfold shifted
      exact Prod.ext (by dsimp only; omega) (by dsimp only; omega)
    refine ⟨h.nodup.map inj, fun b => ?_, fun b k hk hs => ?_⟩
    · rw [List.mem_map]
      constructor
      · rintro ⟨c, hc, rfl⟩
        obtain ⟨k, hk, hs⟩ := (h.mem c).1 hc
        refine ⟨k, hk, ?_⟩
        rw [steps_iff] at hs ⊢
        rw [← hs, e, ← hd_shifted hB]
        congr 1
        unfold shifted
        exact Prod.ext (by dsimp only; omega) (by dsimp only; omega)
      · rintro ⟨k, hk, hs⟩
        refine ⟨shifted B b, (h.mem _).2 ⟨k, hk, ?_⟩, fwd b⟩
        rw [steps_iff] at hs ⊢
        rw [e, hd_shifted hB]
        exact hs
    · rw [steps_iff.1 hs, List.getElem?_eq_getElem hk, List.getD_eq_getElem _ _ hk]
  · conv_lhs => rw [visits_eq hp]
    rw [List.map_map, List.map_map, List.map_map, List.map_map]
    apply List.map_congr_left
    rintro ⟨b, s⟩ _
    have e1 : shifted B ((b.1 - (B : ℤ), b.2 - (B : ℤ)) : Node) = b := by
      unfold shifted
      exact Prod.ext (by dsimp only; omega) (by dsimp only; omega)
    show (b, some (p.getD (hd (((j + B : ℕ) : ℤ), ((i + B : ℕ) : ℤ)) b) 0)) = _
    simp only [Function.comp]
    rw [e1, ← hd_shifted hB ((j : ℤ), (i : ℤ)), e1]
    unfold shifted
    push_cast
    rfl

theorem applied_simple {p : List K} (hp : 0 < p.length) {m : TM K} {bv : Option K} {j i : ℕ} (hj : j < m.nj) (hi : i < m.ni)
    {nodes : List Node} {w : Node → K} (hd' : Disc p ((j : ℤ), (i : ℤ)) nodes w) :
    appliedAt p m false bv j i = .ok (if ∀ b ∈ nodes, (valueAt m bv b).isSome then some (nodes.map fun b => w b * (valueAt m bv b).getD 0).sum else none) := by
  obtain ⟨ns, hD, hv⟩ := visits_border hp (j := j) (i := i)
  have hd1 := hd'
  obtain ⟨hperm, hw⟩ := disc_perm hd' hD
  unfold appliedAt
  dsimp only
  rw [hv, if_neg (by simp), simple_sum (val := fun b => valueAt m bv (b.1 - borderOf p.length, b.2 - borderOf p.length))]
  · have fwd : ∀ b : Node, (((shifted (borderOf p.length) b).1 - (borderOf p.length : ℤ), (shifted (borderOf p.length) b).2 - (borderOf p.length : ℤ)) : Node) = b := by
      intro b
      unfold shifted
      exact Prod.ext (by dsimp only; omega) (by dsimp only; omega)
    simp only [List.mem_map, forall_exists_index, and_imp, forall_apply_eq_imp_iff₂, List.map_map, zero_add]
    simp only [Function.comp_def, fwd]
    have e1 : (∀ a ∈ ns, (valueAt m bv a).isSome) ↔ ∀ a ∈ nodes, (valueAt m bv a).isSome :=
      ⟨fun h a ha => h a (hperm.mem_iff.1 ha), fun h a ha => h a (hperm.mem_iff.2 ha)⟩
    have e2 : (ns.map fun b => p.getD (hd ((j : ℤ), (i : ℤ)) b) 0 * (valueAt m bv b).getD 0).sum = (nodes.map fun b => w b * (valueAt m bv b).getD 0).sum := by
      rw [← (hperm.map _).sum_eq]
      apply congrArg List.sum
      apply List.map_congr_left
      intro b hb
      rw [hw b hb]
    simp only [e1, e2]
  · intro b hb
    obtain ⟨c, hc, rfl⟩ := List.mem_map.1 hb
    obtain ⟨k, hk, hs⟩ := (hD.mem c).1 hc
    rw [look_ok hj hi (b := c) (by rw [steps_iff.1 hs]; exact hk)]
    congr 2
    unfold shifted
    exact Prod.ext (by dsimp only; omega) (by dsimp only; omega)

theorem applied_mean {p : List K} (hp : 0 < p.length) {m : TM K} {bv : Option K} {j i : ℕ} (hj : j < m.nj) (hi : i < m.ni)
    {nodes : List Node} {w : Node → K} (hd' : Disc p ((j : ℤ), (i : ℤ)) nodes w) :
    appliedAt p m true bv j i = .ok (if ((nodes.filter fun b => (valueAt m bv b).isSome).map w).sum ≠ 0 then
      some (((nodes.filter fun b => (valueAt m bv b).isSome).map fun b => w b * (valueAt m bv b).getD 0).sum /
        ((nodes.filter fun b => (valueAt m bv b).isSome).map w).sum) else none) := by
  obtain ⟨ns, hD, hv⟩ := visits_border hp (j := j) (i := i)
  obtain ⟨hperm, hw⟩ := disc_perm hd' hD
  unfold appliedAt
  dsimp only
  rw [hv, if_pos rfl, nanmean_sum (val := fun b => valueAt m bv (b.1 - borderOf p.length, b.2 - borderOf p.length))]
  · have fwd : ∀ b : Node, (((shifted (borderOf p.length) b).1 - (borderOf p.length : ℤ), (shifted (borderOf p.length) b).2 - (borderOf p.length : ℤ)) : Node) = b := by
      intro b
      unfold shifted
      exact Prod.ext (by dsimp only; omega) (by dsimp only; omega)
    simp only [List.filter_map, List.map_map, zero_add]
    simp only [Function.comp_def, fwd]
    have e : ∀ g : Node → K, ((ns.filter fun b => (valueAt m bv b).isSome).map fun b => p.getD (hd ((j : ℤ), (i : ℤ)) b) 0 * g b).sum =
        ((nodes.filter fun b => (valueAt m bv b).isSome).map fun b => w b * g b).sum := by
      intro g
      rw [← ((hperm.filter _).map _).sum_eq]
      apply congrArg List.sum
      apply List.map_congr_left
      intro b hb
      rw [hw b (List.mem_of_mem_filter hb)]
    have e1 := e fun _ => 1
    simp only [mul_one] at e1
    have e2 := e fun b => (valueAt m bv b).getD 0
    rw [e2, e1]
  · intro b hb
    obtain ⟨c, hc, rfl⟩ := List.mem_map.1 hb
    obtain ⟨k, hk, hs⟩ := (hD.mem c).1 hc
    rw [look_ok hj hi (b := c) (by rw [steps_iff.1 hs]; exact hk)]
    congr 2
    unfold shifted
    exact Prod.ext (by dsimp only; omega) (by dsimp only; omega)

/-- What is the same in the mesh made by applying a stencil. -/
structure SameMesh (m m' : TM K) : Prop where
  t : m'.t = m.t
  nj : m'.nj = m.nj
  ni : m'.ni = m.ni
  origin : m'.origin = m.origin
  zUom : m'.zUom = m.zUom
  role : m'.role = m.role
  crs : m'.crs = m.crs

theorem apply_ok {p : List K} {m : TM K} (hm : Made m) {hn : Bool} {bv : Option K} {pres : Bool} {title : Option String} (val : ℕ → ℕ → Option K)
    (h : ∀ j < m.nj, ∀ i < m.ni, appliedAt p m hn bv j i = .ok (val j i)) :
    ∃ m', apply p m hn bv pres title = .ok m' ∧ SameMesh m m' ∧ m'.title = title ∧
      ∀ j < m.nj, ∀ i < m.ni, m'.z j i = if pres = true ∧ m.z j i = none then none else val j i := by
  unfold apply
  rw [if_neg]
  · unfold newTM
    rw [if_neg (by simpa using hm.t), if_neg (by simpa using ⟨hm.nj, hm.ni⟩)]
    have ho : (m.origin.map fun o => (o.1, o.2.1, (0 : K))) = m.origin := by
      cases e : m.origin with
      | none => rfl
      | some o =>
        have := hm.origin o e
        obtain ⟨a, b, c⟩ := o
        simp only at this
        simp [this]
    have hz : (m.origin.map fun o => o.2.2).getD 0 = 0 := by
      cases e : m.origin with
      | none => rfl
      | some o => exact hm.origin o e
    refine ⟨_, rfl, ⟨rfl, rfl, rfl, ho, rfl, rfl, rfl⟩, rfl, fun j hj i hi => ?_⟩
    simp only [hz, add_zero, Option.map_id', h j hj i hi, Option.isNone_iff_eq_none]
  · rw [not_not, List.all_eq_true]
    intro j hj
    rw [List.all_eq_true]
    intro i hi
    rw [h j (by simpa using hj) i (by simpa using hi)]
    rfl

/-! ### C179 -/

/-- C179: applied as a simple convolution, a stencil gives a mesh with the same nodes in the plane, in which each z is the sum of those around it, times the
weights of their rings, the border value standing for those beyond the mesh; it is NaN if any of these is, or if that of the node is and NaN is to be
preserved. -/
theorem C179_convolution {p : List K} (hp : 1 < p.length) {m : TM K} (hm : Made m) (bv : Option K) (pres : Bool) (title : Option String) :
    ∃ m', apply p m false bv pres title = .ok m' ∧ SameMesh m m' ∧ m'.title = title ∧
      ∀ j < m.nj, ∀ i < m.ni, ∀ nodes w, Disc p ((j : ℤ), (i : ℤ)) nodes w →
        m'.z j i = if pres = true ∧ m.z j i = none ∨ ∃ b ∈ nodes, valueAt m bv b = none then none
          else some (nodes.map fun b => w b * (valueAt m bv b).getD 0).sum := by
  obtain ⟨m', h1, h2, h3, h4⟩ := apply_ok hm (hn := false) (bv := bv) (pres := pres) (title := title) (p := p)
    (fun j i => if ∀ b ∈ (visits p (j : ℤ) (i : ℤ)).map Prod.fst, (valueAt m bv b).isSome then
      some ((((visits p (j : ℤ) (i : ℤ)).map Prod.fst).map fun b => p.getD (hd ((j : ℤ), (i : ℤ)) b) 0 * (valueAt m bv b).getD 0).sum) else none)
    (fun j hj i hi => applied_simple (by omega) hj hi (visits_disc (by omega) _ _))
  refine ⟨m', h1, h2, h3, fun j hj i hi nodes w hD => ?_⟩
  rw [h4 j hj i hi]
  have e := (applied_simple (by omega) hj hi (visits_disc (by omega) (j : ℤ) (i : ℤ)) (bv := bv)).symm.trans (applied_simple (by omega) hj hi hD)
  simp only [Except.ok.injEq] at e
  rw [e]
  by_cases hA : pres = true ∧ m.z j i = none
  · rw [if_pos hA, if_pos (Or.inl hA)]
  · rw [if_neg hA]
    by_cases hB : ∀ b ∈ nodes, (valueAt m bv b).isSome
    · rw [if_pos hB, if_neg]
      rintro (h | ⟨b, hb, hn⟩)
      · exact hA h
      · have := hB b hb
        simp [hn] at this
    · rw [if_neg hB, if_pos]
      right
      push Not at hB
      obtain ⟨b, hb, hn⟩ := hB
      exact ⟨b, hb, by simpa using hn⟩

/-- C179 (violated): a mesh made by applying a stencil without giving a title has none; it is not inherited. -/
theorem C179_title_violated {p : List K} {m m' : TM K} {x : String} (ht : m.title = some x) {hn : Bool} {bv : Option K} {pres : Bool}
    (h : apply p m hn bv pres none = .ok m') : m'.title ≠ m.title := by
  unfold apply newTM at h
  split_ifs at h
  simp only [Except.ok.injEq] at h
  subst h
  simp [ht]

/-! ### C180 -/

/-- C180: applied as a mean, a stencil gives a mesh with the same nodes in the plane, in which each z is the weighted mean of those around it which are not
NaN, the border value standing for those beyond the mesh; it is NaN if the weights of these together are nought, or if that of the node is and NaN is to be
preserved. -/
theorem C180_mean {p : List K} (hp : 1 < p.length) {m : TM K} (hm : Made m) (bv : Option K) (pres : Bool) (title : Option String) :
    ∃ m', apply p m true bv pres title = .ok m' ∧ SameMesh m m' ∧ m'.title = title ∧
      ∀ j < m.nj, ∀ i < m.ni, ∀ nodes w, Disc p ((j : ℤ), (i : ℤ)) nodes w →
        m'.z j i = if pres = true ∧ m.z j i = none ∨ ((nodes.filter fun b => (valueAt m bv b).isSome).map w).sum = 0 then none
          else some (((nodes.filter fun b => (valueAt m bv b).isSome).map fun b => w b * (valueAt m bv b).getD 0).sum /
            ((nodes.filter fun b => (valueAt m bv b).isSome).map w).sum) := by
  obtain ⟨m', h1, h2, h3, h4⟩ := apply_ok hm (hn := true) (bv := bv) (pres := pres) (title := title) (p := p) _
    (fun j hj i hi => applied_mean (by omega) hj hi (visits_disc (by omega) _ _))
  refine ⟨m', h1, h2, h3, fun j hj i hi nodes w hD => ?_⟩
  rw [h4 j hj i hi]
  have e := (applied_mean (by omega) hj hi (visits_disc (by omega) (j : ℤ) (i : ℤ)) (bv := bv)).symm.trans (applied_mean (by omega) hj hi hD)
  simp only [Except.ok.injEq] at e
  rw [e]
  by_cases hA : pres = true ∧ m.z j i = none
  · rw [if_pos hA, if_pos (Or.inl hA)]
  · rw [if_neg hA]
    by_cases hB : ((nodes.filter fun b => (valueAt m bv b).isSome).map w).sum = 0
    · rw [if_neg (by simpa using hB), if_pos (Or.inr hB)]
    · rw [if_pos hB, if_neg]
      rintro (h | h)
      · exact hA h
      · exact hB h

/-- C180: if no weight is negative, a mean lies between any bounds of the values around the node, so that no value beyond those there are is made. -/
theorem C180_bounds [IsStrictOrderedRing K] {p : List K} (hp : 1 < p.length) (hpos : ∀ x ∈ p, 0 ≤ x) {m : TM K} (hm : Made m) {bv : Option K} {pres : Bool}
    {title : Option String} {m' : TM K} (h : apply p m true bv pres title = .ok m') {j i : ℕ} (hj : j < m.nj) (hi : i < m.ni) {lo hi' : K}
    (hb : ∀ b k v, k < p.length → Steps k ((j : ℤ), (i : ℤ)) b → valueAt m bv b = some v → lo ≤ v ∧ v ≤ hi') {v : K} (hv : m'.z j i = some v) : lo ≤ v ∧ v ≤ hi' := by
  obtain ⟨m'', h1, -, -, h4⟩ := C180_mean hp hm bv pres title
  rw [h, Except.ok.injEq] at h1
  subst h1
  obtain ⟨nodes, w, hD⟩ : ∃ nodes w, Disc p ((j : ℤ), (i : ℤ)) nodes w := ⟨_, _, visits_disc (by omega) (j : ℤ) (i : ℤ)⟩
  rw [h4 j hj i hi _ _ hD] at hv
  split_ifs at hv with hc
  push Not at hc
  have hw : ∀ b ∈ nodes.filter fun b => (valueAt m bv b).isSome, 0 ≤ w b ∧ lo ≤ (valueAt m bv b).getD 0 ∧ (valueAt m bv b).getD 0 ≤ hi' := by
    intro b hb'
    have hmem := List.mem_of_mem_filter hb'
    obtain ⟨k, hk, hs⟩ := (hD.mem b).1 hmem
    have e := hD.weight b k hk hs
    have hsome : (valueAt m bv b).isSome := by simpa using List.of_mem_filter hb'
    obtain ⟨x, hx⟩ := Option.isSome_iff_exists.1 hsome
    obtain ⟨h5, h6⟩ := hb b k x hk hs hx
    rw [hx]
    exact ⟨hpos _ (List.mem_of_getElem? e), h5, h6⟩
  simp only [Option.some.injEq] at hv
  generalize (nodes.filter fun b => (valueAt m bv b).isSome) = ns at *
  have hsum : ∀ ns : List Node, (∀ b ∈ ns, 0 ≤ w b ∧ lo ≤ (valueAt m bv b).getD 0 ∧ (valueAt m bv b).getD 0 ≤ hi') →
      0 ≤ (ns.map w).sum ∧ lo * (ns.map w).sum ≤ (ns.map fun b => w b * (valueAt m bv b).getD 0).sum ∧
        (ns.map fun b => w b * (valueAt m bv b).getD 0).sum ≤ hi' * (ns.map w).sum := by
    intro ns
    induction ns with
    | nil => intro _; simp
    | cons b ns ih =>
      intro hb
      obtain ⟨a1, a2, a3⟩ := hb b (by simp)
      obtain ⟨b1, b2, b3⟩ := ih fun c hc => hb c (by simp [hc])
      simp only [List.map_cons, List.sum_cons]
      refine ⟨by linarith, ?_, ?_⟩
      · nlinarith [mul_le_mul_of_nonneg_left a2 a1]
      · nlinarith [mul_le_mul_of_nonneg_left a3 a1]
  obtain ⟨s1, s2, s3⟩ := hsum ns hw
  have spos : 0 < (ns.map w).sum := lt_of_le_of_ne s1 (Ne.symm hc.2)
  rw [← hv]
  exact ⟨(le_div_iff₀ spos).2 s2, (div_le_iff₀ spos).2 s3⟩

/-- C180: with positive weights and a NaN border there is a mean wherever the mesh has a value at a node which the stencil covers, and nowhere else; so a gap is
filled just as far as the stencil reaches, unless NaN is preserved. -/
theorem C180_defined [IsStrictOrderedRing K] {p : List K} (hp : 1 < p.length) (hpos : ∀ x ∈ p, 0 < x) {m : TM K} (hm : Made m) {pres : Bool}
    {title : Option String} {m' : TM K} (h : apply p m true none pres title = .ok m') {j i : ℕ} (hj : j < m.nj) (hi : i < m.ni) :
    (m'.z j i).isSome ↔ (pres = true → (m.z j i).isSome) ∧ ∃ b k, k < p.length ∧ Steps k ((j : ℤ), (i : ℤ)) b ∧ Inside m b ∧ (m.z b.1.toNat b.2.toNat).isSome := by
  obtain ⟨m'', h1, -, -, h4⟩ := C180_mean hp hm none pres title
  rw [h, Except.ok.injEq] at h1
  subst h1
  obtain ⟨nodes, w, hD⟩ : ∃ nodes w, Disc p ((j : ℤ), (i : ℤ)) nodes w := ⟨_, _, visits_disc (by omega) (j : ℤ) (i : ℤ)⟩
  rw [h4 j hj i hi _ _ hD]
  have hval : ∀ b, (valueAt m none b).isSome ↔ Inside m b ∧ (m.z b.1.toNat b.2.toNat).isSome := by
    intro b
    unfold valueAt Inside
    by_cases hb : 0 ≤ b.1 ∧ b.1 < m.nj ∧ 0 ≤ b.2 ∧ b.2 < m.ni
    · rw [if_pos hb]
      exact ⟨fun h => ⟨hb, h⟩, fun h => h.2⟩
    · rw [if_neg hb]
      simp [hb]
  have hsum : ∀ ns : List Node, (∀ b ∈ ns, 0 < w b) → ((ns.map w).sum = 0 ↔ ns = []) := by
    intro ns
    induction ns with
    | nil => intro _; simp
    | cons b ns ih =>
      intro hb
      have hb0 := hb b (by simp)
      have : 0 ≤ (ns.map w).sum := List.sum_nonneg fun x hx => by
        obtain ⟨c, hc, rfl⟩ := List.mem_map.1 hx
        exact (hb c (by simp [hc])).le
      simp only [List.map_cons, List.sum_cons, reduceCtorEq, iff_false]
      linarith
  have hnil := hsum (nodes.filter fun b => (valueAt m none b).isSome) (fun b hb => by
    obtain ⟨k, hk, hs⟩ := (hD.mem b).1 (List.mem_of_mem_filter hb)
    exact hpos _ (List.mem_of_getElem? (hD.weight b k hk hs)))
  simp only [hnil]
  constructor
  · intro hsome
    split_ifs at hsome with hc
    · simp at hsome
    push Not at hc
    refine ⟨fun hpr => Option.isSome_iff_ne_none.2 (hc.1 hpr), ?_⟩
    obtain ⟨b, hb⟩ := List.exists_mem_of_ne_nil _ hc.2
    obtain ⟨k, hk, hs⟩ := (hD.mem b).1 (List.mem_of_mem_filter hb)
    have hbs : (valueAt m none b).isSome := by simpa using List.of_mem_filter hb
    exact ⟨b, k, hk, hs, (hval b).1 hbs⟩
  · rintro ⟨h5, b, k, hk, hs, hin⟩
    rw [if_neg]
    · rfl
    · rintro (⟨h6, h7⟩ | h6)
      · have := h5 h6
        simp [h7] at this
      · have : b ∈ nodes.filter fun b => (valueAt m none b).isSome :=
          List.mem_filter.2 ⟨(hD.mem b).2 ⟨k, hk, hs⟩, (hval b).2 hin⟩
        rw [h6] at this
        simp at this

/-- C180: a plane is not changed by smoothing.  If the values at all nodes covered, none beyond the mesh, lie in a plane over x and y, and the weights together
are not nought, the mean is the value at the node. -/
theorem C180_plane [IsStrictOrderedRing K] {p : List K} (hp : 1 < p.length) {m : TM K} (hm : Made m) {bv : Option K} {pres : Bool}
    {title : Option String} {m' : TM K} (h : apply p m true bv pres title = .ok m') {j i : ℕ} (hj : j < m.nj) (hi : i < m.ni) {c gx gy : K}
    (hplane : ∀ b k, k < p.length → Steps k ((j : ℤ), (i : ℤ)) b → Inside m b ∧ m.z b.1.toNat b.2.toNat = some (c + gx * (twoX b : K) + gy * (b.1 : K)))
    (hne : weightTotal p ≠ 0) : m'.z j i = m.z j i := by
  rw [← hexTotal_eq] at hne
  obtain ⟨m'', h1, -, -, h4⟩ := C180_mean hp hm bv pres title
  rw [h, Except.ok.injEq] at h1
  subst h1
  obtain ⟨nodes, w, hD⟩ : ∃ nodes w, Disc p ((j : ℤ), (i : ℤ)) nodes w := ⟨_, _, visits_disc (by omega) (j : ℤ) (i : ℤ)⟩
  rw [h4 j hj i hi _ _ hD]
  have htot : (nodes.map w).sum = hexTotal p := by
    rw [disc_total (by omega) hD, rings_hexTotal (by omega)]
  have hval : ∀ b ∈ nodes, valueAt m bv b = some (c + gx * (twoX b : K) + gy * (b.1 : K)) := by
    intro b hb
    obtain ⟨k, hk, hs⟩ := (hD.mem b).1 hb
    obtain ⟨h5, h6⟩ := hplane b k hk hs
    unfold valueAt
    rw [if_pos (show 0 ≤ b.1 ∧ b.1 < m.nj ∧ 0 ≤ b.2 ∧ b.2 < m.ni from h5), h6]
  have hfil : (nodes.filter fun b => (valueAt m bv b).isSome) = nodes := by
    rw [List.filter_eq_self]
    intro b hb
    rw [hval b hb]
    rfl
  have hself : m.z j i = some (c + gx * (twoX ((j : ℤ), (i : ℤ)) : K) + gy * (j : K)) := by
    have := (hplane ((j : ℤ), (i : ℤ)) 0 (by omega) ⟨.nil _, by simp⟩).2
    simpa using this
  rw [hfil, htot, if_neg (by rintro (h5 | h5); · rw [hself] at h5; simp at h5
                             · exact hne h5), hself]
  have hx := odd_sum hD (fun b => ((twoX b : K) - (twoX ((j : ℤ), (i : ℤ)) : K))) (fun b => by rw [across_x]; push_cast; ring)
  have hy := odd_sum hD (fun b => ((b.1 : K) - (j : K))) (fun b => by rw [across_j]; push_cast; ring)
  have hsplit : ∀ ns : List Node, (∀ b ∈ ns, valueAt m bv b = some (c + gx * (twoX b : K) + gy * (b.1 : K))) →
      (ns.map fun b => w b * (valueAt m bv b).getD 0).sum = (c + gx * (twoX ((j : ℤ), (i : ℤ)) : K) + gy * (j : K)) * (ns.map w).sum +
        gx * (ns.map fun b => w b * ((twoX b : K) - (twoX ((j : ℤ), (i : ℤ)) : K))).sum + gy * (ns.map fun b => w b * ((b.1 : K) - (j : K))).sum := by
    intro ns
    induction ns with
    | nil => intro _; simp
    | cons b ns ih =>
      intro hb
      simp only [List.map_cons, List.sum_cons]
      rw [ih fun c hc => hb c (by simp [hc]), hb b (by simp)]
      simp only [Option.getD_some]
      ring
  rw [hsplit nodes hval, hx, hy, htot]
  congr 1
  field_simp
  ring

/-! ### Examples -/

/-- A mesh of four by four nodes with one gap. -/
def exMesh : TM ℚ := ⟨10, 4, 4, some (5, 6, 0), none, some "top", "map", 1, fun j i => if j = 1 ∧ i = 2 then none else some (2 * i + (j % 2 : ℕ) + 3 * j)⟩

theorem exMesh_made : Made exMesh := ⟨by decide +kernel, by decide, by decide, fun o h => by simp only [exMesh, Option.some.injEq] at h; rw [← h]⟩

example : (apply [2, (1 : ℚ)] exMesh true none false none).toOption.map (fun m => ((List.range 4).map fun i => m.z 1 i, m.z 2 0)) =
    some ([some (30 / 7), some (40 / 7), some 8, some (19 / 2)], some (34 / 5)) := by decide +kernel

example : (newPattern [some (1 : ℚ), some 1] (some 1) true).toOption = some [1 / 7, 1 / 7] ∧
    (newPattern [some (1 : ℚ), some 1] (some 1) false).toOption = some [1 / 2, 1 / 12] ∧
    (newPattern [some (6 : ℚ), some (-1)] (some 1) true).toOption = none := by decide +kernel

example : Steps 2 (1, 1) (3, 2) ∧ Steps 1 (1, 1) (2, 2) ∧ Steps 2 (1, 1) (2, 0) := by
  simp only [steps_iff]
  decide

end Verif.Stencil
