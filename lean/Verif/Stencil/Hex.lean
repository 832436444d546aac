import Verif.Stencil.Spec
import Mathlib.Tactic.Linarith
import Mathlib.Tactic.IntervalCases

/-!
# The number of sides between two nodes
-/

namespace Verif.Stencil

theorem adj_cases {a b : Node} (h : Adj a b) :
    (a.1 = b.1 ∧ (twoX b = twoX a + 2 ∨ twoX b = twoX a - 2)) ∨
    ((b.1 = a.1 + 1 ∨ b.1 = a.1 - 1) ∧ (twoX b = twoX a + 1 ∨ twoX b = twoX a - 1)) := by
  unfold Adj at h
  have hv : -1 ≤ a.1 - b.1 ∧ a.1 - b.1 ≤ 1 := by constructor <;> nlinarith [sq_nonneg (twoX a - twoX b)]
  have hu : -2 ≤ twoX a - twoX b ∧ twoX a - twoX b ≤ 2 := by constructor <;> nlinarith [sq_nonneg (a.1 - b.1)]
  generalize hu' : twoX a - twoX b = u at *
  generalize hv' : a.1 - b.1 = v at *
  obtain ⟨h1, h2⟩ := hv
  obtain ⟨h3, h4⟩ := hu
  interval_cases v <;> interval_cases u <;> simp at h <;> omega

theorem adj_of {a b : Node} {du dv : ℤ} (h1 : twoX b = twoX a + du) (h2 : b.1 = a.1 + dv) (h : du ^ 2 + 3 * dv ^ 2 = 4) : Adj a b := by
  unfold Adj
  rw [h1, h2]
  linarith

/-- The number of sides, as a formula. -/
def hd (a b : Node) : ℕ := max (a.1 - b.1).natAbs (((twoX a - twoX b).natAbs + (a.1 - b.1).natAbs) / 2)

theorem parity (a : Node) : twoX a % 2 = a.1 % 2 := by
  unfold twoX
  omega

theorem hd_adj {a b c : Node} (h : Adj a b) : hd a c ≤ hd b c + 1 := by
  have h1 : (a.1 - c.1).natAbs ≤ (b.1 - c.1).natAbs + 1 := by
    rcases adj_cases h with ⟨h1, _⟩ | ⟨h1 | h1, _⟩ <;> omega
  have h2 : (twoX a - twoX c).natAbs + (a.1 - c.1).natAbs ≤ (twoX b - twoX c).natAbs + (b.1 - c.1).natAbs + 2 := by
    rcases adj_cases h with ⟨h1, h2 | h2⟩ | ⟨h1 | h1, h2 | h2⟩ <;> omega
  unfold hd
  generalize (a.1 - c.1).natAbs = v at *
  generalize (b.1 - c.1).natAbs = v' at *
  generalize (twoX a - twoX c).natAbs = u at *
  generalize (twoX b - twoX c).natAbs = u' at *
  omega

theorem hd_walk {k a b} (h : Walk k a b) : hd a b ≤ k := by
  induction h with
  | nil a => simp [hd]
  | step ha _ ih => exact (hd_adj ha).trans (by omega)

theorem node_at (X j : ℤ) (h : X % 2 = j % 2) : ∃ c : Node, twoX c = X ∧ c.1 = j := by
  refine ⟨(j, (X - j % 2) / 2), ?_, rfl⟩
  unfold twoX
  dsimp only
  omega

theorem node_ext {a b : Node} (h1 : a.1 = b.1) (h2 : twoX a = twoX b) : a = b := by
  unfold twoX at h2
  rw [h1] at h2
  exact Prod.ext h1 (by omega)

theorem hd_zero {a b : Node} (h : hd a b = 0) : a = b := by
  have pa := parity a
  have pb := parity b
  unfold hd at h
  exact node_ext (by omega) (by omega)

theorem hd_closer {a b : Node} {k : ℕ} (h : hd a b = k + 1) : ∃ c, Adj a c ∧ hd c b = k := by
  have pa := parity a
  have pb := parity b
  have go : ∀ du dv : ℤ, du ^ 2 + 3 * dv ^ 2 = 4 → (du + dv) % 2 = 0 →
      (max (a.1 + dv - b.1).natAbs (((twoX a + du - twoX b).natAbs + (a.1 + dv - b.1).natAbs) / 2) = k) → ∃ c, Adj a c ∧ hd c b = k := by
    intro du dv h1 h2 h3
    obtain ⟨c, hc1, hc2⟩ := node_at (twoX a + du) (a.1 + dv) (by omega)
    refine ⟨c, adj_of hc1 hc2 h1, ?_⟩
    unfold hd
    rw [hc1, hc2]
    exact h3
  unfold hd at h
  by_cases hv : a.1 = b.1
  · by_cases hu : twoX a < twoX b
    · exact go 2 0 (by norm_num) (by norm_num) (by omega)
    · exact go (-2) 0 (by norm_num) (by norm_num) (by omega)
  · by_cases hv2 : a.1 < b.1
    · by_cases hu : twoX a < twoX b
      · exact go 1 1 (by norm_num) (by norm_num) (by omega)
      · exact go (-1) 1 (by norm_num) (by norm_num) (by omega)
    · by_cases hu : twoX a < twoX b
      · exact go 1 (-1) (by norm_num) (by norm_num) (by omega)
      · exact go (-1) (-1) (by norm_num) (by norm_num) (by omega)

theorem walk_hd (a b : Node) : Walk (hd a b) a b := by
  generalize h : hd a b = k
  induction k generalizing a with
  | zero =>
    rw [hd_zero h]
    exact .nil b
  | succ k ih =>
    obtain ⟨c, hc, hk⟩ := hd_closer h
    exact .step hc (ih c hk)

theorem steps_iff {k : ℕ} {a b : Node} : Steps k a b ↔ hd a b = k := by
  constructor
  · rintro ⟨h1, h2⟩
    have := hd_walk h1
    rcases Nat.lt_or_eq_of_le this with h | h
    · exact absurd (walk_hd a b) (h2 _ h)
    · exact h
  · rintro rfl
    refine ⟨walk_hd a b, fun m hm hw => ?_⟩
    have := hd_walk hw
    omega

end Verif.Stencil
