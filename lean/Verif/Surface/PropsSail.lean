import Verif.Surface.Sail
import Verif.Surface.Lemmas
import Mathlib.Tactic.Linarith

namespace Verif.Surface
open Verif.Py Spec
open Verif.Wells.Survey (V3 radians degrees)
open Verif.Rotate

variable {α : Type}

/-- lists put one after the other, with the places at which they start -/
theorem getElem_ragged (n : Nat) (L : Nat → List α) (S : Nat → Nat) (h0 : S 0 = 0)
    (h : ∀ c, c < n → S (c + 1) = S c + (L c).length) :
    ((List.range n).flatMap L).length = S n ∧
      ∀ c l, c < n → l < (L c).length → ((List.range n).flatMap L)[S c + l]? = (L c)[l]? := by
  induction n with
  | zero => exact ⟨by simp [h0], fun c l hc => by omega⟩
  | succ n ih =>
    obtain ⟨h1, h2⟩ := ih fun c hc => h c (by omega)
    have mono : ∀ c, c < n → S (c + 1) ≤ S n := by
      intro c hc
      have : ∀ d, c + 1 + d ≤ n → S (c + 1) ≤ S (c + 1 + d) := by
        intro d
        induction d with
        | zero => intro _; exact le_refl _
        | succ d ihd =>
          intro hd
          have := h (c + 1 + d) (by omega)
          have := ihd (by omega)
          rw [← Nat.add_assoc]
          omega
      have := this (n - (c + 1)) (by omega)
      rwa [show c + 1 + (n - (c + 1)) = n by omega] at this
    rw [List.range_succ, List.flatMap_append, List.flatMap_singleton]
    refine ⟨by rw [List.length_append, h1, h n (by omega)], ?_⟩
    intro c l hc hl
    by_cases hcn : c = n
    · subst hcn
      rw [List.getElem?_append_right (by omega), h1, Nat.add_sub_cancel_left]
    · rw [List.getElem?_append_left, h2 c l (by omega) hl]
      have := mono c (by omega)
      rw [h c (by omega)] at this
      omega

/-- the number of the first node of a row of a triangle of nodes: row r has r + 1 nodes -/
def firstOfRow : Nat → Nat
  | 0 => 0
  | r + 1 => firstOfRow r + (r + 1)

theorem two_firstOfRow (r : Nat) : 2 * firstOfRow r = r * (r + 1) := by
  induction r with
  | zero => rfl
  | succ r ih => rw [firstOfRow, Nat.mul_add, ih]; ring

theorem half_row (r : Nat) : r * (r + 1) / 2 = firstOfRow r := by
  have := two_firstOfRow r
  omega

theorem sailPairs_get (m p1 p2 : Nat) : (sailPairs m p1 p2).length = 2 * m ∧
    ∀ c, c < m → (sailPairs m p1 p2)[2 * c]? = some (p1 + c, p1 + c + 1, p2 + c + 1) ∧
      (sailPairs m p1 p2)[2 * c + 1]? = some (p1 + c + 1, p2 + c + 1, p2 + c + 2) := by
  induction m generalizing p1 p2 with
  | zero => exact ⟨rfl, fun c h => by omega⟩
  | succ m ih =>
    obtain ⟨h1, h2⟩ := ih (p1 + 1) (p2 + 1)
    refine ⟨by rw [sailPairs, List.length_cons, List.length_cons, h1]; omega, ?_⟩
    intro c hc
    cases c with
    | zero => exact ⟨rfl, rfl⟩
    | succ c =>
      obtain ⟨a, b⟩ := h2 c (by omega)
      rw [sailPairs, show 2 * (c + 1) = 2 * c + 1 + 1 by omega]
      simp only [List.getElem?_cons_succ]
      rw [a, b]
      simp only [Option.some.injEq, Prod.mk.injEq]
      omega

theorem sailRow_get (r : Nat) : (sailRow r).length = 2 * r + 1 ∧
    (∀ c, c ≤ r → (sailRow r)[2 * c]? = some (firstOfRow r + c, firstOfRow (r + 1) + c, firstOfRow (r + 1) + c + 1)) ∧
    ∀ c, c < r → (sailRow r)[2 * c + 1]? = some (firstOfRow r + c, firstOfRow r + c + 1, firstOfRow (r + 1) + c + 1) := by
  unfold sailRow
  dsimp only
  rw [half_row, half_row (r + 1)]
  obtain ⟨h1, h2⟩ := sailPairs_get r (firstOfRow r) (firstOfRow (r + 1))
  refine ⟨by rw [List.length_cons, h1], ?_, ?_⟩
  · intro c hc
    cases c with
    | zero => rfl
    | succ c =>
      rw [show 2 * (c + 1) = 2 * c + 1 + 1 by omega, List.getElem?_cons_succ, (h2 c (by omega)).2]
      simp only [Option.some.injEq, Prod.mk.injEq]
      omega
  · intro c hc
    rw [List.getElem?_cons_succ, (h2 c hc).1]

/-- **C147** The triangles of a sail with n rows: there are n² of them; with the nodes seen as rows of 1, 2, 3 … nodes, between each row
and the next there is one triangle on each node of the row, reaching down to two nodes of the next row, and one below each pair of
neighbours, reaching down to one. -/
theorem C147_sail_triangles (n : Nat) :
    (sailTris n).length = n * n ∧
      ∀ r, r < n →
        (∀ c, c ≤ r → (sailTris n)[r * r + 2 * c]? =
          some (firstOfRow r + c, firstOfRow (r + 1) + c, firstOfRow (r + 1) + (c + 1))) ∧
        (∀ c, c < r → (sailTris n)[r * r + (2 * c + 1)]? =
          some (firstOfRow r + c, firstOfRow r + (c + 1), firstOfRow (r + 1) + (c + 1))) := by
  obtain ⟨h1, h2⟩ := getElem_ragged n sailRow (fun r => r * r) rfl
    (by intro c _; rw [(sailRow_get c).1]; ring)
  refine ⟨h1, fun r hr => ⟨fun c hc => ?_, fun c hc => ?_⟩⟩
  · have := h2 r (2 * c) hr (by rw [(sailRow_get r).1]; omega)
    unfold sailTris
    rw [this, (sailRow_get r).2.1 c hc]
    rfl
  · have := h2 r (2 * c + 1) hr (by rw [(sailRow_get r).1]; omega)
    unfold sailTris
    rw [this, (sailRow_get r).2.2 c hc]
    rfl

/-- the place of a node of a sail: on the sphere, at an angle below the plane of the centre of `r` steps, the nodes of a row one step
of azimuth apart and centred on the azimuth given -/
noncomputable def sailPlace (centre : V3) (radius azimuth step : ℝ) (r c : Nat) : V3 :=
  let dip := radians (r * step)
  let az := radians (azimuth + (c - r / 2) * step)
  ![centre 0 - radius * Real.cos dip * Real.cos az, centre 1 - radius * Real.cos dip * Real.sin az, centre 2 + radius * Real.sin dip]

theorem sailPoint_eq (centre : V3) (radius a d : ℝ) : sailPoint centre radius a d =
    ![centre 0 - radius * Real.cos (radians d) * Real.cos (radians a), centre 1 - radius * Real.cos (radians d) * Real.sin (radians a),
      centre 2 + radius * Real.sin (radians d)] := by
  have e : radians (90 + a) = radians a + Real.pi / 2 := by
    unfold radians
    ring
  unfold sailPoint
  rw [axial_0, axial_2, e, Real.cos_add_pi_div_two, Real.sin_add_pi_div_two]
  ext i
  fin_cases i <;> simp [Matrix.mulVec, dotProduct, Fin.sum_univ_three] <;> ring

/-- **C147** The points of a sail: node c of row r is at its place, and all are on the sphere. -/
theorem C147_sail_points (n : Nat) (centre : V3) (radius azimuth step : ℝ) :
    (sailPoints n centre radius azimuth step).length = firstOfRow (n + 1) ∧
      (∀ r c, r ≤ n → c ≤ r →
        (sailPoints n centre radius azimuth step)[firstOfRow r + c]? = some (sailPlace centre radius azimuth step r c)) ∧
      ∀ p ∈ sailPoints n centre radius azimuth step,
        (p 0 - centre 0) ^ 2 + (p 1 - centre 1) ^ 2 + (p 2 - centre 2) ^ 2 = radius ^ 2 := by
  let L : Nat → List (ℝ × ℝ) := fun row => (List.range (row + 2)).map fun (pp : Nat) =>
    (azimuth - ((row + 1 : Nat) : ℝ) * (1 / 2 * step) + (pp : ℝ) * step, ((row + 1 : Nat) : ℝ) * step)
  obtain ⟨h1, h2⟩ := getElem_ragged n L (fun r => firstOfRow (r + 1) - 1) rfl (by
    intro c _
    have : (L c).length = c + 2 := by simp [L]
    rw [this]
    simp only [firstOfRow]
    omega)
  have hang : sailAngles (1 / 2) azimuth step n = (azimuth, 0) :: (List.range n).flatMap L := rfl
  refine ⟨?_, ?_, ?_⟩
  · unfold sailPoints
    rw [List.length_map, hang, List.length_cons, h1]
    simp only [firstOfRow]
    omega
  · intro r c hr hc
    unfold sailPoints
    rw [List.getElem?_map, hang]
    cases r with
    | zero =>
      have : c = 0 := by omega
      subst this
      simp only [firstOfRow, Nat.add_zero, List.getElem?_cons_zero, Option.map_some, Option.some.injEq]
      rw [sailPoint_eq]
      simp [sailPlace]
    | succ r =>
      have hl := h2 r c (by omega) (by simp [L]; omega)
      rw [show firstOfRow (r + 1) + c = (firstOfRow (r + 1) - 1 + c) + 1 by simp only [firstOfRow]; omega, List.getElem?_cons_succ]
      rw [hl]
      have : (L r)[c]? = some (azimuth - ((r + 1 : Nat) : ℝ) * (1 / 2 * step) + (c : ℝ) * step, ((r + 1 : Nat) : ℝ) * step) := by
        show ((List.range (r + 2)).map _)[c]? = _
        rw [List.getElem?_map, List.getElem?_range (by omega)]
        rfl
      rw [this, Option.map_some, sailPoint_eq]
      unfold sailPlace
      simp only [Option.some.injEq]
      have e : azimuth - ((r + 1 : Nat) : ℝ) * (1 / 2 * step) + (c : ℝ) * step = azimuth + ((c : ℝ) - ((r + 1 : Nat) : ℝ) / 2) * step := by ring
      rw [e]
  · intro p hp
    obtain ⟨q, _, rfl⟩ := List.mem_map.1 hp
    rw [sailPoint_eq]
    have s1 := Real.sin_sq_add_cos_sq (radians q.1)
    have s2 := Real.sin_sq_add_cos_sq (radians q.2)
    simp only [Matrix.cons_val_zero, Matrix.cons_val_one, Matrix.cons_val]
    have : (centre 0 - radius * Real.cos (radians q.2) * Real.cos (radians q.1) - centre 0) ^ 2 +
        (centre 1 - radius * Real.cos (radians q.2) * Real.sin (radians q.1) - centre 1) ^ 2 +
        (centre 2 + radius * Real.sin (radians q.2) - centre 2) ^ 2 =
        radius ^ 2 * (Real.cos (radians q.2) ^ 2 * (Real.sin (radians q.1) ^ 2 + Real.cos (radians q.1) ^ 2) +
          Real.sin (radians q.2) ^ 2) := by ring
    rw [this, s1, mul_one, add_comm (Real.cos _ ^ 2), s2, mul_one]

example : sailTris 2 = [(0, 1, 2), (1, 3, 4), (1, 2, 4), (2, 4, 5)] := by decide

end Verif.Surface
