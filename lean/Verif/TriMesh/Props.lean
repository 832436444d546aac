import Verif.TriMesh.Model
import Mathlib.Tactic.Ring
import Mathlib.Tactic.FieldSimp
import Mathlib.Tactic.Linarith
import Mathlib.Tactic.LinearCombination
import Mathlib.Tactic.NormNum
import Mathlib.Tactic.IntervalCases
import Mathlib.Data.Rat.Floor

/-! # C30, C63: locating points in a mesh of triangles -/

namespace Verif.TriMesh
open Verif.Py

variable {K : Type*} [Field K] [LinearOrder K] [IsStrictOrderedRing K] [FloorRing K]

/-- the calculation of `tjiTcForXy` in units of the side and the row spacing -/
def locate (m : Mesh K) (xp jp : K) : Option (Located K) :=
  let j := ⌊jp⌋
  if ¬ (0 ≤ j ∧ j < m.nj - 1) then none
  else
    let fy := if j % 2 = 1 then ((j + 1 : ℤ) : K) - jp else jp - (j : K)
    let ip := xp - 1 / 2 * fy
    let i := ⌊ip⌋
    if ¬ (0 ≤ i ∧ i < m.ni - 1) then none
    else
      let fx := ip - (i : K)
      if fx > 1 - fy then some ⟨j, i * 2 + 1, 1 - (fx - (1 - fy) + (1 - fy)), fx - (1 - fy), 1 - fy⟩
      else some ⟨j, i * 2, 1 - (fx + fy), fx, fy⟩

theorem tjiTc_eq_locate (m : Mesh K) (x y : K) : tjiTcForXy m x y = locate m ((x - m.ox) / m.t) ((y - m.oy) / (m.t * m.r)) := rfl

/-- What is returned is a triangle of the mesh with weights between 0 and 1 which add up to one, and the nodes of the triangle so weighted
give the point. -/
theorem C30_weights (m : Mesh K) (hm : m.Good) (x y : K) (l : Located K) (h : tjiTcForXy m x y = some l) :
    (0 ≤ l.f0 ∧ 0 ≤ l.f1 ∧ 0 ≤ l.f2) ∧ (l.f0 ≤ 1 ∧ l.f1 ≤ 1 ∧ l.f2 ≤ 1) ∧ l.f0 + l.f1 + l.f2 = 1 ∧
      ∃ a b c : ℤ × ℤ, triNodes m l.tj l.ti = .ok (a, b, c) ∧
        l.f0 * m.x a.1 a.2 + l.f1 * m.x b.1 b.2 + l.f2 * m.x c.1 c.2 = x ∧
        l.f0 * m.y a.1 + l.f1 * m.y b.1 + l.f2 * m.y c.1 = y := by
  rw [tjiTc_eq_locate] at h
  have ht := ne_of_gt hm.t_pos
  have hr := ne_of_gt hm.r_pos
  have hx : x = (x - m.ox) / m.t * m.t + m.ox := by field_simp; ring
  have hy : y = m.r * ((y - m.oy) / (m.t * m.r)) * m.t + m.oy := by field_simp; ring
  generalize (x - m.ox) / m.t = xp at *
  generalize (y - m.oy) / (m.t * m.r) = jp at *
  unfold locate at h
  dsimp only at h
  by_cases hj : 0 ≤ ⌊jp⌋ ∧ ⌊jp⌋ < m.nj - 1
  swap
  · rw [if_pos hj] at h; cases h
  rw [if_neg (not_not.2 hj)] at h
  have hj1 := Int.floor_le jp
  have hj2 := Int.lt_floor_add_one jp
  set j := ⌊jp⌋ with hjd
  set fy : K := if j % 2 = 1 then ((j + 1 : ℤ) : K) - jp else jp - (j : K) with hfy
  have hfy0 : 0 ≤ fy ∧ fy ≤ 1 := by
    rw [hfy]
    split_ifs
    · push_cast; constructor <;> linarith
    · constructor <;> linarith
  by_cases hi : 0 ≤ ⌊xp - 1 / 2 * fy⌋ ∧ ⌊xp - 1 / 2 * fy⌋ < m.ni - 1
  swap
  · rw [if_pos hi] at h; cases h
  rw [if_neg (not_not.2 hi)] at h
  have hi1 := Int.floor_le (xp - 1 / 2 * fy)
  have hi2 := Int.lt_floor_add_one (xp - 1 / 2 * fy)
  set i := ⌊xp - 1 / 2 * fy⌋ with hid
  by_cases hc : xp - 1 / 2 * fy - (i : K) > 1 - fy
  · rw [if_pos hc] at h
    cases h
    dsimp only
    refine ⟨⟨by linarith, by linarith, by linarith⟩, ⟨by linarith, by linarith, by linarith⟩, by ring, ?_⟩
    refine ⟨(j + 1 - j % 2, i), (j + 1 - j % 2, i + 1), (j + j % 2, i + 1), ?_, ?_, ?_⟩
    · unfold triNodes
      have e1 : (i * 2 + 1) % 2 = 1 := by omega
      have e2 : (i * 2 + 1) / 2 = i := by omega
      dsimp only
      rw [if_pos (by omega), e1, e2]
      rfl
    · unfold Mesh.x
      dsimp only
      rcases Int.emod_two_eq_zero_or_one j with hp | hp
      · have p1 : (j + 1 - j % 2) % 2 = 1 := by omega
        have p2 : ¬ (j + j % 2) % 2 = 1 := by omega
        rw [if_pos p1, if_neg p2]
        rw [hx]; push_cast; ring
      · have p1 : ¬ (j + 1 - j % 2) % 2 = 0 := by omega
        have p1 : (j + 1 - j % 2) % 2 = 1 := by omega
        have p2 : ¬ (j + j % 2) % 2 = 1 := by omega
        rw [if_pos p1, if_neg p2]
        rw [hx]; push_cast; ring
    · unfold Mesh.y
      rcases Int.emod_two_eq_zero_or_one j with hp | hp
      · have hfy' : fy = jp - (j : K) := by rw [hfy, if_neg (by omega)]
        rw [hp, hy, hfy']; push_cast; ring
      · have hfy' : fy = ((j + 1 : ℤ) : K) - jp := by rw [hfy, if_pos hp]
        rw [hp, hy, hfy']; push_cast; ring
  · rw [if_neg hc] at h
    cases h
    dsimp only
    rw [gt_iff_lt, not_lt] at hc
    refine ⟨⟨by linarith, by linarith, by linarith⟩, ⟨by linarith, by linarith, by linarith⟩, by ring, ?_⟩
    refine ⟨(j + j % 2, i), (j + j % 2, i + 1), (j + 1 - j % 2, i), ?_, ?_, ?_⟩
    · unfold triNodes
      have e1 : (i * 2) % 2 = 0 := by omega
      have e2 : (i * 2) / 2 = i := by omega
      dsimp only
      rw [if_pos (by omega), e1, e2]
      simp
    · unfold Mesh.x
      dsimp only
      have p1 : (j + 1 - j % 2) % 2 = 1 := by omega
      have p2 : ¬ (j + j % 2) % 2 = 1 := by omega
      rw [if_pos p1, if_neg p2]
      rw [hx]; push_cast; ring
    · unfold Mesh.y
      rcases Int.emod_two_eq_zero_or_one j with hp | hp
      · have hfy' : fy = jp - (j : K) := by rw [hfy, if_neg (by omega)]
        rw [hp, hy, hfy']; push_cast; ring
      · have hfy' : fy = ((j + 1 : ℤ) : K) - jp := by rw [hfy, if_pos hp]
        rw [hp, hy, hfy']; push_cast; ring

theorem locate_of (m : Mesh K) (xp jp : K) (j i : ℤ) (fy fx : K) (hj : ⌊jp⌋ = j) (hj' : 0 ≤ j ∧ j < m.nj - 1)
    (hfy : (if j % 2 = 1 then ((j + 1 : ℤ) : K) - jp else jp - (j : K)) = fy) (hi : ⌊xp - 1 / 2 * fy⌋ = i)
    (hi' : 0 ≤ i ∧ i < m.ni - 1) (hfx : xp - 1 / 2 * fy - (i : K) = fx) :
    locate m xp jp =
      if fx > 1 - fy then some ⟨j, i * 2 + 1, 1 - (fx - (1 - fy) + (1 - fy)), fx - (1 - fy), 1 - fy⟩
      else some ⟨j, i * 2, 1 - (fx + fy), fx, fy⟩ := by
  subst hj hfy hi hfx
  unfold locate
  dsimp only
  rw [if_neg (not_not.2 hj'), if_neg (not_not.2 hi')]

/-- A point strictly inside a triangle of the mesh is found in that triangle, with its own weights. -/
theorem C30_inside (m : Mesh K) (hm : m.Good) (tj ti : ℤ) (a b c : ℤ × ℤ) (hn : triNodes m tj ti = .ok (a, b, c))
    (w0 w1 w2 : K) (h0 : 0 < w0) (h1 : 0 < w1) (h2 : 0 < w2) (hs : w0 + w1 + w2 = 1) :
    tjiTcForXy m (w0 * m.x a.1 a.2 + w1 * m.x b.1 b.2 + w2 * m.x c.1 c.2) (w0 * m.y a.1 + w1 * m.y b.1 + w2 * m.y c.1) =
      some ⟨tj, ti, w0, w1, w2⟩ := by
  rw [tjiTc_eq_locate]
  have ht := ne_of_gt hm.t_pos
  have hr := ne_of_gt hm.r_pos
  obtain rfl : w0 = 1 - w1 - w2 := by linear_combination hs
  unfold triNodes at hn
  dsimp only at hn
  by_cases hv : 0 ≤ tj ∧ tj < m.nj - 1 ∧ 0 ≤ ti ∧ ti < 2 * (m.ni - 1)
  swap
  · rw [if_neg hv] at hn; cases hn
  rw [if_pos hv] at hn
  injection hn with hn
  simp only [Prod.mk.injEq] at hn
  obtain ⟨rfl, rfl, rfl⟩ := hn
  dsimp only [Mesh.x, Mesh.y]
  obtain ⟨q, hq | hq⟩ : ∃ q, ti = q * 2 ∨ ti = q * 2 + 1 := ⟨ti / 2, by omega⟩
  · have e1 : ti % 2 = 0 := by omega
    have e2 : ti / 2 = q := by omega
    rw [e1, e2]
    have p1 : (tj + 1 - tj % 2) % 2 = 1 := by omega
    have p2 : ¬ (tj + tj % 2) % 2 = 1 := by omega
    simp only [ne_eq, not_true, if_false, p1, p2, if_true]
    have hxe : ((1 - w1 - w2) * (((q : K) + 0) * m.t + m.ox) + w1 * (((q + 1 : ℤ) + 0) * m.t + m.ox) +
        w2 * (((q + 0 : ℤ) + 1 / 2) * m.t + m.ox) - m.ox) / m.t = q + w1 + 1 / 2 * w2 := by
      push_cast; field_simp; ring
    rw [hxe]
    rcases Int.emod_two_eq_zero_or_one tj with hp | hp
    · have hye : ((1 - w1 - w2) * (m.r * ((tj + tj % 2 : ℤ) : K) * m.t + m.oy) + w1 * (m.r * ((tj + tj % 2 : ℤ) : K) * m.t + m.oy) +
          w2 * (m.r * ((tj + 1 - tj % 2 : ℤ) : K) * m.t + m.oy) - m.oy) / (m.t * m.r) = tj + w2 := by
        rw [hp]; push_cast; field_simp; ring
      rw [hye]
      have hf : ⌊(tj : K) + w2⌋ = tj := by
        rw [Int.floor_eq_iff]; constructor <;> linarith
      rw [locate_of m _ _ tj q (w2) (w1) hf (by omega) (by rw [if_neg (by omega)]; ring)
        (by rw [Int.floor_eq_iff]; constructor <;> linarith) (by omega) (by ring), if_neg (by intro hc; linarith), hq]
      congr 2 <;> ring
    · have hye : ((1 - w1 - w2) * (m.r * ((tj + tj % 2 : ℤ) : K) * m.t + m.oy) + w1 * (m.r * ((tj + tj % 2 : ℤ) : K) * m.t + m.oy) +
          w2 * (m.r * ((tj + 1 - tj % 2 : ℤ) : K) * m.t + m.oy) - m.oy) / (m.t * m.r) = tj + (1 - w2) := by
        rw [hp]; push_cast; field_simp; ring
      rw [hye]
      have hf : ⌊(tj : K) + (1 - w2)⌋ = tj := by
        rw [Int.floor_eq_iff]; constructor <;> linarith
      rw [locate_of m _ _ tj q (w2) (w1) hf (by omega) (by rw [if_pos hp]; push_cast; ring)
        (by rw [Int.floor_eq_iff]; constructor <;> linarith) (by omega) (by ring), if_neg (by intro hc; linarith), hq]
      congr 2 <;> ring
  · have e1 : ti % 2 = 1 := by omega
    have e2 : ti / 2 = q := by omega
    rw [e1, e2]
    have p1 : (tj + 1 - tj % 2) % 2 = 1 := by omega
    have p2 : ¬ (tj + tj % 2) % 2 = 1 := by omega
    simp only [ne_eq, one_ne_zero, not_false_iff, if_true, p1, p2, if_false]
    have hxe : ((1 - w1 - w2) * (((q : K) + 1 / 2) * m.t + m.ox) + w1 * (((q + 1 : ℤ) + 1 / 2) * m.t + m.ox) +
        w2 * (((q + 1 : ℤ) + 0) * m.t + m.ox) - m.ox) / m.t = q + w1 + 1 / 2 * w2 + 1 / 2 := by
      push_cast; field_simp; ring
    rw [hxe]
    rcases Int.emod_two_eq_zero_or_one tj with hp | hp
    · have hye : ((1 - w1 - w2) * (m.r * ((tj + 1 - tj % 2 : ℤ) : K) * m.t + m.oy) +
          w1 * (m.r * ((tj + 1 - tj % 2 : ℤ) : K) * m.t + m.oy) +
          w2 * (m.r * ((tj + tj % 2 : ℤ) : K) * m.t + m.oy) - m.oy) / (m.t * m.r) = tj + (1 - w2) := by
        rw [hp]; push_cast; field_simp; ring
      rw [hye]
      have hf : ⌊(tj : K) + (1 - w2)⌋ = tj := by
        rw [Int.floor_eq_iff]; constructor <;> linarith
      rw [locate_of m _ _ tj q (1 - w2) (w1 + w2) hf (by omega) (by rw [if_neg (by omega)]; ring)
        (by rw [Int.floor_eq_iff]; constructor <;> linarith) (by omega) (by ring), if_pos (by rw [gt_iff_lt]; linarith), hq]
      congr 2 <;> ring
    · have hye : ((1 - w1 - w2) * (m.r * ((tj + 1 - tj % 2 : ℤ) : K) * m.t + m.oy) +
          w1 * (m.r * ((tj + 1 - tj % 2 : ℤ) : K) * m.t + m.oy) +
          w2 * (m.r * ((tj + tj % 2 : ℤ) : K) * m.t + m.oy) - m.oy) / (m.t * m.r) = tj + w2 := by
        rw [hp]; push_cast; field_simp; ring
      rw [hye]
      have hf : ⌊(tj : K) + w2⌋ = tj := by
        rw [Int.floor_eq_iff]; constructor <;> linarith
      rw [locate_of m _ _ tj q (1 - w2) (w1 + w2) hf (by omega) (by rw [if_pos hp]; push_cast; ring)
        (by rw [Int.floor_eq_iff]; constructor <;> linarith) (by omega) (by ring), if_pos (by rw [gt_iff_lt]; linarith), hq]
      congr 2 <;> ring

/-- Points are found exactly from the first row of nodes up to the last, excluding that; and from the line of first nodes to the line of last nodes,
excluding that: a point of a row of triangles at fraction `f` of the way from its even row of nodes to its odd one is found when its distance from the
origin in x, over the side, is at least `f / 2` and less than `ni - 1 + f / 2`. -/
theorem C30_found (m : Mesh K) (hm : m.Good) (x y : K) :
    (tjiTcForXy m x y).isSome = true ↔
      m.y 0 ≤ y ∧ y < m.y (m.nj - 1) ∧ ∃ (j : ℤ) (f : K), 0 ≤ f ∧ f ≤ 1 ∧
        (j % 2 = 0 ∧ y = m.y j + f * (m.r * m.t) ∧ f < 1 ∨ j % 2 = 1 ∧ y = m.y (j + 1) - f * (m.r * m.t) ∧ 0 < f) ∧
        m.ox + f / 2 * m.t ≤ x ∧ x < m.ox + ((m.ni - 1 : ℤ) + f / 2) * m.t := by
  rw [tjiTc_eq_locate]
  have ht := hm.t_pos
  have hr := hm.r_pos
  have hrt : 0 < m.r * m.t := mul_pos hr ht
  have hx : x = (x - m.ox) / m.t * m.t + m.ox := by field_simp; ring
  have hy : y = m.r * ((y - m.oy) / (m.t * m.r)) * m.t + m.oy := by field_simp; ring
  generalize (x - m.ox) / m.t = xp at *
  generalize (y - m.oy) / (m.t * m.r) = jp at *
  have hy0 : m.y 0 ≤ y ↔ 0 ≤ jp := by
    rw [hy]; unfold Mesh.y
    constructor
    · intro h
      by_contra hc
      have : jp * (m.r * m.t) < 0 := mul_neg_of_neg_of_pos (not_le.1 hc) hrt
      push_cast at h
      linarith
    · intro h
      have : 0 ≤ jp * (m.r * m.t) := mul_nonneg h hrt.le
      push_cast
      linarith
  have hy1 : y < m.y (m.nj - 1) ↔ jp < ((m.nj - 1 : ℤ) : K) := by
    rw [hy]; unfold Mesh.y
    constructor
    · intro h
      have : jp * (m.r * m.t) < ((m.nj - 1 : ℤ) : K) * (m.r * m.t) := by linarith
      exact lt_of_mul_lt_mul_right this hrt.le
    · intro h
      have := mul_lt_mul_of_pos_right h hrt
      linarith
  rw [hy0, hy1]
  have hx1 : ∀ f : K, m.ox + f / 2 * m.t ≤ x ↔ 0 ≤ xp - 1 / 2 * f := by
    intro f
    rw [hx]
    constructor
    · intro h
      have : f / 2 * m.t ≤ xp * m.t := by linarith
      have := le_of_mul_le_mul_right this ht
      linarith
    · intro h
      have : f / 2 ≤ xp := by linarith
      have := mul_le_mul_of_nonneg_right this ht.le
      linarith
  have hx2 : ∀ f : K, x < m.ox + ((m.ni - 1 : ℤ) + f / 2) * m.t ↔ xp - 1 / 2 * f < ((m.ni - 1 : ℤ) : K) := by
    intro f
    rw [hx]
    constructor
    · intro h
      have : xp * m.t < (((m.ni - 1 : ℤ) : K) + f / 2) * m.t := by linarith
      have := lt_of_mul_lt_mul_right this ht.le
      linarith
    · intro h
      have : xp < ((m.ni - 1 : ℤ) : K) + f / 2 := by linarith
      have := mul_lt_mul_of_pos_right this ht
      linarith
  simp only [hx1, hx2]
  have key : ∀ (j : ℤ) (f : K), 0 ≤ f → f ≤ 1 →
      (j % 2 = 0 ∧ y = m.y j + f * (m.r * m.t) ∧ f < 1 ∨ j % 2 = 1 ∧ y = m.y (j + 1) - f * (m.r * m.t) ∧ 0 < f) →
      j = ⌊jp⌋ ∧ f = if ⌊jp⌋ % 2 = 1 then ((⌊jp⌋ + 1 : ℤ) : K) - jp else jp - (⌊jp⌋ : K) := by
    intro j f f0 f1 h
    rcases h with ⟨h1, h2, h3⟩ | ⟨h1, h2, h3⟩
    · have hjp : jp = j + f := by
        rw [hy] at h2; unfold Mesh.y at h2
        have : jp * (m.r * m.t) = (j + f) * (m.r * m.t) := by linear_combination h2
        exact mul_right_cancel₀ (ne_of_gt hrt) this
      have hfl : ⌊jp⌋ = j := by rw [Int.floor_eq_iff, hjp]; constructor <;> linarith
      rw [hfl]
      refine ⟨rfl, ?_⟩
      rw [if_neg (by omega), hjp]; ring
    · have hjp : jp = j + 1 - f := by
        rw [hy] at h2; unfold Mesh.y at h2
        have : jp * (m.r * m.t) = (j + 1 - f) * (m.r * m.t) := by push_cast at h2; linear_combination h2
        exact mul_right_cancel₀ (ne_of_gt hrt) this
      have hfl : ⌊jp⌋ = j := by rw [Int.floor_eq_iff, hjp]; constructor <;> linarith
      rw [hfl]
      refine ⟨rfl, ?_⟩
      rw [if_pos h1, hjp]; push_cast; ring
  have hj1 := Int.floor_le jp
  have hj2 := Int.lt_floor_add_one jp
  have own : (0 ≤ (if ⌊jp⌋ % 2 = 1 then ((⌊jp⌋ + 1 : ℤ) : K) - jp else jp - (⌊jp⌋ : K)) ∧
      (if ⌊jp⌋ % 2 = 1 then ((⌊jp⌋ + 1 : ℤ) : K) - jp else jp - (⌊jp⌋ : K)) ≤ 1) ∧
      (⌊jp⌋ % 2 = 0 ∧ y = m.y ⌊jp⌋ + (if ⌊jp⌋ % 2 = 1 then ((⌊jp⌋ + 1 : ℤ) : K) - jp else jp - (⌊jp⌋ : K)) * (m.r * m.t) ∧
        (if ⌊jp⌋ % 2 = 1 then ((⌊jp⌋ + 1 : ℤ) : K) - jp else jp - (⌊jp⌋ : K)) < 1 ∨
       ⌊jp⌋ % 2 = 1 ∧ y = m.y (⌊jp⌋ + 1) - (if ⌊jp⌋ % 2 = 1 then ((⌊jp⌋ + 1 : ℤ) : K) - jp else jp - (⌊jp⌋ : K)) * (m.r * m.t) ∧
        0 < (if ⌊jp⌋ % 2 = 1 then ((⌊jp⌋ + 1 : ℤ) : K) - jp else jp - (⌊jp⌋ : K))) := by
    rcases Int.emod_two_eq_zero_or_one ⌊jp⌋ with hp | hp
    · rw [if_neg (by omega)]
      refine ⟨⟨by linarith, by linarith⟩, Or.inl ⟨hp, ?_, by linarith⟩⟩
      rw [hy]; unfold Mesh.y; ring
    · rw [if_pos hp]
      refine ⟨⟨by push_cast; linarith, by push_cast; linarith⟩, Or.inr ⟨hp, ?_, by push_cast; linarith⟩⟩
      rw [hy]; unfold Mesh.y; push_cast; ring
  have hfl0 : 0 ≤ jp ↔ 0 ≤ ⌊jp⌋ := Int.floor_nonneg.symm
  have hfl1 : jp < ((m.nj - 1 : ℤ) : K) ↔ ⌊jp⌋ < m.nj - 1 := Int.floor_lt.symm
  rw [hfl0, hfl1]
  constructor
  · intro h
    unfold locate at h
    dsimp only at h
    by_cases hj : 0 ≤ ⌊jp⌋ ∧ ⌊jp⌋ < m.nj - 1
    swap
    · rw [if_pos hj] at h; cases h
    rw [if_neg (not_not.2 hj)] at h
    refine ⟨hj.1, hj.2, ⌊jp⌋, _, own.1.1, own.1.2, own.2, ?_⟩
    generalize (if ⌊jp⌋ % 2 = 1 then ((⌊jp⌋ + 1 : ℤ) : K) - jp else jp - (⌊jp⌋ : K)) = fy at *
    by_cases hi : 0 ≤ ⌊xp - 1 / 2 * fy⌋ ∧ ⌊xp - 1 / 2 * fy⌋ < m.ni - 1
    swap
    · rw [if_pos hi] at h; cases h
    exact ⟨Int.floor_nonneg.1 hi.1, Int.floor_lt.1 hi.2⟩
  · rintro ⟨h1, h2, j, f, f0, f1, hc, hi1, hi2⟩
    obtain ⟨rfl, rfl⟩ := key j f f0 f1 hc
    unfold locate
    dsimp only
    rw [if_neg (not_not.2 ⟨h1, h2⟩)]
    generalize (if ⌊jp⌋ % 2 = 1 then ((⌊jp⌋ + 1 : ℤ) : K) - jp else jp - (⌊jp⌋ : K)) = fy at *
    rw [if_neg (not_not.2 ⟨Int.floor_nonneg.2 hi1, Int.floor_lt.2 hi2⟩)]
    split <;> rfl

/-- Locating an array of points gives for each what locating it alone does, with -1 and not-a-number for points which are not in the mesh or have a
coordinate which is not a number. -/
theorem C30_array_agrees (m : Mesh K) (x y : Option K) :
    tjiTcForXyElement m x y =
      match x, y with
      | some x, some y =>
        match tjiTcForXy m x y with
        | some l => ((l.tj, l.ti), some (l.f0, l.f1, l.f2))
        | none => ((-1, -1), none)
      | _, _ => ((-1, -1), none) := by
  cases x with
  | none => simp [tjiTcForXyElement]
  | some x =>
    cases y with
    | none => simp [tjiTcForXyElement]
    | some y =>
      unfold tjiTcForXyElement tjiTcForXy
      simp only [Option.map_some, Option.isNone_some, Bool.or_self, Bool.false_eq_true, if_false, Option.getD_some, Bool.false_or]
      generalize (x - m.ox) / m.t = xp
      generalize (y - m.oy) / (m.t * m.r) = jp
      by_cases hj : 0 ≤ ⌊jp⌋ ∧ ⌊jp⌋ < m.nj - 1
      · rw [if_neg (not_not.2 hj)]
        have m1 : (decide (⌊jp⌋ < 0) || decide (⌊jp⌋ ≥ m.nj - 1)) = false := by simp; omega
        have e : (if ⌊jp⌋ % 2 ≠ 0 then ((⌊jp⌋ + 1 : ℤ) : K) - jp else jp - (⌊jp⌋ : K)) =
            if ⌊jp⌋ % 2 = 1 then ((⌊jp⌋ + 1 : ℤ) : K) - jp else jp - (⌊jp⌋ : K) := by
          rcases Int.emod_two_eq_zero_or_one ⌊jp⌋ with hp | hp <;> simp [hp]
        rw [e, m1]
        generalize (if ⌊jp⌋ % 2 = 1 then ((⌊jp⌋ + 1 : ℤ) : K) - jp else jp - (⌊jp⌋ : K)) = fy
        simp only [Bool.false_or]
        by_cases hi : 0 ≤ ⌊xp - 1 / 2 * fy⌋ ∧ ⌊xp - 1 / 2 * fy⌋ < m.ni - 1
        · have m2 : (decide (⌊xp - 1 / 2 * fy⌋ < 0) || decide (⌊xp - 1 / 2 * fy⌋ ≥ m.ni - 1)) = false := by
            rw [Bool.or_eq_false_iff]; simp only [decide_eq_false_iff_not]; omega
          rw [if_neg (not_not.2 hi), m2]
          by_cases hc : xp - 1 / 2 * fy - (⌊xp - 1 / 2 * fy⌋ : K) > 1 - fy
          · simp only [if_pos hc, Bool.false_eq_true, if_false]
          · simp only [if_neg hc, Bool.false_eq_true, if_false]
        · have m2 : (decide (⌊xp - 1 / 2 * fy⌋ < 0) || decide (⌊xp - 1 / 2 * fy⌋ ≥ m.ni - 1)) = true := by
            simp only [Bool.or_eq_true, decide_eq_true_eq]; omega
          rw [if_pos hi, m2]
          simp
      · have m1 : (decide (⌊jp⌋ < 0) || decide (⌊jp⌋ ≥ m.nj - 1)) = true := by
          simp only [Bool.or_eq_true, decide_eq_true_eq]; omega
        rw [if_pos hj, m1]
        simp

/-- The three ways of getting the nodes of a triangle agree. -/
theorem C30_nodes_agree (m : Mesh K) (j i : ℤ) (hj : 0 ≤ j ∧ j < m.nj - 1) (hi : 0 ≤ i ∧ i < 2 * (m.ni - 1)) :
    triNodes m j i = .ok (allTriNodes j i) ∧ triNodesElement m j i = allTriNodes j i := by
  unfold triNodes triNodesElement allTriNodes
  dsimp only
  have h1 : 0 ≤ j ∧ j < m.nj - 1 ∧ 0 ≤ i ∧ i < 2 * (m.ni - 1) := ⟨hj.1, hj.2, hi.1, hi.2⟩
  have h2 : ¬ ((j < 0 ∨ j ≥ m.nj - 1) ∨ (i < 0 ∨ i ≥ 2 * (m.ni - 1))) := by omega
  simp only [if_pos h1, if_neg h2]
  rcases Int.emod_two_eq_zero_or_one j with hp | hp <;> rcases Int.emod_two_eq_zero_or_one i with hq | hq <;>
    simp only [hp, hq, ne_eq, one_ne_zero, zero_ne_one, not_true, not_false_iff, if_true, if_false, and_self, and_true, and_false, true_and, false_and,
      Except.ok.injEq, Prod.mk.injEq] <;> omega

/-- Triangles are numbered one to one: each triangle of the mesh has a number below the number of triangles and is got back from it, and the other way
about. -/
theorem C30_numbering (m : Mesh K) (hm : m.Good) :
    (∀ tj ti : ℤ, 0 ≤ tj → tj < m.nj - 1 → 0 ≤ ti → ti < 2 * (m.ni - 1) →
      ∃ n, triangleIndexForTji m tj ti = .ok n ∧ 0 ≤ n ∧ n < (m.nj - 1) * (m.ni - 1) * 2 ∧ tjiForTriangleIndex m n = .ok (tj, ti)) ∧
    (∀ n : ℤ, 0 ≤ n → n < (m.nj - 1) * (m.ni - 1) * 2 →
      ∃ tj ti, tjiForTriangleIndex m n = .ok (tj, ti) ∧ 0 ≤ tj ∧ tj < m.nj - 1 ∧ 0 ≤ ti ∧ ti < 2 * (m.ni - 1) ∧
        triangleIndexForTji m tj ti = .ok n) := by
  have hw : 0 < 2 * (m.ni - 1) := by have := hm.ni2; omega
  constructor
  · intro tj ti a1 a2 a3 a4
    have hlt : 2 * (m.ni - 1) * tj + ti < (m.nj - 1) * (m.ni - 1) * 2 := by nlinarith
    have h0 : 0 ≤ 2 * (m.ni - 1) * tj + ti := by positivity
    refine ⟨2 * (m.ni - 1) * tj + ti, by unfold triangleIndexForTji; rw [if_pos ⟨a1, a2, a3, a4⟩], h0, hlt, ?_⟩
    unfold tjiForTriangleIndex
    rw [if_pos ⟨h0, hlt⟩]
    have e1 : (2 * (m.ni - 1) * tj + ti) / (2 * (m.ni - 1)) = tj := by
      rw [Int.add_comm, Int.add_mul_ediv_left _ _ hw.ne', Int.ediv_eq_zero_of_lt a3 a4, zero_add]
    have e2 : (2 * (m.ni - 1) * tj + ti) % (2 * (m.ni - 1)) = ti := by
      rw [Int.add_comm, Int.add_mul_emod_self_left, Int.emod_eq_of_lt a3 a4]
    rw [e1, e2]
  · intro n h0 hlt
    have b1 := Int.emod_nonneg n hw.ne'
    have b2 := Int.emod_lt_of_pos n hw
    have b3 := Int.mul_ediv_add_emod n (2 * (m.ni - 1))
    have c1 : 0 ≤ n / (2 * (m.ni - 1)) := Int.ediv_nonneg h0 hw.le
    have c2 : n / (2 * (m.ni - 1)) < m.nj - 1 := by
      rw [Int.ediv_lt_iff_lt_mul hw]; linarith
    refine ⟨n / (2 * (m.ni - 1)), n % (2 * (m.ni - 1)), by unfold tjiForTriangleIndex; rw [if_pos ⟨h0, hlt⟩], c1, c2, b1, b2, ?_⟩
    unfold triangleIndexForTji
    rw [if_pos ⟨c1, c2, b1, b2⟩, b3]

/-- The z value interpolated at a point in the mesh is the weighted sum over the triangle it is in: on a mesh with the z values of a plane it is the
plane's. -/
theorem C30_interpolated_plane (m : Mesh K) (hm : m.Good) (p q s : K) (hz : ∀ j i, m.z j i = p * m.x j i + q * m.y j + s) (x y : K)
    (hin : (tjiTcForXy m x y).isSome = true) : interpolatedZ m x y = .ok (some (p * x + q * y + s)) := by
  obtain ⟨l, hl⟩ := Option.isSome_iff_exists.1 hin
  obtain ⟨-, -, hsum, a, b, c, hn, hx, hy⟩ := C30_weights m hm x y l hl
  unfold interpolatedZ
  rw [hl]
  dsimp only
  rw [hn]
  dsimp only
  rw [hz, hz, hz]
  congr 2
  linear_combination p * hx + q * hy + s * hsum

/-- Whatever the z values, the one interpolated is between the least and greatest of them. -/
theorem C30_interpolated_range (m : Mesh K) (hm : m.Good) (lo hi : K) (hz : ∀ j i, lo ≤ m.z j i ∧ m.z j i ≤ hi) (x y : K) :
    interpolatedZ m x y = .ok none ∧ tjiTcForXy m x y = none ∨ ∃ z, interpolatedZ m x y = .ok (some z) ∧ lo ≤ z ∧ z ≤ hi := by
  cases hl : tjiTcForXy m x y with
  | none => left; unfold interpolatedZ; rw [hl]; exact ⟨rfl, rfl⟩
  | some l =>
    right
    obtain ⟨⟨f0, f1, f2⟩, -, hsum, a, b, c, hn, -, -⟩ := C30_weights m hm x y l hl
    unfold interpolatedZ
    rw [hl]
    dsimp only
    rw [hn]
    refine ⟨_, rfl, ?_, ?_⟩
    · have := mul_le_mul_of_nonneg_left (hz a.1 a.2).1 f0
      have := mul_le_mul_of_nonneg_left (hz b.1 b.2).1 f1
      have := mul_le_mul_of_nonneg_left (hz c.1 c.2).1 f2
      have e : lo = l.f0 * lo + l.f1 * lo + l.f2 * lo := by linear_combination -lo * hsum
      linarith
    · have := mul_le_mul_of_nonneg_left (hz a.1 a.2).2 f0
      have := mul_le_mul_of_nonneg_left (hz b.1 b.2).2 f1
      have := mul_le_mul_of_nonneg_left (hz c.1 c.2).2 f2
      have e : hi = l.f0 * hi + l.f1 * hi + l.f2 * hi := by linear_combination -hi * hsum
      linarith

/-! ## C63: as a triangulated surface -/

theorem wrap_id (bits : ℕ) (n : ℤ) (hb : 0 < bits) (h : -2 ^ (bits - 1) ≤ n ∧ n < 2 ^ (bits - 1)) : wrap bits n = n := by
  unfold wrap
  have : (2 : ℤ) ^ bits = 2 ^ (bits - 1) + 2 ^ (bits - 1) := by
    obtain ⟨k, rfl⟩ : ∃ k, bits = k + 1 := ⟨bits - 1, by omega⟩
    rw [Nat.add_sub_cancel, pow_succ]; ring
  rw [Int.emod_eq_of_lt (by omega) (by omega)]
  omega

/-- For a mesh with fewer than 2^31 nodes, each corner of a triangle of the surface is the point of the corresponding node of the
mesh: the point array is in rows of `ni`, so that the node is got back by division, and different nodes have different points.
Full statement wanted: for every mesh; see `C63_big_violated`. -/
theorem C63_points_partial (m : Mesh K) (hm : m.Good) (hsmall : m.ni * m.nj < 2147483648) (node : ℤ × ℤ)
    (hj : 0 ≤ node.1 ∧ node.1 < m.nj) (hi : 0 ≤ node.2 ∧ node.2 < m.ni) :
    0 ≤ compositeJi m node ∧ compositeJi m node < m.nj * m.ni ∧
      (compositeJi m node / m.ni, compositeJi m node % m.ni) = node := by
  have hpos : 0 < m.ni := by have := hm.ni2; omega
  have h0 : 0 ≤ node.1 * m.ni + node.2 := by have := mul_nonneg hj.1 hpos.le; linarith [hi.1]
  have hlt : node.1 * m.ni + node.2 < m.nj * m.ni := by nlinarith [hj.2, hi.2]
  have hc : compositeJi m node = node.1 * m.ni + node.2 := by
    unfold compositeJi tBits
    rw [if_neg (by omega)]
    apply wrap_id _ _ (by norm_num)
    constructor
    · have : (0 : ℤ) ≤ 2 ^ (64 - 1) := by norm_num
      linarith
    · have : (2147483648 : ℤ) < 2 ^ (64 - 1) := by norm_num
      linarith [mul_comm m.ni m.nj]
  rw [hc]
  refine ⟨h0, hlt, ?_⟩
  rw [Int.add_comm, Int.add_mul_ediv_right _ _ hpos.ne', Int.ediv_eq_zero_of_lt hi.1 hi.2, zero_add,
    Int.add_mul_emod_self_right, Int.emod_eq_of_lt hi.1 hi.2]

/-- A mesh with 65536 rows of 65536 nodes has narrow integers used for its points, being big, and the last node does not fit. -/
theorem C63_big_violated (m : Mesh K) (hj : m.nj = 65536) (hi : m.ni = 65536) :
    triNodes m 65534 131069 = .ok ((65535, 65534), (65535, 65535), (65534, 65535)) ∧ compositeJi m (65535, 65535) = -1 := by
  constructor
  · unfold triNodes; rw [hj, hi]; rfl
  · unfold compositeJi tBits wrap; rw [hj, hi]; norm_num

/-- the hypotheses are met -/
def exampleMesh : Mesh ℚ := ⟨4, 3, 10, 7 / 8, 5, -5, fun j i => (j + 2 * i : ℤ)⟩

example : exampleMesh.Good := ⟨by norm_num [exampleMesh], by norm_num [exampleMesh], by decide, by decide⟩

example : (tjiTcForXy exampleMesh 20 6).map (fun l => (l.tj, l.ti)) = some (1, 2) := by decide +kernel

example : (tjiTcForXy exampleMesh 20 6).map (fun l => (l.f0, l.f1, l.f2)) = some (9 / 70, 9 / 70, 26 / 35) ∧
    (interpolatedZ exampleMesh 20 6).toOption = some (some (123 / 35)) := by decide +kernel

end Verif.TriMesh
