import Verif.TriMesh.Props
import Mathlib.Data.List.Nodup

/-! # C64, C65: crossings of the edges of a mesh of triangles -/

namespace Verif.TriMesh
open Verif.Py

variable {K : Type*} [Field K] [LinearOrder K] [IsStrictOrderedRing K] [FloorRing K]

theorem mem_irange (lo hi step : ℕ) (n : ℤ) :
    n ∈ irange lo hi step ↔ (lo : ℤ) ≤ n ∧ n < hi ∧ (n - lo) % (step : ℤ) = 0 := by
  unfold irange
  simp only [List.mem_map, List.mem_filter, List.mem_range, decide_eq_true_eq]
  constructor
  · rintro ⟨k, ⟨h1, h2⟩, rfl⟩
    refine ⟨by omega, by omega, ?_⟩
    rw [show ((lo + k : ℕ) : ℤ) - lo = (k : ℤ) by push_cast; ring, ← Int.natCast_mod, h2]
    rfl
  · rintro ⟨h1, h2, h3⟩
    refine ⟨(n - lo).toNat, ⟨by omega, ?_⟩, by omega⟩
    have : ((n - lo).toNat : ℤ) = n - lo := Int.toNat_of_nonneg (by omega)
    rw [← this, ← Int.natCast_mod] at h3
    exact_mod_cast h3

/-- two nodes of one triangle of the mesh -/
def SideOfTriangle (m : Mesh K) (a b : ℤ × ℤ) : Prop :=
  ∃ tj ti n0 n1 n2, triNodes m tj ti = .ok (n0, n1, n2) ∧
    (a = n0 ∧ b = n1 ∨ a = n1 ∧ b = n0 ∨ a = n0 ∧ b = n2 ∨ a = n2 ∧ b = n0 ∨ a = n1 ∧ b = n2 ∨ a = n2 ∧ b = n1)

theorem mem_edges (nj ni : ℕ) (a b : ℤ × ℤ) :
    (a, b) ∈ edges nj ni ↔
      (0 ≤ a.1 ∧ a.1 < nj ∧ 0 ≤ a.2 ∧ a.2 < (ni - 1 : ℕ) ∧ b.1 = a.1 ∧ b.2 = a.2 + 1) ∨
      (0 ≤ a.1 ∧ a.1 < (nj - 1 : ℕ) ∧ 0 ≤ a.2 ∧ a.2 < ni ∧ b.1 = a.1 + 1 ∧ b.2 = a.2) ∨
      (0 ≤ a.1 ∧ a.1 < (nj - 1 : ℕ) ∧ a.1 % 2 = 0 ∧ 1 ≤ a.2 ∧ a.2 < ni ∧ b.1 = a.1 + 1 ∧ b.2 = a.2 - 1) ∨
      (0 ≤ a.1 ∧ a.1 < (nj - 1 : ℕ) ∧ a.1 % 2 = 1 ∧ 0 ≤ a.2 ∧ a.2 < (ni - 1 : ℕ) ∧ b.1 = a.1 + 1 ∧ b.2 = a.2 + 1) := by
  obtain ⟨a1, a2⟩ := a
  obtain ⟨b1, b2⟩ := b
  unfold edges
  simp only [List.mem_append, List.mem_flatMap, List.mem_map, mem_irange, Prod.mk.injEq]
  constructor
  · rintro (((⟨j, hj, i, hi, ⟨rfl, rfl⟩, rfl, rfl⟩ | ⟨j, hj, i, hi, ⟨rfl, rfl⟩, rfl, rfl⟩) | ⟨j, hj, i, hi, ⟨rfl, rfl⟩, rfl, rfl⟩) |
      ⟨j, hj, i, hi, ⟨rfl, rfl⟩, rfl, rfl⟩)
    · left; omega
    · right; left; omega
    · right; right; left; omega
    · right; right; right; omega
  · rintro (h | h | h | h)
    · left; left; left; exact ⟨a1, by omega, a2, by omega, ⟨rfl, rfl⟩, by omega, by omega⟩
    · left; left; right; exact ⟨a1, by omega, a2, by omega, ⟨rfl, rfl⟩, by omega, by omega⟩
    · left; right; exact ⟨a1, by omega, a2, by omega, ⟨rfl, rfl⟩, by omega, by omega⟩
    · right; exact ⟨a1, by omega, a2, by omega, ⟨rfl, rfl⟩, by omega, by omega⟩

theorem triNodes_even (m : Mesh K) (j q : ℤ) (hj : 0 ≤ j ∧ j < m.nj - 1) (hq : 0 ≤ q ∧ q < m.ni - 1) :
    triNodes m j (2 * q) = .ok ((j + j % 2, q), (j + j % 2, q + 1), (j + 1 - j % 2, q)) := by
  unfold triNodes
  have e1 : (2 * q) % 2 = 0 := by omega
  have e2 : (2 * q) / 2 = q := by omega
  dsimp only
  rw [if_pos (by omega), e1, e2]
  simp

theorem triNodes_odd (m : Mesh K) (j q : ℤ) (hj : 0 ≤ j ∧ j < m.nj - 1) (hq : 0 ≤ q ∧ q < m.ni - 1) :
    triNodes m j (2 * q + 1) = .ok ((j + 1 - j % 2, q), (j + 1 - j % 2, q + 1), (j + j % 2, q + 1)) := by
  unfold triNodes
  have e1 : (2 * q + 1) % 2 = 1 := by omega
  have e2 : (2 * q + 1) / 2 = q := by omega
  dsimp only
  rw [if_pos (by omega), e1, e2]
  simp

theorem triNodes_cases (m : Mesh K) (tj ti : ℤ) (n : (ℤ × ℤ) × (ℤ × ℤ) × (ℤ × ℤ)) (h : triNodes m tj ti = .ok n) :
    (0 ≤ tj ∧ tj < m.nj - 1) ∧ ∃ q, (0 ≤ q ∧ q < m.ni - 1) ∧
      (n = ((tj + tj % 2, q), (tj + tj % 2, q + 1), (tj + 1 - tj % 2, q)) ∨
       n = ((tj + 1 - tj % 2, q), (tj + 1 - tj % 2, q + 1), (tj + tj % 2, q + 1))) := by
  have hv : 0 ≤ tj ∧ tj < m.nj - 1 ∧ 0 ≤ ti ∧ ti < 2 * (m.ni - 1) := by
    by_contra hc
    unfold triNodes at h
    dsimp only at h
    rw [if_neg hc] at h
    cases h
  refine ⟨⟨hv.1, hv.2.1⟩, ti / 2, ⟨by omega, by omega⟩, ?_⟩
  rcases Int.emod_two_eq_zero_or_one ti with hp | hp
  · left
    have e : ti = 2 * (ti / 2) := by omega
    rw [e, triNodes_even m tj (ti / 2) (by omega) (by omega)] at h
    injection h with h
    exact h.symm
  · right
    have e : ti = 2 * (ti / 2) + 1 := by omega
    rw [e, triNodes_odd m tj (ti / 2) (by omega) (by omega)] at h
    injection h with h
    exact h.symm

/-- The pairs of nodes looked at are the sides of the triangles of the mesh, all of them and no others. -/
theorem C64_edges (m : Mesh K) (hm : m.Good) (a b : ℤ × ℤ) :
    ((a, b) ∈ edges m.nj.toNat m.ni.toNat ∨ (b, a) ∈ edges m.nj.toNat m.ni.toNat) ↔ SideOfTriangle m a b := by
  have h1 := hm.nj2
  have h2 := hm.ni2
  have forward : ∀ a b : ℤ × ℤ, (a, b) ∈ edges m.nj.toNat m.ni.toNat → SideOfTriangle m a b := by
    rintro ⟨a1, a2⟩ ⟨b1, b2⟩ h
    rw [mem_edges] at h
    dsimp only at h
    rcases h with ⟨c1, c2, c3, c4, rfl, rfl⟩ | ⟨c1, c2, c3, c4, rfl, rfl⟩ | ⟨c1, c2, cp, c3, c4, rfl, rfl⟩ | ⟨c1, c2, cp, c3, c4, rfl, rfl⟩
    · rcases Int.emod_two_eq_zero_or_one b1 with hp | hp
      · by_cases hlast : b1 < m.nj - 1
        · refine ⟨b1, 2 * a2, _, _, _, triNodes_even m b1 a2 (by omega) (by omega), Or.inl ⟨?_, ?_⟩⟩ <;>
            rw [hp] <;> simp
        · have hp' : (b1 - 1) % 2 = 1 := by omega
          refine ⟨b1 - 1, 2 * a2, _, _, _, triNodes_even m (b1 - 1) a2 (by omega) (by omega), Or.inl ⟨?_, ?_⟩⟩ <;>
            rw [hp'] <;> simp
      · by_cases hlast : b1 < m.nj - 1
        · refine ⟨b1, 2 * a2 + 1, _, _, _, triNodes_odd m b1 a2 (by omega) (by omega), Or.inl ⟨?_, ?_⟩⟩ <;>
            rw [hp] <;> simp
        · have hp' : (b1 - 1) % 2 = 0 := by omega
          refine ⟨b1 - 1, 2 * a2 + 1, _, _, _, triNodes_odd m (b1 - 1) a2 (by omega) (by omega), Or.inl ⟨?_, ?_⟩⟩ <;>
            rw [hp'] <;> simp
    · by_cases hlast : b2 < m.ni - 1
      · refine ⟨a1, 2 * b2, _, _, _, triNodes_even m a1 b2 (by omega) (by omega), ?_⟩
        rcases Int.emod_two_eq_zero_or_one a1 with hp | hp <;> rw [hp] <;> simp
      · refine ⟨a1, 2 * (b2 - 1) + 1, _, _, _, triNodes_odd m a1 (b2 - 1) (by omega) (by omega), ?_⟩
        rcases Int.emod_two_eq_zero_or_one a1 with hp | hp <;> rw [hp] <;> simp
    · refine ⟨a1, 2 * (a2 - 1), _, _, _, triNodes_even m a1 (a2 - 1) (by omega) (by omega), ?_⟩
      rw [cp]; simp
    · refine ⟨a1, 2 * a2, _, _, _, triNodes_even m a1 a2 (by omega) (by omega), ?_⟩
      rw [cp]; simp
  have symm : ∀ a b : ℤ × ℤ, SideOfTriangle m a b → SideOfTriangle m b a := by
    rintro a b ⟨tj, ti, n0, n1, n2, h, hc⟩
    exact ⟨tj, ti, n0, n1, n2, h, by tauto⟩
  constructor
  · rintro (h | h)
    · exact forward a b h
    · exact symm b a (forward b a h)
  · rintro ⟨tj, ti, n0, n1, n2, h, hc⟩
    obtain ⟨hj, q, hq, hn⟩ := triNodes_cases m tj ti _ h
    have row : ∀ j : ℤ, 0 ≤ j ∧ j < m.nj → ((j, q), (j, q + 1)) ∈ edges m.nj.toNat m.ni.toNat := by
      intro j hj'
      rw [mem_edges]
      exact Or.inl ⟨by omega, by omega, by omega, by omega, rfl, rfl⟩
    have col : ∀ i : ℤ, 0 ≤ i ∧ i < m.ni → ((tj, i), (tj + 1, i)) ∈ edges m.nj.toNat m.ni.toNat := by
      intro i hi'
      rw [mem_edges]
      exact Or.inr (Or.inl ⟨by omega, by omega, by omega, by omega, rfl, rfl⟩)
    have hkey : (∀ a b, (a = n0 ∧ b = n1 ∨ a = n0 ∧ b = n2 ∨ a = n1 ∧ b = n2) →
        (a, b) ∈ edges m.nj.toNat m.ni.toNat ∨ (b, a) ∈ edges m.nj.toNat m.ni.toNat) := by
      rcases Int.emod_two_eq_zero_or_one tj with hp | hp
      · have dia : ((tj, q + 1), (tj + 1, q)) ∈ edges m.nj.toNat m.ni.toNat := by
          rw [mem_edges]
          exact Or.inr (Or.inr (Or.inl ⟨by omega, by omega, hp, by omega, by omega, rfl, by omega⟩))
        rw [hp] at hn
        rcases hn with hn | hn
        · simp only [Prod.mk.injEq, add_zero, sub_zero] at hn
          obtain ⟨rfl, rfl, rfl⟩ := hn
          rintro a b (⟨rfl, rfl⟩ | ⟨rfl, rfl⟩ | ⟨rfl, rfl⟩)
          · exact Or.inl (row _ (by omega))
          · exact Or.inl (col _ (by omega))
          · exact Or.inl dia
        · simp only [Prod.mk.injEq, add_zero, sub_zero] at hn
          obtain ⟨rfl, rfl, rfl⟩ := hn
          rintro a b (⟨rfl, rfl⟩ | ⟨rfl, rfl⟩ | ⟨rfl, rfl⟩)
          · exact Or.inl (row _ (by omega))
          · exact Or.inr dia
          · exact Or.inr (col _ (by omega))
      · have dia : ((tj, q), (tj + 1, q + 1)) ∈ edges m.nj.toNat m.ni.toNat := by
          rw [mem_edges]
          exact Or.inr (Or.inr (Or.inr ⟨by omega, by omega, hp, by omega, by omega, rfl, rfl⟩))
        rw [hp] at hn
        rcases hn with hn | hn
        · simp only [Prod.mk.injEq, add_sub_cancel_right] at hn
          obtain ⟨rfl, rfl, rfl⟩ := hn
          rintro a b (⟨rfl, rfl⟩ | ⟨rfl, rfl⟩ | ⟨rfl, rfl⟩)
          · exact Or.inl (row _ (by omega))
          · exact Or.inr (col _ (by omega))
          · exact Or.inr dia
        · simp only [Prod.mk.injEq, add_sub_cancel_right] at hn
          obtain ⟨rfl, rfl, rfl⟩ := hn
          rintro a b (⟨rfl, rfl⟩ | ⟨rfl, rfl⟩ | ⟨rfl, rfl⟩)
          · exact Or.inl (row _ (by omega))
          · exact Or.inl dia
          · exact Or.inl (col _ (by omega))
    rcases hc with hc | hc | hc | hc | hc | hc
    · exact hkey a b (Or.inl hc)
    · exact (hkey b a (Or.inl ⟨hc.2, hc.1⟩)).symm
    · exact hkey a b (Or.inr (Or.inl hc))
    · exact (hkey b a (Or.inr (Or.inl ⟨hc.2, hc.1⟩))).symm
    · exact hkey a b (Or.inr (Or.inr hc))
    · exact (hkey b a (Or.inr (Or.inr ⟨hc.2, hc.1⟩))).symm

theorem nodup_irange (lo hi step : ℕ) : (irange lo hi step).Nodup := by
  unfold irange
  refine List.Nodup.map ?_ (List.nodup_range.filter _)
  intro a b h
  simp only at h
  omega

theorem nodup_grid {js is : List ℤ} (hj : js.Nodup) (hi : is.Nodup) (f : ℤ → ℤ → ℤ × ℤ) :
    (js.flatMap fun j => is.map fun i => (((j, i), f j i) : (ℤ × ℤ) × (ℤ × ℤ))).Nodup := by
  rw [List.nodup_flatMap]
  refine ⟨fun j _ => List.Nodup.map (fun a b h => by simp only [Prod.mk.injEq] at h; exact h.1.2) hi, ?_⟩
  refine hj.imp ?_
  intro a b hab
  rw [Function.onFun, List.disjoint_left]
  intro e h1 h2
  obtain ⟨i, -, rfl⟩ := List.mem_map.1 h1
  obtain ⟨i', -, h⟩ := List.mem_map.1 h2
  simp only [Prod.mk.injEq] at h
  exact hab h.1.1.symm

/-- No edge is looked at twice, in either direction. -/
theorem C64_edges_once (nj ni : ℕ) :
    (edges nj ni).Nodup ∧ ∀ a b : ℤ × ℤ, (a, b) ∈ edges nj ni → (b, a) ∉ edges nj ni := by
  constructor
  · have hd : ∀ {X Y : List ((ℤ × ℤ) × (ℤ × ℤ))}, X.Nodup → Y.Nodup → (∀ e ∈ X, e ∉ Y) → (X ++ Y).Nodup := by
      intro X Y hX hY h
      exact List.Nodup.append hX hY (List.disjoint_left.2 fun e h1 h2 => h e h1 h2)
    unfold edges
    refine hd (hd (hd ?_ ?_ ?_) ?_ ?_) ?_ ?_
    · exact nodup_grid (nodup_irange _ _ _) (nodup_irange _ _ _) fun j i => (j, i + 1)
    · exact nodup_grid (nodup_irange _ _ _) (nodup_irange _ _ _) fun j i => (j + 1, i)
    · intro e h1 h2
      simp only [List.mem_flatMap, List.mem_map] at h1 h2
      obtain ⟨j, -, i, -, rfl⟩ := h1
      obtain ⟨j', -, i', -, h⟩ := h2
      simp only [Prod.mk.injEq] at h
      omega
    · exact nodup_grid (nodup_irange _ _ _) (nodup_irange _ _ _) fun j i => (j + 1, i - 1)
    · intro e h1 h2
      simp only [List.mem_append, List.mem_flatMap, List.mem_map] at h1 h2
      obtain ⟨j', -, i', -, h⟩ := h2
      rcases h1 with ⟨j, -, i, -, rfl⟩ | ⟨j, -, i, -, rfl⟩ <;>
      · simp only [Prod.mk.injEq] at h
        omega
    · exact nodup_grid (nodup_irange _ _ _) (nodup_irange _ _ _) fun j i => (j + 1, i + 1)
    · intro e h1 h2
      simp only [List.mem_append, List.mem_flatMap, List.mem_map] at h1 h2
      obtain ⟨j', -, i', -, h⟩ := h2
      rcases h1 with (⟨j, -, i, -, rfl⟩ | ⟨j, -, i, -, rfl⟩) | ⟨j, -, i, -, rfl⟩ <;>
      · simp only [Prod.mk.injEq] at h
        omega
  · intro a b h h'
    rw [mem_edges] at h h'
    omega

/-- `p` is between `a` and `b`, at the place where values varying in proportion from `va` to `vb` are zero -/
def ZeroBetween (a b : P3 K) (va vb : K) (p : P3 K) : Prop :=
  ∃ s : K, 0 < s ∧ s < 1 ∧ p = lerp a b s ∧ va * (1 - s) + vb * s = 0

theorem crossing_zero (a b : P3 K) (va vb : K) (h : va * vb < 0) : ZeroBetween a b va vb (crossingPoint a b va vb) := by
  have ha : va ≠ 0 := by rintro rfl; simp at h
  have hb : vb ≠ 0 := by rintro rfl; simp at h
  have ha' : 0 < |va| := abs_pos.2 ha
  have hb' : 0 < |vb| := abs_pos.2 hb
  have hs : 0 < |va| + |vb| := by linarith
  refine ⟨|va| / (|va| + |vb|), div_pos ha' hs, by rw [div_lt_one hs]; linarith, ?_, ?_⟩
  · unfold crossingPoint lerp
    have e : 1 - |va| / (|va| + |vb|) = |vb| / (|va| + |vb|) := by field_simp; ring
    rw [e]
    dsimp only
    congr 1 <;> (field_simp)
  · have e : 1 - |va| / (|va| + |vb|) = |vb| / (|va| + |vb|) := by field_simp; ring
    rw [e]
    have : va * |vb| + vb * |va| = 0 := by
      rcases lt_or_gt_of_ne ha with h1 | h1
      · have h2 : 0 < vb := by
          by_contra hc
          have := mul_nonneg_of_nonpos_of_nonpos h1.le (not_lt.1 hc)
          linarith
        rw [abs_of_neg h1, abs_of_pos h2]; ring
      · have h2 : vb < 0 := by
          by_contra hc
          have := mul_nonneg h1.le (not_lt.1 hc)
          linarith
        rw [abs_of_pos h1, abs_of_neg h2]; ring
    have hz : va * (|vb| / (|va| + |vb|)) + vb * (|va| / (|va| + |vb|)) = (va * |vb| + vb * |va|) / (|va| + |vb|) := by ring
    rw [hz, this, zero_div]

/-- Each point returned is on a side of a triangle whose nodes have values of opposite signs, where values varying linearly along the side are zero;
and each such side has its point returned.
Full statement wanted: sides where the values reach zero exactly at a node have a point too; see `C64_node_violated`. -/
theorem C64_crossings_partial (m : Mesh K) (hm : m.Good) (v : ℤ → ℤ → K) :
    (∀ p ∈ edgeZeroCrossings m v, ∃ a b, SideOfTriangle m a b ∧ v a.1 a.2 * v b.1 b.2 < 0 ∧
      ZeroBetween (m.node a) (m.node b) (v a.1 a.2) (v b.1 b.2) p) ∧
    (∀ a b, SideOfTriangle m a b → v a.1 a.2 * v b.1 b.2 < 0 →
      ∃ p ∈ edgeZeroCrossings m v, ZeroBetween (m.node a) (m.node b) (v a.1 a.2) (v b.1 b.2) p) := by
  constructor
  · intro p hp
    unfold edgeZeroCrossings at hp
    obtain ⟨⟨a, b⟩, he, rfl⟩ := List.mem_map.1 hp
    obtain ⟨he, hv⟩ := List.mem_filter.1 he
    simp only [decide_eq_true_eq] at hv
    exact ⟨a, b, (C64_edges m hm a b).1 (Or.inl he), hv, crossing_zero _ _ _ _ hv⟩
  · intro a b hab hv
    rcases (C64_edges m hm a b).2 hab with he | he
    · refine ⟨_, List.mem_map.2 ⟨(a, b), List.mem_filter.2 ⟨he, by simpa using hv⟩, rfl⟩, crossing_zero _ _ _ _ hv⟩
    · rw [mul_comm] at hv
      refine ⟨_, List.mem_map.2 ⟨(b, a), List.mem_filter.2 ⟨he, by simpa using hv⟩, rfl⟩, ?_⟩
      obtain ⟨s, h1, h2, h3, h4⟩ := crossing_zero (m.node b) (m.node a) (v b.1 b.2) (v a.1 a.2) hv
      refine ⟨1 - s, by linarith, by linarith, ?_, by linear_combination h4⟩
      dsimp only
      rw [h3]
      unfold lerp
      congr 1 <;> ring

/-- There are exactly as many points as sides with values of opposite signs: one list of such sides, without repeats, gives them all. -/
theorem C64_count (m : Mesh K) (hm : m.Good) (v : ℤ → ℤ → K) :
    ∃ L : List ((ℤ × ℤ) × (ℤ × ℤ)), L.Nodup ∧ (∀ a b, (a, b) ∈ L → (b, a) ∉ L) ∧
      (∀ a b, ((a, b) ∈ L ∨ (b, a) ∈ L) ↔ SideOfTriangle m a b ∧ v a.1 a.2 * v b.1 b.2 < 0) ∧
      List.Forall₂ (fun e p => ZeroBetween (m.node e.1) (m.node e.2) (v e.1.1 e.1.2) (v e.2.1 e.2.2) p) L (edgeZeroCrossings m v) := by
  refine ⟨(edges m.nj.toNat m.ni.toNat).filter fun (e : (ℤ × ℤ) × (ℤ × ℤ)) => decide (v e.1.1 e.1.2 * v e.2.1 e.2.2 < 0),
    (C64_edges_once _ _).1.filter _, ?_, ?_, ?_⟩
  · intro a b h h'
    exact (C64_edges_once _ _).2 a b (List.mem_filter.1 h).1 (List.mem_filter.1 h').1
  · intro a b
    simp only [List.mem_filter, decide_eq_true_eq]
    rw [← C64_edges m hm a b, mul_comm (v b.1 b.2)]
    tauto
  · unfold edgeZeroCrossings
    rw [List.forall₂_map_right_iff, List.forall₂_same]
    rintro ⟨a, b⟩ he
    have := (List.mem_filter.1 he).2
    simp only [decide_eq_true_eq] at this
    exact crossing_zero _ _ _ _ this

/-- Values which go from negative to positive through nodes where they are exactly zero have no crossing found at all. -/
theorem C64_node_violated (m : Mesh K) (hj : m.nj = 3) :
    edgeZeroCrossings m (fun j _ => ((j - 1 : ℤ) : K)) = [] := by
  unfold edgeZeroCrossings
  rw [List.map_eq_nil_iff, List.filter_eq_nil_iff]
  rintro ⟨a, b⟩ he
  rw [mem_edges, hj] at he
  simp only [decide_eq_true_eq, not_lt]
  have key : (0 : ℤ) ≤ (a.1 - 1) * (b.1 - 1) := by
    have h3 : ((3 : ℤ).toNat : ℤ) = 3 := rfl
    have h2 : (((3 : ℤ).toNat - 1 : ℕ) : ℤ) = 2 := rfl
    rw [h3, h2] at he
    rcases he with h | h | h | h
    · rw [h.2.2.2.2.1]; exact mul_self_nonneg _
    all_goals
      have ha : a.1 = 0 ∨ a.1 = 1 := by omega
      have hb : b.1 = a.1 + 1 := by omega
      rw [hb]
      rcases ha with ha | ha <;> rw [ha] <;> norm_num
  exact_mod_cast key

/-! ## Crossings of a plane of constant x or y -/

theorem colCheck_ok (m : Mesh K) (i : ℤ) (u : Unit) (h : colCheck m i = .ok u) : 0 ≤ i ∧ i < m.ni := by
  unfold colCheck at h
  by_contra hc
  rw [if_neg hc] at h
  cases h

theorem node_x_even (m : Mesh K) (j i : ℤ) (h : j % 2 = 0) : (m.node (j, i)).x = (i : K) * m.t + m.ox := by
  unfold Mesh.node Mesh.x
  dsimp only
  rw [if_neg (by omega), add_zero]

theorem node_x_odd (m : Mesh K) (j i : ℤ) (h : j % 2 = 1) : (m.node (j, i)).x = ((i : K) + 1 / 2) * m.t + m.ox := by
  unfold Mesh.node Mesh.x
  dsimp only
  rw [if_pos h]

/-- For a mesh with no origin all the points returned have the x value asked for.
Full statement wanted: for every mesh the points returned are those of the sides which reach the value; see the `violated` theorems. -/
theorem C65_x_partial (m : Mesh K) (hm : m.Good) (ho : m.ox = 0) (value : K) (pts : List (P3 K)) (h : axialX m value = .ok pts) :
    ∀ p ∈ pts, p.x = value := by
  have ht := ne_of_gt hm.t_pos
  unfold axialX at h
  dsimp only at h
  split at h
  swap
  · cases h; intro p hp; cases hp
  generalize hi : ⌊value / m.t⌋ = i at *
  split at h
  next a b c e1 e2 e3 =>
    cases h
    intro p hp
    rw [List.mem_append, List.mem_append] at hp
    rcases hp with (hp | hp) | hp
    · split at e1
      · split at e1
        · cases e1
          obtain ⟨j, hj, rfl⟩ := List.mem_map.1 hp
          rw [mem_irange] at hj
          unfold lerp
          dsimp only
          rw [node_x_even m j i (by omega), node_x_even m j (i + 1) (by omega), ho]
          push_cast; field_simp; ring
        · cases e1
      · cases e1; cases hp
    · split at e2
      · split at e2
        · cases e2
          obtain ⟨j, hj, rfl⟩ := List.mem_map.1 hp
          rw [mem_irange] at hj
          unfold lerp
          dsimp only
          rw [node_x_odd m j _ (by omega), node_x_odd m j _ (by omega), ho]
          push_cast; field_simp; ring
        · cases e2
      · cases e2; cases hp
    · split at e3
      · split at e3
        · split at e3
          · cases e3
            rcases List.mem_append.1 hp with hp | hp
            · obtain ⟨j, hj, rfl⟩ := List.mem_map.1 hp
              rw [mem_irange] at hj
              unfold lerp
              dsimp only
              rw [node_x_even m j _ (by omega), node_x_odd m (j + 1) _ (by omega), ho]
              push_cast; field_simp; ring
            · obtain ⟨j, hj, rfl⟩ := List.mem_map.1 hp
              rw [mem_irange] at hj
              unfold lerp
              dsimp only
              rw [node_x_odd m j _ (by omega), node_x_even m (j + 1) _ (by omega), ho]
              push_cast; field_simp; ring
          · cases e3
        · split at e3
          · cases e3
            rcases List.mem_append.1 hp with hp | hp
            · obtain ⟨j, hj, rfl⟩ := List.mem_map.1 hp
              rw [mem_irange] at hj
              unfold lerp
              dsimp only
              rw [node_x_even m j _ (by omega), node_x_odd m (j + 1) _ (by omega), ho]
              push_cast; field_simp; ring
            · obtain ⟨j, hj, rfl⟩ := List.mem_map.1 hp
              rw [mem_irange] at hj
              unfold lerp
              dsimp only
              rw [node_x_odd m j _ (by omega), node_x_even m (j + 1) _ (by omega), ho]
              push_cast; field_simp; ring
          · cases e3
      · cases e3; cases hp
  all_goals cases h

/-- For a mesh with no origin all the points returned have the y value asked for.
Full statement wanted: as for x. -/
theorem C65_y_partial (m : Mesh K) (hm : m.Good) (ho : m.oy = 0) (value : K) (pts : List (P3 K)) (h : axialY m value = .ok pts) :
    ∀ p ∈ pts, p.y = value := by
  have ht := ne_of_gt hm.t_pos
  have hr := ne_of_gt hm.r_pos
  unfold axialY at h
  dsimp only at h
  have hl : ∀ (a b : ℤ), (lerp (m.node (⌊value / (m.t * m.r)⌋, a)) (m.node (⌊value / (m.t * m.r)⌋ + 1, b))
      ((value - m.t * m.r * (⌊value / (m.t * m.r)⌋ : K)) / (m.t * m.r))).y = value := by
    intro a b
    generalize ⌊value / (m.t * m.r)⌋ = j
    unfold lerp Mesh.node Mesh.y
    dsimp only
    rw [ho]
    push_cast; field_simp; ring
  split at h
  · split at h
    · split at h <;> cases h
    · split at h
      · cases h
        intro p hp
        rcases List.mem_append.1 hp with hp | hp
        · obtain ⟨i, -, rfl⟩ := List.mem_map.1 hp
          exact hl _ _
        · split at hp
          · obtain ⟨i, -, rfl⟩ := List.mem_map.1 hp
            exact hl _ _
          · obtain ⟨i, -, rfl⟩ := List.mem_map.1 hp
            exact hl _ _
      · cases h
  · cases h; intro p hp; cases hp

/-- Asking for the y value of a row of nodes is an error: here the first row, for every mesh. -/
theorem C65_row_violated (m : Mesh K) (hm : m.Good) : axialY m 0 = .error .unbound := by
  have h1 := hm.nj2
  unfold axialY
  dsimp only
  have hf : ⌊(0 : K) / (m.t * m.r)⌋ = 0 := by rw [zero_div, Int.floor_zero]
  rw [hf, if_pos, if_pos (by simp), if_pos (by omega)]
  refine ⟨le_refl _, ?_⟩
  have a1 : (0 : K) ≤ ((m.nj - 1 : ℤ) : K) := by exact_mod_cast (by omega : (0 : ℤ) ≤ m.nj - 1)
  have := mul_nonneg (mul_nonneg a1 hm.t_pos.le) hm.r_pos.le
  simpa using this

/-- With an origin the value is not shifted by it, so that the points returned do not have it; with a short side crossings are missed, and with a
long side an index error is raised for a value beyond the mesh. -/
theorem C65_x_violated :
    (axialX (⟨2, 2, 1, 7 / 8, 10, 0, fun _ _ => 0⟩ : Mesh ℚ) (1 / 4)).toOption.map (fun l => l.map P3.x) = some [41 / 4, 41 / 4] ∧
    (axialX (⟨2, 5, 1 / 2, 7 / 8, 0, 0, fun _ _ => 0⟩ : Mesh ℚ) (13 / 8)).toOption.map List.length = some 0 ∧
    (axialX (⟨2, 2, 100, 7 / 8, 0, 0, fun _ _ => 0⟩ : Mesh ℚ) 250).toOption.map List.length = none := by
  refine ⟨by decide +kernel, by decide +kernel, by decide +kernel⟩

/-- the hypotheses are met -/
example : (axialX (⟨3, 3, 2, 7 / 8, 0, 0, fun _ _ => 0⟩ : Mesh ℚ) (5 / 2)).toOption.map List.length = some 5 ∧
    (axialY (⟨3, 3, 2, 7 / 8, 0, 0, fun _ _ => 0⟩ : Mesh ℚ) 2).toOption.map List.length = some 5 := by decide +kernel

end Verif.TriMesh
