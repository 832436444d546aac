import Verif.GridFns.Spec
import Mathlib.Algebra.Order.Field.Basic
import Mathlib.Tactic.FieldSimp
import Mathlib.Tactic.Ring
import Mathlib.Tactic.Linarith
import Mathlib.Tactic.Push

namespace Verif.GridFns
open Verif.Py

variable {K : Type} [Field K] [LinearOrder K]

theorem SameAt.refl (c : Col K) (k : Nat) : SameAt c c k := ⟨rfl, rfl, rfl, rfl⟩

theorem SameAt.trans {a b c : Col K} {k : Nat} (h : SameAt a b k) (h' : SameAt b c k) : SameAt a c k :=
  ⟨h'.1.trans h.1, h'.2.1.trans h.2.1, h'.2.2.1.trans h.2.2.1, h'.2.2.2.trans h.2.2.2⟩

theorem upd_ne {f : Nat → K} {k i : Nat} {v : K} (h : i ≠ k) : upd f k v i = f i := if_neg h

theorem SameAt.active {s : Settings K} {c c' : Col K} {k : Nat} (h : SameAt c c' k) : Active s c' k ↔ Active s c k := by
  unfold Active; rw [h.1]

structure CleanSpec (s : Settings K) (k : Nat) (c : Col K) (k' : Nat) (c' : Col K) : Prop where
  le : k ≤ k'
  inactive : ∀ i, k ≤ i → i < k' → ¬ Active s c i
  active : k' < s.nk → Active s c k'
  same : ∀ i, i < k ∨ k' ≤ i → SameAt c c' i

theorem cleanUp_spec (s : Settings K) (n k : Nat) (c : Col K) (hn : s.nk ≤ n + k) :
    CleanSpec s k c (cleanUp s n k c).1 (cleanUp s n k c).2 := by
  induction n generalizing k c with
  | zero =>
    refine ⟨le_refl _, fun i h1 h2 => ?_, fun h => ?_, fun i _ => SameAt.refl _ _⟩
    · simp only [cleanUp] at h2; omega
    · simp only [cleanUp] at h; omega
  | succ n ih =>
    unfold cleanUp
    split
    · rename_i h
      obtain ⟨a, b, d, e⟩ := ih (k + 1)
        { depth := upd c.depth k 0, thick := upd c.thick k 0,
          x := if |c.x k| ≤ s.xyTol then upd c.x k 0 else c.x,
          y := if |c.y k| ≤ s.xyTol then upd c.y k 0 else c.y } (by omega)
      have hs : ∀ i, i ≠ k → SameAt c
        { depth := upd c.depth k 0, thick := upd c.thick k 0,
          x := if |c.x k| ≤ s.xyTol then upd c.x k 0 else c.x,
          y := if |c.y k| ≤ s.xyTol then upd c.y k 0 else c.y } i := by
        intro i hi
        refine ⟨upd_ne hi, upd_ne hi, ?_, ?_⟩
        · dsimp only
          split
          · exact upd_ne hi
          · rfl
        · dsimp only
          split
          · exact upd_ne hi
          · rfl
      refine ⟨by omega, ?_, ?_, ?_⟩
      · intro i h1 h2
        by_cases hik : i = k
        · subst hik
          intro ha
          exact absurd h.2 (not_le.mpr ha.2)
        · have := b i (by omega) h2
          rwa [(hs i hik).active] at this
      · intro hk'
        have := d hk'
        rwa [(hs _ (by omega)).active] at this
      · intro i hi
        have hik : i ≠ k := by omega
        exact (hs i hik).trans (e i (by omega))
    · rename_i h
      refine ⟨le_refl _, fun i h1 h2 => by omega, fun hk => ⟨hk, ?_⟩, fun i _ => SameAt.refl _ _⟩
      by_contra hc
      exact h ⟨hk, not_lt.mp hc⟩

theorem skipActive_spec (s : Settings K) (n k : Nat) (c : Col K) (hn : s.nk ≤ n + k) :
    k ≤ skipActive s n k c ∧ (∀ i, k ≤ i → i < skipActive s n k c → Active s c i) ∧
      ¬ Active s c (skipActive s n k c) := by
  induction n generalizing k with
  | zero => exact ⟨le_refl _, fun i h1 h2 => by simp only [skipActive] at h2; omega, fun h => by have := h.1; simp only [skipActive] at this; omega⟩
  | succ n ih =>
    unfold skipActive
    split
    · rename_i h
      obtain ⟨a, b, d⟩ := ih (k + 1) (by omega)
      refine ⟨by omega, ?_, d⟩
      intro i h1 h2
      by_cases hik : i = k
      · subst hik; exact h
      · exact b i (by omega) h2
    · rename_i h
      exact ⟨le_refl _, fun i h1 h2 => by omega, fun ha => h ha⟩

variable [IsStrictOrderedRing K]

/-- filling a void -/
theorem fillVoid_filled (s : Settings K) (hs : s.sign = 1 ∨ s.sign = -1) (kTop kBase : Nat) (h0 : 0 < kTop) (hlt : kTop < kBase)
    (c : Col K) (hi : 0 ≤ s.sign * (topOf s c kBase - baseOf s c (kTop - 1))) :
    let top := c.depth (kTop - 1) + c.thick (kTop - 1) / 2 * s.sign
    let bottom := c.depth kBase - c.thick kBase / 2 * s.sign
    let interval := s.sign * (bottom - top)
    let c' := fillVoid s kTop (kBase - kTop) top (interval / (kBase - kTop : Nat)) (c.x (kTop - 1))
      (c.x kBase - c.x (kTop - 1)) (c.y (kTop - 1)) (c.y kBase - c.y (kTop - 1)) c
    Filled s c' (kTop - 1) kBase ∧ ∀ k, k < kTop ∨ kBase ≤ k → SameAt c c' k := by
  intro top bottom interval c'
  obtain ⟨n, rfl⟩ : ∃ n, kTop = n + 1 := ⟨kTop - 1, by omega⟩
  obtain ⟨m, rfl⟩ : ∃ m, kBase = n + 1 + (m + 1) := ⟨kBase - n - 2, by omega⟩
  have hcount : n + 1 + (m + 1) - (n + 1) = m + 1 := by omega
  have hm : ((m : K) + 1) ≠ 0 := by positivity
  have hsq : s.sign * s.sign = 1 := by rcases hs with h | h <;> rw [h] <;> ring
  have hin : ∀ i, i ≤ m → c'.depth (n + 1 + i) = top + (1 / 2 + (i : K)) * (interval / (m + 1)) * s.sign ∧
      c'.thick (n + 1 + i) = interval / (m + 1) ∧
      c'.x (n + 1 + i) = c.x n + (1 / 2 + (i : K)) * (c.x (n + 1 + (m + 1)) - c.x n) / (m + 1) ∧
      c'.y (n + 1 + i) = c.y n + (1 / 2 + (i : K)) * (c.y (n + 1 + (m + 1)) - c.y n) / (m + 1) := by
    intro i hi
    have hc : n + 1 ≤ n + 1 + i ∧ n + 1 + i < n + 1 + (n + 1 + (m + 1) - (n + 1)) := by omega
    have e1 : n + 1 + i - (n + 1) = i := by omega
    have e2 : n + 1 - 1 = n := by omega
    refine ⟨?_, ?_, ?_, ?_⟩ <;>
    · simp only [c', fillVoid]
      rw [if_pos hc, hcount]
      push_cast
      first
        | rfl
        | rw [e1]
  have hout : ∀ k, k < n + 1 ∨ n + 1 + (m + 1) ≤ k → SameAt c c' k := by
    intro k hk
    have hc : ¬ (n + 1 ≤ k ∧ k < n + 1 + (n + 1 + (m + 1) - (n + 1))) := by omega
    exact ⟨if_neg hc, if_neg hc, if_neg hc, if_neg hc⟩
  refine ⟨?_, hout⟩
  have e2 : n + 1 - 1 = n := by omega
  rw [e2] at hi ⊢
  have hn := hout n (by omega)
  have hb := hout (n + 1 + (m + 1)) (by omega)
  have htop : top = c.depth n + c.thick n / 2 * s.sign := by simp only [top, e2]
  have hint : interval = s.sign * (topOf s c (n + 1 + (m + 1)) - baseOf s c n) := by
    simp only [interval, bottom, topOf, baseOf, htop]; ring
  have hint0 : 0 ≤ interval := by rw [hint]; exact hi
  have hmul : interval / ((m : K) + 1) * (m + 1) = interval := div_mul_cancel₀ _ hm
  refine ⟨?_, ?_, ?_, ?_, ?_⟩
  · intro k h1 h2
    rcases Nat.eq_or_lt_of_le h1 with rfl | h1
    · -- the cell above the void
      obtain ⟨d, t, _⟩ := hin 0 (by omega)
      unfold baseOf topOf
      rw [hn.1, hn.2.1]
      rw [Nat.add_zero] at d t
      rw [d, t, htop]
      push_cast
      ring
    · obtain ⟨i, rfl⟩ : ∃ i, k = n + 1 + i := ⟨k - n - 1, by omega⟩
      obtain ⟨d, t, _⟩ := hin i (by omega)
      by_cases hl : i = m
      · subst hl
        have e3 : n + 1 + i + 1 = n + 1 + (i + 1) := by omega
        unfold baseOf topOf
        rw [d, t, e3, hb.1, hb.2.1]
        have e4 : top + (1 / 2 + (i : K)) * (interval / (i + 1)) * s.sign + s.sign * (interval / (i + 1)) / 2 =
          top + s.sign * (interval / (i + 1) * (i + 1)) := by ring
        rw [e4, hmul, hint, ← mul_assoc, hsq]
        unfold topOf baseOf
        rw [htop]; ring
      · obtain ⟨d', t', _⟩ := hin (i + 1) (by omega)
        have e3 : n + 1 + i + 1 = n + 1 + (i + 1) := by omega
        unfold baseOf topOf
        rw [d, t, e3, d', t']
        push_cast
        ring
  · intro k l h1 h2 h3 h4
    obtain ⟨i, rfl⟩ : ∃ i, k = n + 1 + i := ⟨k - n - 1, by omega⟩
    obtain ⟨j, rfl⟩ : ∃ j, l = n + 1 + j := ⟨l - n - 1, by omega⟩
    rw [(hin i (by omega)).2.1, (hin j (by omega)).2.1]
  · intro k h1 h2
    obtain ⟨i, rfl⟩ : ∃ i, k = n + 1 + i := ⟨k - n - 1, by omega⟩
    rw [(hin i (by omega)).2.1]
    positivity
  · intro k h1 h2
    obtain ⟨i, rfl⟩ : ∃ i, k = n + 1 + i := ⟨k - n - 1, by omega⟩
    rw [(hin i (by omega)).2.2.1, hn.2.2.1, hb.2.2.1]
    have e5 : n + 1 + (m + 1) - n - 1 = m + 1 := by omega
    have e6 : n + 1 + i - n = i + 1 := by omega
    rw [e5, e6]
    push_cast
    field_simp
    ring
  · intro k h1 h2
    obtain ⟨i, rfl⟩ : ∃ i, k = n + 1 + i := ⟨k - n - 1, by omega⟩
    rw [(hin i (by omega)).2.2.2, hn.2.2.2, hb.2.2.2]
    have e5 : n + 1 + (m + 1) - n - 1 = m + 1 := by omega
    have e6 : n + 1 + i - n = i + 1 := by omega
    rw [e5, e6]
    push_cast
    field_simp
    ring

theorem Filled.congr {s : Settings K} {c c' : Col K} {a b : Nat} (h : Filled s c a b) (hab : a < b)
    (he : ∀ k, a ≤ k → k ≤ b → SameAt c c' k) : Filled s c' a b := by
  have hd : ∀ k, a ≤ k → k ≤ b → baseOf s c' k = baseOf s c k ∧ topOf s c' k = topOf s c k := by
    intro k h1 h2
    have := he k h1 h2
    unfold baseOf topOf
    rw [this.1, this.2.1]
    exact ⟨rfl, rfl⟩
  refine ⟨?_, ?_, ?_, ?_, ?_⟩
  · intro k h1 h2
    rw [(hd k h1 (by omega)).1, (hd (k + 1) (by omega) (by omega)).2]
    exact h.contiguous k h1 h2
  · intro k l h1 h2 h3 h4
    rw [(he k (by omega) (by omega)).2.1, (he l (by omega) (by omega)).2.1]
    exact h.equal k l h1 h2 h3 h4
  · intro k h1 h2
    rw [(he k (by omega) (by omega)).2.1]
    exact h.nonneg k h1 h2
  · intro k h1 h2
    rw [(he k (by omega) (by omega)).2.2.1, (he a (by omega) (by omega)).2.2.1, (he b (by omega) (by omega)).2.2.1]
    exact h.x_even k h1 h2
  · intro k h1 h2
    rw [(he k (by omega) (by omega)).2.2.2, (he a (by omega) (by omega)).2.2.2, (he b (by omega) (by omega)).2.2.2]
    exact h.y_even k h1 h2

/-- what has been achieved for cells up to `n`, everything from `n` on being as at first -/
structure Done (s : Settings K) (c0 c : Col K) (n : Nat) : Prop where
  rest : ∀ k, n ≤ k → SameAt c0 c k
  kept : ∀ k, Active s c0 k → SameAt c0 c k
  filled : ∀ a b, b ≤ n → Consecutive s c0 a b → a + 1 < b → Filled s c a b

theorem infillLoop_spec (s : Settings K) (hs : s.sign = 1 ∨ s.sign = -1) (hsnap : s.snap = false) (c0 : Col K)
    (ho : NoOverlap s c0) (fuel kTop : Nat) (c : Col K) (hd : Done s c0 c kTop) (ha : Active s c0 kTop)
    (hf : s.nk < fuel + kTop) :
    ∃ c', infillLoop s fuel kTop c = .ok c' ∧ (∀ k, Active s c0 k → SameAt c0 c' k) ∧
      ∀ a b, Consecutive s c0 a b → a + 1 < b → Filled s c' a b := by
  induction fuel generalizing kTop c with
  | zero =>
    have := ha.1
    omega
  | succ fuel ih =>
    unfold infillLoop
    dsimp only
    obtain ⟨k1, k2, k3⟩ := skipActive_spec s s.nk kTop c (by omega)
    have hac : Active s c kTop := (hd.rest kTop (le_refl _)).active.mpr ha
    generalize hK : skipActive s s.nk kTop c = K1 at k1 k2 k3
    have hK1 : kTop < K1 := by
      rcases Nat.eq_or_lt_of_le k1 with h | h
      · rw [← h] at k3; exact absurd hac k3
      · exact h
    obtain ⟨q1, q2, q3, q4⟩ := cleanUp_spec s s.nk (K1 + 1) c (by omega)
    generalize hB : cleanUp s s.nk (K1 + 1) c = B at q1 q2 q3 q4
    obtain ⟨kBase, c1⟩ := B
    dsimp only at q1 q2 q3 q4 ⊢
    -- activity in the original column
    have act : ∀ k, kTop ≤ k → (Active s c k ↔ Active s c0 k) := fun k hk => (hd.rest k hk).active
    have same1 : ∀ k, ¬ (K1 + 1 ≤ k ∧ k < kBase) → SameAt c c1 k := fun k hk => q4 k (by omega)
    have kept1 : ∀ k, Active s c0 k → SameAt c0 c1 k := by
      intro k hk
      refine (hd.kept k hk).trans (same1 k ?_)
      rintro ⟨h1, h2⟩
      exact q2 k h1 h2 ((act k (by omega)).mpr hk)
    -- consecutive active cells up to the void are those before
    have cons1 : ∀ a b, Consecutive s c0 a b → a + 1 < b → b < kBase → b ≤ kTop := by
      intro a b hab hgap hb
      by_contra hc
      push Not at hc
      have hb' : b < K1 := by
        by_contra hbk
        push Not at hbk
        have hbact := (act b (by omega)).mpr hab.2.1
        rcases Nat.eq_or_lt_of_le hbk with h | h
        · rw [← h] at hbact; exact k3 hbact
        · exact q2 b (by omega) hb hbact
      have := k2 (b - 1) (by omega) (by omega)
      exact hab.2.2.2 (b - 1) (by omega) (by omega) ((act (b - 1) (by omega)).mp this)
    have filled1 : ∀ a b, Consecutive s c0 a b → a + 1 < b → b ≤ kTop → Filled s c1 a b := by
      intro a b hab hgap hb
      refine (hd.filled a b hb hab hgap).congr (by omega) ?_
      intro k _ hk
      exact same1 k (by omega)
    split
    · rename_i hge
      refine ⟨_, rfl, ?_⟩
      have e : snapTop s K1 true c1 = c1 := by unfold snapTop; simp [hsnap]
      rw [e]
      refine ⟨kept1, ?_⟩
      intro a b hab hgap
      apply filled1 a b hab hgap
      apply cons1 a b hab hgap
      have := hab.2.1.1
      omega
    · rename_i hlt
      push Not at hlt
      have hbase := (act kBase (by omega)).mp (q3 hlt)
      have htop := (act (K1 - 1) (by omega)).mp (k2 (K1 - 1) (by omega) (by omega))
      have hcons : Consecutive s c0 (K1 - 1) kBase := by
        refine ⟨htop, hbase, by omega, ?_⟩
        intro k h1 h2 hk
        have hk' := (act k (by omega)).mpr hk
        by_cases hkk : k = K1
        · rw [hkk] at hk'; exact k3 hk'
        · exact q2 k (by omega) h2 hk'
      have hno := ho _ _ hcons (by omega)
      have st := kept1 _ htop
      have sb := kept1 _ hbase
      have hno1 : 0 ≤ s.sign * (topOf s c1 kBase - baseOf s c1 (K1 - 1)) := by
        unfold topOf baseOf at hno ⊢
        rw [st.1, st.2.1, sb.1, sb.2.1]
        exact hno
      have hfill := fillVoid_filled s hs K1 kBase (by omega) (by omega) c1 hno1
      have hnn : ¬ s.sign * (c1.depth kBase - c1.thick kBase / 2 * s.sign -
          (c1.depth (K1 - 1) + c1.thick (K1 - 1) / 2 * s.sign)) < 0 := by
        rw [not_lt]
        have e : s.sign * (c1.depth kBase - c1.thick kBase / 2 * s.sign -
          (c1.depth (K1 - 1) + c1.thick (K1 - 1) / 2 * s.sign)) =
          s.sign * (topOf s c1 kBase - baseOf s c1 (K1 - 1)) := by unfold topOf baseOf; ring
        rw [e]
        exact hno1
      rw [if_neg hnn]
      refine ih kBase _ ?_ hbase (by omega)
      obtain ⟨f1, f2⟩ := hfill
      refine ⟨?_, ?_, ?_⟩
      · intro k hk
        exact (((hd.rest k (by omega)).trans (same1 k (by omega)))).trans (f2 k (Or.inr hk))
      · intro k hk
        refine (kept1 k hk).trans (f2 k ?_)
        by_contra hc
        push Not at hc
        exact hcons.2.2.2 k (by omega) hc.2 hk
      · intro a b hb hab hgap
        rcases Nat.eq_or_lt_of_le hb with h | h
        · subst h
          have hae : a = K1 - 1 := by
            rcases Nat.lt_trichotomy a (K1 - 1) with h | h | h
            · exact absurd htop (hab.2.2.2 (K1 - 1) h (by omega))
            · exact h
            · exact absurd hab.1 (hcons.2.2.2 a h hab.2.2.1)
          rw [hae]
          exact f1
        · have hbk := cons1 a b hab hgap h
          refine (filled1 a b hab hgap hbk).congr (by omega) ?_
          intro k _ hk
          exact f2 k (by omega)

end Verif.GridFns
