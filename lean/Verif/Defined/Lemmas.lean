import Verif.Defined.Spec
import Mathlib.Tactic.Ring
import Mathlib.Tactic.SplitIfs
import Mathlib.Tactic.FinCases
import Mathlib.Data.Fintype.Basic

namespace Verif.Defined
open Verif.Py

theorem anyN_iff {n : Nat} {f : Nat → Bool} : anyN n f = true ↔ ∃ k < n, f k = true := by
  simp [anyN]

theorem allN_iff {n : Nat} {f : Nat → Bool} : allN n f = true ↔ ∀ k < n, f k = true := by
  simp [allN]

theorem allN_false {n : Nat} {f : Nat → Bool} : allN n f = false ↔ ∃ k < n, f k = false := by
  rw [← Bool.not_eq_true, allN_iff]; push Not; simp

theorem anyN_false {n : Nat} {f : Nat → Bool} : anyN n f = false ↔ ∀ k < n, f k = false := by
  rw [← Bool.not_eq_true, anyN_iff]; push Not; simp

theorem nanPoint_false {tn : Option Rat} {p : Fin 3 → Option Rat} : nanPoint tn p = false ↔ Point tn p := by
  unfold nanPoint Point
  constructor
  · intro h c
    have key : ∀ c, (p c).isNone = false → (∀ v, tn = some v → p c ≠ some v) → ∃ v, p c = some v ∧ tn ≠ some v := by
      intro c h1 h2
      cases hc : p c with
      | none => simp [hc] at h1
      | some w => exact ⟨w, rfl, fun e => h2 w e hc⟩
    cases tn with
    | none =>
      simp only [Bool.or_eq_false_iff] at h
      refine key c ?_ (by simp)
      fin_cases c <;> simp_all
    | some v =>
      simp only [Bool.or_eq_false_iff] at h
      refine key c ?_ ?_
      · fin_cases c <;> simp_all
      · intro w hw
        cases hw
        fin_cases c <;> simp_all
  · intro h
    obtain ⟨a, ha, ta⟩ := h 0
    obtain ⟨b, hb, tb⟩ := h 1
    obtain ⟨c, hc, tc⟩ := h 2
    cases tn with
    | none => simp [ha, hb, hc]
    | some v =>
      have e1 : a ≠ v := fun e => ta (by rw [e])
      have e2 : b ≠ v := fun e => tb (by rw [e])
      have e3 : c ≠ v := fun e => tc (by rw [e])
      simp [ha, hb, hc, e1, e2, e3]

theorem nanPoint_true {tn : Option Rat} {p : Fin 3 → Option Rat} : nanPoint tn p = true ↔ ¬ Point tn p := by
  rw [← nanPoint_false]; simp

theorem scanUp_spec {lim : Nat} {m : Nat → Bool} : ∀ {f k : Nat}, lim ≤ k + f →
    k ≤ scanUp lim m f k ∧ (∀ t, k ≤ t → t < scanUp lim m f k → t < lim ∧ m t = true) ∧
      ¬ (scanUp lim m f k < lim ∧ m (scanUp lim m f k) = true) := by
  intro f
  induction f with
  | zero =>
    intro k h
    simp only [scanUp]
    refine ⟨le_refl _, fun t h1 h2 => absurd h1 (by omega), fun h1 => absurd h1.1 (by omega)⟩
  | succ f ih =>
    intro k h
    rw [scanUp]
    by_cases hc : k < lim ∧ m k = true
    · rw [if_pos hc]
      obtain ⟨a, b, c⟩ := @ih (k + 1) (by omega)
      refine ⟨by omega, ?_, c⟩
      intro t h1 h2
      by_cases ht : t = k
      · subst ht; exact hc
      · exact b t (by omega) h2
    · rw [if_neg hc]
      exact ⟨le_refl _, fun t h1 h2 => absurd h1 (by omega), hc⟩

theorem scanDown_le {m : Nat → Bool} : ∀ k, scanDown m k ≤ k := by
  intro k
  induction k with
  | zero => simp [scanDown]
  | succ k ih => rw [scanDown]; split_ifs <;> omega

theorem scanDown_above {m : Nat → Bool} : ∀ k t, scanDown m k < t → t ≤ k → m t = true := by
  intro k
  induction k with
  | zero => intro t h1 h2; simp [scanDown] at h1; omega
  | succ k ih =>
    intro t h1 h2
    rw [scanDown] at h1
    split_ifs at h1 with h
    · by_cases e : t = k + 1
      · rw [e]; exact h
      · exact ih t h1 (by omega)
    · omega

theorem scanDown_at {m : Nat → Bool} : ∀ k, (∃ t ≤ k, m t = false) → m (scanDown m k) = false := by
  intro k
  induction k with
  | zero => rintro ⟨t, h1, h2⟩; have : t = 0 := by omega
            subst this; simpa [scanDown] using h2
  | succ k ih =>
    rintro ⟨t, h1, h2⟩
    rw [scanDown]
    split_ifs with h
    · refine ih ⟨t, ?_, h2⟩
      have : t ≠ k + 1 := fun e => by rw [e, h] at h2; cases h2
      omega
    · simpa using h

theorem linear_out {c : Nat → Option Rat} {a s t : Nat} (h : t < a ∨ s ≤ t) : linear c a s t = c t := by
  unfold linear; rw [if_neg (by omega)]

theorem linear_start {c : Nat → Option Rat} {a s : Nat} (ha : (c a).isSome) (hs : (c s).isSome) (h : a < s) :
    linear c a s a = c a := by
  unfold linear
  rw [if_pos ⟨le_refl _, h⟩]
  obtain ⟨x, hx⟩ := Option.isSome_iff_exists.mp ha
  obtain ⟨y, hy⟩ := Option.isSome_iff_exists.mp hs
  simp [hx, hy, lift2]

/-- The value on a straight line between the points `a` and `b` of a pillar. -/
def onLine (c : Nat → Option Rat) (a b t : Nat) : Option Rat :=
  lift2 (fun x y => x + ((t - a : Nat) : Rat) * ((y - x) / ((b - a : Nat) : Rat))) (c a) (c b)

theorem linear_in {c : Nat → Option Rat} {a s t : Nat} (h1 : a ≤ t) (h2 : t < s) :
    linear c a s t = onLine c a s t := by
  unfold linear onLine; rw [if_pos ⟨h1, h2⟩]

theorem gaps_spec {m : Nat → Bool} {last : Nat} (hl : m last = false) : ∀ (f k : Nat) (c : Nat → Option Rat),
    k ≤ last → m k = false → last ≤ k + f → (∀ t, k ≤ t → t ≤ last → m t = false → (c t).isSome) →
    (∀ t, t ≤ k ∨ last ≤ t → gaps m last f k c t = c t) ∧
    (∀ t, k ≤ t → t ≤ last → m t = false → gaps m last f k c t = c t) ∧
    (∀ a t b, k ≤ a → a < t → t < b → b ≤ last → Adjacent m a b → gaps m last f k c t = onLine c a b t) := by
  intro f
  induction f with
  | zero =>
    intro k c h1 h2 h3 h4
    refine ⟨fun t _ => rfl, fun t _ _ _ => rfl, ?_⟩
    intro a t b g1 g2 g3 g4; omega
  | succ f ih =>
    intro k c h1 h2 h3 hd
    have hgaps : gaps m last (f + 1) k c =
        (if last ≤ scanUp last (fun t => !m t) (last + 1) k then c else
          gaps m last f (scanUp (last + 1) m (last + 1) (scanUp last (fun t => !m t) (last + 1) k + 1))
            (linear c (scanUp last (fun t => !m t) (last + 1) k - 1)
              (scanUp (last + 1) m (last + 1) (scanUp last (fun t => !m t) (last + 1) k + 1)))) := rfl
    rw [hgaps]
    obtain ⟨a1, a2, a3⟩ := @scanUp_spec last (fun t => !m t) (last + 1) k (by omega)
    generalize scanUp last (fun t => !m t) (last + 1) k = k1 at a1 a2 a3
    by_cases hk : last ≤ k1
    · rw [if_pos hk]
      refine ⟨fun t _ => rfl, fun t _ _ _ => rfl, ?_⟩
      intro a t b g1 g2 g3 g4 ⟨e1, e2, e3, e4⟩
      have := a2 t (by omega) (by omega)
      have h5 := e4 t g2 g3
      simp [h5] at this
    · rw [if_neg hk]
      obtain ⟨b1, b2, b3⟩ := @scanUp_spec (last + 1) m (last + 1) (k1 + 1) (by omega)
      generalize scanUp (last + 1) m (last + 1) (k1 + 1) = s at b1 b2 b3
      have hmk1 : m k1 = true := by
        by_contra hh
        exact a3 ⟨by omega, by simpa using hh⟩
      have hkk : k < k1 := by
        rcases Nat.lt_or_ge k k1 with h | h
        · exact h
        · have : k1 = k := by omega
          rw [this, h2] at hmk1; cases hmk1
      have hsl : s ≤ last := by
        by_contra hh
        have := (b2 last (by omega) (by omega)).2
        rw [hl] at this; cases this
      have hms : m s = false := by
        by_contra hh
        exact b3 ⟨by omega, by simpa using hh⟩
      have hma : m (k1 - 1) = false := by
        have := (a2 (k1 - 1) (by omega) (by omega)).2
        simpa using this
      have hgap : ∀ u, k1 - 1 < u → u < s → m u = true := by
        intro u u1 u2
        by_cases e : u = k1
        · rw [e]; exact hmk1
        · exact (b2 u (by omega) u2).2
      have hca : (c (k1 - 1)).isSome := hd _ (by omega) (by omega) hma
      have hcs : (c s).isSome := hd _ (by omega) (by omega) hms
      have hst : linear c (k1 - 1) s (k1 - 1) = c (k1 - 1) := linear_start hca hcs (by omega)
      obtain ⟨i1, i2, i3⟩ := ih s (linear c (k1 - 1) s) hsl hms (by omega)
        (fun t t1 t2 t3 => by rw [linear_out (Or.inr t1)]; exact hd t (by omega) t2 t3)
      refine ⟨?_, ?_, ?_⟩
      · intro t ht
        rcases ht with ht | ht
        · rw [i1 t (Or.inl (by omega))]
          by_cases e : t = k1 - 1
          · rw [e]; exact hst
          · exact linear_out (Or.inl (by omega))
        · rw [i1 t (Or.inr ht)]
          exact linear_out (Or.inr (by omega))
      · intro t t1 t2 t3
        by_cases e : s ≤ t
        · rw [i2 t e t2 t3]; exact linear_out (Or.inr e)
        · rw [i1 t (Or.inl (by omega))]
          by_cases e1 : t = k1 - 1
          · rw [e1]; exact hst
          · by_cases e2 : t < k1 - 1
            · exact linear_out (Or.inl e2)
            · have := hgap t (by omega) (by omega)
              rw [t3] at this; cases this
      · intro a t b g1 g2 g3 g4 had
        obtain ⟨e1, e2, e3, e4⟩ := had
        by_cases ha : s ≤ a
        · rw [i3 a t b ha g2 g3 g4 ⟨e1, e2, e3, e4⟩]
          unfold onLine
          rw [linear_out (Or.inr ha), linear_out (Or.inr (by omega))]
        · have ha1 : a ≤ k1 - 1 := by
            by_contra hh
            have := hgap a (by omega) (by omega)
            rw [e2] at this; cases this
          have ha2 : a = k1 - 1 := by
            by_contra hh
            have h5 := (a2 (a + 1) (by omega) (by omega)).2
            have h6 := e4 (a + 1) (by omega) (by omega)
            simp [h6] at h5
          subst ha2
          have hb1 : s ≤ b := by
            by_contra hh
            have := hgap b (by omega) (by omega)
            rw [e3] at this; cases this
          have hb2 : b = s := by
            by_contra hh
            have := e4 s (by omega) (by omega)
            rw [hms] at this; cases this
          subst hb2
          rw [i1 t (Or.inl (by omega))]
          exact linear_in (by omega) g3

/-- What `__infill_partial_pillar` does to one axis of a pillar which has a defined point. -/
theorem infill_spec {n : Nat} {m : Nat → Bool} {c : Nat → Option Rat} (hm : ∀ k ≤ n, m k = (c k).isNone)
    (hex : ∃ k ≤ n, m k = false) :
    infillFails n m = false ∧
    (∀ k ≤ n, m k = false → infill n m c k = c k) ∧
    (∀ a k, k < a → a ≤ n → m a = false → (∀ u < a, m u = true) → infill n m c k = c a) ∧
    (∀ b k, b < k → k ≤ n → m b = false → (∀ u, b < u → u ≤ n → m u = true) → infill n m c k = c b) ∧
    (∀ a b k, a < k → k < b → b ≤ n → Adjacent m a b → infill n m c k = onLine c a b k) := by
  obtain ⟨f1, f2, f3⟩ := @scanUp_spec (n + 1) m (n + 1) 0 (by omega)
  have hfail : infillFails n m = decide (n + 1 ≤ scanUp (n + 1) m (n + 1) 0) := rfl
  have hinf : infill n m c = gaps m (scanDown m n) (n + 1) (scanUp (n + 1) m (n + 1) 0)
    (fun k => if scanDown m n < k ∧ k ≤ n then
      (if scanDown m n < scanUp (n + 1) m (n + 1) 0 then c (scanUp (n + 1) m (n + 1) 0) else c (scanDown m n))
      else (if k < scanUp (n + 1) m (n + 1) 0 then c (scanUp (n + 1) m (n + 1) 0) else c k)) := rfl
  rw [hfail, hinf]
  have l1 := @scanDown_le m n
  have l2 := @scanDown_above m n
  have l3 := @scanDown_at m n hex
  generalize scanDown m n = last at l1 l2 l3 ⊢
  generalize scanUp (n + 1) m (n + 1) 0 = first at f1 f2 f3 ⊢
  obtain ⟨k0, hk0, hk1⟩ := hex
  have hfl : first ≤ last := by
    by_contra hh
    have := (f2 last (by omega) (by omega)).2
    rw [l3] at this; cases this
  have hmf : m first = false := by
    by_contra hh
    exact f3 ⟨by omega, by simpa using hh⟩
  set c2 : Nat → Option Rat := fun k => if last < k ∧ k ≤ n then (if last < first then c first else c last)
    else (if k < first then c first else c k) with hc2
  have c2mid : ∀ t, first ≤ t → t ≤ last → c2 t = c t := by
    intro t h1 h2
    simp only [hc2]
    rw [if_neg (by omega), if_neg (by omega)]
  have c2lo : ∀ t, t < first → c2 t = c first := by
    intro t h1
    simp only [hc2]
    rw [if_neg (by omega), if_pos h1]
  have c2hi : ∀ t, last < t → t ≤ n → c2 t = c last := by
    intro t h1 h2
    simp only [hc2]
    rw [if_pos ⟨h1, h2⟩, if_neg (by omega)]
  obtain ⟨g1, g2, g3⟩ := gaps_spec l3 (n + 1) first c2 hfl hmf (by omega) (by
    intro t t1 t2 t3
    rw [c2mid t t1 t2]
    rw [hm t (by omega)] at t3
    simpa using t3)
  have inside : ∀ t ≤ n, m t = false → first ≤ t ∧ t ≤ last := by
    intro t t1 t2
    constructor
    · by_contra hh
      have := (f2 t (by omega) (by omega)).2
      rw [t2] at this; cases this
    · by_contra hh
      have := l2 t (by omega) t1
      rw [t2] at this; cases this
  refine ⟨by simp; omega, ?_, ?_, ?_, ?_⟩
  · intro k h1 h2
    obtain ⟨i1, i2⟩ := inside k h1 h2
    rw [g2 k i1 i2 h2, c2mid k i1 i2]
  · intro a k h1 h2 h3 h4
    have hf : first = a := by
      obtain ⟨i1, i2⟩ := inside a h2 h3
      by_contra hh
      have := h4 first (by omega)
      rw [hmf] at this; cases this
    rw [g1 k (Or.inl (by omega)), c2lo k (by omega), hf]
  · intro b k h1 h2 h3 h4
    have hf : last = b := by
      obtain ⟨i1, i2⟩ := inside b (by omega) h3
      by_contra hh
      have := h4 last (by omega) l1
      rw [l3] at this; cases this
    rw [g1 k (Or.inr (by omega)), c2hi k (by omega) h2, hf]
  · intro a b k h1 h2 h3 had
    obtain ⟨e1, e2, e3, e4⟩ := had
    obtain ⟨i1, _⟩ := inside a (by omega) e2
    obtain ⟨_, i4⟩ := inside b h3 e3
    rw [g3 a k b i1 h1 h2 i4 ⟨e1, e2, e3, e4⟩]
    unfold onLine
    rw [c2mid a i1 (by omega), c2mid b (by omega) i4]

end Verif.Defined

namespace Verif.Defined
open Verif.Py

/-- The four ways in which `set_geometry_is_defined` ends when not all pillars are to be completed. -/
theorem setDefined_cases {d : Dims} {sz : Pts → Rat} {tn : Option Rat} {dots : Option Arr3} {cp nl : Bool}
    {s s' : St} (h : setDefined d sz tn dots cp nl false s = .ok s') :
    (someDots d dots = false ∧ (∀ k ≤ d.nraw, ∀ q < d.total, Point tn (s.pts k q)) ∧
      s' = { s with allPillars := some true, pillarArr := none, allCells := some true, cellArr := none }) ∨
    ∃ mask, mask = nanMask d tn (if someDots d dots then dots else none) s.pts ∧
      (∃ k ≤ d.nraw, ∃ q < d.total, mask k q = false) ∧
      ((nl = true ∧ (∃ q < d.total, partialPillar d mask q = true) ∧
          s' = updateCells d (nullified d mask (baseState d mask s))) ∨
        (nl = false ∧ cp = true ∧ (∃ q < d.total, partialPillar d mask q = true) ∧
          s' = updateCells d (infilled d mask (baseState d mask s))) ∨
        (((nl = false ∧ cp = false) ∨ ∀ q < d.total, partialPillar d mask q = false) ∧ s' = baseState d mask s)) := by
  unfold setDefined at h
  by_cases h1 : (cp && nl) = true
  · rw [if_pos h1] at h; cases h
  rw [if_neg h1] at h
  by_cases h2 : (!(anyN (d.nraw + 1) fun k => anyN d.total fun q => nanPoint tn (s.pts k q)) && !someDots d dots) = true
  · rw [if_pos h2] at h
    injection h with h
    simp only [Bool.and_eq_true, Bool.not_eq_true', anyN_false] at h2
    refine Or.inl ⟨h2.2, ?_, h.symm⟩
    intro k hk q hq
    exact nanPoint_false.mp (h2.1 k (by omega) q hq)
  rw [if_neg h2] at h
  dsimp only at h
  refine Or.inr ⟨_, rfl, ?_⟩
  generalize nanMask d tn (if someDots d dots then dots else none) s.pts = mask at h ⊢
  by_cases h3 : (allN (d.nraw + 1) fun k => allN d.total fun q => mask k q) = true
  · rw [if_pos h3] at h; cases h
  rw [if_neg h3] at h
  rw [Bool.not_eq_true, allN_false] at h3
  obtain ⟨k, hk, h3⟩ := h3
  obtain ⟨q, hq, h3⟩ := allN_false.mp h3
  refine ⟨⟨k, by omega, q, hq, h3⟩, ?_⟩
  have hfalse : allStage d (sz (baseState d mask s).pts) false = fun r => .ok r := by
    funext r; rfl
  rw [hfalse] at h
  unfold partialStage at h
  cases nl with
  | true =>
    rw [if_pos rfl] at h
    by_cases h4 : anyN d.total (partialPillar d mask) = true
    · rw [if_pos h4] at h
      injection h with h
      exact Or.inl ⟨rfl, anyN_iff.mp h4, h.symm⟩
    · rw [if_neg h4] at h
      injection h with h
      exact Or.inr (Or.inr ⟨Or.inr (anyN_false.mp (by simpa using h4)), h.symm⟩)
  | false =>
    rw [if_neg (by simp)] at h
    cases cp with
    | true =>
      rw [if_pos (by simp)] at h
      by_cases h4 : anyN d.total (partialPillar d mask) = true
      · rw [if_pos h4] at h
        split_ifs at h with h5
        · cases h
        · injection h with h
          exact Or.inr (Or.inl ⟨rfl, rfl, anyN_iff.mp h4, h.symm⟩)
      · rw [if_neg h4] at h
        injection h with h
        exact Or.inr (Or.inr ⟨Or.inr (anyN_false.mp (by simpa using h4)), h.symm⟩)
    | false =>
      rw [if_neg (by simp)] at h
      injection h with h
      exact Or.inr (Or.inr ⟨Or.inl ⟨rfl, rfl⟩, h.symm⟩)

theorem exists_prev {m : Nat → Bool} : ∀ k, m k = true → (∃ a < k, m a = false) →
    ∃ a < k, m a = false ∧ ∀ u, a < u → u ≤ k → m u = true := by
  intro k
  induction k with
  | zero => rintro _ ⟨a, h, _⟩; omega
  | succ k ih =>
    rintro hk ⟨a, h1, h2⟩
    cases hm : m k with
    | false =>
      refine ⟨k, by omega, hm, fun u u1 u2 => ?_⟩
      have : u = k + 1 := by omega
      rw [this]; exact hk
    | true =>
      have hak : a ≠ k := fun e => by rw [e, hm] at h2; cases h2
      obtain ⟨b, b1, b2, b3⟩ := ih hm ⟨a, by omega, h2⟩
      refine ⟨b, by omega, b2, fun u u1 u2 => ?_⟩
      by_cases e : u = k + 1
      · rw [e]; exact hk
      · exact b3 u u1 (by omega)

theorem exists_next {m : Nat → Bool} {k n : Nat} (hk : m k = true) (h : ∃ b, k < b ∧ b ≤ n ∧ m b = false) :
    ∃ b, k < b ∧ b ≤ n ∧ m b = false ∧ ∀ u, k ≤ u → u < b → m u = true := by
  classical
  have hex : ∃ b, k < b ∧ m b = false := by
    obtain ⟨b, h1, _, h3⟩ := h; exact ⟨b, h1, h3⟩
  obtain ⟨b0, g1, g2, g3⟩ := h
  refine ⟨Nat.find hex, (Nat.find_spec hex).1, le_trans (Nat.find_min' hex ⟨g1, g3⟩) g2, (Nat.find_spec hex).2, ?_⟩
  intro u u1 u2
  by_cases e : u = k
  · rw [e]; exact hk
  · by_contra hh
    exact Nat.find_min hex u2 ⟨by omega, by simpa using hh⟩

theorem infill_isSome {n : Nat} {m : Nat → Bool} {c : Nat → Option Rat} (hm : ∀ k ≤ n, m k = (c k).isNone)
    (hex : ∃ k ≤ n, m k = false) {k : Nat} (hk : k ≤ n) : (infill n m c k).isSome := by
  obtain ⟨_, s1, s2, s3, s4⟩ := infill_spec hm hex
  have some_of : ∀ t ≤ n, m t = false → (c t).isSome := by
    intro t t1 t2
    rw [hm t t1] at t2
    simpa using t2
  cases hmk : m k with
  | false => rw [s1 k hk hmk]; exact some_of k hk hmk
  | true =>
    by_cases hp : ∃ a < k, m a = false
    · obtain ⟨a, a1, a2, a3⟩ := exists_prev k hmk hp
      by_cases hn : ∃ b, k < b ∧ b ≤ n ∧ m b = false
      · obtain ⟨b, b1, b2, b3, b4⟩ := exists_next hmk hn
        have had : Adjacent m a b := by
          refine ⟨by omega, a2, b3, fun u u1 u2 => ?_⟩
          by_cases e : u ≤ k
          · exact a3 u u1 e
          · exact b4 u (by omega) u2
        rw [s4 a b k a1 b1 b2 had]
        obtain ⟨x, hx⟩ := Option.isSome_iff_exists.mp (some_of a (by omega) a2)
        obtain ⟨y, hy⟩ := Option.isSome_iff_exists.mp (some_of b b2 b3)
        simp [onLine, hx, hy, lift2]
      · push Not at hn
        rw [s3 a k a1 hk a2 (fun u u1 u2 => by
          by_cases e : u ≤ k
          · exact a3 u u1 e
          · simpa using hn u (by omega) u2)]
        exact some_of a (by omega) a2
    · push Not at hp
      obtain ⟨t, t1, t2⟩ := hex
      have htk : k < t := by
        rcases Nat.lt_trichotomy t k with h | h | h
        · exact absurd t2 (by simpa using hp t h)
        · rw [h, hmk] at t2; cases t2
        · exact h
      obtain ⟨b, b1, b2, b3, b4⟩ := exists_next hmk ⟨t, htk, t1, t2⟩
      rw [s2 b k b1 b2 b3 (fun u u1 => by
        by_cases e : k ≤ u
        · exact b4 u e u1
        · simpa using hp u (by omega))]
      exact some_of b b2 b3

theorem Point.none {tn : Option Rat} {p : Fin 3 → Option Rat} (h : Point tn p) : Point none p := by
  intro c
  obtain ⟨v, hv, _⟩ := h c
  exact ⟨v, hv, by simp⟩

theorem nanMask_none {d : Dims} {tn : Option Rat} {pts : Pts} {k q : Nat} :
    nanMask d tn none pts k q = nanPoint tn (pts k q) := by
  simp [nanMask]

theorem nanMask_point {d : Dims} {tn : Option Rat} {o : Option Arr3} {pts : Pts} {k q : Nat}
    (h : nanMask d tn o pts k q = false) : Point tn (pts k q) := by
  unfold nanMask at h
  rw [Bool.or_eq_false_iff] at h
  exact nanPoint_false.mp h.1

/-- The points of the base state. -/
theorem base_point {d : Dims} {tn : Option Rat} {o : Option Arr3} {s : St} {k q : Nat} :
    (nanMask d tn o s.pts k q = false ∧ ∀ c, (baseState d (nanMask d tn o s.pts) s).pts k q c = s.pts k q c) ∧
        Point none ((baseState d (nanMask d tn o s.pts) s).pts k q) ∨
      nanMask d tn o s.pts k q = true ∧ ∀ c, (baseState d (nanMask d tn o s.pts) s).pts k q c = none := by
  cases hm : nanMask d tn o s.pts k q with
  | false =>
    have he : ∀ c, (baseState d (nanMask d tn o s.pts) s).pts k q c = s.pts k q c := by
      intro c; simp [baseState, hm]
    refine Or.inl ⟨⟨rfl, he⟩, ?_⟩
    intro c
    obtain ⟨v, hv, _⟩ := nanMask_point hm c
    exact ⟨v, by rw [he c]; exact hv, by simp⟩
  | true => exact Or.inr ⟨rfl, fun c => by simp [baseState, hm]⟩

theorem not_point_none {p : Fin 3 → Option Rat} (h : ∀ c, p c = none) : ¬ Point none p := by
  intro hp
  obtain ⟨v, hv, _⟩ := hp 0
  rw [h 0] at hv; cases hv

theorem partialPillar_iff {d : Dims} {mask : Nat → Nat → Bool} {q : Nat} :
    partialPillar d mask q = true ↔ (∃ k ≤ d.nraw, mask k q = false) ∧ ∃ k ≤ d.nraw, mask k q = true := by
  unfold partialPillar
  rw [Bool.and_eq_true, Bool.not_eq_true', allN_false, anyN_iff]
  constructor
  · rintro ⟨⟨a, a1, a2⟩, b, b1, b2⟩; exact ⟨⟨a, by omega, a2⟩, b, by omega, b2⟩
  · rintro ⟨⟨a, a1, a2⟩, b, b1, b2⟩; exact ⟨⟨a, by omega, a2⟩, b, by omega, b2⟩

/-- After nullification each pillar is missing or whole. -/
theorem nullified_uniform {d : Dims} {tn : Option Rat} {o : Option Arr3} {s : St} {q : Nat} (hq : q < d.total) :
    (∀ k ≤ d.nraw, Point none ((nullified d (nanMask d tn o s.pts) (baseState d (nanMask d tn o s.pts) s)).pts k q)) ∨
      ∀ k ≤ d.nraw, ∀ c, (nullified d (nanMask d tn o s.pts) (baseState d (nanMask d tn o s.pts) s)).pts k q c =
        none := by
  by_cases hp : partialPillar d (nanMask d tn o s.pts) q = true
  · right
    intro k _ c
    simp [nullified, hq, hp]
  · have he : ∀ k c, (nullified d (nanMask d tn o s.pts) (baseState d (nanMask d tn o s.pts) s)).pts k q c =
        (baseState d (nanMask d tn o s.pts) s).pts k q c := by
      intro k c; simp [nullified, hp]
    rw [partialPillar_iff] at hp
    by_cases hall : ∀ k ≤ d.nraw, nanMask d tn o s.pts k q = true
    · right
      intro k hk c
      rw [he]
      rcases @base_point d tn o s k q with ⟨⟨h1, _⟩, _⟩ | ⟨_, h⟩
      · rw [hall k hk] at h1; cases h1
      · exact h c
    · left
      intro k hk
      have : (fun c => (nullified d (nanMask d tn o s.pts) (baseState d (nanMask d tn o s.pts) s)).pts k q c) =
        (fun c => (baseState d (nanMask d tn o s.pts) s).pts k q c) := by funext c; exact he k c
      change Point none (fun c => (nullified d (nanMask d tn o s.pts) (baseState d (nanMask d tn o s.pts) s)).pts k q c)
      rw [this]
      rcases @base_point d tn o s k q with ⟨_, h⟩ | ⟨h, _⟩
      · exact h
      · exfalso
        apply hp
        push Not at hall
        obtain ⟨t, t1, t2⟩ := hall
        exact ⟨⟨t, t1, by simpa using t2⟩, k, hk, h⟩

/-- The missing points of a pillar of the base state. -/
theorem base_isNone {d : Dims} {tn : Option Rat} {o : Option Arr3} {s : St} {k q : Nat} {c : Fin 3} :
    ((baseState d (nanMask d tn o s.pts) s).pts k q c).isNone = nanMask d tn o s.pts k q := by
  rcases @base_point d tn o s k q with ⟨⟨h, _⟩, hp⟩ | ⟨h, hp⟩
  · obtain ⟨v, hv, _⟩ := hp c
    rw [hv, h]; rfl
  · rw [hp c, h]; rfl

/-- After completion a pillar which had a point is whole; the others are missing. -/
theorem infilled_whole {d : Dims} {tn : Option Rat} {o : Option Arr3} {s : St} {q : Nat} (hq : q < d.total)
    (hd : ∃ k ≤ d.nraw, nanMask d tn o s.pts k q = false) : ∀ k ≤ d.nraw,
    Point none ((infilled d (nanMask d tn o s.pts) (baseState d (nanMask d tn o s.pts) s)).pts k q) := by
  intro k hk
  by_cases hp : partialPillar d (nanMask d tn o s.pts) q = true
  · intro c
    have : ((infilled d (nanMask d tn o s.pts) (baseState d (nanMask d tn o s.pts) s)).pts k q c).isSome := by
      simp only [infilled, hq, hp, and_self, if_true]
      refine infill_isSome ?_ ?_ hk
      · intro t _; simp only [base_isNone]
      · obtain ⟨t, t1, t2⟩ := hd
        exact ⟨t, t1, by simp only [base_isNone]; exact t2⟩
    obtain ⟨v, hv⟩ := Option.isSome_iff_exists.mp this
    exact ⟨v, hv, by simp⟩
  · have he : ∀ c, (infilled d (nanMask d tn o s.pts) (baseState d (nanMask d tn o s.pts) s)).pts k q c =
        (baseState d (nanMask d tn o s.pts) s).pts k q c := by
      intro c; simp [infilled, hp]
    rcases @base_point d tn o s k q with ⟨_, h⟩ | ⟨h, _⟩
    · intro c
      obtain ⟨v, hv, w⟩ := h c
      exact ⟨v, by rw [he c]; exact hv, w⟩
    · exact absurd (partialPillar_iff.mpr ⟨hd, k, hk, h⟩) hp

theorem infilled_missing {d : Dims} {tn : Option Rat} {o : Option Arr3} {s : St} {q : Nat}
    (hd : ∀ k ≤ d.nraw, nanMask d tn o s.pts k q = true) : ∀ k ≤ d.nraw, ∀ c,
    (infilled d (nanMask d tn o s.pts) (baseState d (nanMask d tn o s.pts) s)).pts k q c = none := by
  intro k hk c
  have hp : partialPillar d (nanMask d tn o s.pts) q = false := by
    rw [← Bool.not_eq_true, partialPillar_iff]
    rintro ⟨⟨t, t1, t2⟩, _⟩
    rw [hd t t1] at t2; cases t2
  have he : (infilled d (nanMask d tn o s.pts) (baseState d (nanMask d tn o s.pts) s)).pts k q c =
      (baseState d (nanMask d tn o s.pts) s).pts k q c := by simp [infilled, hp]
  rw [he]
  rcases @base_point d tn o s k q with ⟨⟨h, _⟩, _⟩ | ⟨_, h⟩
  · rw [hd k hk] at h; cases h
  · exact h c

theorem pil_lt {d : Dims} (hw : WF d) {j i : Nat} (hj : j ≤ d.nj) (hi : i ≤ d.ni) : d.pil j i < d.total := by
  refine lt_of_lt_of_le ?_ hw.1
  unfold Dims.pil Dims.prim
  have : j * (d.ni + 1) ≤ d.nj * (d.ni + 1) := Nat.mul_le_mul_right _ hj
  have h2 : (d.nj + 1) * (d.ni + 1) = d.nj * (d.ni + 1) + (d.ni + 1) := by ring
  omega

/-- The answer when the array of cells is held. -/
theorem cellQuery_arr {d : Dims} {node : Option (Node Arr3)} {cache : Bool} {s : St} {a : Arr3}
    (h1 : s.allCells ≠ some true) (h2 : s.cellArr = some a) {k j i : Nat} (hk : k < d.nk) (hj : j < d.nj)
    (hi : i < d.ni) : (cellQuery d node (some (k, j, i)) cache s).1 = .ok (some (a k j i)) := by
  unfold cellQuery
  rw [if_neg h1, h2]
  dsimp only
  split_ifs with h
  · unfold allCellsOf at h
    have := allN_iff.mp (allN_iff.mp (allN_iff.mp h k hk) j hj) i hi
    rw [this]
  · rfl

theorem cellQuery_all {d : Dims} {node : Option (Node Arr3)} {cache : Bool} {s : St} {x : Option (Nat × Nat × Nat)}
    (h1 : s.allCells = some true) : cellQuery d node x cache s = (.ok (some true), s) := by
  unfold cellQuery
  rw [if_pos h1]

/-- The answer after the cells have been brought up to date. -/
theorem updateCells_query {d : Dims} {node : Option (Node Arr3)} {cache : Bool} {s : St} (hw : WF d)
    (hu : ∀ q < d.total, (∀ k ≤ d.nraw, Point none (s.pts k q)) ∨ ∀ k ≤ d.nraw, ∀ c, s.pts k q c = none)
    (ht : s.allPillars = some true → ∀ q < d.total, ∀ k ≤ d.nraw, Point none (s.pts k q)) {k j i : Nat}
    (hk : k < d.nk) (hj : j < d.nj) (hi : i < d.ni) :
    ∃ b, (cellQuery d node (some (k, j, i)) cache (updateCells d s)).1 = .ok (some b) ∧
      (b = true ↔ CellWhole d none (updateCells d s).pts k j i) := by
  have htop := hw.2 k hk
  have hp : (updateCells d s).pts = s.pts := by
    unfold updateCells; dsimp only; split_ifs <;> rfl
  rw [hp]
  by_cases h1 : s.allPillars = some true
  · refine ⟨true, ?_, ?_⟩
    · rw [cellQuery_all]
      unfold updateCells; rw [if_pos h1]
    · refine iff_of_true rfl ?_
      intro dk dj di e1 e2 e3
      exact ht h1 _ (pil_lt hw (by omega) (by omega)) _ (by omega)
  · have key : ∀ dj di, dj ≤ 1 → di ≤ 1 → (topNan d s.pts (j + dj) (i + di) = false ↔
        ∀ dk ≤ 1, Point none (s.pts (d.top k + dk) (d.pil (j + dj) (i + di)))) := by
      intro dj di e2 e3
      rcases hu _ (pil_lt hw (j := j + dj) (i := i + di) (by omega) (by omega)) with h | h
      · refine iff_of_true ?_ (fun dk e1 => h _ (by omega))
        obtain ⟨v, hv, _⟩ := h 0 (by omega) 0
        simp [topNan, hv]
      · refine iff_of_false ?_ (fun g => not_point_none (h _ (by omega)) (g 0 (by omega)))
        simp [topNan, h 0 (by omega) 0]
    have hb : ∀ a : Arr3, a = (fun _ j i => !((topNan d s.pts j i || topNan d s.pts j (i + 1)) ||
        (topNan d s.pts (j + 1) i || topNan d s.pts (j + 1) (i + 1)))) →
        (a k j i = true ↔ CellWhole d none s.pts k j i) := by
      intro a ha
      rw [ha]
      simp only [Bool.not_eq_true', Bool.or_eq_false_iff]
      have k00 := key 0 0 (by omega) (by omega)
      have k01 := key 0 1 (by omega) (by omega)
      have k10 := key 1 0 (by omega) (by omega)
      have k11 := key 1 1 (by omega) (by omega)
      simp only [Nat.add_zero] at k00 k01 k10
      rw [k00, k01, k10, k11]
      unfold CellWhole
      constructor
      · rintro ⟨⟨g0, g1⟩, g2, g3⟩ dk dj di e1 e2 e3
        rcases Nat.le_one_iff_eq_zero_or_eq_one.mp e2 with rfl | rfl <;>
          rcases Nat.le_one_iff_eq_zero_or_eq_one.mp e3 with rfl | rfl
        · exact g0 dk e1
        · exact g1 dk e1
        · exact g2 dk e1
        · exact g3 dk e1
      · intro g
        exact ⟨⟨fun dk e => g dk 0 0 e (by omega) (by omega), fun dk e => g dk 0 1 e (by omega) (by omega)⟩,
          fun dk e => g dk 1 0 e (by omega) (by omega), fun dk e => g dk 1 1 e (by omega) (by omega)⟩
    unfold updateCells
    rw [if_neg h1]
    dsimp only
    split_ifs with h2
    · refine ⟨true, by rw [cellQuery_all rfl], ?_⟩
      rw [← hb _ rfl]
      refine iff_of_true rfl ?_
      exact allN_iff.mp (allN_iff.mp (allN_iff.mp h2 k hk) j hj) i hi
    · refine ⟨_, cellQuery_arr (by simp) rfl hk hj hi, ?_⟩
      exact hb _ rfl

end Verif.Defined
