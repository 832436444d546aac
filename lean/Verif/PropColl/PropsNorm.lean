import Verif.PropColl.PropsMask
import Mathlib.Tactic.FieldSimp
import Mathlib.Tactic.Ring
import Mathlib.Tactic.Positivity
import Mathlib.Algebra.Order.Field.Basic

/-! # C106: normalized arrays -/

namespace Verif.PropColl
open Verif.Py

/-- the number is held by an element that is not hidden -/
def Seen (l : List Cell) (x : Rat) : Prop := ∃ c ∈ l, c.hidden = false ∧ c.value = some x

theorem mem_seen (l : List Cell) (x : Rat) : x ∈ seen l ↔ Seen l x := by
  simp only [seen, List.mem_filterMap, List.mem_filter, Seen]
  constructor
  · rintro ⟨c, ⟨h1, h2⟩, h3⟩; exact ⟨c, h1, by simpa using h2, h3⟩
  · rintro ⟨c, h1, h2, h3⟩; exact ⟨c, ⟨h1, by simpa using h2⟩, h3⟩

/-- `n` is `l` with the numbers not hidden, `x`, replaced by numbers `G x` between 0 and 1; NaN stays NaN -/
def NormalizedBy (G : Rat → Rat) (l n : List Cell) : Prop :=
  n.length = l.length ∧
  (∀ (i : Nat) (c : Cell), l[i]? = some c → c.hidden = false →
    n[i]? = some { hidden := false, value := c.value.map G }) ∧
  ∀ x, Seen l x → 0 ≤ G x ∧ G x ≤ 1

theorem mapCells_mapCells (f g : Rat → Num) (l : List Cell) :
    mapCells f (mapCells g l) = mapCells (fun x => (g x).bind f) l := by
  unfold mapCells
  rw [List.map_map]
  apply List.map_congr_left
  intro c _
  simp only [Function.comp, Option.bind_assoc]

theorem mapCells_get (G : Rat → Rat) (H : Rat → Num) (l : List Cell) (h : ∀ x, Seen l x → H x = some (G x))
    (i : Nat) (c : Cell) (hc : l[i]? = some c) (hh : c.hidden = false) :
    (mapCells H l)[i]? = some { hidden := false, value := c.value.map G } := by
  unfold mapCells
  rw [List.getElem?_map, hc]
  simp only [Option.map_some, Option.some.injEq]
  cases hv : c.value with
  | none => simp [hh]
  | some x =>
    have := h x ⟨c, List.mem_of_getElem? hc, hh, hv⟩
    simp [hh, this]

theorem seen_mapCells (H : Rat → Num) (l : List Cell) (y : Rat) :
    Seen (mapCells H l) y ↔ ∃ x, Seen l x ∧ H x = some y := by
  unfold Seen mapCells
  constructor
  · rintro ⟨d, hd, h1, h2⟩
    obtain ⟨c, hc, rfl⟩ := List.mem_map.mp hd
    simp only at h1 h2
    cases hv : c.value with
    | none => rw [hv] at h2; cases h2
    | some x => rw [hv] at h2; exact ⟨x, ⟨c, hc, h1, hv⟩, h2⟩
  · rintro ⟨x, ⟨c, hc, h1, h2⟩, h3⟩
    exact ⟨_, List.mem_map.mpr ⟨c, hc, rfl⟩, h1, by simp [h2, h3]⟩

/-- the number the limits send `x` to -/
def unit (mn mx x : Rat) : Rat := if mx = mn then 1 / 2 else (x - mn) / (mx - mn)

theorem scale_eq (mn mx : Rat) (l : List Cell) : scale mn mx l = mapCells (fun x => some (unit mn mx x)) l := by
  unfold scale unit
  split <;> rfl

theorem unit_range (mn mx x : Rat) (h : (mn ≤ x ∧ x ≤ mx) ∨ x = mn ∨ x = mx) : 0 ≤ unit mn mx x ∧ unit mn mx x ≤ 1 := by
  unfold unit
  by_cases he : mx = mn
  · rw [if_pos he]; norm_num
  · rw [if_neg he]
    have hd : mx - mn ≠ 0 := sub_ne_zero.mpr he
    rcases h with ⟨h1, h2⟩ | rfl | rfl
    · have hpos : 0 < mx - mn := lt_of_le_of_ne (by linarith) (Ne.symm hd)
      exact ⟨div_nonneg (by linarith) hpos.le, (div_le_one hpos).mpr (by linarith)⟩
    · simp
    · rw [div_self hd]; norm_num

theorem unit_mono (mn mx x y : Rat) (hm : mn ≤ mx) (h : x ≤ y) : unit mn mx x ≤ unit mn mx y := by
  unfold unit
  by_cases he : mx = mn
  · rw [if_pos he, if_pos he]
  · rw [if_neg he, if_neg he]
    have hpos : 0 < mx - mn := lt_of_le_of_ne (by linarith) (Ne.symm (sub_ne_zero.mpr he))
    exact div_le_div_of_nonneg_right (by linarith) hpos.le

/-- the limits used are limits of the data: always so when the metadata is not trusted -/
def TrustedRight (o : NormArgs) (metaMin metaMax : Option Rat) (l : List Cell) : Prop :=
  o.trust = true → ∀ a b, metaMin = some a → metaMax = some b → ∀ x, Seen l x → a ≤ x ∧ x ≤ b

theorem getMinMax_ok (o : NormArgs) (metaMin metaMax : Option Rat) (l : List Cell) (x0 : Rat) (h0 : Seen l x0)
    (ht : TrustedRight o metaMin metaMax l) :
    ∃ mn mx, getMinMax o.trust metaMin metaMax l = (some mn, some mx) ∧ (∀ x, Seen l x → mn ≤ x ∧ x ≤ mx) ∧ mn ≤ mx ∧
      (o.trust = false → Seen l mn ∧ Seen l mx) := by
  unfold getMinMax
  by_cases h : (o.trust && metaMin.isSome && metaMax.isSome) = true
  · rw [if_pos h]
    simp only [Bool.and_eq_true, Option.isSome_iff_exists] at h
    obtain ⟨⟨h1, a, ha⟩, b, hb⟩ := h
    have := ht h1 a b ha hb
    refine ⟨a, b, by rw [ha, hb], this, (this x0 h0).1.trans (this x0 h0).2, by simp [h1]⟩
  · rw [if_neg h]
    have hne : seen l ≠ [] := by
      intro hn
      have := (mem_seen l x0).mpr h0
      rw [hn] at this; cases this
    obtain ⟨m1, m2⟩ := listMin_least (seen l)
    obtain ⟨g1, g2⟩ := listMax_greatest (seen l)
    cases hm : listMin (seen l) with
    | none => exact absurd (m1.mp hm) hne
    | some mn =>
      cases hx : listMax (seen l) with
      | none => exact absurd (g1.mp hx) hne
      | some mx =>
        obtain ⟨a1, a2⟩ := m2 mn hm
        obtain ⟨b1, b2⟩ := g2 mx hx
        have hb : ∀ x, Seen l x → mn ≤ x ∧ x ≤ mx := fun x hxs => ⟨a2 x ((mem_seen l x).mpr hxs), b2 x ((mem_seen l x).mpr hxs)⟩
        exact ⟨mn, mx, rfl, hb, (hb x0 h0).1.trans (hb x0 h0).2, fun _ => ⟨(mem_seen l mn).mp a1, (mem_seen l mx).mp b1⟩⟩

theorem normalizedBy_scale (mn mx : Rat) (l : List Cell) (H : Rat → Num) (K : Rat → Rat)
    (hH : ∀ x, Seen l x → H x = some (K x)) (hr : ∀ x, Seen l x → (mn ≤ K x ∧ K x ≤ mx) ∨ K x = mn ∨ K x = mx) :
    NormalizedBy (fun x => unit mn mx (K x)) l (scale mn mx (mapCells H l)) := by
  rw [scale_eq, mapCells_mapCells]
  refine ⟨by simp [mapCells], ?_, fun x hx => unit_range mn mx (K x) (hr x hx)⟩
  intro i c hc hh
  apply mapCells_get _ _ l _ i c hc hh
  intro x hx
  rw [hH x hx]; rfl

theorem mapCells_id (l : List Cell) : mapCells (fun x => some x) l = l := by
  unfold mapCells
  conv_rhs => rw [← List.map_id l]
  apply List.map_congr_left
  intro c _
  simp

theorem modulus_range (c : Int) (hc : 0 < c) (k : Int) : 0 ≤ modulus c (k : Rat) ∧ modulus c (k : Rat) ≤ (c : Rat) - 1 := by
  have hcq : (0 : Rat) < (c : Rat) := by exact_mod_cast hc
  have h1 : (k : Rat) / (c : Rat) - 1 < ((⌊(k : Rat) / (c : Rat)⌋ : Int) : Rat) := Int.sub_one_lt_floor _
  have h2 : ((⌊(k : Rat) / (c : Rat)⌋ : Int) : Rat) ≤ (k : Rat) / (c : Rat) := Int.floor_le _
  have hm : modulus c (k : Rat) = ((k - c * ⌊(k : Rat) / (c : Rat)⌋ : Int) : Rat) := by
    unfold modulus; push_cast; ring
  have e : (c : Rat) * ((k : Rat) / (c : Rat)) = k := by field_simp
  have l1 : (0 : Rat) ≤ modulus c (k : Rat) := by
    unfold modulus
    have := mul_le_mul_of_nonneg_left h2 hcq.le
    linarith
  have l2 : modulus c (k : Rat) < c := by
    unfold modulus
    have := mul_lt_mul_of_pos_left h1 hcq
    have : (c : Rat) * ((k : Rat) / (c : Rat) - 1) = k - c := by rw [mul_sub, e, mul_one]
    linarith
  refine ⟨l1, ?_⟩
  rw [hm] at l2 ⊢
  have : (k - c * ⌊(k : Rat) / (c : Rat)⌋ : Int) < c := by exact_mod_cast l2
  have : (k - c * ⌊(k : Rat) / (c : Rat)⌋ : Int) ≤ c - 1 := by omega
  exact_mod_cast this

/-- the arguments make sense: not both a fixed zero and logarithms; a positive cycle, used with whole numbers; the
logarithm is defined for positive numbers -/
structure Sensible (lg : Rat → Num) (isInt : Bool) (l : List Cell) (o : NormArgs) : Prop where
  exclusive : o.fixZero = none ∨ o.useLog = false
  cycle : ∀ c, o.cycle = some c → 0 < c
  whole : isInt = true → ∀ x, Seen l x → ∃ k : Int, x = k
  log : ∀ x, 0 < x → ∃ y, lg x = some y

theorem fixZeroAt_spec (mn mx : Rat) (l : List Cell) (f : Rat) (hb : ∀ x, Seen l x → mn ≤ x ∧ x ≤ mx) :
    ∃ (mn' mx' : Rat) (K : Rat → Rat), fixZeroAt mn mx l f = (mn', mx', mapCells (fun x => some (K x)) l) ∧
      (∀ x, Seen l x → (mn' ≤ K x ∧ K x ≤ mx') ∨ K x = mn' ∨ K x = mx') ∧
      (∀ x y, x ≤ y → K x ≤ K y) := by
  unfold fixZeroAt
  by_cases h0 : f ≤ 0
  · rw [if_pos h0]
    by_cases hm : mn < 0
    · rw [if_pos hm]
      refine ⟨0, mx, fun x => if x < 0 then 0 else x, rfl, ?_, ?_⟩
      · intro x hx
        dsimp only
        by_cases hx0 : x < 0
        · rw [if_pos hx0]; exact Or.inr (Or.inl rfl)
        · rw [if_neg hx0]; exact Or.inl ⟨by linarith, (hb x hx).2⟩
      · intro x y hxy
        dsimp only
        split <;> split <;> linarith
    · rw [if_neg hm]
      refine ⟨0, mx, fun x => x, by rw [mapCells_id], ?_, fun x y h => h⟩
      intro x hx
      exact Or.inl ⟨by linarith [(hb x hx).1], (hb x hx).2⟩
  · rw [if_neg h0]
    by_cases h1 : f ≥ 1
    · rw [if_pos h1]
      by_cases hm : mx > 0
      · rw [if_pos hm]
        refine ⟨mn, 0, fun x => if x > 0 then 0 else x, rfl, ?_, ?_⟩
        · intro x hx
          dsimp only
          by_cases hx0 : x > 0
          · rw [if_pos hx0]; exact Or.inr (Or.inr rfl)
          · rw [if_neg hx0]; exact Or.inl ⟨(hb x hx).1, by linarith⟩
        · intro x y hxy
          dsimp only
          split <;> split <;> linarith
      · rw [if_neg hm]
        refine ⟨mn, 0, fun x => x, by rw [mapCells_id], ?_, fun x y h => h⟩
        intro x hx
        exact Or.inl ⟨(hb x hx).1, by linarith [(hb x hx).2]⟩
    · rw [if_neg h1]
      simp only
      by_cases hu : mx / (1 - f) ≥ -mn / f
      · rw [if_pos hu]
        refine ⟨_, mx, fun x => if x < -(mx / (1 - f)) * f then -(mx / (1 - f)) * f else x, rfl, ?_, ?_⟩
        · intro x hx
          dsimp only
          split
          · exact Or.inr (Or.inl rfl)
          · rename_i h
            exact Or.inl ⟨by linarith, (hb x hx).2⟩
        · intro x y hxy
          dsimp only
          split <;> split <;> linarith
      · rw [if_neg hu]
        refine ⟨mn, _, fun x => if x > -mn / f * (1 - f) then -mn / f * (1 - f) else x, rfl, ?_, ?_⟩
        · intro x hx
          dsimp only
          split
          · exact Or.inr (Or.inr rfl)
          · rename_i h
            exact Or.inl ⟨(hb x hx).1, by linarith⟩
        · intro x y hxy
          dsimp only
          split <;> split <;> linarith

/-- Sensible arguments and at least one number not hidden: an array is returned, with the numbers not hidden mapped into
the range from 0 to 1 and NaN left as it is. -/
theorem C106_range_partial (lg : Rat → Num) (isInt : Bool) (metaMin metaMax : Option Rat) (l : List Cell) (o : NormArgs)
    (x0 : Rat) (h0 : Seen l x0) (hs : Sensible lg isInt l o) (ht : TrustedRight o metaMin metaMax l) :
    ∃ n lo hi G, normalized lg false isInt metaMin metaMax (some l) o = .ok (some n, lo, hi) ∧ NormalizedBy G l n := by
  obtain ⟨mn, mx, hmm, hb, hle, -⟩ := getMinMax_ok o metaMin metaMax l x0 h0 ht
  have hex : (o.fixZero.isSome && o.useLog) = false := by
    rcases hs.exclusive with h | h <;> simp [h]
  unfold normalized
  simp only [Bool.false_eq_true, if_false, hex, hmm]
  obtain ⟨mn1, mx1, K1, hc, hb1, hle1⟩ : ∃ (mn1 mx1 : Rat) (K1 : Rat → Rat),
      applyCycle isInt o.cycle l mn mx = (mn1, mx1, mapCells (fun x => some (K1 x)) l) ∧
      (∀ x, Seen l x → mn1 ≤ K1 x ∧ K1 x ≤ mx1) ∧ mn1 ≤ mx1 := by
    unfold applyCycle
    cases hi : isInt with
    | false => exact ⟨mn, mx, fun x => x, by rw [mapCells_id], hb, hle⟩
    | true =>
      cases hcy : o.cycle with
      | none => exact ⟨mn, mx, fun x => x, by rw [mapCells_id], hb, hle⟩
      | some c =>
        have hpos := hs.cycle c hcy
        refine ⟨0, (c : Rat) - 1, modulus c, rfl, ?_, ?_⟩
        · intro x hx
          obtain ⟨k, rfl⟩ := hs.whole hi x hx
          exact modulus_range c hpos k
        · have : (1 : Rat) ≤ c := by exact_mod_cast hpos
          linarith
  rw [hc]
  simp only
  rw [if_neg (not_lt.mpr hle1)]
  have hb2 : ∀ y, Seen (mapCells (fun x => some (K1 x)) l) y → mn1 ≤ y ∧ y ≤ mx1 := by
    intro y hy
    obtain ⟨x, hx, hxy⟩ := (seen_mapCells _ l y).mp hy
    cases hxy
    exact hb1 x hx
  by_cases hlog : o.useLog = true
  · rw [if_pos hlog]
    set l1 := mapCells (fun x => some (K1 x)) l with hl1
    have hs1 : Seen l1 (K1 x0) := (seen_mapCells _ l _).mpr ⟨x0, h0, rfl⟩
    have hne : seen l1 ≠ [] := by
      intro hn
      have := (mem_seen l1 _).mpr hs1
      rw [hn] at this; cases this
    obtain ⟨K2, hK2, hpos⟩ : ∃ K2 : Rat → Rat,
        (if mn1 ≤ 0 then mapCells (fun x => some (if x < 1 / 10000 then 1 / 10000 else x)) l1 else l1)
          = mapCells (fun x => some (K2 x)) l1 ∧ ∀ y, Seen l1 y → 0 < K2 y := by
      by_cases hm : mn1 ≤ 0
      · rw [if_pos hm]
        refine ⟨_, rfl, ?_⟩
        intro y _
        split
        · norm_num
        · rename_i h; push Not at h; linarith [show (0 : Rat) < 1 / 10000 by norm_num]
      · rw [if_neg hm]
        refine ⟨fun x => x, by rw [mapCells_id], ?_⟩
        intro y hy
        linarith [(hb2 y hy).1]
    unfold useLogarithm
    rw [if_neg hne]
    simp only [hK2, mapCells_mapCells, Option.bind_some]
    set l2 := mapCells (fun x => lg (K2 x)) l1 with hl2
    obtain ⟨y0, hy0⟩ := hs.log (K2 (K1 x0)) (hpos _ hs1)
    have hs2 : Seen l2 y0 := (seen_mapCells _ l1 _).mpr ⟨K1 x0, hs1, hy0⟩
    obtain ⟨a, b, hab, hbd, -, -⟩ := getMinMax_ok { o with trust := false } none none l2 y0 hs2 (by intro h; cases h)
    simp only [getMinMax, Bool.false_and, Bool.false_eq_true, if_false, Prod.mk.injEq] at hab
    rw [hab.1, hab.2]
    simp only
    refine ⟨_, _, _, fun x => unit a b ((lg (K2 (K1 x))).getD 0), rfl, ?_⟩
    rw [hl2, hl1, mapCells_mapCells]
    simp only [Option.bind_some]
    have hK : ∀ x, Seen l x → lg (K2 (K1 x)) = some ((lg (K2 (K1 x))).getD 0) := by
      intro x hx
      obtain ⟨y, hy⟩ := hs.log (K2 (K1 x)) (hpos _ ((seen_mapCells _ l _).mpr ⟨x, hx, rfl⟩))
      rw [hy]; rfl
    refine normalizedBy_scale a b l (fun x => lg (K2 (K1 x))) (fun x => (lg (K2 (K1 x))).getD 0) hK ?_
    intro x hx
    left
    apply hbd
    rw [hl2, seen_mapCells]
    exact ⟨K1 x, (seen_mapCells _ l _).mpr ⟨x, hx, rfl⟩, hK x hx⟩
  · rw [if_neg hlog]
    cases hf : o.fixZero with
    | none =>
      simp only
      exact ⟨_, _, _, _, rfl, normalizedBy_scale mn1 mx1 l _ K1 (fun x _ => rfl) (fun x hx => Or.inl (hb1 x hx))⟩
    | some f =>
      simp only
      obtain ⟨mn', mx', K, hfz, hK, -⟩ := fixZeroAt_spec mn1 mx1 (mapCells (fun x => some (K1 x)) l) f hb2
      rw [hfz]
      simp only [mapCells_mapCells, Option.bind_some]
      refine ⟨_, _, _, _, rfl, normalizedBy_scale mn' mx' l _ (fun x => K (K1 x)) (fun x _ => rfl) ?_⟩
      intro x hx
      exact hK (K1 x) ((seen_mapCells _ l _).mpr ⟨x, hx, rfl⟩)

/-- Without logarithms, cycle or fixed zero the limits handed back are the least and greatest number not hidden, which
are mapped to 0 and 1, and the map is linear; if they are the same, everything is mapped to a half. -/
theorem C106_linear (lg : Rat → Num) (isInt : Bool) (metaMin metaMax : Option Rat) (l : List Cell) (x0 : Rat)
    (h0 : Seen l x0) : ∃ n lo hi, normalized lg false isInt metaMin metaMax (some l) {} = .ok (some n, .num lo, .num hi) ∧
      Seen l lo ∧ Seen l hi ∧ (∀ x, Seen l x → lo ≤ x ∧ x ≤ hi) ∧
      NormalizedBy (fun x => if hi = lo then 1 / 2 else (x - lo) / (hi - lo)) l n ∧
      (lo ≠ hi → (lo - lo) / (hi - lo) = 0 ∧ (hi - lo) / (hi - lo) = 1) := by
  obtain ⟨mn, mx, hmm, hb, hle, hs⟩ := getMinMax_ok {} metaMin metaMax l x0 h0 (by intro h; cases h)
  refine ⟨scale mn mx l, mn, mx, ?_, (hs rfl).1, (hs rfl).2, hb, ?_, ?_⟩
  · unfold normalized
    have hc : applyCycle isInt none l mn mx = (mn, mx, l) := by cases isInt <;> rfl
    simp only [Bool.false_eq_true, if_false, hmm, Option.isSome_none, Bool.false_and, hc]
    rw [if_neg (not_lt.mpr hle)]
  · have := normalizedBy_scale mn mx l (fun x => some x) (fun x => x) (fun x _ => rfl) (fun x hx => Or.inl (hb x hx))
    rw [mapCells_id] at this
    exact this
  · intro h
    refine ⟨by simp, div_self (sub_ne_zero.mpr (Ne.symm h))⟩

/-- With a cycle a whole number is mapped by its remainder, the limits being 0 and one less than the cycle. -/
theorem C106_cycle (lg : Rat → Num) (metaMin metaMax : Option Rat) (l : List Cell) (x0 : Rat) (h0 : Seen l x0) (c : Int)
    (hc : 2 ≤ c) (hw : ∀ x, Seen l x → ∃ k : Int, x = k) :
    ∃ n, normalized lg false true metaMin metaMax (some l) { cycle := some c } = .ok (some n, .num 0, .num ((c : Rat) - 1)) ∧
      ∃ G, NormalizedBy G l n ∧ ∀ k : Int, Seen l k → G k = ((k % c : Int) : Rat) / ((c : Rat) - 1) := by
  obtain ⟨mn, mx, hmm, hb, hle, hs⟩ := getMinMax_ok { cycle := some c } metaMin metaMax l x0 h0 (by intro h; cases h)
  have hc1 : (2 : Rat) ≤ c := by exact_mod_cast hc
  have hmod : ∀ x, Seen l x → 0 ≤ modulus c x ∧ modulus c x ≤ (c : Rat) - 1 := by
    intro x hx
    obtain ⟨k, rfl⟩ := hw x hx
    exact modulus_range c (by omega) k
  refine ⟨scale 0 ((c : Rat) - 1) (mapCells (fun x => some (modulus c x)) l), ?_, _,
    normalizedBy_scale 0 ((c : Rat) - 1) l _ (modulus c) (fun x _ => rfl) (fun x hx => Or.inl (hmod x hx)), ?_⟩
  · unfold normalized
    simp only [Bool.false_eq_true, if_false, hmm, Option.isSome_none, Bool.false_and, applyCycle]
    rw [if_neg (by linarith)]
  · intro k _
    have hfl : ⌊(k : Rat) / (c : Rat)⌋ = k / c := by
      lift c to Nat using by omega
      exact Rat.floor_intCast_div_natCast k c
    unfold unit
    rw [if_neg (by linarith), sub_zero, sub_zero]
    congr 1
    unfold modulus
    rw [hfl]
    have := Int.emod_def k c
    rw [this]; push_cast; ring

/-- Without cycle and logarithms order is kept (weakly, as fixing zero may clip). -/
theorem C106_order_partial (lg : Rat → Num) (metaMin metaMax : Option Rat) (l : List Cell) (f : Option Rat)
    (x0 : Rat) (h0 : Seen l x0) (hf : ∀ v, f = some v → 0 < v ∧ v < 1) :
    ∃ n lo hi G, normalized lg false false metaMin metaMax (some l) { fixZero := f } = .ok (some n, lo, hi) ∧
      NormalizedBy G l n ∧ ∀ x y, Seen l x → Seen l y → x ≤ y → G x ≤ G y := by
  obtain ⟨mn, mx, hmm, hb, hle, hs⟩ := getMinMax_ok { fixZero := f } metaMin metaMax l x0 h0 (by intro h; cases h)
  unfold normalized
  simp only [Bool.false_eq_true, if_false, hmm, Bool.and_false, applyCycle]
  rw [if_neg (not_lt.mpr hle)]
  cases hfz : f with
  | none =>
    simp only
    have := normalizedBy_scale mn mx l (fun x => some x) (fun x => x) (fun x _ => rfl) (fun x hx => Or.inl (hb x hx))
    rw [mapCells_id] at this
    exact ⟨_, _, _, _, rfl, this, fun x y _ _ h => unit_mono mn mx x y hle h⟩
  | some v =>
    obtain ⟨hv0, hv1⟩ := hf v hfz
    obtain ⟨mn', mx', K, hfe, hK, hmono⟩ := fixZeroAt_spec mn mx l v hb
    have hle' : mn' ≤ mx' := by
      unfold fixZeroAt at hfe
      rw [if_neg (not_le.mpr hv0), if_neg (not_le.mpr hv1)] at hfe
      simp only at hfe
      have h1f : 0 < 1 - v := by linarith
      by_cases hu : mx / (1 - v) ≥ -mn / v
      · rw [if_pos hu] at hfe
        simp only [Prod.mk.injEq] at hfe
        obtain ⟨rfl, rfl, -⟩ := hfe
        have : -mn / v * v ≤ mx / (1 - v) * v := mul_le_mul_of_nonneg_right hu hv0.le
        rw [div_mul_cancel₀ _ hv0.ne'] at this
        linarith
      · rw [if_neg hu] at hfe
        simp only [Prod.mk.injEq] at hfe
        obtain ⟨rfl, rfl, -⟩ := hfe
        push Not at hu
        have : mx / (1 - v) * (1 - v) ≤ -mn / v * (1 - v) := mul_le_mul_of_nonneg_right hu.le h1f.le
        rw [div_mul_cancel₀ _ h1f.ne'] at this
        linarith
    simp only [hfe]
    exact ⟨_, _, _, _, rfl, normalizedBy_scale mn' mx' l _ K (fun x _ => rfl) hK,
      fun x y _ _ h => unit_mono mn' mx' _ _ hle' (hmono x y h)⟩

/-- Zero is mapped to where it was asked to be, when there is a number other than zero; for the ends, when the
greatest (for 0) or least (for 1) number is not zero. -/
theorem C106_zero_partial (lg : Rat → Num) (metaMin metaMax : Option Rat) (l : List Cell) (f : Rat)
    (h0 : Seen l 0) (hf0 : 0 ≤ f) (hf1 : f ≤ 1)
    (hne : (f = 0 → ∃ x, Seen l x ∧ 0 < x) ∧ (f = 1 → ∃ x, Seen l x ∧ x < 0) ∧ ∃ x, Seen l x ∧ x ≠ 0) :
    ∃ n lo hi G, normalized lg false false metaMin metaMax (some l) { fixZero := some f } = .ok (some n, lo, hi) ∧
      NormalizedBy G l n ∧ G 0 = f := by
  obtain ⟨mn, mx, hmm, hb, hle, hs⟩ := getMinMax_ok { fixZero := some f } metaMin metaMax l 0 h0 (by intro h; cases h)
  obtain ⟨mn', mx', K, hfe, hK, hmono⟩ := fixZeroAt_spec mn mx l f hb
  have hm0 := (hb 0 h0).1
  have hx0 := (hb 0 h0).2
  obtain ⟨g0, g1, x1, hx1, hx1n⟩ := hne
  have hmx : mn' = 0 ∨ mn ≠ mx := by
    right
    intro h
    have := hb x1 hx1
    exact hx1n (by linarith)
  unfold normalized
  simp only [Bool.false_eq_true, if_false, hmm, Bool.and_false, applyCycle]
  rw [if_neg (not_lt.mpr hle)]
  have hn := normalizedBy_scale mn' mx' l _ K (fun x _ => rfl) hK
  have hkey : unit mn' mx' (K 0) = f := by
    have hK0 : ∃ c ∈ l, c.value = some 0 := by
      obtain ⟨c, hc, -, hv⟩ := h0; exact ⟨c, hc, hv⟩
    have hread : ∀ (H : Rat → Rat), mapCells (fun x => some (K x)) l = mapCells (fun x => some (H x)) l → K 0 = H 0 := by
      intro H he
      obtain ⟨c, hc, hv⟩ := hK0
      obtain ⟨i, hi⟩ := List.mem_iff_getElem?.mp hc
      have := congrArg (fun m => m[i]?) he
      simp only [mapCells, List.getElem?_map, hi, Option.map_some, hv, Option.bind_some, Option.some.injEq,
        Cell.mk.injEq, true_and] at this
      exact this
    unfold fixZeroAt at hfe
    by_cases hz : f ≤ 0
    · have hf : f = 0 := le_antisymm hz hf0
      rw [if_pos hz] at hfe
      simp only [Prod.mk.injEq] at hfe
      obtain ⟨rfl, rfl, he⟩ := hfe
      have hk : K 0 = 0 := by
        by_cases hm : mn < 0
        · rw [if_pos hm] at he
          have := hread (fun x => if x < 0 then 0 else x) he.symm
          simpa using this
        · rw [if_neg hm, ← mapCells_id l, mapCells_mapCells] at he
          exact hread (fun x => x) he.symm
      obtain ⟨x, hx, hxp⟩ := g0 hf
      have := (hb x hx).2
      unfold unit
      rw [hk, if_neg (by linarith), hf]; simp
    · rw [if_neg hz] at hfe
      push Not at hz
      by_cases ho : f ≥ 1
      · have hf : f = 1 := le_antisymm hf1 ho
        rw [if_pos ho] at hfe
        simp only [Prod.mk.injEq] at hfe
        obtain ⟨rfl, rfl, he⟩ := hfe
        have hk : K 0 = 0 := by
          by_cases hm : mx > 0
          · rw [if_pos hm] at he
            have := hread (fun x => if x > 0 then 0 else x) he.symm
            simpa using this
          · rw [if_neg hm, ← mapCells_id l, mapCells_mapCells] at he
            exact hread (fun x => x) he.symm
        obtain ⟨x, hx, hxp⟩ := g1 hf
        have := (hb x hx).1
        unfold unit
        rw [hk, if_neg (by linarith), hf, div_self]
        linarith
      · rw [if_neg ho] at hfe
        push Not at ho
        have h1f : 0 < 1 - f := by linarith
        simp only at hfe
        by_cases hu : mx / (1 - f) ≥ -mn / f
        · rw [if_pos hu] at hfe
          simp only [Prod.mk.injEq] at hfe
          obtain ⟨rfl, rfl, he⟩ := hfe
          have hmxp : 0 < mx := by
            rcases lt_or_eq_of_le hx0 with h | h
            · exact h
            · exfalso
              rw [← h] at hu
              simp only [zero_div, ge_iff_le] at hu
              have : -mn / f * f ≤ 0 := mul_nonpos_of_nonpos_of_nonneg hu hz.le
              rw [div_mul_cancel₀ _ hz.ne'] at this
              have hb1 := hb x1 hx1
              exact hx1n (by linarith)
          have hk := hread (fun x => if x < -(mx / (1 - f)) * f then -(mx / (1 - f)) * f else x) he.symm
          have hp : 0 ≤ mx / (1 - f) * f := by positivity
          rw [if_neg (by linarith)] at hk
          rw [hk]
          unfold unit
          rw [if_neg (by linarith)]
          have hden : mx - -(mx / (1 - f)) * f = mx / (1 - f) := by field_simp; ring
          rw [hden]
          field_simp
          ring
        · rw [if_neg hu] at hfe
          simp only [Prod.mk.injEq] at hfe
          obtain ⟨rfl, rfl, he⟩ := hfe
          push Not at hu
          have hmnp : mn < 0 := by
            have h1 : 0 ≤ mx / (1 - f) := div_nonneg hx0 h1f.le
            have h2 : 0 < -mn / f := by linarith
            have := mul_pos h2 hz
            rw [div_mul_cancel₀ _ hz.ne'] at this
            linarith
          have hk := hread (fun x => if x > -mn / f * (1 - f) then -mn / f * (1 - f) else x) he.symm
          have hp : 0 ≤ -mn / f * (1 - f) := by
            have : 0 < -mn := by linarith
            positivity
          rw [if_neg (by linarith)] at hk
          rw [hk]
          unfold unit
          rw [if_neg (by linarith)]
          have hden : -mn / f * (1 - f) - mn = -mn / f := by field_simp; ring
          rw [hden]
          have hmn : mn ≠ 0 := hmnp.ne
          rw [zero_sub]
          field_simp
  rw [hfe]
  exact ⟨_, _, _, _, rfl, hn, hkey⟩

/-- Asked to map zero to 0, data with greatest number zero is mapped to a half throughout, and so is data of zeros
whatever is asked. -/
theorem C106_zero_violated :
    normalized (fun _ => none) false false none none (some [⟨false, some (-1)⟩, ⟨false, some 0⟩]) { fixZero := some 0 }
      = .ok (some [⟨false, some (1 / 2)⟩, ⟨false, some (1 / 2)⟩], .num 0, .num 0) ∧
    normalized (fun _ => none) false false none none (some [⟨false, some 0⟩]) { fixZero := some (1 / 4) }
      = .ok (some [⟨false, some (1 / 2)⟩], .num 0, .num 0) := by
  constructor <;> decide +kernel

/-- Documented to hand back NaN limits when all data are NaN; None is handed back. -/
theorem C106_all_nan_violated (lg : Rat → Num) (isInt : Bool) (l : List Cell) (h : ∀ x, ¬ Seen l x) :
    normalized lg false isInt none none (some l) {} = .ok (none, .missing, .missing) := by
  have : seen l = [] := by
    rw [List.eq_nil_iff_forall_not_mem]
    intro x hx
    exact h x ((mem_seen l x).mp hx)
  simp [normalized, getMinMax, this, listMin, listMax]

/-- a property of points, or both a fixed zero and logarithms, is refused -/
theorem C106_refused (lg : Rat → Num) (points isInt : Bool) (a b : Option Rat) (l : Option (List Cell)) (o : NormArgs)
    (h : points = true ∨ (o.fixZero ≠ none ∧ o.useLog = true)) :
    normalized lg points isInt a b l o = .error .assertion := by
  unfold normalized
  rcases h with rfl | ⟨h1, h2⟩
  · rfl
  · have : o.fixZero.isSome = true := by simpa [Option.isSome_iff_ne_none] using h1
    rw [this, h2]
    cases points <;> simp

example : normalized (fun _ => none) false false none none
    (some [⟨false, some (-2)⟩, ⟨true, some 100⟩, ⟨false, none⟩, ⟨false, some 1⟩, ⟨false, some 0⟩]) { fixZero := some (1 / 4) }
    = .ok (some [⟨false, some 0⟩, ⟨true, some 1⟩, ⟨false, none⟩, ⟨false, some (3 / 8)⟩, ⟨false, some (1 / 4)⟩], .num (-2), .num 6) := by
  decide +kernel

end Verif.PropColl
