import Verif.Transmit.Between
import Verif.Box.Lemmas
import Mathlib.Tactic.Linarith
import Mathlib.Tactic.Ring
import Mathlib.Tactic.FieldSimp

/-!
# Properties: transmissibilities between neighbouring cells (C116)
-/

namespace Verif.Transmit
open Verif.Py

variable {K : Type} [Field K] [LinearOrder K]

/-! ## Specification -/

/-- the cells on either side of an inner face, and whether the face is closed by a K gap or a split pillar; `none` for outer faces -/
def acrossFace (s : Shape) : Dir → Nat → Nat → Nat → Option ((Nat × Nat × Nat) × (Nat × Nat × Nat) × Bool)
  | .K, k + 1, j, i => if k + 1 < s.nk then some ((k, j, i), (k + 1, j, i), s.gapAfter k) else none
  | .J, k, j + 1, i => if j + 1 < s.nj then some ((k, j, i), (k, j + 1, i), s.splitJ j i) else none
  | .I, k, j, i + 1 => if i + 1 < s.ni then some ((k, j, i), (k, j, i + 1), s.splitI j i) else none
  | .K, 0, _, _ => none
  | .J, _, 0, _ => none
  | .I, _, _, 0 => none

/-- half cell value of a cell -/
def Half.at (h : Half K) (c : Nat × Nat × Nat) (d : Dir) (plus : Bool) : Option K := h c.1 c.2.1 c.2.2 d plus

/-- the arrays hold, for each axis, values that two half cells in series give: reciprocals add, for inner faces that are not closed
and whose half cell values both exist and are not below the tolerance; and zero otherwise -/
def InSeries (s : Shape) (tol : K) (half : Half K) (d : Dir) (t : Faces K) : Prop :=
  ∀ k j i, match acrossFace s d k j i with
    | none => t k j i = 0
    | some (a, b, closed) =>
      (∀ x y, half.at a d true = some x → half.at b d false = some y → tol ≤ x → tol ≤ y → closed = false →
        0 < t k j i ∧ 1 / t k j i = 1 / x + 1 / y) ∧
      ((closed = true ∨ half.at a d true = none ∨ half.at b d false = none ∨ (∃ x, half.at a d true = some x ∧ x < tol) ∨
        ∃ y, half.at b d false = some y ∧ y < tol) → t k j i = 0)

section
variable [IsStrictOrderedRing K]

theorem faceT_spec {tol : K} (ht : 0 < tol) (masked : Bool) (a b : Option K) :
    (∀ x y, a = some x → b = some y → tol ≤ x → tol ≤ y → masked = false → 0 < faceT' tol masked a b ∧ 1 / faceT' tol masked a b = 1 / x + 1 / y) ∧
    ((masked = true ∨ a = none ∨ b = none ∨ (∃ x, a = some x ∧ x < tol) ∨ ∃ y, b = some y ∧ y < tol) → faceT' tol masked a b = 0) := by
  constructor
  · rintro x y rfl rfl hx hy hm
    have e : faceT' tol masked (some x) (some y) = 1 / (1 / x + 1 / y) := by
      simp only [faceT']
      rw [if_neg (by rw [hm]; simp [hx, hy]), add_zero]
    have h1 : 0 < 1 / x := one_div_pos.2 (lt_of_lt_of_le ht hx)
    have h2 : 0 < 1 / y := one_div_pos.2 (lt_of_lt_of_le ht hy)
    rw [e, one_div_one_div]
    exact ⟨one_div_pos.2 (add_pos h1 h2), rfl⟩
  · intro h
    cases a with
    | none => rfl
    | some x =>
      cases b with
      | none => rfl
      | some y =>
        simp only [faceT']
        rw [if_pos]
        simpa using h

/-- **C116** — the arrays worked out hold for each pair of neighbouring cells the value of the two half cells in series, and zero at
outer faces, at K gaps, at split pillars and where a half cell has no value or one below the tolerance. -/
theorem C116_series (s : Shape) {tol : K} (ht : 0 < tol) (half : Half K) (d : Dir) : InSeries s tol half d (facesFor s tol half d) := by
  intro k j i
  cases d
  · cases k with
    | zero => simp [acrossFace, facesFor]
    | succ k =>
      by_cases h : k + 1 < s.nk
      · simp only [acrossFace, if_pos h, facesFor, Half.at]
        rw [if_neg (by omega)]
        exact faceT_spec ht _ _ _
      · simp only [acrossFace, if_neg h, facesFor]
        rw [if_pos (by omega)]
  · cases j with
    | zero => simp [acrossFace, facesFor]
    | succ j =>
      by_cases h : j + 1 < s.nj
      · simp only [acrossFace, if_pos h, facesFor, Half.at]
        rw [if_neg (by omega)]
        exact faceT_spec ht _ _ _
      · simp only [acrossFace, if_neg h, facesFor]
        rw [if_pos (by omega)]
  · cases i with
    | zero => simp [acrossFace, facesFor]
    | succ i =>
      by_cases h : i + 1 < s.ni
      · simp only [acrossFace, if_pos h, facesFor, Half.at]
        rw [if_neg (by omega)]
        exact faceT_spec ht _ _ _
      · simp only [acrossFace, if_neg h, facesFor]
        rw [if_pos (by omega)]

/-- **C116** — a value is never negative and never more than that of either half cell, so no more than the smaller of the two and no
less than half of it. -/
theorem C116_bounds {s : Shape} {tol : K} (ht : 0 < tol) {half : Half K} {d : Dir} {t : Faces K} (h : InSeries s tol half d t) (k j i : Nat) :
    0 ≤ t k j i ∧ ∀ a b closed, acrossFace s d k j i = some (a, b, closed) → ∀ x y, half.at a d true = some x → half.at b d false = some y →
      0 ≤ x → 0 ≤ y → t k j i ≤ x ∧ t k j i ≤ y ∧ (tol ≤ x → tol ≤ y → closed = false → min x y / 2 ≤ t k j i) := by
  have hk := h k j i
  cases e : acrossFace s d k j i with
  | none =>
    rw [e] at hk
    dsimp only at hk
    exact ⟨hk.ge, by simp⟩
  | some v =>
    obtain ⟨a, b, closed⟩ := v
    rw [e] at hk
    dsimp only at hk
    obtain ⟨h1, h0⟩ := hk
    have sp : ∀ x y, half.at a d true = some x → half.at b d false = some y → (tol ≤ x ∧ tol ≤ y ∧ closed = false) ∨ t k j i = 0 := by
      intro x y hx hy
      by_cases hc : closed = true
      · exact Or.inr (h0 (Or.inl hc))
      · by_cases hx' : x < tol
        · exact Or.inr (h0 (Or.inr (Or.inr (Or.inr (Or.inl ⟨x, hx, hx'⟩)))))
        · by_cases hy' : y < tol
          · exact Or.inr (h0 (Or.inr (Or.inr (Or.inr (Or.inr ⟨y, hy, hy'⟩)))))
          · exact Or.inl ⟨not_lt.1 hx', not_lt.1 hy', by simpa using hc⟩
    refine ⟨?_, ?_⟩
    · cases ha : half.at a d true with
      | none => exact (h0 (Or.inr (Or.inl ha))).ge
      | some x =>
        cases hb : half.at b d false with
        | none => exact (h0 (Or.inr (Or.inr (Or.inl hb)))).ge
        | some y =>
          rcases sp x y ha hb with ⟨p1, p2, p3⟩ | p
          · exact (h1 x y ha hb p1 p2 p3).1.le
          · exact p.ge
    · intro a' b' c' hv x y hx hy x0 y0
      simp only [Option.some.injEq, Prod.mk.injEq] at hv
      obtain ⟨rfl, rfl, rfl⟩ := hv
      rcases sp x y hx hy with ⟨p1, p2, p3⟩ | p
      · obtain ⟨q, r⟩ := h1 x y hx hy p1 p2 p3
        have hx0 : 0 < x := lt_of_lt_of_le ht p1
        have hy0 : 0 < y := lt_of_lt_of_le ht p2
        have i1 : 1 / x ≤ 1 / t k j i := by rw [r]; exact le_add_of_nonneg_right (one_div_pos.2 hy0).le
        have i2 : 1 / y ≤ 1 / t k j i := by rw [r]; exact le_add_of_nonneg_left (one_div_pos.2 hx0).le
        refine ⟨(one_div_le_one_div hx0 q).1 i1, (one_div_le_one_div hy0 q).1 i2, ?_⟩
        intro _ _ _
        have hm : 0 < min x y := lt_min hx0 hy0
        have i3 : 1 / t k j i ≤ 1 / (min x y / 2) := by
          rw [r]
          have a1 : 1 / x ≤ 1 / min x y := one_div_le_one_div_of_le hm (min_le_left _ _)
          have a2 : 1 / y ≤ 1 / min x y := one_div_le_one_div_of_le hm (min_le_right _ _)
          have a3 : 1 / (min x y / 2) = 1 / min x y + 1 / min x y := by
            have := hm.ne'
            field_simp; ring
          rw [a3]; exact add_le_add a1 a2
        exact (one_div_le_one_div q (half_pos hm)).1 i3
      · rw [p]
        refine ⟨x0, y0, ?_⟩
        intro p1 p2 p3
        have := (h1 x y hx hy p1 p2 p3).1
        rw [p] at this
        exact absurd this (lt_irrefl _)

/-- a face between half cells of 2 and 3 and one with a K gap -/
example : (facesFor ⟨false, 3, 1, 1, fun k => k == 1, fun _ _ => false, fun _ _ => false⟩ (1 / 1000 : Rat)
    (fun k _ _ _ plus => some (if plus then 2 + k else 2 + k)) .K 1 0 0, facesFor ⟨false, 3, 1, 1, fun k => k == 1, fun _ _ => false, fun _ _ => false⟩ (1 / 1000 : Rat)
    (fun k _ _ _ plus => some (if plus then 2 + k else 2 + k)) .K 2 0 0) = (6 / 5, 0) := by decide +kernel

end

/-- nothing cached yet -/
def Cache.fresh : Cache K := ⟨none, none, none, none, false⟩

theorem halfT_fresh {s : Shape} {f : Found K} {useProp real : Bool} {c : Cache K} {half : Half K} (tol : K) (hc : c.half = none) (hp : useProp = true → c.pc = true)
    (hprop : f.halfProp = false) (hh : f.half (1 / 1000000) = .ok half) :
    halfCellTransmissibility s f useProp real tol c = (.ok half, if real then { c with half := some half } else c) := by
  unfold halfCellTransmissibility
  have : (if real then c.half else none) = none := by rw [hc]; cases real <;> rfl
  rw [this]
  dsimp only
  rw [if_neg (by rintro ⟨_, h1, h2⟩; rw [hp h1] at h2; cases h2), if_neg (by rw [hprop]; simp), hh]

/-- **C116** — for a grid with nothing cached and no properties of transmissibility, the three arrays are worked out from the half cell
values, for any realization; asking again with the same tolerance gives the same arrays. -/
theorem C116_computed_partial (s : Shape) (tol : K) (real : Bool) {f : Found K} {half : Half K} (htr : ∀ d, f.tr d = none) (hcomp : f.composite = none)
    (hprop : f.halfProp = false) (hh : f.half (1 / 1000000) = .ok half) :
    ∃ c, transmissibility s tol true real .none f .fresh = (.ok (facesFor s tol half .K, facesFor s tol half .J, facesFor s tol half .I), c) ∧
      (transmissibility s tol true real .none f c).1 = .ok (facesFor s tol half .K, facesFor s tol half .J, facesFor s tol half .I) := by
  have hs : ∀ d, stored s f d = none := by intro d; unfold stored; rw [htr, hcomp]; rfl
  cases real
  · refine ⟨⟨none, none, none, none, true⟩, ?_, ?_⟩
    · simp only [transmissibility, Cache.fresh, hs, Bool.false_eq_true, if_false, if_true, Option.or_none]
      rw [halfT_fresh _ rfl (fun _ => rfl) hprop hh]
      simp [orSet, setAxis]
    · simp only [transmissibility, hs, Bool.false_eq_true, if_false, if_true, Option.or_none]
      rw [halfT_fresh _ rfl (fun _ => rfl) hprop hh]
      simp [orSet, setAxis]
  · refine ⟨⟨some half, some (facesFor s tol half .K), some (facesFor s tol half .J), none, true⟩, ?_, ?_⟩
    · simp only [transmissibility, Cache.fresh, hs, if_true, Option.or_none]
      rw [halfT_fresh _ rfl (fun _ => rfl) hprop hh]
      simp [orSet, setAxis]
    · simp [transmissibility, hs, halfCellTransmissibility, orSet, setAxis]

/-- **C116** — the arrays for K and J faces of the first call are kept and returned by later calls whatever tolerance these ask for,
while that for I faces is worked out anew. -/
theorem C116_cache_violated (s : Shape) (tol tol' : K) {f : Found K} {half : Half K} (htr : ∀ d, f.tr d = none) (hcomp : f.composite = none)
    (hprop : f.halfProp = false) (hh : f.half (1 / 1000000) = .ok half) :
    ∃ c, (transmissibility s tol true true .none f .fresh).2 = c ∧
      (transmissibility s tol' true true .none f c).1 = .ok (facesFor s tol half .K, facesFor s tol half .J, facesFor s tol' half .I) := by
  have hs : ∀ d, stored s f d = none := by intro d; unfold stored; rw [htr, hcomp]; rfl
  refine ⟨⟨some half, some (facesFor s tol half .K), some (facesFor s tol half .J), none, true⟩, ?_, ?_⟩
  · simp only [transmissibility, Cache.fresh, hs, if_true, Option.or_none]
    rw [halfT_fresh _ rfl (fun _ => rfl) hprop hh]
    simp [orSet, setAxis]
  · simp [transmissibility, hs, halfCellTransmissibility, orSet, setAxis]

/-- half cell values of 2 everywhere, first asked for with a tolerance of 1, then of 5: K faces keep 1, I faces become 0 -/
example : (facesFor ⟨false, 2, 1, 2, fun _ => false, fun _ _ => false, fun _ _ => false⟩ (1 : Rat) (fun _ _ _ _ _ => some 2) .K 1 0 0,
    facesFor ⟨false, 2, 1, 2, fun _ => false, fun _ _ => false, fun _ _ => false⟩ (5 : Rat) (fun _ _ _ _ _ => some 2) .K 1 0 0,
    facesFor ⟨false, 2, 1, 2, fun _ => false, fun _ _ => false, fun _ _ => false⟩ (5 : Rat) (fun _ _ _ _ _ => some 2) .I 0 0 1) = (1, 0, 0) := by
  decide +kernel

/-- **C116** — calls for a realization neither use nor change the cached arrays -/
theorem C116_realization (s : Shape) (tol : K) (useTr : Bool) (mode : Mode) (f : Found K) (c c' : Cache K) (h : c.pc = c'.pc) :
    (transmissibility s tol useTr false mode f c).1 = (transmissibility s tol useTr false mode f c').1 ∧
    (transmissibility s tol useTr false mode f c).2 = { c with pc := c.pc || useTr } := by
  have half : ∀ c : Cache K, ∃ r : Cache K → Res (Half K), (∀ c' : Cache K, c'.pc = c.pc → halfCellTransmissibility s f useTr false (1 / 1000000) c' = (r c', c')) ∧
      ∀ c' c'' : Cache K, c'.pc = c''.pc → r c' = r c'' := by
    intro c
    refine ⟨fun c => (halfCellTransmissibility s f useTr false (1 / 1000000) c).1, ?_, ?_⟩
    · intro c' _
      unfold halfCellTransmissibility
      simp only [Bool.false_eq_true, if_false]
      split_ifs
      · rfl
      · rfl
      · cases f.half (1 / 1000000) <;> rfl
    · intro c' c'' h'
      unfold halfCellTransmissibility
      simp only [Bool.false_eq_true, if_false, h']
      split_ifs
      · rfl
      · rfl
      · cases f.half (1 / 1000000) <;> rfl
  have gen : ∀ c : Cache K, transmissibility s tol useTr false mode f c =
      (match (if useTr then stored s f .K else none), (if useTr then stored s f .J else none), (if useTr then stored s f .I else none) with
        | some k, some j, some i => .ok (k, j, i)
        | k1, j1, i1 =>
          match (halfCellTransmissibility s f useTr false (1 / 1000000) { c with pc := c.pc || useTr }).1 with
          | .error e => .error e
          | .ok half =>
            if useTr = false then .error .unbound
            else if mode = .facesPerCellMultiplier ∧ f.halfMult = true then .error .value
            else
              match orSet s tol mode f half .K k1, orSet s tol mode f half .J j1, orSet s tol mode f half .I i1 with
              | .error e, _, _ => .error e
              | .ok _, .error e, _ => .error e
              | .ok _, .ok _, .error e => .error e
              | .ok k, .ok j, .ok i => .ok (k, j, i), { c with pc := c.pc || useTr }) := by
    intro c
    obtain ⟨r, hr, _⟩ := half { c with pc := c.pc || useTr }
    have hc : (if useTr then { c with pc := true } else c) = { c with pc := c.pc || useTr } := by cases useTr <;> simp
    unfold transmissibility
    simp only [Bool.false_eq_true, if_false, hc, Option.none_or]
    rw [hr _ rfl]
    generalize (if useTr = true then stored s f Dir.K else none) = k1
    generalize (if useTr = true then stored s f Dir.J else none) = j1
    generalize (if useTr = true then stored s f Dir.I else none) = i1
    cases k1 <;> cases j1 <;> cases i1 <;> (try rfl) <;>
    · dsimp only
      cases r { c with pc := c.pc || useTr } with
      | error e => rfl
      | ok hf =>
        dsimp only
        split_ifs
        · rfl
        · rfl
        · simp only [orSet]
          cases setAxis s tol mode f hf .K <;> cases setAxis s tol mode f hf .J <;> cases setAxis s tol mode f hf .I <;> rfl
  obtain ⟨r, hr, hr2⟩ := half { c with pc := c.pc || useTr }
  refine ⟨?_, by rw [gen c]⟩
  rw [gen c, gen c', hr { c with pc := c.pc || useTr } rfl, hr { c' with pc := c'.pc || useTr } (by simp [h]),
    hr2 { c with pc := c.pc || useTr } { c' with pc := c'.pc || useTr } (by simp [h])]

/-- **C116** — properties of transmissibility found are returned as they are, those by direction before the array for all faces, without
half cell values being looked at. -/
theorem C116_stored (s : Shape) (tol : K) (real : Bool) (mode : Mode) (f : Found K) (k j i : Faces K)
    (hk : f.tr .K = some k ∨ f.tr .K = none ∧ ∃ a, f.composite = some a ∧ ∀ kk jj ii, k kk jj ii = a ((kk * s.nj + jj) * s.ni + ii))
    (hj : f.tr .J = some j ∨ f.tr .J = none ∧ ∃ a, f.composite = some a ∧ ∀ kk jj ii, j kk jj ii =
      a ((s.nk + 1) * s.nj * s.ni + ((kk * (s.nj + 1) + jj) * s.ni + ii)))
    (hi : f.tr .I = some i ∨ f.tr .I = none ∧ ∃ a, f.composite = some a ∧ ∀ kk jj ii, i kk jj ii =
      a ((s.nk + 1) * s.nj * s.ni + s.nk * (s.nj + 1) * s.ni + ((kk * s.nj + jj) * (s.ni + 1) + ii))) :
    (transmissibility s tol true real mode f .fresh).1 = .ok (k, j, i) := by
  have sk : stored s f .K = some k := by
    unfold stored
    rcases hk with h | ⟨h, a, h1, h2⟩
    · rw [h]
    · rw [h, h1]
      simp only [Option.map_some, Option.some.injEq]
      funext kk jj ii; exact (h2 kk jj ii).symm
  have sj : stored s f .J = some j := by
    unfold stored
    rcases hj with h | ⟨h, a, h1, h2⟩
    · rw [h]
    · rw [h, h1]
      simp only [Option.map_some, Option.some.injEq]
      funext kk jj ii; exact (h2 kk jj ii).symm
  have si : stored s f .I = some i := by
    unfold stored
    rcases hi with h | ⟨h, a, h1, h2⟩
    · rw [h]
    · rw [h, h1]
      simp only [Option.map_some, Option.some.injEq]
      funext kk jj ii; exact (h2 kk jj ii).symm
  cases real <;> simp [transmissibility, Cache.fresh, sk, sj, si]

/-- the arrays of one, two and three faces in one array of six, by position, in the order K, J, I -/
example : (transmissibility ⟨false, 1, 1, 1, fun _ => false, fun _ _ => false, fun _ _ => false⟩ (1 : Rat) true true .none
    ⟨fun _ => none, some fun n => n, fun _ => false, fun _ => false, false, false, fun _ => .error .assertion⟩ .fresh).1.toOption.map
      (fun t => (t.1 1 0 0, t.2.1 0 1 0, t.2.2 0 0 1)) = some (1, 3, 5) := by decide +kernel

/-- **C116** — asking for transmissibility properties not to be used raises UnboundLocalError for any grid with nothing cached -/
theorem C116_not_stored_violated (s : Shape) (tol : K) (real : Bool) (mode : Mode) (f : Found K) {half : Half K} (hh : f.half (1 / 1000000) = .ok half) :
    (transmissibility s tol false real mode f .fresh).1 = .error .unbound := by
  rw [one_div] at hh
  cases real <;> simp [transmissibility, Cache.fresh, halfCellTransmissibility, hh]

/-- **C116** — multipliers and absolute values raise ValueError wherever they are found, in each of the three modes -/
theorem C116_modifiers_violated (s : Shape) (tol : K) (real : Bool) (f : Found K) {half : Half K} (htr : ∀ d, f.tr d = none) (hcomp : f.composite = none)
    (hprop : f.halfProp = false) (hh : f.half (1 / 1000000) = .ok half) :
    ((∃ d, f.mult d = true) → (transmissibility s tol true real .facesMultiplier f .fresh).1 = .error .value) ∧
    ((∃ d, f.abs d = true) → (transmissibility s tol true real .absolute f .fresh).1 = .error .value) ∧
    (f.halfMult = true → (transmissibility s tol true real .facesPerCellMultiplier f .fresh).1 = .error .value) := by
  have hs : ∀ d, stored s f d = none := by intro d; unfold stored; rw [htr, hcomp]; rfl
  have step : ∀ mode, ∃ c3, transmissibility s tol true real mode f .fresh =
      (if mode = .facesPerCellMultiplier ∧ f.halfMult = true then (.error .value, c3)
        else
          match setAxis s tol mode f half .K with
          | .error e => (.error e, c3)
          | .ok k =>
            let c4 := if real then { c3 with k := some k } else c3
            match setAxis s tol mode f half .J with
            | .error e => (.error e, c4)
            | .ok j =>
              let c5 := if real then { c4 with j := some j } else c4
              match setAxis s tol mode f half .I with
              | .error e => (.error e, c5)
              | .ok i => (.ok (k, j, i), c5)) := by
    intro mode
    cases real
    · refine ⟨⟨none, none, none, none, true⟩, ?_⟩
      simp only [transmissibility, Cache.fresh, hs, Bool.false_eq_true, if_false, if_true, Option.or_none]
      rw [halfT_fresh _ rfl (fun _ => rfl) hprop hh]
      rfl
    · refine ⟨⟨some half, none, none, none, true⟩, ?_⟩
      simp only [transmissibility, Cache.fresh, hs, if_true, Option.or_none]
      rw [halfT_fresh _ rfl (fun _ => rfl) hprop hh]
      rfl
  refine ⟨?_, ?_, ?_⟩
  · rintro ⟨d, hd⟩
    obtain ⟨c3, e⟩ := step .facesMultiplier
    rw [e]
    simp only [setAxis, reduceCtorEq, false_and, if_false, true_and]
    cases d <;> cases h1 : f.mult .K <;> cases h2 : f.mult .J <;> cases h3 : f.mult .I <;> simp_all
  · rintro ⟨d, hd⟩
    obtain ⟨c3, e⟩ := step .absolute
    rw [e]
    simp only [setAxis, reduceCtorEq, false_and, if_false, true_and]
    cases d <;> cases h1 : f.abs .K <;> cases h2 : f.abs .J <;> cases h3 : f.abs .I <;> simp_all
  · intro hd
    obtain ⟨c3, e⟩ := step .facesPerCellMultiplier
    rw [e, if_pos ⟨rfl, hd⟩]

/-- **C116** — half cell values stored as a property cannot be used: ValueError, for grids other than regular ones; nor can they be
asked for, unless the property collection has been loaded by something else: AttributeError. -/
theorem C116_half_property_violated (s : Shape) (hr : s.regular = false) (f : Found K) (real : Bool) (tol : K) :
    (halfCellTransmissibility s f true real tol .fresh).1 = .error .attribute ∧
    (f.halfProp = true → (halfCellTransmissibility s f true real tol { Cache.fresh with pc := true }).1 = .error .value) := by
  constructor
  · cases real <;> simp [halfCellTransmissibility, Cache.fresh, hr]
  · intro h
    cases real <;> simp [halfCellTransmissibility, Cache.fresh, hr, h]

/-- **C116** — the tolerance given for half cell values makes no difference to them -/
theorem C116_half_tolerance_violated (s : Shape) (f : Found K) (useProp real : Bool) (tol tol' : K) (c : Cache K) :
    halfCellTransmissibility s f useProp real tol c = halfCellTransmissibility s f useProp real tol' c := rfl

/-- **C116** — half cell values asked for without a realization are kept, and later calls return them -/
theorem C116_half_kept (s : Shape) (f f' : Found K) (useProp useProp' : Bool) (tol tol' : K) (c : Cache K) {h : Half K} {c' : Cache K}
    (e : halfCellTransmissibility s f useProp true tol c = (.ok h, c')) : halfCellTransmissibility s f' useProp' true tol' c' = (.ok h, c') := by
  have hc : c'.half = some h := by
    unfold halfCellTransmissibility at e
    simp only [if_true] at e
    split at e
    · rename_i h' hh
      simp only [Prod.mk.injEq, Except.ok.injEq] at e
      rw [← e.2, ← e.1, hh]
    · split_ifs at e
      · simp at e
      · simp at e
      · split at e
        · simp at e
        · simp only [Prod.mk.injEq, Except.ok.injEq] at e
          rw [← e.2, ← e.1]
  unfold halfCellTransmissibility
  simp only [if_true, hc]

end Verif.Transmit
