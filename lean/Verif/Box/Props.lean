import Verif.Box.Lemmas

/-!
# Properties C01 – C05: grid boxes
-/

namespace Verif.Box
open Verif.Py

/-! ## C01 text round trip -/

/-- Writing a valid box as simulator text with a blank separator and parsing the words gives the box
back. -/
theorem C01_box_text_round_trip (b : Box) (sep : List Char) (hv : Valid b) (hne : sep ≠ [])
    (hs : ∀ c ∈ sep, isWS c = true) : boxFromWords (splitWS (spacedString b sep)) = .ok b := by
  rw [words_of_spaced b sep hne hs]
  obtain ⟨h1, h2, h3⟩ := hv
  simp only [boxFromWords, intWord, List.getElem?_cons_succ, List.getElem?_cons_zero,
    readInt?_showInt, List.length_cons, List.length_nil]
  simp only [ok_bind]
  have : (decide (0 + 1 + 1 + 1 + 1 + 1 + 1 ≥ 6)) = true := by decide
  rw [this]
  simp only [pyAssert_true, ok_bind]
  simp only [Int.add_sub_cancel]
  rw [assert_bind]
  simp [h1, h2, h3]
  rfl

example : Valid ⟨⟨-3, 0, 99⟩, ⟨7, 0, 102⟩⟩ ∧
    boxFromWords (splitWS (spacedString ⟨⟨-3, 0, 99⟩, ⟨7, 0, 102⟩⟩ [' '])) =
      .ok ⟨⟨-3, 0, 99⟩, ⟨7, 0, 102⟩⟩ := by decide

/-- Whatever words are parsed, a returned box is valid and holds the six numbers, less one, in the
documented places; in particular text whose minimum exceeds its maximum is rejected. -/
theorem C01_parsed_box_sound (words : List (List Char)) (b : Box) (h : boxFromWords words = .ok b) :
    Valid b ∧ ∃ i0 i1 j0 j1 k0 k1 : List Char,
      words.take 6 = [i0, i1, j0, j1, k0, k1] ∧
      readInt? i0 = some (b.lo.i + 1) ∧ readInt? i1 = some (b.hi.i + 1) ∧
      readInt? j0 = some (b.lo.j + 1) ∧ readInt? j1 = some (b.hi.j + 1) ∧
      readInt? k0 = some (b.lo.k + 1) ∧ readInt? k1 = some (b.hi.k + 1) := by
  match words with
  | [] | [_] | [_, _] | [_, _, _] | [_, _, _, _] | [_, _, _, _, _] =>
    simp [boxFromWords, pyAssert, err_bind] at h
  | i0 :: i1 :: j0 :: j1 :: k0 :: k1 :: rest =>
    unfold boxFromWords at h
    rw [assert_bind] at h
    replace h := h.2
    simp only [intWord, List.getElem?_cons_succ, List.getElem?_cons_zero] at h
    cases hk0 : readInt? k0 with
    | none => rw [hk0] at h; simp [err_bind] at h
    | some k0' =>
    cases hk1 : readInt? k1 with
    | none => rw [hk0, hk1] at h; simp [err_bind, ok_bind] at h
    | some k1' =>
    cases hj0 : readInt? j0 with
    | none => rw [hk0, hk1, hj0] at h; simp [err_bind, ok_bind] at h
    | some j0' =>
    cases hj1 : readInt? j1 with
    | none => rw [hk0, hk1, hj0, hj1] at h; simp [err_bind, ok_bind] at h
    | some j1' =>
    cases hi0 : readInt? i0 with
    | none => rw [hk0, hk1, hj0, hj1, hi0] at h; simp [err_bind, ok_bind] at h
    | some i0' =>
    cases hi1 : readInt? i1 with
    | none => rw [hk0, hk1, hj0, hj1, hi0, hi1] at h; simp [err_bind, ok_bind] at h
    | some i1' =>
    rw [hk0, hk1, hj0, hj1, hi0, hi1] at h
    simp only [ok_bind] at h
    rw [assert_bind] at h
    obtain ⟨hval, hb⟩ := h
    simp only [pure, Except.pure, Except.ok.injEq] at hb
    subst hb
    simp only [Bool.and_eq_true, decide_eq_true_eq] at hval
    refine ⟨⟨hval.1.1, hval.1.2, hval.2⟩, i0, i1, j0, j1, k0, k1, by simp, ?_⟩
    simp [hi0, hi1, hj0, hj1, hk0, hk1]

example : boxFromWords [['5'], ['4'], ['1'], ['1'], ['1'], ['1']] =
    .error .assertion := by decide

/-! ## C02 local numbering -/

/-- The membership test is membership. -/
theorem C02_cell_in_box_iff (c : V3) (b : Box) : cellInBox c b = true ↔ In c b := by
  simp only [cellInBox, In, Bool.and_eq_true, decide_eq_true_eq]
  constructor <;> intro h <;> omega

private theorem local_eq_some_iff (b : Box) (c l : V3) (base : Int) :
    localFromParent b c base = some l ↔
      In c b ∧ l = ⟨c.k - b.lo.k + base, c.j - b.lo.j + base, c.i - b.lo.i + base⟩ := by
  unfold localFromParent In
  split
  · simp only [Option.some.injEq]
    constructor
    · rintro rfl; exact ⟨by omega, rfl⟩
    · rintro ⟨_, rfl⟩; rfl
  · simp; omega

/-- A parent cell has a local number exactly when it is in the box. -/
theorem C02_local_exists_iff (b : Box) (c : V3) (base : Int) :
    (∃ l, localFromParent b c base = some l) ↔ In c b := by
  unfold localFromParent In
  constructor
  · rintro ⟨l, h⟩
    split at h
    · omega
    · simp at h
  · intro h
    rw [if_pos (by omega)]
    exact ⟨_, rfl⟩

/-- Parent to local and back is the identity on the cells of the box. -/
theorem C02_parent_local_round_trip (b : Box) (c l : V3) (base : Int)
    (h : localFromParent b c base = some l) : parentFromLocal b l base = c := by
  unfold localFromParent at h
  split at h
  · cases h
    obtain ⟨k, j, i⟩ := c
    simp only [parentFromLocal, V3.mk.injEq]
    omega
  · simp at h

/-- Local to parent and back is the identity on local numbers `base ≤ l < base + extent`, and the
local numbers handed out are in that range. -/
theorem C02_local_parent_round_trip (b : Box) (l : V3) (base : Int) :
    (base ≤ l.k ∧ l.k < base + (b.hi.k - b.lo.k + 1) ∧ base ≤ l.j ∧ l.j < base + (b.hi.j - b.lo.j + 1) ∧
      base ≤ l.i ∧ l.i < base + (b.hi.i - b.lo.i + 1)) ↔
    localFromParent b (parentFromLocal b l base) base = some l := by
  rw [local_eq_some_iff]
  obtain ⟨k, j, i⟩ := l
  simp only [parentFromLocal, In, V3.mk.injEq]
  omega

/-- The cells of a valid box can be listed without repetition, and `volume_of_box` is their number. -/
theorem C02_volume_counts_cells (b : Box) (hv : Valid b) :
    ∃ l : List V3, l.Nodup ∧ (∀ c, c ∈ l ↔ In c b) ∧ (l.length : Int) = volumeOfBox b :=
  ⟨cells b, nodup_cells b, mem_cells b, length_cells b hv⟩

example : In ⟨4, 2, 7⟩ ⟨⟨3, 2, 5⟩, ⟨4, 2, 9⟩⟩ ∧ volumeOfBox ⟨⟨3, 2, 5⟩, ⟨4, 2, 9⟩⟩ = 10 ∧
    localFromParent ⟨⟨3, 2, 5⟩, ⟨4, 2, 9⟩⟩ ⟨4, 2, 7⟩ 1 = some ⟨2, 1, 3⟩ := by decide

/-- The central cell of a valid box is in the box. -/
theorem C02_central_cell_in_box (b : Box) (hv : Valid b) : In (centralCell b) b := by
  obtain ⟨h1, h2, h3⟩ := hv
  simp only [In, centralCell]
  omega

/-- `valid_box` holds exactly for non-empty boxes all of whose cells are cells of the host grid. -/
theorem C02_valid_box_iff (b : Box) (host : V3) :
    validBox b host = true ↔
      Valid b ∧ ∀ c, In c b → (0 ≤ c.k ∧ c.k < host.k ∧ 0 ≤ c.j ∧ c.j < host.j ∧ 0 ≤ c.i ∧ c.i < host.i) := by
  have : validBox b host = true ↔
      (0 ≤ b.lo.k ∧ b.lo.k ≤ b.hi.k ∧ b.hi.k < host.k) ∧ (0 ≤ b.lo.j ∧ b.lo.j ≤ b.hi.j ∧ b.hi.j < host.j) ∧
      (0 ≤ b.lo.i ∧ b.lo.i ≤ b.hi.i ∧ b.hi.i < host.i) := by
    simp only [validBox, List.range, List.range.loop, List.all_cons, List.all_nil, Bool.and_true,
      Bool.and_eq_true, Bool.not_eq_true', Bool.or_eq_false_iff, decide_eq_false_iff_not]
    simp only [V3.get]
    simp
    omega
  rw [this]
  constructor
  · intro h
    refine ⟨⟨by omega, by omega, by omega⟩, ?_⟩
    intro c hc
    simp only [In] at hc
    omega
  · rintro ⟨hv, hc⟩
    simp only [Valid] at hv
    have h1 := hc b.lo (by simp only [In]; omega)
    have h2 := hc b.hi (by simp only [In]; omega)
    omega

/-- The box of a single cell has exactly that cell; the full extent box has exactly the grid's cells. -/
theorem C02_single_and_full (c e x : V3) :
    (In x (singleCellBox c) ↔ x = c) ∧
    (In x (fullExtentBox0 e) ↔ (0 ≤ x.k ∧ x.k < e.k ∧ 0 ≤ x.j ∧ x.j < e.j ∧ 0 ≤ x.i ∧ x.i < e.i)) := by
  obtain ⟨a, b, d⟩ := x
  obtain ⟨p, q, r⟩ := c
  simp only [In, singleCellBox, fullExtentBox0, V3.mk.injEq]
  omega

/-! ## C03 overlap and union -/

/-- Two valid boxes are reported as overlapping exactly when they share a cell. -/
theorem C03_overlap_iff_common_cell (a b : Box) (ha : Valid a) (hb : Valid b) :
    boxesOverlap a b = true ↔ ∃ c, In c a ∧ In c b := by
  simp only [Valid] at ha hb
  simp only [boxesOverlap, Bool.not_eq_true', Bool.or_eq_false_iff, decide_eq_false_iff_not]
  constructor
  · intro h
    refine ⟨⟨max a.lo.k b.lo.k, max a.lo.j b.lo.j, max a.lo.i b.lo.i⟩, ?_, ?_⟩ <;> simp only [In] <;> omega
  · rintro ⟨c, h1, h2⟩
    simp only [In] at h1 h2
    omega

/-- The union contains both boxes and is within every box that contains both. -/
theorem C03_union_least (a b : Box) (ha : Valid a) (hb : Valid b) :
    ∃ u, union (some a) (some b) = some u ∧ Sub a u ∧ Sub b u ∧ ∀ v, Sub a v → Sub b v → Sub u v := by
  refine ⟨_, rfl, ?_, ?_, ?_⟩
  · intro c hc; simp only [In] at hc ⊢; omega
  · intro c hc; simp only [In] at hc ⊢; omega
  · intro v h1 h2 c hc
    simp only [Valid] at ha hb
    have := h1 a.lo (by simp only [In]; omega)
    have := h1 a.hi (by simp only [In]; omega)
    have := h2 b.lo (by simp only [In]; omega)
    have := h2 b.hi (by simp only [In]; omega)
    simp only [In] at *
    omega

/-- `None` is neutral for union. -/
theorem C03_union_none (a : Option Box) : union a none = a ∧ union none a = a := by
  cases a <;> exact ⟨rfl, rfl⟩

example : Valid ⟨⟨0, 0, 0⟩, ⟨1, 1, 1⟩⟩ ∧ Valid ⟨⟨1, 1, 1⟩, ⟨5, 5, 5⟩⟩ ∧
    boxesOverlap ⟨⟨0, 0, 0⟩, ⟨1, 1, 1⟩⟩ ⟨⟨1, 1, 1⟩, ⟨5, 5, 5⟩⟩ = true ∧
    boxesOverlap ⟨⟨0, 0, 0⟩, ⟨1, 1, 1⟩⟩ ⟨⟨1, 1, 2⟩, ⟨5, 5, 5⟩⟩ = false := by decide

/-! ## C04 trimming overlapping boxes -/

private theorem mul_le_of {a b c : Int} (h : a ≤ b) (hc : 0 ≤ c) : a * c ≤ b * c :=
  Int.mul_le_mul_of_nonneg_right h hc

/-- For valid boxes `overlapping_boxes` never raises; it returns True exactly when a cell is shared,
and otherwise a trim box of zeros. -/
theorem C04_trim_offered_iff_overlap (e n : Box) (he : Valid e) (hn : Valid n) :
    ∃ r t, overlappingBoxes e n = .ok (r, t) ∧ (r = true ↔ ∃ c, In c e ∧ In c n) ∧
      (r = false → t = ⟨⟨0, 0, 0⟩, ⟨0, 0, 0⟩⟩) ∧
      (r = true → ∃ d, d < 3 ∧ IsSlab t e n d ∧
        ∀ d' t', d' < 3 → IsSlab t' e n d' → volumeOfBox t ≤ volumeOfBox t') := by
  have hov := C03_overlap_iff_common_cell e n he hn
  by_cases h : boxesOverlap e n = true
  · have hsh := hov.1 h
    -- overlap ranges are non empty and within n
    simp only [boxesOverlap, Bool.not_eq_true', Bool.or_eq_false_iff, decide_eq_false_iff_not] at h
    simp only [Valid] at he hn
    have hkk : (1:Int) ≤ n.hi.k - n.lo.k + 1 := by omega
    have hjj : (1:Int) ≤ n.hi.j - n.lo.j + 1 := by omega
    have hii : (1:Int) ≤ n.hi.i - n.lo.i + 1 := by omega
    have hAk : 0 ≤ (n.hi.j - n.lo.j + 1) * (n.hi.i - n.lo.i + 1) := Int.mul_nonneg (by omega) (by omega)
    have hAj : 0 ≤ (n.hi.k - n.lo.k + 1) * (n.hi.i - n.lo.i + 1) := Int.mul_nonneg (by omega) (by omega)
    have hAi : 0 ≤ (n.hi.k - n.lo.k + 1) * (n.hi.j - n.lo.j + 1) := Int.mul_nonneg (by omega) (by omega)
    have hck : (min e.hi.k n.hi.k - max e.lo.k n.lo.k + 1) * ((n.hi.j - n.lo.j + 1) * (n.hi.i - n.lo.i + 1)) ≤
        volumeOfBox n := by
      unfold volumeOfBox
      rw [Int.mul_assoc]
      exact mul_le_of (by omega) hAk
    -- names for the three costs
    obtain ⟨ck, hckd⟩ : ∃ ck, ck = (min e.hi.k n.hi.k - max e.lo.k n.lo.k + 1) *
      ((n.hi.j - n.lo.j + 1) * (n.hi.i - n.lo.i + 1)) := ⟨_, rfl⟩
    obtain ⟨cj, hcjd⟩ : ∃ cj, cj = (min e.hi.j n.hi.j - max e.lo.j n.lo.j + 1) *
      ((n.hi.k - n.lo.k + 1) * (n.hi.i - n.lo.i + 1)) := ⟨_, rfl⟩
    obtain ⟨ci, hcid⟩ : ∃ ci, ci = (min e.hi.i n.hi.i - max e.lo.i n.lo.i + 1) *
      ((n.hi.k - n.lo.k + 1) * (n.hi.j - n.lo.j + 1)) := ⟨_, rfl⟩
    -- volume of any slab is the cost of its direction
    have hvol : ∀ d t, d < 3 → IsSlab t e n d →
        volumeOfBox t = if d = 0 then ck else if d = 1 then cj else ci := by
      intro d t hd ⟨hsp, hlo, hhi⟩
      have : d = 0 ∨ d = 1 ∨ d = 2 := by omega
      rcases this with rfl | rfl | rfl
      · have h1 := hsp 1 (by omega) (by omega)
        have h2 := hsp 2 (by omega) (by omega)
        simp [V3.get] at h1 h2 hlo hhi
        simp [volumeOfBox, h1, h2, hlo, hhi, hckd, Int.mul_assoc]
      · have h1 := hsp 0 (by omega) (by omega)
        have h2 := hsp 2 (by omega) (by omega)
        simp [V3.get] at h1 h2 hlo hhi
        simp [volumeOfBox, h1, h2, hlo, hhi, hcjd]
        rw [Int.mul_comm (n.hi.k - n.lo.k + 1) (min _ _ - _ + 1), Int.mul_assoc]
      · have h1 := hsp 0 (by omega) (by omega)
        have h2 := hsp 1 (by omega) (by omega)
        simp [V3.get] at h1 h2 hlo hhi
        simp [volumeOfBox, h1, h2, hlo, hhi, hcid]
        rw [Int.mul_comm]
    have hfold : (List.range 3).foldl (trimStep e n) ⟨⟨⟨0, 0, 0⟩, ⟨0, 0, 0⟩⟩, volumeOfBox n + 1, -1⟩ =
        (⟨⟨⟨max e.lo.k n.lo.k, max e.lo.j n.lo.j, max e.lo.i n.lo.i⟩,
          ⟨min e.hi.k n.hi.k, min e.hi.j n.hi.j, min e.hi.i n.hi.i⟩⟩,
          if ci < (if cj < ck then cj else ck) then ci else (if cj < ck then cj else ck),
          if ci < (if cj < ck then cj else ck) then 2 else if cj < ck then 1 else 0⟩ : TrimScan) := by
      simp only [List.range, List.range.loop, List.foldl_cons, List.foldl_nil]
      have s0 : trimStep e n ⟨⟨⟨0, 0, 0⟩, ⟨0, 0, 0⟩⟩, volumeOfBox n + 1, -1⟩ 0 =
          ⟨⟨⟨max e.lo.k n.lo.k, 0, 0⟩, ⟨min e.hi.k n.hi.k, 0, 0⟩⟩, ck, 0⟩ := by
        simp only [trimStep, V3.get, V3.set, newBoxArea, if_true]
        rw [if_pos (by rw [← hckd] at hck ⊢; omega), hckd]
        rfl
      have s1 : trimStep e n ⟨⟨⟨max e.lo.k n.lo.k, 0, 0⟩, ⟨min e.hi.k n.hi.k, 0, 0⟩⟩, ck, 0⟩ 1 =
          ⟨⟨⟨max e.lo.k n.lo.k, max e.lo.j n.lo.j, 0⟩, ⟨min e.hi.k n.hi.k, min e.hi.j n.hi.j, 0⟩⟩,
            if cj < ck then cj else ck, if cj < ck then 1 else 0⟩ := by
        simp [trimStep, V3.get, V3.set, newBoxArea]
        rw [← hcjd]
        split <;> rfl
      have s2 : ∀ m dd, trimStep e n ⟨⟨⟨max e.lo.k n.lo.k, max e.lo.j n.lo.j, 0⟩,
            ⟨min e.hi.k n.hi.k, min e.hi.j n.hi.j, 0⟩⟩, m, dd⟩ 2 =
          ⟨⟨⟨max e.lo.k n.lo.k, max e.lo.j n.lo.j, max e.lo.i n.lo.i⟩,
            ⟨min e.hi.k n.hi.k, min e.hi.j n.hi.j, min e.hi.i n.hi.i⟩⟩,
            if ci < m then ci else m, if ci < m then 2 else dd⟩ := by
        intro m dd
        simp [trimStep, V3.get, V3.set, newBoxArea]
        rw [← hcid]
        split <;> rfl
      rw [s0, s1, s2]
    have hbo : boxesOverlap e n = true := by
      simp only [boxesOverlap, Bool.not_eq_true', Bool.or_eq_false_iff, decide_eq_false_iff_not]
      exact h
    have mk : ∀ (d : Nat), d < 3 → (d : Int) = (if ci < (if cj < ck then cj else ck) then 2 else if cj < ck then 1 else 0) →
        (∀ d', d' < 3 → (if d = 0 then ck else if d = 1 then cj else ci) ≤
          (if d' = 0 then ck else if d' = 1 then cj else ci)) → ∀ t, IsSlab t e n d → 
        overlappingBoxes e n = .ok (true, t) → ∃ r t, overlappingBoxes e n = .ok (r, t) ∧ (r = true ↔ ∃ c, In c e ∧ In c n) ∧
      (r = false → t = ⟨⟨0, 0, 0⟩, ⟨0, 0, 0⟩⟩) ∧
      (r = true → ∃ d, d < 3 ∧ IsSlab t e n d ∧
        ∀ d' t', d' < 3 → IsSlab t' e n d' → volumeOfBox t ≤ volumeOfBox t') := by
      intro d hd _ hmin t hslab hres
      refine ⟨true, t, hres, ⟨fun _ => hsh, fun _ => rfl⟩, by simp, fun _ => ⟨d, hd, hslab, ?_⟩⟩
      intro d' t' hd' hs'
      rw [hvol d t hd hslab, hvol d' t' hd' hs']
      exact hmin d' hd'
    by_cases c1 : ci < (if cj < ck then cj else ck)
    · refine mk 2 (by omega) (by simp [c1]) ?_ ⟨⟨n.lo.k, n.lo.j, max e.lo.i n.lo.i⟩, ⟨n.hi.k, n.hi.j, min e.hi.i n.hi.i⟩⟩ ?_ ?_
      · intro d' hd'
        simp
        split at c1 <;> (repeat' split) <;> omega
      · refine ⟨?_, rfl, rfl⟩
        intro x hx hne
        have : x = 0 ∨ x = 1 := by omega
        rcases this with rfl | rfl <;> exact ⟨rfl, rfl⟩
      · unfold overlappingBoxes
        rw [hbo]
        simp only [Bool.not_true, Bool.false_eq_true, if_false]
        rw [hfold]
        simp only [c1, if_true]
        rfl
    · by_cases c2 : cj < ck
      · simp only [c2, if_true] at c1
        refine mk 1 (by omega) (by simp [c1, c2]) ?_ ⟨⟨n.lo.k, max e.lo.j n.lo.j, n.lo.i⟩, ⟨n.hi.k, min e.hi.j n.hi.j, n.hi.i⟩⟩ ?_ ?_
        · intro d' hd'
          simp
          (repeat' split) <;> omega
        · refine ⟨?_, rfl, rfl⟩
          intro x hx hne
          have : x = 0 ∨ x = 2 := by omega
          rcases this with rfl | rfl <;> exact ⟨rfl, rfl⟩
        · unfold overlappingBoxes
          rw [hbo]
          simp only [Bool.not_true, Bool.false_eq_true, if_false]
          rw [hfold]
          simp only [c1, c2, if_true, if_false]
          rfl
      · simp only [c2, if_false] at c1
        refine mk 0 (by omega) (by simp [c1, c2]) ?_ ⟨⟨max e.lo.k n.lo.k, n.lo.j, n.lo.i⟩, ⟨min e.hi.k n.hi.k, n.hi.j, n.hi.i⟩⟩ ?_ ?_
        · intro d' hd'
          simp
          (repeat' split) <;> omega
        · refine ⟨?_, rfl, rfl⟩
          intro x hx hne
          have : x = 1 ∨ x = 2 := by omega
          rcases this with rfl | rfl <;> exact ⟨rfl, rfl⟩
        · unfold overlappingBoxes
          rw [hbo]
          simp only [Bool.not_true, Bool.false_eq_true, if_false]
          rw [hfold]
          simp only [c1, c2, if_false]
          rfl
  · have hno : ¬ ∃ c, In c e ∧ In c n := fun hc => h (hov.2 hc)
    refine ⟨false, ⟨⟨0, 0, 0⟩, ⟨0, 0, 0⟩⟩, ?_, ?_, fun _ => rfl, by simp⟩
    · have h' : boxesOverlap e n = false := by simpa using h
      simp [overlappingBoxes, h']
    · exact ⟨by simp, fun hc => absurd hc hno⟩

/-- The offered trim box is within the new box and covers every shared cell. -/
theorem C04_trim_covers_shared (e n t : Box) (he : Valid e) (hn : Valid n)
    (h : overlappingBoxes e n = .ok (true, t)) :
    Sub t n ∧ ∀ c, In c e → In c n → In c t := by
  obtain ⟨r, t', heq, hr, _, hslab⟩ := C04_trim_offered_iff_overlap e n he hn
  rw [h] at heq
  cases heq
  obtain ⟨d, hd, ⟨hsp, hlo, hhi⟩, _⟩ := hslab rfl
  clear hr
  have : d = 0 ∨ d = 1 ∨ d = 2 := by omega
  rcases this with rfl | rfl | rfl
  · have h1 := hsp 1 (by omega) (by omega)
    have h2 := hsp 2 (by omega) (by omega)
    simp [V3.get] at h1 h2 hlo hhi
    refine ⟨fun c hc => ?_, fun c hc hc' => ?_⟩ <;> simp only [In] at * <;> omega
  · have h1 := hsp 0 (by omega) (by omega)
    have h2 := hsp 2 (by omega) (by omega)
    simp [V3.get] at h1 h2 hlo hhi
    refine ⟨fun c hc => ?_, fun c hc hc' => ?_⟩ <;> simp only [In] at * <;> omega
  · have h1 := hsp 0 (by omega) (by omega)
    have h2 := hsp 1 (by omega) (by omega)
    simp [V3.get] at h1 h2 hlo hhi
    refine ⟨fun c hc => ?_, fun c hc hc' => ?_⟩ <;> simp only [In] at * <;> omega

/-- The documentation says that removing the trim box leaves a valid box with no overlap.  That fails
when the established box is in the interior of the new box: no box has the remaining cells. -/
theorem C04_remainder_is_box_violated :
    ∃ e n t : Box, Valid e ∧ Valid n ∧ overlappingBoxes e n = .ok (true, t) ∧
      ¬ ∃ r, IsRemainder r n t := by
  refine ⟨⟨⟨1, 1, 1⟩, ⟨1, 1, 1⟩⟩, ⟨⟨0, 0, 0⟩, ⟨2, 2, 2⟩⟩, ⟨⟨1, 0, 0⟩, ⟨1, 2, 2⟩⟩, by decide, by decide,
    by rfl, ?_⟩
  rintro ⟨r, hr⟩
  have h0 := (hr ⟨0, 0, 0⟩).2 (by decide)
  have h2 := (hr ⟨2, 0, 0⟩).2 (by decide)
  have h1 : In ⟨1, 0, 0⟩ r := by simp only [In] at *; omega
  exact ((hr ⟨1, 0, 0⟩).1 h1).2 (by decide)

/-- Nor does a valid box remain when the established box covers the whole new box. -/
theorem C04_remainder_nonempty_violated :
    ∃ e n t : Box, Valid e ∧ Valid n ∧ overlappingBoxes e n = .ok (true, t) ∧
      ¬ ∃ r, Valid r ∧ IsRemainder r n t := by
  refine ⟨⟨⟨0, 0, 0⟩, ⟨2, 2, 2⟩⟩, ⟨⟨1, 1, 1⟩, ⟨1, 1, 1⟩⟩, ⟨⟨1, 1, 1⟩, ⟨1, 1, 1⟩⟩, by decide, by decide,
    by rfl, ?_⟩
  rintro ⟨r, hv, hr⟩
  have := (hr r.lo).1 (by simp only [In, Valid] at *; omega)
  simp only [In] at this
  omega

/-- What does hold: if the trim box reaches exactly one of the two faces of the new box in the trimmed
axis `d`, applying it succeeds, and what is left is a valid box with exactly the remaining cells, none
of them shared with the established box.
Missing for the full property: the other placements, for which the claim fails (see above). -/
theorem C04_trim_remainder_partial (e n t : Box) (m : Mask) (d : Nat) (he : Valid e) (hn : Valid n)
    (h : overlappingBoxes e n = .ok (true, t)) (hd : d < 3) (hspan : SpansExcept t n d)
    (hface : (t.lo.get d = n.lo.get d ∧ t.hi.get d ≠ n.hi.get d) ∨
             (t.lo.get d ≠ n.lo.get d ∧ t.hi.get d = n.hi.get d)) :
    ∃ r m', trimBoxByBox n t m = .ok (r, m') ∧ Valid r ∧ IsRemainder r n t ∧
      ¬ ∃ c, In c r ∧ In c e := by
  obtain ⟨hsub, hcov⟩ := C04_trim_covers_shared e n t he hn h
  have hvt : Valid t := by
    obtain ⟨r, t', heq, hr, _, _⟩ := C04_trim_offered_iff_overlap e n he hn
    rw [h] at heq
    cases heq
    obtain ⟨c, hce, hcn⟩ := hr.1 rfl
    have := hcov c hce hcn
    simp only [In, Valid] at *
    omega
  have htl := hsub t.lo (by simp only [In, Valid] at *; omega)
  have hth := hsub t.hi (by simp only [In, Valid] at *; omega)
  have fin : ∀ r, (∃ m', trimBoxByBox n t m = .ok (r, m')) → Valid r → IsRemainder r n t →
      ∃ r m', trimBoxByBox n t m = .ok (r, m') ∧ Valid r ∧ IsRemainder r n t ∧ ¬ ∃ c, In c r ∧ In c e := by
    rintro r ⟨m', h1⟩ h2 h3
    refine ⟨r, m', h1, h2, h3, ?_⟩
    rintro ⟨c, hcr, hce⟩
    have := (h3 c).1 hcr
    exact this.2 (hcov c hce this.1)
  obtain ⟨⟨nlk, nlj, nli⟩, ⟨nhk, nhj, nhi⟩⟩ := n
  obtain ⟨⟨tlk, tlj, tli⟩, ⟨thk, thj, thi⟩⟩ := t
  have hdd : d = 0 ∨ d = 1 ∨ d = 2 := by omega
  simp only [In, Valid] at hvt htl hth hn
  rcases hdd with rfl | rfl | rfl
  · have h1 := hspan 1 (by omega) (by omega)
    have h2 := hspan 2 (by omega) (by omega)
    simp [V3.get] at h1 h2 hface
    obtain ⟨rfl, rfl⟩ := h1
    obtain ⟨rfl, rfl⟩ := h2
    rcases hface with ⟨rfl, hne⟩ | ⟨hne, rfl⟩
    · refine fin ⟨⟨thk + 1, tlj, tli⟩, ⟨nhk, thj, thi⟩⟩ ?_ ?_ ?_
      · apply Exists.intro
        simp only [trimBoxByBox, if_true, hne, ne_eq, not_false_eq_true]
        simp [pyAssert, ok_bind, extentOfBox]
        rw [if_pos (by omega)]
        rfl
      · simp only [Valid]; omega
      · intro c; simp only [In]; omega
    · refine fin ⟨⟨nlk, tlj, tli⟩, ⟨tlk - 1, thj, thi⟩⟩ ?_ ?_ ?_
      · apply Exists.intro
        simp [trimBoxByBox, hne]
        simp [pyAssert, ok_bind, extentOfBox]
        rw [if_pos (by omega)]
        rfl
      · simp only [Valid]; omega
      · intro c; simp only [In]; omega
  · have h1 := hspan 0 (by omega) (by omega)
    have h2 := hspan 2 (by omega) (by omega)
    simp [V3.get] at h1 h2 hface
    obtain ⟨rfl, rfl⟩ := h1
    obtain ⟨rfl, rfl⟩ := h2
    rcases hface with ⟨rfl, hne⟩ | ⟨hne, rfl⟩
    · refine fin ⟨⟨tlk, thj + 1, tli⟩, ⟨thk, nhj, thi⟩⟩ ?_ ?_ ?_
      · apply Exists.intro
        simp only [trimBoxByBox, if_true, hne, ne_eq, not_false_eq_true]
        simp [pyAssert, ok_bind, extentOfBox]
        rw [if_pos (by omega)]
        rfl
      · simp only [Valid]; omega
      · intro c; simp only [In]; omega
    · refine fin ⟨⟨tlk, nlj, tli⟩, ⟨thk, tlj - 1, thi⟩⟩ ?_ ?_ ?_
      · apply Exists.intro
        simp [trimBoxByBox, hne]
        simp [pyAssert, ok_bind, extentOfBox]
        rw [if_pos (by omega)]
        rfl
      · simp only [Valid]; omega
      · intro c; simp only [In]; omega
  · have h1 := hspan 0 (by omega) (by omega)
    have h2 := hspan 1 (by omega) (by omega)
    simp [V3.get] at h1 h2 hface
    obtain ⟨rfl, rfl⟩ := h1
    obtain ⟨rfl, rfl⟩ := h2
    rcases hface with ⟨rfl, hne⟩ | ⟨hne, rfl⟩
    · refine fin ⟨⟨tlk, tlj, thi + 1⟩, ⟨thk, thj, nhi⟩⟩ ?_ ?_ ?_
      · apply Exists.intro
        simp only [trimBoxByBox, if_true, hne, ne_eq, not_false_eq_true]
        simp [pyAssert, ok_bind, extentOfBox, hne]
        rw [if_pos (by omega)]
        rfl
      · simp only [Valid]; omega
      · intro c; simp only [In]; omega
    · refine fin ⟨⟨tlk, tlj, nli⟩, ⟨thk, thj, tli - 1⟩⟩ ?_ ?_ ?_
      · apply Exists.intro
        simp [trimBoxByBox, hne]
        simp [pyAssert, ok_bind, extentOfBox, hne]
        rw [if_pos (by omega)]
        rfl
      · simp only [Valid]; omega
      · intro c; simp only [In]; omega

example : ∃ t, overlappingBoxes ⟨⟨0, 0, 0⟩, ⟨3, 9, 9⟩⟩ ⟨⟨2, 2, 2⟩, ⟨8, 5, 5⟩⟩ = .ok (true, t) ∧
    SpansExcept t ⟨⟨2, 2, 2⟩, ⟨8, 5, 5⟩⟩ 0 ∧ t.lo.get 0 = 2 ∧ t.hi.get 0 ≠ 8 := by
  refine ⟨⟨⟨2, 2, 2⟩, ⟨3, 5, 5⟩⟩, by rfl, ?_, by decide, by decide⟩
  intro x hx hne
  have : x = 1 ∨ x = 2 := by omega
  rcases this with rfl | rfl <;> exact ⟨rfl, rfl⟩

/-- Whatever trim box (within the box) is applied: if trimming succeeds, the remaining box has exactly
the remaining cells, and the returned mask agrees with the old mask at every remaining cell. -/
theorem C04_trim_by_box_sound (b t r : Box) (m m' : Mask) (hvt : Valid t)
    (h : trimBoxByBox b t m = .ok (r, m')) :
    Valid r ∧ IsRemainder r b t ∧ m'.shape = extentOfBox r ∧
      ∀ c, In c r → m'.at ⟨c.k - r.lo.k, c.j - r.lo.j, c.i - r.lo.i⟩ =
        m.at ⟨c.k - b.lo.k, c.j - b.lo.j, c.i - b.lo.i⟩ := by
  obtain ⟨⟨blk, blj, bli⟩, ⟨bhk, bhj, bhi⟩⟩ := b
  obtain ⟨⟨tlk, tlj, tli⟩, ⟨thk, thj, thi⟩⟩ := t
  have e3 : ∀ a b c x y z : Int, a = x → b = y → c = z → m.at ⟨a, b, c⟩ = m.at ⟨x, y, z⟩ := by
    rintro a b c x y z rfl rfl rfl; rfl
  simp only [Valid] at hvt
  unfold trimBoxByBox at h
  split at h
  · rename_i heq
    simp only [V3.mk.injEq] at heq
    obtain ⟨rfl, rfl, rfl⟩ := heq
    split at h
    · rename_i hne
      rw [show ∀ (x : Res (Box × Box)) (f : Box × Box → Res (Box × Mask)), (x >>= f) = (x >>= f) from fun _ _ => rfl] at h
      by_cases ha : (decide (thj = bhj) && decide (thi = bhi)) = true
      · dsimp only at h ha hne
        rw [ha] at h
        simp only [pyAssert_true, ok_bind, pure_bind] at h
        rw [assert_bind] at h
        obtain ⟨hv, hr⟩ := h
        simp only [Bool.and_eq_true, decide_eq_true_eq] at hv ha
        cases hr
        refine ⟨⟨hv.1.1, hv.1.2, hv.2⟩, fun c => ?_, ?_, fun c hc => ?_⟩
        · simp only [In]; omega
        · simp only [Mask.slice, extentOfBox, V3.mk.injEq]; omega
        · simp only [Mask.slice]
          apply e3 <;> omega
      · dsimp only at h ha
        have : (decide (thj = bhj) && decide (thi = bhi)) = false := by simpa using ha
        rw [this] at h
        simp [pyAssert, err_bind] at h
    · rename_i hne
      split at h
      · rename_i hne2
        by_cases ha : decide (thi = bhi) = true
        · dsimp only at h ha hne hne2
          rw [ha] at h
          simp only [pyAssert_true, ok_bind, pure_bind] at h
          rw [assert_bind] at h
          obtain ⟨hv, hr⟩ := h
          simp only [Bool.and_eq_true, decide_eq_true_eq] at hv ha
          cases hr
          refine ⟨⟨hv.1.1, hv.1.2, hv.2⟩, fun c => ?_, ?_, fun c hc => ?_⟩
          · simp only [In]; omega
          · simp only [Mask.slice, extentOfBox, V3.mk.injEq]; omega
          · simp only [Mask.slice]
            apply e3 <;> omega
        · dsimp only at h ha
          have : decide (thi = bhi) = false := by simpa using ha
          rw [this] at h
          simp [pyAssert, err_bind] at h
      · rename_i hne2
        by_cases ha : decide (thi ≠ bhi) = true
        · dsimp only at h ha hne hne2
          rw [ha] at h
          simp only [pyAssert_true, ok_bind, pure_bind] at h
          rw [assert_bind] at h
          obtain ⟨hv, hr⟩ := h
          simp only [Bool.and_eq_true, decide_eq_true_eq] at hv ha
          cases hr
          refine ⟨⟨hv.1.1, hv.1.2, hv.2⟩, fun c => ?_, ?_, fun c hc => ?_⟩
          · simp only [In]; omega
          · simp only [Mask.slice, extentOfBox, V3.mk.injEq]; omega
          · simp only [Mask.slice]
            apply e3 <;> omega
        · dsimp only at h ha
          have : decide (thi ≠ bhi) = false := by simpa using ha
          rw [this] at h
          simp [pyAssert, err_bind] at h
  · split at h
    · rename_i hlo heq
      simp only [V3.mk.injEq] at heq
      obtain ⟨rfl, rfl, rfl⟩ := heq
      split at h
      · rename_i hne
        by_cases ha : (decide (tlj = blj) && decide (tli = bli)) = true
        · dsimp only at h ha hne
          rw [ha] at h
          simp only [pyAssert_true, ok_bind, pure_bind] at h
          rw [assert_bind] at h
          obtain ⟨hv, hr⟩ := h
          simp only [Bool.and_eq_true, decide_eq_true_eq] at hv ha
          cases hr
          refine ⟨⟨hv.1.1, hv.1.2, hv.2⟩, fun c => ?_, ?_, fun c hc => ?_⟩
          · simp only [In]; omega
          · simp only [Mask.slice, extentOfBox, V3.mk.injEq]; omega
          · simp only [Mask.slice]
            apply e3 <;> omega
        · dsimp only at h ha
          have : (decide (tlj = blj) && decide (tli = bli)) = false := by simpa using ha
          rw [this] at h
          simp [pyAssert, err_bind] at h
      · rename_i hne
        split at h
        · rename_i hne2
          by_cases ha : decide (tli = bli) = true
          · dsimp only at h ha hne hne2
            rw [ha] at h
            simp only [pyAssert_true, ok_bind, pure_bind] at h
            rw [assert_bind] at h
            obtain ⟨hv, hr⟩ := h
            simp only [Bool.and_eq_true, decide_eq_true_eq] at hv ha
            cases hr
            refine ⟨⟨hv.1.1, hv.1.2, hv.2⟩, fun c => ?_, ?_, fun c hc => ?_⟩
            · simp only [In]; omega
            · simp only [Mask.slice, extentOfBox, V3.mk.injEq]; omega
            · simp only [Mask.slice]
              apply e3 <;> omega
          · dsimp only at h ha
            have : decide (tli = bli) = false := by simpa using ha
            rw [this] at h
            simp [pyAssert, err_bind] at h
        · rename_i hne2
          by_cases ha : decide (tli ≠ bli) = true
          · dsimp only at h ha hne hne2
            rw [ha] at h
            simp only [pyAssert_true, ok_bind, pure_bind] at h
            rw [assert_bind] at h
            obtain ⟨hv, hr⟩ := h
            simp only [Bool.and_eq_true, decide_eq_true_eq] at hv ha
            cases hr
            refine ⟨⟨hv.1.1, hv.1.2, hv.2⟩, fun c => ?_, ?_, fun c hc => ?_⟩
            · simp only [In]; omega
            · simp only [Mask.slice, extentOfBox, V3.mk.injEq]; omega
            · simp only [Mask.slice]
              apply e3 <;> omega
          · dsimp only at h ha
            have : decide (tli ≠ bli) = false := by simpa using ha
            rw [this] at h
            simp [pyAssert, err_bind] at h
    · simp [err_bind] at h

/-! ## C05 trimming to a mask -/

/-- Trimming a box to a mask with at least one flagged cell succeeds; the result lies in the old box,
contains every flagged cell, lies within every box that contains every flagged cell, and the returned
mask agrees with the old mask cell by cell. -/
theorem C05_trim_to_mask_minimal (b : Box) (m : Mask) (hshape : m.shape = extentOfBox b)
    (flagged : V3 → Prop)
    (hfl : ∀ c, flagged c ↔ In c b ∧ m.at ⟨c.k - b.lo.k, c.j - b.lo.j, c.i - b.lo.i⟩ = true)
    (hex : ∃ c, flagged c) :
    ∃ r m', trimBoxToMask b m = .ok (r, m') ∧ Sub r b ∧ (∀ c, flagged c → In c r) ∧
      (∀ v, (∀ c, flagged c → In c v) → Sub r v) ∧
      m'.shape = extentOfBox r ∧
      ∀ c, In c r → m'.at ⟨c.k - r.lo.k, c.j - r.lo.j, c.i - r.lo.i⟩ =
        m.at ⟨c.k - b.lo.k, c.j - b.lo.j, c.i - b.lo.i⟩ := by
  obtain ⟨c0, hc0⟩ := hex
  have hf := (hfl c0).1 hc0
  simp only [In] at hf
  have e3 : ∀ a b c x y z : Int, a = x → b = y → c = z → m.at ⟨a, b, c⟩ = m.at ⟨x, y, z⟩ := by
    rintro a b c x y z rfl rfl rfl; rfl
  obtain ⟨e, he⟩ : ∃ e, e = extentOfBox b := ⟨_, rfl⟩
  have hek : e.k = b.hi.k - b.lo.k + 1 := by rw [he]; rfl
  have hej : e.j = b.hi.j - b.lo.j + 1 := by rw [he]; rfl
  have hei : e.i = b.hi.i - b.lo.i + 1 := by rw [he]; rfl
  obtain ⟨pk, hpk⟩ : ∃ pk : Int → Bool, pk = fun k => (intRange e.j).any fun j => (intRange e.i).any fun i => m.at ⟨k, j, i⟩ := ⟨_, rfl⟩
  obtain ⟨pj, hpj⟩ : ∃ pj : Int → Bool, pj = fun j => (intRange e.k).any fun k => (intRange e.i).any fun i => m.at ⟨k, j, i⟩ := ⟨_, rfl⟩
  obtain ⟨pi, hpi⟩ : ∃ pi : Int → Bool, pi = fun i => (intRange e.k).any fun k => (intRange e.j).any fun j => m.at ⟨k, j, i⟩ := ⟨_, rfl⟩
  have flk : ∀ c, flagged c → 0 ≤ c.k - b.lo.k ∧ c.k - b.lo.k < e.k ∧ pk (c.k - b.lo.k) = true := by
    intro c hc
    have := (hfl c).1 hc
    simp only [In] at this
    refine ⟨by omega, by omega, ?_⟩
    rw [hpk]; dsimp only; rw [any2]
    exact ⟨_, _, ⟨by omega, by omega⟩, ⟨by omega, by omega⟩, this.2⟩
  have flj : ∀ c, flagged c → 0 ≤ c.j - b.lo.j ∧ c.j - b.lo.j < e.j ∧ pj (c.j - b.lo.j) = true := by
    intro c hc
    have := (hfl c).1 hc
    simp only [In] at this
    refine ⟨by omega, by omega, ?_⟩
    rw [hpj]; dsimp only; rw [any2]
    exact ⟨_, _, ⟨by omega, by omega⟩, ⟨by omega, by omega⟩, this.2⟩
  have fli : ∀ c, flagged c → 0 ≤ c.i - b.lo.i ∧ c.i - b.lo.i < e.i ∧ pi (c.i - b.lo.i) = true := by
    intro c hc
    have := (hfl c).1 hc
    simp only [In] at this
    refine ⟨by omega, by omega, ?_⟩
    rw [hpi]; dsimp only; rw [any2]
    exact ⟨_, _, ⟨by omega, by omega⟩, ⟨by omega, by omega⟩, this.2⟩
  -- converse: each flagged slice has a flagged cell
  have slk : ∀ x, 0 ≤ x → x < e.k → pk x = true → ∃ c, flagged c ∧ c.k = b.lo.k + x := by
    intro x h0 h1 hp
    rw [hpk] at hp; dsimp only at hp; rw [any2] at hp
    obtain ⟨y, z, hy, hz, hm⟩ := hp
    refine ⟨⟨b.lo.k + x, b.lo.j + y, b.lo.i + z⟩, (hfl _).2 ⟨?_, ?_⟩, rfl⟩
    · simp only [In]; omega
    · rw [← hm]; apply e3 <;> dsimp only <;> omega
  have slj : ∀ x, 0 ≤ x → x < e.j → pj x = true → ∃ c, flagged c ∧ c.j = b.lo.j + x := by
    intro x h0 h1 hp
    rw [hpj] at hp; dsimp only at hp; rw [any2] at hp
    obtain ⟨y, z, hy, hz, hm⟩ := hp
    refine ⟨⟨b.lo.k + y, b.lo.j + x, b.lo.i + z⟩, (hfl _).2 ⟨?_, ?_⟩, rfl⟩
    · simp only [In]; omega
    · rw [← hm]; apply e3 <;> dsimp only <;> omega
  have sli : ∀ x, 0 ≤ x → x < e.i → pi x = true → ∃ c, flagged c ∧ c.i = b.lo.i + x := by
    intro x h0 h1 hp
    rw [hpi] at hp; dsimp only at hp; rw [any2] at hp
    obtain ⟨y, z, hy, hz, hm⟩ := hp
    refine ⟨⟨b.lo.k + y, b.lo.j + z, b.lo.i + x⟩, (hfl _).2 ⟨?_, ?_⟩, rfl⟩
    · simp only [In]; omega
    · rw [← hm]; apply e3 <;> dsimp only <;> omega
  have Sk := axisScan_spec e.k pk ⟨_, flk c0 hc0⟩
  have Sj := axisScan_spec e.j pj ⟨_, flj c0 hc0⟩
  have Si := axisScan_spec e.i pi ⟨_, fli c0 hc0⟩
  generalize hsk : axisScan e.k pk = sk at Sk
  generalize hsj : axisScan e.j pj = sj at Sj
  generalize hsi : axisScan e.i pi = si at Si
  obtain ⟨k0, k1⟩ := sk
  obtain ⟨j0, j1⟩ := sj
  obtain ⟨i0, i1⟩ := si
  dsimp only at Sk Sj Si
  refine ⟨⟨⟨b.lo.k + k0, b.lo.j + j0, b.lo.i + i0⟩,
      ⟨b.hi.k - (e.k - k1 - 1), b.hi.j - (e.j - j1 - 1), b.hi.i - (e.i - i1 - 1)⟩⟩,
    m.slice ⟨⟨k0, j0, i0⟩, ⟨k1, j1, i1⟩⟩, ?_, ?_, ?_, ?_, ?_, ?_⟩
  · unfold trimBoxToMask
    rw [hshape, ← he]
    dsimp only
    rw [← hpk, ← hpj, ← hpi, hsk, hsj, hsi]
    rw [assert_bind]
    refine ⟨by simp, ?_⟩
    rw [assert_bind]
    refine ⟨?_, ?_⟩
    · rw [List.any_eq_true]
      exact ⟨k0, (mem_intRange _ _).2 ⟨by omega, by omega⟩, Sk.2.2.2.1⟩
    · dsimp only
      rw [assert_bind]
      refine ⟨by simp only [Bool.and_eq_true, decide_eq_true_eq]; omega, ?_⟩
      rw [assert_bind]
      refine ⟨by simp only [Bool.and_eq_true, decide_eq_true_eq, ge_iff_le]; omega, ?_⟩
      rw [assert_bind]
      refine ⟨by simp only [Bool.and_eq_true, decide_eq_true_eq]; omega, ?_⟩
      rw [assert_bind]
      refine ⟨by simp only [Bool.and_eq_true, decide_eq_true_eq]; omega, rfl⟩
  · intro c hc; simp only [In] at *; omega
  · intro c hc
    have h1 := flk c hc
    have h2 := flj c hc
    have h3 := fli c hc
    have g1 := Sk.2.2.2.2.2 _ h1.1 h1.2.1 h1.2.2
    have g2 := Sj.2.2.2.2.2 _ h2.1 h2.2.1 h2.2.2
    have g3 := Si.2.2.2.2.2 _ h3.1 h3.2.1 h3.2.2
    simp only [In]; omega
  · intro v hv c hc
    obtain ⟨a1, f1, q1⟩ := slk k0 (by omega) (by omega) Sk.2.2.2.1
    obtain ⟨a2, f2, q2⟩ := slk k1 (by omega) (by omega) Sk.2.2.2.2.1
    obtain ⟨a3, f3, q3⟩ := slj j0 (by omega) (by omega) Sj.2.2.2.1
    obtain ⟨a4, f4, q4⟩ := slj j1 (by omega) (by omega) Sj.2.2.2.2.1
    obtain ⟨a5, f5, q5⟩ := sli i0 (by omega) (by omega) Si.2.2.2.1
    obtain ⟨a6, f6, q6⟩ := sli i1 (by omega) (by omega) Si.2.2.2.2.1
    have g1 := hv _ f1
    have g2 := hv _ f2
    have g3 := hv _ f3
    have g4 := hv _ f4
    have g5 := hv _ f5
    have g6 := hv _ f6
    simp only [In] at *
    omega
  · simp only [Mask.slice, extentOfBox, V3.mk.injEq]; omega
  · intro c hc
    simp only [Mask.slice]
    apply e3 <;> omega

/-- A mask without flagged cells is refused. -/
theorem C05_empty_mask_refused (b : Box) (m : Mask)
    (hno : ∀ c, In c b → m.at ⟨c.k - b.lo.k, c.j - b.lo.j, c.i - b.lo.i⟩ = false) :
    trimBoxToMask b m = .error .assertion := by
  unfold trimBoxToMask
  by_cases hs : m.shape = extentOfBox b
  · simp only [hs, decide_true, pyAssert_true, ok_bind]
    have : ((intRange (extentOfBox b).k).any fun k => (intRange (extentOfBox b).j).any fun j =>
        (intRange (extentOfBox b).i).any fun i => m.at ⟨k, j, i⟩) = false := by
      rw [Bool.eq_false_iff]
      intro h
      rw [any3] at h
      obtain ⟨x, y, z, hx, hy, hz, hm⟩ := h
      simp only [extentOfBox] at hx hy hz
      have := hno ⟨b.lo.k + x, b.lo.j + y, b.lo.i + z⟩ (by simp only [In]; omega)
      dsimp only at this
      rw [show b.lo.k + x - b.lo.k = x by omega, show b.lo.j + y - b.lo.j = y by omega,
        show b.lo.i + z - b.lo.i = z by omega] at this
      rw [this] at hm
      exact absurd hm (by simp)
    rw [this]
    rfl
  · simp only [hs, decide_false, pyAssert_false, err_bind]

example : ∃ m', trimBoxToMask ⟨⟨5, 5, 5⟩, ⟨8, 7, 6⟩⟩ ⟨⟨4, 3, 2⟩, fun c => decide (c = ⟨1, 1, 0⟩ ∨ c = ⟨2, 1, 1⟩)⟩ =
    .ok (⟨⟨6, 6, 5⟩, ⟨7, 6, 6⟩⟩, m') := ⟨_, rfl⟩

end Verif.Box
