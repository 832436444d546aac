import Verif.Refine.LemmasK
import Mathlib.Tactic.Module
import Mathlib.Tactic.Linarith

/-! # C77: the geometry of a refined grid -/

namespace Verif.Refine
open Verif.Py Verif.FineCoarse Verif.Box

variable {V : Type} [AddCommGroup V] [Module ℚ V]

theorem within_iff {s : FC} {axis : Fin 3} {n : Nat} {R : Nat → Nat} {p : Nat → List ℚ} (d : AxisData (s.ax axis) n R p)
    {c f l : Nat} {q : List ℚ} : Within s axis c f l q ↔ c < n ∧ l < R c ∧ f = B R c + l ∧ q = p c := by
  constructor
  · rintro ⟨h1, ⟨b, h2, h3⟩, ⟨r, h4, h5⟩, h6⟩
    have hc : c < n := by rw [d.coarse] at h1; omega
    have e1 : (s.ax axis).fineBase c = .ok (b : Int) := h2
    have e2 : (s.ax axis).ratio c = .ok (r : Int) := h4
    rw [d.base c (by omega)] at e1
    rw [d.ratio c hc] at e2
    rw [d.prop c hc] at h6
    have e1 := Except.ok.inj e1
    have e2 := Except.ok.inj e2
    exact ⟨hc, by omega, by omega, (Except.ok.inj h6).symm⟩
  · rintro ⟨h1, h2, h3, h4⟩
    exact ⟨by rw [d.coarse]; omega, ⟨B R c, d.base c (by omega), h3⟩, ⟨R c, d.ratio c h1, h2⟩, by rw [h4]; exact d.prop c h1⟩

theorem count_gaps (src : Grid V) (n : Nat) (hg : src.hasGaps = true) :
    ((List.range (n - 1)).filter fun k => src.after k).length = B (gapN src n) n := by
  have gen : ∀ m, m + 1 ≤ n → ((List.range m).filter fun k => src.after k).length = B (gapN src n) m := by
    intro m
    induction m with
    | zero => intro _; rfl
    | succ m ih =>
      intro hm
      rw [List.range_succ, List.filter_append, List.length_append, ih (by omega), B]
      congr 1
      unfold gapN gapAt
      rw [hg, decide_eq_true (show m + 1 < n by omega)]
      cases h : src.after m <;> simp [h]
  cases n with
  | zero => rfl
  | succ n =>
    rw [Nat.add_sub_cancel, gen n (Nat.le_refl _), B]
    unfold gapN gapAt
    simp

theorem raw_eq_count (g : Grid V) (first : 0 < g.nk → g.raw 0 = 0)
    (next : ∀ k, k + 1 < g.nk → g.raw (k + 1) = g.raw k + 1 + if g.after k then 1 else 0) (k : Nat) (hk : k < g.nk) :
    g.raw k = k + ((List.range k).filter fun k => g.after k).length := by
  induction k with
  | zero => rw [first hk]; rfl
  | succ k ih =>
    rw [next k hk, ih (by omega), List.range_succ, List.filter_append, List.length_append]
    cases h : g.after k <;> simp [h] <;> omega

theorem trilinear_eq (cp : Nat → Nat → Nat → V) (u v w : ℚ) :
    lin (lin (lin (cp 0 0 0) (cp 1 0 0) u) (lin (cp 0 1 0) (cp 1 1 0) u) v)
      (lin (lin (cp 0 0 1) (cp 1 0 1) u) (lin (cp 0 1 1) (cp 1 1 1) u) v) w = trilinear cp u v w := by
  unfold lin trilinear
  module

/-- The refinement of a grid without split pillars succeeds for every valid refinement of its extent, with or without K gaps.
A corner of a fine cell is the trilinear interpolation of the corners of the coarse cell it is in, at the fractions given by the
proportions; the K gap arrays of the fine grid agree with each other, and it has a gap after the last fine layer of a coarse layer
which has one, and nowhere else. -/
theorem C77_refined (src : Grid V) (s : FC) (hext : (s.ax 0).coarse = src.nk ∧ (s.ax 1).coarse = src.nj ∧ (s.ax 2).coarse = src.ni)
    (hv : s.valid = true) (hg : src.hasGaps = true → GapsSound src) :
    ∃ g, refineUnfaulted src s = .ok g ∧
      ((g.nk : Int) = (s.ax 0).fine ∧ (g.nj : Int) = (s.ax 1).fine ∧ (g.ni : Int) = (s.ax 2).fine) ∧
      g.kGaps = src.kGaps ∧ (src.hasGaps = true → GapsSound g) ∧
      (∀ k, g.after k = true ↔ src.hasGaps = true ∧ ∃ c l p, Within s 0 c k l p ∧ l + 1 = p.length ∧ c + 1 < src.nk ∧ src.after c = true) ∧
      ∀ ck cj ci k j i lk lj li pk pj pi, Within s 0 ck k lk pk → Within s 1 cj j lj pj → Within s 2 ci i li pi →
        ∀ kp jp ip, kp ≤ 1 → jp ≤ 1 → ip ≤ 1 →
          corner g k j i kp jp ip =
            trilinear (corner src ck cj ci) (cut pk (lk + kp)) (cut pj (lj + jp)) (cut pi (li + ip)) := by
  obtain ⟨f0, -, v0, q0⟩ := valid_axes s hv 0
  obtain ⟨f1, -, v1, q1⟩ := valid_axes s hv 1
  obtain ⟨f2, -, v2, q2⟩ := valid_axes s hv 2
  obtain ⟨n0, R0, p0, d0⟩ := axisData _ v0 f0 q0
  obtain ⟨n1, R1, p1, d1⟩ := axisData _ v1 f1 q1
  obtain ⟨n2, R2, p2, d2⟩ := axisData _ v2 f2 q2
  have hnk : src.nk = n0 := by have := hext.1; rw [d0.coarse] at this; omega
  obtain ⟨js, ej, lj, -, -⟩ := axisStops_ok d1
  obtain ⟨is, ei, li, -, -⟩ := axisStops_ok d2
  have ek := kStops_eq (src := src) d0
  generalize (List.range n0).flatMap (kSlice src n0 R0 p0) ++ [(n0, none, false)] = ks at ek
  obtain ⟨st, est, inv⟩ := kFinal d0 ek
  have hfine : (s.ax 0).fine.toNat = B R0 n0 := by rw [d0.fine]; rfl
  have hfine1 : (s.ax 1).fine.toNat = B R1 n1 := by rw [d1.fine]; rfl
  have hfine2 : (s.ax 2).fine.toNat = B R2 n2 := by rw [d2.fine]; rfl
  have hgaps0 : src.hasGaps = false → ∀ m, B (gapN src n0) m = 0 := by
    intro h m
    induction m with
    | zero => rfl
    | succ m ih => rw [B, ih, gapN, gapAt, h]; rfl
  have htot : B R0 n0 + B (gapN src n0) n0 = (match src.kGaps with | none => B R0 n0 | some m => B R0 n0 + m) := by
    cases hh : src.hasGaps with
    | false =>
      rw [hgaps0 hh]
      unfold Grid.hasGaps at hh
      cases hk : src.kGaps with
      | none => rfl
      | some m =>
        rw [hk] at hh
        dsimp only
        have : m = 0 := by simpa using hh
        omega
    | true =>
      rw [(hg hh).count]
      dsimp only
      rw [hnk, count_gaps src n0 hh]
  have hinside : ∀ {k c l p}, Within s 0 c k l p → l < R0 c ∧ c < n0 ∧ p = p0 c ∧ k = B R0 c + l := fun h =>
    have := (within_iff d0).1 h
    ⟨this.2.1, this.1, this.2.2.2, this.2.2.1⟩
  refine ⟨{ nk := (s.ax 0).fine.toNat, nj := (s.ax 1).fine.toNat, ni := (s.ax 2).fine.toNat, kGaps := src.kGaps, after := st.after, raw := st.raw
            pts := fun r j i => match ks[r]?, js[j]?, is[i]? with
              | some k, some sj, some si => atStop (fun i' => atStop (fun j' => kPlane src k j' i') sj) si
              | _, _, _ => 0 }, ?_, ?_, rfl, ?_, ?_, ?_⟩
  · unfold refineUnfaulted
    rw [if_pos hext, if_pos hv]
    unfold refinedUnfaulted
    rw [ej, ei, ek]
    dsimp only
    rw [hfine, est]
    dsimp only
    refine if_pos ⟨?_, ?_, ?_, ?_⟩
    · rw [li, d2.fine]; push_cast; rfl
    · rw [lj, d1.fine]; push_cast; rfl
    · rw [inv.fk, d0.fine]; push_cast; rfl
    · unfold Grid.nkPlusGaps
      dsimp only
      rw [inv.gaps]
      exact htot
  · dsimp only
    exact ⟨by omega, by omega, by omega⟩
  · intro hh
    have sound := hg hh
    have first : 0 < B R0 n0 → st.raw 0 = 0 := by
      intro hpos
      obtain ⟨c, l, hc, hl, he⟩ := B_find R0 n0 0 hpos
      have hc0 : 0 < n0 := by omega
      exact inv.raw hh 0 0 hc0 (d0.pos 0 hc0)
    have next : ∀ k, k + 1 < B R0 n0 → st.raw (k + 1) = st.raw k + 1 + if st.after k then 1 else 0 := by
      intro k hk
      obtain ⟨c, l, hc, hl, he⟩ := B_find R0 n0 k (by omega)
      subst he
      rw [inv.raw hh c l hc hl]
      by_cases hl' : l + 1 < R0 c
      · rw [Nat.add_assoc, inv.raw hh c (l + 1) hc hl', if_neg]
        · omega
        · rw [inv.after]
          rintro ⟨c', h1, h2, h3⟩
          have hc' : c' + 1 < n0 := by
            unfold gapAt at h2
            simp only [Bool.and_eq_true, decide_eq_true_eq] at h2
            exact h2.1.2
          have := B_unique R0 (c := c) (l := l + 1) (c' := c' + 1) (l' := 0) hl' (d0.pos _ hc') (by omega)
          omega
      · have hB : B R0 (c + 1) = B R0 c + l + 1 := by rw [B]; omega
        have hc' : c + 1 < n0 := by
          by_contra hx
          have : c + 1 = n0 := by omega
          rw [← this] at hk
          omega
        rw [← hB]
        have := inv.raw hh (c + 1) 0 hc' (d0.pos _ hc')
        rw [Nat.add_zero] at this
        rw [this, B, B]
        cases hgap : gapAt src n0 c with
        | true =>
          rw [if_pos ((inv.after _).2 ⟨c, hc, hgap, hB.symm⟩), gapN, hgap, if_pos rfl]
          omega
        | false =>
          rw [if_neg, gapN, hgap]
          · simp only [Bool.false_eq_true, if_false]
            omega
          · rw [inv.after]
            rintro ⟨c', h1, h2, h3⟩
            have hc'' : c' + 1 < n0 := by
              unfold gapAt at h2
              simp only [Bool.and_eq_true, decide_eq_true_eq] at h2
              exact h2.1.2
            have := B_unique R0 (c := c + 1) (l := 0) (c' := c' + 1) (l' := 0) (d0.pos _ hc') (d0.pos _ hc'') (by omega)
            have : c' = c := by omega
            rw [this, hgap] at h2
            cases h2
    refine ⟨?_, ?_, ?_⟩
    · dsimp only
      rw [hfine]
      exact first
    · dsimp only
      rw [hfine]
      exact next
    · dsimp only
      rw [hfine, sound.count, hnk, count_gaps src n0 hh]
      congr 1
      by_cases hz : B R0 n0 = 0
      · omega
      · obtain ⟨c, l, hc, hl, he⟩ := B_find R0 n0 (B R0 n0 - 1) (by omega)
        have h1 := raw_eq_count
          ({ nk := B R0 n0, nj := 0, ni := 0, kGaps := none, after := st.after, raw := st.raw, pts := src.pts } : Grid V) first next
          (B R0 n0 - 1) (by dsimp only; omega)
        dsimp only at h1
        have h2 := inv.raw hh c l hc hl
        rw [← he] at h2
        have hcn : n0 = c + 1 := by
          have := B_mono R0 (a := c + 1) (b := n0) (by omega)
          rw [B] at this
          by_contra hx
          have h3 := B_mono R0 (a := c + 2) (b := n0) (by omega)
          rw [B, B] at h3
          have := d0.pos (c + 1) (by omega)
          omega
        have h3 : B (gapN src n0) n0 = B (gapN src n0) c := by
          have : B (gapN src n0) n0 = B (gapN src n0) (c + 1) := by rw [← hcn]
          rw [this, B, gapN, gapAt, decide_eq_false (show ¬ c + 1 < n0 by omega)]
          simp
        omega
  · intro k
    dsimp only
    rw [inv.after]
    constructor
    · rintro ⟨c, h1, h2, h3⟩
      unfold gapAt at h2
      simp only [Bool.and_eq_true, decide_eq_true_eq] at h2
      have hpos := d0.pos c h1
      rw [B] at h3
      refine ⟨h2.1.1, c, R0 c - 1, p0 c, (within_iff d0).2 ⟨h1, by omega, by omega, rfl⟩, by rw [d0.len c h1]; omega, by omega, h2.2⟩
    · rintro ⟨hh, c, l, p, hw, hl, hc, ha⟩
      obtain ⟨w1, w2, w3, w4⟩ := hinside hw
      rw [w3, d0.len c w2] at hl
      refine ⟨c, w2, ?_, by rw [B]; omega⟩
      unfold gapAt
      rw [hh, ha, decide_eq_true (show c + 1 < n0 by omega)]
      rfl
  · intro ck cj ci k j i lk lj' li' pk pj pi hwk hwj hwi kp jp ip hkp hjp hip
    obtain ⟨a1, a2, a3, a4⟩ := (within_iff d0).1 hwk
    obtain ⟨b1, b2, b3, b4⟩ := (within_iff d1).1 hwj
    obtain ⟨c1, c2, c3, c4⟩ := (within_iff d2).1 hwi
    subst a4 b4 c4 a3 b3 c3
    have hraw : (if (src.hasGaps) = true then st.raw (B R0 ck + lk) else B R0 ck + lk) + kp =
        B R0 ck + (lk + kp) + B (gapN src n0) ck := by
      cases hh : src.hasGaps with
      | true => rw [if_pos rfl, inv.raw hh ck lk a1 a2]; omega
      | false => rw [if_neg (by simp), hgaps0 hh]; omega
    refine (congrArg (fun r => match ks[r]?, js[B R1 cj + lj' + jp]?, is[B R2 ci + li' + ip]? with
      | some k, some sj, some si => atStop (fun i' => atStop (fun j' => kPlane src k j' i') sj) si
      | _, _, _ => (0 : V)) hraw).trans ?_
    rw [Nat.add_assoc (B R1 cj), Nat.add_assoc (B R2 ci)]
    have hK : ∃ sk, ks[B R0 ck + (lk + kp) + B (gapN src n0) ck]? = some sk ∧ ∀ j i, kPlane src sk j i =
        lin (src.pts (rawOf src ck) j i) (src.pts (rawOf src ck + 1) j i) (cut (p0 ck) (lk + kp)) := by
      obtain ⟨sk, e1, _⟩ := kStops_value d0 ek hnk hg ck (lk + kp) a1 (by omega) 0 0
      refine ⟨sk, e1, fun j i => ?_⟩
      obtain ⟨sk', e1', e2⟩ := kStops_value d0 ek hnk hg ck (lk + kp) a1 (by omega) j i
      rw [e1] at e1'
      cases e1'
      exact e2
    obtain ⟨sk, k1, k2⟩ := hK
    obtain ⟨sj, j1, -⟩ := axisStops_value d1 ej (fun _ => (0 : V)) cj (lj' + jp) b1 (by omega)
    have j2 : ∀ f : Nat → V, atStop f sj = lin (f cj) (f (cj + 1)) (cut (p1 cj) (lj' + jp)) := by
      intro f
      obtain ⟨s', e1, e2⟩ := axisStops_value d1 ej f cj (lj' + jp) b1 (by omega)
      rw [j1] at e1
      cases e1
      exact e2
    obtain ⟨si, i1, i2⟩ := axisStops_value d2 ei (fun i' => atStop (fun j' => kPlane src sk j' i') sj) ci (li' + ip) c1 (by omega)
    rw [k1, j1, i1]
    dsimp only
    rw [i2, j2, j2, k2, k2, k2, k2, ← trilinear_eq]
    rfl

/-- two layers with a K gap between them, and a refinement into three layers and two columns, for the examples -/
def exSrc : Grid ℚ :=
  { nk := 2, nj := 1, ni := 1, kGaps := some 1, after := fun k => k == 0, raw := fun k => 2 * k, pts := fun r j i => r * r + 10 * j + 100 * i }

def exFc : FC := ⟨fun a => if a = 0 then ⟨3, 2, none, some [2, 1], false, some [[1/4, 3/4], [1]]⟩ else
  if a = 1 then ⟨1, 1, some 1, none, true, none⟩ else ⟨2, 1, some 2, none, true, none⟩, none⟩

theorem exSrc_sound : GapsSound exSrc := by
  refine ⟨fun _ => rfl, ?_, rfl⟩
  intro k hk
  have : k = 0 := by have : k + 1 < 2 := hk; omega
  subst this
  rfl

/-- the hypotheses of `C77_refined` are met by a grid with a K gap -/
example : ((exFc.ax 0).coarse = exSrc.nk ∧ (exFc.ax 1).coarse = exSrc.nj ∧ (exFc.ax 2).coarse = exSrc.ni) ∧ exFc.valid = true ∧
    exSrc.hasGaps = true ∧ GapsSound exSrc := ⟨⟨rfl, rfl, rfl⟩, by decide +kernel, rfl, exSrc_sound⟩

/-- the raw indices and gaps of the refined grid, and the tops and bases of its layers -/
example : ((refineUnfaulted exSrc exFc).toOption.map fun g => ((List.range 3).map g.raw, (List.range 3).map g.after,
    (List.range 3).map fun k => (corner g k 0 1 0 0 0, corner g k 0 1 1 0 0))) =
    some ([0, 1, 3], [false, true, false], [(50, 201/4), (201/4, 51), (54, 59)]) := by decide +kernel

/-- Every fine slice is within a coarse slice, and only one, so that the theorems here are about all the fine cells. -/
theorem C77_every_slice (s : FC) (hv : s.valid = true) (axis : Fin 3) (f : Nat) (hf : (f : Int) < (s.ax axis).fine) :
    ∃ c l p, Within s axis c f l p ∧ ∀ c' l' p', Within s axis c' f l' p' → c' = c ∧ l' = l ∧ p' = p := by
  obtain ⟨f0, -, v0, q0⟩ := valid_axes s hv axis
  obtain ⟨n, R, p, d⟩ := axisData _ v0 f0 q0
  obtain ⟨c, l, hc, hl, he⟩ := B_find R n f (by rw [d.fine] at hf; omega)
  refine ⟨c, l, p c, (within_iff d).2 ⟨hc, hl, he, rfl⟩, fun c' l' p' hw => ?_⟩
  obtain ⟨h1, h2, h3, h4⟩ := (within_iff d).1 hw
  obtain ⟨e1, e2⟩ := B_unique R h2 hl (h3.symm.trans he)
  subst e1
  exact ⟨rfl, e2, h4⟩

theorem cut_zero {p : List ℚ} (h : p ≠ []) : cut p 0 = 0 := by
  unfold cut
  rw [if_neg (by intro h0; exact h (List.length_eq_zero_iff.1 h0.symm))]
  rfl

theorem cut_end (p : List ℚ) : cut p p.length = 1 := if_pos rfl

theorem within_length {s : FC} {axis : Fin 3} (hv : s.valid = true) {c f l : Nat} {p : List ℚ} (hw : Within s axis c f l p) :
    l < p.length := by
  obtain ⟨f0, -, v0, q0⟩ := valid_axes s hv axis
  obtain ⟨n, R, p', d⟩ := axisData _ v0 f0 q0
  obtain ⟨h1, h2, h3, h4⟩ := (within_iff d).1 hw
  rw [h4, d.len c h1]
  exact h2

/-- The corners of the coarse grid are kept: where a corner of a fine cell is at a corner of the coarse cell it is in (the first fine
slice for the lower corner, the last for the upper, along each of the axes), the point is that of the coarse grid. -/
theorem C77_coarse_corners_kept (src : Grid V) (s : FC)
    (hext : (s.ax 0).coarse = src.nk ∧ (s.ax 1).coarse = src.nj ∧ (s.ax 2).coarse = src.ni)
    (hv : s.valid = true) (hg : src.hasGaps = true → GapsSound src) (g : Grid V) (hr : refineUnfaulted src s = .ok g)
    (ck cj ci k j i lk lj li : Nat) (pk pj pi : List ℚ)
    (hk : Within s 0 ck k lk pk) (hj : Within s 1 cj j lj pj) (hi : Within s 2 ci i li pi) (kp jp ip : Nat)
    (ek : kp = 0 ∧ lk = 0 ∨ kp = 1 ∧ lk + 1 = pk.length) (ej : jp = 0 ∧ lj = 0 ∨ jp = 1 ∧ lj + 1 = pj.length)
    (ei : ip = 0 ∧ li = 0 ∨ ip = 1 ∧ li + 1 = pi.length) :
    corner g k j i kp jp ip = corner src ck cj ci kp jp ip := by
  obtain ⟨g', h1, -, -, -, -, h2⟩ := C77_refined src s hext hv hg
  rw [hr] at h1
  cases h1
  rw [h2 ck cj ci k j i lk lj li pk pj pi hk hj hi kp jp ip (by omega) (by omega) (by omega)]
  have c0 : ∀ {axis c f l p}, Within s axis c f l p → cut p 0 = 0 := fun h =>
    cut_zero (List.ne_nil_of_length_pos (Nat.lt_of_le_of_lt (Nat.zero_le _) (within_length hv h)))
  rcases ek with ⟨rfl, rfl⟩ | ⟨rfl, ek⟩ <;> rcases ej with ⟨rfl, rfl⟩ | ⟨rfl, ej⟩ <;> rcases ei with ⟨rfl, rfl⟩ | ⟨rfl, ei⟩ <;>
    simp [trilinear, *, cut_end, c0 hk, c0 hj, c0 hi]

/-! ## Grids with split pillars -/

theorem interpolated_eq (cp : CellCp V) (u v w : ℚ) : interpolatedPoint cp u v w = trilinear cp u v w := by
  unfold interpolatedPoint trilinear
  dsimp only
  module

theorem sliceData_ok {a : Axis} {n : Nat} {R : Nat → Nat} {p : Nat → List ℚ} (d : AxisData a n R p) (c : Nat) (hc : c < n) :
    ∃ v, sliceData a c = .ok ((B R c : Int), (R c : Int), v) ∧ ∀ l kp, l < R c → kp ≤ 1 → v[l + kp]? = some (cut (p c) (l + kp)) := by
  refine ⟨(List.range (R c)).map (fun l => ((p c).take l).sum) ++ [1], ?_, ?_⟩
  · unfold sliceData
    rw [d.base c (by omega), d.ratio c hc, d.interp c hc]
  · intro l kp hl hkp
    unfold cut
    rw [d.len c hc]
    by_cases he : l + kp = R c
    · rw [List.getElem?_append_right (by simp; omega), if_pos he]
      simp [he]
    · rw [List.getElem?_append_left (by simp; omega), List.getElem?_map, List.getElem?_range (by omega), if_neg he]
      rfl

/-- The corner points made when there are split pillars, for every valid refinement of the extent of the grid: those of a fine cell are
the trilinear interpolations of those of the coarse cell it is in. -/
theorem C77_refined_corner_points (nk nj ni : Nat) (cp : Nat → Nat → Nat → CellCp V) (s : FC)
    (hext : (s.ax 0).coarse = nk ∧ (s.ax 1).coarse = nj ∧ (s.ax 2).coarse = ni) (hv : s.valid = true) :
    ∃ a, refinedCp nk nj ni cp s = .ok a ∧
      ∀ ck cj ci k j i lk lj li pk pj pi, Within s 0 ck k lk pk → Within s 1 cj j lj pj → Within s 2 ci i li pi →
        ∀ kp jp ip, kp ≤ 1 → jp ≤ 1 → ip ≤ 1 →
          a k j i kp jp ip = some (trilinear (cp ck cj ci) (cut pk (lk + kp)) (cut pj (lj + jp)) (cut pi (li + ip))) := by
  obtain ⟨f0, -, v0, q0⟩ := valid_axes s hv 0
  obtain ⟨f1, -, v1, q1⟩ := valid_axes s hv 1
  obtain ⟨f2, -, v2, q2⟩ := valid_axes s hv 2
  obtain ⟨n0, R0, p0, d0⟩ := axisData _ v0 f0 q0
  obtain ⟨n1, R1, p1, d1⟩ := axisData _ v1 f1 q1
  obtain ⟨n2, R2, p2, d2⟩ := axisData _ v2 f2 q2
  have h0 : nk = n0 := by have := hext.1; rw [d0.coarse] at this; omega
  have h1 : nj = n1 := by have := hext.2.1; rw [d1.coarse] at this; omega
  have h2 : ni = n2 := by have := hext.2.2; rw [d2.coarse] at this; omega
  subst h0 h1 h2
  have loop : ∀ (cells : List (Nat × Nat × Nat)) (a : FineCp V), (∀ c ∈ cells, c.1 < nk ∧ c.2.1 < nj ∧ c.2.2 < ni) →
      ∃ a', fineCpLoop s cp cells a = .ok a' ∧
        ∀ ck cj ci lk lj li, lk < R0 ck → lj < R1 cj → li < R2 ci → ∀ kp jp ip, kp ≤ 1 → jp ≤ 1 → ip ≤ 1 →
          a' (B R0 ck + lk) (B R1 cj + lj) (B R2 ci + li) kp jp ip =
            if (ck, cj, ci) ∈ cells then
              some (trilinear (cp ck cj ci) (cut (p0 ck) (lk + kp)) (cut (p1 cj) (lj + jp)) (cut (p2 ci) (li + ip)))
            else a (B R0 ck + lk) (B R1 cj + lj) (B R2 ci + li) kp jp ip := by
    intro cells
    induction cells with
    | nil => intro a _; exact ⟨a, rfl, fun _ _ _ _ _ _ _ _ _ _ _ _ _ _ _ => by simp⟩
    | cons c cells ih =>
      intro a hc
      obtain ⟨k', j', i'⟩ := c
      obtain ⟨b0, b1, b2⟩ := hc _ List.mem_cons_self
      dsimp only at b0 b1 b2
      obtain ⟨u0, e0, w0⟩ := sliceData_ok d0 k' b0
      obtain ⟨u1, e1, w1⟩ := sliceData_ok d1 j' b1
      obtain ⟨u2, e2, w2⟩ := sliceData_ok d2 i' b2
      rw [fineCpLoop, e0]
      dsimp only
      rw [e1]
      dsimp only
      rw [e2]
      dsimp only
      obtain ⟨a', ea, ha⟩ := ih (writeCell (cp k' j' i') (B R0 k', R0 k', u0) (B R1 j', R1 j', u1) (B R2 i', R2 i', u2) a)
        (fun c h => hc c (List.mem_cons_of_mem _ h))
      refine ⟨a', ea, ?_⟩
      intro ck cj ci lk lj li hk hj hi kp jp ip hkp hjp hip
      rw [ha ck cj ci lk lj li hk hj hi kp jp ip hkp hjp hip]
      by_cases hmem : (ck, cj, ci) ∈ cells
      · rw [if_pos hmem, if_pos (List.mem_cons_of_mem _ hmem)]
      · rw [if_neg hmem]
        by_cases heq : (ck, cj, ci) = (k', j', i')
        · rw [if_pos (by rw [heq]; exact List.mem_cons_self)]
          obtain ⟨rfl, rfl, rfl⟩ : ck = k' ∧ cj = j' ∧ ci = i' := by simpa using heq
          unfold writeCell
          dsimp only
          rw [if_pos ⟨⟨by omega, by omega⟩, ⟨by omega, by omega⟩, ⟨by omega, by omega⟩, hkp, hjp, hip⟩]
          rw [show (((B R0 ck + lk : Nat) : Int) - (B R0 ck : Int)).toNat = lk by omega,
            show (((B R1 cj + lj : Nat) : Int) - (B R1 cj : Int)).toNat = lj by omega,
            show (((B R2 ci + li : Nat) : Int) - (B R2 ci : Int)).toNat = li by omega,
            w0 lk kp hk hkp, w1 lj jp hj hjp, w2 li ip hi hip]
          dsimp only
          rw [interpolated_eq]
        · rw [if_neg (by rw [List.mem_cons]; exact fun h => h.elim heq hmem)]
          unfold writeCell
          dsimp only
          refine if_neg ?_
          rintro ⟨⟨x1, x2⟩, ⟨y1, y2⟩, ⟨z1, z2⟩, -⟩
          apply heq
          have g0 := B_unique R0 (c := ck) (l := lk) (c' := k') (l' := B R0 ck + lk - B R0 k') hk (by omega) (by omega)
          have g1 := B_unique R1 (c := cj) (l := lj) (c' := j') (l' := B R1 cj + lj - B R1 j') hj (by omega) (by omega)
          have g2 := B_unique R2 (c := ci) (l := li) (c' := i') (l' := B R2 ci + li - B R2 i') hi (by omega) (by omega)
          rw [g0.1, g1.1, g2.1]
  have hmem : ∀ k j i, (k, j, i) ∈ cellsOf nk nj ni ↔ k < nk ∧ j < nj ∧ i < ni := by
    intro k j i
    unfold cellsOf
    simp only [List.mem_flatMap, List.mem_range, List.mem_map, Prod.mk.injEq]
    constructor
    · rintro ⟨k', a, j', b, i', c, rfl, rfl, rfl⟩; exact ⟨a, b, c⟩
    · rintro ⟨a, b, c⟩; exact ⟨k, a, j, b, i, c, rfl, rfl, rfl⟩
  obtain ⟨a, ea, ha⟩ := loop (cellsOf nk nj ni) (fun _ _ _ _ _ _ => none) (fun c h => (hmem c.1 c.2.1 c.2.2).1 h)
  refine ⟨a, ?_, ?_⟩
  · unfold refinedCp
    rw [if_pos hext, if_pos hv, ea]
  · intro ck cj ci k j i lk lj li pk pj pi hk hj hi kp jp ip hkp hjp hip
    obtain ⟨a1, a2, rfl, rfl⟩ := (within_iff d0).1 hk
    obtain ⟨b1, b2, rfl, rfl⟩ := (within_iff d1).1 hj
    obtain ⟨c1, c2, rfl, rfl⟩ := (within_iff d2).1 hi
    rw [ha ck cj ci lk lj li a2 b2 c2 kp jp ip hkp hjp hip, if_pos ((hmem ck cj ci).2 ⟨a1, b1, c1⟩)]

/-- A refinement whose coarse extent is not that of the grid, or which is not valid, is refused. -/
theorem C77_refused (src : Grid V) (s : FC)
    (h : ¬ ((s.ax 0).coarse = src.nk ∧ (s.ax 1).coarse = src.nj ∧ (s.ax 2).coarse = src.ni) ∨ s.valid = false)
    (cp : Nat → Nat → Nat → CellCp V) :
    refineUnfaulted src s = .error .assertion ∧ refinedCp src.nk src.nj src.ni cp s = .error .assertion := by
  unfold refineUnfaulted refinedCp
  rcases h with h | h
  · rw [if_neg h, if_neg h]
    exact ⟨rfl, rfl⟩
  · rw [h]
    constructor <;> split <;> rfl

end Verif.Refine
