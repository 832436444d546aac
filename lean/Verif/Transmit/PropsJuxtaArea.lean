import Verif.Transmit.PropsJuxta

/-!
# Properties: juxtaposition of columns gives areas of overlap (C117)
-/

namespace Verif.Transmit
open Verif.Py

/-- the part of a face above a line -/
noncomputable def above (amt amb bmt bmb da db : ℝ) : ℝ := part (da - amt) (db - bmt) - part (da - amb) (db - bmb)

theorem overlap_above {amt amb apt apb bmt bmb bpt bpb : ℝ} (ham : amt ≤ amb) (hbm : bmt ≤ bmb) (hap : apt ≤ apb) (hbp : bpt ≤ bpb) :
    overlapArea amt amb apt apb bmt bmb bpt bpb = above amt amb bmt bmb apb bpb - above amt amb bmt bmb apt bpt := by
  rw [overlapArea_eq ham hbm hap hbp]; unfold above; ring

theorem above_mono {amt amb bmt bmb da db da' db' : ℝ} (ham : amt ≤ amb) (hbm : bmt ≤ bmb) (ha : da ≤ da') (hb : db ≤ db') :
    above amt amb bmt bmb da db ≤ above amt amb bmt bmb da' db' := by
  have := overlapArea_nonneg amt amb da da' bmt bmb db db'
  rw [overlap_above ham hbm ha hb] at this
  linarith

theorem above_nonneg {amt amb bmt bmb : ℝ} (ham : amt ≤ amb) (hbm : bmt ≤ bmb) (da db : ℝ) : 0 ≤ above amt amb bmt bmb da db := by
  have h := above_mono (da := min da amt) (db := min db bmt) ham hbm (min_le_left da amt) (min_le_left db bmt)
  have h1 := min_le_right da amt
  have h2 := min_le_right db bmt
  have e : above amt amb bmt bmb (min da amt) (min db bmt) = 0 := by
    unfold above
    rw [part_neg (by linarith) (by linarith), part_neg (by linarith) (by linarith), sub_zero]
  linarith

theorem above_le {amt amb bmt bmb : ℝ} (ham : amt ≤ amb) (hbm : bmt ≤ bmb) (da db : ℝ) : above amt amb bmt bmb da db ≤ faceArea amt amb bmt bmb := by
  have h := above_mono (da' := max da amb) (db' := max db bmb) ham hbm (le_max_left da amb) (le_max_left db bmb)
  have h1 := le_max_right da amb
  have h2 := le_max_right db bmb
  have e : above amt amb bmt bmb (max da amb) (max db bmb) = faceArea amt amb bmt bmb := by
    unfold above
    rw [part_pos (by linarith) (by linarith), part_pos (by linarith) (by linarith), faceArea_eq]; ring
  linarith

/-- layers on top of one another together cover no more than the face -/
theorem stacked_le {A : Type} {amt amb bmt bmb : ℝ} (ham : amt ≤ amb) (hbm : bmt ≤ bmb) (l : List A) (e : A → ℝ × ℝ × ℝ × ℝ)
    (hu : ∀ x ∈ l, (e x).1 ≤ (e x).2.1 ∧ (e x).2.2.1 ≤ (e x).2.2.2)
    (hs : l.Pairwise fun x y => (e x).2.1 ≤ (e y).1 ∧ (e x).2.2.2 ≤ (e y).2.2.1) (da db : ℝ)
    (hd : ∀ x ∈ l, da ≤ (e x).1 ∧ db ≤ (e x).2.2.1) :
    (l.map fun x => overlapArea amt amb (e x).1 (e x).2.1 bmt bmb (e x).2.2.1 (e x).2.2.2).sum ≤ faceArea amt amb bmt bmb - above amt amb bmt bmb da db := by
  induction l generalizing da db with
  | nil => simpa using above_le ham hbm da db
  | cons a l ih =>
    rw [List.map_cons, List.sum_cons]
    rw [List.pairwise_cons] at hs
    have h1 := ih (fun x hx => hu x (by simp [hx])) hs.2 (e a).2.1 (e a).2.2.2 (fun x hx => hs.1 x hx)
    have h2 := hu a (by simp)
    rw [overlap_above ham hbm h2.1 h2.2]
    have h3 := above_mono ham hbm (hd a (by simp)).1 (hd a (by simp)).2
    linarith

theorem stacked_le_one {A : Type} {amt amb bmt bmb : ℝ} (ham : amt ≤ amb) (hbm : bmt ≤ bmb) (hF : 0 < (amb - amt) + (bmb - bmt)) (l : List A) (e : A → ℝ × ℝ × ℝ × ℝ)
    (hu : ∀ x ∈ l, (e x).1 ≤ (e x).2.1 ∧ (e x).2.2.1 ≤ (e x).2.2.2)
    (hs : l.Pairwise fun x y => (e x).2.1 ≤ (e y).1 ∧ (e x).2.2.2 ≤ (e y).2.2.1) :
    (l.map fun x => overlapArea amt amb (e x).1 (e x).2.1 bmt bmb (e x).2.2.1 (e x).2.2.2 / faceArea amt amb bmt bmb).sum ≤ 1 := by
  have hf : 0 < faceArea amt amb bmt bmb := by rw [faceArea_eq]; linarith
  rw [sum_div l (fun x => overlapArea amt amb (e x).1 (e x).2.1 bmt bmb (e x).2.2.1 (e x).2.2.2), div_le_one hf]
  cases l with
  | nil => simpa using hf.le
  | cons a l =>
    have := stacked_le ham hbm (a :: l) e hu hs (e a).1 (e a).2.2.1 (by
      intro x hx
      rcases List.mem_cons.1 hx with rfl | hx
      · exact ⟨le_rfl, le_rfl⟩
      · have h1 := (List.pairwise_cons.1 hs).1 x hx
        have h2 := hu a (by simp)
        exact ⟨by linarith, by linarith⟩)
    have := above_nonneg ham hbm (e a).1 (e a).2.2.1
    linarith

theorem layerEnds_iff {K : Type} (raw : Nat → Nat) (s : Side K) (k : Nat) (ta ba tb bb : K) :
    layerEnds raw s k = some (ta, ba, tb, bb) ↔ Layer raw s k ta ba tb bb := by
  unfold layerEnds Layer
  cases s.a (raw k) <;> cases s.a (raw k + 1) <;> cases s.b (raw k) <;> cases s.b (raw k + 1) <;> simp

theorem overlap_le {amt amb apt apb bmt bmb bpt bpb : ℝ} (h : (apb ≤ amt ∧ bpb ≤ bmt) ∨ (amb ≤ apt ∧ bmb ≤ bpt)) :
    overlapArea amt amb apt apb bmt bmb bpt bpb = 0 := by
  unfold overlapArea
  rw [intervalIntegral.integral_congr (g := fun _ => 0)]
  · simp
  · intro u hu
    rw [Set.uIcc_of_le zero_le_one, Set.mem_Icc] at hu
    dsimp only
    unfold common
    refine max_eq_left ?_
    rcases h with h | h
    · have := between_le hu.1 hu.2 h.1 h.2
      have := min_le_right (between amb bmb u) (between apb bpb u)
      have := le_max_left (between amt bmt u) (between apt bpt u)
      linarith
    · have := between_le hu.1 hu.2 h.1 h.2
      have := min_le_left (between amb bmb u) (between apb bpb u)
      have := le_max_right (between amt bmt u) (between apt bpt u)
      linarith

theorem clip_frac {x F : ℝ} (h0 : 0 ≤ x) (h1 : x ≤ F) : clip (x / F) = x / F := by
  unfold clip
  have hF : 0 ≤ F := le_trans h0 h1
  rw [max_eq_left (div_nonneg h0 hF), min_eq_left]
  exact div_le_one_of_le₀ h1 hF

section
variable {tol : ℝ} {raw : Nat → Nat} {nk : Nat} {m p : Side ℝ}

/-- what is found for one pair of layers -/
theorem pair_spec (ht : 0 < tol) (um : Upright raw nk m) (up : Upright raw nk p) (hc : Clear tol raw nk m p) {km kp : Nat} (hkm : km < nk) (hkp : kp < nk)
    {amt amb bmt bmb apt apb bpt bpb : ℝ} (hm : Layer raw m km amt amb bmt bmb) (hp : Layer raw p kp apt apb bpt bpb) {r : Option (Juxta ℝ)}
    (h : juxtaPair tol raw m p km kp = .ok r) :
    (r = none → overlapArea amt amb apt apb bmt bmb bpt bpb = 0) ∧
    ∀ x, r = some x → (0 < (amb - amt) + (bmb - bmt) → x.fm = overlapArea amt amb apt apb bmt bmb bpt bpb / faceArea amt amb bmt bmb) ∧
      (0 < (apb - apt) + (bpb - bpt) → x.fp = overlapArea amt amb apt apb bmt bmb bpt bpb / faceArea apt apb bpt bpb) := by
  obtain ⟨sa, sb, st1, st2⟩ := hc km kp _ _ _ _ _ _ _ _ hkm hkp hm hp
  obtain ⟨u1, u2⟩ := um km _ _ _ _ hkm hm
  obtain ⟨u3, u4⟩ := up kp _ _ _ _ hkp hp
  unfold juxtaPair at h
  rw [(layerEnds_iff ..).2 hm, (layerEnds_iff ..).2 hp] at h
  dsimp only at h
  have e1 : (amt ≥ apb - tol ∧ bmt ≥ bpb - tol) ↔ (apb ≤ amt ∧ bpb ≤ bmt) :=
    and_congr (by rw [← apart_le ht sa.pb_mt]; constructor <;> intro h <;> linarith) (by rw [← apart_le ht sb.pb_mt]; constructor <;> intro h <;> linarith)
  have e2 : (amb ≤ apt + tol ∧ bmb ≤ bpt + tol) ↔ (amb ≤ apt ∧ bmb ≤ bpt) :=
    and_congr (by rw [← apart_le ht sa.mb_pt]; constructor <;> intro h <;> linarith) (by rw [← apart_le ht sb.mb_pt]; constructor <;> intro h <;> linarith)
  simp only [e1, e2] at h
  split_ifs at h with h1 h2
  · simp only [Except.ok.injEq] at h; subst h
    exact ⟨fun _ => overlap_le (Or.inl h1), by simp⟩
  · simp only [Except.ok.injEq] at h; subst h
    exact ⟨fun _ => overlap_le (Or.inr h2), by simp⟩
  · split at h <;> simp only [Except.ok.injEq, reduceCtorEq] at h
    rename_i fm fp hfm hfp
    subst h
    refine ⟨by simp, ?_⟩
    intro x hx
    simp only [Option.some.injEq] at hx
    subst hx
    constructor
    · intro hF
      rw [C117_exact_partial ⟨ht, u1, u2, u3, u4, sa, sb, hF, st1⟩ h1 h2] at hfm
      simp only [Except.ok.injEq] at hfm
      dsimp only
      rw [← hfm]
      exact clip_frac (overlapArea_nonneg ..) (overlapArea_le u1 u2 ..)
    · intro hF
      rw [C117_exact_partial ⟨ht, u3, u4, u1, u2, sa.swap, sb.swap, hF, st2⟩ h2 h1, ← overlapArea_swap] at hfp
      simp only [Except.ok.injEq] at hfp
      dsimp only
      rw [← hfp]
      refine clip_frac (overlapArea_nonneg ..) ?_
      rw [overlapArea_swap]
      exact overlapArea_le u3 u4 ..

theorem layer_of_some {K : Type} [Field K] [LinearOrder K] {tol : K} {m p : Side K} {km kp : Nat} {x : Juxta K} (h : juxtaPair tol raw m p km kp = .ok (some x)) :
    (∃ ta ba tb bb, Layer raw m km ta ba tb bb) ∧ ∃ ta ba tb bb, Layer raw p kp ta ba tb bb := by
  unfold juxtaPair at h
  split at h
  · rename_i e1 e2
    exact ⟨⟨_, _, _, _, (layerEnds_iff ..).1 e1⟩, _, _, _, _, (layerEnds_iff ..).1 e2⟩
  · simp at h

theorem layer_unique {K : Type} {s : Side K} {k : Nat} {a b c d a' b' c' d' : K} (h : Layer raw s k a b c d) (h' : Layer raw s k a' b' c' d') :
    a = a' ∧ b = b' ∧ c = c' ∧ d = d' := by
  obtain ⟨h1, h2, h3, h4⟩ := h
  obtain ⟨h1', h2', h3', h4'⟩ := h'
  rw [h1'] at h1; rw [h2'] at h2; rw [h3'] at h3; rw [h4'] at h4
  simp only [Option.some.injEq] at h1 h2 h3 h4
  exact ⟨h1.symm, h2.symm, h3.symm, h4.symm⟩

/-- the ends of a layer, zero where undefined -/
noncomputable def ends (raw : Nat → Nat) (s : Side ℝ) (k : Nat) : ℝ × ℝ × ℝ × ℝ := (layerEnds raw s k).getD (0, 0, 0, 0)

theorem ends_eq {s : Side ℝ} {k : Nat} {a b c d : ℝ} (h : Layer raw s k a b c d) : ends raw s k = (a, b, c, d) := by
  unfold ends; rw [(layerEnds_iff ..).2 h]; rfl

attribute [local irreducible] ends overlapArea faceArea

theorem scaleM_small {l : List (Juxta ℝ)} (h : (l.map (·.fm)).sum ≤ 1) : scaleM l = l := by
  unfold scaleM; dsimp only; rw [if_neg (not_lt.2 h)]

set_option maxHeartbeats 1000000 in
/-- **C117** — for layers that are not inverted and do not overlap others on their own side (and subject to the conditions of
`Clear`), the juxtaposition found holds, for each pair of layers that overlap, the area of overlap as a fraction of the area of
each of the two faces; pairs not listed do not overlap. -/
theorem C117_areas_partial (ht : 0 < tol) (um : Upright raw nk m) (up : Upright raw nk p) (stm : Stacked raw nk m) (stp : Stacked raw nk p)
    (hc : Clear tol raw nk m p) {raws : Nat} {l : List (Juxta ℝ)} (h : juxtapose tol raw nk raws m p = .ok l)
    {km kp : Nat} (hkm : km < nk) (hkp : kp < nk) {amt amb bmt bmb apt apb bpt bpb : ℝ} (hm : Layer raw m km amt amb bmt bmb)
    (hp : Layer raw p kp apt apb bpt bpb) :
    (0 < overlapArea amt amb apt apb bmt bmb bpt bpb → ∃ x ∈ l, x.km = km ∧ x.kp = kp) ∧
    ∀ x ∈ l, x.km = km → x.kp = kp →
      (0 < faceArea amt amb bmt bmb → x.fm = overlapArea amt amb apt apb bmt bmb bpt bpb / faceArea amt amb bmt bmb) ∧
      (0 < faceArea apt apb bpt bpb → x.fp = overlapArea amt amb apt apb bmt bmb bpt bpb / faceArea apt apb bpt bpb) := by
  obtain ⟨f, hf⟩ := entries tol raw m p
  have hl := juxtapose_eq h hf
  set g : Nat → List (Juxta ℝ) := fun km => scaleM ((List.range nk).filterMap (f km)) with hg
  have r := fun km => row_spec hf nk km
  have sM := fun km => scaleM_spec ((List.range nk).filterMap (f km)) (fun x hx => ((r km).1 x hx).2.2.2.1)
  -- membership of keys
  have rowmem : ∀ k, ∀ x ∈ g k, x.km = k ∧ ∃ y, f k x.kp = some y ∧ y.fp = x.fp ∧ y.kp = x.kp ∧ x.kp < nk := by
    intro k x hx
    have hx' : (x.km, x.kp, x.fp) ∈ ((List.range nk).filterMap (f k)).map fun x => (x.km, x.kp, x.fp) := by
      rw [← (sM k).2.2]; exact List.mem_map.2 ⟨x, hx, rfl⟩
    obtain ⟨y, hy, e⟩ := List.mem_map.1 hx'
    have := (r k).1 y hy
    simp only [Prod.mk.injEq] at e
    rw [← e.1, ← e.2.1, ← e.2.2]
    exact ⟨this.1, y, this.2.2.1, rfl, rfl, this.2.1⟩
  have frange : ∀ x ∈ (List.range nk).flatMap g, 0 ≤ x.fp ∧ x.fp ≤ 1 := by
    intro x hx
    obtain ⟨k, _, hx⟩ := List.mem_flatMap.1 hx
    obtain ⟨_, y, hy, e, e', hk⟩ := rowmem k x hx
    have := juxtaPair_some (by rw [hf, hy] : juxtaPair tol raw m p k x.kp = .ok (some y))
    rw [← e]; exact this.2.2.2
  have sP := scaleP_spec ((List.range nk).flatMap g) frange
  rw [← hl] at sP
  -- keys of the result
  have keys : ∀ a b, (∃ x ∈ l, x.km = a ∧ x.kp = b) ↔ ∃ x ∈ (List.range nk).flatMap g, x.km = a ∧ x.kp = b := by
    intro a b
    have t : ∀ l' : List (Juxta ℝ), (∃ x ∈ l', x.km = a ∧ x.kp = b) ↔ ∃ y ∈ l'.map (fun x => (x.km, x.kp, x.fm)), y.1 = a ∧ y.2.1 = b := by
      intro l'; simp
    rw [t, t, sP.2.2]
  constructor
  · intro hpos
    rw [keys]
    have : f km kp ≠ none := by
      intro e
      have := (pair_spec ht um up hc hkm hkp hm hp (hf km kp)).1 e
      linarith
    obtain ⟨y, hy⟩ := Option.ne_none_iff_exists'.1 this
    have hy2 := juxtaPair_some (by rw [hf, hy] : juxtaPair tol raw m p km kp = .ok (some y))
    have hmem : y ∈ (List.range nk).filterMap (f km) := List.mem_filterMap.2 ⟨kp, List.mem_range.2 hkp, hy⟩
    have hmem2 : (y.km, y.kp, y.fp) ∈ (g km).map fun x => (x.km, x.kp, x.fp) := by
      rw [hg]; dsimp only; rw [(sM km).2.2]; exact List.mem_map.2 ⟨y, hmem, rfl⟩
    obtain ⟨z, hz, e⟩ := List.mem_map.1 hmem2
    simp only [Prod.mk.injEq] at e
    exact ⟨z, List.mem_flatMap.2 ⟨km, List.mem_range.2 hkm, hz⟩, by rw [e.1, hy2.1], by rw [e.2.1, hy2.2.1]⟩
  · intro x hx ex1 ex2
    constructor
    · intro hF
      have hF' : 0 < (amb - amt) + (bmb - bmt) := by rw [faceArea_eq] at hF; linarith
      -- the row is not scaled
      have val : ∀ y ∈ (List.range nk).filterMap (f km), y.fm =
          overlapArea amt amb (ends raw p y.kp).1 (ends raw p y.kp).2.1 bmt bmb (ends raw p y.kp).2.2.1 (ends raw p y.kp).2.2.2 / faceArea amt amb bmt bmb := by
        intro y hy
        obtain ⟨_, hk, hs, _⟩ := (r km).1 y hy
        obtain ⟨_, ta, ba, tb, bb, hL⟩ := layer_of_some (by rw [hf, hs] : juxtaPair tol raw m p km y.kp = .ok (some y))
        rw [ends_eq hL]
        exact ((pair_spec ht um up hc hkm hk hm hL (hf km y.kp)).2 y hs).1 hF'
      obtain ⟨um1, um2⟩ := um km _ _ _ _ hkm hm
      have tot : (((List.range nk).filterMap (f km)).map (·.fm)).sum ≤ 1 := by
        rw [List.map_congr_left val]
        refine stacked_le_one um1 um2 hF' _ (fun y : Juxta ℝ => ends raw p y.kp) ?_ ?_
        · intro y hy
          obtain ⟨_, hk, hs, _⟩ := (r km).1 y hy
          obtain ⟨_, ta, ba, tb, bb, hL⟩ := layer_of_some (by rw [hf, hs] : juxtaPair tol raw m p km y.kp = .ok (some y))
          rw [ends_eq hL]
          exact up y.kp _ _ _ _ hk hL
        · have := (r km).2
          rw [List.pairwise_map] at this
          refine this.imp_of_mem ?_
          intro y z hy hz hyz
          obtain ⟨_, hk, hs, _⟩ := (r km).1 y hy
          obtain ⟨_, hk', hs', _⟩ := (r km).1 z hz
          obtain ⟨_, ta, ba, tb, bb, hL⟩ := layer_of_some (by rw [hf, hs] : juxtaPair tol raw m p km y.kp = .ok (some y))
          obtain ⟨_, ta', ba', tb', bb', hL'⟩ := layer_of_some (by rw [hf, hs'] : juxtaPair tol raw m p km z.kp = .ok (some z))
          rw [ends_eq hL, ends_eq hL']
          exact stp _ _ _ _ _ _ _ _ _ _ hyz hk' hL hL'
      have hx' : (x.km, x.kp, x.fm) ∈ ((List.range nk).flatMap g).map fun x => (x.km, x.kp, x.fm) := by
        rw [← sP.2.2]; exact List.mem_map.2 ⟨x, hx, rfl⟩
      obtain ⟨y, hy, e⟩ := List.mem_map.1 hx'
      simp only [Prod.mk.injEq] at e
      obtain ⟨k, hk, hy⟩ := List.mem_flatMap.1 hy
      have hk2 := (rowmem k y hy).1
      rw [e.1, ex1] at hk2
      subst hk2
      have hy3 : y ∈ (List.range nk).filterMap (f km) := by
        have : g km = (List.range nk).filterMap (f km) := scaleM_small tot
        rwa [this] at hy
      have := val y hy3
      rw [e.2.1, ex2, ends_eq hp] at this
      rw [← e.2.2, this]
    · intro hF
      have hF' : 0 < (apb - apt) + (bpb - bpt) := by rw [faceArea_eq] at hF; linarith
      obtain ⟨up1, up2⟩ := up kp _ _ _ _ hkp hp
      set L := ((List.range nk).flatMap g).filter fun x => x.kp == kp with hL
      have inL : ∀ y ∈ L, y.km < nk ∧ ∃ z, f y.km kp = some z ∧ z.fp = y.fp := by
        intro y hy
        obtain ⟨hy, e⟩ := List.mem_filter.1 hy
        obtain ⟨k, hk, hy⟩ := List.mem_flatMap.1 hy
        obtain ⟨hk2, z, hz, e2, _⟩ := rowmem k y hy
        rw [show y.kp = kp by simpa using e] at hz
        rw [hk2]
        exact ⟨List.mem_range.1 hk, z, hz, e2⟩
      have val : ∀ y ∈ L, y.fp =
          overlapArea apt apb (ends raw m y.km).1 (ends raw m y.km).2.1 bpt bpb (ends raw m y.km).2.2.1 (ends raw m y.km).2.2.2 / faceArea apt apb bpt bpb := by
        intro y hy
        obtain ⟨hk, z, hz, e⟩ := inL y hy
        obtain ⟨⟨ta, ba, tb, bb, hLy⟩, _⟩ := layer_of_some (by rw [hf, hz] : juxtaPair tol raw m p y.km kp = .ok (some z))
        rw [ends_eq hLy, ← e, overlapArea_swap]
        exact ((pair_spec ht um up hc hk hkp hLy hp (hf y.km kp)).2 z hz).2 hF'
      have tot : totalP ((List.range nk).flatMap g) kp ≤ 1 := by
        unfold totalP
        rw [← hL, List.map_congr_left val]
        refine stacked_le_one up1 up2 hF' _ (fun y : Juxta ℝ => ends raw m y.km) ?_ ?_
        · intro y hy
          obtain ⟨hk, z, hz, e⟩ := inL y hy
          obtain ⟨⟨ta, ba, tb, bb, hLy⟩, _⟩ := layer_of_some (by rw [hf, hz] : juxtaPair tol raw m p y.km kp = .ok (some z))
          rw [ends_eq hLy]
          exact um y.km _ _ _ _ hk hLy
        · have order := (C117_totals h).2.2.2
          have hkey : l.map (fun x => (x.km, x.kp)) = ((List.range nk).flatMap g).map (fun x => (x.km, x.kp)) := by
            have := congrArg (List.map fun x : Nat × Nat × ℝ => (x.1, x.2.1)) sP.2.2
            simpa [List.map_map, Function.comp_def] using this
          rw [hkey, List.pairwise_map] at order
          refine (List.Pairwise.filter _ order).imp_of_mem ?_
          intro y z hy hz hyz
          have ky : y.kp = kp := by simpa using (List.mem_filter.1 hy).2
          have kz : z.kp = kp := by simpa using (List.mem_filter.1 hz).2
          obtain ⟨hk, w, hw, e⟩ := inL y hy
          obtain ⟨hk', w', hw', e'⟩ := inL z hz
          obtain ⟨⟨ta, ba, tb, bb, hLy⟩, _⟩ := layer_of_some (by rw [hf, hw] : juxtaPair tol raw m p y.km kp = .ok (some w))
          obtain ⟨⟨ta', ba', tb', bb', hLz⟩, _⟩ := layer_of_some (by rw [hf, hw'] : juxtaPair tol raw m p z.km kp = .ok (some w'))
          rw [ends_eq hLy, ends_eq hLz]
          refine stm _ _ _ _ _ _ _ _ _ _ ?_ hk' hLy hLz
          rcases hyz with h | h
          · exact h
          · dsimp only at h; rw [ky, kz] at h; omega
      rw [hl] at hx
      obtain ⟨y, hy, e⟩ := List.mem_map.1 hx
      have ey : y.kp = x.kp ∧ y.km = x.km := by rw [← e]; split_ifs <;> exact ⟨rfl, rfl⟩
      rw [if_neg (by rw [ey.1, ex2]; exact not_lt.2 tot)] at e
      subst e
      have := val y (List.mem_filter.2 ⟨hy, by simpa using ex2⟩)
      rw [ex1, ends_eq hm, ← overlapArea_swap] at this
      exact this

end

/-- one layer on each side, from 0 to 10 and from 4 to 14 on both pillars -/
example : ∃ m p : Side ℝ, Upright id 1 m ∧ Upright id 1 p ∧ Stacked id 1 m ∧ Stacked id 1 p ∧ Clear (1 / 100) id 1 m p ∧
    Layer id m 0 0 10 0 10 ∧ Layer id p 0 4 14 4 14 ∧ 0 < overlapArea 0 10 4 14 0 10 4 14 ∧ ∃ l, juxtapose (1 / 100) id 1 2 m p = .ok l := by
  have lm : ∀ (c : ℝ) (k : Nat) (ta ba tb bb : ℝ), k < 1 → Layer id ⟨fun n => some (n * 10 + c), fun n => some (n * 10 + c)⟩ k ta ba tb bb →
      ta = c ∧ ba = 10 + c ∧ tb = c ∧ bb = 10 + c := by
    intro c k ta ba tb bb hk h
    obtain rfl : k = 0 := by omega
    simpa [Layer, eq_comm] using h
  refine ⟨⟨fun n => some (n * 10 + 0), fun n => some (n * 10 + 0)⟩, ⟨fun n => some (n * 10 + 4), fun n => some (n * 10 + 4)⟩, ?_, ?_, ?_, ?_, ?_, ?_, ?_, ?_, ?_⟩
  · intro k ta ba tb bb hk h
    obtain ⟨rfl, rfl, rfl, rfl⟩ := lm _ _ _ _ _ _ hk h
    norm_num
  · intro k ta ba tb bb hk h
    obtain ⟨rfl, rfl, rfl, rfl⟩ := lm _ _ _ _ _ _ hk h
    norm_num
  · intro k k' _ _ _ _ _ _ _ _ h h'; omega
  · intro k k' _ _ _ _ _ _ _ _ h h'; omega
  · intro km kp _ _ _ _ _ _ _ _ h h' hm hp
    obtain ⟨rfl, rfl, rfl, rfl⟩ := lm _ _ _ _ _ _ h hm
    obtain ⟨rfl, rfl, rfl, rfl⟩ := lm _ _ _ _ _ _ h' hp
    refine ⟨?_, ?_, fun _ => rfl, fun _ => rfl⟩ <;> constructor <;> (unfold Apart; norm_num [abs_of_nonneg, abs_of_neg])
  · simp [Layer]
  · simp [Layer]; norm_num
  · rw [overlapArea_eq (by norm_num) (by norm_num) (by norm_num) (by norm_num), part_pos (by norm_num) (by norm_num),
      part_pos (by norm_num) (by norm_num), part_pos (by norm_num) (by norm_num), part_neg (by norm_num) (by norm_num)]
    norm_num
  · refine C117_never_raises _ _ _ _ _ _ fun f hf => ⟨0, by decide, ?_⟩
    simp only [List.mem_cons, List.not_mem_nil, or_false] at hf
    rcases hf with rfl | rfl | rfl | rfl <;> simp

section
variable {K : Type} [Field K] [LinearOrder K] [IsStrictOrderedRing K]

omit [IsStrictOrderedRing K] in
theorem faultAxis_spec {isJ : Bool} {tol : K} {raw : Nat → Nat} {nk raws : Nat} {sides : Nat → Nat → Side K × Side K}
    {inactive : Option (Cell3 → Bool)} {l : List (Nat × Nat)} {r : List (FaultPair K)} (h : faultAxis isJ tol raw nk raws sides inactive l = .ok r) (x : FaultPair K) :
    x ∈ r ↔ ∃ j i km kp, (j, i) ∈ l ∧ x.isJ = isJ ∧ x.cellM = (km, j, i) ∧ x.cellP = (if isJ then (kp, j + 1, i) else (kp, j, i + 1)) ∧
      (∃ js, juxtapose tol raw nk raws (sides j i).1 (sides j i).2 = .ok js ∧ ⟨km, kp, x.fm, x.fp⟩ ∈ js) ∧
      ∀ f, inactive = some f → f x.cellM = false ∧ f x.cellP = false := by
  induction l generalizing r with
  | nil =>
    simp only [faultAxis, Except.ok.injEq] at h
    subst h
    simp
  | cons a l ih =>
    obtain ⟨j, i⟩ := a
    simp only [faultAxis] at h
    split at h <;> simp only [Except.ok.injEq, reduceCtorEq] at h
    rename_i js r' hjs hr
    subst h
    rw [List.mem_append, List.mem_filterMap, ih hr]
    constructor
    · rintro (⟨e, he, h⟩ | ⟨j', i', km, kp, hm, h⟩)
      · obtain ⟨h0, h⟩ := Option.ite_none_left_eq_some.1 h
        simp only [Option.some.injEq] at h
        subst h
        refine ⟨j, i, e.km, e.kp, by simp, rfl, rfl, rfl, ⟨js, hjs, he⟩, ?_⟩
        intro f hf
        subst hf
        simpa using h0
      · exact ⟨j', i', km, kp, by simp [hm], h⟩
    · rintro ⟨j', i', km, kp, hm, h1, h2, h3, ⟨js', hjs', h4⟩, h5⟩
      rcases List.mem_cons.1 hm with e | hm
      · left
        simp only [Prod.mk.injEq] at e
        obtain ⟨rfl, rfl⟩ := e
        rw [hjs] at hjs'
        simp only [Except.ok.injEq] at hjs'
        subst hjs'
        refine ⟨_, h4, ?_⟩
        dsimp only
        rw [← h2, ← h3, if_neg]
        · cases x; subst h1; rfl
        · cases inactive with
          | none => simp
          | some f => simp [h5 f rfl]
      · exact Or.inr ⟨j', i', km, kp, hm, h1, h2, h3, ⟨js', hjs', h4⟩, h5⟩

omit [IsStrictOrderedRing K] in
/-- **C117** — the connections listed for the faults of a grid are those found at the split column faces, between a cell on
the minus side and a cell of the neighbouring column on the plus side, with the fractions found there, inactive cells left out
when asked for; nothing is returned for a grid without split pillars or without any such connection. -/
theorem C117_fault {split : Bool} {tol : K} {raw : Nat → Nat} {nk raws : Nat} {splitJ splitI : List (Nat × Nat)}
    {sidesJ sidesI : Nat → Nat → Side K × Side K} {inactive : Option (Cell3 → Bool)} {r : Option (List (FaultPair K))}
    (h : faultPairs split tol raw nk raws splitJ splitI sidesJ sidesI inactive = .ok r) :
    (split = false → r = none) ∧ r ≠ some [] ∧
    (split = true → ∀ x : FaultPair K, (∃ l, r = some l ∧ x ∈ l) ↔ ∃ j i km kp, x.cellM = (km, j, i) ∧
      (x.isJ = true ∧ (j, i) ∈ splitJ ∧ x.cellP = (kp, j + 1, i) ∧
          (∃ js, juxtapose tol raw nk raws (sidesJ j i).1 (sidesJ j i).2 = .ok js ∧ ⟨km, kp, x.fm, x.fp⟩ ∈ js) ∨
        x.isJ = false ∧ (j, i) ∈ splitI ∧ x.cellP = (kp, j, i + 1) ∧
          (∃ js, juxtapose tol raw nk raws (sidesI j i).1 (sidesI j i).2 = .ok js ∧ ⟨km, kp, x.fm, x.fp⟩ ∈ js)) ∧
      ∀ f, inactive = some f → f x.cellM = false ∧ f x.cellP = false) := by
  unfold faultPairs at h
  split_ifs at h with h0
  · simp only [Except.ok.injEq] at h
    subst h
    exact ⟨fun _ => rfl, by simp, fun e => by rw [e] at h0; cases h0⟩
  · split at h <;> try (simp only [reduceCtorEq] at h)
    rename_i a b ha hb
    refine ⟨fun e => absurd e h0, ?_, ?_⟩
    · split_ifs at h with h1
      · simp only [Except.ok.injEq] at h; subst h; simp
      · simp only [Except.ok.injEq] at h; subst h
        intro e
        simp only [Option.some.injEq] at e
        rw [e] at h1; simp at h1
    · intro _ x
      have e : (∃ l, r = some l ∧ x ∈ l) ↔ x ∈ a ∨ x ∈ b := by
        rw [← List.mem_append]
        split_ifs at h with h1
        · simp only [Except.ok.injEq] at h; subst h
          rw [List.isEmpty_iff] at h1
          rw [h1]; simp
        · simp only [Except.ok.injEq] at h; subst h
          simp
      rw [e, faultAxis_spec ha, faultAxis_spec hb]
      constructor
      · rintro (⟨j, i, km, kp, h1, h2, h3, h4, h5, h6⟩ | ⟨j, i, km, kp, h1, h2, h3, h4, h5, h6⟩)
        · exact ⟨j, i, km, kp, h3, Or.inl ⟨h2, h1, h4, h5⟩, h6⟩
        · exact ⟨j, i, km, kp, h3, Or.inr ⟨h2, h1, h4, h5⟩, h6⟩
      · rintro ⟨j, i, km, kp, h3, (⟨h2, h1, h4, h5⟩ | ⟨h2, h1, h4, h5⟩), h6⟩
        · exact Or.inl ⟨j, i, km, kp, h1, h2, h3, h4, h5, h6⟩
        · exact Or.inr ⟨j, i, km, kp, h1, h2, h3, h4, h5, h6⟩

/-- one split J face, a throw of half a layer -/
example : (faultPairs true (1 / 1000 : Rat) id 1 2 [(3, 4)] [] (fun _ _ => (⟨fun n => some n, fun n => some n⟩, ⟨fun n => some (n + 1 / 2), fun n => some (n + 1 / 2)⟩))
    (fun _ _ => (⟨fun _ => none, fun _ => none⟩, ⟨fun _ => none, fun _ => none⟩)) none).toOption.join.map (·.map fun x => (x.cellM, x.cellP, x.isJ, x.fm))
    = some [((0, 3, 4), (0, 4, 4), true, 1 / 2)] := by decide +kernel

end

end Verif.Transmit
