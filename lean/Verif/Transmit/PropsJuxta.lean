import Verif.Transmit.Patterns

/-!
# Properties: juxtaposition of cells across a fault (C117)

Specification: `Layer` says where a layer ends on the two pillars; `overlapArea` and `faceArea` (Verif.Transmit.Overlap) are
areas, as integrals of lengths along the pillars.
-/

namespace Verif.Transmit
open Verif.Py

/-- layer `k` of a side has its top at `ta`, `tb` and its base at `ba`, `bb` on the two pillars -/
def Layer {K : Type} (raw : Nat → Nat) (s : Side K) (k : Nat) (ta ba tb bb : K) : Prop :=
  s.a (raw k) = some ta ∧ s.a (raw k + 1) = some ba ∧ s.b (raw k) = some tb ∧ s.b (raw k + 1) = some bb

/-- layers do not overlap those above them -/
def Stacked (raw : Nat → Nat) (nk : Nat) (s : Side ℝ) : Prop :=
  ∀ k k' ta ba tb bb ta' ba' tb' bb', k < k' → k' < nk → Layer raw s k ta ba tb bb → Layer raw s k' ta' ba' tb' bb' → ba ≤ ta' ∧ bb ≤ tb'

/-- no layer is inverted -/
def Upright (raw : Nat → Nat) (nk : Nat) (s : Side ℝ) : Prop :=
  ∀ k ta ba tb bb, k < nk → Layer raw s k ta ba tb bb → ta ≤ ba ∧ tb ≤ bb

/-- the layers of the two sides have their ends at the same places or further apart than the tolerance; where the top or base
of one goes right across the other, the latter has the same height on both pillars -/
def Clear (tol : ℝ) (raw : Nat → Nat) (nk : Nat) (m p : Side ℝ) : Prop :=
  ∀ km kp amt amb bmt bmb apt apb bpt bpb, km < nk → kp < nk → Layer raw m km amt amb bmt bmb → Layer raw p kp apt apb bpt bpb →
    AllApart tol amt amb apt apb ∧ AllApart tol bmt bmb bpt bpb ∧
    (Steep amt amb apt apb bmt bmb bpt bpb → amb - amt = bmb - bmt) ∧ (Steep apt apb amt amb bpt bpb bmt bmb → apb - apt = bpb - bpt)

theorem AllApart.swap {tol mt mb pt pb : ℝ} (h : AllApart tol mt mb pt pb) : AllApart tol pt pb mt mb :=
  ⟨h.pb_pt, h.pt_mt.symm, h.pt_mb.symm, h.pb_mb.symm, h.pb_mt.symm, h.mb_mt⟩

/-- **C117** — the fraction of a face that a layer on the other side of the fault covers is the area of overlap over the area
of the face, for layers that are not inverted, with ends that coincide or are further apart than the tolerance, and, where the
top or base of one layer goes right across the other, for a face of the same height on both pillars. -/
theorem C117_exact_partial {amt amb apt apb bmt bmb bpt bpb tol : ℝ} (hyp : Ready amt amb apt apb bmt bmb bpt bpb tol)
    (h1 : ¬ (apb ≤ amt ∧ bpb ≤ bmt)) (h6 : ¬ (amb ≤ apt ∧ bmb ≤ bpt)) :
    fractionalArea amt amb apt apb bmt bmb bpt bpb tol =
      .ok (overlapArea amt amb apt apb bmt bmb bpt bpb / faceArea amt amb bmt bmb) := by
  rcases flavour_cases hyp.ht hyp.ham hyp.hap hyp.sa with ⟨e, f⟩ | ⟨e, f⟩ | ⟨e, f⟩ | ⟨e, f⟩ | ⟨e, f⟩ | ⟨e, f⟩ <;>
    rcases flavour_cases hyp.ht hyp.hbm hyp.hbp hyp.sb with ⟨e', f'⟩ | ⟨e', f'⟩ | ⟨e', f'⟩ | ⟨e', f'⟩ | ⟨e', f'⟩ | ⟨e', f'⟩
  · exact absurd ⟨f.1, f'.1⟩ h1
  · exact exact_12 hyp e e'
  · exact exact_13 hyp e e'
  · exact exact_14 hyp e e'
  · exact exact_15 hyp e e'
  · exact exact_16 hyp e e'
  · exact exact_21 hyp e e'
  · exact exact_22 hyp e e'
  · exact exact_23 hyp e e'
  · exact exact_24 hyp e e'
  · exact exact_25 hyp e e'
  · exact exact_26 hyp e e'
  · exact exact_31 hyp e e'
  · exact exact_32 hyp e e'
  · exact exact_33 hyp e e'
  · exact exact_34 hyp e e'
  · exact exact_35 hyp e e'
  · exact exact_36 hyp e e'
  · exact exact_41 hyp e e'
  · exact exact_42 hyp e e'
  · exact exact_43 hyp e e'
  · exact exact_44 hyp e e'
  · exact exact_45 hyp e e'
  · exact exact_46 hyp e e'
  · exact exact_51 hyp e e'
  · exact exact_52 hyp e e'
  · exact exact_53 hyp e e'
  · exact exact_54 hyp e e'
  · exact exact_55 hyp e e'
  · exact exact_56 hyp e e'
  · exact exact_61 hyp e e'
  · exact exact_62 hyp e e'
  · exact exact_63 hyp e e'
  · exact exact_64 hyp e e'
  · exact exact_65 hyp e e'
  · exact absurd ⟨f.1, f'.1⟩ h6

/-- a face from 0 to 10 on one pillar and 0 to 8 on the other, the layer opposite from 5 to 15 and from 2 to 6 -/
example : Ready 0 10 5 15 0 8 2 6 (1 / 100) where
  ht := by norm_num
  ham := by norm_num
  hbm := by norm_num
  hap := by norm_num
  hbp := by norm_num
  sa := by constructor <;> (unfold Apart; norm_num [abs_of_nonneg, abs_of_neg])
  sb := by constructor <;> (unfold Apart; norm_num [abs_of_nonneg, abs_of_neg])
  hF := by norm_num
  hst := by unfold Steep; norm_num

/-- **C117** — where the base of the other layer goes from below the face on one pillar to above it on the other, and the face
is not of the same height on both, the fraction is wrong: a face from 0 to 2 and from 0 to 4 against a layer with its base at
3 and at −1 is covered to 25/72 of its area, and 33/72 is returned. -/
theorem C117_steep_violated : ∃ amt amb apt apb bmt bmb bpt bpb tol : ℝ, 0 < tol ∧ amt < amb ∧ apt < apb ∧ bmt < bmb ∧ bpt < bpb ∧
    AllApart tol amt amb apt apb ∧ AllApart tol bmt bmb bpt bpb ∧
    fractionalArea amt amb apt apb bmt bmb bpt bpb tol = .ok (33 / 72) ∧
    overlapArea amt amb apt apb bmt bmb bpt bpb / faceArea amt amb bmt bmb = 25 / 72 := by
  refine ⟨0, 2, -10, 3, 0, 4, -10, -1, 1 / 1000, by norm_num, by norm_num, by norm_num, by norm_num, by norm_num,
    by constructor <;> (unfold Apart; norm_num [abs_of_nonneg, abs_of_neg]),
    by constructor <;> (unfold Apart; norm_num [abs_of_nonneg, abs_of_neg]), ?_, ?_⟩
  · have h1 : pillarFlavour (0 : ℝ) 2 (-10) 3 (1 / 1000) = 3 := by unfold pillarFlavour; norm_num
    have h2 : pillarFlavour (0 : ℝ) 4 (-10) (-1) (1 / 1000) = 1 := by unfold pillarFlavour; norm_num
    simp only [fractionalArea, h1, h2, band]
    norm_num
  · rw [overlapArea_eq (by norm_num) (by norm_num) (by norm_num) (by norm_num), faceArea_eq,
      part_dec (by norm_num) (by norm_num) (by norm_num), part_dec (by norm_num) (by norm_num) (by norm_num),
      part_neg (by norm_num) (by norm_num), part_neg (by norm_num) (by norm_num)]
    norm_num

section field
variable {K : Type} [Field K] [LinearOrder K] [IsStrictOrderedRing K]

theorem flavour_range (mt mb pt pb tol : K) : pillarFlavour mt mb pt pb tol ∈ [1, 2, 3, 4, 5, 6] := by
  unfold pillarFlavour; split_ifs <;> decide

theorem flavour_one {mt mb pt pb tol : K} (h : pillarFlavour mt mb pt pb tol = 1) : mt ≥ pb - tol := by
  unfold pillarFlavour at h
  split_ifs at h with h1 h2 <;> first | omega | linarith

theorem flavour_six {mt mb pt pb tol : K} (h : pillarFlavour mt mb pt pb tol = 6) : mb ≤ pt + tol := by
  unfold pillarFlavour at h
  split_ifs at h with h1 h2 h3 <;> first | omega | linarith

theorem fractionalArea_ok {amt amb apt apb bmt bmb bpt bpb tol : K} (h1 : ¬ (amt ≥ apb - tol ∧ bmt ≥ bpb - tol))
    (h6 : ¬ (amb ≤ apt + tol ∧ bmb ≤ bpt + tol)) : ∃ f, fractionalArea amt amb apt apb bmt bmb bpt bpb tol = .ok f := by
  have a := flavour_range amt amb apt apb tol
  have b := flavour_range bmt bmb bpt bpb tol
  have n1 : ¬ (pillarFlavour amt amb apt apb tol = 1 ∧ pillarFlavour bmt bmb bpt bpb tol = 1) := fun h => h1 ⟨flavour_one h.1, flavour_one h.2⟩
  have n6 : ¬ (pillarFlavour amt amb apt apb tol = 6 ∧ pillarFlavour bmt bmb bpt bpb tol = 6) := fun h => h6 ⟨flavour_six h.1, flavour_six h.2⟩
  generalize e : pillarFlavour amt amb apt apb tol = x at a n1 n6
  generalize e' : pillarFlavour bmt bmb bpt bpb tol = y at b n1 n6
  simp only [List.mem_cons, List.not_mem_nil, or_false] at a b
  rcases a with rfl | rfl | rfl | rfl | rfl | rfl <;> rcases b with rfl | rfl | rfl | rfl | rfl | rfl <;>
    first
    | exact absurd ⟨rfl, rfl⟩ n1
    | exact absurd ⟨rfl, rfl⟩ n6
    | (simp only [fractionalArea, e, e']; first | exact ⟨_, rfl⟩ | (split_ifs <;> exact ⟨_, rfl⟩))

theorem juxtaPair_ok (tol : K) (raw : Nat → Nat) (m p : Side K) (km kp : Nat) : ∃ r, juxtaPair tol raw m p km kp = .ok r := by
  unfold juxtaPair
  split
  · split_ifs with h1 h2
    · exact ⟨_, rfl⟩
    · exact ⟨_, rfl⟩
    · rename_i amt amb bmt bmb apt apb bpt bpb _ _
      obtain ⟨f, hf⟩ := fractionalArea_ok (tol := tol) h1 h2
      obtain ⟨g, hg⟩ := fractionalArea_ok (tol := tol) (amt := apt) (amb := apb) (apt := amt) (apb := amb) (bmt := bpt) (bmb := bpb)
        (bpt := bmt) (bpb := bmb) (fun h => h2 ⟨by linarith [h.1], by linarith [h.2]⟩) (fun h => h1 ⟨by linarith [h.1], by linarith [h.2]⟩)
      rw [hf, hg]
      exact ⟨_, rfl⟩
  · exact ⟨_, rfl⟩

/-- the entry for a pair of layers, `none` if there is none -/
theorem scanP_eq (tol : K) (raw : Nat → Nat) (m p : Side K) (km : Nat) (l : List Nat) (f : Nat → Option (Juxta K))
    (hf : ∀ kp, juxtaPair tol raw m p km kp = .ok (f kp)) : scanP tol raw m p km l = .ok (l.filterMap f) := by
  induction l with
  | nil => rfl
  | cons a l ih =>
    simp only [scanP, hf, ih]
    cases e : f a <;> simp [e]

theorem scanM_eq (tol : K) (raw : Nat → Nat) (m p : Side K) (nk : Nat) (l : List Nat) (f : Nat → Nat → Option (Juxta K))
    (hf : ∀ km kp, juxtaPair tol raw m p km kp = .ok (f km kp)) :
    scanM tol raw m p nk l = .ok (l.flatMap fun km => scaleM ((List.range nk).filterMap (f km))) := by
  induction l with
  | nil => rfl
  | cons a l ih =>
    simp only [scanM, scanP_eq _ _ _ _ _ _ _ (hf a), ih, List.flatMap_cons]

/-- the entries before they are divided by totals -/
theorem entries (tol : K) (raw : Nat → Nat) (m p : Side K) : ∃ f : Nat → Nat → Option (Juxta K), ∀ km kp, juxtaPair tol raw m p km kp = .ok (f km kp) :=
  ⟨fun km kp => Classical.choose (juxtaPair_ok tol raw m p km kp), fun km kp => Classical.choose_spec (juxtaPair_ok tol raw m p km kp)⟩

/-- **C117** — finding the juxtaposition of two columns raises no exception unless one of the four pillars has no point -/
theorem C117_never_raises (tol : K) (raw : Nat → Nat) (nk raws : Nat) (m p : Side K)
    (h : ∀ f ∈ [m.a, m.b, p.a, p.b], ∃ n < raws, f n ≠ none) : ∃ l, juxtapose tol raw nk raws m p = .ok l := by
  obtain ⟨f, hf⟩ := entries tol raw m p
  have g : ∀ f ∈ [m.a, m.b, p.a, p.b], ((List.range raws).all fun n => (f n).isNone) = false := by
    intro f hf
    obtain ⟨n, hn, h0⟩ := h f hf
    rw [List.all_eq_false]
    exact ⟨n, List.mem_range.2 hn, by simpa [Option.isNone_iff_eq_none] using h0⟩
  unfold juxtapose
  simp only [g m.a (by simp), g m.b (by simp), g p.a (by simp), g p.b (by simp), Bool.or_self, Bool.false_eq_true, if_false,
    scanM_eq _ _ _ _ _ _ _ hf]
  exact ⟨_, rfl⟩

/-- **C117** — where one of the pillars at the edge of a split column face has no points at all an exception is raised, instead
of there being no juxtaposition there -/
theorem C117_no_points_violated (tol : K) (raw : Nat → Nat) (nk raws : Nat) (m p : Side K) (f : Nat → Option K) (hf : f ∈ [m.a, m.b, p.a, p.b])
    (h : ∀ n < raws, f n = none) : juxtapose tol raw nk raws m p = .error .value := by
  have g : ((List.range raws).all fun n => (f n).isNone) = true := by
    rw [List.all_eq_true]
    intro n hn
    rw [h n (List.mem_range.1 hn)]; rfl
  unfold juxtapose
  simp only [List.mem_cons, List.not_mem_nil, or_false] at hf
  rcases hf with rfl | rfl | rfl | rfl <;> simp [g]

theorem juxtaPair_some {tol : K} {raw : Nat → Nat} {m p : Side K} {km kp : Nat} {x : Juxta K} (h : juxtaPair tol raw m p km kp = .ok (some x)) :
    x.km = km ∧ x.kp = kp ∧ (0 ≤ x.fm ∧ x.fm ≤ 1) ∧ 0 ≤ x.fp ∧ x.fp ≤ 1 := by
  unfold juxtaPair at h
  have c0 : ∀ f : K, 0 ≤ clip f := fun f => le_min (le_max_right _ _) zero_le_one
  have c1 : ∀ f : K, clip f ≤ 1 := fun f => min_le_right _ _
  split at h
  · split_ifs at h
    · simp at h
    · simp at h
    · split at h <;> simp at h
      rw [← h]
      exact ⟨rfl, rfl, ⟨c0 _, c1 _⟩, c0 _, c1 _⟩
  · simp at h

theorem sum_nonneg' {l : List K} (h : ∀ x ∈ l, 0 ≤ x) : 0 ≤ l.sum := by
  induction l with
  | nil => simp
  | cons a l ih => rw [List.sum_cons]; exact add_nonneg (h a (by simp)) (ih fun x hx => h x (by simp [hx]))

theorem sum_div {A : Type} (l : List A) (g : A → K) (c : K) : (l.map fun x => g x / c).sum = (l.map g).sum / c := by
  induction l with
  | nil => simp
  | cons a l ih => simp only [List.map_cons, List.sum_cons, ih, add_div]

theorem le_sum {l : List K} (h : ∀ x ∈ l, 0 ≤ x) {y : K} (hy : y ∈ l) : y ≤ l.sum := by
  induction l with
  | nil => simp at hy
  | cons a l ih =>
    rw [List.sum_cons]
    have h0 := sum_nonneg' fun x hx => h x (List.mem_cons_of_mem a hx)
    rcases List.mem_cons.1 hy with rfl | hy
    · linarith
    · have := ih (fun x hx => h x (by simp [hx])) hy
      have := h a (by simp)
      linarith

/-- what dividing by the total leaves -/
theorem scaleM_spec (l : List (Juxta K)) (h : ∀ x ∈ l, 0 ≤ x.fm ∧ x.fm ≤ 1) :
    ((scaleM l).map (·.fm)).sum ≤ 1 ∧ (∀ x ∈ scaleM l, 0 ≤ x.fm ∧ x.fm ≤ 1) ∧ (scaleM l).map (fun x => (x.km, x.kp, x.fp)) = l.map (fun x => (x.km, x.kp, x.fp)) := by
  unfold scaleM
  dsimp only
  split_ifs with ht
  · have ht0 : (0 : K) < (l.map (·.fm)).sum := lt_trans zero_lt_one ht
    refine ⟨?_, ?_, ?_⟩
    · rw [List.map_map]
      have : ((fun x : Juxta K => x.fm) ∘ fun x : Juxta K => { x with fm := x.fm / (l.map (·.fm)).sum }) = fun x => x.fm / (l.map (·.fm)).sum := rfl
      rw [this, sum_div l (fun x => x.fm), div_self ht0.ne']
    · intro x hx
      obtain ⟨y, hy, rfl⟩ := List.mem_map.1 hx
      dsimp only
      refine ⟨div_nonneg (h y hy).1 ht0.le, ?_⟩
      rw [div_le_one ht0]
      exact le_sum (by intro z hz; obtain ⟨w, hw, rfl⟩ := List.mem_map.1 hz; exact (h w hw).1) (List.mem_map.2 ⟨y, hy, rfl⟩)
    · rw [List.map_map]; rfl
  · exact ⟨not_lt.1 ht, h, rfl⟩

/-- the unscaled entries for one layer of the m side -/
theorem row_spec {tol : K} {raw : Nat → Nat} {m p : Side K} {f : Nat → Nat → Option (Juxta K)}
    (hf : ∀ km kp, juxtaPair tol raw m p km kp = .ok (f km kp)) (nk km : Nat) :
    (∀ x ∈ (List.range nk).filterMap (f km), x.km = km ∧ x.kp < nk ∧ f km x.kp = some x ∧ (0 ≤ x.fm ∧ x.fm ≤ 1) ∧ 0 ≤ x.fp ∧ x.fp ≤ 1) ∧
    (((List.range nk).filterMap (f km)).map (·.kp)).Pairwise (· < ·) := by
  constructor
  · intro x hx
    obtain ⟨kp, hk, h⟩ := List.mem_filterMap.1 hx
    have := juxtaPair_some (by rw [hf, h] : juxtaPair tol raw m p km kp = .ok (some x))
    obtain ⟨h1, h2, h3, h4⟩ := this
    exact ⟨h1, by rw [h2]; exact List.mem_range.1 hk, by rw [h2]; exact h, h3, h4⟩
  · have e : ((List.range nk).filterMap (f km)).map (·.kp) = (List.range nk).filter fun kp => (f km kp).isSome := by
      generalize List.range nk = l
      induction l with
      | nil => rfl
      | cons a l ih =>
        rw [List.filterMap_cons, List.filter_cons]
        cases e : f km a with
        | none => simpa using ih
        | some x =>
          have := (juxtaPair_some (by rw [hf, e] : juxtaPair tol raw m p km a = .ok (some x))).2.1
          simp only [List.map_cons, Option.isSome_some, if_true, ih, this]
    rw [e]
    exact List.Pairwise.filter _ List.pairwise_lt_range

theorem scaleP_spec (l : List (Juxta K)) (h : ∀ x ∈ l, 0 ≤ x.fp ∧ x.fp ≤ 1) :
    (∀ kp, totalP (scaleP l) kp ≤ 1) ∧ (∀ x ∈ scaleP l, 0 ≤ x.fp ∧ x.fp ≤ 1) ∧
    (scaleP l).map (fun x => (x.km, x.kp, x.fm)) = l.map (fun x => (x.km, x.kp, x.fm)) := by
  refine ⟨?_, ?_, ?_⟩
  · intro kp
    have e : totalP (scaleP l) kp = if totalP l kp > 1 then totalP l kp / totalP l kp else totalP l kp := by
      unfold totalP scaleP
      have : ∀ (l' : List (Juxta K)) (t : Nat → K), (((l'.map fun x => if t x.kp > 1 then { x with fp := x.fp / t x.kp } else x).filter fun x => x.kp == kp).map (·.fp)).sum =
          if t kp > 1 then ((l'.filter fun x => x.kp == kp).map (·.fp)).sum / t kp else ((l'.filter fun x => x.kp == kp).map (·.fp)).sum := by
        intro l' t
        induction l' with
        | nil => simp
        | cons a l' ih =>
          rw [List.map_cons, List.filter_cons, List.filter_cons]
          by_cases ha : a.kp = kp
          · have h1 : ((if t a.kp > 1 then { a with fp := a.fp / t a.kp } else a : Juxta K).kp == kp) = true := by
              split_ifs <;> simp [ha]
            rw [if_pos h1, if_pos (show (a.kp == kp) = true by simpa using ha), List.map_cons, List.map_cons, List.sum_cons, List.sum_cons, ih, ha]
            split_ifs
            · rw [add_div]
            · rfl
          · have h1 : ¬ ((if t a.kp > 1 then { a with fp := a.fp / t a.kp } else a : Juxta K).kp == kp) = true := by
              split_ifs <;> simp [ha]
            rw [if_neg h1, if_neg (show ¬ (a.kp == kp) = true by simpa using ha), ih]
      exact this l fun kp => ((l.filter fun x => x.kp == kp).map (·.fp)).sum
    rw [e]
    split_ifs with h1
    · rw [div_self (lt_trans zero_lt_one h1).ne']
    · exact not_lt.1 h1
  · intro x hx
    obtain ⟨y, hy, rfl⟩ := List.mem_map.1 hx
    split_ifs with h1
    · have h0 := lt_trans zero_lt_one h1
      refine ⟨div_nonneg (h y hy).1 h0.le, ?_⟩
      rw [div_le_one h0]
      unfold totalP
      refine le_sum ?_ (List.mem_map.2 ⟨y, List.mem_filter.2 ⟨hy, by simp⟩, rfl⟩)
      intro z hz
      obtain ⟨w, hw, rfl⟩ := List.mem_map.1 hz
      exact (h w (List.mem_filter.1 hw).1).1
    · exact h y hy
  · unfold scaleP
    rw [List.map_map]
    refine List.map_congr_left fun x _ => ?_
    simp only [Function.comp]
    split_ifs <;> rfl

theorem juxtapose_eq {tol : K} {raw : Nat → Nat} {nk raws : Nat} {m p : Side K} {l : List (Juxta K)} (h : juxtapose tol raw nk raws m p = .ok l)
    {f : Nat → Nat → Option (Juxta K)} (hf : ∀ km kp, juxtaPair tol raw m p km kp = .ok (f km kp)) :
    l = scaleP ((List.range nk).flatMap fun km => scaleM ((List.range nk).filterMap (f km))) := by
  unfold juxtapose at h
  dsimp only at h
  split_ifs at h
  rw [scanM_eq _ _ _ _ _ _ _ hf] at h
  simpa using h.symm

theorem pairwise_flatMap_lt {A : Type} (n : Nat) (g : Nat → List A) (key : A → Nat × Nat) (h1 : ∀ k, ∀ x ∈ g k, (key x).1 = k)
    (h2 : ∀ k, ((g k).map fun x => (key x).2).Pairwise (· < ·)) :
    (((List.range n).flatMap g).map key).Pairwise fun x y => x.1 < y.1 ∨ (x.1 = y.1 ∧ x.2 < y.2) := by
  rw [List.pairwise_map, List.pairwise_flatMap]
  refine ⟨?_, ?_⟩
  · intro k _
    have := h2 k
    rw [List.pairwise_map] at this
    exact this.imp_of_mem fun {a b} ha hb hab => Or.inr ⟨by rw [h1 k a ha, h1 k b hb], hab⟩
  · refine List.pairwise_lt_range.imp ?_
    intro a b hab x hx y hy
    left
    rw [h1 a x hx, h1 b y hy]; exact hab

theorem totalM_flatMap (n : Nat) (g : Nat → List (Juxta K)) (h1 : ∀ k, ∀ x ∈ g k, x.km = k) (hs : ∀ k, ((g k).map (·.fm)).sum ≤ 1) (km : Nat) :
    ((((List.range n).flatMap g).filter fun x => x.km == km).map (·.fm)).sum ≤ 1 := by
  have e : ∀ l : List Nat, l.Nodup → ((l.flatMap g).filter fun x => x.km == km) = if km ∈ l then g km else [] := by
    intro l hl
    induction l with
    | nil => simp
    | cons a l ih =>
      rw [List.flatMap_cons, List.filter_append, ih (List.nodup_cons.1 hl).2]
      by_cases ha : a = km
      · subst ha
        have : a ∉ l := (List.nodup_cons.1 hl).1
        simp only [this, if_false, List.append_nil, List.mem_cons, true_or, if_true]
        exact List.filter_eq_self.2 fun x hx => by simpa using h1 a x hx
      · have h2 : (g a).filter (fun x => x.km == km) = [] := by
          refine List.filter_eq_nil_iff.2 fun x hx => ?_
          simp [h1 a x hx, ha]
        rw [h2, List.nil_append]
        simp [Ne.symm ha]
  rw [e _ List.nodup_range]
  split_ifs
  · exact hs km
  · simp

/-- **C117** — the fractions are between zero and one, those of one cell face do not come to more than one, on either side of
the fault, and each pair of layers is listed once, in order -/
theorem C117_totals {tol : K} {raw : Nat → Nat} {nk raws : Nat} {m p : Side K} {l : List (Juxta K)} (h : juxtapose tol raw nk raws m p = .ok l) :
    (∀ x ∈ l, (0 ≤ x.fm ∧ x.fm ≤ 1) ∧ (0 ≤ x.fp ∧ x.fp ≤ 1) ∧ x.km < nk ∧ x.kp < nk) ∧
    (∀ k, ((l.filter fun x => x.km == k).map (·.fm)).sum ≤ 1) ∧ (∀ k, ((l.filter fun x => x.kp == k).map (·.fp)).sum ≤ 1) ∧
    (l.map fun x => (x.km, x.kp)).Pairwise fun x y => x.1 < y.1 ∨ (x.1 = y.1 ∧ x.2 < y.2) := by
  obtain ⟨f, hf⟩ := entries tol raw m p
  have hl := juxtapose_eq h hf
  set g : Nat → List (Juxta K) := fun km => scaleM ((List.range nk).filterMap (f km)) with hg
  have r := fun km => row_spec hf nk km
  have sM := fun km => scaleM_spec ((List.range nk).filterMap (f km)) (fun x hx => ((r km).1 x hx).2.2.2.1)
  -- entries of a scaled row
  have row : ∀ km, ∀ x ∈ g km, x.km = km ∧ x.kp < nk ∧ 0 ≤ x.fp ∧ x.fp ≤ 1 := by
    intro km x hx
    have hx' : (x.km, x.kp, x.fp) ∈ ((List.range nk).filterMap (f km)).map fun x => (x.km, x.kp, x.fp) := by
      rw [← (sM km).2.2]; exact List.mem_map.2 ⟨x, hx, rfl⟩
    obtain ⟨y, hy, e⟩ := List.mem_map.1 hx'
    have := (r km).1 y hy
    simp only [Prod.mk.injEq] at e
    rw [← e.1, ← e.2.1, ← e.2.2]
    exact ⟨this.1, this.2.1, this.2.2.2.2⟩
  have mem : ∀ x ∈ (List.range nk).flatMap g, ∃ km < nk, x ∈ g km := by
    intro x hx
    obtain ⟨km, hk, hx⟩ := List.mem_flatMap.1 hx
    exact ⟨km, List.mem_range.1 hk, hx⟩
  have sP := scaleP_spec ((List.range nk).flatMap g) (fun x hx => by obtain ⟨km, _, hx⟩ := mem x hx; exact (row km x hx).2.2)
  rw [← hl] at sP
  refine ⟨?_, ?_, sP.1, ?_⟩
  · intro x hx
    have hx' : (x.km, x.kp, x.fm) ∈ ((List.range nk).flatMap g).map fun x => (x.km, x.kp, x.fm) := by
      rw [← sP.2.2]; exact List.mem_map.2 ⟨x, hx, rfl⟩
    obtain ⟨y, hy, e⟩ := List.mem_map.1 hx'
    simp only [Prod.mk.injEq] at e
    obtain ⟨km, hk, hy⟩ := mem y hy
    have h1 := (sM km).2.1 y hy
    have h2 := row km y hy
    rw [← e.2.2, ← e.1, ← e.2.1]
    exact ⟨h1, sP.2.1 x hx, by rw [h2.1]; exact hk, h2.2.1⟩
  · intro k
    have := totalM_flatMap nk g (fun k x hx => (row k x hx).1) (fun k => (sM k).1) k
    have e : ∀ a b : List (Juxta K), a.map (fun x => (x.km, x.kp, x.fm)) = b.map (fun x => (x.km, x.kp, x.fm)) →
        ((a.filter fun x => x.km == k).map (·.fm)) = ((b.filter fun x => x.km == k).map (·.fm)) := by
      intro a b hab
      have t : ∀ a : List (Juxta K), ((a.filter fun x => x.km == k).map (·.fm)) = ((a.map (fun x => (x.km, x.kp, x.fm))).filter fun x => x.1 == k).map (·.2.2) := by
        intro a
        rw [List.filter_map, List.map_map]; rfl
      rw [t, t, hab]
    rw [e _ _ sP.2.2]
    exact this
  · have e : l.map (fun x => (x.km, x.kp)) = ((List.range nk).flatMap g).map (fun x => (x.km, x.kp)) := by
      have := congrArg (List.map fun x : Nat × Nat × K => (x.1, x.2.1)) sP.2.2
      simpa [List.map_map, Function.comp_def] using this
    rw [e]
    refine pairwise_flatMap_lt nk g (fun x => (x.km, x.kp)) (fun k x hx => (row k x hx).1) ?_
    intro k
    have e2 : (g k).map (fun x => x.kp) = ((List.range nk).filterMap (f k)).map (fun x => x.kp) := by
      have := congrArg (List.map fun x : Nat × Nat × K => x.2.1) (sM k).2.2
      simpa [List.map_map, Function.comp_def] using this
    dsimp only
    rw [e2]
    exact (r k).2

/-- two layers on each side, one with no points, against a throw of half a layer -/
example : (∀ f ∈ [(⟨fun n => some (n : Rat), fun n => some (n : Rat)⟩ : Side Rat).a], ∃ n < 3, f n ≠ none) ∧
    (juxtapose (1 / 1000 : Rat) id 2 3 ⟨fun n => some n, fun n => some n⟩ ⟨fun n => some (n + 1 / 2), fun n => if n = 0 then none else some (n + 1 / 2)⟩).toOption.map (·.map fun x => (x.km, x.kp, x.fm, x.fp))
      = some [(1, 1, 1 / 2, 1 / 2)] := by
  constructor
  · simp only [List.mem_singleton]; rintro f rfl; exact ⟨0, by decide, by decide⟩
  · decide +kernel

end field

end Verif.Transmit
