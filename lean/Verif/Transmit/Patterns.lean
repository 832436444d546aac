import Verif.Transmit.Overlap

/-!
# The fractions are those of the areas: the patterns one by one
-/

namespace Verif.Transmit
open Verif.Py

/-- two values are the same or further apart than the tolerance -/
def Apart (tol x y : ℝ) : Prop := x = y ∨ tol < |x - y|

/-- the points on one pillar are the same or further apart than the tolerance -/
structure AllApart (tol mt mb pt pb : ℝ) : Prop where
  mb_mt : Apart tol mb mt
  pt_mt : Apart tol pt mt
  pb_mt : Apart tol pb mt
  pb_mb : Apart tol pb mb
  pt_mb : Apart tol pt mb
  pb_pt : Apart tol pb pt

theorem Apart.symm {tol x y : ℝ} (h : Apart tol x y) : Apart tol y x := by
  unfold Apart at *
  rw [abs_sub_comm]
  exact h.imp_left Eq.symm

theorem AllApart.mb_pb {tol mt mb pt pb : ℝ} (h : AllApart tol mt mb pt pb) : Apart tol mb pb := h.pb_mb.symm
theorem AllApart.mb_pt {tol mt mb pt pb : ℝ} (h : AllApart tol mt mb pt pb) : Apart tol mb pt := h.pt_mb.symm

/-- the top or the base of the p layer goes from one side of the m layer to the other -/
def Steep (amt amb apt apb bmt bmb bpt bpb : ℝ) : Prop :=
  (apt ≤ amt ∧ bmb ≤ bpt) ∨ (amb ≤ apt ∧ bpt ≤ bmt) ∨ (apb ≤ amt ∧ bmb ≤ bpb) ∨ (amb ≤ apb ∧ bpb ≤ bmt)

/-- what is asked for: layers not inverted, points apart, an m face with some area, and of the same height on both pillars
if the p layer goes across it -/
structure Ready (amt amb apt apb bmt bmb bpt bpb tol : ℝ) : Prop where
  ht : 0 < tol
  ham : amt ≤ amb
  hbm : bmt ≤ bmb
  hap : apt ≤ apb
  hbp : bpt ≤ bpb
  sa : AllApart tol amt amb apt apb
  sb : AllApart tol bmt bmb bpt bpb
  hF : 0 < (amb - amt) + (bmb - bmt)
  hst : Steep amt amb apt apb bmt bmb bpt bpb → amb - amt = bmb - bmt

theorem apart_le {tol x y : ℝ} (ht : 0 < tol) (h : Apart tol x y) : x - y ≤ tol ↔ x ≤ y := by
  constructor
  · intro h1
    rcases h with rfl | h
    · exact le_refl _
    · rcases abs_cases (x - y) with ⟨h2, h3⟩ | ⟨h2, h3⟩ <;> rw [h2] at h <;> linarith
  · intro h1; linarith

theorem none_left {tol x y : ℝ} (h0 : 0 ≤ x - y) (h1 : x - y < tol) (h : Apart tol x y) : x - y = 0 := by
  rcases h with rfl | h
  · exact sub_self _
  · rw [abs_of_nonneg h0] at h; linarith

theorem thick {tol mt mb pt pb : ℝ} (_ht : 0 < tol) (h : mt ≤ mb) (s : AllApart tol mt mb pt pb) (h0 : 0 < mb - mt) : tol < mb - mt := by
  rcases s.mb_mt with e | e
  · rw [e] at h0; linarith
  · rwa [abs_of_nonneg (by linarith)] at e

theorem enough {tol amt amb apt apb bmt bmb bpt bpb : ℝ} (ht : 0 < tol) (ham : amt ≤ amb) (hbm : bmt ≤ bmb) (sa : AllApart tol amt amb apt apb)
    (sb : AllApart tol bmt bmb bpt bpb) (hF : 0 < (amb - amt) + (bmb - bmt)) : ¬ (amb - amt) + (bmb - bmt) < tol := by
  rcases ham.lt_or_eq with h | h
  · have := thick ht ham sa (by linarith); linarith
  · have := thick ht hbm sb (by linarith); linarith

theorem flavour_cases {tol mt mb pt pb : ℝ} (ht : 0 < tol) (hm : mt ≤ mb) (hp : pt ≤ pb) (s : AllApart tol mt mb pt pb) :
    (pillarFlavour mt mb pt pb tol = 1 ∧ pb ≤ mt ∧ pt < mt) ∨ (pillarFlavour mt mb pt pb tol = 2 ∧ pt < mt ∧ mt < pb ∧ pb ≤ mb) ∨
    (pillarFlavour mt mb pt pb tol = 3 ∧ pt ≤ mt ∧ mb < pb) ∨ (pillarFlavour mt mb pt pb tol = 4 ∧ mt ≤ pt ∧ pb ≤ mb) ∨
    (pillarFlavour mt mb pt pb tol = 5 ∧ mt < pt ∧ pt < mb ∧ mb < pb) ∨ (pillarFlavour mt mb pt pb tol = 6 ∧ mb ≤ pt ∧ mb < pb) := by
  have e1 : (pt ≥ mt - tol) ↔ mt ≤ pt := by have := apart_le ht s.pt_mt.symm; constructor <;> intro h; exact this.1 (by linarith); linarith
  have e2 : (pb ≤ mb + tol) ↔ pb ≤ mb := by have := apart_le ht s.pb_mb; constructor <;> intro h; exact this.1 (by linarith); linarith
  have e3 : (pb ≤ mt + tol) ↔ pb ≤ mt := by have := apart_le ht s.pb_mt; constructor <;> intro h; exact this.1 (by linarith); linarith
  have e4 : (pt ≥ mb - tol) ↔ mb ≤ pt := by have := apart_le ht s.pt_mb.symm; constructor <;> intro h; exact this.1 (by linarith); linarith
  have e5 : (pt ≤ mt + tol) ↔ pt ≤ mt := by have := apart_le ht s.pt_mt; constructor <;> intro h; exact this.1 (by linarith); linarith
  unfold pillarFlavour
  simp only [e1, e2, e3, e4, e5]
  by_cases h1 : mt ≤ pt ∧ pb ≤ mb
  · rw [if_pos h1]; exact Or.inr (Or.inr (Or.inr (Or.inl ⟨rfl, h1⟩)))
  · rw [if_neg h1]
    by_cases h2 : pb ≤ mt
    · rw [if_pos h2]
      refine Or.inl ⟨rfl, h2, ?_⟩
      by_contra h; exact h1 ⟨not_lt.1 h, by linarith⟩
    · rw [if_neg h2]
      by_cases h3 : mb ≤ pt
      · rw [if_pos h3]
        refine Or.inr (Or.inr (Or.inr (Or.inr (Or.inr ⟨rfl, h3, ?_⟩))))
        by_contra h; exact h1 ⟨by linarith, not_lt.1 h⟩
      · rw [if_neg h3]
        by_cases h4 : pt ≤ mt
        · rw [if_pos h4]
          by_cases h5 : pb ≤ mb
          · rw [if_pos h5]
            refine Or.inr (Or.inl ⟨rfl, ?_, not_le.1 h2, h5⟩)
            by_contra h; exact h1 ⟨not_lt.1 h, h5⟩
          · rw [if_neg h5]
            exact Or.inr (Or.inr (Or.inl ⟨rfl, h4, not_le.1 h5⟩))
        · rw [if_neg h4]
          refine Or.inr (Or.inr (Or.inr (Or.inr (Or.inl ⟨rfl, not_le.1 h4, not_le.1 h3, ?_⟩))))
          by_contra h; exact h1 ⟨(not_le.1 h4).le, not_lt.1 h⟩

section
variable {tol mt mb pt pb : ℝ} (ht : 0 < tol) (hm : mt ≤ mb) (hp : pt ≤ pb) (s : AllApart tol mt mb pt pb)
include ht hm hp s

theorem flavour_facts1 (h : pillarFlavour mt mb pt pb tol = 1) : pb ≤ mt ∧ pt < mt := by
  rcases flavour_cases ht hm hp s with ⟨e, f⟩ | ⟨e, f⟩ | ⟨e, f⟩ | ⟨e, f⟩ | ⟨e, f⟩ | ⟨e, f⟩ <;> first | exact f | (rw [h] at e; omega)
theorem flavour_facts2 (h : pillarFlavour mt mb pt pb tol = 2) : pt < mt ∧ mt < pb ∧ pb ≤ mb := by
  rcases flavour_cases ht hm hp s with ⟨e, f⟩ | ⟨e, f⟩ | ⟨e, f⟩ | ⟨e, f⟩ | ⟨e, f⟩ | ⟨e, f⟩ <;> first | exact f | (rw [h] at e; omega)
theorem flavour_facts3 (h : pillarFlavour mt mb pt pb tol = 3) : pt ≤ mt ∧ mb < pb := by
  rcases flavour_cases ht hm hp s with ⟨e, f⟩ | ⟨e, f⟩ | ⟨e, f⟩ | ⟨e, f⟩ | ⟨e, f⟩ | ⟨e, f⟩ <;> first | exact f | (rw [h] at e; omega)
theorem flavour_facts4 (h : pillarFlavour mt mb pt pb tol = 4) : mt ≤ pt ∧ pb ≤ mb := by
  rcases flavour_cases ht hm hp s with ⟨e, f⟩ | ⟨e, f⟩ | ⟨e, f⟩ | ⟨e, f⟩ | ⟨e, f⟩ | ⟨e, f⟩ <;> first | exact f | (rw [h] at e; omega)
theorem flavour_facts5 (h : pillarFlavour mt mb pt pb tol = 5) : mt < pt ∧ pt < mb ∧ mb < pb := by
  rcases flavour_cases ht hm hp s with ⟨e, f⟩ | ⟨e, f⟩ | ⟨e, f⟩ | ⟨e, f⟩ | ⟨e, f⟩ | ⟨e, f⟩ <;> first | exact f | (rw [h] at e; omega)
theorem flavour_facts6 (h : pillarFlavour mt mb pt pb tol = 6) : mb ≤ pt ∧ mb < pb := by
  rcases flavour_cases ht hm hp s with ⟨e, f⟩ | ⟨e, f⟩ | ⟨e, f⟩ | ⟨e, f⟩ | ⟨e, f⟩ | ⟨e, f⟩ <;> first | exact f | (rw [h] at e; omega)
end

theorem guard {c : Prop} [Decidable c] {y : ℝ} (h : c → y = 0) : (if c then 0 else y) = y := by
  split_ifs with hc
  · exact (h hc).symm
  · rfl

theorem guard0 {c : Prop} [Decidable c] {y : ℝ} (h : c → y = 0) : (if c then (.ok 0 : Res ℝ) else .ok y) = .ok y := by
  split_ifs with hc
  · rw [h hc]
  · rfl

theorem guard1 {c : Prop} [Decidable c] {y : ℝ} (h : c → y = 0) : (if c then (.ok 1 : Res ℝ) else .ok (1 - y)) = .ok (1 - y) := by
  split_ifs with hc
  · rw [h hc, sub_zero]
  · rfl

theorem corner_zero (v ea eb : ℝ) : corner 0 v ea eb = 0 := by unfold corner; simp

theorem corner_swap (g v ea eb : ℝ) : corner g v ea eb = corner g v eb ea := by unfold corner; rw [add_comm ea]

theorem corner_part {g v ea eb : ℝ} (hg : 0 ≤ g) (hv : 0 ≤ v) (hF : 0 < ea + eb) :
    corner g v ea eb = part g (-v) / ((ea + eb) / 2) := by
  rcases hg.lt_or_eq with h | h
  · have h1 : 0 < g - -v := by linarith
    have h2 : v + g ≠ 0 := by linarith
    rw [part_dec hg (by linarith) h1]
    unfold corner
    have h3 : g - -v ≠ 0 := h1.ne'
    rw [sub_neg_eq_add] at *
    have h4 := hF.ne'
    field_simp; ring
  · rw [← h, corner_zero, part_neg le_rfl (by linarith), zero_div]

theorem corner_at_a {x y x' y' ea eb : ℝ} (hg : 0 ≤ x - y) (hv : 0 ≤ y' - x') (hF : 0 < ea + eb) :
    corner (x - y) (y' - x') ea eb = part (x - y) (x' - y') / ((ea + eb) / 2) := by
  rw [corner_part hg hv hF, neg_sub]

theorem corner_at_b {x y x' y' ea eb : ℝ} (hg : 0 ≤ x - y) (hv : 0 ≤ y' - x') (hF : 0 < ea + eb) :
    corner (x - y) (y' - x') ea eb = part (x' - y') (x - y) / ((ea + eb) / 2) := by
  rw [corner_part hg hv hF, neg_sub, part_swap]

theorem band_eq {s t v e : ℝ} (hs : 0 ≤ s) (he : 0 < e) (hv : 0 ≤ v) (ht : t = v + e) :
    band s t v e = (part (s + e) (-v) - part s (-t)) / e := by
  have h1 : 0 < s + e - -v := by linarith
  have h2 : 0 < s - -t := by linarith
  rw [part_dec (by linarith) (by linarith) h1, part_dec hs (by linarith) h2]
  unfold band
  subst ht
  have h3 : v + e + s ≠ 0 := by linarith
  have h4 : s + (v + e) ≠ 0 := by linarith
  have h5 : s - -(v + e) ≠ 0 := h2.ne'
  have h6 : s + e - -v ≠ 0 := h1.ne'
  rw [show s - -(v + e) = v + e + s by ring, show s + e - -v = v + e + s by ring, show s + (v + e) = v + e + s by ring]
  have h7 := he.ne'
  field_simp; ring

theorem part_compl (x y x' y' : ℝ) : part (x - y) (x' - y') = part (y - x) (y' - x') + ((x - y) + (x' - y')) / 2 := by
  have e : part (x - y) (x' - y') - part (y - x) (y' - x') = ∫ u in (0 : ℝ)..1, between (x - y) (x' - y') u := by
    unfold part
    rw [← intervalIntegral.integral_sub ((continuous_part _ _).intervalIntegrable ..) ((continuous_part _ _).intervalIntegrable ..)]
    refine intervalIntegral.integral_congr fun u _ => ?_
    have : between (y - x) (y' - x') u = - between (x - y) (x' - y') u := by unfold between; ring
    rw [this]
    rcases le_total 0 (between (x - y) (x' - y') u) with h | h
    · rw [max_eq_right h, max_eq_left (by linarith)]; ring
    · rw [max_eq_left h, max_eq_right (by linarith)]; ring
  rw [integral_between] at e
  linarith

theorem half_div {x F : ℝ} (h : 0 < F) : x / F * (F / 2) = x / 2 := by
  have := h.ne'
  field_simp

theorem half_div' {x F G : ℝ} (h : 0 < F) (e : G = F) : x / G * (F / 2) = x / 2 := by
  rw [e, half_div h]

theorem exact_12 {amt amb apt apb bmt bmb bpt bpb tol : ℝ} (hyp : Ready amt amb apt apb bmt bmb bpt bpb tol)
    (hfa : pillarFlavour amt amb apt apb tol = 1) (hfb : pillarFlavour bmt bmb bpt bpb tol = 2) :
    fractionalArea amt amb apt apb bmt bmb bpt bpb tol = .ok (overlapArea amt amb apt apb bmt bmb bpt bpb / faceArea amt amb bmt bmb) := by
  obtain ⟨ht, ham, hbm, hap, hbp, sa, sb, hF, hst⟩ := hyp
  have fa := flavour_facts1 ht ham hap sa hfa
  have fb := flavour_facts2 ht hbm hbp sb hfb
  have hF2 : 0 < ((amb - amt) + (bmb - bmt)) / 2 := by linarith
  have hFt : ¬ (amb - amt) + (bmb - bmt) < tol := enough ht ham hbm sa sb hF
  have hFt' : ¬ (bmb - bmt) + (amb - amt) < tol := by rwa [add_comm]
  have p0 := part_compl apb amt bpb bmt
  have p1 := part_neg (x := apb - amb) (y := bpb - bmb) (by linarith) (by linarith)
  have p2 := part_neg (x := apt - amt) (y := bpt - bmt) (by linarith) (by linarith)
  have p3 := part_neg (x := apt - amb) (y := bpt - bmb) (by linarith) (by linarith)
  have k0 : corner (bpb - bmt) (amt - apb) (bmb - bmt) (amb - amt) = part (apb - amt) (bpb - bmt) / (((amb - amt) + (bmb - bmt)) / 2) := by
    rw [corner_swap]
    exact corner_at_b (by linarith) (by linarith) hF
  have z0 : bpb - bmt < tol → corner (bpb - bmt) (amt - apb) (bmb - bmt) (amb - amt) = 0 := fun h => by rw [none_left (by linarith) h (sb.pb_mt), corner_zero]
  have y0 : bmb - bmt < tol → corner (bpb - bmt) (amt - apb) (bmb - bmt) (amb - amt) = 0 := fun h => z0 (by linarith)
  have hN := overlapArea_eq ham hbm hap hbp
  rw [faceArea_eq]
  simp only [fractionalArea, hfa, hfb]
  rw [guard0 (fun h => h.elim y0 z0)]
  congr 1
  rw [eq_div_iff hF2.ne']
  simp only [k0]
  first
  | linarith
  | (simp only [sub_mul, add_mul, one_mul, zero_mul, div_mul_cancel₀ _ hF2.ne', half_div hF]; linarith)

theorem exact_13 {amt amb apt apb bmt bmb bpt bpb tol : ℝ} (hyp : Ready amt amb apt apb bmt bmb bpt bpb tol)
    (hfa : pillarFlavour amt amb apt apb tol = 1) (hfb : pillarFlavour bmt bmb bpt bpb tol = 3) :
    fractionalArea amt amb apt apb bmt bmb bpt bpb tol = .ok (overlapArea amt amb apt apb bmt bmb bpt bpb / faceArea amt amb bmt bmb) := by
  obtain ⟨ht, ham, hbm, hap, hbp, sa, sb, hF, hst⟩ := hyp
  have fa := flavour_facts1 ht ham hap sa hfa
  have fb := flavour_facts3 ht hbm hbp sb hfb
  have hF2 : 0 < ((amb - amt) + (bmb - bmt)) / 2 := by linarith
  have hFt : ¬ (amb - amt) + (bmb - bmt) < tol := enough ht ham hbm sa sb hF
  have hFt' : ¬ (bmb - bmt) + (amb - amt) < tol := by rwa [add_comm]
  have p0 := part_compl apb amt bpb bmt
  have p1 := part_compl apb amb bpb bmb
  have p2 := part_neg (x := apt - amt) (y := bpt - bmt) (by linarith) (by linarith)
  have p3 := part_neg (x := apt - amb) (y := bpt - bmb) (by linarith) (by linarith)
  have he : amb - amt = bmb - bmt := hst (by unfold Steep; exact Or.inr (Or.inr (Or.inl ⟨by linarith, by linarith⟩)))
  have het : tol < amb - amt := thick ht ham sa (by linarith)
  have b0 : band (bpb - bmb) (amb - apb) (amt - apb) (bmb - bmt) = (part (apb - amt) (bpb - bmt) - part (apb - amb) (bpb - bmb)) / (((amb - amt) + (bmb - bmt)) / 2) := by
    rw [band_eq (by linarith) (by linarith) (by linarith) (by linarith), neg_sub, neg_sub, show bpb - bmb + (bmb - bmt) = bpb - bmt by ring,
      show ((amb - amt) + (bmb - bmt)) / 2 = bmb - bmt by linarith]
    rw [part_swap (bpb - bmt), part_swap (bpb - bmb)]
  have q0 := part_compl apb amt bpb bmt
  have r0 := part_compl apb amb bpb bmb
  have hN := overlapArea_eq ham hbm hap hbp
  rw [faceArea_eq]
  simp only [fractionalArea, hfa, hfb]
  rw [if_neg (by linarith : ¬ bpb - bmb + (bmb - bmt) ≤ tol), if_neg (by linarith : ¬ amb - apb + (amt - apb) ≤ tol)]
  congr 1
  rw [eq_div_iff hF2.ne']
  simp only [b0]
  first
  | linarith
  | (simp only [sub_mul, add_mul, one_mul, zero_mul, div_mul_cancel₀ _ hF2.ne', half_div hF]; linarith)

theorem exact_14 {amt amb apt apb bmt bmb bpt bpb tol : ℝ} (hyp : Ready amt amb apt apb bmt bmb bpt bpb tol)
    (hfa : pillarFlavour amt amb apt apb tol = 1) (hfb : pillarFlavour bmt bmb bpt bpb tol = 4) :
    fractionalArea amt amb apt apb bmt bmb bpt bpb tol = .ok (overlapArea amt amb apt apb bmt bmb bpt bpb / faceArea amt amb bmt bmb) := by
  obtain ⟨ht, ham, hbm, hap, hbp, sa, sb, hF, hst⟩ := hyp
  have fa := flavour_facts1 ht ham hap sa hfa
  have fb := flavour_facts4 ht hbm hbp sb hfb
  have hF2 : 0 < ((amb - amt) + (bmb - bmt)) / 2 := by linarith
  have hFt : ¬ (amb - amt) + (bmb - bmt) < tol := enough ht ham hbm sa sb hF
  have hFt' : ¬ (bmb - bmt) + (amb - amt) < tol := by rwa [add_comm]
  have p0 := part_compl apb amt bpb bmt
  have p1 := part_neg (x := apb - amb) (y := bpb - bmb) (by linarith) (by linarith)
  have p2 := part_compl apt amt bpt bmt
  have p3 := part_neg (x := apt - amb) (y := bpt - bmb) (by linarith) (by linarith)
  have k0 : corner (bpb - bmt) (amt - apb) (amb - amt) (bmb - bmt) = part (apb - amt) (bpb - bmt) / (((amb - amt) + (bmb - bmt)) / 2) := by
    exact corner_at_b (by linarith) (by linarith) hF
  have z0 : bpb - bmt < tol → corner (bpb - bmt) (amt - apb) (amb - amt) (bmb - bmt) = 0 := fun h => by rw [none_left (by linarith) h (sb.pb_mt), corner_zero]
  have y0 : bmb - bmt < tol → corner (bpb - bmt) (amt - apb) (amb - amt) (bmb - bmt) = 0 := fun h => z0 (by linarith)
  have k1 : corner (bpt - bmt) (amt - apt) (amb - amt) (bmb - bmt) = part (apt - amt) (bpt - bmt) / (((amb - amt) + (bmb - bmt)) / 2) := by
    exact corner_at_b (by linarith) (by linarith) hF
  have z1 : bpt - bmt < tol → corner (bpt - bmt) (amt - apt) (amb - amt) (bmb - bmt) = 0 := fun h => by rw [none_left (by linarith) h (sb.pt_mt), corner_zero]
  have y1 : bmb - bmt < tol → corner (bpt - bmt) (amt - apt) (amb - amt) (bmb - bmt) = 0 := fun h => z1 (by linarith)
  have hN := overlapArea_eq ham hbm hap hbp
  rw [faceArea_eq]
  simp only [fractionalArea, hfa, hfb]
  rw [guard z1, guard0 (fun h => by rw [h.elim y0 z0, sub_eq_zero]; exact (z1 (h.elim (fun h => by linarith) (fun h => by linarith))).symm)]
  congr 1
  rw [eq_div_iff hF2.ne']
  simp only [k0, k1]
  first
  | linarith
  | (simp only [sub_mul, add_mul, one_mul, zero_mul, div_mul_cancel₀ _ hF2.ne', half_div hF]; linarith)

theorem exact_15 {amt amb apt apb bmt bmb bpt bpb tol : ℝ} (hyp : Ready amt amb apt apb bmt bmb bpt bpb tol)
    (hfa : pillarFlavour amt amb apt apb tol = 1) (hfb : pillarFlavour bmt bmb bpt bpb tol = 5) :
    fractionalArea amt amb apt apb bmt bmb bpt bpb tol = .ok (overlapArea amt amb apt apb bmt bmb bpt bpb / faceArea amt amb bmt bmb) := by
  obtain ⟨ht, ham, hbm, hap, hbp, sa, sb, hF, hst⟩ := hyp
  have fa := flavour_facts1 ht ham hap sa hfa
  have fb := flavour_facts5 ht hbm hbp sb hfb
  have hF2 : 0 < ((amb - amt) + (bmb - bmt)) / 2 := by linarith
  have hFt : ¬ (amb - amt) + (bmb - bmt) < tol := enough ht ham hbm sa sb hF
  have hFt' : ¬ (bmb - bmt) + (amb - amt) < tol := by rwa [add_comm]
  have p0 := part_compl apb amt bpb bmt
  have p1 := part_compl apb amb bpb bmb
  have p2 := part_compl apt amt bpt bmt
  have p3 := part_neg (x := apt - amb) (y := bpt - bmb) (by linarith) (by linarith)
  have k0 : corner (bpt - bmt) (amt - apt) (amb - amt) (bmb - bmt) = part (apt - amt) (bpt - bmt) / (((amb - amt) + (bmb - bmt)) / 2) := by
    exact corner_at_b (by linarith) (by linarith) hF
  have z0 : bpt - bmt < tol → corner (bpt - bmt) (amt - apt) (amb - amt) (bmb - bmt) = 0 := fun h => by rw [none_left (by linarith) h (sb.pt_mt), corner_zero]
  have y0 : bmb - bmt < tol → corner (bpt - bmt) (amt - apt) (amb - amt) (bmb - bmt) = 0 := fun h => z0 (by linarith)
  have he : amb - amt = bmb - bmt := hst (by unfold Steep; exact Or.inr (Or.inr (Or.inl ⟨by linarith, by linarith⟩)))
  have het : tol < amb - amt := thick ht ham sa (by linarith)
  have b0 : band (bpb - bmb) (amb - apb) (amt - apb) (bmb - bmt) = (part (apb - amt) (bpb - bmt) - part (apb - amb) (bpb - bmb)) / (((amb - amt) + (bmb - bmt)) / 2) := by
    rw [band_eq (by linarith) (by linarith) (by linarith) (by linarith), neg_sub, neg_sub, show bpb - bmb + (bmb - bmt) = bpb - bmt by ring,
      show ((amb - amt) + (bmb - bmt)) / 2 = bmb - bmt by linarith]
    rw [part_swap (bpb - bmt), part_swap (bpb - bmb)]
  have q0 := part_compl apb amt bpb bmt
  have r0 := part_compl apb amb bpb bmb
  have hN := overlapArea_eq ham hbm hap hbp
  rw [faceArea_eq]
  simp only [fractionalArea, hfa, hfb]
  rw [guard (fun h => h.elim y0 z0), if_neg (by linarith : ¬ bpb - bmb + (bmb - bmt) ≤ tol), if_neg (by linarith : ¬ amb - apb + (amt - apb) ≤ tol)]
  congr 1
  rw [eq_div_iff hF2.ne']
  simp only [k0, b0]
  first
  | linarith
  | (simp only [sub_mul, add_mul, one_mul, zero_mul, div_mul_cancel₀ _ hF2.ne', half_div hF]; linarith)

theorem exact_16 {amt amb apt apb bmt bmb bpt bpb tol : ℝ} (hyp : Ready amt amb apt apb bmt bmb bpt bpb tol)
    (hfa : pillarFlavour amt amb apt apb tol = 1) (hfb : pillarFlavour bmt bmb bpt bpb tol = 6) :
    fractionalArea amt amb apt apb bmt bmb bpt bpb tol = .ok (overlapArea amt amb apt apb bmt bmb bpt bpb / faceArea amt amb bmt bmb) := by
  obtain ⟨ht, ham, hbm, hap, hbp, sa, sb, hF, hst⟩ := hyp
  have fa := flavour_facts1 ht ham hap sa hfa
  have fb := flavour_facts6 ht hbm hbp sb hfb
  have hF2 : 0 < ((amb - amt) + (bmb - bmt)) / 2 := by linarith
  have hFt : ¬ (amb - amt) + (bmb - bmt) < tol := enough ht ham hbm sa sb hF
  have hFt' : ¬ (bmb - bmt) + (amb - amt) < tol := by rwa [add_comm]
  have p0 := part_compl apb amt bpb bmt
  have p1 := part_compl apb amb bpb bmb
  have p2 := part_compl apt amt bpt bmt
  have p3 := part_compl apt amb bpt bmb
  have he : amb - amt = bmb - bmt := hst (by unfold Steep; exact Or.inl ⟨by linarith, by linarith⟩)
  have het : tol < amb - amt := thick ht ham sa (by linarith)
  have b0 : band (bpt - bmb) (amb - apt) (amt - apt) (bmb - bmt) = (part (apt - amt) (bpt - bmt) - part (apt - amb) (bpt - bmb)) / (((amb - amt) + (bmb - bmt)) / 2) := by
    rw [band_eq (by linarith) (by linarith) (by linarith) (by linarith), neg_sub, neg_sub, show bpt - bmb + (bmb - bmt) = bpt - bmt by ring,
      show ((amb - amt) + (bmb - bmt)) / 2 = bmb - bmt by linarith]
    rw [part_swap (bpt - bmt), part_swap (bpt - bmb)]
  have q0 := part_compl apt amt bpt bmt
  have r0 := part_compl apt amb bpt bmb
  have b1 : band (amt - apb) (bpb - bmt) (bpb - bmb) (amb - amt) = (part (amb - apb) (bmb - bpb) - part (amt - apb) (bmt - bpb)) / (((amb - amt) + (bmb - bmt)) / 2) := by
    rw [band_eq (by linarith) (by linarith) (by linarith) (by linarith), neg_sub, neg_sub, show amt - apb + (amb - amt) = amb - apb by ring,
      show ((amb - amt) + (bmb - bmt)) / 2 = amb - amt by linarith]
  have q1 := part_compl amb apb bmb bpb
  have r1 := part_compl amt apb bmt bpb
  have hN := overlapArea_eq ham hbm hap hbp
  have hnn := div_nonneg (overlapArea_nonneg amt amb apt apb bmt bmb bpt bpb) hF2.le
  rw [faceArea_eq]
  simp only [fractionalArea, hfa, hfb]
  rw [if_neg (by linarith : ¬ bpt - bmb + (bmb - bmt) ≤ tol), if_pos (by linarith : amb - apt + (amt - apt) > tol), if_neg (by linarith : ¬ amt - apb + (amb - amt) ≤ tol), if_pos (by linarith : bpb - bmt + (bpb - bmb) > tol)]
  have hv : 1 - ((band (amt - apb) (bpb - bmt) (bpb - bmb) (amb - amt)) + (band (bpt - bmb) (amb - apt) (amt - apt) (bmb - bmt))) = overlapArea amt amb apt apb bmt bmb bpt bpb / (((amb - amt) + (bmb - bmt)) / 2) := by
    rw [b0, b1, eq_div_iff hF2.ne']
    simp only [sub_mul, add_mul, one_mul, div_mul_cancel₀ _ hF2.ne']
    linarith
  rw [hv, max_eq_left hnn]

theorem exact_21 {amt amb apt apb bmt bmb bpt bpb tol : ℝ} (hyp : Ready amt amb apt apb bmt bmb bpt bpb tol)
    (hfa : pillarFlavour amt amb apt apb tol = 2) (hfb : pillarFlavour bmt bmb bpt bpb tol = 1) :
    fractionalArea amt amb apt apb bmt bmb bpt bpb tol = .ok (overlapArea amt amb apt apb bmt bmb bpt bpb / faceArea amt amb bmt bmb) := by
  obtain ⟨ht, ham, hbm, hap, hbp, sa, sb, hF, hst⟩ := hyp
  have fa := flavour_facts2 ht ham hap sa hfa
  have fb := flavour_facts1 ht hbm hbp sb hfb
  have hF2 : 0 < ((amb - amt) + (bmb - bmt)) / 2 := by linarith
  have hFt : ¬ (amb - amt) + (bmb - bmt) < tol := enough ht ham hbm sa sb hF
  have hFt' : ¬ (bmb - bmt) + (amb - amt) < tol := by rwa [add_comm]
  have p0 := part_compl apb amt bpb bmt
  have p1 := part_neg (x := apb - amb) (y := bpb - bmb) (by linarith) (by linarith)
  have p2 := part_neg (x := apt - amt) (y := bpt - bmt) (by linarith) (by linarith)
  have p3 := part_neg (x := apt - amb) (y := bpt - bmb) (by linarith) (by linarith)
  have k0 : corner (apb - amt) (bmt - bpb) (amb - amt) (bmb - bmt) = part (apb - amt) (bpb - bmt) / (((amb - amt) + (bmb - bmt)) / 2) := by
    exact corner_at_a (by linarith) (by linarith) hF
  have z0 : apb - amt < tol → corner (apb - amt) (bmt - bpb) (amb - amt) (bmb - bmt) = 0 := fun h => by rw [none_left (by linarith) h (sa.pb_mt), corner_zero]
  have y0 : amb - amt < tol → corner (apb - amt) (bmt - bpb) (amb - amt) (bmb - bmt) = 0 := fun h => z0 (by linarith)
  have hN := overlapArea_eq ham hbm hap hbp
  rw [faceArea_eq]
  simp only [fractionalArea, hfa, hfb]
  rw [guard0 (fun h => h.elim y0 z0)]
  congr 1
  rw [eq_div_iff hF2.ne']
  simp only [k0]
  first
  | linarith
  | (simp only [sub_mul, add_mul, one_mul, zero_mul, div_mul_cancel₀ _ hF2.ne', half_div hF]; linarith)

theorem exact_22 {amt amb apt apb bmt bmb bpt bpb tol : ℝ} (hyp : Ready amt amb apt apb bmt bmb bpt bpb tol)
    (hfa : pillarFlavour amt amb apt apb tol = 2) (hfb : pillarFlavour bmt bmb bpt bpb tol = 2) :
    fractionalArea amt amb apt apb bmt bmb bpt bpb tol = .ok (overlapArea amt amb apt apb bmt bmb bpt bpb / faceArea amt amb bmt bmb) := by
  obtain ⟨ht, ham, hbm, hap, hbp, sa, sb, hF, hst⟩ := hyp
  have fa := flavour_facts2 ht ham hap sa hfa
  have fb := flavour_facts2 ht hbm hbp sb hfb
  have hF2 : 0 < ((amb - amt) + (bmb - bmt)) / 2 := by linarith
  have hFt : ¬ (amb - amt) + (bmb - bmt) < tol := enough ht ham hbm sa sb hF
  have hFt' : ¬ (bmb - bmt) + (amb - amt) < tol := by rwa [add_comm]
  have p0 := part_pos (x := apb - amt) (y := bpb - bmt) (by linarith) (by linarith)
  have p1 := part_neg (x := apb - amb) (y := bpb - bmb) (by linarith) (by linarith)
  have p2 := part_neg (x := apt - amt) (y := bpt - bmt) (by linarith) (by linarith)
  have p3 := part_neg (x := apt - amb) (y := bpt - bmb) (by linarith) (by linarith)
  have hN := overlapArea_eq ham hbm hap hbp
  rw [faceArea_eq]
  simp only [fractionalArea, hfa, hfb, basicFr, if_neg hFt]
  congr 1
  rw [eq_div_iff hF2.ne']
  first
  | linarith
  | (simp only [sub_mul, add_mul, one_mul, zero_mul, div_mul_cancel₀ _ hF2.ne', half_div hF]; linarith)

theorem exact_23 {amt amb apt apb bmt bmb bpt bpb tol : ℝ} (hyp : Ready amt amb apt apb bmt bmb bpt bpb tol)
    (hfa : pillarFlavour amt amb apt apb tol = 2) (hfb : pillarFlavour bmt bmb bpt bpb tol = 3) :
    fractionalArea amt amb apt apb bmt bmb bpt bpb tol = .ok (overlapArea amt amb apt apb bmt bmb bpt bpb / faceArea amt amb bmt bmb) := by
  obtain ⟨ht, ham, hbm, hap, hbp, sa, sb, hF, hst⟩ := hyp
  have fa := flavour_facts2 ht ham hap sa hfa
  have fb := flavour_facts3 ht hbm hbp sb hfb
  have hF2 : 0 < ((amb - amt) + (bmb - bmt)) / 2 := by linarith
  have hFt : ¬ (amb - amt) + (bmb - bmt) < tol := enough ht ham hbm sa sb hF
  have hFt' : ¬ (bmb - bmt) + (amb - amt) < tol := by rwa [add_comm]
  have p0 := part_pos (x := apb - amt) (y := bpb - bmt) (by linarith) (by linarith)
  have p1 := part_compl apb amb bpb bmb
  have p2 := part_neg (x := apt - amt) (y := bpt - bmt) (by linarith) (by linarith)
  have p3 := part_neg (x := apt - amb) (y := bpt - bmb) (by linarith) (by linarith)
  have k0 : corner (amb - apb) (bpb - bmb) (amb - amt) (bmb - bmt) = part (amb - apb) (bmb - bpb) / (((amb - amt) + (bmb - bmt)) / 2) := by
    exact corner_at_a (by linarith) (by linarith) hF
  have z0 : amb - apb < tol → corner (amb - apb) (bpb - bmb) (amb - amt) (bmb - bmt) = 0 := fun h => by rw [none_left (by linarith) h (sa.mb_pb), corner_zero]
  have y0 : amb - amt < tol → corner (amb - apb) (bpb - bmb) (amb - amt) (bmb - bmt) = 0 := fun h => z0 (by linarith)
  have hN := overlapArea_eq ham hbm hap hbp
  rw [faceArea_eq]
  simp only [fractionalArea, hfa, hfb]
  rw [guard1 (fun h => h.elim y0 z0)]
  congr 1
  rw [eq_div_iff hF2.ne']
  simp only [k0]
  first
  | linarith
  | (simp only [sub_mul, add_mul, one_mul, zero_mul, div_mul_cancel₀ _ hF2.ne', half_div hF]; linarith)

theorem exact_24 {amt amb apt apb bmt bmb bpt bpb tol : ℝ} (hyp : Ready amt amb apt apb bmt bmb bpt bpb tol)
    (hfa : pillarFlavour amt amb apt apb tol = 2) (hfb : pillarFlavour bmt bmb bpt bpb tol = 4) :
    fractionalArea amt amb apt apb bmt bmb bpt bpb tol = .ok (overlapArea amt amb apt apb bmt bmb bpt bpb / faceArea amt amb bmt bmb) := by
  obtain ⟨ht, ham, hbm, hap, hbp, sa, sb, hF, hst⟩ := hyp
  have fa := flavour_facts2 ht ham hap sa hfa
  have fb := flavour_facts4 ht hbm hbp sb hfb
  have hF2 : 0 < ((amb - amt) + (bmb - bmt)) / 2 := by linarith
  have hFt : ¬ (amb - amt) + (bmb - bmt) < tol := enough ht ham hbm sa sb hF
  have hFt' : ¬ (bmb - bmt) + (amb - amt) < tol := by rwa [add_comm]
  have p0 := part_pos (x := apb - amt) (y := bpb - bmt) (by linarith) (by linarith)
  have p1 := part_neg (x := apb - amb) (y := bpb - bmb) (by linarith) (by linarith)
  have p2 := part_compl apt amt bpt bmt
  have p3 := part_neg (x := apt - amb) (y := bpt - bmb) (by linarith) (by linarith)
  have k0 : corner (bpt - bmt) (amt - apt) (amb - amt) (bmb - bmt) = part (apt - amt) (bpt - bmt) / (((amb - amt) + (bmb - bmt)) / 2) := by
    exact corner_at_b (by linarith) (by linarith) hF
  have z0 : bpt - bmt < tol → corner (bpt - bmt) (amt - apt) (amb - amt) (bmb - bmt) = 0 := fun h => by rw [none_left (by linarith) h (sb.pt_mt), corner_zero]
  have y0 : bmb - bmt < tol → corner (bpt - bmt) (amt - apt) (amb - amt) (bmb - bmt) = 0 := fun h => z0 (by linarith)
  have hN := overlapArea_eq ham hbm hap hbp
  rw [faceArea_eq]
  simp only [fractionalArea, hfa, hfb, basicFr, if_neg hFt]
  rw [guard (fun h => h.elim y0 z0)]
  congr 1
  rw [eq_div_iff hF2.ne']
  simp only [k0]
  first
  | linarith
  | (simp only [sub_mul, add_mul, one_mul, zero_mul, div_mul_cancel₀ _ hF2.ne', half_div hF]; linarith)

theorem exact_25 {amt amb apt apb bmt bmb bpt bpb tol : ℝ} (hyp : Ready amt amb apt apb bmt bmb bpt bpb tol)
    (hfa : pillarFlavour amt amb apt apb tol = 2) (hfb : pillarFlavour bmt bmb bpt bpb tol = 5) :
    fractionalArea amt amb apt apb bmt bmb bpt bpb tol = .ok (overlapArea amt amb apt apb bmt bmb bpt bpb / faceArea amt amb bmt bmb) := by
  obtain ⟨ht, ham, hbm, hap, hbp, sa, sb, hF, hst⟩ := hyp
  have fa := flavour_facts2 ht ham hap sa hfa
  have fb := flavour_facts5 ht hbm hbp sb hfb
  have hF2 : 0 < ((amb - amt) + (bmb - bmt)) / 2 := by linarith
  have hFt : ¬ (amb - amt) + (bmb - bmt) < tol := enough ht ham hbm sa sb hF
  have hFt' : ¬ (bmb - bmt) + (amb - amt) < tol := by rwa [add_comm]
  have p0 := part_pos (x := apb - amt) (y := bpb - bmt) (by linarith) (by linarith)
  have p1 := part_compl apb amb bpb bmb
  have p2 := part_compl apt amt bpt bmt
  have p3 := part_neg (x := apt - amb) (y := bpt - bmb) (by linarith) (by linarith)
  have k0 : corner (bpt - bmt) (amt - apt) (amb - amt) (bmb - bmt) = part (apt - amt) (bpt - bmt) / (((amb - amt) + (bmb - bmt)) / 2) := by
    exact corner_at_b (by linarith) (by linarith) hF
  have z0 : bpt - bmt < tol → corner (bpt - bmt) (amt - apt) (amb - amt) (bmb - bmt) = 0 := fun h => by rw [none_left (by linarith) h (sb.pt_mt), corner_zero]
  have y0 : bmb - bmt < tol → corner (bpt - bmt) (amt - apt) (amb - amt) (bmb - bmt) = 0 := fun h => z0 (by linarith)
  have k1 : corner (amb - apb) (bpb - bmb) (amb - amt) (bmb - bmt) = part (amb - apb) (bmb - bpb) / (((amb - amt) + (bmb - bmt)) / 2) := by
    exact corner_at_a (by linarith) (by linarith) hF
  have z1 : amb - apb < tol → corner (amb - apb) (bpb - bmb) (amb - amt) (bmb - bmt) = 0 := fun h => by rw [none_left (by linarith) h (sa.mb_pb), corner_zero]
  have y1 : amb - amt < tol → corner (amb - apb) (bpb - bmb) (amb - amt) (bmb - bmt) = 0 := fun h => z1 (by linarith)
  have hN := overlapArea_eq ham hbm hap hbp
  rw [faceArea_eq]
  simp only [fractionalArea, hfa, hfb]
  rw [guard (fun h => h.elim y1 z1), guard (fun h => h.elim y0 z0)]
  congr 1
  rw [eq_div_iff hF2.ne']
  simp only [k0, k1]
  first
  | linarith
  | (simp only [sub_mul, add_mul, one_mul, zero_mul, div_mul_cancel₀ _ hF2.ne', half_div hF]; linarith)

theorem exact_26 {amt amb apt apb bmt bmb bpt bpb tol : ℝ} (hyp : Ready amt amb apt apb bmt bmb bpt bpb tol)
    (hfa : pillarFlavour amt amb apt apb tol = 2) (hfb : pillarFlavour bmt bmb bpt bpb tol = 6) :
    fractionalArea amt amb apt apb bmt bmb bpt bpb tol = .ok (overlapArea amt amb apt apb bmt bmb bpt bpb / faceArea amt amb bmt bmb) := by
  obtain ⟨ht, ham, hbm, hap, hbp, sa, sb, hF, hst⟩ := hyp
  have fa := flavour_facts2 ht ham hap sa hfa
  have fb := flavour_facts6 ht hbm hbp sb hfb
  have hF2 : 0 < ((amb - amt) + (bmb - bmt)) / 2 := by linarith
  have hFt : ¬ (amb - amt) + (bmb - bmt) < tol := enough ht ham hbm sa sb hF
  have hFt' : ¬ (bmb - bmt) + (amb - amt) < tol := by rwa [add_comm]
  have p0 := part_pos (x := apb - amt) (y := bpb - bmt) (by linarith) (by linarith)
  have p1 := part_compl apb amb bpb bmb
  have p2 := part_compl apt amt bpt bmt
  have p3 := part_compl apt amb bpt bmb
  have k0 : corner (amb - apb) (bpb - bmb) (amb - amt) (bmb - bmt) = part (amb - apb) (bmb - bpb) / (((amb - amt) + (bmb - bmt)) / 2) := by
    exact corner_at_a (by linarith) (by linarith) hF
  have z0 : amb - apb < tol → corner (amb - apb) (bpb - bmb) (amb - amt) (bmb - bmt) = 0 := fun h => by rw [none_left (by linarith) h (sa.mb_pb), corner_zero]
  have y0 : amb - amt < tol → corner (amb - apb) (bpb - bmb) (amb - amt) (bmb - bmt) = 0 := fun h => z0 (by linarith)
  have he : amb - amt = bmb - bmt := hst (by unfold Steep; exact Or.inl ⟨by linarith, by linarith⟩)
  have het : tol < amb - amt := thick ht ham sa (by linarith)
  have b0 : band (amt - apt) (bpt - bmt) (bpt - bmb) (amb - amt) = (part (amb - apt) (bmb - bpt) - part (amt - apt) (bmt - bpt)) / (((amb - amt) + (bmb - bmt)) / 2) := by
    rw [band_eq (by linarith) (by linarith) (by linarith) (by linarith), neg_sub, neg_sub, show amt - apt + (amb - amt) = amb - apt by ring,
      show ((amb - amt) + (bmb - bmt)) / 2 = amb - amt by linarith]
  have q0 := part_compl amb apt bmb bpt
  have r0 := part_compl amt apt bmt bpt
  have hN := overlapArea_eq ham hbm hap hbp
  rw [faceArea_eq]
  simp only [fractionalArea, hfa, hfb]
  rw [guard (fun h => h.elim y0 z0), if_neg (by linarith : ¬ amt - apt + (amb - amt) ≤ tol), if_neg (by linarith : ¬ bpt - bmt + (bpt - bmb) ≤ tol)]
  congr 1
  rw [eq_div_iff hF2.ne']
  simp only [k0, b0]
  first
  | linarith
  | (simp only [sub_mul, add_mul, one_mul, zero_mul, div_mul_cancel₀ _ hF2.ne', half_div hF]; linarith)

theorem exact_31 {amt amb apt apb bmt bmb bpt bpb tol : ℝ} (hyp : Ready amt amb apt apb bmt bmb bpt bpb tol)
    (hfa : pillarFlavour amt amb apt apb tol = 3) (hfb : pillarFlavour bmt bmb bpt bpb tol = 1) :
    fractionalArea amt amb apt apb bmt bmb bpt bpb tol = .ok (overlapArea amt amb apt apb bmt bmb bpt bpb / faceArea amt amb bmt bmb) := by
  obtain ⟨ht, ham, hbm, hap, hbp, sa, sb, hF, hst⟩ := hyp
  have fa := flavour_facts3 ht ham hap sa hfa
  have fb := flavour_facts1 ht hbm hbp sb hfb
  have hF2 : 0 < ((amb - amt) + (bmb - bmt)) / 2 := by linarith
  have hFt : ¬ (amb - amt) + (bmb - bmt) < tol := enough ht ham hbm sa sb hF
  have hFt' : ¬ (bmb - bmt) + (amb - amt) < tol := by rwa [add_comm]
  have p0 := part_compl apb amt bpb bmt
  have p1 := part_compl apb amb bpb bmb
  have p2 := part_neg (x := apt - amt) (y := bpt - bmt) (by linarith) (by linarith)
  have p3 := part_neg (x := apt - amb) (y := bpt - bmb) (by linarith) (by linarith)
  have he : amb - amt = bmb - bmt := hst (by unfold Steep; exact Or.inr (Or.inr (Or.inr ⟨by linarith, by linarith⟩)))
  have het : tol < amb - amt := thick ht ham sa (by linarith)
  have b0 : band (apb - amb) (bmb - bpb) (bmt - bpb) (amb - amt) = (part (apb - amt) (bpb - bmt) - part (apb - amb) (bpb - bmb)) / (((amb - amt) + (bmb - bmt)) / 2) := by
    rw [band_eq (by linarith) (by linarith) (by linarith) (by linarith), neg_sub, neg_sub, show apb - amb + (amb - amt) = apb - amt by ring,
      show ((amb - amt) + (bmb - bmt)) / 2 = amb - amt by linarith]
  have q0 := part_compl apb amt bpb bmt
  have r0 := part_compl apb amb bpb bmb
  have hN := overlapArea_eq ham hbm hap hbp
  rw [faceArea_eq]
  simp only [fractionalArea, hfa, hfb]
  rw [if_neg (by linarith : ¬ apb - amb + (amb - amt) ≤ tol), if_neg (by linarith : ¬ bmb - bpb + (bmt - bpb) ≤ tol)]
  congr 1
  rw [eq_div_iff hF2.ne']
  simp only [b0]
  first
  | linarith
  | (simp only [sub_mul, add_mul, one_mul, zero_mul, div_mul_cancel₀ _ hF2.ne', half_div hF]; linarith)

theorem exact_32 {amt amb apt apb bmt bmb bpt bpb tol : ℝ} (hyp : Ready amt amb apt apb bmt bmb bpt bpb tol)
    (hfa : pillarFlavour amt amb apt apb tol = 3) (hfb : pillarFlavour bmt bmb bpt bpb tol = 2) :
    fractionalArea amt amb apt apb bmt bmb bpt bpb tol = .ok (overlapArea amt amb apt apb bmt bmb bpt bpb / faceArea amt amb bmt bmb) := by
  obtain ⟨ht, ham, hbm, hap, hbp, sa, sb, hF, hst⟩ := hyp
  have fa := flavour_facts3 ht ham hap sa hfa
  have fb := flavour_facts2 ht hbm hbp sb hfb
  have hF2 : 0 < ((amb - amt) + (bmb - bmt)) / 2 := by linarith
  have hFt : ¬ (amb - amt) + (bmb - bmt) < tol := enough ht ham hbm sa sb hF
  have hFt' : ¬ (bmb - bmt) + (amb - amt) < tol := by rwa [add_comm]
  have p0 := part_pos (x := apb - amt) (y := bpb - bmt) (by linarith) (by linarith)
  have p1 := part_compl apb amb bpb bmb
  have p2 := part_neg (x := apt - amt) (y := bpt - bmt) (by linarith) (by linarith)
  have p3 := part_neg (x := apt - amb) (y := bpt - bmb) (by linarith) (by linarith)
  have k0 : corner (bmb - bpb) (apb - amb) (amb - amt) (bmb - bmt) = part (amb - apb) (bmb - bpb) / (((amb - amt) + (bmb - bmt)) / 2) := by
    exact corner_at_b (by linarith) (by linarith) hF
  have z0 : bmb - bpb < tol → corner (bmb - bpb) (apb - amb) (amb - amt) (bmb - bmt) = 0 := fun h => by rw [none_left (by linarith) h (sb.mb_pb), corner_zero]
  have y0 : bmb - bmt < tol → corner (bmb - bpb) (apb - amb) (amb - amt) (bmb - bmt) = 0 := fun h => z0 (by linarith)
  have hN := overlapArea_eq ham hbm hap hbp
  rw [faceArea_eq]
  simp only [fractionalArea, hfa, hfb]
  rw [guard1 (fun h => h.elim y0 z0)]
  congr 1
  rw [eq_div_iff hF2.ne']
  simp only [k0]
  first
  | linarith
  | (simp only [sub_mul, add_mul, one_mul, zero_mul, div_mul_cancel₀ _ hF2.ne', half_div hF]; linarith)

theorem exact_33 {amt amb apt apb bmt bmb bpt bpb tol : ℝ} (hyp : Ready amt amb apt apb bmt bmb bpt bpb tol)
    (hfa : pillarFlavour amt amb apt apb tol = 3) (hfb : pillarFlavour bmt bmb bpt bpb tol = 3) :
    fractionalArea amt amb apt apb bmt bmb bpt bpb tol = .ok (overlapArea amt amb apt apb bmt bmb bpt bpb / faceArea amt amb bmt bmb) := by
  obtain ⟨ht, ham, hbm, hap, hbp, sa, sb, hF, hst⟩ := hyp
  have fa := flavour_facts3 ht ham hap sa hfa
  have fb := flavour_facts3 ht hbm hbp sb hfb
  have hF2 : 0 < ((amb - amt) + (bmb - bmt)) / 2 := by linarith
  have hFt : ¬ (amb - amt) + (bmb - bmt) < tol := enough ht ham hbm sa sb hF
  have hFt' : ¬ (bmb - bmt) + (amb - amt) < tol := by rwa [add_comm]
  have p0 := part_pos (x := apb - amt) (y := bpb - bmt) (by linarith) (by linarith)
  have p1 := part_pos (x := apb - amb) (y := bpb - bmb) (by linarith) (by linarith)
  have p2 := part_neg (x := apt - amt) (y := bpt - bmt) (by linarith) (by linarith)
  have p3 := part_neg (x := apt - amb) (y := bpt - bmb) (by linarith) (by linarith)
  have hN := overlapArea_eq ham hbm hap hbp
  rw [faceArea_eq]
  simp only [fractionalArea, hfa, hfb]
  congr 1
  rw [eq_div_iff hF2.ne']
  first
  | linarith
  | (simp only [sub_mul, add_mul, one_mul, zero_mul, div_mul_cancel₀ _ hF2.ne', half_div hF]; linarith)

theorem exact_34 {amt amb apt apb bmt bmb bpt bpb tol : ℝ} (hyp : Ready amt amb apt apb bmt bmb bpt bpb tol)
    (hfa : pillarFlavour amt amb apt apb tol = 3) (hfb : pillarFlavour bmt bmb bpt bpb tol = 4) :
    fractionalArea amt amb apt apb bmt bmb bpt bpb tol = .ok (overlapArea amt amb apt apb bmt bmb bpt bpb / faceArea amt amb bmt bmb) := by
  obtain ⟨ht, ham, hbm, hap, hbp, sa, sb, hF, hst⟩ := hyp
  have fa := flavour_facts3 ht ham hap sa hfa
  have fb := flavour_facts4 ht hbm hbp sb hfb
  have hF2 : 0 < ((amb - amt) + (bmb - bmt)) / 2 := by linarith
  have hFt : ¬ (amb - amt) + (bmb - bmt) < tol := enough ht ham hbm sa sb hF
  have hFt' : ¬ (bmb - bmt) + (amb - amt) < tol := by rwa [add_comm]
  have p0 := part_pos (x := apb - amt) (y := bpb - bmt) (by linarith) (by linarith)
  have p1 := part_compl apb amb bpb bmb
  have p2 := part_compl apt amt bpt bmt
  have p3 := part_neg (x := apt - amb) (y := bpt - bmb) (by linarith) (by linarith)
  have k0 : corner (bpt - bmt) (amt - apt) (amb - amt) (bmb - bmt) = part (apt - amt) (bpt - bmt) / (((amb - amt) + (bmb - bmt)) / 2) := by
    exact corner_at_b (by linarith) (by linarith) hF
  have z0 : bpt - bmt < tol → corner (bpt - bmt) (amt - apt) (amb - amt) (bmb - bmt) = 0 := fun h => by rw [none_left (by linarith) h (sb.pt_mt), corner_zero]
  have y0 : bmb - bmt < tol → corner (bpt - bmt) (amt - apt) (amb - amt) (bmb - bmt) = 0 := fun h => z0 (by linarith)
  have k1 : corner (bmb - bpb) (apb - amb) (amb - amt) (bmb - bmt) = part (amb - apb) (bmb - bpb) / (((amb - amt) + (bmb - bmt)) / 2) := by
    exact corner_at_b (by linarith) (by linarith) hF
  have z1 : bmb - bpb < tol → corner (bmb - bpb) (apb - amb) (amb - amt) (bmb - bmt) = 0 := fun h => by rw [none_left (by linarith) h (sb.mb_pb), corner_zero]
  have y1 : bmb - bmt < tol → corner (bmb - bpb) (apb - amb) (amb - amt) (bmb - bmt) = 0 := fun h => z1 (by linarith)
  have hN := overlapArea_eq ham hbm hap hbp
  rw [faceArea_eq]
  simp only [fractionalArea, hfa, hfb]
  rw [guard z0, guard z1, guard1 (fun h => by rw [y0 h, y1 h, add_zero])]
  congr 1
  rw [eq_div_iff hF2.ne']
  simp only [k0, k1]
  first
  | linarith
  | (simp only [sub_mul, add_mul, one_mul, zero_mul, div_mul_cancel₀ _ hF2.ne', half_div hF]; linarith)

theorem exact_35 {amt amb apt apb bmt bmb bpt bpb tol : ℝ} (hyp : Ready amt amb apt apb bmt bmb bpt bpb tol)
    (hfa : pillarFlavour amt amb apt apb tol = 3) (hfb : pillarFlavour bmt bmb bpt bpb tol = 5) :
    fractionalArea amt amb apt apb bmt bmb bpt bpb tol = .ok (overlapArea amt amb apt apb bmt bmb bpt bpb / faceArea amt amb bmt bmb) := by
  obtain ⟨ht, ham, hbm, hap, hbp, sa, sb, hF, hst⟩ := hyp
  have fa := flavour_facts3 ht ham hap sa hfa
  have fb := flavour_facts5 ht hbm hbp sb hfb
  have hF2 : 0 < ((amb - amt) + (bmb - bmt)) / 2 := by linarith
  have hFt : ¬ (amb - amt) + (bmb - bmt) < tol := enough ht ham hbm sa sb hF
  have hFt' : ¬ (bmb - bmt) + (amb - amt) < tol := by rwa [add_comm]
  have p0 := part_pos (x := apb - amt) (y := bpb - bmt) (by linarith) (by linarith)
  have p1 := part_pos (x := apb - amb) (y := bpb - bmb) (by linarith) (by linarith)
  have p2 := part_compl apt amt bpt bmt
  have p3 := part_neg (x := apt - amb) (y := bpt - bmb) (by linarith) (by linarith)
  have k0 : corner (bpt - bmt) (amt - apt) (amb - amt) (bmb - bmt) = part (apt - amt) (bpt - bmt) / (((amb - amt) + (bmb - bmt)) / 2) := by
    exact corner_at_b (by linarith) (by linarith) hF
  have z0 : bpt - bmt < tol → corner (bpt - bmt) (amt - apt) (amb - amt) (bmb - bmt) = 0 := fun h => by rw [none_left (by linarith) h (sb.pt_mt), corner_zero]
  have y0 : bmb - bmt < tol → corner (bpt - bmt) (amt - apt) (amb - amt) (bmb - bmt) = 0 := fun h => z0 (by linarith)
  have hN := overlapArea_eq ham hbm hap hbp
  rw [faceArea_eq]
  simp only [fractionalArea, hfa, hfb]
  rw [guard1 (fun h => h.elim y0 z0)]
  congr 1
  rw [eq_div_iff hF2.ne']
  simp only [k0]
  first
  | linarith
  | (simp only [sub_mul, add_mul, one_mul, zero_mul, div_mul_cancel₀ _ hF2.ne', half_div hF]; linarith)

theorem exact_36 {amt amb apt apb bmt bmb bpt bpb tol : ℝ} (hyp : Ready amt amb apt apb bmt bmb bpt bpb tol)
    (hfa : pillarFlavour amt amb apt apb tol = 3) (hfb : pillarFlavour bmt bmb bpt bpb tol = 6) :
    fractionalArea amt amb apt apb bmt bmb bpt bpb tol = .ok (overlapArea amt amb apt apb bmt bmb bpt bpb / faceArea amt amb bmt bmb) := by
  obtain ⟨ht, ham, hbm, hap, hbp, sa, sb, hF, hst⟩ := hyp
  have fa := flavour_facts3 ht ham hap sa hfa
  have fb := flavour_facts6 ht hbm hbp sb hfb
  have hF2 : 0 < ((amb - amt) + (bmb - bmt)) / 2 := by linarith
  have hFt : ¬ (amb - amt) + (bmb - bmt) < tol := enough ht ham hbm sa sb hF
  have hFt' : ¬ (bmb - bmt) + (amb - amt) < tol := by rwa [add_comm]
  have p0 := part_pos (x := apb - amt) (y := bpb - bmt) (by linarith) (by linarith)
  have p1 := part_pos (x := apb - amb) (y := bpb - bmb) (by linarith) (by linarith)
  have p2 := part_compl apt amt bpt bmt
  have p3 := part_compl apt amb bpt bmb
  have he : amb - amt = bmb - bmt := hst (by unfold Steep; exact Or.inl ⟨by linarith, by linarith⟩)
  have het : tol < amb - amt := thick ht ham sa (by linarith)
  have b0 : band (bpt - bmb) (amb - apt) (amt - apt) (bmb - bmt) = (part (apt - amt) (bpt - bmt) - part (apt - amb) (bpt - bmb)) / (((amb - amt) + (bmb - bmt)) / 2) := by
    rw [band_eq (by linarith) (by linarith) (by linarith) (by linarith), neg_sub, neg_sub, show bpt - bmb + (bmb - bmt) = bpt - bmt by ring,
      show ((amb - amt) + (bmb - bmt)) / 2 = bmb - bmt by linarith]
    rw [part_swap (bpt - bmt), part_swap (bpt - bmb)]
  have q0 := part_compl apt amt bpt bmt
  have r0 := part_compl apt amb bpt bmb
  have hN := overlapArea_eq ham hbm hap hbp
  rw [faceArea_eq]
  simp only [fractionalArea, hfa, hfb]
  rw [if_neg (by linarith : ¬ bpt - bmb + (bmb - bmt) ≤ tol), if_neg (by linarith : ¬ amb - apt + (amt - apt) ≤ tol)]
  congr 1
  rw [eq_div_iff hF2.ne']
  simp only [b0]
  first
  | linarith
  | (simp only [sub_mul, add_mul, one_mul, zero_mul, div_mul_cancel₀ _ hF2.ne', half_div hF]; linarith)

theorem exact_41 {amt amb apt apb bmt bmb bpt bpb tol : ℝ} (hyp : Ready amt amb apt apb bmt bmb bpt bpb tol)
    (hfa : pillarFlavour amt amb apt apb tol = 4) (hfb : pillarFlavour bmt bmb bpt bpb tol = 1) :
    fractionalArea amt amb apt apb bmt bmb bpt bpb tol = .ok (overlapArea amt amb apt apb bmt bmb bpt bpb / faceArea amt amb bmt bmb) := by
  obtain ⟨ht, ham, hbm, hap, hbp, sa, sb, hF, hst⟩ := hyp
  have fa := flavour_facts4 ht ham hap sa hfa
  have fb := flavour_facts1 ht hbm hbp sb hfb
  have hF2 : 0 < ((amb - amt) + (bmb - bmt)) / 2 := by linarith
  have hFt : ¬ (amb - amt) + (bmb - bmt) < tol := enough ht ham hbm sa sb hF
  have hFt' : ¬ (bmb - bmt) + (amb - amt) < tol := by rwa [add_comm]
  have p0 := part_compl apb amt bpb bmt
  have p1 := part_neg (x := apb - amb) (y := bpb - bmb) (by linarith) (by linarith)
  have p2 := part_compl apt amt bpt bmt
  have p3 := part_neg (x := apt - amb) (y := bpt - bmb) (by linarith) (by linarith)
  have k0 : corner (apb - amt) (bmt - bpb) (amb - amt) (bmb - bmt) = part (apb - amt) (bpb - bmt) / (((amb - amt) + (bmb - bmt)) / 2) := by
    exact corner_at_a (by linarith) (by linarith) hF
  have z0 : apb - amt < tol → corner (apb - amt) (bmt - bpb) (amb - amt) (bmb - bmt) = 0 := fun h => by rw [none_left (by linarith) h (sa.pb_mt), corner_zero]
  have y0 : amb - amt < tol → corner (apb - amt) (bmt - bpb) (amb - amt) (bmb - bmt) = 0 := fun h => z0 (by linarith)
  have k1 : corner (apt - amt) (bmt - bpt) (amb - amt) (bmb - bmt) = part (apt - amt) (bpt - bmt) / (((amb - amt) + (bmb - bmt)) / 2) := by
    exact corner_at_a (by linarith) (by linarith) hF
  have z1 : apt - amt < tol → corner (apt - amt) (bmt - bpt) (amb - amt) (bmb - bmt) = 0 := fun h => by rw [none_left (by linarith) h (sa.pt_mt), corner_zero]
  have y1 : amb - amt < tol → corner (apt - amt) (bmt - bpt) (amb - amt) (bmb - bmt) = 0 := fun h => z1 (by linarith)
  have hN := overlapArea_eq ham hbm hap hbp
  rw [faceArea_eq]
  simp only [fractionalArea, hfa, hfb]
  rw [guard z1, guard0 (fun h => by rw [h.elim y0 z0, sub_eq_zero]; exact (z1 (h.elim (fun h => by linarith) (fun h => by linarith))).symm)]
  congr 1
  rw [eq_div_iff hF2.ne']
  simp only [k0, k1]
  first
  | linarith
  | (simp only [sub_mul, add_mul, one_mul, zero_mul, div_mul_cancel₀ _ hF2.ne', half_div hF]; linarith)

theorem exact_42 {amt amb apt apb bmt bmb bpt bpb tol : ℝ} (hyp : Ready amt amb apt apb bmt bmb bpt bpb tol)
    (hfa : pillarFlavour amt amb apt apb tol = 4) (hfb : pillarFlavour bmt bmb bpt bpb tol = 2) :
    fractionalArea amt amb apt apb bmt bmb bpt bpb tol = .ok (overlapArea amt amb apt apb bmt bmb bpt bpb / faceArea amt amb bmt bmb) := by
  obtain ⟨ht, ham, hbm, hap, hbp, sa, sb, hF, hst⟩ := hyp
  have fa := flavour_facts4 ht ham hap sa hfa
  have fb := flavour_facts2 ht hbm hbp sb hfb
  have hF2 : 0 < ((amb - amt) + (bmb - bmt)) / 2 := by linarith
  have hFt : ¬ (amb - amt) + (bmb - bmt) < tol := enough ht ham hbm sa sb hF
  have hFt' : ¬ (bmb - bmt) + (amb - amt) < tol := by rwa [add_comm]
  have p0 := part_pos (x := apb - amt) (y := bpb - bmt) (by linarith) (by linarith)
  have p1 := part_neg (x := apb - amb) (y := bpb - bmb) (by linarith) (by linarith)
  have p2 := part_compl apt amt bpt bmt
  have p3 := part_neg (x := apt - amb) (y := bpt - bmb) (by linarith) (by linarith)
  have k0 : corner (apt - amt) (bmt - bpt) (amb - amt) (bmb - bmt) = part (apt - amt) (bpt - bmt) / (((amb - amt) + (bmb - bmt)) / 2) := by
    exact corner_at_a (by linarith) (by linarith) hF
  have z0 : apt - amt < tol → corner (apt - amt) (bmt - bpt) (amb - amt) (bmb - bmt) = 0 := fun h => by rw [none_left (by linarith) h (sa.pt_mt), corner_zero]
  have y0 : amb - amt < tol → corner (apt - amt) (bmt - bpt) (amb - amt) (bmb - bmt) = 0 := fun h => z0 (by linarith)
  have hN := overlapArea_eq ham hbm hap hbp
  rw [faceArea_eq]
  simp only [fractionalArea, hfa, hfb, basicFr, if_neg hFt, if_neg hFt']
  rw [guard (fun h => h.elim y0 z0)]
  congr 1
  rw [eq_div_iff hF2.ne']
  simp only [k0]
  first
  | linarith
  | (simp only [sub_mul, add_mul, one_mul, zero_mul, div_mul_cancel₀ _ hF2.ne', add_comm (bmb - bmt) (amb - amt), half_div hF]; linarith)

theorem exact_43 {amt amb apt apb bmt bmb bpt bpb tol : ℝ} (hyp : Ready amt amb apt apb bmt bmb bpt bpb tol)
    (hfa : pillarFlavour amt amb apt apb tol = 4) (hfb : pillarFlavour bmt bmb bpt bpb tol = 3) :
    fractionalArea amt amb apt apb bmt bmb bpt bpb tol = .ok (overlapArea amt amb apt apb bmt bmb bpt bpb / faceArea amt amb bmt bmb) := by
  obtain ⟨ht, ham, hbm, hap, hbp, sa, sb, hF, hst⟩ := hyp
  have fa := flavour_facts4 ht ham hap sa hfa
  have fb := flavour_facts3 ht hbm hbp sb hfb
  have hF2 : 0 < ((amb - amt) + (bmb - bmt)) / 2 := by linarith
  have hFt : ¬ (amb - amt) + (bmb - bmt) < tol := enough ht ham hbm sa sb hF
  have hFt' : ¬ (bmb - bmt) + (amb - amt) < tol := by rwa [add_comm]
  have p0 := part_pos (x := apb - amt) (y := bpb - bmt) (by linarith) (by linarith)
  have p1 := part_compl apb amb bpb bmb
  have p2 := part_compl apt amt bpt bmt
  have p3 := part_neg (x := apt - amb) (y := bpt - bmb) (by linarith) (by linarith)
  have k0 : corner (apt - amt) (bmt - bpt) (amb - amt) (bmb - bmt) = part (apt - amt) (bpt - bmt) / (((amb - amt) + (bmb - bmt)) / 2) := by
    exact corner_at_a (by linarith) (by linarith) hF
  have z0 : apt - amt < tol → corner (apt - amt) (bmt - bpt) (amb - amt) (bmb - bmt) = 0 := fun h => by rw [none_left (by linarith) h (sa.pt_mt), corner_zero]
  have y0 : amb - amt < tol → corner (apt - amt) (bmt - bpt) (amb - amt) (bmb - bmt) = 0 := fun h => z0 (by linarith)
  have k1 : corner (amb - apb) (bpb - bmb) (amb - amt) (bmb - bmt) = part (amb - apb) (bmb - bpb) / (((amb - amt) + (bmb - bmt)) / 2) := by
    exact corner_at_a (by linarith) (by linarith) hF
  have z1 : amb - apb < tol → corner (amb - apb) (bpb - bmb) (amb - amt) (bmb - bmt) = 0 := fun h => by rw [none_left (by linarith) h (sa.mb_pb), corner_zero]
  have y1 : amb - amt < tol → corner (amb - apb) (bpb - bmb) (amb - amt) (bmb - bmt) = 0 := fun h => z1 (by linarith)
  have hN := overlapArea_eq ham hbm hap hbp
  rw [faceArea_eq]
  simp only [fractionalArea, hfa, hfb]
  rw [guard z0, guard z1, guard1 (fun h => by rw [y0 h, y1 h, add_zero])]
  congr 1
  rw [eq_div_iff hF2.ne']
  simp only [k0, k1]
  first
  | linarith
  | (simp only [sub_mul, add_mul, one_mul, zero_mul, div_mul_cancel₀ _ hF2.ne', half_div hF]; linarith)

theorem exact_44 {amt amb apt apb bmt bmb bpt bpb tol : ℝ} (hyp : Ready amt amb apt apb bmt bmb bpt bpb tol)
    (hfa : pillarFlavour amt amb apt apb tol = 4) (hfb : pillarFlavour bmt bmb bpt bpb tol = 4) :
    fractionalArea amt amb apt apb bmt bmb bpt bpb tol = .ok (overlapArea amt amb apt apb bmt bmb bpt bpb / faceArea amt amb bmt bmb) := by
  obtain ⟨ht, ham, hbm, hap, hbp, sa, sb, hF, hst⟩ := hyp
  have fa := flavour_facts4 ht ham hap sa hfa
  have fb := flavour_facts4 ht hbm hbp sb hfb
  have hF2 : 0 < ((amb - amt) + (bmb - bmt)) / 2 := by linarith
  have hFt : ¬ (amb - amt) + (bmb - bmt) < tol := enough ht ham hbm sa sb hF
  have hFt' : ¬ (bmb - bmt) + (amb - amt) < tol := by rwa [add_comm]
  have p0 := part_pos (x := apb - amt) (y := bpb - bmt) (by linarith) (by linarith)
  have p1 := part_neg (x := apb - amb) (y := bpb - bmb) (by linarith) (by linarith)
  have p2 := part_pos (x := apt - amt) (y := bpt - bmt) (by linarith) (by linarith)
  have p3 := part_neg (x := apt - amb) (y := bpt - bmb) (by linarith) (by linarith)
  have hN := overlapArea_eq ham hbm hap hbp
  rw [faceArea_eq]
  simp only [fractionalArea, hfa, hfb, basicFr, if_neg hFt]
  congr 1
  rw [eq_div_iff hF2.ne']
  first
  | linarith
  | (simp only [sub_mul, add_mul, one_mul, zero_mul, div_mul_cancel₀ _ hF2.ne', half_div hF]; linarith)

theorem exact_45 {amt amb apt apb bmt bmb bpt bpb tol : ℝ} (hyp : Ready amt amb apt apb bmt bmb bpt bpb tol)
    (hfa : pillarFlavour amt amb apt apb tol = 4) (hfb : pillarFlavour bmt bmb bpt bpb tol = 5) :
    fractionalArea amt amb apt apb bmt bmb bpt bpb tol = .ok (overlapArea amt amb apt apb bmt bmb bpt bpb / faceArea amt amb bmt bmb) := by
  obtain ⟨ht, ham, hbm, hap, hbp, sa, sb, hF, hst⟩ := hyp
  have fa := flavour_facts4 ht ham hap sa hfa
  have fb := flavour_facts5 ht hbm hbp sb hfb
  have hF2 : 0 < ((amb - amt) + (bmb - bmt)) / 2 := by linarith
  have hFt : ¬ (amb - amt) + (bmb - bmt) < tol := enough ht ham hbm sa sb hF
  have hFt' : ¬ (bmb - bmt) + (amb - amt) < tol := by rwa [add_comm]
  have p0 := part_pos (x := apb - amt) (y := bpb - bmt) (by linarith) (by linarith)
  have p1 := part_compl apb amb bpb bmb
  have p2 := part_pos (x := apt - amt) (y := bpt - bmt) (by linarith) (by linarith)
  have p3 := part_neg (x := apt - amb) (y := bpt - bmb) (by linarith) (by linarith)
  have k0 : corner (amb - apb) (bpb - bmb) (amb - amt) (bmb - bmt) = part (amb - apb) (bmb - bpb) / (((amb - amt) + (bmb - bmt)) / 2) := by
    exact corner_at_a (by linarith) (by linarith) hF
  have z0 : amb - apb < tol → corner (amb - apb) (bpb - bmb) (amb - amt) (bmb - bmt) = 0 := fun h => by rw [none_left (by linarith) h (sa.mb_pb), corner_zero]
  have y0 : amb - amt < tol → corner (amb - apb) (bpb - bmb) (amb - amt) (bmb - bmt) = 0 := fun h => z0 (by linarith)
  have hN := overlapArea_eq ham hbm hap hbp
  rw [faceArea_eq]
  simp only [fractionalArea, hfa, hfb, basicFr, if_neg hFt, if_neg hFt']
  rw [guard (fun h => h.elim y0 z0)]
  congr 1
  rw [eq_div_iff hF2.ne']
  simp only [k0]
  first
  | linarith
  | (simp only [sub_mul, add_mul, one_mul, zero_mul, div_mul_cancel₀ _ hF2.ne', add_comm (bmb - bmt) (amb - amt), half_div hF]; linarith)

theorem exact_46 {amt amb apt apb bmt bmb bpt bpb tol : ℝ} (hyp : Ready amt amb apt apb bmt bmb bpt bpb tol)
    (hfa : pillarFlavour amt amb apt apb tol = 4) (hfb : pillarFlavour bmt bmb bpt bpb tol = 6) :
    fractionalArea amt amb apt apb bmt bmb bpt bpb tol = .ok (overlapArea amt amb apt apb bmt bmb bpt bpb / faceArea amt amb bmt bmb) := by
  obtain ⟨ht, ham, hbm, hap, hbp, sa, sb, hF, hst⟩ := hyp
  have fa := flavour_facts4 ht ham hap sa hfa
  have fb := flavour_facts6 ht hbm hbp sb hfb
  have hF2 : 0 < ((amb - amt) + (bmb - bmt)) / 2 := by linarith
  have hFt : ¬ (amb - amt) + (bmb - bmt) < tol := enough ht ham hbm sa sb hF
  have hFt' : ¬ (bmb - bmt) + (amb - amt) < tol := by rwa [add_comm]
  have p0 := part_pos (x := apb - amt) (y := bpb - bmt) (by linarith) (by linarith)
  have p1 := part_compl apb amb bpb bmb
  have p2 := part_pos (x := apt - amt) (y := bpt - bmt) (by linarith) (by linarith)
  have p3 := part_compl apt amb bpt bmb
  have k0 : corner (amb - apt) (bpt - bmb) (amb - amt) (bmb - bmt) = part (amb - apt) (bmb - bpt) / (((amb - amt) + (bmb - bmt)) / 2) := by
    exact corner_at_a (by linarith) (by linarith) hF
  have z0 : amb - apt < tol → corner (amb - apt) (bpt - bmb) (amb - amt) (bmb - bmt) = 0 := fun h => by rw [none_left (by linarith) h (sa.mb_pt), corner_zero]
  have y0 : amb - amt < tol → corner (amb - apt) (bpt - bmb) (amb - amt) (bmb - bmt) = 0 := fun h => z0 (by linarith)
  have k1 : corner (amb - apb) (bpb - bmb) (amb - amt) (bmb - bmt) = part (amb - apb) (bmb - bpb) / (((amb - amt) + (bmb - bmt)) / 2) := by
    exact corner_at_a (by linarith) (by linarith) hF
  have z1 : amb - apb < tol → corner (amb - apb) (bpb - bmb) (amb - amt) (bmb - bmt) = 0 := fun h => by rw [none_left (by linarith) h (sa.mb_pb), corner_zero]
  have y1 : amb - amt < tol → corner (amb - apb) (bpb - bmb) (amb - amt) (bmb - bmt) = 0 := fun h => z1 (by linarith)
  have hN := overlapArea_eq ham hbm hap hbp
  rw [faceArea_eq]
  simp only [fractionalArea, hfa, hfb]
  rw [guard z1, guard0 (fun h => by rw [h.elim y0 z0, sub_eq_zero]; exact (z1 (h.elim (fun h => by linarith) (fun h => by linarith))).symm)]
  congr 1
  rw [eq_div_iff hF2.ne']
  simp only [k0, k1]
  first
  | linarith
  | (simp only [sub_mul, add_mul, one_mul, zero_mul, div_mul_cancel₀ _ hF2.ne', half_div hF]; linarith)

theorem exact_51 {amt amb apt apb bmt bmb bpt bpb tol : ℝ} (hyp : Ready amt amb apt apb bmt bmb bpt bpb tol)
    (hfa : pillarFlavour amt amb apt apb tol = 5) (hfb : pillarFlavour bmt bmb bpt bpb tol = 1) :
    fractionalArea amt amb apt apb bmt bmb bpt bpb tol = .ok (overlapArea amt amb apt apb bmt bmb bpt bpb / faceArea amt amb bmt bmb) := by
  obtain ⟨ht, ham, hbm, hap, hbp, sa, sb, hF, hst⟩ := hyp
  have fa := flavour_facts5 ht ham hap sa hfa
  have fb := flavour_facts1 ht hbm hbp sb hfb
  have hF2 : 0 < ((amb - amt) + (bmb - bmt)) / 2 := by linarith
  have hFt : ¬ (amb - amt) + (bmb - bmt) < tol := enough ht ham hbm sa sb hF
  have hFt' : ¬ (bmb - bmt) + (amb - amt) < tol := by rwa [add_comm]
  have p0 := part_compl apb amt bpb bmt
  have p1 := part_compl apb amb bpb bmb
  have p2 := part_compl apt amt bpt bmt
  have p3 := part_neg (x := apt - amb) (y := bpt - bmb) (by linarith) (by linarith)
  have k0 : corner (apt - amt) (bmt - bpt) (amb - amt) (bmb - bmt) = part (apt - amt) (bpt - bmt) / (((amb - amt) + (bmb - bmt)) / 2) := by
    exact corner_at_a (by linarith) (by linarith) hF
  have z0 : apt - amt < tol → corner (apt - amt) (bmt - bpt) (amb - amt) (bmb - bmt) = 0 := fun h => by rw [none_left (by linarith) h (sa.pt_mt), corner_zero]
  have y0 : amb - amt < tol → corner (apt - amt) (bmt - bpt) (amb - amt) (bmb - bmt) = 0 := fun h => z0 (by linarith)
  have he : amb - amt = bmb - bmt := hst (by unfold Steep; exact Or.inr (Or.inr (Or.inr ⟨by linarith, by linarith⟩)))
  have het : tol < amb - amt := thick ht ham sa (by linarith)
  have b0 : band (apb - amb) (bmb - bpb) (bmt - bpb) (amb - amt) = (part (apb - amt) (bpb - bmt) - part (apb - amb) (bpb - bmb)) / (((amb - amt) + (bmb - bmt)) / 2) := by
    rw [band_eq (by linarith) (by linarith) (by linarith) (by linarith), neg_sub, neg_sub, show apb - amb + (amb - amt) = apb - amt by ring,
      show ((amb - amt) + (bmb - bmt)) / 2 = amb - amt by linarith]
  have q0 := part_compl apb amt bpb bmt
  have r0 := part_compl apb amb bpb bmb
  have hN := overlapArea_eq ham hbm hap hbp
  rw [faceArea_eq]
  simp only [fractionalArea, hfa, hfb]
  rw [guard (fun h => h.elim y0 z0), if_neg (by linarith : ¬ apb - amb + (amb - amt) ≤ tol), if_neg (by linarith : ¬ bmb - bpb + (bmt - bpb) ≤ tol)]
  congr 1
  rw [eq_div_iff hF2.ne']
  simp only [k0, b0]
  first
  | linarith
  | (simp only [sub_mul, add_mul, one_mul, zero_mul, div_mul_cancel₀ _ hF2.ne', half_div hF]; linarith)

theorem exact_52 {amt amb apt apb bmt bmb bpt bpb tol : ℝ} (hyp : Ready amt amb apt apb bmt bmb bpt bpb tol)
    (hfa : pillarFlavour amt amb apt apb tol = 5) (hfb : pillarFlavour bmt bmb bpt bpb tol = 2) :
    fractionalArea amt amb apt apb bmt bmb bpt bpb tol = .ok (overlapArea amt amb apt apb bmt bmb bpt bpb / faceArea amt amb bmt bmb) := by
  obtain ⟨ht, ham, hbm, hap, hbp, sa, sb, hF, hst⟩ := hyp
  have fa := flavour_facts5 ht ham hap sa hfa
  have fb := flavour_facts2 ht hbm hbp sb hfb
  have hF2 : 0 < ((amb - amt) + (bmb - bmt)) / 2 := by linarith
  have hFt : ¬ (amb - amt) + (bmb - bmt) < tol := enough ht ham hbm sa sb hF
  have hFt' : ¬ (bmb - bmt) + (amb - amt) < tol := by rwa [add_comm]
  have p0 := part_pos (x := apb - amt) (y := bpb - bmt) (by linarith) (by linarith)
  have p1 := part_compl apb amb bpb bmb
  have p2 := part_compl apt amt bpt bmt
  have p3 := part_neg (x := apt - amb) (y := bpt - bmb) (by linarith) (by linarith)
  have k0 : corner (apt - amt) (bmt - bpt) (amb - amt) (bmb - bmt) = part (apt - amt) (bpt - bmt) / (((amb - amt) + (bmb - bmt)) / 2) := by
    exact corner_at_a (by linarith) (by linarith) hF
  have z0 : apt - amt < tol → corner (apt - amt) (bmt - bpt) (amb - amt) (bmb - bmt) = 0 := fun h => by rw [none_left (by linarith) h (sa.pt_mt), corner_zero]
  have y0 : amb - amt < tol → corner (apt - amt) (bmt - bpt) (amb - amt) (bmb - bmt) = 0 := fun h => z0 (by linarith)
  have k1 : corner (bmb - bpb) (apb - amb) (amb - amt) (bmb - bmt) = part (amb - apb) (bmb - bpb) / (((amb - amt) + (bmb - bmt)) / 2) := by
    exact corner_at_b (by linarith) (by linarith) hF
  have z1 : bmb - bpb < tol → corner (bmb - bpb) (apb - amb) (amb - amt) (bmb - bmt) = 0 := fun h => by rw [none_left (by linarith) h (sb.mb_pb), corner_zero]
  have y1 : bmb - bmt < tol → corner (bmb - bpb) (apb - amb) (amb - amt) (bmb - bmt) = 0 := fun h => z1 (by linarith)
  have hN := overlapArea_eq ham hbm hap hbp
  rw [faceArea_eq]
  simp only [fractionalArea, hfa, hfb]
  rw [guard (fun h => h.elim y0 z0), guard (fun h => h.elim y1 z1)]
  congr 1
  rw [eq_div_iff hF2.ne']
  simp only [k0, k1]
  first
  | linarith
  | (simp only [sub_mul, add_mul, one_mul, zero_mul, div_mul_cancel₀ _ hF2.ne', half_div hF]; linarith)

theorem exact_53 {amt amb apt apb bmt bmb bpt bpb tol : ℝ} (hyp : Ready amt amb apt apb bmt bmb bpt bpb tol)
    (hfa : pillarFlavour amt amb apt apb tol = 5) (hfb : pillarFlavour bmt bmb bpt bpb tol = 3) :
    fractionalArea amt amb apt apb bmt bmb bpt bpb tol = .ok (overlapArea amt amb apt apb bmt bmb bpt bpb / faceArea amt amb bmt bmb) := by
  obtain ⟨ht, ham, hbm, hap, hbp, sa, sb, hF, hst⟩ := hyp
  have fa := flavour_facts5 ht ham hap sa hfa
  have fb := flavour_facts3 ht hbm hbp sb hfb
  have hF2 : 0 < ((amb - amt) + (bmb - bmt)) / 2 := by linarith
  have hFt : ¬ (amb - amt) + (bmb - bmt) < tol := enough ht ham hbm sa sb hF
  have hFt' : ¬ (bmb - bmt) + (amb - amt) < tol := by rwa [add_comm]
  have p0 := part_pos (x := apb - amt) (y := bpb - bmt) (by linarith) (by linarith)
  have p1 := part_pos (x := apb - amb) (y := bpb - bmb) (by linarith) (by linarith)
  have p2 := part_compl apt amt bpt bmt
  have p3 := part_neg (x := apt - amb) (y := bpt - bmb) (by linarith) (by linarith)
  have k0 : corner (apt - amt) (bmt - bpt) (amb - amt) (bmb - bmt) = part (apt - amt) (bpt - bmt) / (((amb - amt) + (bmb - bmt)) / 2) := by
    exact corner_at_a (by linarith) (by linarith) hF
  have z0 : apt - amt < tol → corner (apt - amt) (bmt - bpt) (amb - amt) (bmb - bmt) = 0 := fun h => by rw [none_left (by linarith) h (sa.pt_mt), corner_zero]
  have y0 : amb - amt < tol → corner (apt - amt) (bmt - bpt) (amb - amt) (bmb - bmt) = 0 := fun h => z0 (by linarith)
  have hN := overlapArea_eq ham hbm hap hbp
  rw [faceArea_eq]
  simp only [fractionalArea, hfa, hfb]
  rw [guard1 (fun h => h.elim y0 z0)]
  congr 1
  rw [eq_div_iff hF2.ne']
  simp only [k0]
  first
  | linarith
  | (simp only [sub_mul, add_mul, one_mul, zero_mul, div_mul_cancel₀ _ hF2.ne', half_div hF]; linarith)

theorem exact_54 {amt amb apt apb bmt bmb bpt bpb tol : ℝ} (hyp : Ready amt amb apt apb bmt bmb bpt bpb tol)
    (hfa : pillarFlavour amt amb apt apb tol = 5) (hfb : pillarFlavour bmt bmb bpt bpb tol = 4) :
    fractionalArea amt amb apt apb bmt bmb bpt bpb tol = .ok (overlapArea amt amb apt apb bmt bmb bpt bpb / faceArea amt amb bmt bmb) := by
  obtain ⟨ht, ham, hbm, hap, hbp, sa, sb, hF, hst⟩ := hyp
  have fa := flavour_facts5 ht ham hap sa hfa
  have fb := flavour_facts4 ht hbm hbp sb hfb
  have hF2 : 0 < ((amb - amt) + (bmb - bmt)) / 2 := by linarith
  have hFt : ¬ (amb - amt) + (bmb - bmt) < tol := enough ht ham hbm sa sb hF
  have hFt' : ¬ (bmb - bmt) + (amb - amt) < tol := by rwa [add_comm]
  have p0 := part_pos (x := apb - amt) (y := bpb - bmt) (by linarith) (by linarith)
  have p1 := part_compl apb amb bpb bmb
  have p2 := part_pos (x := apt - amt) (y := bpt - bmt) (by linarith) (by linarith)
  have p3 := part_neg (x := apt - amb) (y := bpt - bmb) (by linarith) (by linarith)
  have k0 : corner (bmb - bpb) (apb - amb) (amb - amt) (bmb - bmt) = part (amb - apb) (bmb - bpb) / (((amb - amt) + (bmb - bmt)) / 2) := by
    exact corner_at_b (by linarith) (by linarith) hF
  have z0 : bmb - bpb < tol → corner (bmb - bpb) (apb - amb) (amb - amt) (bmb - bmt) = 0 := fun h => by rw [none_left (by linarith) h (sb.mb_pb), corner_zero]
  have y0 : bmb - bmt < tol → corner (bmb - bpb) (apb - amb) (amb - amt) (bmb - bmt) = 0 := fun h => z0 (by linarith)
  have hN := overlapArea_eq ham hbm hap hbp
  rw [faceArea_eq]
  simp only [fractionalArea, hfa, hfb, basicFr, if_neg hFt]
  rw [guard (fun h => h.elim y0 z0)]
  congr 1
  rw [eq_div_iff hF2.ne']
  simp only [k0]
  first
  | linarith
  | (simp only [sub_mul, add_mul, one_mul, zero_mul, div_mul_cancel₀ _ hF2.ne', half_div hF]; linarith)

theorem exact_55 {amt amb apt apb bmt bmb bpt bpb tol : ℝ} (hyp : Ready amt amb apt apb bmt bmb bpt bpb tol)
    (hfa : pillarFlavour amt amb apt apb tol = 5) (hfb : pillarFlavour bmt bmb bpt bpb tol = 5) :
    fractionalArea amt amb apt apb bmt bmb bpt bpb tol = .ok (overlapArea amt amb apt apb bmt bmb bpt bpb / faceArea amt amb bmt bmb) := by
  obtain ⟨ht, ham, hbm, hap, hbp, sa, sb, hF, hst⟩ := hyp
  have fa := flavour_facts5 ht ham hap sa hfa
  have fb := flavour_facts5 ht hbm hbp sb hfb
  have hF2 : 0 < ((amb - amt) + (bmb - bmt)) / 2 := by linarith
  have hFt : ¬ (amb - amt) + (bmb - bmt) < tol := enough ht ham hbm sa sb hF
  have hFt' : ¬ (bmb - bmt) + (amb - amt) < tol := by rwa [add_comm]
  have p0 := part_pos (x := apb - amt) (y := bpb - bmt) (by linarith) (by linarith)
  have p1 := part_pos (x := apb - amb) (y := bpb - bmb) (by linarith) (by linarith)
  have p2 := part_pos (x := apt - amt) (y := bpt - bmt) (by linarith) (by linarith)
  have p3 := part_neg (x := apt - amb) (y := bpt - bmb) (by linarith) (by linarith)
  have hN := overlapArea_eq ham hbm hap hbp
  rw [faceArea_eq]
  simp only [fractionalArea, hfa, hfb, basicFr, if_neg hFt]
  congr 1
  rw [eq_div_iff hF2.ne']
  first
  | linarith
  | (simp only [sub_mul, add_mul, one_mul, zero_mul, div_mul_cancel₀ _ hF2.ne', half_div hF]; linarith)

theorem exact_56 {amt amb apt apb bmt bmb bpt bpb tol : ℝ} (hyp : Ready amt amb apt apb bmt bmb bpt bpb tol)
    (hfa : pillarFlavour amt amb apt apb tol = 5) (hfb : pillarFlavour bmt bmb bpt bpb tol = 6) :
    fractionalArea amt amb apt apb bmt bmb bpt bpb tol = .ok (overlapArea amt amb apt apb bmt bmb bpt bpb / faceArea amt amb bmt bmb) := by
  obtain ⟨ht, ham, hbm, hap, hbp, sa, sb, hF, hst⟩ := hyp
  have fa := flavour_facts5 ht ham hap sa hfa
  have fb := flavour_facts6 ht hbm hbp sb hfb
  have hF2 : 0 < ((amb - amt) + (bmb - bmt)) / 2 := by linarith
  have hFt : ¬ (amb - amt) + (bmb - bmt) < tol := enough ht ham hbm sa sb hF
  have hFt' : ¬ (bmb - bmt) + (amb - amt) < tol := by rwa [add_comm]
  have p0 := part_pos (x := apb - amt) (y := bpb - bmt) (by linarith) (by linarith)
  have p1 := part_pos (x := apb - amb) (y := bpb - bmb) (by linarith) (by linarith)
  have p2 := part_pos (x := apt - amt) (y := bpt - bmt) (by linarith) (by linarith)
  have p3 := part_compl apt amb bpt bmb
  have k0 : corner (amb - apt) (bpt - bmb) (amb - amt) (bmb - bmt) = part (amb - apt) (bmb - bpt) / (((amb - amt) + (bmb - bmt)) / 2) := by
    exact corner_at_a (by linarith) (by linarith) hF
  have z0 : amb - apt < tol → corner (amb - apt) (bpt - bmb) (amb - amt) (bmb - bmt) = 0 := fun h => by rw [none_left (by linarith) h (sa.mb_pt), corner_zero]
  have y0 : amb - amt < tol → corner (amb - apt) (bpt - bmb) (amb - amt) (bmb - bmt) = 0 := fun h => z0 (by linarith)
  have hN := overlapArea_eq ham hbm hap hbp
  rw [faceArea_eq]
  simp only [fractionalArea, hfa, hfb]
  rw [guard0 (fun h => h.elim y0 z0)]
  congr 1
  rw [eq_div_iff hF2.ne']
  simp only [k0]
  first
  | linarith
  | (simp only [sub_mul, add_mul, one_mul, zero_mul, div_mul_cancel₀ _ hF2.ne', half_div hF]; linarith)

theorem exact_61 {amt amb apt apb bmt bmb bpt bpb tol : ℝ} (hyp : Ready amt amb apt apb bmt bmb bpt bpb tol)
    (hfa : pillarFlavour amt amb apt apb tol = 6) (hfb : pillarFlavour bmt bmb bpt bpb tol = 1) :
    fractionalArea amt amb apt apb bmt bmb bpt bpb tol = .ok (overlapArea amt amb apt apb bmt bmb bpt bpb / faceArea amt amb bmt bmb) := by
  obtain ⟨ht, ham, hbm, hap, hbp, sa, sb, hF, hst⟩ := hyp
  have fa := flavour_facts6 ht ham hap sa hfa
  have fb := flavour_facts1 ht hbm hbp sb hfb
  have hF2 : 0 < ((amb - amt) + (bmb - bmt)) / 2 := by linarith
  have hFt : ¬ (amb - amt) + (bmb - bmt) < tol := enough ht ham hbm sa sb hF
  have hFt' : ¬ (bmb - bmt) + (amb - amt) < tol := by rwa [add_comm]
  have p0 := part_compl apb amt bpb bmt
  have p1 := part_compl apb amb bpb bmb
  have p2 := part_compl apt amt bpt bmt
  have p3 := part_compl apt amb bpt bmb
  have he : amb - amt = bmb - bmt := hst (by unfold Steep; exact Or.inr (Or.inl ⟨by linarith, by linarith⟩))
  have het : tol < amb - amt := thick ht ham sa (by linarith)
  have b0 : band (apt - amb) (bmb - bpt) (bmt - bpt) (amb - amt) = (part (apt - amt) (bpt - bmt) - part (apt - amb) (bpt - bmb)) / (((amb - amt) + (bmb - bmt)) / 2) := by
    rw [band_eq (by linarith) (by linarith) (by linarith) (by linarith), neg_sub, neg_sub, show apt - amb + (amb - amt) = apt - amt by ring,
      show ((amb - amt) + (bmb - bmt)) / 2 = amb - amt by linarith]
  have q0 := part_compl apt amt bpt bmt
  have r0 := part_compl apt amb bpt bmb
  have b1 : band (bmt - bpb) (apb - amt) (apb - amb) (bmb - bmt) = (part (amb - apb) (bmb - bpb) - part (amt - apb) (bmt - bpb)) / (((amb - amt) + (bmb - bmt)) / 2) := by
    rw [band_eq (by linarith) (by linarith) (by linarith) (by linarith), neg_sub, neg_sub, show bmt - bpb + (bmb - bmt) = bmb - bpb by ring,
      show ((amb - amt) + (bmb - bmt)) / 2 = bmb - bmt by linarith]
    rw [part_swap (bmb - bpb), part_swap (bmt - bpb)]
  have q1 := part_compl amb apb bmb bpb
  have r1 := part_compl amt apb bmt bpb
  have hN := overlapArea_eq ham hbm hap hbp
  have hnn := div_nonneg (overlapArea_nonneg amt amb apt apb bmt bmb bpt bpb) hF2.le
  rw [faceArea_eq]
  simp only [fractionalArea, hfa, hfb]
  rw [if_neg (by linarith : ¬ apt - amb + (amb - amt) ≤ tol), if_pos (by linarith : bmb - bpt + (bmt - bpt) > tol), if_neg (by linarith : ¬ bmt - bpb + (bmb - bmt) ≤ tol), if_pos (by linarith : apb - amt + (apb - amb) > tol)]
  have hv : 1 - ((band (apt - amb) (bmb - bpt) (bmt - bpt) (amb - amt)) + (band (bmt - bpb) (apb - amt) (apb - amb) (bmb - bmt))) = overlapArea amt amb apt apb bmt bmb bpt bpb / (((amb - amt) + (bmb - bmt)) / 2) := by
    rw [b0, b1, eq_div_iff hF2.ne']
    simp only [sub_mul, add_mul, one_mul, div_mul_cancel₀ _ hF2.ne']
    linarith
  rw [hv, max_eq_left hnn]

theorem exact_62 {amt amb apt apb bmt bmb bpt bpb tol : ℝ} (hyp : Ready amt amb apt apb bmt bmb bpt bpb tol)
    (hfa : pillarFlavour amt amb apt apb tol = 6) (hfb : pillarFlavour bmt bmb bpt bpb tol = 2) :
    fractionalArea amt amb apt apb bmt bmb bpt bpb tol = .ok (overlapArea amt amb apt apb bmt bmb bpt bpb / faceArea amt amb bmt bmb) := by
  obtain ⟨ht, ham, hbm, hap, hbp, sa, sb, hF, hst⟩ := hyp
  have fa := flavour_facts6 ht ham hap sa hfa
  have fb := flavour_facts2 ht hbm hbp sb hfb
  have hF2 : 0 < ((amb - amt) + (bmb - bmt)) / 2 := by linarith
  have hFt : ¬ (amb - amt) + (bmb - bmt) < tol := enough ht ham hbm sa sb hF
  have hFt' : ¬ (bmb - bmt) + (amb - amt) < tol := by rwa [add_comm]
  have p0 := part_pos (x := apb - amt) (y := bpb - bmt) (by linarith) (by linarith)
  have p1 := part_compl apb amb bpb bmb
  have p2 := part_compl apt amt bpt bmt
  have p3 := part_compl apt amb bpt bmb
  have k0 : corner (bmb - bpb) (apb - amb) (amb - amt) (bmb - bmt) = part (amb - apb) (bmb - bpb) / (((amb - amt) + (bmb - bmt)) / 2) := by
    exact corner_at_b (by linarith) (by linarith) hF
  have z0 : bmb - bpb < tol → corner (bmb - bpb) (apb - amb) (amb - amt) (bmb - bmt) = 0 := fun h => by rw [none_left (by linarith) h (sb.mb_pb), corner_zero]
  have y0 : bmb - bmt < tol → corner (bmb - bpb) (apb - amb) (amb - amt) (bmb - bmt) = 0 := fun h => z0 (by linarith)
  have he : amb - amt = bmb - bmt := hst (by unfold Steep; exact Or.inr (Or.inl ⟨by linarith, by linarith⟩))
  have het : tol < amb - amt := thick ht ham sa (by linarith)
  have b0 : band (bmt - bpt) (apt - amt) (apt - amb) (bmb - bmt) = (part (amb - apt) (bmb - bpt) - part (amt - apt) (bmt - bpt)) / (((amb - amt) + (bmb - bmt)) / 2) := by
    rw [band_eq (by linarith) (by linarith) (by linarith) (by linarith), neg_sub, neg_sub, show bmt - bpt + (bmb - bmt) = bmb - bpt by ring,
      show ((amb - amt) + (bmb - bmt)) / 2 = bmb - bmt by linarith]
    rw [part_swap (bmb - bpt), part_swap (bmt - bpt)]
  have q0 := part_compl amb apt bmb bpt
  have r0 := part_compl amt apt bmt bpt
  have hN := overlapArea_eq ham hbm hap hbp
  rw [faceArea_eq]
  simp only [fractionalArea, hfa, hfb]
  rw [guard (fun h => h.elim y0 z0), if_neg (by linarith : ¬ bmt - bpt + (bmb - bmt) ≤ tol), if_neg (by linarith : ¬ apt - amt + (apt - amb) ≤ tol)]
  congr 1
  rw [eq_div_iff hF2.ne']
  simp only [k0, b0]
  first
  | linarith
  | (simp only [sub_mul, add_mul, one_mul, zero_mul, div_mul_cancel₀ _ hF2.ne', half_div hF]; linarith)

theorem exact_63 {amt amb apt apb bmt bmb bpt bpb tol : ℝ} (hyp : Ready amt amb apt apb bmt bmb bpt bpb tol)
    (hfa : pillarFlavour amt amb apt apb tol = 6) (hfb : pillarFlavour bmt bmb bpt bpb tol = 3) :
    fractionalArea amt amb apt apb bmt bmb bpt bpb tol = .ok (overlapArea amt amb apt apb bmt bmb bpt bpb / faceArea amt amb bmt bmb) := by
  obtain ⟨ht, ham, hbm, hap, hbp, sa, sb, hF, hst⟩ := hyp
  have fa := flavour_facts6 ht ham hap sa hfa
  have fb := flavour_facts3 ht hbm hbp sb hfb
  have hF2 : 0 < ((amb - amt) + (bmb - bmt)) / 2 := by linarith
  have hFt : ¬ (amb - amt) + (bmb - bmt) < tol := enough ht ham hbm sa sb hF
  have hFt' : ¬ (bmb - bmt) + (amb - amt) < tol := by rwa [add_comm]
  have p0 := part_pos (x := apb - amt) (y := bpb - bmt) (by linarith) (by linarith)
  have p1 := part_pos (x := apb - amb) (y := bpb - bmb) (by linarith) (by linarith)
  have p2 := part_compl apt amt bpt bmt
  have p3 := part_compl apt amb bpt bmb
  have he : amb - amt = bmb - bmt := hst (by unfold Steep; exact Or.inr (Or.inl ⟨by linarith, by linarith⟩))
  have het : tol < amb - amt := thick ht ham sa (by linarith)
  have b0 : band (apt - amb) (bmb - bpt) (bmt - bpt) (amb - amt) = (part (apt - amt) (bpt - bmt) - part (apt - amb) (bpt - bmb)) / (((amb - amt) + (bmb - bmt)) / 2) := by
    rw [band_eq (by linarith) (by linarith) (by linarith) (by linarith), neg_sub, neg_sub, show apt - amb + (amb - amt) = apt - amt by ring,
      show ((amb - amt) + (bmb - bmt)) / 2 = amb - amt by linarith]
  have q0 := part_compl apt amt bpt bmt
  have r0 := part_compl apt amb bpt bmb
  have hN := overlapArea_eq ham hbm hap hbp
  rw [faceArea_eq]
  simp only [fractionalArea, hfa, hfb]
  rw [if_neg (by linarith : ¬ apt - amb + (amb - amt) ≤ tol), if_neg (by linarith : ¬ bmb - bpt + (bmt - bpt) ≤ tol)]
  congr 1
  rw [eq_div_iff hF2.ne']
  simp only [b0]
  first
  | linarith
  | (simp only [sub_mul, add_mul, one_mul, zero_mul, div_mul_cancel₀ _ hF2.ne', half_div hF]; linarith)

theorem exact_64 {amt amb apt apb bmt bmb bpt bpb tol : ℝ} (hyp : Ready amt amb apt apb bmt bmb bpt bpb tol)
    (hfa : pillarFlavour amt amb apt apb tol = 6) (hfb : pillarFlavour bmt bmb bpt bpb tol = 4) :
    fractionalArea amt amb apt apb bmt bmb bpt bpb tol = .ok (overlapArea amt amb apt apb bmt bmb bpt bpb / faceArea amt amb bmt bmb) := by
  obtain ⟨ht, ham, hbm, hap, hbp, sa, sb, hF, hst⟩ := hyp
  have fa := flavour_facts6 ht ham hap sa hfa
  have fb := flavour_facts4 ht hbm hbp sb hfb
  have hF2 : 0 < ((amb - amt) + (bmb - bmt)) / 2 := by linarith
  have hFt : ¬ (amb - amt) + (bmb - bmt) < tol := enough ht ham hbm sa sb hF
  have hFt' : ¬ (bmb - bmt) + (amb - amt) < tol := by rwa [add_comm]
  have p0 := part_pos (x := apb - amt) (y := bpb - bmt) (by linarith) (by linarith)
  have p1 := part_compl apb amb bpb bmb
  have p2 := part_pos (x := apt - amt) (y := bpt - bmt) (by linarith) (by linarith)
  have p3 := part_compl apt amb bpt bmb
  have k0 : corner (bmb - bpt) (apt - amb) (amb - amt) (bmb - bmt) = part (amb - apt) (bmb - bpt) / (((amb - amt) + (bmb - bmt)) / 2) := by
    exact corner_at_b (by linarith) (by linarith) hF
  have z0 : bmb - bpt < tol → corner (bmb - bpt) (apt - amb) (amb - amt) (bmb - bmt) = 0 := fun h => by rw [none_left (by linarith) h (sb.mb_pt), corner_zero]
  have y0 : bmb - bmt < tol → corner (bmb - bpt) (apt - amb) (amb - amt) (bmb - bmt) = 0 := fun h => z0 (by linarith)
  have k1 : corner (bmb - bpb) (apb - amb) (amb - amt) (bmb - bmt) = part (amb - apb) (bmb - bpb) / (((amb - amt) + (bmb - bmt)) / 2) := by
    exact corner_at_b (by linarith) (by linarith) hF
  have z1 : bmb - bpb < tol → corner (bmb - bpb) (apb - amb) (amb - amt) (bmb - bmt) = 0 := fun h => by rw [none_left (by linarith) h (sb.mb_pb), corner_zero]
  have y1 : bmb - bmt < tol → corner (bmb - bpb) (apb - amb) (amb - amt) (bmb - bmt) = 0 := fun h => z1 (by linarith)
  have hN := overlapArea_eq ham hbm hap hbp
  rw [faceArea_eq]
  simp only [fractionalArea, hfa, hfb]
  rw [guard z1, guard0 (fun h => by rw [h.elim y0 z0, sub_eq_zero]; exact (z1 (h.elim (fun h => by linarith) (fun h => by linarith))).symm)]
  congr 1
  rw [eq_div_iff hF2.ne']
  simp only [k0, k1]
  first
  | linarith
  | (simp only [sub_mul, add_mul, one_mul, zero_mul, div_mul_cancel₀ _ hF2.ne', half_div hF]; linarith)

theorem exact_65 {amt amb apt apb bmt bmb bpt bpb tol : ℝ} (hyp : Ready amt amb apt apb bmt bmb bpt bpb tol)
    (hfa : pillarFlavour amt amb apt apb tol = 6) (hfb : pillarFlavour bmt bmb bpt bpb tol = 5) :
    fractionalArea amt amb apt apb bmt bmb bpt bpb tol = .ok (overlapArea amt amb apt apb bmt bmb bpt bpb / faceArea amt amb bmt bmb) := by
  obtain ⟨ht, ham, hbm, hap, hbp, sa, sb, hF, hst⟩ := hyp
  have fa := flavour_facts6 ht ham hap sa hfa
  have fb := flavour_facts5 ht hbm hbp sb hfb
  have hF2 : 0 < ((amb - amt) + (bmb - bmt)) / 2 := by linarith
  have hFt : ¬ (amb - amt) + (bmb - bmt) < tol := enough ht ham hbm sa sb hF
  have hFt' : ¬ (bmb - bmt) + (amb - amt) < tol := by rwa [add_comm]
  have p0 := part_pos (x := apb - amt) (y := bpb - bmt) (by linarith) (by linarith)
  have p1 := part_pos (x := apb - amb) (y := bpb - bmb) (by linarith) (by linarith)
  have p2 := part_pos (x := apt - amt) (y := bpt - bmt) (by linarith) (by linarith)
  have p3 := part_compl apt amb bpt bmb
  have k0 : corner (bmb - bpt) (apt - amb) (amb - amt) (bmb - bmt) = part (amb - apt) (bmb - bpt) / (((amb - amt) + (bmb - bmt)) / 2) := by
    exact corner_at_b (by linarith) (by linarith) hF
  have z0 : bmb - bpt < tol → corner (bmb - bpt) (apt - amb) (amb - amt) (bmb - bmt) = 0 := fun h => by rw [none_left (by linarith) h (sb.mb_pt), corner_zero]
  have y0 : bmb - bmt < tol → corner (bmb - bpt) (apt - amb) (amb - amt) (bmb - bmt) = 0 := fun h => z0 (by linarith)
  have hN := overlapArea_eq ham hbm hap hbp
  rw [faceArea_eq]
  simp only [fractionalArea, hfa, hfb]
  rw [guard0 (fun h => h.elim y0 z0)]
  congr 1
  rw [eq_div_iff hF2.ne']
  simp only [k0]
  first
  | linarith
  | (simp only [sub_mul, add_mul, one_mul, zero_mul, div_mul_cancel₀ _ hF2.ne', half_div hF]; linarith)

end Verif.Transmit
