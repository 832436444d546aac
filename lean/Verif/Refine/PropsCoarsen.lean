import Verif.Refine.Coarsen
import Verif.Refine.Props
import Verif.FineCoarse.Props
import Verif.Pillars.Lemmas
import Mathlib.Tactic.Ring

/-! # C79: the geometry of a coarsened grid -/

namespace Verif.Refine
open Verif.Py Verif.FineCoarse Verif.Box

variable {V : Type} [AddCommGroup V] [Module ℚ V]

theorem kIndices_ok (rs : List Int) : ∀ k, kIndices rs rs.length k = .ok ((List.range (rs.length + 1)).map fun c => k + (rs.take c).sum) := by
  induction rs with
  | nil => intro k; simp [kIndices]
  | cons r rs ih =>
    intro k
    rw [List.length_cons, kIndices, ih]
    dsimp only
    rw [List.range_succ_eq_map (n := rs.length + 1), List.map_cons, List.map_map]
    congr 2
    · simp
    · refine List.map_congr_left fun c _ => ?_
      simp only [Function.comp, Nat.succ_eq_add_one, List.take_succ_cons, List.sum_cons]
      omega

theorem kRows_ok (a : Axis) (nk srcNk : Nat) (hn : a.coarse = nk) (hf : a.fine = srcNk) (hpos : 0 < a.fine) (hv : a.ratiosValid = true)
    (r : List Int) (h : AxisOk a r) : kRows a nk srcNk = .ok ((List.range (nk + 1)).map fun c => (r.take c).sum) := by
  have hlen : r.length = nk := by have := h.len; omega
  unfold kRows
  unfold Axis.ratiosValid at hv
  cases hc : a.const with
  | none =>
    rw [hc] at hv
    cases hvec : a.vec with
    | none => rw [hvec] at hv; simp at hv
    | some v =>
      rw [hvec] at hv
      simp only [Bool.and_eq_true, beq_iff_eq] at hv
      have hvlen : v.length = nk := by have := hv.1.1; omega
      have hvr : v = r := by
        refine List.ext_getElem (by omega) fun c h1 h2 => ?_
        have h3 := h.ratio c h2
        simp only [Axis.ratio, hc, hvec] at h3
        rw [pyGet_nat v c h1] at h3
        exact Except.ok.inj h3
      dsimp only
      have := kIndices_ok v 0
      rw [hvlen] at this
      rw [this]
      dsimp only
      rw [if_pos, hvr]
      · simp
      · rw [List.range_succ, List.map_append, List.map_singleton, List.getLast?_append, List.getLast?_singleton]
        simp only [Option.some_or]
        rw [List.take_of_length_le (by omega), hv.2, hf]
        simp
  | some q =>
    rw [hc] at hv
    simp only [Bool.and_eq_true, beq_iff_eq, decide_eq_true_eq] at hv
    obtain ⟨m, rfl⟩ : ∃ m : Nat, q = Int.ofNat (m + 1) := ⟨q.toNat - 1, by simp; omega⟩
    have hr : r = List.replicate nk (Int.ofNat (m + 1)) := by
      refine List.eq_replicate_iff.2 ⟨hlen, fun x hx => ?_⟩
      obtain ⟨c, h1, rfl⟩ := List.getElem_of_mem hx
      have h3 := h.ratio c h1
      simp only [Axis.ratio, hc] at h3
      exact (Except.ok.inj h3).symm
    have hmul : nk * (m + 1) = srcNk := by
      have h2 := hv.2
      rw [hn, hf] at h2
      have h2 : ((nk : Int) * ((m + 1 : Nat) : Int)) = srcNk := h2
      exact_mod_cast h2
    have hdiv : srcNk / (m + 1) = nk := by rw [← hmul]; exact Nat.mul_div_cancel _ (Nat.succ_pos m)
    dsimp only
    rw [hdiv, if_pos (by simp)]
    congr 1
    refine List.map_congr_left fun c hcm => ?_
    have : c ≤ nk := by have := List.mem_range.1 hcm; omega
    rw [hr, List.take_replicate, Nat.min_eq_left this, FineCoarse.sum_replicate]
    rfl

theorem pillar_ok (s : FC) (r : Fin 3 → List Int) (h : ∀ a, AxisOk (s.ax a) (r a)) (pj pi : Nat) (hj : pj ≤ (r 1).length)
    (hi : pi ≤ (r 2).length) : s.finePillar ((pj * ((s.ax 2).coarse.toNat + 1) + pi : Nat) : Int) =
      .ok (((r 1).take pj).sum * ((s.ax 2).fine + 1) + ((r 2).take pi).sum) := by
  have hc : (s.ax 2).coarse = (r 2).length := (h 2).len.symm
  unfold FC.finePillar
  rw [if_neg (by omega), hc]
  have e1 : Int.fdiv ((pj * (((r 2).length : Int).toNat + 1) + pi : Nat) : Int) ((r 2).length + 1) = pj := by
    rw [Int.fdiv_eq_ediv_of_nonneg _ (by omega)]
    simp only [Int.toNat_natCast]
    have := (Verif.Pillars.div_mod_of (n := (r 2).length + 1) (a := pi) (b := pj) (by omega)).1
    exact_mod_cast this
  have e2 : Int.fmod ((pj * (((r 2).length : Int).toNat + 1) + pi : Nat) : Int) ((r 2).length + 1) = pi := by
    rw [Int.fmod_eq_emod_of_nonneg _ (by omega)]
    simp only [Int.toNat_natCast]
    have := (Verif.Pillars.div_mod_of (n := (r 2).length + 1) (a := pi) (b := pj) (by omega)).2
    exact_mod_cast this
  rw [e1, e2, (h 1).scale pj hj, (h 2).scale pi hi]
  rfl

theorem take_nonneg (r : List Int) (hp : ∀ x ∈ r, 0 < x) (c : Nat) : 0 ≤ (r.take c).sum := by
  have := sum_take_mono r hp 0 c (Nat.zero_le _)
  simpa using this

/-- the points of a coarsened grid -/
theorem coarsen_ok (src : Grid V) (s : FC) (hext : (s.ax 0).fine = src.nk ∧ (s.ax 1).fine = src.nj ∧ (s.ax 2).fine = src.ni)
    (hv : s.valid = true) (hg : src.hasGaps = false) (r : Fin 3 → List Int) (h : ∀ a, AxisOk (s.ax a) (r a)) :
    ∃ g, coarsen false src s = .ok g ∧ g.nk = (r 0).length ∧ g.nj = (r 1).length ∧ g.ni = (r 2).length ∧ g.hasGaps = false ∧
      ∀ k j i, k ≤ (r 0).length → j ≤ (r 1).length → i ≤ (r 2).length →
        g.pts k j i = src.pts ((r 0).take k).sum.toNat ((r 1).take j).sum.toNat ((r 2).take i).sum.toNat := by
  have hc : ∀ a, (s.ax a).coarse.toNat = (r a).length := fun a => by have := (h a).len; omega
  have hrows := kRows_ok (s.ax 0) (s.ax 0).coarse.toNat src.nk (by have := (h 0).len; omega) hext.1 (valid_axes s hv 0).1
    (valid_axes s hv 0).2.2.1 (r 0) (h 0)
  refine ⟨{ nk := (s.ax 0).coarse.toNat, nj := (s.ax 1).coarse.toNat, ni := (s.ax 2).coarse.toNat, kGaps := none
            after := fun _ => false, raw := fun k => k
            pts := fun k j i => match ((List.range ((s.ax 0).coarse.toNat + 1)).map fun c => ((r 0).take c).sum)[k]?,
                s.finePillar ((j * ((s.ax 2).coarse.toNat + 1) + i : Nat) : Int) with
              | some kf, .ok fp => src.pts kf.toNat (fp.toNat / (src.ni + 1)) (fp.toNat % (src.ni + 1))
              | _, _ => 0 }, ?_, ?_, ?_, ?_, ?_, ?_⟩
  rotate_left
  · exact hc 0
  · exact hc 1
  · exact hc 2
  · rfl
  · intro k j i hk hj hi
    have hp := pillar_ok s r h j i hj hi
    show (match ((List.range ((s.ax 0).coarse.toNat + 1)).map fun c => ((r 0).take c).sum)[k]?,
      s.finePillar ((j * ((s.ax 2).coarse.toNat + 1) + i : Nat) : Int) with
        | some kf, .ok fp => src.pts kf.toNat (fp.toNat / (src.ni + 1)) (fp.toNat % (src.ni + 1))
        | _, _ => 0) = _
    rw [hp, List.getElem?_map, List.getElem?_range (by rw [hc 0]; omega)]
    dsimp only [Option.map_some]
    have n1 := take_nonneg (r 1) (h 1).pos j
    have n2 := take_nonneg (r 2) (h 2).pos i
    have hle : ((r 2).take i).sum ≤ src.ni := by
      have := sum_take_mono (r 2) (h 2).pos i (r 2).length hi
      rw [List.take_length, (h 2).sum, hext.2.2] at this
      exact this
    obtain ⟨u, hu⟩ := Int.eq_ofNat_of_zero_le n1
    obtain ⟨w, hw⟩ := Int.eq_ofNat_of_zero_le n2
    rw [hw] at hle
    rw [hu, hw, hext.2.2]
    have e : ((u : Int) * ((src.ni : Int) + 1) + (w : Int)).toNat = u * (src.ni + 1) + w := by
      have : ((u : Int) * ((src.ni : Int) + 1) + (w : Int)) = ((u * (src.ni + 1) + w : Nat) : Int) := by push_cast; ring
      rw [this]
      rfl
    obtain ⟨d1, d2⟩ := Verif.Pillars.div_mod_of (n := src.ni + 1) (a := w) (b := u) (by omega)
    rw [e, d1, d2]
    rfl
  · unfold coarsen
    rw [if_neg (by simp), hg, if_neg (by simp), if_pos hext, if_pos hv]
    dsimp only
    rw [hrows]
    dsimp only
    refine if_pos ?_
    rw [List.all_eq_true]
    intro p hp
    have hp := List.mem_range.1 hp
    have hpos : 0 < (s.ax 2).coarse.toNat + 1 := Nat.succ_pos _
    have hj : p / ((s.ax 2).coarse.toNat + 1) ≤ (r 1).length := by
      have := Nat.div_lt_of_lt_mul (show p < ((s.ax 2).coarse.toNat + 1) * ((s.ax 1).coarse.toNat + 1) by rw [Nat.mul_comm]; exact hp)
      rw [hc 1] at this
      omega
    have hi : p % ((s.ax 2).coarse.toNat + 1) ≤ (r 2).length := by
      have := Nat.mod_lt p hpos
      rw [hc 2] at this ⊢
      omega
    have := pillar_ok s r h _ _ hj hi
    rw [Nat.mul_comm, Nat.div_add_mod] at this
    rw [this]
    rfl

/-- The coarsening of a grid without split pillars and without K gaps succeeds for every valid coarsening of its extent, and each of the
eight corners of a coarse cell is the same corner of the fine cell at that corner of the box of fine cells it stands for. -/
theorem C79_coarsened (src : Grid V) (s : FC) (hext : (s.ax 0).fine = src.nk ∧ (s.ax 1).fine = src.nj ∧ (s.ax 2).fine = src.ni)
    (hv : s.valid = true) (hg : src.hasGaps = false) :
    ∃ g, coarsen false src s = .ok g ∧
      ((g.nk : Int) = (s.ax 0).coarse ∧ (g.nj : Int) = (s.ax 1).coarse ∧ (g.ni : Int) = (s.ax 2).coarse) ∧ g.hasGaps = false ∧
      ∀ (k j i : Nat), k < g.nk → j < g.nj → i < g.ni →
        ∃ lk lj li hk hj hi : Nat, s.fineBox ⟨k, j, i⟩ = .ok ⟨⟨lk, lj, li⟩, ⟨hk, hj, hi⟩⟩ ∧
          ∀ kp jp ip, kp ≤ 1 → jp ≤ 1 → ip ≤ 1 →
            corner g k j i kp jp ip =
              corner src (if kp = 0 then lk else hk) (if jp = 0 then lj else hj) (if ip = 0 then li else hi) kp jp ip := by
  obtain ⟨r, h⟩ := exists_ratios s fun a => ⟨(valid_axes s hv a).1, (valid_axes s hv a).2.2.1⟩
  obtain ⟨g, e, ek, ej, ei, gg, hp⟩ := coarsen_ok src s hext hv hg r h
  refine ⟨g, e, ⟨?_, ?_, ?_⟩, gg, ?_⟩
  · rw [ek]; exact (h 0).len
  · rw [ej]; exact (h 1).len
  · rw [ei]; exact (h 2).len
  intro k j i hk hj hi
  have step : ∀ (a : Fin 3) (c : Nat), c < (r a).length →
      ∃ lo hi : Nat, ((r a).take c).sum = lo ∧ ((r a).take (c + 1)).sum - 1 = hi ∧
        ∀ q, q ≤ 1 → ((r a).take (c + q)).sum.toNat = (if q = 0 then lo else hi) + q := by
    intro a c hc
    have n1 := take_nonneg (r a) (h a).pos c
    have hs := take_succ_sum (r a) c hc
    have hpos := (h a).pos _ (List.getElem_mem hc)
    refine ⟨((r a).take c).sum.toNat, (((r a).take (c + 1)).sum - 1).toNat, by omega, by omega, ?_⟩
    intro q hq
    have : q = 0 ∨ q = 1 := by omega
    rcases this with rfl | rfl
    · simp
    · simp only [Nat.one_ne_zero, if_false]
      omega
  obtain ⟨lk, uk, k1, k2, k3⟩ := step 0 k (by omega)
  obtain ⟨lj, uj, j1, j2, j3⟩ := step 1 j (by omega)
  obtain ⟨li, ui, i1, i2, i3⟩ := step 2 i (by omega)
  refine ⟨lk, lj, li, uk, uj, ui, ?_, ?_⟩
  · rw [fineBox_spec s r h k j i (by omega) (by omega) (by omega), k1, k2, j1, j2, i1, i2]
  · intro kp jp ip hkp hjp hip
    unfold corner
    rw [gg, hg]
    simp only [Bool.false_eq_true, if_false]
    rw [hp (k + kp) (j + jp) (i + ip) (by omega) (by omega) (by omega), k3 kp hkp, j3 jp hjp, i3 ip hip]

/-- Refining a grid without split pillars and without K gaps, and coarsening the result the same way, gives back the grid: whatever the
ratios and the proportions. -/
theorem C79_refine_then_coarsen (src : Grid V) (s : FC)
    (hext : (s.ax 0).coarse = src.nk ∧ (s.ax 1).coarse = src.nj ∧ (s.ax 2).coarse = src.ni) (hv : s.valid = true) (hg : src.hasGaps = false) :
    ∃ fine back, refineUnfaulted src s = .ok fine ∧ coarsen false fine s = .ok back ∧
      back.nk = src.nk ∧ back.nj = src.nj ∧ back.ni = src.ni ∧ back.hasGaps = false ∧
      ∀ k j i, k < src.nk → j < src.nj → i < src.ni → ∀ kp jp ip, kp ≤ 1 → jp ≤ 1 → ip ≤ 1 →
        corner back k j i kp jp ip = corner src k j i kp jp ip := by
  obtain ⟨fine, e1, hf, hgap, -, -, -⟩ := C77_refined src s hext hv (fun h => by rw [hg] at h; cases h)
  have hgf : fine.hasGaps = false := by
    unfold Grid.hasGaps at hg ⊢
    rw [hgap]
    exact hg
  obtain ⟨back, e2, ⟨n0, n1, n2⟩, hgb, hc⟩ := C79_coarsened fine s ⟨hf.1.symm, hf.2.1.symm, hf.2.2.symm⟩ hv hgf
  have m0 : back.nk = src.nk := by have := hext.1; omega
  have m1 : back.nj = src.nj := by have := hext.2.1; omega
  have m2 : back.ni = src.ni := by have := hext.2.2; omega
  refine ⟨fine, back, e1, e2, m0, m1, m2, hgb, ?_⟩
  intro k j i hk hj hi kp jp ip hkp hjp hip
  obtain ⟨lk, lj, li, uk, uj, ui, eb, hcor⟩ := hc k j i (by omega) (by omega) (by omega)
  rw [hcor kp jp ip hkp hjp hip]
  obtain ⟨f0, -, v0, q0⟩ := valid_axes s hv 0
  obtain ⟨f1, -, v1, q1⟩ := valid_axes s hv 1
  obtain ⟨f2, -, v2, q2⟩ := valid_axes s hv 2
  obtain ⟨c0, R0, p0, d0⟩ := axisData _ v0 f0 q0
  obtain ⟨c1, R1, p1, d1⟩ := axisData _ v1 f1 q1
  obtain ⟨c2, R2, p2, d2⟩ := axisData _ v2 f2 q2
  have b0 : k < c0 := by have := d0.coarse; have := hext.1; omega
  have b1 : j < c1 := by have := d1.coarse; have := hext.2.1; omega
  have b2 : i < c2 := by have := d2.coarse; have := hext.2.2; omega
  simp only [FC.fineBox, FC.fineBase, FC.ratio, d0.base k (by omega), d1.base j (by omega), d2.base i (by omega), d0.ratio k b0,
    d1.ratio j b1, d2.ratio i b2, ok_bind] at eb
  have eb := Except.ok.inj eb
  simp only [Box.mk.injEq, V3.mk.injEq] at eb
  have P0 := d0.pos k b0
  have P1 := d1.pos j b1
  have P2 := d2.pos i b2
  have pick : ∀ {axis : Fin 3} {n : Nat} {R : Nat → Nat} {p : Nat → List ℚ} (d : AxisData (s.ax axis) n R p) (c lo up q : Nat), c < n →
      (B R c : Int) = lo → (B R c : Int) + R c - 1 = up → q ≤ 1 →
      ∃ l, Within s axis c (if q = 0 then lo else up) l (p c) ∧ (q = 0 ∧ l = 0 ∨ q = 1 ∧ l + 1 = (p c).length) := by
    intro axis n R p d c lo up q hc h1 h2 hq
    have hpos := d.pos c hc
    have : q = 0 ∨ q = 1 := by omega
    rcases this with rfl | rfl
    · exact ⟨0, (within_iff d).2 ⟨hc, hpos, by simp; omega, rfl⟩, Or.inl ⟨rfl, rfl⟩⟩
    · exact ⟨R c - 1, (within_iff d).2 ⟨hc, by omega, by simp; omega, rfl⟩, Or.inr ⟨rfl, by rw [d.len c hc]; omega⟩⟩
  obtain ⟨lk', wk, ck⟩ := pick d0 k lk uk kp b0 (by omega) (by omega) hkp
  obtain ⟨lj', wj, cj⟩ := pick d1 j lj uj jp b1 (by omega) (by omega) hjp
  obtain ⟨li', wi, ci⟩ := pick d2 i li ui ip b2 (by omega) (by omega) hip
  exact C77_coarse_corners_kept src s hext hv (fun h => by rw [hg] at h; cases h) fine e1 k j i _ _ _ lk' lj' li' _ _ _ wk wj wi kp jp ip
    ck cj ci

/-- A grid with split pillars or K gaps is refused, as is a coarsening which is not valid or is for another extent. -/
theorem C79_refused (split : Bool) (src : Grid V) (s : FC)
    (h : split = true ∨ src.hasGaps = true ∨ ¬ ((s.ax 0).fine = src.nk ∧ (s.ax 1).fine = src.nj ∧ (s.ax 2).fine = src.ni) ∨ s.valid = false) :
    coarsen split src s = .error .assertion := by
  unfold coarsen
  split
  · rfl
  · rename_i h0
    split
    · rfl
    · rename_i h1
      split
      · rename_i h2
        split
        · rename_i h3
          rcases h with h | h | h | h
          · exact absurd h h0
          · exact absurd h h1
          · exact absurd h2 h
          · rw [h] at h3; cases h3
        · rfl
      · rfl

/-- three layers and two columns made into two layers and one column, for the examples -/
def exFine : Grid ℚ :=
  { nk := 3, nj := 1, ni := 2, kGaps := none, after := fun _ => false, raw := fun k => k, pts := fun k j i => k * k + 10 * j + 100 * i }

/-- the hypotheses of `C79_coarsened` are met, by ratios which vary -/
example : ((exFc.ax 0).fine = exFine.nk ∧ (exFc.ax 1).fine = exFine.nj ∧ (exFc.ax 2).fine = exFine.ni) ∧ exFc.valid = true ∧
    exFine.hasGaps = false := ⟨⟨rfl, rfl, rfl⟩, by decide +kernel, rfl⟩

/-- the tops and bases of the layers of the coarsened grid, at the far I edge -/
example : ((coarsen false exFine exFc).toOption.map fun g => (List.range 2).map fun k => (corner g k 0 0 0 1 1, corner g k 0 0 1 1 1)) =
    some [(210, 214), (214, 219)] := by decide +kernel

/-- the hypotheses of `C79_refine_then_coarsen` are met, with proportions which are not equal -/
example : ∃ src : Grid ℚ, ((exFc.ax 0).coarse = src.nk ∧ (exFc.ax 1).coarse = src.nj ∧ (exFc.ax 2).coarse = src.ni) ∧ exFc.valid = true ∧
    src.hasGaps = false :=
  ⟨{ nk := 2, nj := 1, ni := 1, kGaps := none, after := fun _ => false, raw := fun k => k, pts := fun k j i => k * k + 10 * j + 100 * i },
    ⟨rfl, rfl, rfl⟩, by decide +kernel, rfl⟩

end Verif.Refine
