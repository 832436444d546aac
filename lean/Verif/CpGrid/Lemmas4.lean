import Verif.CpGrid.Lemmas3

/-! # Lemmas: the split tables give the mapping back -/

namespace Verif.CpGrid
open Verif.Py

variable {K : Type} [Field K] [LinearOrder K] [IsStrictOrderedRing K]
variable {nj ni : Nat} {tol : K} {tr : Nat × Nat → Nat × Nat → List (Pt K)}

theorem mul_add_inj {w a b a' b' : Nat} (hb : b < w) (hb' : b' < w) (h : a * w + b = a' * w + b') : a = a' ∧ b = b' := by
  have h1 := Pillars.div_mod_of (n := w) (b := a) hb
  have h2 := Pillars.div_mod_of (n := w) (b := a') hb'
  rw [h] at h1
  exact ⟨h1.1.symm.trans h2.1, h1.2.symm.trans h2.2⟩

theorem mem_usersOf {s : Extras} {p : Nat × Nat} {e x : Nat} :
    x ∈ usersOf nj ni s p e ↔ ∃ c ∈ four, hasCol nj ni p c ∧ s.use (colOf p c) c = some e ∧ x = (colOf p c).1 * ni + (colOf p c).2 := by
  unfold usersOf
  rw [List.mem_map]
  constructor
  · rintro ⟨c, hc, rfl⟩
    rw [List.mem_filter, Bool.and_eq_true, decide_eq_true_eq, decide_eq_true_eq] at hc
    exact ⟨c, hc.1, hc.2.1, hc.2.2, rfl⟩
  · rintro ⟨c, h1, h2, h3, rfl⟩
    refine ⟨c, ?_, rfl⟩
    rw [List.mem_filter, Bool.and_eq_true, decide_eq_true_eq, decide_eq_true_eq]
    exact ⟨h1, h2, h3⟩

/-- the tables are made: every extra pillar has a user -/
theorem splitTables_ok {s : Extras} (h : Inv nj ni tol tr s (pillars nj ni)) :
    splitTables nj ni true s = .ok ⟨nj, ni, true, (extraOrder nj ni s).map fun q => q.1.1 * (ni + 1) + q.1.2,
      ((extraOrder nj ni s).map fun q => usersOf nj ni s q.1 q.2).flatten,
      cumLengths 0 ((extraOrder nj ni s).map fun q => usersOf nj ni s q.1 q.2)⟩ := by
  unfold splitTables
  rw [if_pos rfl]
  dsimp only
  rw [if_neg]
  intro hany
  rw [List.any_eq_true] at hany
  obtain ⟨u, hu, hemp⟩ := hany
  obtain ⟨q, hq, rfl⟩ := List.mem_map.mp hu
  obtain ⟨n, hn⟩ := List.mem_iff_getElem?.mp hq
  obtain ⟨_, h2, _⟩ := extraOrder_get_inv h hn
  obtain ⟨c, h4, hc, hus⟩ := h.ext q.1 q.2 h2
  have : (colOf q.1 c).1 * ni + (colOf q.1 c).2 ∈ usersOf nj ni s q.1 q.2 := mem_usersOf.mpr ⟨c, h4, hc, hus, rfl⟩
  rw [List.isEmpty_iff.mp hemp] at this
  cases this

theorem mapping_agrees {s : Extras} (h : Inv nj ni tol tr s (pillars nj ni)) {g : Pillars.Grid}
    (hg : splitTables nj ni true s = .ok g) (hni : 0 < ni) :
    ∃ m, Pillars.columnPillarMapping g = .ok m ∧ ∀ j i jp ip, j < nj → i < ni → jp ≤ 1 → ip ≤ 1 →
      m j i jp ip = pillarsForColumn nj ni true s j i jp ip := by
  rw [splitTables_ok h] at hg
  cases hg
  set users := (extraOrder nj ni s).map fun q => usersOf nj ni s q.1 q.2 with husers
  set spi := (extraOrder nj ni s).map fun q => q.1.1 * (ni + 1) + q.1.2 with hspi
  have hseg : ∀ n p e, (extraOrder nj ni s)[n]? = some (p, e) →
      Pillars.segment ⟨nj, ni, true, spi, users.flatten, cumLengths 0 users⟩ n = .ok (usersOf nj ni s p e) := by
    intro n p e hn
    apply segment_tables
    rw [husers, List.getElem?_map, hn]
    rfl
  obtain ⟨m, hm⟩ : ∃ m, Pillars.columnPillarMapping ⟨nj, ni, true, spi, users.flatten, cumLengths 0 users⟩ = .ok m := by
    unfold Pillars.columnPillarMapping
    rw [if_pos rfl]
    apply placeExtras_ok (by dsimp only; omega)
    intro k P hk
    rw [Nat.zero_add]
    dsimp only at hk ⊢
    rw [hspi, List.getElem?_map] at hk
    cases hq : (extraOrder nj ni s)[k]? with
    | none =>
      rw [hq] at hk
      cases hk
    | some q =>
      rw [hq] at hk
      have hP : q.1.1 * (ni + 1) + q.1.2 = P := by simpa using hk
      refine ⟨_, hseg k q.1 q.2 hq, ?_⟩
      intro c hc
      obtain ⟨cc, h4, hcol, _, rfl⟩ := mem_usersOf.mp hc
      have hmem := (extraOrder_get_inv h hq).1
      obtain ⟨hp1, hp2⟩ := mem_pillars.mp hmem
      have d1 := Pillars.div_mod_of (n := ni + 1) (a := q.1.2) (b := q.1.1) (by omega)
      unfold hasCol at hcol
      have d2 := Pillars.div_mod_of (n := ni) (a := (colOf q.1 cc).2) (b := (colOf q.1 cc).1) hcol.2.2.2
      have h11 := mem_four.mp (show (cc.1, cc.2) ∈ four from h4)
      rw [← hP, d1.1, d1.2, d2.1, d2.2]
      unfold colOf
      dsimp only
      omega
  refine ⟨m, hm, ?_⟩
  intro j i jp ip hj hi hjp hip
  obtain ⟨s1, s2⟩ := Pillars.C31_mapping_spec hm (j := j) (i := i) (jp := jp) (ip := ip) hi hip
  have hcol := hasCol_of (nj := nj) (ni := ni) (jp := jp) (ip := ip) hj hi
  have hp : (j + jp, i + ip) ∈ pillars nj ni := mem_pillars.mpr ⟨by dsimp only; omega, by dsimp only; omega⟩
  have happ : ∀ n, Pillars.Applies ⟨nj, ni, true, spi, users.flatten, cumLengths 0 users⟩ n j i jp ip →
      ∃ e, s.use (j, i) (jp, ip) = some e ∧ n = s.index (j + jp, i + ip) + e := by
    rintro n ⟨a1, cs, a2, a3⟩
    replace a2 := Pillars.segment_iff.2 a2
    dsimp only at a1 a3
    rw [hspi, List.getElem?_map] at a1
    cases hq : (extraOrder nj ni s)[n]? with
    | none =>
      rw [hq] at a1
      cases a1
    | some q =>
      rw [hq] at a1
      have hP : q.1.1 * (ni + 1) + q.1.2 = Pillars.naturalPillar ⟨nj, ni, true, spi, users.flatten, cumLengths 0 users⟩ j i jp ip := by
        simpa using a1
      unfold Pillars.naturalPillar at hP
      dsimp only at hP
      obtain ⟨hmem, _, hn⟩ := extraOrder_get_inv h hq
      obtain ⟨hp1, hp2⟩ := mem_pillars.mp hmem
      obtain ⟨e1, e2⟩ := mul_add_inj (by omega) (by omega) hP
      have hqp : q.1 = (j + jp, i + ip) := Prod.ext e1 e2
      rw [hseg n q.1 q.2 hq] at a2
      cases a2
      obtain ⟨c, h4, hc, hu, hx⟩ := mem_usersOf.mp a3
      unfold hasCol at hc
      obtain ⟨e3, e4⟩ := mul_add_inj hi (by exact hc.2.2.2) hx
      have h11 := mem_four.mp (show (c.1, c.2) ∈ four from h4)
      rw [hqp] at hc
      rw [hqp] at e3 e4
      unfold colOf at e3 e4
      dsimp only at e3 e4 hc
      have hcc : c = (jp, ip) := Prod.ext (by dsimp only; omega) (by dsimp only; omega)
      refine ⟨q.2, ?_, ?_⟩
      · rw [hqp, hcc, colOf_add] at hu
        exact hu
      · rw [hn, hqp]
  cases hu : s.use (j, i) (jp, ip) with
  | none =>
    rw [s1 (Or.inr (by
      intro n hn
      obtain ⟨e, he, _⟩ := happ n hn
      rw [hu] at he
      cases he))]
    unfold pillarsForColumn Pillars.naturalPillar
    rw [hu]
    dsimp only
    omega
  | some e =>
    obtain ⟨h1, h2, _⟩ := h.useOk _ (jp, ip) e hcol (by rw [colOf_add]; exact hu)
    have ho := extraOrder_get h hp h2
    rw [s2 (s.index (j + jp, i + ip) + e) rfl]
    · unfold pillarsForColumn
      rw [hu]
    · refine ⟨?_, _, Pillars.segment_iff.1 (hseg _ _ _ ho), ?_⟩
      · dsimp only
        rw [hspi, List.getElem?_map, ho]
        rfl
      · exact mem_usersOf.mpr ⟨(jp, ip), mem_four.mpr ⟨hjp, hip⟩, hcol, by rw [colOf_add]; exact hu, by rw [colOf_add]⟩
    · intro n' hn' ha
      obtain ⟨e', he', hn⟩ := happ n' ha
      rw [hu] at he'
      cases he'
      omega

/-! ## Voids -/

variable {nk : Nat} {cp : Cp K} {v : K}

/-- flags of the K gaps -/
theorem after_iff (hv : 0 ≤ v) {k : Nat} (hk : k + 1 < nk) :
    ((checkForKGaps nk nj ni v cp).1.after.getD [])[k]? = some true ↔ v < layerGap nj ni cp k := by
  unfold checkForKGaps
  rw [if_pos (by omega)]
  split
  · dsimp only
    rw [Option.getD_some, gapDetails_after, List.getElem?_map, List.getElem?_range (by omega)]
    simp
  · rename_i hmax
    have := (maxGap_le hv).mp (not_lt.mp hmax) k hk
    split
    · simpa using this
    · simpa using this

/-- raw indices of the grid read back -/
theorem reloaded_raw (hv : 0 ≤ v) (hnk : 0 < nk) {g : Result K} (hg : g.nk = nk) (hgap : g.gaps = (checkForKGaps nk nj ni v cp).1) :
    reloadedRaw g = Gcs.rawIndexLoop ((checkForKGaps nk nj ni v cp).1.after.getD []) 0 0 nk := by
  unfold reloadedRaw
  rw [hgap, hg]
  have hr : List.range nk = Gcs.rawIndexLoop [] 0 0 nk := by rw [rawIndexLoop_nil, List.range_eq_range']
  by_cases h1 : 1 < nk
  · by_cases hmax : v < maxGap nk nj ni cp
    · have hpos : 0 < ((gapDetails (layerGap nj ni cp) v (List.range (nk - 1)) 0).1.filter id).length := by
        by_contra hc
        apply not_lt.mpr ((maxGap_le hv).mpr _) hmax
        intro k hk
        by_contra hlt
        rw [not_le] at hlt
        have hmem : true ∈ ((gapDetails (layerGap nj ni cp) v (List.range (nk - 1)) 0).1.filter id) := by
          rw [List.mem_filter, gapDetails_after, List.mem_map]
          exact ⟨⟨k, List.mem_range.mpr (by omega), decide_eq_true hlt⟩, rfl⟩
        have := List.length_pos_of_mem hmem
        omega
      obtain ⟨c, hc⟩ : ∃ c, (gapDetails (layerGap nj ni cp) v (List.range (nk - 1)) 0).2.2 = c + 1 :=
        ⟨_, by rw [gapDetails_count, Nat.zero_add]; exact (Nat.sub_add_cancel hpos).symm⟩
      have e1 : (checkForKGaps nk nj ni v cp).1.count = some (c + 1) := by
        unfold checkForKGaps
        rw [if_pos h1, if_pos hmax, ← hc]
      have e2 : (checkForKGaps nk nj ni v cp).1.after = some (gapDetails (layerGap nj ni cp) v (List.range (nk - 1)) 0).1 := by
        unfold checkForKGaps
        rw [if_pos h1, if_pos hmax]
      rw [e1, e2]
      rfl
    · have e1 : (checkForKGaps nk nj ni v cp).1.count = none ∧ (checkForKGaps nk nj ni v cp).1.after = none := by
        unfold checkForKGaps
        rw [if_pos h1, if_neg hmax]
        split <;> exact ⟨rfl, rfl⟩
      rw [e1.1, e1.2]
      exact hr
  · have e1 : (checkForKGaps nk nj ni v cp).1.count = none ∧ (checkForKGaps nk nj ni v cp).1.after = none := by
      unfold checkForKGaps
      rw [if_neg h1]
      exact ⟨rfl, rfl⟩
    rw [e1.1, e1.2]
    exact hr

theorem closeVoids_top (sel : Nat → Bool) {k j i jp ip : Nat} (hk : k + 1 < nk) : closeVoids nk sel cp (k + 1) j i 0 jp ip =
    if sel k = true then midPt (cp k j i 1 jp ip) (cp (k + 1) j i 0 jp ip) else cp (k + 1) j i 0 jp ip := by
  unfold closeVoids
  rw [if_pos rfl, Nat.add_sub_cancel]
  by_cases h : sel k = true
  · rw [if_pos ⟨Nat.succ_pos k, hk, h⟩, if_pos h]
  · rw [if_neg (fun hh => h hh.2.2), if_neg h]

theorem closeVoids_base (sel : Nat → Bool) {k j i jp ip : Nat} (hk : k + 1 < nk) : closeVoids nk sel cp k j i 1 jp ip =
    if sel k = true then midPt (cp k j i 1 jp ip) (cp (k + 1) j i 0 jp ip) else cp k j i 1 jp ip := by
  unfold closeVoids
  rw [if_neg Nat.one_ne_zero]
  by_cases h : sel k = true
  · rw [if_pos ⟨hk, h⟩, if_pos h]
  · rw [if_neg (fun hh => h hh.2), if_neg h]

/-- the corner points after closing voids differ by at most half the largest void closed -/
theorem closed_within (hv : 0 ≤ v) {k j i kp jp ip : Nat} (h : InGrid nk nj ni k j i kp jp ip) :
    Within (v / 2) ((checkForKGaps nk nj ni v cp).2 k j i kp jp ip) (cp k j i kp jp ip) := by
  obtain ⟨hk, hj, hi, hkp, hjp, hip⟩ := h
  have hrefl : ∀ a : Pt K, Within (v / 2) a a := by
    intro a
    unfold Within
    simp only [sub_self, abs_zero]
    exact ⟨by linarith, by linarith, by linarith⟩
  -- closing of selected layers, all having small voids
  have hclose : ∀ sel : Nat → Bool, (∀ k, k + 1 < nk → sel k = true → layerGap nj ni cp k ≤ v) →
      Within (v / 2) (closeVoids nk sel cp k j i kp jp ip) (cp k j i kp jp ip) := by
    intro sel hsel
    unfold closeVoids
    split
    · rename_i h0
      subst h0
      split
      · rename_i hs
        apply within_mid_right
        have := (layerGap_le hv).mp (hsel (k - 1) (by omega) hs.2.2) j i jp ip hj hi hjp hip
        rw [show k - 1 + 1 = k by omega] at this
        exact this
      · exact hrefl _
    · obtain rfl : kp = 1 := by omega
      split
      · rename_i hs
        apply within_mid_left
        exact (layerGap_le hv).mp (hsel k hs.1 hs.2) j i jp ip hj hi hjp hip
      · exact hrefl _
  unfold checkForKGaps
  split
  · split
    · apply hclose
      intro k' _ hs
      rw [Bool.and_eq_true, Bool.not_eq_true', decide_eq_false_iff_not] at hs
      exact not_lt.mp hs.1
    · rename_i hmax
      split
      · apply hclose
        intro k' hk' _
        exact (maxGap_le hv).mp (not_lt.mp hmax) k' hk'
      · exact hrefl _
  · exact hrefl _

theorem layerGap_zero {k : Nat} (h : ¬ 0 < layerGap nj ni cp k) {j i jp ip : Nat} (hj : j < nj) (hi : i < ni) (hjp : jp ≤ 1)
    (hip : ip ≤ 1) : cp (k + 1) j i 0 jp ip = cp k j i 1 jp ip :=
  within_zero.mp ((layerGap_le (le_refl 0)).mp (not_lt.mp h) j i jp ip hj hi hjp hip)

/-- after closing, layers without a K gap between them meet -/
theorem closed_meet (hv : 0 ≤ v) {k j i jp ip : Nat} (hk : k + 1 < nk) (hj : j < nj) (hi : i < ni) (hjp : jp ≤ 1) (hip : ip ≤ 1)
    (hg : ¬ v < layerGap nj ni cp k) :
    (checkForKGaps nk nj ni v cp).2 (k + 1) j i 0 jp ip = (checkForKGaps nk nj ni v cp).2 k j i 1 jp ip := by
  unfold checkForKGaps
  rw [if_pos (by omega)]
  split
  · dsimp only
    rw [closeVoids_top _ hk, closeVoids_base _ hk]
    split
    · rfl
    · rename_i hs
      apply layerGap_zero _ hj hi hjp hip
      intro h0
      apply hs
      simp [h0, hg]
  · split
    · dsimp only
      rw [closeVoids_top _ hk, closeVoids_base _ hk, if_pos rfl, if_pos rfl]
    · rename_i h0
      exact layerGap_zero (not_lt.mpr ((maxGap_le (le_refl 0)).mp (not_lt.mp h0) k hk)) hj hi hjp hip

/-- where every void is either nothing or a K gap, closing changes nothing -/
theorem closed_same (hv : 0 ≤ v) (hall : ∀ k, k + 1 < nk → layerGap nj ni cp k ≤ 0 ∨ v < layerGap nj ni cp k)
    {k j i kp jp ip : Nat} (h : InGrid nk nj ni k j i kp jp ip) :
    (checkForKGaps nk nj ni v cp).2 k j i kp jp ip = cp k j i kp jp ip := by
  obtain ⟨hk, hj, hi, hkp, hjp, hip⟩ := h
  unfold checkForKGaps
  split
  · split
    · dsimp only
      unfold closeVoids
      split
      · rename_i h0
        rw [if_neg]
        rintro ⟨h1, h2, h3⟩
        rw [Bool.and_eq_true, Bool.not_eq_true', decide_eq_false_iff_not, decide_eq_true_eq] at h3
        rcases hall (k - 1) (by omega) with h | h
        · exact absurd h3.2 (not_lt.mpr h)
        · exact h3.1 h
      · rw [if_neg]
        rintro ⟨h1, h3⟩
        rw [Bool.and_eq_true, Bool.not_eq_true', decide_eq_false_iff_not, decide_eq_true_eq] at h3
        rcases hall k (by omega) with h | h
        · exact absurd h3.2 (not_lt.mpr h)
        · exact h3.1 h
    · rename_i hmax
      split
      · rename_i h0
        exfalso
        apply not_lt.mpr ((maxGap_le (le_refl 0)).mpr _) h0
        intro k' hk'
        rcases hall k' hk' with h | h
        · exact h
        · exact absurd ((maxGap_le hv).mp (not_lt.mp hmax) k' hk') (not_le.mpr h)
      · rfl
  · rfl

end Verif.CpGrid
