import Verif.Gcs.PropsMasks

/-! # C50, C51: selecting from and merging connection sets -/

namespace Verif.Gcs
open Verif.Py

/-! ## Cleaning the feature list -/

theorem renumber_length (k i : Nat) (fi : List Nat) : (renumber k i fi).length = fi.length := by simp [renumber]

theorem renumber_getElem? (k i : Nat) (fi : List Nat) (n : Nat) :
    (renumber k i fi)[n]? = (fi[n]?).map fun x => if x = k then i else x := by simp [renumber]

/-- the loop maps the value `keep[m]` to position `m`, counting from `i` -/
theorem cleanLoop_spec (fl : List Feature) (keep : List Nat) : ∀ (i : Nat) (fi : List Nat), keep.Pairwise (· < ·) →
    (∀ m k : Nat, keep[m]? = some k → i + m ≤ k ∧ k < fl.length) → (∀ x ∈ fi, x < i ∨ x ∈ keep) →
    ∃ fi' cl, cleanLoop fl i keep fi = .ok (fi', cl) ∧ fi'.length = fi.length ∧
      cl.length = keep.length ∧ (∀ m : Nat, cl[m]? = (keep[m]?).bind fun k => fl[k]?) ∧
      ∀ n : Nat, (∀ x, fi[n]? = some x → x < i → fi'[n]? = some x) ∧
        (∀ m x : Nat, fi[n]? = some x → i ≤ x → keep[m]? = some x → fi'[n]? = some (i + m)) := by
  induction keep with
  | nil =>
    intro i fi _ _ hx
    refine ⟨fi, [], rfl, rfl, rfl, by simp, fun n => ⟨fun x h _ => h, fun m x _ _ h => by simp at h⟩⟩
  | cons k ks ih =>
    intro i fi hp hk hx
    rw [List.pairwise_cons] at hp
    obtain ⟨hik, hkl⟩ := hk 0 k (by simp)
    have hf : fl[k]? = some fl[k] := List.getElem?_eq_getElem hkl
    have hset : (if i ≠ k then renumber k i fi else fi) = renumber k i fi := by
      split
      · rfl
      · rename_i h
        have h : i = k := by omega
        subst h
        unfold renumber
        conv_lhs => rw [← List.map_id fi]
        apply List.map_congr_left
        intro x _
        simp
    have hx' : ∀ x ∈ renumber k i fi, x < i + 1 ∨ x ∈ ks := by
      intro x hx1
      simp only [renumber, List.mem_map] at hx1
      obtain ⟨y, hy, rfl⟩ := hx1
      split
      · left; omega
      · rename_i hne
        rcases hx y hy with h | h
        · left; omega
        · rcases List.mem_cons.mp h with h | h
          · exact absurd h hne
          · exact Or.inr h
    obtain ⟨fi', cl, he, hl, hcl, hclv, hv⟩ := ih (i + 1) (renumber k i fi) hp.2
      (fun m k' h => by have := hk (m + 1) k' (by simpa using h); omega) hx'
    refine ⟨fi', fl[k] :: cl, ?_, by rw [hl, renumber_length], by simp [hcl], ?_, ?_⟩
    · show (if i ≤ k then _ else _) = _
      rw [if_pos (by omega)]
      simp only [hf, hset, he]
    · intro m
      cases m with
      | zero => simp [hf]
      | succ m => simpa using hclv m
    · intro n
      constructor
      · intro x hxn hlt
        refine (hv n).1 x ?_ (by omega)
        rw [renumber_getElem?, hxn]
        have : x ≠ k := by omega
        simp [this]
      · intro m x hxn hle hm
        cases m with
        | zero =>
          simp only [List.getElem?_cons_zero, Option.some.injEq] at hm
          subst hm
          refine (hv n).1 i ?_ (by omega)
          rw [renumber_getElem?, hxn]
          simp
        | succ m =>
          simp only [List.getElem?_cons_succ] at hm
          have hmem : x ∈ ks := List.mem_of_getElem? hm
          have hkx := hp.1 x hmem
          have := (hv n).2 m x (by rw [renumber_getElem?, hxn]; have : x ≠ k := by omega
                                   simp [this]) (by omega) hm
          rw [this]
          congr 1
          omega

theorem unique_spec (fi : List Nat) :
    (fi.dedup.insertionSort (· ≤ ·)).Pairwise (· < ·) ∧ ∀ x, x ∈ fi.dedup.insertionSort (· ≤ ·) ↔ x ∈ fi := by
  have hp := List.perm_insertionSort (· ≤ ·) fi.dedup
  constructor
  · have h1 : (fi.dedup.insertionSort (· ≤ ·)).Pairwise (· ≤ ·) := List.pairwise_insertionSort _ _
    have h2 : (fi.dedup.insertionSort (· ≤ ·)).Nodup := hp.nodup_iff.mpr (List.nodup_dedup _)
    exact h1.imp₂ (fun _ _ h1 h2 => Nat.lt_of_le_of_ne h1 h2) h2
  · intro x
    rw [hp.mem_iff, List.mem_dedup]

theorem sorted_ge_index (l : List Nat) (h : l.Pairwise (· < ·)) (i : Nat) (hi : ∀ x ∈ l, i ≤ x) (m k : Nat) (hm : l[m]? = some k) :
    i + m ≤ k := by
  induction l generalizing i m with
  | nil => simp at hm
  | cons x xs ih =>
    rw [List.pairwise_cons] at h
    have hx := hi x List.mem_cons_self
    cases m with
    | zero => simp at hm; omega
    | succ m =>
      have := ih h.2 (i + 1) (fun y hy => by have := h.1 y hy; omega) m (by simpa using hm)
      omega

/-- what cleaning does: connections keep their features, and every feature left has a connection -/
theorem clean_spec (fi : List Nat) (fl : List Feature) (hr : ∀ x ∈ fi, x < fl.length) :
    ∃ fi' fl', cleanFeatureList fi fl = .ok (fi', fl') ∧ fi'.length = fi.length ∧
      (∀ n : Nat, (fi'[n]?).bind (fun x => fl'[x]?) = (fi[n]?).bind fun x => fl[x]?) ∧
      (∀ x ∈ fi', x < fl'.length) ∧ (∀ m, m < fl'.length → m ∈ fi') := by
  obtain ⟨u1, u2⟩ := unique_spec fi
  unfold cleanFeatureList
  dsimp only
  generalize hu : fi.dedup.insertionSort (· ≤ ·) = keep at u1 u2
  split
  · rename_i hlen
    refine ⟨fi, fl, rfl, rfl, fun n => rfl, hr, fun m hm => ?_⟩
    -- a strictly increasing list of `fl.length` numbers below `fl.length` has them all
    have hsub : keep ⊆ List.range fl.length := fun x hx => by
      rw [List.mem_range]; exact hr x ((u2 x).mp hx)
    have hnd : keep.Nodup := u1.imp fun h => Nat.ne_of_lt h
    have hperm := (List.subperm_of_subset hnd hsub).perm_of_length_le (by simp [hlen])
    exact (u2 m).mp (hperm.mem_iff.mpr (List.mem_range.mpr hm))
  · have hk : ∀ m k : Nat, keep[m]? = some k → 0 + m ≤ k ∧ k < fl.length := fun m k h =>
      ⟨sorted_ge_index keep u1 0 (fun _ _ => Nat.zero_le _) m k h, hr k ((u2 k).mp (List.mem_of_getElem? h))⟩
    obtain ⟨fi', cl, he, hl, hcl, hclv, hv⟩ := cleanLoop_spec fl keep 0 fi u1 hk (fun x hx => Or.inr ((u2 x).mpr hx))
    have hget : ∀ n x : Nat, fi[n]? = some x → ∃ m, keep[m]? = some x ∧ fi'[n]? = some m := by
      intro n x hx
      obtain ⟨m, hm⟩ := List.mem_iff_getElem?.mp ((u2 x).mpr (List.mem_of_getElem? hx))
      refine ⟨m, hm, ?_⟩
      rw [(hv n).2 m x hx (Nat.zero_le _) hm, Nat.zero_add]
    refine ⟨fi', cl, he, hl, ?_, ?_, ?_⟩
    · intro n
      cases hx : fi[n]? with
      | none =>
        have : fi'[n]? = none := by
          rw [List.getElem?_eq_none_iff] at hx ⊢
          omega
        rw [this]
        rfl
      | some x =>
        obtain ⟨m, hm, hfm⟩ := hget n x hx
        rw [hfm]
        simp only [Option.bind_some]
        rw [hclv, hm]
        rfl
    · intro y hy
      obtain ⟨n, hn⟩ := List.mem_iff_getElem?.mp hy
      have hlt : n < fi.length := by
        have := (List.getElem?_eq_some_iff.mp hn).1
        omega
      obtain ⟨m, hm, hfm⟩ := hget n _ (List.getElem?_eq_getElem hlt)
      rw [hn] at hfm
      cases hfm
      rw [hcl]
      exact (List.getElem?_eq_some_iff.mp hm).1
    · intro m hm
      rw [hcl] at hm
      have hkm := List.getElem?_eq_getElem hm
      obtain ⟨n, hn⟩ := List.mem_iff_getElem?.mp ((u2 _).mp (List.mem_of_getElem? hkm))
      obtain ⟨m', hm', hfm⟩ := hget n _ hn
      have hnd : keep.Nodup := u1.imp fun h => Nat.ne_of_lt h
      have : m' = m := by
        have h1 := (List.getElem?_eq_some_iff.mp hm').1
        have h2 := (List.getElem?_eq_some_iff.mp hm').2
        exact (List.Nodup.getElem_inj_iff hnd).mp h2
      subst this
      exact List.mem_of_getElem? hfm

/-! ## Filtering -/

/-- which connections a cell mask keeps -/
def Kept (mask : Nat → Bool) (bothRequired : Bool) (c : Conn) : Prop :=
  if bothRequired then mask c.cell0 = true ∧ mask c.cell1 = true else mask c.cell0 = true ∨ mask c.cell1 = true

/-- C50: filtering by a cell mask keeps exactly the connections asked for, in their order, each with its feature; the indices
returned say where each came from, and with paring down no unused feature remains. -/
theorem C50_filter_by_mask {g : Gcs} {fi : List Nat} {fl : List Feature} (hg : Featured g fi fl) (mask : Nat → Bool) (both pare : Bool) :
    (∃ g' idx, filteredByCellMask g mask both pare = .ok (some (g', idx)) ∧
      idx.Pairwise (· < ·) ∧ (∀ i, i ∈ idx ↔ ∃ c, g.conns[i]? = some c ∧ Kept mask both c) ∧
      g'.conns.length = idx.length ∧
      (∀ n i : Nat, idx[n]? = some i → g'.conns[n]? = g.conns[i]? ∧ featureOf g' n = featureOf g i) ∧
      (pare = true → ∀ fi' fl', g'.featureIndices = some fi' → g'.featureList = some fl' → ∀ m, m < fl'.length → m ∈ fi')) ∨
    (filteredByCellMask g mask both pare = .ok none ∧ ∀ c ∈ g.conns, ¬ Kept mask both c) := by
  unfold filteredByCellMask
  dsimp only
  generalize hidx : (List.range g.conns.length).filter _ = idx
  have hmem : ∀ i, i ∈ idx ↔ ∃ c, g.conns[i]? = some c ∧ Kept mask both c := by
    intro i
    rw [← hidx, List.mem_filter, List.mem_range]
    constructor
    · rintro ⟨hi, h⟩
      rw [List.getElem?_eq_getElem hi] at h
      refine ⟨_, List.getElem?_eq_getElem hi, ?_⟩
      unfold Kept
      cases both <;> simpa using h
    · rintro ⟨c, hc, hk⟩
      refine ⟨(List.getElem?_eq_some_iff.mp hc).1, ?_⟩
      rw [hc]
      unfold Kept at hk
      cases both <;> simpa using hk
  have hpw : idx.Pairwise (· < ·) := by
    rw [← hidx]
    exact List.Pairwise.filter _ List.pairwise_lt_range
  have hrange : ∀ i ∈ idx, i < g.conns.length := by
    intro i hi
    obtain ⟨c, hc, _⟩ := (hmem i).mp hi
    exact (List.getElem?_eq_some_iff.mp hc).1
  by_cases hnil : idx = []
  · right
    rw [if_pos hnil]
    refine ⟨rfl, fun c hc hk => ?_⟩
    obtain ⟨i, hi⟩ := List.mem_iff_getElem?.mp hc
    have := (hmem i).mpr ⟨c, hi, hk⟩
    rw [hnil] at this
    cases this
  · left
    rw [if_neg hnil]
    obtain ⟨cs, hcs⟩ := takeIdx_total hrange
    obtain ⟨fi', hfi'⟩ := takeIdx_total (l := fi) (idx := idx) fun i hi => by rw [hg.length]; exact hrange i hi
    obtain ⟨c1, c2⟩ := takeIdx_eq_some hcs
    obtain ⟨f1, f2⟩ := takeIdx_eq_some hfi'
    simp only [hcs, hg.indices, hfi', hg.list]
    cases pare with
    | false =>
      simp only [Bool.false_eq_true, if_false]
      refine ⟨_, idx, rfl, hpw, hmem, c1, fun n i hn => ⟨c2 n i hn, ?_⟩, fun h => by cases h⟩
      simp only [featureOf, hg.indices, hg.list, f2 n i hn]
    | true =>
      have hr : ∀ x ∈ fi', x < fl.length := by
        intro x hx
        obtain ⟨n, hn⟩ := List.mem_iff_getElem?.mp hx
        have hlt : n < idx.length := by
          have := (List.getElem?_eq_some_iff.mp hn).1
          omega
        rw [f2 n _ (List.getElem?_eq_getElem hlt)] at hn
        exact hg.range x (List.mem_of_getElem? hn)
      obtain ⟨fi'', fl', he, hl, hv, hrng, hused⟩ := clean_spec fi' fl hr
      simp only [if_true, he]
      refine ⟨_, idx, rfl, hpw, hmem, c1, fun n i hn => ⟨c2 n i hn, ?_⟩, fun _ a b ha hb => ?_⟩
      · simp only [featureOf, hg.indices, hg.list, hv, f2 n i hn]
      · cases ha
        cases hb
        exact hused

/-- the layer of a cell given by natural index -/
def layer (e : Ext) (c : Nat) : Int := (denatural e c).1

/-- C50, layers: with both bounds given, the connections kept are those with both cells within the bounds.  Missing: with the
default for either bound an exception is raised (`C50_layer_defaults_violated`), and when the range covers all the layers
unused features are not pared down. -/
theorem C50_layer_range_partial (e : Ext) {g : Gcs} {fi : List Nat} {fl : List Feature} (hg : Featured g fi fl)
    (hin : ∀ c ∈ g.conns, layer e c.cell0 < e.nk ∧ layer e c.cell1 < e.nk) (lo hi : Int) (pare : Bool) (hne : g.conns ≠ []) :
    (∃ g' idx, filteredByLayerRange e g (some lo) (some hi) pare = .ok (some (g', idx)) ∧
      idx.Pairwise (· < ·) ∧
      (∀ i, i ∈ idx ↔ ∃ c, g.conns[i]? = some c ∧ lo ≤ layer e c.cell0 ∧ layer e c.cell0 ≤ hi ∧ lo ≤ layer e c.cell1 ∧ layer e c.cell1 ≤ hi) ∧
      g'.conns.length = idx.length ∧
      (∀ n i : Nat, idx[n]? = some i → g'.conns[n]? = g.conns[i]? ∧ featureOf g' n = featureOf g i)) ∨
    (filteredByLayerRange e g (some lo) (some hi) pare = .ok none ∧
      ∀ c ∈ g.conns, ¬ (lo ≤ layer e c.cell0 ∧ layer e c.cell0 ≤ hi ∧ lo ≤ layer e c.cell1 ∧ layer e c.cell1 ≤ hi)) := by
  have key : ∀ mask : Nat → Bool, (∀ c ∈ g.conns, Kept mask true c ↔
      (lo ≤ layer e c.cell0 ∧ layer e c.cell0 ≤ hi ∧ lo ≤ layer e c.cell1 ∧ layer e c.cell1 ≤ hi)) →
      filteredByLayerRange e g (some lo) (some hi) pare = filteredByCellMask g mask true pare →
      (∃ g' idx, filteredByLayerRange e g (some lo) (some hi) pare = .ok (some (g', idx)) ∧
      idx.Pairwise (· < ·) ∧
      (∀ i, i ∈ idx ↔ ∃ c, g.conns[i]? = some c ∧ lo ≤ layer e c.cell0 ∧ layer e c.cell0 ≤ hi ∧ lo ≤ layer e c.cell1 ∧ layer e c.cell1 ≤ hi) ∧
      g'.conns.length = idx.length ∧
      (∀ n i : Nat, idx[n]? = some i → g'.conns[n]? = g.conns[i]? ∧ featureOf g' n = featureOf g i)) ∨
      (filteredByLayerRange e g (some lo) (some hi) pare = .ok none ∧
      ∀ c ∈ g.conns, ¬ (lo ≤ layer e c.cell0 ∧ layer e c.cell0 ≤ hi ∧ lo ≤ layer e c.cell1 ∧ layer e c.cell1 ≤ hi)) := by
    intro mask hm he
    rw [he]
    rcases C50_filter_by_mask hg mask true pare with ⟨g', idx, h1, h2, h3, h4, h5, _⟩ | ⟨h1, h2⟩
    · refine Or.inl ⟨g', idx, h1, h2, fun i => ?_, h4, h5⟩
      rw [h3]
      constructor
      · rintro ⟨c, hc, hk⟩
        exact ⟨c, hc, (hm c (List.mem_of_getElem? hc)).mp hk⟩
      · rintro ⟨c, hc, hk⟩
        exact ⟨c, hc, (hm c (List.mem_of_getElem? hc)).mpr hk⟩
    · exact Or.inr ⟨h1, fun c hc hk => h2 c hc ((hm c hc).mpr hk)⟩
  have h0 : ∀ c, 0 ≤ layer e c := fun c => Int.natCast_nonneg _
  by_cases hlo : lo ≤ 0 <;> by_cases hhi : hi ≥ (e.nk : Int) - 1
  · left
    have hall : ∀ c ∈ g.conns, lo ≤ layer e c.cell0 ∧ layer e c.cell0 ≤ hi ∧ lo ≤ layer e c.cell1 ∧ layer e c.cell1 ≤ hi := by
      intro c hc
      obtain ⟨a, b⟩ := hin c hc
      have := h0 c.cell0
      have := h0 c.cell1
      omega
    refine ⟨g, List.range g.conns.length, ?_, List.pairwise_lt_range, fun i => ?_, by simp, fun n i hn => ?_⟩
    · simp [filteredByLayerRange, hlo, hhi, append]
    · rw [List.mem_range]
      constructor
      · intro hi
        exact ⟨_, List.getElem?_eq_getElem hi, hall _ (List.getElem_mem hi)⟩
      · rintro ⟨c, hc, _⟩
        exact (List.getElem?_eq_some_iff.mp hc).1
    · have : n = i := by
        obtain ⟨h1, h2⟩ := List.getElem?_eq_some_iff.mp hn
        simpa using h2
      subst this
      exact ⟨rfl, rfl⟩
  · refine key (fun c => decide (((denatural e c).1 : Int) ≤ hi)) (fun c hc => ?_) (by simp [filteredByLayerRange, hlo, hhi])
    have := h0 c.cell0
    have := h0 c.cell1
    simp only [Kept, if_true, decide_eq_true_eq]
    unfold layer at *
    omega
  · refine key (fun c => decide (lo ≤ ((denatural e c).1 : Int))) (fun c hc => ?_) (by simp [filteredByLayerRange, hlo, hhi])
    obtain ⟨a, b⟩ := hin c hc
    simp only [Kept, if_true, decide_eq_true_eq]
    unfold layer at *
    omega
  · refine key (fun c => decide (lo ≤ ((denatural e c).1 : Int)) && decide (((denatural e c).1 : Int) ≤ hi)) (fun c hc => ?_)
      (by simp [filteredByLayerRange, hlo, hhi])
    simp only [Kept, if_true, Bool.and_eq_true, decide_eq_true_eq]
    unfold layer at *
    omega

/-- C50 does not hold when a layer bound is left to its default: TypeError, whatever the connection set. -/
theorem C50_layer_defaults_violated (e : Ext) (g : Gcs) (b : Option Int) (pare : Bool) :
    filteredByLayerRange e g none b pare = .error .type ∧ ∀ lo, filteredByLayerRange e g (some lo) none pare = .error .type :=
  ⟨rfl, fun _ => rfl⟩

/-- C50, single feature: exactly the connections of that feature, in order, under that feature. -/
theorem C50_single_feature {g : Gcs} {fi : List Nat} {fl : List Feature} (hg : Featured g fi fl) (f : Nat) (ft : Feature)
    (hf : fl[f]? = some ft) :
    ∃ g', singleFeature g f = .ok (some g') ∧ g'.conns.length = (indicesForFeature fi f).length ∧
      (indicesForFeature fi f).Pairwise (· < ·) ∧ (∀ i, i ∈ indicesForFeature fi f ↔ fi[i]? = some f) ∧
      ∀ n i : Nat, (indicesForFeature fi f)[n]? = some i → g'.conns[n]? = g.conns[i]? ∧ featureOf g' n = some ft := by
  have hmem : ∀ i, i ∈ indicesForFeature fi f ↔ fi[i]? = some f := by
    intro i
    unfold indicesForFeature
    rw [List.mem_filter, List.mem_range]
    constructor
    · rintro ⟨hi, h⟩
      rw [List.getElem?_eq_getElem hi] at h ⊢
      simpa using h
    · intro h
      exact ⟨(List.getElem?_eq_some_iff.mp h).1, by rw [h]; simp⟩
  obtain ⟨cs, hcs⟩ := takeIdx_total (l := g.conns) (idx := indicesForFeature fi f) fun i hi => by
    rw [← hg.length]
    exact (List.getElem?_eq_some_iff.mp ((hmem i).mp hi)).1
  obtain ⟨c1, c2⟩ := takeIdx_eq_some hcs
  refine ⟨⟨cs, some (cs.map fun _ => 0), some [ft]⟩, ?_, c1, ?_, hmem, fun n i hn => ⟨c2 n i hn, ?_⟩⟩
  · simp [singleFeature, hg.list, hf, hg.indices, hcs]
  · exact List.Pairwise.filter _ List.pairwise_lt_range
  · have hlt : n < cs.length := by
      have := (List.getElem?_eq_some_iff.mp hn).1
      omega
    simp [featureOf, hlt]

/-- a set with three connections and an unused feature -/
def sample : Gcs := ⟨[⟨0, 4, 1, 0⟩, ⟨1, 5, 1, 0⟩, ⟨4, 8, 1, 0⟩], some [2, 0, 2],
  some [⟨"f", 10, "A"⟩, ⟨"f", 11, "B"⟩, ⟨"f", 12, "C"⟩]⟩

example : Featured sample [2, 0, 2] [⟨"f", 10, "A"⟩, ⟨"f", 11, "B"⟩, ⟨"f", 12, "C"⟩] :=
  ⟨rfl, rfl, rfl, by decide⟩
example : filteredByCellMask sample (fun c => decide (c ≤ 4)) true true =
    .ok (some (⟨[⟨0, 4, 1, 0⟩], some [0], some [⟨"f", 12, "C"⟩]⟩, [0])) := by decide
example : filteredByLayerRange ⟨3, 2, 2⟩ sample (some 1) (some 2) false =
    .ok (some (⟨[⟨4, 8, 1, 0⟩], some [2], some [⟨"f", 10, "A"⟩, ⟨"f", 11, "B"⟩, ⟨"f", 12, "C"⟩]⟩, [2])) := by decide

/-! ## Merging -/

/-- C51: appending concatenates the connections and every connection keeps its feature. -/
theorem C51_append {g o : Gcs} {fi fi' : List Nat} {fl fl' : List Feature} (hg : Featured g fi fl) (ho : Featured o fi' fl') :
    (append g o).conns = g.conns ++ o.conns ∧
    (∀ n, n < g.conns.length → featureOf (append g o) n = featureOf g n) ∧
    (∀ n, n < o.conns.length → featureOf (append g o) (g.conns.length + n) = featureOf o n) ∧
    ∃ fi'' fl'', Featured (append g o) fi'' fl'' := by
  unfold append
  by_cases h0 : g.conns.length = 0
  · have hnil : g.conns = [] := List.length_eq_zero_iff.mp h0
    rw [if_pos h0]
    refine ⟨by rw [hnil, List.nil_append], fun n hn => by omega, fun n hn => by rw [h0, Nat.zero_add], fi', fl', ho⟩
  · rw [if_neg h0]
    simp only [hg.list, ho.list, hg.indices, ho.indices]
    refine ⟨trivial, fun n hn => ?_, fun n hn => ?_, _, _, ⟨rfl, rfl, ?_, ?_⟩⟩
    · have hn' : n < fi.length := by rw [hg.length]; exact hn
      simp only [featureOf, hg.indices, hg.list]
      rw [List.getElem?_append_left hn', List.getElem?_eq_getElem hn']
      simp only [Option.bind_some]
      rw [List.getElem?_append_left (hg.range _ (List.getElem_mem hn'))]
    · have hn' : n < fi'.length := by rw [ho.length]; exact hn
      simp only [featureOf, ho.indices, ho.list]
      rw [List.getElem?_append_right (by rw [hg.length]; omega), hg.length, Nat.add_sub_cancel_left, List.getElem?_map,
        List.getElem?_eq_getElem hn']
      simp only [Option.map_some, Option.bind_some]
      rw [List.getElem?_append_right (by omega), Nat.add_sub_cancel]
    · simp [hg.length, ho.length]
    · intro x hx
      rw [List.mem_append, List.mem_map] at hx
      rw [List.length_append]
      rcases hx with hx | ⟨y, hy, rfl⟩
      · have := hg.range x hx; omega
      · have := ho.range y hy; omega

/-- position of a connection of the `s`th set in the merged list -/
def offset (sets : List Gcs) (s : Nat) : Nat := ((sets.take s).map fun g => g.conns.length).sum

/-- C51: merging any number of sets, as `from_gcs_uuid_list` does by appending, puts their connections one after the other and
every connection keeps the feature it had. -/
theorem C51_merge (g : Gcs) (rest : List Gcs) (hf : ∀ x ∈ g :: rest, ∃ fi fl, Featured x fi fl) :
    (rest.foldl append g).conns = ((g :: rest).map (·.conns)).flatten ∧
    (∀ (s : Nat) x, (g :: rest)[s]? = some x → ∀ n, n < x.conns.length →
      featureOf (rest.foldl append g) (offset (g :: rest) s + n) = featureOf x n) ∧
    ∃ fi fl, Featured (rest.foldl append g) fi fl := by
  induction rest generalizing g with
  | nil =>
    refine ⟨by simp, fun s x hs n hn => ?_, hf g (by simp)⟩
    cases s with
    | zero => simp at hs; subst hs; simp [offset]
    | succ s => simp at hs
  | cons o rest ih =>
    obtain ⟨fi, fl, hg⟩ := hf g (by simp)
    obtain ⟨fi', fl', ho⟩ := hf o (by simp)
    obtain ⟨a1, a2, a3, a4⟩ := C51_append hg ho
    obtain ⟨h1, h2, h3⟩ := ih (append g o) fun x hx => by
      rcases List.mem_cons.mp hx with rfl | hx
      · exact a4
      · exact hf x (by simp [hx])
    refine ⟨by rw [List.foldl_cons, h1]; simp [a1], fun s x hs n hn => ?_, h3⟩
    rw [List.foldl_cons]
    rcases s with _ | _ | s
    · simp at hs
      subst hs
      have := h2 0 (append g o) (by simp) n (by rw [a1, List.length_append]; omega)
      simp only [offset, List.take_zero, List.map_nil, List.sum_nil, Nat.zero_add] at this ⊢
      rw [this, a2 n hn]
    · simp at hs
      subst hs
      have := h2 0 (append g o) (by simp) (g.conns.length + n) (by rw [a1, List.length_append]; omega)
      simp only [offset, List.take_zero, List.map_nil, List.sum_nil, Nat.zero_add] at this
      simp only [offset, List.take_succ_cons, List.take_zero, List.map_cons, List.map_nil, List.sum_cons, List.sum_nil, Nat.add_zero]
      rw [this, a3 n hn]
    · have := h2 (s + 1) x (by simpa using hs) n hn
      have e : offset (append g o :: rest) (s + 1) = offset (g :: o :: rest) (s + 1 + 1) := by
        simp only [offset, List.take_succ_cons, List.map_cons, List.sum_cons, a1, List.length_append]
        omega
      rw [← e]
      exact this

example : (append sample sample).conns.length = 6 ∧ featureOf (append sample sample) 4 = some ⟨"f", 10, "A"⟩ := by decide

/-! ## Finding a feature by name -/

/-- C50, names: a name found is that of a feature whose title starts with it.  Missing: the feature need not have that name
(`C50_name_prefix_violated`). -/
theorem C50_feature_by_name_partial (fl : List Feature) (name : String) :
    (∀ n u, featureIndexForName fl name = some (n, u) → ∃ f, fl[n]? = some f ∧ f.uuid = u ∧ name.toList <+: f.title.toList) ∧
    (featureIndexForName fl name = none → ∀ f ∈ fl, f.title ≠ name) := by
  unfold featureIndexForName
  constructor
  · intro n u h
    rw [Option.map_eq_some_iff] at h
    obtain ⟨⟨f, m⟩, hf, he⟩ := h
    simp only [Prod.mk.injEq] at he
    obtain ⟨rfl, rfl⟩ := he
    have h1 := List.mem_of_find?_eq_some hf
    have h2 := List.find?_some hf
    rw [List.mem_zipIdx_iff_getElem?] at h1
    exact ⟨f, h1, rfl, List.isPrefixOf_iff_prefix.mp h2⟩
  · intro h f hf he
    rw [Option.map_eq_none_iff, List.find?_eq_none] at h
    obtain ⟨n, hn⟩ := List.mem_iff_getElem?.mp hf
    have := h (f, n) (List.mem_zipIdx_iff_getElem?.mpr hn)
    simp [he] at this

/-- C50 does not hold for a fault whose name starts another's: the other fault is returned. -/
theorem C50_name_prefix_violated :
    featureIndexForName [⟨"f", 10, "F10"⟩, ⟨"f", 1, "F1"⟩] "F1" = some (0, 10) := by decide +kernel

end Verif.Gcs
