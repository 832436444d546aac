import Verif.Zones.Spec
import Mathlib.Tactic.Tauto
import Mathlib.Data.List.Chain

/-! # C32: zone layer ranges -/

namespace Verif.Zones

open Verif.Py

theorem mem_window {layers : List Layer} {lo hi : Nat} {x : Nat × Layer} :
    x ∈ window layers lo hi ↔ (lo ≤ x.1 ∧ x.1 ≤ hi) ∧ x.2 = layers.getD x.1 [] := by
  unfold window
  rw [List.mem_map]
  constructor
  · rintro ⟨k, hk, rfl⟩
    rw [List.mem_range'_1] at hk
    exact ⟨⟨hk.1, by omega⟩, rfl⟩
  · rintro ⟨⟨h1, h2⟩, h3⟩
    exact ⟨x.1, by rw [List.mem_range'_1]; omega, by rw [← h3]⟩

theorem window_sorted (layers : List Layer) (lo hi : Nat) :
    (window layers lo hi).Pairwise (fun x y => x.1 < y.1) := by
  unfold window
  rw [List.pairwise_map]
  exact List.pairwise_lt_range' ..

theorem find_first {α : Type} {r : α → α → Prop} {p : α → Bool} {l : List α} {x : α} (hs : l.Pairwise r)
    (h : l.find? p = some x) : p x = true ∧ x ∈ l ∧ ∀ y ∈ l, p y = true → y = x ∨ r x y := by
  rw [List.find?_eq_some_iff_append] at h
  obtain ⟨hp, as, bs, rfl, hn⟩ := h
  refine ⟨hp, by simp, fun y hy hpy => ?_⟩
  rw [List.mem_append, List.mem_cons] at hy
  rcases hy with hy | hy | hy
  · have := hn y hy
    rw [hpy] at this
    simp at this
  · exact Or.inl hy
  · right
    rw [List.pairwise_append] at hs
    exact (List.pairwise_cons.1 hs.2.1).1 y hy

theorem anyIn_iff (layers : List Layer) (k : Nat) (z : Int) : anyIn (layers.getD k []) z = true ↔ Active layers k z := by
  unfold anyIn Active
  rw [List.getD_eq_getElem?_getD]
  cases h : layers[k]? with
  | none => simp
  | some l => simp [List.any_eq_true]

theorem allIn_iff (layers : List Layer) (k : Nat) (z : Int) : allIn (layers.getD k []) z = true ↔ WhollyIn layers k z := by
  unfold allIn WhollyIn Active
  rw [List.getD_eq_getElem?_getD]
  cases h : layers[k]? with
  | none => simp
  | some l =>
    simp only [Option.getD_some, Bool.and_eq_true, List.all_eq_true, Bool.or_eq_true, beq_iff_eq, List.any_eq_true,
      bne_iff_ne, ne_eq, Option.some.injEq, exists_eq_left']
    constructor
    · rintro ⟨h1, c, hc, hn⟩
      refine ⟨?_, ?_⟩
      · rcases h1 c hc with h2 | h2
        · exact absurd h2 hn
        · rw [← h2]; exact hc
      · intro z' hz'
        rcases h1 _ hz' with h2 | h2
        · cases h2
        · exact Option.some.inj h2
    · rintro ⟨h1, h2⟩
      refine ⟨?_, some z, h1, by simp⟩
      intro c hc
      cases c with
      | none => left; rfl
      | some z' => right; rw [h2 z' hc]

/-- what is known of each range -/
structure Good (layers : List Layer) (lo hi : Nat) (r : Nat × Nat × Int) : Prop where
  lo_le : lo ≤ r.1
  le : r.1 ≤ r.2.1
  le_hi : r.2.1 ≤ hi
  all : ∀ k, r.1 ≤ k → k ≤ r.2.1 → WhollyIn layers k r.2.2
  only : ∀ k, lo ≤ k → k ≤ hi → Active layers k r.2.2 → r.1 ≤ k ∧ k ≤ r.2.1

theorem zoneRange_spec (layers : List Layer) (lo hi : Nat) (z : Int) :
    (zoneRange layers lo hi z = .ok none ∧ ∀ k, lo ≤ k → k ≤ hi → ¬ Active layers k z) ∨
      (∃ r, zoneRange layers lo hi z = .ok (some r) ∧ r.2.2 = z ∧ Good layers lo hi r) ∨
      (zoneRange layers lo hi z = .error .assertion ∧
        ∃ a b k, a ≤ k ∧ k ≤ b ∧ lo ≤ a ∧ b ≤ hi ∧ Active layers a z ∧ Active layers b z ∧ ¬ WhollyIn layers k z) := by
  unfold zoneRange
  cases h1 : (window layers lo hi).find? (fun kl => anyIn kl.2 z) with
  | none =>
    left
    refine ⟨rfl, fun k h3 h4 ha => ?_⟩
    rw [List.find?_eq_none] at h1
    exact h1 (k, layers.getD k []) (mem_window.2 ⟨⟨h3, h4⟩, rfl⟩) ((anyIn_iff layers k z).2 ha)
  | some first =>
    dsimp only
    cases h2 : (window layers lo hi).reverse.find? (fun kl => anyIn kl.2 z) with
    | none =>
      exfalso
      rw [List.find?_eq_none] at h2
      have := find_first (window_sorted layers lo hi) h1
      exact h2 first (List.mem_reverse.2 this.2.1) this.1
    | some last =>
      dsimp only
      obtain ⟨f1, f2, f3⟩ := find_first (window_sorted layers lo hi) h1
      obtain ⟨g1, g2, g3⟩ := find_first (List.pairwise_reverse.2 (window_sorted layers lo hi)) h2
      rw [List.mem_reverse] at g2
      have mf := mem_window.1 f2
      have mg := mem_window.1 g2
      rw [mf.2, anyIn_iff] at f1
      rw [mg.2, anyIn_iff] at g1
      have honly : ∀ k, lo ≤ k → k ≤ hi → Active layers k z → first.1 ≤ k ∧ k ≤ last.1 := by
        intro k h3 h4 ha
        have hm : (k, layers.getD k []) ∈ window layers lo hi := mem_window.2 ⟨⟨h3, h4⟩, rfl⟩
        have hk := (anyIn_iff layers k z).2 ha
        constructor
        · rcases f3 _ hm hk with h | h
          · rw [← h]
          · exact Nat.le_of_lt h
        · rcases g3 _ (List.mem_reverse.2 hm) hk with h | h
          · rw [← h]
          · exact Nat.le_of_lt h
      have hle := (honly first.1 mf.1.1 mf.1.2 f1).2
      split
      · rename_i hall
        right; left
        refine ⟨_, rfl, rfl, mf.1.1, hle, mg.1.2, ?_, honly⟩
        intro k h3 h4
        rw [List.all_eq_true] at hall
        have := hall (k, layers.getD k []) (mem_window.2 ⟨⟨h3, h4⟩, rfl⟩)
        exact (allIn_iff layers k z).1 this
      · rename_i hall
        right; right
        refine ⟨rfl, ?_⟩
        rw [List.all_eq_true] at hall
        push Not at hall
        obtain ⟨x, hx, hn⟩ := hall
        have mx := mem_window.1 hx
        refine ⟨first.1, last.1, x.1, mx.1.1, mx.1.2, mf.1.1, mg.1.2, f1, g1, ?_⟩
        intro hw
        apply hn
        rw [mx.2]
        exact (allIn_iff layers x.1 z).2 hw

theorem collect_good (layers : List Layer) (lo hi : Nat) (zs : List Int) (rs : List (Nat × Nat × Int))
    (h : collect layers lo hi zs = .ok rs) :
    (∀ r ∈ rs, Good layers lo hi r) ∧ (rs.map (·.2.2)).Sublist zs ∧
      (∀ z ∈ zs, ∀ k, lo ≤ k → k ≤ hi → Active layers k z → ∃ r ∈ rs, r.2.2 = z) := by
  induction zs generalizing rs with
  | nil => rw [collect] at h; cases h; simp
  | cons z zs ih =>
    rw [collect] at h
    rcases zoneRange_spec layers lo hi z with ⟨e, hn⟩ | ⟨r, e, hz, hg⟩ | ⟨e, _⟩
    · rw [e] at h
      dsimp only at h
      cases hc : collect layers lo hi zs with
      | error e => rw [hc] at h; cases h
      | ok rs' =>
        rw [hc] at h
        cases h
        obtain ⟨i1, i2, i3⟩ := ih rs' hc
        refine ⟨by simpa using i1, by simpa using i2.cons z, ?_⟩
        intro z' hz' k h1 h2 ha
        rcases List.mem_cons.1 hz' with rfl | hz'
        · exact absurd ha (hn k h1 h2)
        · obtain ⟨r, hr, hrz⟩ := i3 z' hz' k h1 h2 ha
          exact ⟨r, by simpa using hr, hrz⟩
    · rw [e] at h
      dsimp only at h
      cases hc : collect layers lo hi zs with
      | error e => rw [hc] at h; cases h
      | ok rs' =>
        rw [hc] at h
        cases h
        obtain ⟨i1, i2, i3⟩ := ih rs' hc
        refine ⟨?_, ?_, ?_⟩
        · intro r' hr'
          simp only [Option.toList_some, List.cons_append, List.nil_append, List.mem_cons] at hr'
          rcases hr' with rfl | hr'
          · exact hg
          · exact i1 r' hr'
        · simp only [Option.toList_some, List.cons_append, List.nil_append, List.map_cons, hz]
          exact i2.cons_cons z
        · intro z' hz' k h1 h2 ha
          rcases List.mem_cons.1 hz' with rfl | hz'
          · exact ⟨r, by simp, hz⟩
          · obtain ⟨r, hr, hrz⟩ := i3 z' hz' k h1 h2 ha
            exact ⟨r, by simp [hr], hrz⟩
    · rw [e] at h; cases h

theorem zoneList_nodup (layers : List Layer) : (zoneList layers).Nodup := by
  unfold zoneList
  exact (List.perm_insertionSort (· ≤ ·) _).nodup_iff.2 (List.nodup_dedup _)

theorem mem_zoneList {layers : List Layer} {k : Nat} {z : Int} (h : Active layers k z) : z ∈ zoneList layers := by
  obtain ⟨l, hl, hz⟩ := h
  unfold zoneList
  rw [(List.perm_insertionSort (· ≤ ·) _).mem_iff, List.mem_dedup, List.mem_filterMap]
  refine ⟨some z, ?_, rfl⟩
  rw [List.mem_flatten]
  exact ⟨l, List.mem_of_getElem? hl, hz⟩

theorem wholly_unique {layers : List Layer} {k : Nat} {z z' : Int} (h : WhollyIn layers k z) (h' : WhollyIn layers k z') :
    z = z' := h'.2 z h.1

instance : Std.Total tupleLe := ⟨fun a b => by unfold tupleLe; omega⟩
instance : IsTrans _ tupleLe := ⟨fun a b c => by unfold tupleLe; omega⟩

/-- the ranges in order do not overlap -/
theorem sorted_disjoint (layers : List Layer) (lo hi : Nat) (rs : List (Nat × Nat × Int))
    (hg : ∀ r ∈ rs, Good layers lo hi r) (hn : (rs.map (·.2.2)).Nodup) :
    (rs.insertionSort tupleLe).Pairwise (fun a b => a.2.1 < b.1) := by
  have hs := List.pairwise_insertionSort tupleLe rs
  have hp := List.perm_insertionSort tupleLe rs
  have hn' : ((rs.insertionSort tupleLe).map (·.2.2)).Nodup := (hp.map _).nodup_iff.2 hn
  have hg' : ∀ r ∈ rs.insertionSort tupleLe, Good layers lo hi r := fun r hr => hg r (hp.mem_iff.1 hr)
  generalize rs.insertionSort tupleLe = l at *
  rw [List.Nodup, List.pairwise_map] at hn'
  refine List.Pairwise.imp_of_mem ?_ (hs.and hn')
  rintro a b ha hb ⟨hab, hne⟩
  by_contra hlt
  have ga := hg' a ha
  have gb := hg' b hb
  have hab' : a.1 ≤ b.1 := by unfold tupleLe at hab; omega
  exact hne (wholly_unique (ga.all b.1 hab' (by omega)) (gb.all b.1 (le_refl _) gb.le))

theorem checkGaps_iff (l : List (Nat × Nat × Int)) :
    checkGaps l = .ok () ↔ l.IsChain (fun a b => b.1 = a.2.1 + 1) := by
  induction l with
  | nil => simp [checkGaps]
  | cons a l ih =>
    cases l with
    | nil => simp [checkGaps]
    | cons b l =>
      rw [checkGaps, List.isChain_cons_cons]
      split
      · split
        · simp; omega
        · rw [ih]
          constructor
          · intro h; exact ⟨by omega, h⟩
          · intro h; exact h.2
      · simp; omega

/-- what a successful call has gone through -/
theorem ranges_ok {layers : List Layer} {lo : Nat} {hi : Option Nat} {rs : List (Nat × Nat × Int)}
    (h : zoneLayerRanges layers lo hi = .ok rs) :
    ∃ rs0, collect layers lo (hi.getD (layers.length - 1)) (zoneList layers) = .ok rs0 ∧ rs0 ≠ [] ∧
      rs = rs0.insertionSort tupleLe ∧ checkGaps rs = .ok () := by
  unfold zoneLayerRanges at h
  dsimp only at h
  split at h
  · cases hc : collect layers lo (hi.getD (layers.length - 1)) (zoneList layers) with
    | error e => rw [hc] at h; cases h
    | ok rs0 =>
      rw [hc] at h
      dsimp only at h
      split at h
      · rename_i hlen
        cases hg : checkGaps (rs0.insertionSort tupleLe) with
        | error e => rw [hg] at h; cases h
        | ok u =>
          rw [hg] at h
          cases h
          refine ⟨rs0, rfl, ?_, rfl, hg⟩
          intro h0; subst h0; simp at hlen
      · cases h
  · cases h

/-- When ranges are returned: each starts with the layer after the end of the one before; a layer (of those asked for) is within
the range of a zone exactly when it has active cells and all of them are in that zone; a zone has at most one range;
and every active cell of the layers asked for is in a zone with a range. -/
theorem C32_ranges (layers : List Layer) (lo : Nat) (hi : Option Nat) (rs : List (Nat × Nat × Int))
    (h : zoneLayerRanges layers lo hi = .ok rs) :
    rs ≠ [] ∧ rs.IsChain (fun a b => b.1 = a.2.1 + 1) ∧
      (∀ r ∈ rs, lo ≤ r.1 ∧ r.1 ≤ r.2.1 ∧ r.2.1 ≤ hi.getD (layers.length - 1)) ∧
      (∀ r ∈ rs, ∀ k, lo ≤ k → k ≤ hi.getD (layers.length - 1) →
        ((r.1 ≤ k ∧ k ≤ r.2.1) ↔ WhollyIn layers k r.2.2)) ∧
      (rs.map (·.2.2)).Nodup ∧
      (∀ k z, lo ≤ k → k ≤ hi.getD (layers.length - 1) → Active layers k z → ∃ r ∈ rs, r.2.2 = z ∧ r.1 ≤ k ∧ k ≤ r.2.1) := by
  obtain ⟨rs0, hc, hne, rfl, hgap⟩ := ranges_ok h
  obtain ⟨hg, hsub, hall⟩ := collect_good _ _ _ _ _ hc
  have hp := List.perm_insertionSort tupleLe rs0
  refine ⟨?_, (checkGaps_iff _).1 hgap, ?_, ?_, ?_, ?_⟩
  · intro h0
    rw [h0] at hp
    exact hne (List.nil_perm.1 hp)
  · intro r hr
    have g := hg r (hp.mem_iff.1 hr)
    exact ⟨g.lo_le, g.le, g.le_hi⟩
  · intro r hr k h1 h2
    have g := hg r (hp.mem_iff.1 hr)
    exact ⟨fun h3 => g.all k h3.1 h3.2, fun h3 => g.only k h1 h2 h3.1⟩
  · exact (hp.map _).nodup_iff.2 (hsub.nodup (zoneList_nodup layers))
  · intro k z h1 h2 ha
    obtain ⟨r, hr, hz⟩ := hall z (mem_zoneList ha) k h1 h2 ha
    have g := hg r hr
    refine ⟨r, hp.mem_iff.2 hr, hz, g.only k h1 h2 ?_⟩
    rw [hz]; exact ha

theorem collect_ok (layers : List Layer) (lo hi : Nat) (zs : List Int)
    (h : ∀ z ∈ zs, ∀ a b k, a ≤ k → k ≤ b → lo ≤ a → b ≤ hi → Active layers a z → Active layers b z → WhollyIn layers k z) :
    ∃ rs, collect layers lo hi zs = .ok rs := by
  induction zs with
  | nil => exact ⟨[], rfl⟩
  | cons z zs ih =>
    obtain ⟨rs, hrs⟩ := ih (fun z' hz' => h z' (List.mem_cons_of_mem _ hz'))
    rw [collect]
    rcases zoneRange_spec layers lo hi z with ⟨e, _⟩ | ⟨r, e, _, _⟩ | ⟨_, a, b, k, h1, h2, h3, h4, h5, h6, h7⟩
    · rw [e, hrs]; exact ⟨_, rfl⟩
    · rw [e, hrs]; exact ⟨_, rfl⟩
    · exact absurd (h z (List.mem_cons_self ..) a b k h1 h2 h3 h4 h5 h6) h7

/-- Ranges are returned whenever, between the first and the last of the layers asked for which have active cells, every layer
has active cells all in one zone, and the layers of a zone are not separated by layers of other zones.
Full statement wanted: layers without active cells do not prevent this; see `C32_inactive_layers_violated`. -/
theorem C32_success_partial (layers : List Layer) (lo hi p q : Nat) (hlp : lo ≤ p) (hpq : p ≤ q) (hqh : q ≤ hi)
    (f : Nat → Int) (hin : ∀ k, p ≤ k → k ≤ q → WhollyIn layers k (f k))
    (hout : ∀ k z, lo ≤ k → k ≤ hi → Active layers k z → p ≤ k ∧ k ≤ q)
    (hcont : ∀ a b k, p ≤ a → a ≤ k → k ≤ b → b ≤ q → f a = f b → f k = f a) :
    ∃ rs, zoneLayerRanges layers lo (some hi) = .ok rs := by
  have hact : Active layers p (f p) := (hin p (le_refl _) hpq).1
  obtain ⟨rs, hrs⟩ := collect_ok layers lo hi (zoneList layers) (by
    intro z _ a b k h1 h2 h3 h4 h5 h6
    obtain ⟨a1, a2⟩ := hout a z h3 (by omega) h5
    obtain ⟨b1, b2⟩ := hout b z (by omega) h4 h6
    have ea := (hin a a1 a2).2 z h5
    have eb := (hin b b1 b2).2 z h6
    have := hcont a b k a1 h1 h2 b2 (by rw [← ea, ← eb])
    have hk := hin k (by omega) (by omega)
    rw [this, ← ea] at hk
    exact hk)
  obtain ⟨hg, hsub, hall⟩ := collect_good _ _ _ _ _ hrs
  have hn : (rs.map (·.2.2)).Nodup := hsub.nodup (zoneList_nodup layers)
  have hdis := sorted_disjoint layers lo hi rs hg hn
  have hp := List.perm_insertionSort tupleLe rs
  have hgap : checkGaps (rs.insertionSort tupleLe) = .ok () := by
    rw [checkGaps_iff, List.isChain_iff_forall_rel_of_append_cons_cons]
    intro a b l m hl
    have hga := hg a (hp.mem_iff.1 (by rw [hl]; simp))
    have hgb := hg b (hp.mem_iff.1 (by rw [hl]; simp))
    rw [hl] at hdis
    have hsplit := List.pairwise_append.1 hdis
    have hab : a.2.1 < b.1 := (List.pairwise_cons.1 hsplit.2.1).1 b (by simp)
    by_contra hne
    -- the layer after the end of `a` is in a zone with a range, which has nowhere to be
    have ha1 := (hout a.2.1 a.2.2 (by have := hga.lo_le; have := hga.le; omega) hga.le_hi
      (hga.all a.2.1 hga.le (le_refl _)).1).1
    have hb1 := (hout b.1 b.2.2 hgb.lo_le (by have := hgb.le; have := hgb.le_hi; omega)
      (hgb.all b.1 (le_refl _) hgb.le).1).2
    have hw := hin (a.2.1 + 1) (by omega) (by omega)
    obtain ⟨r, hr, hrz⟩ := hall _ (mem_zoneList hw.1) (a.2.1 + 1) (by omega) (by omega) hw.1
    have hgr := hg r hr
    have hrange := hgr.only (a.2.1 + 1) (by omega) (by omega) (by rw [hrz]; exact hw.1)
    have hr' : r ∈ l ++ a :: b :: m := by rw [← hl]; exact hp.mem_iff.2 hr
    rw [List.mem_append, List.mem_cons, List.mem_cons] at hr'
    rcases hr' with hr' | hr' | hr' | hr'
    · have := hsplit.2.2 r hr' a (by simp)
      have := hga.le
      omega
    · subst hr'; omega
    · subst hr'; omega
    · have := (List.pairwise_cons.1 (List.pairwise_cons.1 hsplit.2.1).2).1 r hr'
      have := hgb.le
      omega
  refine ⟨rs.insertionSort tupleLe, ?_⟩
  unfold zoneLayerRanges
  dsimp only [Option.getD_some]
  have hz : (zoneList layers).length > 0 := by
    have := mem_zoneList hact
    exact List.length_pos_of_mem this
  have hlen : rs.length > 0 := by
    obtain ⟨r, hr, _⟩ := hall _ (mem_zoneList hact) p hlp (by omega) hact
    exact List.length_pos_of_mem hr
  rw [if_pos hz, hrs]
  dsimp only
  rw [if_pos hlen, hgap]

/-- A layer with no active cells stops ranges being found: within a zone it fails the check of consistency, although no active cell
is in another zone; and between zones the missing layer is not assigned to the zone below, as intended, but raises a TypeError. -/
theorem C32_inactive_layers_violated :
    zoneLayerRanges [[some 1, none], [none, none], [some 1, some 1]] 0 none = .error .assertion ∧
      zoneLayerRanges [[some 1, none], [none, none], [some 2, some 2]] 0 none = .error .type := by
  decide +kernel

/-- the hypotheses are met -/
example : zoneLayerRanges [[none, none], [some 3, none], [some 3, some 3], [some 1, some 1], [some 2, none]] 0 none =
    .ok [(1, 2, 3), (3, 3, 1), (4, 4, 2)] := by
  decide +kernel

/-! ## The dominant zone -/

theorem dominate_spec (layer : List Int) (best : Int × Nat) (cs : List Int) (hb : best.2 = layer.count best.1) :
    (∀ c ∈ best.1 :: cs, layer.count c ≤ layer.count (dominate layer best cs).1) ∧
      (dominate layer best cs).1 ∈ best.1 :: cs := by
  induction cs generalizing best with
  | nil => simp [dominate]
  | cons c cs ih =>
    rw [dominate]
    split
    · rename_i h
      obtain ⟨i1, i2⟩ := ih (c, layer.count c) rfl
      refine ⟨?_, List.mem_cons_of_mem _ i2⟩
      intro d hd
      rcases List.mem_cons.1 hd with rfl | hd
      · have := i1 c (List.mem_cons_self ..)
        omega
      · exact i1 d hd
    · rename_i h
      obtain ⟨i1, i2⟩ := ih best hb
      refine ⟨?_, ?_⟩
      · intro d hd
        rcases List.mem_cons.1 hd with rfl | hd
        · exact i1 _ (List.mem_cons_self ..)
        · rcases List.mem_cons.1 hd with rfl | hd
          · have := i1 best.1 (List.mem_cons_self ..)
            omega
          · exact i1 d (List.mem_cons_of_mem _ hd)
      · rcases List.mem_cons.1 i2 with h' | h'
        · rw [h']; exact List.mem_cons_self ..
        · exact List.mem_cons_of_mem _ (List.mem_cons_of_mem _ h')

/-- Replacing each layer by its dominant zone leaves the layer with a single value, one that was in the layer and that no
other value was more common than. -/
theorem C32_dominant (layer : List Int) (hne : layer ≠ []) :
    ∃ z ∈ layer, dominantLayer layer = List.replicate layer.length z ∧ ∀ c, layer.count c ≤ layer.count z := by
  have hp := List.perm_insertionSort (· ≤ ·) (layer.dedup)
  have hmem : ∀ c, c ∈ (layer.dedup).insertionSort (· ≤ ·) ↔ c ∈ layer := by
    intro c; rw [hp.mem_iff, List.mem_dedup]
  unfold dominantLayer
  cases h : (layer.dedup).insertionSort (· ≤ ·) with
  | nil =>
    exfalso
    obtain ⟨a, l, rfl⟩ := List.exists_cons_of_ne_nil hne
    have := (hmem a).2 (List.mem_cons_self ..)
    rw [h] at this
    cases this
  | cons z zs =>
    rw [h] at hmem
    cases zs with
    | nil =>
      have hall : ∀ c ∈ layer, c = z := fun c hc => by simpa using (hmem c).2 hc
      refine ⟨z, (hmem z).1 (by simp), List.eq_replicate_iff.2 ⟨rfl, hall⟩, ?_⟩
      intro c
      by_cases hc : c = z
      · rw [hc]
      · rw [List.count_eq_zero_of_not_mem (fun h' => hc (hall c h'))]
        exact Nat.zero_le _
    | cons y zs =>
      obtain ⟨d1, d2⟩ := dominate_spec layer (z, layer.count z) (y :: zs) rfl
      refine ⟨_, (hmem _).1 d2, rfl, ?_⟩
      intro c
      by_cases hc : c ∈ layer
      · exact d1 c ((hmem c).2 hc)
      · rw [List.count_eq_zero_of_not_mem hc]
        exact Nat.zero_le _

example : dominantLayer [3, 1, 2, 2, 1] = [1, 1, 1, 1, 1] := by decide +kernel

end Verif.Zones
