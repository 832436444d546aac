import Verif.Refine.Lemmas

/-! # The walk along the K axis -/

namespace Verif.Refine
open Verif.Py Verif.FineCoarse Verif.Box

variable {V : Type} [AddCommGroup V] [Module ℚ V]

/-- there is a K gap after coarse layer `c` -/
def gapAt (src : Grid V) (n c : Nat) : Bool := src.hasGaps && decide (c + 1 < n) && src.after c

/-- the number of gaps after a layer -/
def gapN (src : Grid V) (n c : Nat) : Nat := if gapAt src n c then 1 else 0

/-- the stops of a coarse layer -/
def kSlice (src : Grid V) (n : Nat) (R : Nat → Nat) (p : Nat → List ℚ) (c : Nat) : List KStop :=
  ((List.range (R c)).map fun l => ((c, some ((p c).take l).sum, false) : KStop)) ++ if gapAt src n c then [(c, some 1, true)] else []

theorem kSlice_length (src : Grid V) (n : Nat) (R : Nat → Nat) (p : Nat → List ℚ) (c : Nat) :
    (kSlice src n R p c).length = R c + gapN src n c := by
  unfold kSlice gapN
  rw [List.length_append, List.length_map, List.length_range]
  split <;> rfl

theorem kStops_eq {src : Grid V} {a : Axis} {n : Nat} {R : Nat → Nat} {p : Nat → List ℚ} (d : AxisData a n R p) :
    kStops src a = .ok ((List.range n).flatMap (kSlice src n R p) ++ [(n, none, false)]) := by
  have hn : a.coarse.toNat = n := by rw [d.coarse]; rfl
  unfold kStops
  rw [hn, collect_ok n _ (kSlice src n R p)]
  intro c hc
  rw [d.interp c hc]
  dsimp only
  rw [List.map_map]
  unfold kSlice gapAt
  have : decide ((c : Int) < a.coarse - 1) = decide (c + 1 < n) := by
    rw [d.coarse]
    apply decide_eq_decide.2
    omega
  rw [this]
  rfl

theorem fold_plain (h : Bool) (nk : Nat) (c : Nat) (t : Nat → ℚ) (m : Nat) (st : KState) :
    ((List.range m).map fun l => ((c, some (t l), false) : KStop)).foldl (kStep h nk) st =
      { st with fk := st.fk + m,
                raw := fun k => if h = true ∧ st.fk ≤ k ∧ k < st.fk + m ∧ k < nk then k + st.gaps else st.raw k } := by
  induction m with
  | zero =>
    rw [List.range_zero, List.map_nil, List.foldl_nil]
    obtain ⟨a, b, c', d⟩ := st
    congr 1
    funext k
    rw [if_neg]
    dsimp only
    omega
  | succ m ih =>
    rw [List.range_succ, List.map_append, List.foldl_append, ih, List.map_singleton, List.foldl_cons, List.foldl_nil]
    unfold kStep
    dsimp only
    rw [if_neg (by simp)]
    congr 1
    funext k
    cases h with
    | false => simp
    | true =>
      by_cases hf : st.fk + m < nk
      · rw [if_pos (by simpa using hf)]
        by_cases hk : k = st.fk + m
        · rw [if_pos hk, if_pos ⟨rfl, by omega, by omega, by omega⟩, hk]
        · rw [if_neg hk]
          by_cases hr : st.fk ≤ k ∧ k < st.fk + m ∧ k < nk
          · rw [if_pos ⟨rfl, hr⟩, if_pos ⟨rfl, by omega, by omega, by omega⟩]
          · rw [if_neg (fun h => hr h.2), if_neg (fun h => hr ⟨h.2.1, by omega, h.2.2.2⟩)]
      · rw [if_neg (by simpa using hf)]
        by_cases hr : st.fk ≤ k ∧ k < st.fk + m ∧ k < nk
        · rw [if_pos ⟨rfl, hr⟩, if_pos ⟨rfl, by omega, by omega, by omega⟩]
        · rw [if_neg (fun h => hr h.2), if_neg (fun h => hr ⟨h.2.1, by omega, h.2.2.2⟩)]

/-- the loop variables after a number of coarse layers -/
structure KInv (src : Grid V) (n : Nat) (R : Nat → Nat) (m : Nat) (st : KState) : Prop where
  fk : st.fk = B R m
  gaps : st.gaps = B (gapN src n) m
  raw : src.hasGaps = true → ∀ c l, c < m → l < R c → st.raw (B R c + l) = B R c + l + B (gapN src n) c
  after : ∀ k, st.after k = true ↔ ∃ c, c < m ∧ gapAt src n c = true ∧ k + 1 = B R (c + 1)

theorem kInv {src : Grid V} {a : Axis} {n : Nat} {R : Nat → Nat} {p : Nat → List ℚ} (d : AxisData a n R p) (m : Nat) (hm : m ≤ n) :
    KInv src n R m (((List.range m).flatMap (kSlice src n R p)).foldl (kStep src.hasGaps (B R n))
      ⟨0, 0, fun _ => false, fun _ => 0⟩) := by
  induction m with
  | zero =>
    refine ⟨rfl, rfl, fun _ c l h => by omega, fun k => ?_⟩
    constructor
    · intro h; cases h
    · rintro ⟨c, h, -⟩; omega
  | succ m ih =>
    have inv := ih (by omega)
    rw [List.range_succ, List.flatMap_append, List.foldl_append, List.flatMap_singleton]
    generalize ((List.range m).flatMap (kSlice src n R p)).foldl (kStep src.hasGaps (B R n)) ⟨0, 0, fun _ => false, fun _ => 0⟩ = st
      at inv
    have hBn : B R m + R m ≤ B R n := by
      have := B_mono R (a := m + 1) (b := n) (by omega)
      rwa [B] at this
    have hpos := d.pos m (by omega)
    unfold kSlice
    rw [List.foldl_append, fold_plain]
    have hraw : src.hasGaps = true → ∀ c l, c < m + 1 → l < R c →
        (if src.hasGaps = true ∧ st.fk ≤ B R c + l ∧ B R c + l < st.fk + R m ∧ B R c + l < B R n then B R c + l + st.gaps
          else st.raw (B R c + l)) = B R c + l + B (gapN src n) c := by
      intro hg c l hc hl
      rw [inv.fk, inv.gaps]
      by_cases hcm : c = m
      · subst hcm
        rw [if_pos ⟨hg, by omega, by omega, by omega⟩]
      · have := B_mono R (a := c + 1) (b := m) (by omega)
        rw [B] at this
        rw [if_neg (by omega), inv.raw hg c l (by omega) hl]
    cases hgap : gapAt src n m with
    | false =>
      rw [if_neg (by simp), List.foldl_nil]
      refine ⟨by dsimp only; rw [inv.fk, B], by dsimp only; rw [inv.gaps, B, gapN, hgap]; rfl, hraw, fun k => ?_⟩
      dsimp only
      rw [inv.after]
      constructor
      · rintro ⟨c, h1, h2, h3⟩; exact ⟨c, by omega, h2, h3⟩
      · rintro ⟨c, h1, h2, h3⟩
        refine ⟨c, ?_, h2, h3⟩
        by_contra hc
        have : c = m := by omega
        rw [this, hgap] at h2
        cases h2
    | true =>
      have hg : src.hasGaps = true := by
        unfold gapAt at hgap
        simp only [Bool.and_eq_true] at hgap
        exact hgap.1.1
      rw [if_pos rfl, List.foldl_cons, List.foldl_nil]
      unfold kStep
      dsimp only
      rw [if_pos rfl]
      refine ⟨by dsimp only; rw [inv.fk, B], by dsimp only; rw [inv.gaps, B, gapN, hgap]; rfl, hraw, fun k => ?_⟩
      dsimp only
      rw [if_pos hg, inv.fk]
      by_cases hk : k = B R m + R m - 1
      · rw [if_pos hk]
        refine ⟨fun _ => ⟨m, by omega, hgap, by rw [B]; omega⟩, fun _ => rfl⟩
      · rw [if_neg hk, inv.after]
        constructor
        · rintro ⟨c, h1, h2, h3⟩; exact ⟨c, by omega, h2, h3⟩
        · rintro ⟨c, h1, h2, h3⟩
          refine ⟨c, ?_, h2, h3⟩
          by_contra hc
          have : c = m := by omega
          rw [this, B] at h3
          omega

/-- the loop variables at the end -/
theorem kFinal {src : Grid V} {a : Axis} {n : Nat} {R : Nat → Nat} {p : Nat → List ℚ} (d : AxisData a n R p) {ks : List KStop}
    (hk : kStops src a = .ok ks) :
    ∃ st, ks.foldl (kStep src.hasGaps (B R n)) ⟨0, 0, fun _ => false, fun _ => 0⟩ = { st with fk := st.fk + 1 } ∧ KInv src n R n st := by
  rw [kStops_eq d] at hk
  cases hk
  refine ⟨_, ?_, kInv (src := src) d n (Nat.le_refl _)⟩
  have inv := kInv (src := src) d n (Nat.le_refl _)
  rw [List.foldl_append, List.foldl_cons, List.foldl_nil]
  generalize ((List.range n).flatMap (kSlice src n R p)).foldl (kStep src.hasGaps (B R n)) ⟨0, 0, fun _ => false, fun _ => 0⟩ = st
    at inv
  unfold kStep
  rw [if_neg (by simp), if_neg]
  simp [inv.fk]

theorem B_add (R G : Nat → Nat) (n : Nat) : B (fun c => R c + G c) n = B R n + B G n := by
  induction n with
  | zero => rfl
  | succ n ih => rw [B, B, B, ih]; omega

/-- the raw index of the top of a layer -/
def rawOf (g : Grid V) (k : Nat) : Nat := if g.hasGaps then g.raw k else k

/-- the plane of points at each fine interface of a coarse layer, including that at its end -/
theorem kStops_value {src : Grid V} {a : Axis} {n : Nat} {R : Nat → Nat} {p : Nat → List ℚ} (d : AxisData a n R p) {ks : List KStop}
    (hk : kStops src a = .ok ks) (hn : src.nk = n) (hg : src.hasGaps = true → GapsSound src) (c l : Nat) (hc : c < n) (hl : l ≤ R c)
    (j i : Nat) :
    ∃ s, ks[B R c + l + B (gapN src n) c]? = some s ∧
      kPlane src s j i = lin (src.pts (rawOf src c) j i) (src.pts (rawOf src c + 1) j i) (cut (p c) l) := by
  rw [kStops_eq d] at hk
  cases hk
  obtain ⟨g1, g2⟩ := getElem_flatMap_range n (kSlice src n R p) (fun c => R c + gapN src n c) fun c _ => kSlice_length src n R p c
  rw [B_add] at g1
  have hlen := d.len c hc
  have hS : ∀ c l, c < n → l < R c + gapN src n c →
      ((List.range n).flatMap (kSlice src n R p) ++ [((n, none, false) : KStop)])[B R c + l + B (gapN src n) c]? =
        (kSlice src n R p c)[l]? := by
    intro c l hc hl
    have h := g2 c l hc hl
    rw [B_add] at h
    have hm := B_mono (fun c => R c + gapN src n c) (a := c + 1) (b := n) (by omega)
    rw [B, B_add, B_add] at hm
    rw [List.getElem?_append_left (by omega), ← h]
    congr 1
    omega
  have hin : ∀ c l, c < n → l < R c → (kSlice src n R p c)[l]? = some (c, some ((p c).take l).sum, false) := by
    intro c l _ hl
    unfold kSlice
    rw [List.getElem?_append_left (by simpa using hl), List.getElem?_map, List.getElem?_range hl]
    rfl
  by_cases hlt : l < R c
  · refine ⟨_, (hS c l hc (by omega)).trans (hin c l hc hlt), ?_⟩
    simp only [kPlane, lin, rawOf, cut, hlen, if_neg (show ¬ l = R c by omega)]
    split <;> rw [add_comm]
  · have hle : l = R c := by omega
    have hcut : cut (p c) l = 1 := by rw [cut, if_pos (by omega)]
    rw [hcut, hle]
    cases hgap : gapAt src n c with
    | true =>
      have h1 : gapN src n c = 1 := by rw [gapN, hgap]; rfl
      refine ⟨(c, some 1, true), ?_, ?_⟩
      · rw [hS c (R c) hc (by omega)]
        unfold kSlice
        rw [List.getElem?_append_right (by simp), hgap]
        simp
      · simp only [kPlane, lin, rawOf]
        split <;> simp
    | false =>
      have h0 : gapN src n c = 0 := by rw [gapN, hgap]; rfl
      by_cases hcn : c + 1 < n
      · have hpos := d.pos _ hcn
        refine ⟨(c + 1, some 0, false), ?_, ?_⟩
        · have := (hS (c + 1) 0 hcn (by omega)).trans (hin (c + 1) 0 hcn hpos)
          rw [B, B, h0] at this
          simpa using this
        · simp only [kPlane, lin, rawOf]
          by_cases hh : src.hasGaps = true
          · have hnext := (hg hh).next c (by omega)
            have : src.after c = false := by
              unfold gapAt at hgap
              rw [hh, decide_eq_true hcn] at hgap
              simpa using hgap
            rw [this, if_neg (by simp), Nat.add_zero] at hnext
            rw [if_pos hh, if_pos hh, hnext]
            simp
          · rw [if_neg hh, if_neg hh]
            simp
      · have hcn' : n = c + 1 := by omega
        have e1 : B R n = B R c + R c := by rw [hcn', B]
        have e2 : B (gapN src n) n = B (gapN src n) c := by
          conv_lhs => rw [show B (gapN src n) n = B (gapN src n) (c + 1) by rw [← hcn']]
          rw [B, h0, Nat.add_zero]
        refine ⟨(n, none, false), ?_, ?_⟩
        · rw [List.getElem?_append_right (by rw [g1]; omega), g1,
            show B R c + R c + B (gapN src n) c - (B R n + B (gapN src n) n) = 0 by omega]
          rfl
        · simp only [kPlane, lin, rawOf]
          rw [show n - 1 = c by omega]
          split
          · simp
          · rw [hcn']; simp

end Verif.Refine
