import Verif.CpGrid.Spec
import Verif.Pillars.Props
import Mathlib.Tactic.Linarith
import Mathlib.Tactic.Ring
import Mathlib.Data.List.Nodup

/-! # Lemmas on the extra pillars of a grid made from corner points -/

namespace Verif.CpGrid
open Verif.Py

variable {K : Type} [Field K] [LinearOrder K] [IsStrictOrderedRing K]

theorem dist_le_iff (a b : Pt K) (d : K) : dist a b ≤ d ↔ Within d a b := by
  unfold dist Within
  rw [max_le_iff, max_le_iff]

theorem dist_self (a : Pt K) : dist a a = 0 := by
  unfold dist
  simp

theorem dist_nonneg (a b : Pt K) : 0 ≤ dist a b := le_max_of_le_left (abs_nonneg _)

theorem within_comm {d : K} {a b : Pt K} (h : Within d a b) : Within d b a := by
  unfold Within at *
  rw [abs_sub_comm b.1, abs_sub_comm b.2.1, abs_sub_comm b.2.2]
  exact h

theorem within_trans {d e : K} {a b c : Pt K} (h : Within d a b) (h' : Within e b c) : Within (d + e) a c := by
  obtain ⟨h1, h2, h3⟩ := h
  obtain ⟨g1, g2, g3⟩ := h'
  exact ⟨(abs_sub_le _ b.1 _).trans (add_le_add h1 g1), (abs_sub_le _ b.2.1 _).trans (add_le_add h2 g2),
    (abs_sub_le _ b.2.2 _).trans (add_le_add h3 g3)⟩

theorem within_zero {a b : Pt K} : Within (0 : K) a b ↔ a = b := by
  unfold Within
  simp only [abs_nonpos_iff, sub_eq_zero]
  constructor
  · rintro ⟨h1, h2, h3⟩
    exact Prod.ext h1 (Prod.ext h2 h3)
  · rintro rfl
    exact ⟨rfl, rfl, rfl⟩

theorem aligned_refl {tol : K} (h : 0 ≤ tol) (a : List (Pt K)) : aligned tol a a = true := by
  induction a with
  | nil => rfl
  | cons x xs ih =>
    unfold aligned at *
    simp only [List.zipWith_cons_cons, List.all_cons, dist_self, ih, Bool.and_true, decide_eq_true_eq]
    exact h

theorem aligned_get {tol : K} {a b : List (Pt K)} (h : aligned tol a b = true) {n : Nat} {x y : Pt K} (hx : a[n]? = some x)
    (hy : b[n]? = some y) : Within tol x y := by
  unfold aligned at h
  rw [List.all_eq_true] at h
  rw [← dist_le_iff]
  have := h (dist x y) (by
    rw [List.mem_iff_getElem?]
    exact ⟨n, by rw [List.getElem?_zipWith, hx, hy]⟩)
  exact of_decide_eq_true this

theorem trace_get (pl : List (Plane K)) (col c : Nat × Nat) (n : Nat) :
    (trace pl col c)[n]? = (pl[n]?).map fun p => p col c := by
  unfold trace
  rw [List.getElem?_map]

/-! ## Extra pillars -/

section extras

variable (nj ni : Nat) (tol : K) (tr : Nat × Nat → Nat × Nat → List (Pt K)) (prim : Nat × Nat → Nat × Nat)

/-- extra pillar `e` at pillar `p` stands for corner `c` -/
def Fits (s : Extras) (p c : Nat × Nat) (e : Nat) : Prop :=
  aligned tol (tr (colOf p c) c) (tr (colOf p (s.list.getD (s.index p + e) (0, 0))) (s.list.getD (s.index p + e) (0, 0))) = true

structure Inv (s : Extras) (ps : List (Nat × Nat)) : Prop where
  enum : (ps.flatMap fun p => (List.range (s.count p)).map fun e => s.index p + e) = List.range s.list.length
  zero : ∀ q, q ∉ ps → s.count q = 0
  useOk : ∀ p c e, hasCol nj ni p c → s.use (colOf p c) c = some e → p ∈ ps ∧ e < s.count p ∧ Fits tol tr s p c e
  ext : ∀ p e, e < s.count p → ∃ c, c ∈ four ∧ hasCol nj ni p c ∧ s.use (colOf p c) c = some e
  bound : ∀ p, 0 < s.count p → s.index p + s.count p ≤ s.list.length
  valid : ∀ p e, e < s.count p → hasCol nj ni p (s.list.getD (s.index p + e) (0, 0)) ∧ s.list.getD (s.index p + e) (0, 0) ∈ four
  last : ∀ p, ps.getLast? = some p → 0 < s.count p → s.index p + s.count p = s.list.length

variable {nj ni tol tr prim}

theorem colOf_inj {p p' c : Nat × Nat} (h : hasCol nj ni p c) (h' : hasCol nj ni p' c) (he : colOf p c = colOf p' c) : p = p' := by
  unfold hasCol at h h'
  unfold colOf at he
  injection he with h1 h2
  exact Prod.ext (by omega) (by omega)

theorem upd_same {β : Type} (f : Nat × Nat → β) (a : Nat × Nat) (b : β) : upd f a b a = b := if_pos rfl

theorem upd_ne {β : Type} (f : Nat × Nat → β) {a x : Nat × Nat} (b : β) (h : x ≠ a) : upd f a b x = f x := if_neg h

/-- reading the uses after one was set -/
theorem use_upd (s : Extras) {p c p' c' : Nat × Nat} (v : Option Nat) (h : hasCol nj ni p c) (h' : hasCol nj ni p' c') :
    upd s.use (colOf p c) (upd (s.use (colOf p c)) c v) (colOf p' c') c' =
      if p' = p ∧ c' = c then v else s.use (colOf p' c') c' := by
  by_cases hc : c' = c
  · subst hc
    by_cases hp : p' = p
    · subst hp
      rw [upd_same, upd_same, if_pos ⟨rfl, rfl⟩]
    · rw [upd_ne _ _ (fun he => hp (colOf_inj h' h he)), if_neg (fun hh => hp hh.1)]
  · rw [if_neg (fun hh => hc hh.2)]
    by_cases hp : colOf p' c' = colOf p c
    · rw [hp, upd_same, upd_ne _ _ hc]
    · rw [upd_ne _ _ hp]

/-- what a step does to the uses -/
theorem appendSingle_use_ne (s : Extras) (p pr c : Nat × Nat) {p' c' : Nat × Nat} (h' : hasCol nj ni p' c')
    (hne : ¬ (p' = p ∧ c' = c)) : (appendSingle nj ni tol tr p pr s c).use (colOf p' c') c' = s.use (colOf p' c') c' := by
  unfold appendSingle
  split
  · rfl
  rename_i hc
  rw [not_not] at hc
  split
  · rfl
  split
  · rfl
  dsimp only
  split
  · dsimp only
    rw [use_upd s _ hc h', if_neg hne]
  · dsimp only
    rw [use_upd s _ hc h', if_neg hne]

/-- after the step for a corner, the corner is covered -/
theorem appendSingle_covers (s : Extras) (p pr c : Nat × Nat) (h : hasCol nj ni p c)
    (hn : (appendSingle nj ni tol tr p pr s c).use (colOf p c) c = none) :
    c = pr ∨ aligned tol (tr (colOf p c) c) (tr (colOf p pr) pr) = true := by
  unfold appendSingle at hn
  rw [if_neg (not_not.2 h)] at hn
  by_cases hp : c = pr
  · exact Or.inl hp
  rw [if_neg hp] at hn
  by_cases ha : aligned tol (tr (colOf p c) c) (tr (colOf p pr) pr) = true
  · exact Or.inr ha
  rw [if_neg ha] at hn
  dsimp only at hn
  split at hn
  · dsimp only at hn
    rw [use_upd s _ h h, if_pos ⟨rfl, rfl⟩] at hn
    cases hn
  · dsimp only at hn
    rw [use_upd s _ h h, if_pos ⟨rfl, rfl⟩] at hn
    cases hn

theorem getD_append_lt (l : List (Nat × Nat)) (x d : Nat × Nat) {n : Nat} (h : n < l.length) : (l ++ [x]).getD n d = l.getD n d := by
  rw [List.getD_eq_getElem?_getD, List.getD_eq_getElem?_getD, List.getElem?_append_left h]

theorem flatMap_congr_mem {α β : Type} {l : List α} {f g : α → List β} (h : ∀ x ∈ l, f x = g x) : l.flatMap f = l.flatMap g := by
  induction l with
  | nil => rfl
  | cons x xs ih =>
    rw [List.flatMap_cons, List.flatMap_cons, h x (by simp), ih (fun y hy => h y (by simp [hy]))]

theorem appendSingle_inv (htol : 0 ≤ tol) {s : Extras} {ps : List (Nat × Nat)} {p : Nat × Nat} (pr : Nat × Nat) {c : Nat × Nat}
    (hp : p ∉ ps) (hc4 : c ∈ four) (hI : Inv nj ni tol tr s (ps ++ [p]))
    (hfree : hasCol nj ni p c → s.use (colOf p c) c = none) :
    Inv nj ni tol tr (appendSingle nj ni tol tr p pr s c) (ps ++ [p]) := by
  unfold appendSingle
  split
  · exact hI
  rename_i hc
  rw [not_not] at hc
  split
  · exact hI
  split
  · exact hI
  have hfree := hfree hc
  dsimp only
  split
  · rename_i e he
    have hlt : e < s.count p := List.mem_range.mp (List.mem_of_find?_eq_some he)
    have hfit := List.find?_some he
    refine ⟨hI.enum, hI.zero, ?_, ?_, hI.bound, hI.valid, hI.last⟩
    · intro p' c' e' h' hu
      dsimp only at hu
      rw [use_upd s _ hc h'] at hu
      split at hu
      · rename_i hh
        obtain ⟨rfl, rfl⟩ := hh
        cases hu
        exact ⟨by simp, hlt, hfit⟩
      · exact hI.useOk p' c' e' h' hu
    · intro p' e' he'
      obtain ⟨c', m4, h', hu⟩ := hI.ext p' e' he'
      refine ⟨c', m4, h', ?_⟩
      dsimp only
      rw [use_upd s _ hc h', if_neg]
      · exact hu
      · rintro ⟨rfl, rfl⟩
        rw [hfree] at hu
        cases hu
  · rename_i hnone
    have hcnt : ∀ q, upd s.count p (s.count p + 1) q = if q = p then s.count p + 1 else s.count q := fun q => rfl
    have hlast : 0 < s.count p → s.index p + s.count p = s.list.length := hI.last p (by simp)
    -- new index of p
    have hidx : ∀ q, (if s.count p = 0 then upd s.index p s.list.length else s.index) q =
        if q = p ∧ s.count p = 0 then s.list.length else s.index q := by
      intro q
      by_cases h0 : s.count p = 0
      · rw [if_pos h0]
        by_cases hq : q = p
        · rw [hq, upd_same, if_pos ⟨rfl, h0⟩]
        · rw [upd_ne _ _ hq, if_neg (fun hh => hq hh.1)]
      · rw [if_neg h0, if_neg (fun hh => h0 hh.2)]
    have hnew : (if s.count p = 0 then upd s.index p s.list.length else s.index) p + s.count p = s.list.length := by
      rw [hidx]
      by_cases h0 : s.count p = 0
      · rw [if_pos ⟨rfl, h0⟩, h0, Nat.add_zero]
      · rw [if_neg (fun hh => h0 hh.2)]
        exact hlast (Nat.pos_of_ne_zero h0)
    -- indices of existing extras are unchanged
    have hold : ∀ q, 0 < s.count q → (if s.count p = 0 then upd s.index p s.list.length else s.index) q = s.index q := by
      intro q hq
      rw [hidx, if_neg]
      rintro ⟨rfl, h0⟩
      omega
    have hfits : ∀ p' c' e', e' < s.count p' → Fits tol tr s p' c' e' →
        Fits tol tr ⟨upd s.count p (s.count p + 1), (if s.count p = 0 then upd s.index p s.list.length else s.index),
          s.list ++ [c], upd s.use (colOf p c) (upd (s.use (colOf p c)) c (some (s.count p)))⟩ p' c' e' := by
      intro p' c' e' he' hf
      have hb := hI.bound p' (by omega)
      unfold Fits at hf ⊢
      dsimp only
      rw [hold p' (by omega), getD_append_lt _ _ _ (by omega)]
      exact hf
    refine ⟨?_, ?_, ?_, ?_, ?_, ?_, ?_⟩
    · dsimp only
      have henum := hI.enum
      rw [List.flatMap_append, List.flatMap_cons, List.flatMap_nil, List.append_nil] at henum ⊢
      rw [List.length_append, List.length_singleton, List.range_succ, ← henum, List.append_assoc]
      congr 1
      · apply flatMap_congr_mem
        intro q hq
        have hqp : q ≠ p := fun h => hp (h ▸ hq)
        rw [upd_ne _ _ hqp, hidx, if_neg (fun hh => hqp hh.1)]
      · rw [upd_same, List.range_succ, List.map_append, List.map_singleton, hnew]
        congr 1
        rcases Nat.eq_zero_or_pos (s.count p) with h0 | h0
        · rw [h0]
          rfl
        · rw [hold p h0]
    · intro q hq
      dsimp only
      have : q ≠ p := by
        rintro rfl
        exact hq (by simp)
      rw [upd_ne _ _ this]
      exact hI.zero q hq
    · intro p' c' e' h' hu
      dsimp only at hu
      rw [use_upd s _ hc h'] at hu
      split at hu
      · rename_i hh
        obtain ⟨rfl, rfl⟩ := hh
        cases hu
        refine ⟨by simp, by dsimp only; rw [upd_same]; omega, ?_⟩
        unfold Fits
        dsimp only
        rw [hnew]
        have : (s.list ++ [c']).getD s.list.length (0, 0) = c' := by
          rw [List.getD_eq_getElem?_getD, List.getElem?_append_right (Nat.le_refl _)]
          simp
        rw [this]
        exact aligned_refl htol _
      · obtain ⟨h1, h2, h3⟩ := hI.useOk p' c' e' h' hu
        refine ⟨h1, ?_, hfits p' c' e' h2 h3⟩
        dsimp only
        rw [hcnt]
        split
        · rename_i hq
          rw [hq] at h2
          omega
        · exact h2
    · intro p' e' he'
      dsimp only at he'
      rw [hcnt] at he'
      have hcase : (e' < s.count p') ∨ (p' = p ∧ e' = s.count p) := by
        split at he'
        · rename_i hq
          rcases Nat.lt_succ_iff_lt_or_eq.mp he' with h | h
          · exact Or.inl (hq ▸ h)
          · exact Or.inr ⟨hq, h⟩
        · exact Or.inl he'
      rcases hcase with he' | ⟨rfl, rfl⟩
      · obtain ⟨c', m4, h', hu⟩ := hI.ext p' e' he'
        refine ⟨c', m4, h', ?_⟩
        dsimp only
        rw [use_upd s _ hc h', if_neg]
        · exact hu
        · rintro ⟨rfl, rfl⟩
          rw [hfree] at hu
          cases hu
      · refine ⟨c, hc4, hc, ?_⟩
        dsimp only
        rw [use_upd s _ hc hc, if_pos ⟨rfl, rfl⟩]
    · intro q hq
      dsimp only at hq ⊢
      rw [List.length_append, List.length_singleton]
      by_cases hqp : q = p
      · subst hqp
        rw [upd_same]
        omega
      · rw [upd_ne _ _ hqp] at hq ⊢
        rw [hold q hq]
        have := hI.bound q hq
        omega
    · intro q e hq
      dsimp only at hq ⊢
      rw [hcnt] at hq
      have hcase : (e < s.count q) ∨ (q = p ∧ e = s.count p) := by
        split at hq
        · rename_i hqp
          rcases Nat.lt_succ_iff_lt_or_eq.mp hq with h | h
          · exact Or.inl (hqp ▸ h)
          · exact Or.inr ⟨hqp, h⟩
        · exact Or.inl hq
      rcases hcase with he | ⟨rfl, rfl⟩
      · have hb := hI.bound q (by omega)
        rw [hold q (by omega), getD_append_lt _ _ _ (by omega)]
        exact hI.valid q e he
      · rw [hnew]
        have : (s.list ++ [c]).getD s.list.length (0, 0) = c := by
          rw [List.getD_eq_getElem?_getD, List.getElem?_append_right (Nat.le_refl _)]
          simp
        rw [this]
        exact ⟨hc, hc4⟩
    · intro q hq hpos
      have : q = p := by simpa using hq.symm
      subst this
      dsimp only
      rw [upd_same, List.length_append, List.length_singleton]
      omega

/-- the corners of a pillar are covered -/
def Covered (nj ni : Nat) (tol : K) (tr : Nat × Nat → Nat × Nat → List (Pt K)) (s : Extras) (p pr c : Nat × Nat) : Prop :=
  hasCol nj ni p c → s.use (colOf p c) c = none → c = pr ∨ aligned tol (tr (colOf p c) c) (tr (colOf p pr) pr) = true

theorem fold_inv (htol : 0 ≤ tol) {ps : List (Nat × Nat)} {p : Nat × Nat} (pr : Nat × Nat) (hp : p ∉ ps)
    (cs : List (Nat × Nat)) (hnd : cs.Nodup) (h4 : ∀ c ∈ cs, c ∈ four) (s : Extras) (hI : Inv nj ni tol tr s (ps ++ [p]))
    (hfree : ∀ c ∈ cs, hasCol nj ni p c → s.use (colOf p c) c = none) :
    Inv nj ni tol tr (cs.foldl (appendSingle nj ni tol tr p pr) s) (ps ++ [p]) ∧
    (∀ c ∈ cs, Covered nj ni tol tr (cs.foldl (appendSingle nj ni tol tr p pr) s) p pr c) ∧
    (∀ p' c', hasCol nj ni p' c' → ¬ (p' = p ∧ c' ∈ cs) →
      (cs.foldl (appendSingle nj ni tol tr p pr) s).use (colOf p' c') c' = s.use (colOf p' c') c') := by
  induction cs generalizing s with
  | nil => exact ⟨hI, fun c hc => (by cases hc), fun _ _ _ _ => rfl⟩
  | cons c cs ih =>
    rw [List.nodup_cons] at hnd
    rw [List.foldl_cons]
    have hI' := appendSingle_inv htol pr hp (h4 c (by simp)) hI (hfree c (by simp))
    obtain ⟨i1, i2, i3⟩ := ih hnd.2 (fun x hx => h4 x (by simp [hx])) _ hI' (by
      intro x hx hxc
      rw [appendSingle_use_ne s p pr c hxc (by rintro ⟨_, rfl⟩; exact hnd.1 hx)]
      exact hfree x (by simp [hx]) hxc)
    refine ⟨i1, ?_, ?_⟩
    · intro x hx
      rcases List.mem_cons.mp hx with rfl | hx
      · intro hcol hn
        rw [i3 p x hcol (by rintro ⟨_, h⟩; exact hnd.1 h)] at hn
        exact appendSingle_covers s p pr x hcol hn
      · exact i2 x hx
    · intro p' c' h' hne
      rw [i3 p' c' h' (by rintro ⟨h1, h2⟩; exact hne ⟨h1, by simp [h2]⟩),
        appendSingle_use_ne s p pr c h' (by rintro ⟨h1, h2⟩; exact hne ⟨h1, by simp [h2]⟩)]

theorem inv_extend {s : Extras} {ps : List (Nat × Nat)} {p : Nat × Nat} (hp : p ∉ ps) (hI : Inv nj ni tol tr s ps) :
    Inv nj ni tol tr s (ps ++ [p]) := by
  have h0 := hI.zero p hp
  refine ⟨?_, ?_, ?_, hI.ext, hI.bound, hI.valid, ?_⟩
  · rw [List.flatMap_append, hI.enum, List.flatMap_cons, h0]
    simp
  · intro q hq
    exact hI.zero q (fun h => hq (by simp [h]))
  · intro p' c e h hu
    obtain ⟨h1, h2⟩ := hI.useOk p' c e h hu
    exact ⟨by simp [h1], h2⟩
  · intro q hq hpos
    have : p = q := by simpa using hq
    subst this
    omega

theorem extras_inv (htol : 0 ≤ tol) (active : Nat → Nat → Bool) (qs : List (Nat × Nat)) (ps : List (Nat × Nat))
    (hnd : (ps ++ qs).Nodup) (s : Extras) (hI : Inv nj ni tol tr s ps) :
    Inv nj ni tol tr (qs.foldl (appendExtra nj ni tol tr active) s) (ps ++ qs) ∧
    (∀ p ∈ qs, ∀ c ∈ four, Covered nj ni tol tr (qs.foldl (appendExtra nj ni tol tr active) s) p (primaryJip nj ni active p) c) ∧
    (∀ p' c', hasCol nj ni p' c' → p' ∉ qs →
      (qs.foldl (appendExtra nj ni tol tr active) s).use (colOf p' c') c' = s.use (colOf p' c') c') := by
  induction qs generalizing ps s with
  | nil =>
    rw [List.append_nil]
    exact ⟨hI, fun p hp => (by cases hp), fun _ _ _ _ => rfl⟩
  | cons p qs ih =>
    have hpp : p ∉ ps := by
      intro h
      exact (List.nodup_append.mp hnd).2.2 p h p (by simp) rfl
    have hpq : p ∉ qs := (List.nodup_cons.mp (List.nodup_append.mp hnd).2.1).1
    obtain ⟨f1, f2, f3⟩ := fold_inv htol (primaryJip nj ni active p) hpp four (by decide) (fun _ h => h) s (inv_extend hpp hI) (by
      intro c _ hcol
      cases hu : s.use (colOf p c) c with
      | none => rfl
      | some e => exact absurd (hI.useOk p c e hcol hu).1 hpp)
    rw [List.foldl_cons]
    obtain ⟨i1, i2, i3⟩ := ih (ps ++ [p]) (by rw [List.append_assoc]; exact hnd) (appendExtra nj ni tol tr active s p) f1
    rw [List.append_assoc] at i1
    refine ⟨i1, ?_, ?_⟩
    · intro q hq c hc
      rcases List.mem_cons.mp hq with rfl | hq
      · intro hcol hn
        rw [i3 q c hcol hpq] at hn
        exact f2 c hc hcol hn
      · exact i2 q hq c hc
    · intro p' c' h' hne
      rw [List.mem_cons, not_or] at hne
      rw [i3 p' c' h' hne.2]
      exact f3 p' c' h' (fun hh => hne.1 hh.1)

end extras

theorem mem_pillars {nj ni : Nat} {p : Nat × Nat} : p ∈ pillars nj ni ↔ p.1 ≤ nj ∧ p.2 ≤ ni := by
  unfold pillars
  simp only [List.mem_flatMap, List.mem_range, List.mem_map]
  constructor
  · rintro ⟨j, hj, i, hi, rfl⟩
    exact ⟨by dsimp only; omega, by dsimp only; omega⟩
  · rintro ⟨h1, h2⟩
    exact ⟨p.1, by omega, p.2, by omega, rfl⟩

theorem nodup_pillars (nj ni : Nat) : (pillars nj ni).Nodup := by
  unfold pillars
  rw [List.nodup_flatMap]
  refine ⟨fun j _ => List.Nodup.map (fun a b h => by injection h) List.nodup_range, ?_⟩
  refine List.Pairwise.imp ?_ (List.nodup_range (n := nj + 1))
  intro a b hab x hx hy
  obtain ⟨i, _, rfl⟩ := List.mem_map.mp hx
  obtain ⟨i', _, h⟩ := List.mem_map.mp hy
  injection h with h1 h2
  exact hab h1.symm

end Verif.CpGrid
