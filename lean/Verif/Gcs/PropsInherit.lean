import Verif.Gcs.Inherit
import Verif.Gcs.Spec
import Mathlib.Data.List.Basic
import Mathlib.Data.List.Nodup
import Mathlib.Data.List.Range
import Mathlib.Tactic.Linarith

/-! # C52: inheriting features from another connection set -/

namespace Verif.Gcs
open Verif.Py

/-! ## The sorted pairs and the binary search -/

theorem sortedPaired_perm (vals : List Nat) : (sortedPaired vals).Perm vals.zipIdx := List.perm_insertionSort _ _

theorem mem_sortedPaired {vals : List Nat} {v p : Nat} : (v, p) ∈ sortedPaired vals ↔ vals[p]? = some v := by
  rw [(sortedPaired_perm vals).mem_iff, List.mk_mem_zipIdx_iff_getElem?]

theorem sortedPaired_places (vals : List Nat) : ((sortedPaired vals).map (·.2)).Perm (List.range vals.length) := by
  have h := (sortedPaired_perm vals).map (·.2)
  rwa [show vals.zipIdx.map (·.2) = List.range vals.length by
    rw [List.range_eq_range', ← List.zipIdx_map_snd 0 vals]] at h

theorem sortedPaired_sorted (vals : List Nat) : (sortedPaired vals).Pairwise fun p q => p.1 ≤ q.1 := by
  have ht : Std.Total (fun p q : Nat × Nat => tupleLe p q = true) := ⟨fun p q => by
    simp only [tupleLe, Bool.or_eq_true, decide_eq_true_eq, Bool.and_eq_true, beq_iff_eq]; omega⟩
  have hr : IsTrans (Nat × Nat) (fun p q : Nat × Nat => tupleLe p q = true) := ⟨fun p q r => by
    simp only [tupleLe, Bool.or_eq_true, decide_eq_true_eq, Bool.and_eq_true, beq_iff_eq]; omega⟩
  have h : List.Pairwise (fun p q : Nat × Nat => tupleLe p q = true) (sortedPaired vals) :=
    List.pairwise_insertionSort (fun p q : Nat × Nat => tupleLe p q = true) vals.zipIdx
  refine h.imp ?_
  intro p q hpq
  simp only [tupleLe, Bool.or_eq_true, decide_eq_true_eq, Bool.and_eq_true, beq_iff_eq] at hpq
  omega

theorem fis_some {p : List (Nat × Nat)} {v place : Nat} {fuel a b : Nat} (h : fis p v fuel a b = some place) : (v, place) ∈ p := by
  induction fuel generalizing a b with
  | zero => simp [fis] at h
  | succ fuel ih =>
    unfold fis at h
    split at h
    · cases h
    · dsimp only at h
      split at h
      · cases h
      · rename_i s hs
        split at h
        · rename_i hv
          cases h
          have := List.mem_of_getElem? hs
          rwa [← hv]
        · split at h
          · exact ih h
          · exact ih h

theorem fis_none {p : List (Nat × Nat)} (hp : p.Pairwise fun x y => x.1 ≤ y.1) {v : Nat} {fuel a b : Nat} (hf : b - a ≤ fuel)
    (hb : b ≤ p.length) (h : fis p v fuel a b = none) : ∀ n : Nat, a ≤ n → n < b → ∀ s, p[n]? = some s → s.1 ≠ v := by
  induction fuel generalizing a b with
  | zero => intro n h1 h2; omega
  | succ fuel ih =>
    unfold fis at h
    split at h
    · intro n h1 h2; omega
    · rename_i hab
      dsimp only at h
      have hm : (a + b) / 2 < p.length := by omega
      rw [List.getElem?_eq_getElem hm] at h
      dsimp only at h
      have hpw := List.pairwise_iff_getElem.mp hp
      split at h
      · cases h
      · rename_i hv
        split at h
        · rename_i hlt
          intro n h1 h2 s hs
          by_cases hn : n < (a + b) / 2
          · exact ih (by omega) (by omega) h n h1 hn s hs
          · obtain ⟨hn', rfl⟩ := List.getElem?_eq_some_iff.mp hs
            rcases Nat.lt_or_ge ((a + b) / 2) n with hgt | hge
            · have := hpw _ _ hm hn' hgt
              omega
            · have : n = (a + b) / 2 := by omega
              subst this
              exact hv
        · rename_i hlt
          intro n h1 h2 s hs
          by_cases hn : (a + b) / 2 < n
          · exact ih (by omega) hb h n hn h2 s hs
          · obtain ⟨hn', rfl⟩ := List.getElem?_eq_some_iff.mp hs
            rcases Nat.lt_or_ge n ((a + b) / 2) with hgt | hge
            · have := hpw _ _ hn' hm hgt
              omega
            · have : n = (a + b) / 2 := by omega
              subst this
              exact hv

theorem find_some {vals : List Nat} {v p : Nat} (h : findInSorted (sortedPaired vals) v = some p) : vals[p]? = some v :=
  mem_sortedPaired.mp (fis_some h)

theorem find_none {vals : List Nat} {v : Nat} (h : findInSorted (sortedPaired vals) v = none) : v ∉ vals := by
  intro hv
  obtain ⟨p, hp, rfl⟩ := List.getElem_of_mem hv
  have hm : (vals[p], p) ∈ sortedPaired vals := mem_sortedPaired.mpr (List.getElem?_eq_getElem hp)
  obtain ⟨n, hn, hs⟩ := List.getElem_of_mem hm
  exact fis_none (sortedPaired_sorted vals) (by omega) (Nat.le_refl _) h n (Nat.zero_le _) hn _ (List.getElem?_eq_getElem hn)
    (by rw [hs])

/-! ## The loop over one side -/

theorem inheritPass_spec (lookup : Nat → Option Nat) (orig : Nat) (hl : ∀ v x, lookup v = some x → orig ≤ x)
    (L : List (Nat × Nat)) (fi : List Nat) (prev pf : Option Nat) (hp : ∀ v, prev = some v → pf = lookup v)
    (hnd : (L.map (·.2)).Nodup) :
    let r := inheritPass lookup orig L (fi, prev, pf)
    r.1.length = fi.length ∧ (∀ v, r.2.1 = some v → r.2.2 = lookup v) ∧
      (∀ p, p ∉ L.map (·.2) → r.1.getD p 0 = fi.getD p 0) ∧
      (∀ v p, (v, p) ∈ L → p < fi.length →
        r.1.getD p 0 = if orig ≤ fi.getD p 0 then fi.getD p 0 else (lookup v).getD (fi.getD p 0)) := by
  induction L generalizing fi prev pf with
  | nil => exact ⟨rfl, hp, fun _ _ => rfl, fun v p h => by simp at h⟩
  | cons q L ih =>
    obtain ⟨v0, p0⟩ := q
    rw [List.map_cons, List.nodup_cons] at hnd
    obtain ⟨hnm, hnd⟩ := hnd
    dsimp only at hnm
    have notin : ∀ v, (v, p0) ∉ L := fun v hv => hnm (List.mem_map.mpr ⟨_, hv, rfl⟩)
    have key : ∀ (fi' : List Nat) (prev' pf' : Option Nat), fi'.length = fi.length → (∀ v, prev' = some v → pf' = lookup v) →
        (∀ p, p ≠ p0 → fi'.getD p 0 = fi.getD p 0) →
        (p0 < fi.length → fi'.getD p0 0 = if orig ≤ fi.getD p0 0 then fi.getD p0 0 else (lookup v0).getD (fi.getD p0 0)) →
        let r := inheritPass lookup orig L (fi', prev', pf')
        r.1.length = fi.length ∧ (∀ v, r.2.1 = some v → r.2.2 = lookup v) ∧
          (∀ p, p ∉ ((v0, p0) :: L).map (·.2) → r.1.getD p 0 = fi.getD p 0) ∧
          (∀ v p, (v, p) ∈ (v0, p0) :: L → p < fi.length →
            r.1.getD p 0 = if orig ≤ fi.getD p 0 then fi.getD p 0 else (lookup v).getD (fi.getD p 0)) := by
      intro fi' prev' pf' hlen hp' hother hhere
      obtain ⟨r1, r2, r3, r4⟩ := ih fi' prev' pf' hp' hnd
      refine ⟨by rw [r1, hlen], r2, ?_, ?_⟩
      · intro p hpn
        rw [List.map_cons, List.mem_cons, not_or] at hpn
        rw [r3 p hpn.2, hother p hpn.1]
      · intro v p hvp hpl
        rcases List.mem_cons.mp hvp with heq | hin
        · cases heq
          rw [r3 _ hnm, hhere hpl]
        · have hne : p ≠ p0 := fun h => notin v (h ▸ hin)
          rw [r4 v p hin (by omega), hother p hne]
    have setD : ∀ x p, p ≠ p0 → (fi.set p0 x).getD p 0 = fi.getD p 0 := by
      intro x p h
      simp only [List.getD_eq_getElem?_getD]
      rw [List.getElem?_set_ne (Ne.symm h)]
    have setH : ∀ x, p0 < fi.length → (fi.set p0 x).getD p0 0 = x := by
      intro x h
      simp [List.getD_eq_getElem?_getD, List.getElem?_set_self h]
    unfold inheritPass
    by_cases hc : orig ≤ fi.getD p0 0
    · rw [if_pos hc]
      exact key fi prev pf rfl hp (fun _ _ => rfl) (fun _ => by rw [if_pos hc])
    · rw [if_neg hc]
      by_cases hv : prev = some v0
      · rw [if_pos hv]
        have hpf := hp v0 hv
        cases hq : pf with
        | none =>
          dsimp only
          refine key fi prev none rfl (fun v h => by rw [← hp v h, hq]) (fun _ _ => rfl) (fun _ => ?_)
          rw [if_neg hc, ← hpf, hq]; rfl
        | some x =>
          dsimp only
          refine key (fi.set p0 x) prev (some x) (by simp) (fun v h => by rw [← hp v h, hq]) (setD x) (fun h => ?_)
          rw [if_neg hc, ← hpf, hq, setH x h]; rfl
      · rw [if_neg hv]
        cases hq : lookup v0 with
        | none =>
          dsimp only
          refine key fi (some v0) none rfl (fun v h => by cases h; rw [hq]) (fun _ _ => rfl) (fun _ => ?_)
          rw [if_neg hc, hq]; rfl
        | some x =>
          dsimp only
          refine key (fi.set p0 x) (some v0) (some x) (by simp) (fun v h => by cases h; rw [hq]) (setD x) (fun h => ?_)
          rw [if_neg hc, hq, setH x h]; rfl

/-! ## The combined feature list -/

theorem combineFeatures_ok (fl ffl : List Feature) (h : ((fl ++ ffl).map (·.uuid)).Nodup) :
    combineFeatures fl ffl = .ok (fl ++ ffl, (List.range ffl.length).map (fl.length + ·)) := by
  induction ffl generalizing fl with
  | nil => simp [combineFeatures]
  | cons f ffl ih =>
    unfold combineFeatures
    have hf : f.uuid ∉ fl.map (·.uuid) := by
      rw [List.map_append, List.nodup_append] at h
      intro hm
      exact h.2.2 _ hm _ (by simp) rfl
    rw [if_neg hf, ih (fl ++ [f]) (by simpa using h)]
    simp only [List.append_assoc, List.singleton_append, List.length_append, List.length_singleton, List.length_cons]
    refine congrArg Except.ok (Prod.ext rfl ?_)
    dsimp only
    rw [List.range_succ_eq_map, List.map_cons, List.map_map]
    refine congrArg₂ _ rfl (List.map_congr_left fun x _ => ?_)
    simp only [Function.comp_apply, List.length_nil]
    omega

theorem combineFeatures_shared (fl ffl : List Feature) (f : Feature) (hf : f ∈ ffl) (h : f.uuid ∈ fl.map (·.uuid)) :
    combineFeatures fl ffl = .error .type := by
  induction ffl generalizing fl with
  | nil => cases hf
  | cons g ffl ih =>
    unfold combineFeatures
    by_cases hg : g.uuid ∈ fl.map (·.uuid)
    · rw [if_pos hg]
    · rw [if_neg hg]
      rcases List.mem_cons.mp hf with rfl | hin
      · exact absurd h hg
      · rw [ih (fl ++ [g]) hin (by simp only [List.map_append, List.mem_append]; exact Or.inl h)]

/-! ## Removal of unused originals -/

theorem popAll_range (fl : List Feature) (r : Nat) (h : r ≤ fl.length) : popAll fl (List.range r) = fl.drop r := by
  induction r generalizing fl with
  | zero => rfl
  | succ r ih =>
    unfold popAll
    rw [List.range_succ, List.foldr_append]
    show (List.range r).foldr (fun i l => l.eraseIdx i) (fl.eraseIdx r) = _
    have h1 : (fl.eraseIdx r).length = fl.length - 1 := List.length_eraseIdx_of_lt (by omega)
    have := ih (fl.eraseIdx r) (by omega)
    unfold popAll at this
    rw [this, List.eraseIdx_eq_take_drop_succ, List.drop_append, List.length_take]
    rw [show r - min r fl.length = 0 by omega, List.drop_zero]
    rw [List.drop_eq_nil_of_le (by simp), List.nil_append]

theorem filter_lt_range {n r : Nat} (h : r ≤ n) : (List.range n).filter (fun x => decide (x < r)) = List.range r := by
  obtain ⟨d, rfl⟩ := Nat.exists_eq_add_of_le h
  rw [List.range_add, List.filter_append, List.filter_eq_self.mpr (fun x hx => by simpa using hx),
    List.filter_eq_nil_iff.mpr (fun x hx => ?_), List.append_nil]
  rw [List.mem_map] at hx
  obtain ⟨y, -, rfl⟩ := hx
  simp

/-! ## The property -/

/-- one of the two cell faces of a connection is one of those of the other -/
def SharesFace (c d : Conn) : Prop :=
  (c.cell0, c.face0) = (d.cell0, d.face0) ∨ (c.cell0, c.face0) = (d.cell1, d.face1) ∨
    (c.cell1, c.face1) = (d.cell0, d.face0) ∨ (c.cell1, c.face1) = (d.cell1, d.face1)

theorem compact_inj {c f d g : Nat} (hf : f < 6) (hg : g < 6) (h : compact c f = compact d g) : (c, f) = (d, g) := by
  unfold compact at h
  rw [Prod.mk.injEq]; omega

/-- the faces of all connections are numbered from 0 to 5 -/
def FacesOk (cs : List Conn) : Prop := ∀ c ∈ cs, c.face0 < 6 ∧ c.face1 < 6

/-- C52, what the search finds: a feature index of a featured connection which has the cell face, if there is one -/
theorem lookup_spec (fconns : List Conn) (ffi : List Nat) (n k : Nat) (hl : ffi.length = fconns.length) (hr : ∀ x ∈ ffi, x < k)
    (v : Nat) :
    (∃ (m : Nat) (d : Conn) (y : Nat), fconns[m]? = some d ∧ (compact d.cell0 d.face0 = v ∨ compact d.cell1 d.face1 = v) ∧ ffi[m]? = some y ∧ y < k ∧
      lookupFace (sortedPaired (fconns.map fun c => compact c.cell0 c.face0))
        (sortedPaired (fconns.map fun c => compact c.cell1 c.face1)) ffi ((List.range k).map (n + ·)) v = some (n + y)) ∨
    ((∀ d ∈ fconns, compact d.cell0 d.face0 ≠ v ∧ compact d.cell1 d.face1 ≠ v) ∧
      lookupFace (sortedPaired (fconns.map fun c => compact c.cell0 c.face0))
        (sortedPaired (fconns.map fun c => compact c.cell1 c.face1)) ffi ((List.range k).map (n + ·)) v = none) := by
  have fin : ∀ (m : Nat) (d : Conn), fconns[m]? = some d → ∃ y, ffi[m]? = some y ∧ y < k ∧ ((List.range k).map (n + ·))[y]? = some (n + y) := by
    intro m d hd
    obtain ⟨hm, -⟩ := List.getElem?_eq_some_iff.mp hd
    have hm' : m < ffi.length := by omega
    refine ⟨ffi[m], List.getElem?_eq_getElem hm', hr _ (List.getElem_mem hm'), ?_⟩
    rw [List.getElem?_map, List.getElem?_range (hr _ (List.getElem_mem hm'))]
    rfl
  unfold lookupFace
  cases ha : findInSorted (sortedPaired (fconns.map fun c => compact c.cell0 c.face0)) v with
  | some m =>
    left
    have h := find_some ha
    rw [List.getElem?_map, Option.map_eq_some_iff] at h
    obtain ⟨d, hd, hv⟩ := h
    obtain ⟨y, h1, h2, h3⟩ := fin m d hd
    refine ⟨m, d, y, hd, Or.inl hv, h1, h2, ?_⟩
    simp only [h1, h3]
  | none =>
    have hna := find_none ha
    cases hb : findInSorted (sortedPaired (fconns.map fun c => compact c.cell1 c.face1)) v with
    | some m =>
      left
      have h := find_some hb
      rw [List.getElem?_map, Option.map_eq_some_iff] at h
      obtain ⟨d, hd, hv⟩ := h
      obtain ⟨y, h1, h2, h3⟩ := fin m d hd
      refine ⟨m, d, y, hd, Or.inr hv, h1, h2, ?_⟩
      simp only [h1, h3]
    | none =>
      right
      have hnb := find_none hb
      exact ⟨fun d hd => ⟨fun h => hna (List.mem_map.mpr ⟨d, hd, h⟩), fun h => hnb (List.mem_map.mpr ⟨d, hd, h⟩)⟩, rfl⟩

/-- the feature indices before unused features are removed -/
def inherited (conns : List Conn) (orig : Nat) (fi : List Nat) (fconns : List Conn) (k : Nat) (ffi : List Nat) : List Nat :=
  let a := sortedPaired (fconns.map fun c => compact c.cell0 c.face0)
  let b := sortedPaired (fconns.map fun c => compact c.cell1 c.face1)
  let lookup := lookupFace a b ffi ((List.range k).map (orig + ·))
  let st := inheritPass lookup orig (sortedPaired (conns.map fun c => compact c.cell0 c.face0)) (fi, none, none)
  (inheritPass lookup orig (sortedPaired (conns.map fun c => compact c.cell1 c.face1)) st).1

/-- what each connection inherits, before unused features are removed -/
theorem inherited_spec (conns : List Conn) (orig : Nat) (fi : List Nat) (fconns : List Conn) (k : Nat) (ffi : List Nat)
    (hc : FacesOk conns) (hfc : FacesOk fconns)
    (hfi : fi.length = conns.length) (hfir : ∀ x ∈ fi, x < orig) (hffi : ffi.length = fconns.length) (hffir : ∀ x ∈ ffi, x < k) :
    (inherited conns orig fi fconns k ffi).length = conns.length ∧
    ∀ (n : Nat) (c : Conn), conns[n]? = some c → ∃ x, (inherited conns orig fi fconns k ffi)[n]? = some x ∧
      ((∃ m : Nat, ∃ d y, fconns[m]? = some d ∧ SharesFace c d ∧ ffi[m]? = some y ∧ y < k ∧ x = orig + y) ∨
       ((∀ d ∈ fconns, ¬ SharesFace c d) ∧ fi[n]? = some x)) := by
  unfold inherited
  extract_lets a b lookup st
  have hlook := lookup_spec fconns ffi orig k hffi hffir
  have hl : ∀ v x, lookup v = some x → orig ≤ x := by
    intro v x h
    rcases hlook v with ⟨m, d, y, _, _, _, _, h'⟩ | ⟨_, h'⟩
    · rw [show lookup v = _ from h'] at h
      cases h; omega
    · rw [show lookup v = _ from h'] at h
      cases h
  have hnd : ∀ vals : List Nat, ((sortedPaired vals).map (·.2)).Nodup := fun vals =>
    (sortedPaired_places vals).nodup_iff.mpr List.nodup_range
  obtain ⟨s1, s2, -, s4⟩ := inheritPass_spec lookup orig hl (sortedPaired (conns.map fun c => compact c.cell0 c.face0)) fi none none
    (fun v h => by cases h) (hnd _)
  obtain ⟨t1, -, -, t4⟩ := inheritPass_spec lookup orig hl (sortedPaired (conns.map fun c => compact c.cell1 c.face1)) st.1 st.2.1 st.2.2
    s2 (hnd _)
  have s1' : st.1.length = fi.length := s1
  have hlen : (inheritPass lookup orig (sortedPaired (conns.map fun c => compact c.cell1 c.face1)) st).1.length = conns.length := by
    rw [← hfi, ← s1']; exact t1
  refine ⟨hlen, ?_⟩
  intro n c hn
  obtain ⟨hnl, -⟩ := List.getElem?_eq_some_iff.mp hn
  have hnl' : n < (inheritPass lookup orig (sortedPaired (conns.map fun c => compact c.cell1 c.face1)) st).1.length := by omega
  refine ⟨_, List.getElem?_eq_getElem hnl', ?_⟩
  have e0 := s4 (compact c.cell0 c.face0) n (mem_sortedPaired.mpr (by rw [List.getElem?_map, hn]; rfl)) (by omega)
  have e1 := t4 (compact c.cell1 c.face1) n (mem_sortedPaired.mpr (by rw [List.getElem?_map, hn]; rfl)) (by omega)
  have hfin : fi[n]? = some (fi.getD n 0) := by
    rw [List.getD_eq_getElem?_getD, List.getElem?_eq_getElem (by omega)]; rfl
  have hlt : fi.getD n 0 < orig := hfir _ (List.mem_of_getElem? hfin)
  have hcm := hc c (List.mem_of_getElem? hn)
  change (inheritPass lookup orig (sortedPaired (conns.map fun c => compact c.cell1 c.face1)) st).1.getD n 0 = _ at e1
  change st.1.getD n 0 = _ at e0
  rw [if_neg (by omega)] at e0
  rw [List.getD_eq_getElem?_getD, List.getElem?_eq_getElem hnl', Option.getD_some] at e1
  rw [e1]
  rcases hlook (compact c.cell0 c.face0) with ⟨m, d, y, h1, h2, h3, h4, h5⟩ | ⟨h1, h2⟩
  · rw [show lookup _ = _ from h5, Option.getD_some] at e0
    rw [e0, if_pos (by omega)]
    left
    refine ⟨m, d, y, h1, ?_, h3, h4, rfl⟩
    have hdm := hfc d (List.mem_of_getElem? h1)
    rcases h2 with h2 | h2
    · exact Or.inl (compact_inj hcm.1 hdm.1 h2.symm)
    · exact Or.inr (Or.inl (compact_inj hcm.1 hdm.2 h2.symm))
  · rw [show lookup _ = _ from h2, Option.getD_none] at e0
    rw [e0, if_neg (by omega)]
    rcases hlook (compact c.cell1 c.face1) with ⟨m, d, y, g1, g2, g3, g4, g5⟩ | ⟨g1, g2⟩
    · rw [show lookup _ = _ from g5, Option.getD_some]
      left
      refine ⟨m, d, y, g1, ?_, g3, g4, rfl⟩
      have hdm := hfc d (List.mem_of_getElem? g1)
      rcases g2 with g2 | g2
      · exact Or.inr (Or.inr (Or.inl (compact_inj hcm.2 hdm.1 g2.symm)))
      · exact Or.inr (Or.inr (Or.inr (compact_inj hcm.2 hdm.2 g2.symm)))
    · rw [show lookup _ = _ from g2, Option.getD_none]
      right
      refine ⟨?_, hfin⟩
      intro d hd hs
      rcases hs with hs | hs | hs | hs <;> rw [Prod.mk.injEq] at hs
      · exact (h1 d hd).1 (by rw [hs.1, hs.2])
      · exact (h1 d hd).2 (by rw [hs.1, hs.2])
      · exact (g1 d hd).1 (by rw [hs.1, hs.2])
      · exact (g1 d hd).2 (by rw [hs.1, hs.2])

theorem inheritFeatures_eq (conns : List Conn) (fl : List Feature) (fi : List Nat) (fconns : List Conn) (ffl : List Feature)
    (ffi : List Nat) (h : ((fl ++ ffl).map (·.uuid)).Nodup) :
    inheritFeatures conns fl fi fconns ffl ffi =
      .ok (removeUnused fl.length (fl ++ ffl) (inherited conns fl.length fi fconns ffl.length ffi)) := by
  unfold inheritFeatures
  rw [combineFeatures_ok fl ffl h]
  rfl

/-- C52 where the original features no longer in use come before the others in the list (`r` of them; with a single original
feature, as a fault connection set from geometry has, this is always so).  When no feature is common to the two sets: each
connection with a cell face in the featured set gets the feature of a featured connection having that face; every other
connection keeps its feature.  Missing: other patterns of unused features, and features in common. -/
theorem C52_inherit_partial (conns : List Conn) (fl : List Feature) (fi : List Nat) (fconns : List Conn) (ffl : List Feature)
    (ffi : List Nat) (hu : ((fl ++ ffl).map (·.uuid)).Nodup) (hc : FacesOk conns) (hfc : FacesOk fconns)
    (hfi : fi.length = conns.length) (hfir : ∀ x ∈ fi, x < fl.length)
    (hffi : ffi.length = fconns.length) (hffir : ∀ x ∈ ffi, x < ffl.length)
    (r : Nat) (hr : r ≤ fl.length) (hr1 : fl.length ≤ 1 ∨
      ∀ x < fl.length, (x < r ↔ ∀ (n : Nat) (c : Conn), conns[n]? = some c → fi[n]? = some x → ∃ d ∈ fconns, SharesFace c d)) :
    ∃ fl' fi', inheritFeatures conns fl fi fconns ffl ffi = .ok (fl', fi') ∧ fi'.length = conns.length ∧
      ∀ (n : Nat) (c : Conn), conns[n]? = some c → ∃ (x : Nat) (f : Feature), fi'[n]? = some (x : Int) ∧ fl'[x]? = some f ∧
        ((∃ (m : Nat) (d : Conn) (y : Nat), fconns[m]? = some d ∧ SharesFace c d ∧ ffi[m]? = some y ∧ ffl[y]? = some f) ∨
         ((∀ d ∈ fconns, ¬ SharesFace c d) ∧ ∃ y : Nat, fi[n]? = some y ∧ fl[y]? = some f)) := by
  obtain ⟨hlen, hspec⟩ := inherited_spec conns fl.length fi fconns ffl.length ffi hc hfc hfi hfir hffi hffir
  rw [inheritFeatures_eq conns fl fi fconns ffl ffi hu]
  set I := inherited conns fl.length fi fconns ffl.length ffi with hI
  -- the unused originals are the first `r'`
  have huse : ∀ x < fl.length, (x ∈ I ↔ ∃ (n : Nat) (c : Conn), conns[n]? = some c ∧ fi[n]? = some x ∧ ∀ d ∈ fconns, ¬ SharesFace c d) := by
    intro x hx
    constructor
    · intro hm
      obtain ⟨n, hn, hnx⟩ := List.getElem_of_mem hm
      have hn' : n < conns.length := by omega
      obtain ⟨y, hy, hor⟩ := hspec n conns[n] (List.getElem?_eq_getElem hn')
      rw [List.getElem?_eq_getElem hn, hnx] at hy
      cases hy
      rcases hor with ⟨m, d, y, h1, h2, h3, h4, h5⟩ | ⟨h1, h2⟩
      · omega
      · exact ⟨n, _, List.getElem?_eq_getElem hn', h2, h1⟩
    · rintro ⟨n, c, h1, h2, h3⟩
      obtain ⟨y, hy, hor⟩ := hspec n c h1
      rcases hor with ⟨m, d, y', g1, g2, g3, g4, g5⟩ | ⟨g1, g2⟩
      · exact absurd g2 (h3 d (List.mem_of_getElem? g1))
      · rw [h2] at g2
        cases g2
        exact List.mem_of_getElem? hy
  have hrem : ∃ r', r' ≤ fl.length ∧ (List.range fl.length).filter (fun x => decide (x ∉ I)) = List.range r' := by
    rcases hr1 with hr1 | hr1
    · rcases Nat.lt_or_ge 0 fl.length with h0 | h0
      · have h1 : fl.length = 1 := by omega
        rw [h1]
        by_cases hz : 0 ∈ I
        · exact ⟨0, Nat.zero_le _, by simp [List.range_succ, hz]⟩
        · exact ⟨1, Nat.le_refl _, by simp [List.range_succ, hz]⟩
      · exact ⟨0, Nat.zero_le _, by rw [show fl.length = 0 by omega]; rfl⟩
    · refine ⟨r, hr, ?_⟩
      have hiff : ∀ x ∈ List.range fl.length, decide (x ∉ I) = decide (x < r) := by
        intro x hx
        rw [List.mem_range] at hx
        rw [decide_eq_decide, huse x hx, hr1 x hx]
        constructor
        · intro h n c h1 h2
          by_contra hne
          exact h ⟨n, c, h1, h2, fun d hd hs => hne ⟨d, hd, hs⟩⟩
        · rintro h ⟨n, c, h1, h2, h3⟩
          obtain ⟨d, hd, hs⟩ := h n c h1 h2
          exact h3 d hd hs
      rw [List.filter_congr hiff]
      exact filter_lt_range hr
  obtain ⟨r', hr', hrem⟩ := hrem
  unfold removeUnused
  dsimp only
  rw [hrem, popAll_range _ _ (by rw [List.length_append]; omega), List.length_range]
  refine ⟨_, _, rfl, by rw [List.length_map, hlen], ?_⟩
  intro n c hn
  obtain ⟨x, hx, hor⟩ := hspec n c hn
  have hxr : r' ≤ x := by
    by_contra hlt
    have hm : x ∈ (List.range fl.length).filter (fun x => decide (x ∉ I)) := by
      rw [hrem, List.mem_range]; omega
    rw [List.mem_filter, decide_eq_true_eq] at hm
    exact hm.2 (List.mem_of_getElem? hx)
  have hidx : (I.map fun (x : Nat) => (x : Int) - (r' : Int))[n]? = some ((x - r' : Nat) : Int) := by
    rw [List.getElem?_map, hx, Option.map_some]
    congr 1
    omega
  have hdrop : ((fl ++ ffl).drop r')[x - r']? = (fl ++ ffl)[x]? := by
    rw [List.getElem?_drop]
    congr 1
    omega
  rcases hor with ⟨m, d, y, h1, h2, h3, h4, h5⟩ | ⟨h1, h2⟩
  · refine ⟨x - r', ffl[y], hidx, ?_, Or.inl ⟨m, d, y, h1, h2, h3, List.getElem?_eq_getElem h4⟩⟩
    rw [hdrop, h5, List.getElem?_append_right (by omega), Nat.add_sub_cancel_left, List.getElem?_eq_getElem h4]
  · have hxl := hfir x (List.mem_of_getElem? h2)
    refine ⟨x - r', fl[x], hidx, ?_, Or.inr ⟨h1, x, h2, List.getElem?_eq_getElem hxl⟩⟩
    rw [hdrop, List.getElem?_append_left hxl, List.getElem?_eq_getElem hxl]

/-- features used in the examples -/
def exFeature (n : Nat) : Feature := ⟨"fault", n, "F"⟩

/-- the hypotheses of `C52_inherit_partial` are met: one original feature, one of two connections is in the featured set, seen
from its other side -/
example : inheritFeatures [⟨0, 1, 3, 5⟩, ⟨4, 5, 3, 5⟩] [exFeature 7] [0, 0] [⟨5, 4, 5, 3⟩] [exFeature 9] [0] =
    .ok ([exFeature 7, exFeature 9], [0, 1]) := by decide +kernel

/-- and with the original feature replaced throughout it is removed -/
example : inheritFeatures [⟨0, 1, 3, 5⟩, ⟨4, 5, 3, 5⟩] [exFeature 7] [0, 0] [⟨5, 4, 5, 3⟩, ⟨0, 1, 3, 5⟩] [exFeature 8, exFeature 9] [1, 0] =
    .ok ([exFeature 8, exFeature 9], [0, 1]) := by decide +kernel

/-- C52 does not hold when a feature is in both sets: an exception is raised, whatever the connections. -/
theorem C52_common_feature_violated (conns : List Conn) (fl : List Feature) (fi : List Nat) (fconns : List Conn)
    (ffl : List Feature) (ffi : List Nat) (f : Feature) (h1 : f ∈ fl) (h2 : f ∈ ffl) :
    inheritFeatures conns fl fi fconns ffl ffi = .error .type := by
  unfold inheritFeatures
  rw [combineFeatures_shared fl ffl f h2 (List.mem_map_of_mem h1)]

/-- C52 does not hold in general when features fall out of use: here the second of two original features is replaced, and the
index of the first, which is still in use, becomes -1. -/
theorem C52_unused_feature_violated :
    inheritFeatures [⟨0, 1, 3, 5⟩, ⟨4, 5, 3, 5⟩] [exFeature 7, exFeature 8] [0, 1] [⟨4, 5, 3, 5⟩] [exFeature 9] [0] =
      .ok ([exFeature 7, exFeature 9], [-1, 1]) := by decide +kernel

end Verif.Gcs
