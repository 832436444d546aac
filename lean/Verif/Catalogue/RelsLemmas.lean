import Verif.Catalogue.Spec
import Verif.Catalogue.Lemmas

/-! Helper lemmas about the relations dictionary. -/

namespace Verif.Catalogue
open Verif.Py Verif.Xml

def dOut (d : RelsDict) (a : Nat) : List Nat := (d.get? a).elim [] Rels.out
def dIn (d : RelsDict) (a : Nat) : List Nat := (d.get? a).elim [] Rels.inn
def dSoft (d : RelsDict) (a : Nat) : List Nat := (d.get? a).elim [] Rels.soft

structure InvR (d : RelsDict) : Prop where
  hard : ∀ a b, b ∈ dOut d a ↔ a ∈ dIn d b
  soft : ∀ a b, b ∈ dSoft d a ↔ a ∈ dSoft d b
  self : ∀ a, a ∉ dSoft d a
  ndOut : ∀ a, (dOut d a).Nodup
  ndIn : ∀ a, (dIn d a).Nodup
  ndSoft : ∀ a, (dSoft d a).Nodup

theorem InvR_empty : InvR [] :=
  ⟨by simp [dOut, dIn], by simp [dSoft], by simp [dSoft], by simp [dOut], by simp [dIn], by simp [dSoft]⟩

theorem dOut_set (d : RelsDict) (u : Nat) (r : Rels) (a : Nat) :
    dOut (d.set u r) a = if a = u then r.out else dOut d a := by
  unfold dOut; rw [Dict.get?_set]; by_cases h : a = u <;> simp [h]

theorem dIn_set (d : RelsDict) (u : Nat) (r : Rels) (a : Nat) :
    dIn (d.set u r) a = if a = u then r.inn else dIn d a := by
  unfold dIn; rw [Dict.get?_set]; by_cases h : a = u <;> simp [h]

theorem dSoft_set (d : RelsDict) (u : Nat) (r : Rels) (a : Nat) :
    dSoft (d.set u r) a = if a = u then r.soft else dSoft d a := by
  unfold dSoft; rw [Dict.get?_set]; by_cases h : a = u <;> simp [h]

theorem sAdd_nil (x : Nat) : sAdd x [] = [x] := by simp [sAdd]

/-! ### a reference -/

private def addOut (u r : Nat) (d : RelsDict) : RelsDict :=
  match d.get? u with
  | none => d.set u ⟨[r], [], []⟩
  | some v => d.set u { v with out := sAdd r v.out }

private def addIn (u r : Nat) (d : RelsDict) : RelsDict :=
  match d.get? r with
  | none => d.set r ⟨[], [u], []⟩
  | some v => d.set r { v with inn := sAdd u v.inn }

private theorem addRef_eq (u r : Nat) (d : RelsDict) : addRef u r d = addIn u r (addOut u r d) := rfl

private theorem addOut_eff (u r : Nat) (d : RelsDict) (a : Nat) :
    dOut (addOut u r d) a = (if a = u then sAdd r (dOut d a) else dOut d a) ∧
    dIn (addOut u r d) a = dIn d a ∧ dSoft (addOut u r d) a = dSoft d a := by
  unfold addOut
  cases h : d.get? u with
  | none =>
    have h1 : dOut d u = [] := by simp [dOut, h]
    have h2 : dIn d u = [] := by simp [dIn, h]
    have h3 : dSoft d u = [] := by simp [dSoft, h]
    dsimp only
    rw [dOut_set, dIn_set, dSoft_set]
    by_cases ha : a = u
    · subst ha; simp [h1, h2, h3, sAdd_nil]
    · simp [ha]
  | some v =>
    have h1 : dOut d u = v.out := by simp [dOut, h]
    have h2 : dIn d u = v.inn := by simp [dIn, h]
    have h3 : dSoft d u = v.soft := by simp [dSoft, h]
    dsimp only
    rw [dOut_set, dIn_set, dSoft_set]
    by_cases ha : a = u
    · subst ha; simp [h1, h2, h3]
    · simp [ha]

private theorem addIn_eff (u r : Nat) (d : RelsDict) (a : Nat) :
    dIn (addIn u r d) a = (if a = r then sAdd u (dIn d a) else dIn d a) ∧
    dOut (addIn u r d) a = dOut d a ∧ dSoft (addIn u r d) a = dSoft d a := by
  unfold addIn
  cases h : d.get? r with
  | none =>
    have h1 : dOut d r = [] := by simp [dOut, h]
    have h2 : dIn d r = [] := by simp [dIn, h]
    have h3 : dSoft d r = [] := by simp [dSoft, h]
    dsimp only
    rw [dOut_set, dIn_set, dSoft_set]
    by_cases ha : a = r
    · subst ha; simp [h1, h2, h3, sAdd_nil]
    · simp [ha]
  | some v =>
    have h1 : dOut d r = v.out := by simp [dOut, h]
    have h2 : dIn d r = v.inn := by simp [dIn, h]
    have h3 : dSoft d r = v.soft := by simp [dSoft, h]
    dsimp only
    rw [dOut_set, dIn_set, dSoft_set]
    by_cases ha : a = r
    · subst ha; simp [h1, h2, h3]
    · simp [ha]

theorem addRef_eff (u r : Nat) (d : RelsDict) (a : Nat) :
    dOut (addRef u r d) a = (if a = u then sAdd r (dOut d a) else dOut d a) ∧
    dIn (addRef u r d) a = (if a = r then sAdd u (dIn d a) else dIn d a) ∧
    dSoft (addRef u r d) a = dSoft d a := by
  rw [addRef_eq]
  obtain ⟨h1, h2, h3⟩ := addIn_eff u r (addOut u r d) a
  obtain ⟨g1, g2, g3⟩ := addOut_eff u r d a
  rw [h1, h2, h3, g1, g2, g3]
  exact ⟨rfl, rfl, rfl⟩

theorem InvR_addRef (u r : Nat) (d : RelsDict) (h : InvR d) : InvR (addRef u r d) := by
  have e := addRef_eff u r d
  refine ⟨?_, ?_, ?_, ?_, ?_, ?_⟩
  · intro a b
    rw [(e a).1, (e b).2.1]
    have hb : (b ∈ if a = u then sAdd r (dOut d a) else dOut d a) ↔ b ∈ dOut d a ∨ (a = u ∧ b = r) := by
      by_cases ha : a = u
      · rw [if_pos ha, mem_sAdd]; simp [ha, or_comm]
      · rw [if_neg ha]; simp [ha]
    have ha : (a ∈ if b = r then sAdd u (dIn d b) else dIn d b) ↔ a ∈ dIn d b ∨ (a = u ∧ b = r) := by
      by_cases hb : b = r
      · rw [if_pos hb, mem_sAdd]; simp [hb, or_comm]
      · rw [if_neg hb]; simp [hb]
    rw [hb, ha, h.hard a b]
  · intro a b; rw [(e a).2.2, (e b).2.2]; exact h.soft a b
  · intro a; rw [(e a).2.2]; exact h.self a
  · intro a; rw [(e a).1]; by_cases ha : a = u
    · rw [if_pos ha]; exact nodup_sAdd _ _ (h.ndOut a)
    · rw [if_neg ha]; exact h.ndOut a
  · intro a; rw [(e a).2.1]; by_cases ha : a = r
    · rw [if_pos ha]; exact nodup_sAdd _ _ (h.ndIn a)
    · rw [if_neg ha]; exact h.ndIn a
  · intro a; rw [(e a).2.2]; exact h.ndSoft a

theorem InvR_addRelations (u : Nat) (part : List Char) (refs : List Nat) (d : RelsDict) (h : InvR d) :
    InvR (addRelations u part refs d) := by
  unfold addRelations
  by_cases hx : hasSub epcExternalPart part = true
  · rw [if_pos hx]; exact h
  · rw [if_neg hx]
    clear hx
    induction refs generalizing d with
    | nil => exact h
    | cons r rs ih => exact ih _ (InvR_addRef u r d h)

/-- effect of the references of a part on the three relations -/
theorem addRelations_mem (u : Nat) (part : List Char) (refs : List Nat) (d : RelsDict) (a b : Nat) :
    (b ∈ dOut (addRelations u part refs d) a → b ∈ dOut d a ∨ (a = u ∧ b ∈ refs)) ∧
    (b ∈ dIn (addRelations u part refs d) a → b ∈ dIn d a ∨ (b = u ∧ a ∈ refs)) ∧
    dSoft (addRelations u part refs d) a = dSoft d a := by
  unfold addRelations
  by_cases hx : hasSub epcExternalPart part = true
  · rw [if_pos hx]; exact ⟨fun h => .inl h, fun h => .inl h, rfl⟩
  · rw [if_neg hx]
    clear hx
    induction refs generalizing d with
    | nil => exact ⟨fun h => .inl h, fun h => .inl h, rfl⟩
    | cons r rs ih =>
      obtain ⟨i1, i2, i3⟩ := ih (addRef u r d)
      obtain ⟨e1, e2, e3⟩ := addRef_eff u r d a
      simp only [List.foldl_cons]
      refine ⟨?_, ?_, ?_⟩
      · intro h
        rcases i1 h with h | ⟨h1, h2⟩
        · rw [e1] at h
          by_cases ha : a = u
          · rw [if_pos ha, mem_sAdd] at h
            rcases h with h | h
            · right; exact ⟨ha, by simp [h]⟩
            · left; exact h
          · rw [if_neg ha] at h; left; exact h
        · right; exact ⟨h1, by simp [h2]⟩
      · intro h
        rcases i2 h with h | ⟨h1, h2⟩
        · rw [e2] at h
          by_cases ha : a = r
          · rw [if_pos ha, mem_sAdd] at h
            rcases h with h | h
            · right; exact ⟨h, by simp [ha]⟩
            · left; exact h
          · rw [if_neg ha] at h; left; exact h
        · right; exact ⟨h1, by simp [h2]⟩
      · rw [i3, e3]

/-! ### soft relations -/

/-- the condition under which one side of a soft relation is recorded -/
def softCond (d : RelsDict) (a b : Nat) : Prop := (d.get? a).isSome ∧ b ∉ dOut d a ∧ b ∉ dIn d a

theorem addSoft_eff (a b : Nat) (d : RelsDict) (x : Nat) :
    dOut (addSoft a b d) x = dOut d x ∧ dIn (addSoft a b d) x = dIn d x ∧
    ((d.get? x).isSome = ((addSoft a b d).get? x).isSome) ∧
    ((dSoft (addSoft a b d) x).Nodup ∨ ¬ (dSoft d x).Nodup) ∧
    ∀ y, y ∈ dSoft (addSoft a b d) x ↔ y ∈ dSoft d x ∨ (x = a ∧ y = b ∧ softCond d a b) := by
  unfold addSoft softCond
  cases h : d.get? a with
  | none =>
    dsimp only
    refine ⟨rfl, rfl, rfl, Decidable.em _, ?_⟩
    intro y; simp
  | some v =>
    have h1 : dOut d a = v.out := by simp [dOut, h]
    have h2 : dIn d a = v.inn := by simp [dIn, h]
    have h3 : dSoft d a = v.soft := by simp [dSoft, h]
    dsimp only
    by_cases hc : b ∉ v.out ∧ b ∉ v.inn
    · rw [if_pos hc, dOut_set, dIn_set, dSoft_set, Dict.get?_set]
      by_cases hx : x = a
      · subst hx
        refine ⟨by simp [h1], by simp [h2], by simp [h], ?_, ?_⟩
        · simp only [if_true]
          rw [h3]
          by_cases hn : v.soft.Nodup
          · left; exact nodup_sAdd _ _ hn
          · right; exact hn
        · intro y
          simp only [if_true]
          rw [mem_sAdd, h3, h1, h2]
          simp [hc, or_comm]
      · refine ⟨by simp [hx], by simp [hx], by simp [hx], by simp only [hx, if_false]; exact Decidable.em _, ?_⟩
        intro y
        simp [hx]
    · rw [if_neg hc]
      refine ⟨rfl, rfl, rfl, Decidable.em _, ?_⟩
      intro y
      rw [h1, h2]
      constructor
      · exact fun h => .inl h
      · rintro (h | ⟨_, _, _, h4⟩)
        · exact h
        · exact absurd h4 hc

theorem addSoft_pair_mem (a b : Nat) (d : RelsDict) (x y : Nat) :
    y ∈ dSoft (addSoft b a (addSoft a b d)) x ↔
      y ∈ dSoft d x ∨ (x = a ∧ y = b ∧ softCond d a b) ∨ (x = b ∧ y = a ∧ softCond d b a) := by
  have e1 := addSoft_eff a b d
  rw [(addSoft_eff b a (addSoft a b d) x).2.2.2.2 y, (e1 x).2.2.2.2 y]
  have : softCond (addSoft a b d) b a ↔ softCond d b a := by
    unfold softCond
    rw [(e1 b).1, (e1 b).2.1, (e1 b).2.2.1]
  rw [this, or_assoc]

theorem InvR_relate (a b : Nat) (d : RelsDict) (h : InvR d) (hne : a ≠ b)
    (hk : (d.get? a).isSome ↔ (d.get? b).isSome) : InvR (addSoft b a (addSoft a b d)) := by
  have e1 := addSoft_eff a b d
  have e2 := addSoft_eff b a (addSoft a b d)
  have hcond : softCond d a b ↔ softCond d b a := by
    unfold softCond
    rw [hk, h.hard a b, ← h.hard b a]
    constructor <;> rintro ⟨p, q, r⟩ <;> exact ⟨p, r, q⟩
  refine ⟨?_, ?_, ?_, ?_, ?_, ?_⟩
  · intro x y
    rw [(e2 x).1, (e1 x).1, (e2 y).2.1, (e1 y).2.1]; exact h.hard x y
  · intro x y
    rw [addSoft_pair_mem, addSoft_pair_mem, h.soft x y, hcond]
    constructor
    · rintro (h | ⟨h1, h2, h3⟩ | ⟨h1, h2, h3⟩)
      · exact .inl h
      · exact .inr (.inr ⟨h2, h1, h3⟩)
      · exact .inr (.inl ⟨h2, h1, h3⟩)
    · rintro (h | ⟨h1, h2, h3⟩ | ⟨h1, h2, h3⟩)
      · exact .inl h
      · exact .inr (.inr ⟨h2, h1, h3⟩)
      · exact .inr (.inl ⟨h2, h1, h3⟩)
  · intro x hx
    rw [addSoft_pair_mem] at hx
    rcases hx with hx | ⟨h1, h2, _⟩ | ⟨h1, h2, _⟩
    · exact h.self x hx
    · exact hne (h1.symm.trans h2)
    · exact hne (h2.symm.trans h1)
  · intro x; rw [(e2 x).1, (e1 x).1]; exact h.ndOut x
  · intro x; rw [(e2 x).2.1, (e1 x).2.1]; exact h.ndIn x
  · intro x
    have n1 : (dSoft (addSoft a b d) x).Nodup := by
      rcases (e1 x).2.2.2.1 with h' | h'
      · exact h'
      · exact absurd (h.ndSoft x) h'
    rcases (e2 x).2.2.2.1 with h' | h'
    · exact h'
    · exact absurd n1 h'

/-! ### removal -/

private theorem sRemove_ok {u : Nat} {l : List Nat} (h : u ∈ l) : sRemove u l = .ok (l.filter (· ≠ u)) := by
  unfold sRemove; rw [if_pos h]

theorem unlinkIn_spec (u : Nat) (vs : List Nat) (hn : vs.Nodup) (d : RelsDict)
    (h : ∀ v ∈ vs, u ∈ dIn d v) :
    ∃ d', unlinkIn u vs d = (d', .ok ()) ∧ ∀ w, d'.get? w =
      (d.get? w).map fun r => if w ∈ vs then { r with inn := r.inn.filter (· ≠ u) } else r := by
  induction vs generalizing d with
  | nil => exact ⟨d, rfl, fun w => by simp⟩
  | cons v vs ih =>
    rw [List.nodup_cons] at hn
    have hv := h v (by simp)
    unfold unlinkIn
    cases hg : d.get? v with
    | none => simp [dIn, hg] at hv
    | some r =>
      have hr : u ∈ r.inn := by simpa [dIn, hg] using hv
      dsimp only
      rw [sRemove_ok hr]
      dsimp only
      obtain ⟨d', h1, h2⟩ := ih hn.2 (d.set v { r with inn := r.inn.filter (· ≠ u) }) (by
        intro w hw
        rw [dIn_set]
        have : w ≠ v := by rintro rfl; exact hn.1 hw
        rw [if_neg this]
        exact h w (by simp [hw]))
      refine ⟨d', h1, ?_⟩
      intro w
      rw [h2 w, Dict.get?_set]
      by_cases hw : w = v
      · subst hw
        simp [hg, hn.1]
      · rw [if_neg hw]
        simp [hw]

theorem unlinkOut_spec (u : Nat) (vs : List Nat) (hn : vs.Nodup) (d : RelsDict)
    (h : ∀ v ∈ vs, u ∈ dOut d v) :
    ∃ d', unlinkOut u vs d = (d', .ok ()) ∧ ∀ w, d'.get? w =
      (d.get? w).map fun r => if w ∈ vs then { r with out := r.out.filter (· ≠ u) } else r := by
  induction vs generalizing d with
  | nil => exact ⟨d, rfl, fun w => by simp⟩
  | cons v vs ih =>
    rw [List.nodup_cons] at hn
    have hv := h v (by simp)
    unfold unlinkOut
    cases hg : d.get? v with
    | none => simp [dOut, hg] at hv
    | some r =>
      have hr : u ∈ r.out := by simpa [dOut, hg] using hv
      dsimp only
      rw [sRemove_ok hr]
      dsimp only
      obtain ⟨d', h1, h2⟩ := ih hn.2 (d.set v { r with out := r.out.filter (· ≠ u) }) (by
        intro w hw
        rw [dOut_set]
        have : w ≠ v := by rintro rfl; exact hn.1 hw
        rw [if_neg this]
        exact h w (by simp [hw]))
      refine ⟨d', h1, ?_⟩
      intro w
      rw [h2 w, Dict.get?_set]
      by_cases hw : w = v
      · subst hw
        simp [hg, hn.1]
      · rw [if_neg hw]
        simp [hw]

theorem unlinkSoft_spec (u : Nat) (vs : List Nat) (hn : vs.Nodup) (hu : u ∉ vs) (d : RelsDict)
    (h : ∀ v ∈ vs, u ∈ dSoft d v) :
    ∃ d', unlinkSoft u vs d = (d', .ok ()) ∧ ∀ w, d'.get? w =
      (d.get? w).map fun r => if w ∈ vs then { r with soft := r.soft.filter (· ≠ u) } else r := by
  induction vs generalizing d with
  | nil => exact ⟨d, rfl, fun w => by simp⟩
  | cons v vs ih =>
    rw [List.nodup_cons] at hn
    have hv := h v (by simp)
    have hvu : v ≠ u := by rintro rfl; exact hu (by simp)
    unfold unlinkSoft
    cases hg : d.get? v with
    | none => simp [dSoft, hg] at hv
    | some r =>
      have hr : u ∈ r.soft := by simpa [dSoft, hg] using hv
      dsimp only
      rw [sRemove_ok hr]
      dsimp only
      rw [if_neg hvu]
      obtain ⟨d', h1, h2⟩ := ih hn.2 (fun h => hu (by simp [h])) (d.set v { r with soft := r.soft.filter (· ≠ u) }) (by
        intro w hw
        rw [dSoft_set]
        have : w ≠ v := by rintro rfl; exact hn.1 hw
        rw [if_neg this]
        exact h w (by simp [hw]))
      refine ⟨d', h1, ?_⟩
      intro w
      rw [h2 w, Dict.get?_set]
      by_cases hw : w = v
      · subst hw
        simp [hg, hn.1]
      · rw [if_neg hw]
        simp [hw]

/-- an entry without any mention of `u` -/
def purge (u : Nat) (r : Rels) : Rels :=
  ⟨r.out.filter (· ≠ u), r.inn.filter (· ≠ u), r.soft.filter (· ≠ u)⟩

private theorem filter_id {u : Nat} {l : List Nat} (h : u ∉ l) : l.filter (· ≠ u) = l := by
  rw [List.filter_eq_self]
  intro a ha
  simp only [ne_eq, decide_not, Bool.not_eq_eq_eq_not, Bool.not_true, decide_eq_false_iff_not]
  rintro rfl; exact h ha

theorem delRels_spec (u : Nat) (d : RelsDict) (h : InvR d) :
    (d.get? u = none ∧ delRels u d = (d, .error .key)) ∨
    ((d.get? u).isSome ∧ ∃ d', delRels u d = (d', .ok ()) ∧
      ∀ w, d'.get? w = if w = u then none else (d.get? w).map (purge u)) := by
  cases hg : d.get? u with
  | none => left; refine ⟨rfl, ?_⟩; unfold delRels; rw [hg]
  | some r =>
    right
    refine ⟨rfl, ?_⟩
    have ro : dOut d u = r.out := by simp [dOut, hg]
    have ri : dIn d u = r.inn := by simp [dIn, hg]
    have rs : dSoft d u = r.soft := by simp [dSoft, hg]
    unfold delRels
    rw [hg]
    dsimp only
    obtain ⟨d1, e1, g1⟩ := unlinkIn_spec u r.out (ro ▸ h.ndOut u) d (by
      intro v hv
      rw [← h.hard u v, ro]; exact hv)
    rw [e1]
    dsimp only
    have g1' : ∀ w, d1.get? w = (d.get? w).map fun r => { r with inn := r.inn.filter (· ≠ u) } := by
      intro w
      rw [g1 w]
      cases hw : d.get? w with
      | none => rfl
      | some rw' =>
        simp only [Option.map_some, Option.some.injEq]
        by_cases hm : w ∈ r.out
        · rw [if_pos hm]
        · rw [if_neg hm]
          have : u ∉ rw'.inn := by
            intro hc
            apply hm
            rw [← ro, h.hard u w]
            simpa [dIn, hw] using hc
          rw [filter_id this]
    have u1 : (d1.get? u).elim [] Rels.inn = r.inn.filter (· ≠ u) := by rw [g1' u, hg]; rfl
    rw [u1]
    obtain ⟨d2, e2, g2⟩ := unlinkOut_spec u (r.inn.filter (· ≠ u)) ((ri ▸ h.ndIn u : r.inn.Nodup).filter _) d1 (by
      intro v hv
      have hv' : v ∈ r.inn := (List.mem_filter.1 hv).1
      have : dOut d1 v = dOut d v := by
        unfold dOut; rw [g1' v]; cases d.get? v <;> rfl
      rw [this, h.hard v u, ri]; exact hv')
    rw [e2]
    dsimp only
    have us : (d2.get? u).elim [] Rels.soft = r.soft := by
      rw [g2 u, g1' u, hg]
      simp
    rw [us]
    obtain ⟨d3, e3, g3⟩ := unlinkSoft_spec u r.soft (rs ▸ h.ndSoft u) (rs ▸ h.self u) d2 (by
      intro v hv
      have : dSoft d2 v = dSoft d v := by
        unfold dSoft; rw [g2 v, g1' v]
        cases d.get? v with
        | none => rfl
        | some x => simp only [Option.map_some, Option.elim_some]; split <;> rfl
      rw [this, ← h.soft u v, rs]; exact hv)
    rw [e3]
    refine ⟨_, rfl, ?_⟩
    intro w
    rw [Dict.get?_erase]
    by_cases hwu : w = u
    · rw [if_pos hwu, if_pos hwu]
    · rw [if_neg hwu, if_neg hwu, g3 w, g2 w, g1' w]
      cases hw : d.get? w with
      | none => rfl
      | some x =>
        simp only [Option.map_some, Option.some.injEq]
        have o1 : w ∉ r.inn.filter (· ≠ u) → x.out.filter (· ≠ u) = x.out := by
          intro hm
          apply filter_id
          intro hc
          apply hm
          rw [List.mem_filter]
          refine ⟨?_, by simpa using hwu⟩
          rw [← ri, ← h.hard w u]
          simpa [dOut, hw] using hc
        have o2 : w ∉ r.soft → x.soft.filter (· ≠ u) = x.soft := by
          intro hm
          apply filter_id
          intro hc
          apply hm
          rw [← rs, h.soft u w]
          simpa [dSoft, hw] using hc
        unfold purge
        by_cases m1 : w ∈ r.inn.filter (· ≠ u)
        · by_cases m2 : w ∈ r.soft
          · rw [if_pos m1, if_pos m2]
          · rw [if_pos m1, if_neg m2, o2 m2]
        · by_cases m2 : w ∈ r.soft
          · rw [if_neg m1, if_pos m2, o1 m1]
          · rw [if_neg m1, if_neg m2, o1 m1, o2 m2]

theorem purge_eff (u : Nat) (d d' : RelsDict)
    (h : ∀ w, d'.get? w = if w = u then none else (d.get? w).map (purge u)) (a : Nat) :
    dOut d' a = (if a = u then [] else (dOut d a).filter (· ≠ u)) ∧
    dIn d' a = (if a = u then [] else (dIn d a).filter (· ≠ u)) ∧
    dSoft d' a = (if a = u then [] else (dSoft d a).filter (· ≠ u)) := by
  unfold dOut dIn dSoft
  rw [h a]
  by_cases ha : a = u
  · simp [ha]
  · simp only [if_neg ha]
    cases d.get? a with
    | none => simp
    | some r => simp [purge]

theorem InvR_purge (u : Nat) (d d' : RelsDict) (h : InvR d)
    (hg : ∀ w, d'.get? w = if w = u then none else (d.get? w).map (purge u)) : InvR d' := by
  have e := purge_eff u d d' hg
  have m : ∀ (l : List Nat) (a b : Nat), (b ∈ if a = u then [] else l.filter (· ≠ u)) ↔
      a ≠ u ∧ b ≠ u ∧ b ∈ l := by
    intro l a b
    by_cases ha : a = u
    · simp [ha]
    · rw [if_neg ha, List.mem_filter]; simp [ha, and_comm]
  refine ⟨?_, ?_, ?_, ?_, ?_, ?_⟩
  · intro a b
    rw [(e a).1, (e b).2.1, m, m, h.hard a b]
    constructor <;> rintro ⟨p, q, r⟩ <;> exact ⟨q, p, r⟩
  · intro a b
    rw [(e a).2.2, (e b).2.2, m, m, h.soft a b]
    constructor <;> rintro ⟨p, q, r⟩ <;> exact ⟨q, p, r⟩
  · intro a ha
    rw [(e a).2.2, m] at ha
    exact h.self a ha.2.2
  · intro a; rw [(e a).1]; by_cases ha : a = u
    · simp [ha]
    · rw [if_neg ha]; exact (h.ndOut a).filter _
  · intro a; rw [(e a).2.1]; by_cases ha : a = u
    · simp [ha]
    · rw [if_neg ha]; exact (h.ndIn a).filter _
  · intro a; rw [(e a).2.2]; by_cases ha : a = u
    · simp [ha]
    · rw [if_neg ha]; exact (h.ndSoft a).filter _

/-! ### change of supporting representation -/

theorem changeSupportRels_spec (u old new : Nat) (d : RelsDict) (hu : (d.get? u).isSome)
    (ho : (d.get? old).isSome) (hn : (d.get? new).isSome) :
    ∃ d', changeSupportRels u old new d = (d', .ok ()) ∧ ∀ a,
      dOut d' a = (if a = u then sAdd new ((dOut d a).filter (· ≠ old)) else dOut d a) ∧
      dIn d' a = (if a = new then sAdd u (if a = old then (dIn d a).filter (· ≠ u) else dIn d a)
        else if a = old then (dIn d a).filter (· ≠ u) else dIn d a) ∧
      dSoft d' a = dSoft d a := by
  unfold changeSupportRels
  cases hgu : d.get? u with
  | none => rw [hgu] at hu; simp at hu
  | some r =>
    dsimp only
    generalize hd1 : d.set u { r with out := sAdd new (r.out.filter (· ≠ old)) } = d1
    have i1 : ∀ a, (d1.get? a).isSome = (d.get? a).isSome := by
      intro a; rw [← hd1, Dict.get?_set]
      by_cases h : a = u
      · simp [h, hgu]
      · simp [h]
    have o1 : ∀ a, dOut d1 a = if a = u then sAdd new ((dOut d a).filter (· ≠ old)) else dOut d a := by
      intro a; rw [← hd1, dOut_set]
      by_cases h : a = u
      · subst h; simp [dOut, hgu]
      · simp [h]
    have n1 : ∀ a, dIn d1 a = dIn d a := by
      intro a; rw [← hd1, dIn_set]
      by_cases h : a = u
      · subst h; simp [dIn, hgu]
      · simp [h]
    have s1 : ∀ a, dSoft d1 a = dSoft d a := by
      intro a; rw [← hd1, dSoft_set]
      by_cases h : a = u
      · subst h; simp [dSoft, hgu]
      · simp [h]
    cases hgo : d1.get? old with
    | none => rw [← i1 old, hgo] at ho; simp at ho
    | some r2 =>
      dsimp only
      generalize hd2 : d1.set old { r2 with inn := r2.inn.filter (· ≠ u) } = d2
      have i2 : ∀ a, (d2.get? a).isSome = (d.get? a).isSome := by
        intro a; rw [← i1, ← hd2, Dict.get?_set]
        by_cases h : a = old
        · simp [h, hgo]
        · simp [h]
      have o2 : ∀ a, dOut d2 a = dOut d1 a := by
        intro a; rw [← hd2, dOut_set]
        by_cases h : a = old
        · subst h; simp [dOut, hgo]
        · simp [h]
      have n2 : ∀ a, dIn d2 a = if a = old then (dIn d a).filter (· ≠ u) else dIn d a := by
        intro a; rw [← hd2, dIn_set, n1]
        by_cases h : a = old
        · subst h
          rw [if_pos rfl, if_pos rfl, ← n1 a]
          simp [dIn, hgo]
        · simp [h]
      have s2 : ∀ a, dSoft d2 a = dSoft d1 a := by
        intro a; rw [← hd2, dSoft_set]
        by_cases h : a = old
        · subst h; simp [dSoft, hgo]
        · simp [h]
      cases hgn : d2.get? new with
      | none => rw [← i2 new, hgn] at hn; simp at hn
      | some r3 =>
        dsimp only
        refine ⟨_, rfl, ?_⟩
        intro a
        rw [dOut_set, dIn_set, dSoft_set]
        by_cases h : a = new
        · subst h
          simp only [if_true]
          have a1 : r3.out = dOut d2 a := by simp [dOut, hgn]
          have a2 : r3.inn = dIn d2 a := by simp [dIn, hgn]
          have a3 : r3.soft = dSoft d2 a := by simp [dSoft, hgn]
          rw [a1, a2, a3, o2, o1, n2, s2, s1]
          exact ⟨rfl, rfl, rfl⟩
        · simp only [if_neg h]
          rw [o2, o1, n2, s2, s1]
          exact ⟨rfl, rfl, rfl⟩

theorem InvR_changeSupport (u old new : Nat) (d d' : RelsDict) (h : InvR d)
    (e : ∀ a,
      dOut d' a = (if a = u then sAdd new ((dOut d a).filter (· ≠ old)) else dOut d a) ∧
      dIn d' a = (if a = new then sAdd u (if a = old then (dIn d a).filter (· ≠ u) else dIn d a)
        else if a = old then (dIn d a).filter (· ≠ u) else dIn d a) ∧
      dSoft d' a = dSoft d a) : InvR d' := by
  refine ⟨?_, ?_, ?_, ?_, ?_, ?_⟩
  · intro a b
    rw [(e a).1, (e b).2.1]
    have hm := h.hard a b
    by_cases ha : a = u
    · subst ha
      rw [if_pos rfl, mem_sAdd, List.mem_filter]
      by_cases hb : b = new
      · subst hb
        rw [if_pos rfl, mem_sAdd]; simp
      · rw [if_neg hb]
        by_cases hbo : b = old
        · rw [if_pos hbo, List.mem_filter]; simp [hbo, hb]
          intro hc; exact absurd (hbo.trans hc) hb
        · rw [if_neg hbo, hm]; simp [hb, hbo]
    · rw [if_neg ha]
      by_cases hb : b = new
      · rw [if_pos hb, mem_sAdd]
        by_cases hbo : b = old
        · rw [if_pos hbo, List.mem_filter, hm]; simp [ha]
        · rw [if_neg hbo, hm]; simp [ha]
      · rw [if_neg hb]
        by_cases hbo : b = old
        · rw [if_pos hbo, List.mem_filter, hm]; simp [ha]
        · rw [if_neg hbo, hm]
  · intro a b; rw [(e a).2.2, (e b).2.2]; exact h.soft a b
  · intro a; rw [(e a).2.2]; exact h.self a
  · intro a; rw [(e a).1]; by_cases ha : a = u
    · rw [if_pos ha]; exact nodup_sAdd _ _ ((h.ndOut a).filter _)
    · rw [if_neg ha]; exact h.ndOut a
  · intro a; rw [(e a).2.1]
    have : (if a = old then (dIn d a).filter (· ≠ u) else dIn d a).Nodup := by
      by_cases ho : a = old
      · rw [if_pos ho]; exact (h.ndIn a).filter _
      · rw [if_neg ho]; exact h.ndIn a
    by_cases ha : a = new
    · rw [if_pos ha]; exact nodup_sAdd _ _ this
    · rw [if_neg ha]; exact this
  · intro a; rw [(e a).2.2]; exact h.ndSoft a

end Verif.Catalogue
