import Verif.FindFaces.Spec
import Mathlib.Data.List.Nodup
import Mathlib.Data.List.Perm.Subperm
import Mathlib.Algebra.Order.BigOperators.Group.Finset
import Mathlib.Algebra.BigOperators.Fin

/-! # Filling -/

namespace Verif.FindFaces
variable {D : Nat}

/-! ## Cells -/

theorem mem_cells {D : Nat} {n c : Cell D} : c ∈ cells n ↔ ∀ a, c a < n a := by
  induction D with
  | zero =>
    refine ⟨fun _ a => a.elim0, fun _ => ?_⟩
    rw [cells, List.mem_singleton]
    funext a
    exact a.elim0
  | succ D ih =>
    rw [cells, List.mem_flatMap]
    constructor
    · rintro ⟨x, hx, h⟩
      obtain ⟨r, hr, rfl⟩ := List.mem_map.mp h
      rw [Fin.forall_fin_succ]
      exact ⟨List.mem_range.mp hx, fun a => by rw [Fin.cons_succ]; exact ih.mp hr a⟩
    · intro h
      refine ⟨c 0, List.mem_range.mpr (h 0), List.mem_map.mpr ⟨Fin.tail c, ih.mpr fun a => h a.succ, Fin.cons_self_tail c⟩⟩

theorem nodup_cells {D : Nat} (n : Cell D) : (cells n).Nodup := by
  induction D with
  | zero => exact List.nodup_singleton _
  | succ D ih =>
    rw [cells, List.nodup_flatMap]
    refine ⟨fun x _ => (ih _).map (fun r s h => (Fin.cons_inj.mp h).2), ?_⟩
    refine List.nodup_range.imp ?_
    intro x y hxy c h1 h2
    obtain ⟨r, -, rfl⟩ := List.mem_map.mp h1
    obtain ⟨s, -, h⟩ := List.mem_map.mp h2
    exact hxy (Fin.cons_inj.mp h.symm).1

theorem length_cells3 (n : Cell 3) : (cells n).length = n 0 * n 1 * n 2 := by
  simp only [cells, List.length_flatMap, List.length_map, List.length_cons, List.length_nil, List.map_const', List.sum_replicate,
    List.length_range, smul_eq_mul, mul_one, Nat.zero_add]
  rw [← mul_assoc]
  rfl

theorem length_cells2 (n : Cell 2) : (cells n).length = n 0 * n 1 := by
  simp only [cells, List.length_flatMap, List.length_map, List.length_cons, List.length_nil, List.map_const', List.sum_replicate,
    List.length_range, smul_eq_mul, mul_one, Nat.zero_add]
  rfl

theorem next_self (c : Cell D) (ax : Fin D) : next c ax ax = c ax + 1 := Function.update_self ..
theorem next_ne (c : Cell D) {ax b : Fin D} (h : b ≠ ax) : next c ax b = c b := Function.update_of_ne h ..
theorem prev_self (c : Cell D) (ax : Fin D) : prev c ax ax = c ax - 1 := Function.update_self ..
theorem prev_ne (c : Cell D) {ax b : Fin D} (h : b ≠ ax) : prev c ax b = c b := Function.update_of_ne h ..

theorem prev_next (c : Cell D) (ax : Fin D) : prev (next c ax) ax = c := by
  funext b
  by_cases h : b = ax
  · subst h; rw [prev_self, next_self, Nat.add_sub_cancel]
  · rw [prev_ne _ h, next_ne _ h]

theorem next_prev {c : Cell D} {ax : Fin D} (h : c ax ≠ 0) : next (prev c ax) ax = c := by
  funext b
  by_cases hb : b = ax
  · subst hb; rw [next_self, prev_self]; omega
  · rw [next_ne _ hb, prev_ne _ hb]

theorem eq_next {c d : Cell D} {ax : Fin D} (h : d ax = c ax + 1) (h' : ∀ b, b ≠ ax → d b = c b) : d = next c ax := by
  funext b
  by_cases hb : b = ax
  · subst hb; rw [next_self, h]
  · rw [next_ne _ hb, h' b hb]

theorem openStep_next {ext : Cell D} {faces : Fin D → List (Cell D)} {c : Cell D} {ax : Fin D} (h : InGrid ext (next c ax)) (hf : c ∉ faces ax) :
    OpenStep ext faces c (next c ax) := by
  refine ⟨fun a => ?_, h, ax, next_self c ax, fun b hb => next_ne c hb, hf⟩
  have := h a
  by_cases ha : a = ax
  · subst ha; rw [next_self] at this; omega
  · rw [next_ne _ ha] at this; exact this

theorem connected_symm {ext : Cell D} {faces : Fin D → List (Cell D)} {c d : Cell D} (h : Connected ext faces c d) : Connected ext faces d c := by
  induction h with
  | refl => exact Relation.ReflTransGen.refl
  | tail _ h ih => exact Relation.ReflTransGen.head h.symm ih

/-! ## Spreading -/

theorem spreads_iff {n : Cell D} {isOpen : Fin D → Cell D → Bool} {set : List (Cell D)} {c : Cell D} :
    spreads n isOpen set c = true ↔ ∃ ax, (c ax ≠ 0 ∧ prev c ax ∈ set ∧ isOpen ax (prev c ax) = true) ∨
      (c ax < n ax - 1 ∧ next c ax ∈ set ∧ isOpen ax c = true) := by
  unfold spreads
  simp only [Bool.or_eq_true, List.any_eq_true, List.mem_finRange, true_and, Bool.and_eq_true, decide_eq_true_eq, List.contains_iff_mem,
    and_assoc, exists_or]

/-- a property which spreads -/
def Spreads (n : Cell D) (isOpen : Fin D → Cell D → Bool) (P : Cell D → Prop) : Prop :=
  ∀ set : List (Cell D), (∀ x ∈ set, P x) → ∀ c ∈ cells n, spreads n isOpen set c = true → P c

/-- one round -/
theorem sweepAux (n : Cell D) (isOpen : Fin D → Cell D → Bool) (l : List (Cell D)) (hl : ∀ c ∈ l, c ∈ cells n) (s0 : List (Cell D) × Bool) :
    let s := l.foldl (fun s c => if s.1.contains c then s else if spreads n isOpen s.1 c then (c :: s.1, true) else s) s0
    (∀ x ∈ s0.1, x ∈ s.1) ∧ (∀ P, Spreads n isOpen P → (∀ x ∈ s0.1, P x) → ∀ x ∈ s.1, P x) ∧ (s0.1.Nodup → s.1.Nodup) ∧
      (s.2 = false → s.1 = s0.1 ∧ s0.2 = false ∧ ∀ c ∈ l, c ∉ s0.1 → spreads n isOpen s0.1 c = false) ∧
      (s.2 = true → s0.2 = true ∨ s0.1.length < s.1.length) ∧ s0.1.length ≤ s.1.length ∧ (s0.2 = true → s.2 = true) := by
  induction l generalizing s0 with
  | nil =>
    refine ⟨fun x h => h, fun P _ h => h, fun h => h, fun h => ⟨rfl, h, fun c hc => (List.not_mem_nil hc).elim⟩, fun h => Or.inl h, le_refl _, fun h => h⟩
  | cons c l ih =>
    intro s
    have hc := hl c List.mem_cons_self
    have hl' : ∀ c ∈ l, c ∈ cells n := fun d hd => hl d (List.mem_cons_of_mem _ hd)
    by_cases h1 : c ∈ s0.1
    · have e : s = l.foldl (fun s c => if s.1.contains c then s else if spreads n isOpen s.1 c then (c :: s.1, true) else s) s0 := by
        show List.foldl _ _ (c :: l) = _
        rw [List.foldl_cons, if_pos (List.contains_iff_mem.mpr h1)]
      obtain ⟨a1, a2, a3, a4, a5, a6, a7⟩ := ih hl' s0
      rw [e]
      refine ⟨a1, a2, a3, fun h => ?_, a5, a6, a7⟩
      obtain ⟨b1, b2, b3⟩ := a4 h
      refine ⟨b1, b2, fun d hd hn => ?_⟩
      rcases List.mem_cons.mp hd with rfl | hd
      · exact absurd h1 hn
      · exact b3 d hd hn
    · by_cases h2 : spreads n isOpen s0.1 c = true
      · have e : s = l.foldl (fun s c => if s.1.contains c then s else if spreads n isOpen s.1 c then (c :: s.1, true) else s) (c :: s0.1, true) := by
          show List.foldl _ _ (c :: l) = _
          rw [List.foldl_cons, if_neg (fun h => h1 (List.contains_iff_mem.mp h)), if_pos h2]
        obtain ⟨a1, a2, a3, a4, a5, a6, a7⟩ := ih hl' (c :: s0.1, true)
        rw [e]
        refine ⟨fun x hx => a1 x (List.mem_cons_of_mem _ hx), ?_, ?_, ?_, ?_, ?_, fun _ => a7 rfl⟩
        · intro P hP h0
          refine a2 P hP ?_
          intro x hx
          rcases List.mem_cons.mp hx with rfl | hx
          · exact hP s0.1 h0 x hc h2
          · exact h0 x hx
        · exact fun h => a3 (List.nodup_cons.mpr ⟨h1, h⟩)
        · intro h
          rw [a7 rfl] at h
          cases h
        · intro _
          exact Or.inr (lt_of_lt_of_le (Nat.lt_succ_self _) a6)
        · exact le_trans (Nat.le_succ _) a6
      · have e : s = l.foldl (fun s c => if s.1.contains c then s else if spreads n isOpen s.1 c then (c :: s.1, true) else s) s0 := by
          show List.foldl _ _ (c :: l) = _
          rw [List.foldl_cons, if_neg (fun h => h1 (List.contains_iff_mem.mp h)), if_neg h2]
        obtain ⟨a1, a2, a3, a4, a5, a6, a7⟩ := ih hl' s0
        rw [e]
        refine ⟨a1, a2, a3, fun h => ?_, a5, a6, a7⟩
        obtain ⟨b1, b2, b3⟩ := a4 h
        refine ⟨b1, b2, fun d hd hn => ?_⟩
        rcases List.mem_cons.mp hd with rfl | hd
        · exact Bool.eq_false_iff.mpr h2
        · exact b3 d hd hn

theorem length_le_cells {n : Cell D} {l : List (Cell D)} (h : l.Nodup) (hl : ∀ x ∈ l, x ∈ cells n) : l.length ≤ (cells n).length :=
  (List.subperm_of_subset h hl).length_le

theorem spreads_inCells (n : Cell D) (isOpen : Fin D → Cell D → Bool) : Spreads n isOpen fun c => c ∈ cells n :=
  fun _ _ _ hc _ => hc

theorem fillLoop_spec (n : Cell D) (isOpen : Fin D → Cell D → Bool) (fuel : Nat) (set : List (Cell D)) (hn : set.Nodup)
    (hs : ∀ x ∈ set, x ∈ cells n) (hf : (cells n).length < fuel + set.length) :
    ∃ T, fillLoop n isOpen fuel set = some T ∧ (∀ x ∈ set, x ∈ T) ∧ (∀ P, Spreads n isOpen P → (∀ x ∈ set, P x) → ∀ x ∈ T, P x) ∧
      ∀ c ∈ cells n, spreads n isOpen T c = true → c ∈ T := by
  induction fuel generalizing set with
  | zero =>
    have := length_le_cells hn hs
    omega
  | succ fuel ih =>
    have h := sweepAux n isOpen (cells n) (fun _ h => h) (set, false)
    dsimp only at h
    rw [fillLoop]
    unfold sweep
    generalize List.foldl _ (set, false) (cells n) = s at h
    obtain ⟨a1, a2, a3, a4, a5, a6, a7⟩ := h
    by_cases hg : s.2 = true
    · rw [if_pos hg]
      obtain ⟨T, t1, t2, t3, t4⟩ := ih s.1 (a3 hn) (a2 _ (spreads_inCells n isOpen) hs) (by
        rcases a5 hg with h | h
        · cases h
        · omega)
      refine ⟨T, t1, fun x hx => t2 x (a1 x hx), fun P hP h0 => t3 P hP (a2 P hP h0), t4⟩
    · rw [if_neg hg]
      obtain ⟨b1, -, b3⟩ := a4 (Bool.eq_false_iff.mpr hg)
      refine ⟨s.1, rfl, a1, fun P hP h0 => a2 P hP h0, ?_⟩
      intro c hc hsp
      rw [b1] at hsp ⊢
      by_contra hcn
      rw [b3 c hc hcn] at hsp
      cases hsp

/-- the limit is not reached -/
theorem fill_ends (n : Cell D) (isOpen : Fin D → Cell D → Bool) {set : List (Cell D)} (hn : set.Nodup) (hs : ∀ x ∈ set, x ∈ cells n) :
    ∃ T, fillLoop n isOpen ((cells n).length + 1) set = some T ∧ fill n isOpen set = T := by
  obtain ⟨T, h, -⟩ := fillLoop_spec n isOpen ((cells n).length + 1) set hn hs (by omega)
  exact ⟨T, h, by unfold fill; rw [h]; rfl⟩

theorem fill_spec (n : Cell D) (isOpen : Fin D → Cell D → Bool) {set : List (Cell D)} (hn : set.Nodup) (hs : ∀ x ∈ set, x ∈ cells n) :
    (∀ x ∈ set, x ∈ fill n isOpen set) ∧ (∀ P, Spreads n isOpen P → (∀ x ∈ set, P x) → ∀ x ∈ fill n isOpen set, P x) ∧
      ∀ c ∈ cells n, spreads n isOpen (fill n isOpen set) c = true → c ∈ fill n isOpen set := by
  obtain ⟨T, h, h2, h3, h4⟩ := fillLoop_spec n isOpen ((cells n).length + 1) set hn hs (by omega)
  have e : fill n isOpen set = T := by unfold fill; rw [h]; rfl
  rw [e]
  exact ⟨h2, h3, h4⟩

/-- what is filled is closed under steps -/
theorem closed_step {n : Cell D} {isOpen : Fin D → Cell D → Bool} {T : List (Cell D)}
    (hT : ∀ c ∈ cells n, spreads n isOpen T c = true → c ∈ T) {r : Cell D} {ax : Fin D} (hr : next r ax ∈ cells n) (ho : isOpen ax r = true) :
    r ∈ T ↔ next r ax ∈ T := by
  have hr' : r ∈ cells n := by
    rw [mem_cells] at hr ⊢
    intro a
    have := hr a
    by_cases ha : a = ax
    · subst ha; rw [next_self] at this; omega
    · rw [next_ne _ ha] at this; exact this
  constructor
  · intro h
    refine hT _ hr (spreads_iff.mpr ⟨ax, Or.inl ⟨by rw [next_self]; omega, ?_, ?_⟩⟩)
    · rw [prev_next]; exact h
    · rw [prev_next]; exact ho
  · intro h
    refine hT _ hr' (spreads_iff.mpr ⟨ax, Or.inr ⟨?_, h, ho⟩⟩)
    have := mem_cells.mp hr ax
    rw [next_self] at this
    omega

/-! ## Boxes -/

/-- a box with all the faces inside, of which the sides which are not sides of the grid are free of other faces -/
structure GoodBox (ext lo hi : Cell D) (faces : Fin D → List (Cell D)) : Prop where
  lt : ∀ a, lo a < hi a
  le : ∀ a, hi a ≤ ext a
  inside : ∀ ax, ∀ c ∈ faces ax, ∀ a, lo a ≤ c a ∧ c a < hi a
  inside' : ∀ ax, ∀ c ∈ faces ax, c ax + 1 < hi ax
  low : ∀ a, lo a ≠ 0 → ∀ ax, ax ≠ a → ∀ c ∈ faces ax, c a ≠ lo a
  high : ∀ a, hi a < ext a → ∀ ax, ax ≠ a → ∀ c ∈ faces ax, c a ≠ hi a - 1

def InBox (lo hi : Cell D) (c : Cell D) : Prop := ∀ a, lo a ≤ c a ∧ c a < hi a

/-- nearest cell of the box -/
def clamp (lo hi : Cell D) (c : Cell D) : Cell D := fun a => if c a < lo a then lo a else if hi a ≤ c a then hi a - 1 else c a

theorem clamp_inBox {lo hi : Cell D} (h : ∀ a, lo a < hi a) (c : Cell D) : InBox lo hi (clamp lo hi c) := by
  intro a
  have := h a
  unfold clamp
  split
  · omega
  · split <;> omega

theorem clamp_of_inBox {lo hi c : Cell D} (h : InBox lo hi c) : clamp lo hi c = c := by
  funext a
  have := h a
  unfold clamp
  rw [if_neg (by omega), if_neg (by omega)]

/-- on a slice, what does not change by steps within it is constant -/
theorem slice_const {lo hi : Cell D} {P : Cell D → Prop} {ax : Fin D} {s : Nat} (hs : lo ax ≤ s ∧ s < hi ax)
    (hstep : ∀ c b, b ≠ ax → c ax = s → InBox lo hi c → InBox lo hi (next c b) → (P c ↔ P (next c b))) {c : Cell D} (hc : InBox lo hi c) (hcs : c ax = s) :
    P c ↔ P (Function.update lo ax s) := by
  induction hm : (∑ a, c a) using Nat.strong_induction_on generalizing c with
  | _ m ih =>
    by_cases he : ∃ b, b ≠ ax ∧ lo b < c b
    · obtain ⟨b, hb, hlt⟩ := he
      have hp : InBox lo hi (prev c b) := by
        intro a
        have := hc a
        by_cases ha : a = b
        · subst ha; rw [prev_self]; omega
        · rw [prev_ne _ ha]; exact this
      have hne : c b ≠ 0 := by omega
      have h1 := hstep (prev c b) b hb (by rw [prev_ne _ (Ne.symm hb)]; exact hcs) hp (by rw [next_prev hne]; exact hc)
      rw [next_prev hne] at h1
      rw [← h1]
      refine ih _ ?_ hp (by rw [prev_ne _ (Ne.symm hb)]; exact hcs) rfl
      rw [← hm]
      refine Finset.sum_lt_sum (fun a _ => ?_) ⟨b, Finset.mem_univ _, ?_⟩
      · by_cases ha : a = b
        · subst ha; rw [prev_self]; omega
        · rw [prev_ne _ ha]
      · rw [prev_self]; omega
    · have : c = Function.update lo ax s := by
        funext a
        by_cases ha : a = ax
        · subst ha; rw [Function.update_self, hcs]
        · rw [Function.update_of_ne ha]
          have := hc a
          by_contra hne
          exact he ⟨a, ha, by omega⟩
      rw [this]

/-- outside the box nothing is in the way -/
theorem connected_clamp {ext lo hi : Cell D} {faces : Fin D → List (Cell D)} (h : GoodBox ext lo hi faces) {c : Cell D} (hc : InGrid ext c) :
    Connected ext faces (clamp lo hi c) c := by
  induction hm : (∑ a, ((c a - (hi a - 1)) + (lo a - c a))) using Nat.strong_induction_on generalizing c with
  | _ m ih =>
    by_cases hin : InBox lo hi c
    · rw [clamp_of_inBox hin]
      exact Relation.ReflTransGen.refl
    obtain ⟨a, ha⟩ := not_forall.mp hin
    have l1 := h.lt a
    have l2 := h.le a
    by_cases hlo : c a < lo a
    · -- towards the box
      have hg : InGrid ext (next c a) := by
        intro b
        by_cases hb : b = a
        · subst hb; rw [next_self]; omega
        · rw [next_ne _ hb]; exact hc b
      have hf : c ∉ faces a := fun hf => by
        have := (h.inside a c hf a).1
        omega
      have hcl : clamp lo hi (next c a) = clamp lo hi c := by
        funext b
        unfold clamp
        by_cases hb : b = a
        · subst hb
          rw [next_self, if_pos hlo]
          split
          · rfl
          · rw [if_neg (by omega)]; omega
        · rw [next_ne _ hb]
      have := ih _ ?_ hg rfl
      · rw [hcl] at this
        exact Relation.ReflTransGen.tail this (Or.inr (openStep_next hg hf))
      · rw [← hm]
        refine Finset.sum_lt_sum (fun b _ => ?_) ⟨a, Finset.mem_univ _, ?_⟩
        · by_cases hb : b = a
          · subst hb; rw [next_self]; omega
          · rw [next_ne _ hb]
        · rw [next_self]; omega
    · have hhi : hi a ≤ c a := by
        by_contra hh
        exact ha ⟨by omega, by omega⟩
      have hne : c a ≠ 0 := by omega
      have hg : InGrid ext (prev c a) := by
        intro b
        have := hc b
        by_cases hb : b = a
        · subst hb; rw [prev_self]; omega
        · rw [prev_ne _ hb]; exact this
      have hf : prev c a ∉ faces a := fun hf => by
        have := h.inside' a _ hf
        rw [prev_self] at this
        omega
      have hcl : clamp lo hi (prev c a) = clamp lo hi c := by
        funext b
        unfold clamp
        by_cases hb : b = a
        · subst hb
          rw [prev_self, if_neg hlo, if_pos hhi, if_neg (by omega)]
          split
          · rfl
          · omega
        · rw [prev_ne _ hb]
      have := ih _ ?_ hg rfl
      · rw [hcl] at this
        refine Relation.ReflTransGen.tail this (Or.inl ?_)
        have hn := openStep_next (ext := ext) (faces := faces) (c := prev c a) (ax := a) (by rw [next_prev hne]; exact hc) hf
        rw [next_prev hne] at hn
        exact hn
      · rw [← hm]
        refine Finset.sum_lt_sum (fun b _ => ?_) ⟨a, Finset.mem_univ _, ?_⟩
        · by_cases hb : b = a
          · subst hb; rw [prev_self]; omega
          · rw [prev_ne _ hb]
        · rw [prev_self]; omega

/-- a step taken at the side of the box, as near as possible to an open step, is an open step or none -/
theorem clamp_step {ext lo hi : Cell D} {faces : Fin D → List (Cell D)} (h : GoodBox ext lo hi faces) {c d : Cell D} (hs : OpenStep ext faces c d) :
    clamp lo hi d = clamp lo hi c ∨ ∃ ax, clamp lo hi d = next (clamp lo hi c) ax ∧ clamp lo hi c ∉ faces ax := by
  obtain ⟨hc, hd, ax, h1, h2, hf⟩ := hs
  have e := eq_next h1 h2
  subst e
  have hval : ∀ b, b ≠ ax → clamp lo hi (next c ax) b = clamp lo hi c b := fun b hb => by unfold clamp; rw [next_ne _ hb]
  by_cases hin : lo ax ≤ c ax ∧ c ax + 1 < hi ax
  · refine Or.inr ⟨ax, ?_, ?_⟩
    · funext b
      by_cases hb : b = ax
      · subst hb
        rw [next_self]
        unfold clamp
        rw [next_self, if_neg (by omega), if_neg (by omega), if_neg (by omega), if_neg (by omega)]
      · rw [next_ne _ hb, hval b hb]
    · intro hmem
      by_cases hb : InBox lo hi c
      · rw [clamp_of_inBox hb] at hmem
        exact hf hmem
      · obtain ⟨a, ha⟩ := not_forall.mp hb
        have hane : ax ≠ a := by
          intro e
          subst e
          exact ha ⟨hin.1, by omega⟩
        by_cases hlo : c a < lo a
        · exact h.low a (by omega) ax hane _ hmem (by unfold clamp; rw [if_pos hlo])
        · have hhi : hi a ≤ c a := by
            by_contra hh
            exact ha ⟨by omega, by omega⟩
          exact h.high a (lt_of_le_of_lt hhi (hc a)) ax hane _ hmem (by unfold clamp; rw [if_neg hlo, if_pos hhi])
  · refine Or.inl ?_
    funext b
    by_cases hb : b = ax
    · subst hb
      have l1 := h.lt b
      unfold clamp
      rw [next_self]
      by_cases hlo : c b < lo b
      · rw [if_pos hlo]
        split
        · rfl
        · rw [if_neg (by omega)]; omega
      · rw [if_neg hlo, if_neg (by omega), if_pos (by omega)]
        split
        · rfl
        · omega
    · exact hval b hb

end Verif.FindFaces
