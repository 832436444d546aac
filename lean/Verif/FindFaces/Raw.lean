import Verif.FindFaces.Lemmas
import Mathlib.Tactic.FinCases

/-! # The raw bisector -/

namespace Verif.FindFaces
open Verif.Py

theorem raw_iff {ext lo hi : Cell 3} {faces : Fin 3 → Option (List (Cell 3))} (h : GoodBox ext lo hi (listOf faces)) {c : Cell 3} (hc : InGrid ext c) :
    rawBisector ext lo hi faces c = true ↔ Connected ext (listOf faces) (fun _ => 0) c := by
  set n : Cell 3 := fun a => hi a - lo a with hn
  set isOpen : Fin 3 → Cell 3 → Bool := fun ax r => match faces ax with | none => true | some l => !(l.contains fun a => r a + lo a) with hopen
  have hO : ∀ ax r, isOpen ax r = true ↔ (fun a => r a + lo a) ∉ listOf faces ax := by
    intro ax r
    simp only [hopen, listOf]
    cases faces ax with
    | none => simp
    | some l => simp only [Bool.not_eq_true', Option.getD_some, ← Bool.not_eq_true, List.contains_iff_mem]
  have hz : ∀ x ∈ [(fun _ => 0 : Cell 3)], x ∈ cells n := by
    intro x hx
    rw [List.mem_singleton] at hx
    subst hx
    rw [mem_cells]
    intro a
    have := h.lt a
    simp only [hn]
    omega
  obtain ⟨f1, f2, f3⟩ := fill_spec n isOpen (List.nodup_singleton _) hz
  set box := fill n isOpen [fun _ => 0] with hbox
  have hraw : rawBisector ext lo hi faces c = (((List.finRange 3).all (fun a => decide (lo a ≤ c a) && decide (c a < hi a)) && box.contains fun a => c a - lo a) ||
    (List.finRange 3).any fun a =>
      (decide (hi a < ext a) && (box.any fun r => r a == n a - 1) && decide (hi a ≤ c a)) || (decide (lo a ≠ 0) && decide (c a < lo a))) := rfl
  -- cells of the box
  have hbin : ∀ r ∈ box, r ∈ cells n := f2 _ (spreads_inCells n isOpen) hz
  let B : Cell 3 → Prop := fun x => (fun a => x a - lo a) ∈ box
  have hstep : ∀ x ax, InBox lo hi x → InBox lo hi (next x ax) → x ∉ listOf faces ax → (B x ↔ B (next x ax)) := by
    intro x ax hx hx' hf
    have e : (fun a => next x ax a - lo a) = next (fun a => x a - lo a) ax := by
      refine eq_next ?_ ?_
      · rw [next_self]
        have := hx ax
        omega
      · intro b hb
        rw [next_ne _ hb]
    show _ ∈ box ↔ _ ∈ box
    rw [e]
    refine closed_step f3 ?_ ?_
    · rw [← e, mem_cells]
      intro a
      have := hx' a
      simp only [hn]
      omega
    · rw [hO]
      have : (fun a => x a - lo a + lo a) = x := by
        funext a
        have := hx a
        omega
      rw [this]
      exact hf
  have hBlo : B lo := by
    refine f1 _ ?_
    rw [List.mem_singleton]
    funext a
    exact Nat.sub_self _
  -- what is filled is connected
  have hconn : ∀ r ∈ box, Connected ext (listOf faces) lo fun a => r a + lo a := by
    have key : Spreads n isOpen fun r => r ∈ cells n ∧ Connected ext (listOf faces) lo fun a => r a + lo a := by
      intro set hset r hr hsp
      refine ⟨hr, ?_⟩
      obtain ⟨ax, hsp⟩ := spreads_iff.mp hsp
      have hrg : InGrid ext fun a => r a + lo a := by
        intro a
        have := mem_cells.mp hr a
        have := h.le a
        simp only [hn] at *
        omega
      rcases hsp with ⟨g1, g2, g3⟩ | ⟨g1, g2, g3⟩
      · have e : (fun a => r a + lo a) = next (fun a => prev r ax a + lo a) ax := by
          refine eq_next ?_ ?_
          · rw [prev_self]; omega
          · intro b hb; rw [prev_ne _ hb]
        refine Relation.ReflTransGen.tail (hset _ g2).2 (Or.inl ?_)
        rw [e]
        refine openStep_next ?_ ((hO _ _).mp g3)
        rw [← e]
        exact hrg
      · have e : (fun a => next r ax a + lo a) = next (fun a => r a + lo a) ax := by
          refine eq_next ?_ ?_
          · rw [next_self]; omega
          · intro b hb; rw [next_ne _ hb]
        refine Relation.ReflTransGen.tail (hset _ g2).2 (Or.inr ?_)
        rw [e]
        refine openStep_next ?_ ((hO _ _).mp g3)
        rw [← e]
        intro a
        have := mem_cells.mp (hset _ g2).1 a
        have := h.le a
        simp only [hn] at *
        omega
    intro r hr
    refine (f2 _ key ?_ r hr).2
    intro x hx
    refine ⟨hz x hx, ?_⟩
    rw [List.mem_singleton] at hx
    subst hx
    have : (fun a => 0 + lo a) = lo := by funext a; exact Nat.zero_add _
    rw [this]
    exact Relation.ReflTransGen.refl
  have hlow : ∀ a, lo a ≠ 0 → ∀ x, InBox lo hi x → x a = lo a → B x := by
    intro a ha x hx hxa
    have := slice_const (P := B) (ax := a) (s := lo a) ⟨le_refl _, h.lt a⟩ (fun y b hb hy i1 i2 =>
      hstep y b i1 i2 fun hf => h.low a ha b hb y hf hy) hx hxa
    rw [this, Function.update_eq_self]
    exact hBlo
  have hhigh : ∀ a, hi a < ext a → ∀ x y, InBox lo hi x → InBox lo hi y → x a = hi a - 1 → y a = hi a - 1 → B x → B y := by
    intro a ha x y hx hy hxa hya hBx
    have l := h.lt a
    have key : ∀ z, InBox lo hi z → z a = hi a - 1 → (B z ↔ B (Function.update lo a (hi a - 1))) := fun z hz hza =>
      slice_const (P := B) (ax := a) (s := hi a - 1) ⟨by omega, by omega⟩ (fun y b hb hy i1 i2 =>
        hstep y b i1 i2 fun hf => h.high a ha b hb y hf hy) hz hza
    exact (key y hy hya).mpr ((key x hx hxa).mp hBx)
  have hcl := clamp_inBox h.lt c
  -- the array, in terms of the nearest cell of the box
  have hA : rawBisector ext lo hi faces c = true ↔ B (clamp lo hi c) := by
    rw [hraw]
    simp only [Bool.or_eq_true, Bool.and_eq_true, List.all_eq_true, List.any_eq_true, List.mem_finRange, true_and, forall_const,
      decide_eq_true_eq, List.contains_iff_mem, beq_iff_eq]
    constructor
    · rintro (⟨hin, hb⟩ | ⟨a, ⟨⟨he, r, hr, hra⟩, hge⟩ | ⟨hne, hlt⟩⟩)
      · rw [clamp_of_inBox fun a => hin a]
        exact hb
      · have l := h.lt a
        have hrc := mem_cells.mp (hbin r hr)
        refine hhigh a he (fun b => r b + lo b) _ ?_ hcl ?_ ?_ ?_
        · intro b
          have := hrc b
          simp only [hn] at this
          show lo b ≤ r b + lo b ∧ r b + lo b < hi b
          omega
        · simp only [hn] at hra
          omega
        · unfold clamp
          rw [if_neg (by omega), if_pos hge]
        · show (fun b => r b + lo b - lo b) ∈ box
          simp only [Nat.add_sub_cancel]
          exact hr
      · refine hlow a hne _ hcl ?_
        unfold clamp
        rw [if_pos hlt]
    · intro hB
      by_cases hin : InBox lo hi c
      · rw [clamp_of_inBox hin] at hB
        exact Or.inl ⟨fun a => hin a, hB⟩
      · obtain ⟨a, ha⟩ := not_forall.mp hin
        have l := h.lt a
        refine Or.inr ⟨a, ?_⟩
        by_cases hlo : c a < lo a
        · exact Or.inr ⟨by omega, hlo⟩
        · have hhi : hi a ≤ c a := by
            by_contra hh
            exact ha ⟨by omega, by omega⟩
          refine Or.inl ⟨⟨lt_of_le_of_lt hhi (hc a), _, hB, ?_⟩, hhi⟩
          unfold clamp
          simp only [hn]
          rw [if_neg hlo, if_pos hhi]
          omega
  rw [hA]
  have h0g : InGrid ext fun _ => 0 := fun a => lt_of_le_of_lt (Nat.zero_le _) (hc a)
  have h0 : clamp lo hi (fun _ => 0) = lo := by
    funext a
    have := h.lt a
    show (if 0 < lo a then lo a else if hi a ≤ 0 then hi a - 1 else 0) = lo a
    split
    · rfl
    · rw [if_neg (by omega)]; omega
  constructor
  · intro hB
    have h1 := connected_clamp h h0g
    rw [h0] at h1
    have h2 := hconn _ hB
    have e : (fun a => clamp lo hi c a - lo a + lo a) = clamp lo hi c := by
      funext a
      have := hcl a
      omega
    rw [e] at h2
    exact ((connected_symm h1).trans h2).trans (connected_clamp h hc)
  · intro hconn
    have hmove : ∀ x y, OpenStep ext (listOf faces) x y → (B (clamp lo hi x) ↔ B (clamp lo hi y)) := by
      intro x y hs
      rcases clamp_step h hs with e | ⟨ax, e, hf⟩
      · rw [e]
      · rw [e]
        refine hstep _ ax (clamp_inBox h.lt x) ?_ hf
        rw [← e]
        exact clamp_inBox h.lt y
    have key : ∀ x, Connected ext (listOf faces) (fun _ => 0) x → B (clamp lo hi x) := by
      intro x hx
      induction hx with
      | refl => rw [h0]; exact hBlo
      | tail _ hs ih =>
        rcases hs with hs | hs
        · exact (hmove _ _ hs).mp ih
        · exact (hmove _ _ hs).mpr ih
    exact key c hconn

/-! ## The boxes are good -/

theorem foldl_min_le (l : List Nat) (b : Nat) : l.foldl min b ≤ b ∧ ∀ x ∈ l, l.foldl min b ≤ x := by
  induction l generalizing b with
  | nil => exact ⟨le_refl _, fun x h => (List.not_mem_nil h).elim⟩
  | cons y l ih =>
    rw [List.foldl_cons]
    obtain ⟨h1, h2⟩ := ih (min b y)
    refine ⟨le_trans h1 (min_le_left _ _), fun x hx => ?_⟩
    rcases List.mem_cons.mp hx with rfl | hx
    · exact le_trans h1 (min_le_right _ _)
    · exact h2 x hx

theorem foldl_max_le (l : List Nat) (b : Nat) : b ≤ l.foldl max b ∧ (∀ x ∈ l, x ≤ l.foldl max b) ∧
    ∀ m, b ≤ m → (∀ x ∈ l, x ≤ m) → l.foldl max b ≤ m := by
  induction l generalizing b with
  | nil => exact ⟨le_refl _, fun x h => (List.not_mem_nil h).elim, fun m h _ => h⟩
  | cons y l ih =>
    rw [List.foldl_cons]
    obtain ⟨h1, h2, h3⟩ := ih (max b y)
    refine ⟨le_trans (le_max_left _ _) h1, fun x hx => ?_, fun m hb hm => h3 m (max_le hb (hm y List.mem_cons_self)) fun x hx => hm x (List.mem_cons_of_mem _ hx)⟩
    rcases List.mem_cons.mp hx with rfl | hx
    · exact le_trans (le_max_right _ _) h1
    · exact h2 x hx

theorem minOf_le {l : List (Cell 3)} {c : Cell 3} (h : c ∈ l) (a : Fin 3) : minOf l a ≤ c a :=
  (foldl_min_le _ _).2 _ (List.mem_map.mpr ⟨c, h, rfl⟩)

theorem le_maxOf {l : List (Cell 3)} {c : Cell 3} (h : c ∈ l) (a : Fin 3) : c a ≤ maxOf l a :=
  (foldl_max_le _ _).2.1 _ (List.mem_map.mpr ⟨c, h, rfl⟩)

theorem maxOf_le {l : List (Cell 3)} {a : Fin 3} {m : Nat} (h : ∀ c ∈ l, c a ≤ m) : maxOf l a ≤ m := by
  refine (foldl_max_le _ _).2.2 m (Nat.zero_le _) ?_
  intro x hx
  obtain ⟨c, hc, rfl⟩ := List.mem_map.mp hx
  exact h c hc

/-- bounds found by `get_boundary_from_indices` -/
theorem boundary_bounds (ext : Cell 3) (faces : Fin 3 → Option (List (Cell 3))) (a : Fin 3) :
    ∀ ax, ∀ c ∈ listOf faces ax, lowOf ext faces a ≤ c a ∧ (c a : Int) ≤ highOf faces a := by
  intro ax c hc
  unfold listOf at hc
  have h1 : ∀ l, faces ax = some l → lowOf ext faces a ≤ minOf l a ∧ (maxOf l a : Int) ≤ highOf faces a := by
    intro l hl
    unfold lowOf highOf
    fin_cases ax
    · have hl' : faces 0 = some l := hl
      rw [hl']
      cases faces 1 <;> cases faces 2 <;> simp
    · have hl' : faces 1 = some l := hl
      rw [hl']
      cases faces 0 <;> cases faces 2 <;> simp
    · have hl' : faces 2 = some l := hl
      rw [hl']
      cases faces 0 <;> cases faces 1 <;> simp
  cases hf : faces ax with
  | none => rw [hf] at hc; exact (List.not_mem_nil hc).elim
  | some l =>
    rw [hf, Option.getD_some] at hc
    obtain ⟨g1, g2⟩ := h1 l hf
    have k1 := minOf_le hc a
    have k2 := le_maxOf hc a
    exact ⟨le_trans g1 k1, by omega⟩

theorem boundaryFromIndices_good {ext : Cell 3} {faces : Fin 3 → Option (List (Cell 3))} (hf : FacesInGrid ext (listOf faces)) {lo hi : Cell 3}
    (h : boundaryFromIndices ext faces = .ok (lo, hi)) : GoodBox ext lo hi (listOf faces) := by
  unfold boundaryFromIndices at h
  dsimp only at h
  split at h
  · cases h
  split at h
  · cases h
  split at h
  · cases h
  rename_i _ _ hlt
  have hb := boundary_bounds ext faces
  injection h with h
  obtain ⟨rfl, rfl⟩ := Prod.mk.inj h
  simp only [List.all_eq_true, List.mem_finRange, forall_const, decide_eq_true_eq, not_not] at hlt
  refine ⟨hlt, fun a => min_le_right _ _, ?_, ?_, ?_, ?_⟩
  · intro ax c hc a
    have h1 := hb a ax c hc
    have h2 := (hf ax c hc).1 a
    constructor <;> omega
  · intro ax c hc
    have h1 := hb ax ax c hc
    have h2 := (hf ax c hc).2
    omega
  · intro a ha ax _ c hc
    have h1 := hb a ax c hc
    omega
  · intro a ha ax _ c hc
    have h1 := hb a ax c hc
    omega

theorem boundaryFromIndices_ok {ext : Cell 3} {faces : Fin 3 → Option (List (Cell 3))} (hf : FacesInGrid ext (listOf faces))
    (hne : ∀ ax, faces ax ≠ some []) (hex : ∃ ax c, c ∈ listOf faces ax) : ∃ lo hi, boundaryFromIndices ext faces = .ok (lo, hi) := by
  obtain ⟨ax, c, hc⟩ := hex
  have hb := boundary_bounds ext faces
  unfold boundaryFromIndices
  rw [if_neg]
  swap
  · simp only [List.any_eq_true, List.mem_finRange, true_and, beq_iff_eq, not_exists]
    exact hne
  dsimp only
  rw [if_neg, if_neg]
  · exact ⟨_, _, rfl⟩
  · simp only [List.all_eq_true, List.mem_finRange, forall_const, decide_eq_true_eq, not_not]
    intro a
    have h1 := hb a ax c hc
    have h2 := (hf ax c hc).1 a
    omega
  · simp only [List.all_eq_true, List.mem_finRange, forall_const, decide_eq_true_eq, not_not]
    intro a
    have h1 := hb a ax c hc
    omega

/-- the step of `get_boundary` -/
def boxStep (ext : Cell 3) (faces : Fin 3 → Option (List (Cell 3))) (b : Option (Cell 3 × Cell 3)) (axis : Fin 3) : Option (Cell 3 × Cell 3) :=
  match faces axis with
  | none => b
  | some [] => b
  | some (c :: l) =>
    let f := faceBox ext axis (c :: l)
    match b with
    | none => some f
    | some b => some (fun a => min (f.1 a) (b.1 a), fun a => max (f.2 a) (b.2 a))

theorem boxStep_mono {ext : Cell 3} {faces : Fin 3 → Option (List (Cell 3))} {x : Cell 3 × Cell 3} (axis : Fin 3) :
    ∃ y, boxStep ext faces (some x) axis = some y ∧ ∀ a, y.1 a ≤ x.1 a ∧ x.2 a ≤ y.2 a := by
  unfold boxStep
  split
  · exact ⟨x, rfl, fun a => ⟨le_refl _, le_refl _⟩⟩
  · exact ⟨x, rfl, fun a => ⟨le_refl _, le_refl _⟩⟩
  · exact ⟨_, rfl, fun a => ⟨min_le_right _ _, le_max_right _ _⟩⟩

theorem boxFold_mono {ext : Cell 3} {faces : Fin 3 → Option (List (Cell 3))} (l : List (Fin 3)) (x : Cell 3 × Cell 3) :
    ∃ y, l.foldl (boxStep ext faces) (some x) = some y ∧ ∀ a, y.1 a ≤ x.1 a ∧ x.2 a ≤ y.2 a := by
  induction l generalizing x with
  | nil => exact ⟨x, rfl, fun a => ⟨le_refl _, le_refl _⟩⟩
  | cons axis l ih =>
    obtain ⟨y, hy, h⟩ := boxStep_mono (ext := ext) (faces := faces) (x := x) axis
    rw [List.foldl_cons, hy]
    obtain ⟨z, hz, h'⟩ := ih y
    exact ⟨z, hz, fun a => ⟨le_trans (h' a).1 (h a).1, le_trans (h a).2 (h' a).2⟩⟩

theorem boxFold_mem {ext : Cell 3} {faces : Fin 3 → Option (List (Cell 3))} (l : List (Fin 3)) (b : Option (Cell 3 × Cell 3)) {axis : Fin 3} (hax : axis ∈ l)
    {c : Cell 3} {cs : List (Cell 3)} (hf : faces axis = some (c :: cs)) :
    ∃ y, l.foldl (boxStep ext faces) b = some y ∧ ∀ a, y.1 a ≤ (faceBox ext axis (c :: cs)).1 a ∧ (faceBox ext axis (c :: cs)).2 a ≤ y.2 a := by
  induction l generalizing b with
  | nil => exact (List.not_mem_nil hax).elim
  | cons ax l ih =>
    rw [List.foldl_cons]
    by_cases e : axis = ax
    · subst e
      have : ∃ x, boxStep ext faces b axis = some x ∧ ∀ a, x.1 a ≤ (faceBox ext axis (c :: cs)).1 a ∧ (faceBox ext axis (c :: cs)).2 a ≤ x.2 a := by
        unfold boxStep
        rw [hf]
        dsimp only
        cases b with
        | none => exact ⟨_, rfl, fun a => ⟨le_refl _, le_refl _⟩⟩
        | some b => exact ⟨_, rfl, fun a => ⟨min_le_left _ _, le_max_left _ _⟩⟩
      obtain ⟨x, hx, h⟩ := this
      rw [hx]
      obtain ⟨y, hy, h'⟩ := boxFold_mono (ext := ext) (faces := faces) l x
      exact ⟨y, hy, fun a => ⟨le_trans (h' a).1 (h a).1, le_trans (h a).2 (h' a).2⟩⟩
    · exact ih _ ((List.mem_cons.mp hax).resolve_left e)

theorem boxFold_le {ext : Cell 3} {faces : Fin 3 → Option (List (Cell 3))} (hf : FacesInGrid ext (listOf faces)) (l : List (Fin 3))
    (b : Option (Cell 3 × Cell 3)) (hb : ∀ x, b = some x → ∀ a, x.2 a + 1 ≤ ext a) :
    ∀ y, l.foldl (boxStep ext faces) b = some y → ∀ a, y.2 a + 1 ≤ ext a := by
  induction l generalizing b with
  | nil => exact hb
  | cons axis l ih =>
    rw [List.foldl_cons]
    refine ih _ ?_
    intro x hx
    unfold boxStep at hx
    split at hx
    · exact hb x hx
    · exact hb x hx
    rename_i c cs hfa
    have hl : listOf faces axis = c :: cs := by unfold listOf; rw [hfa]; rfl
    have hbox : ∀ a, (faceBox ext axis (c :: cs)).2 a + 1 ≤ ext a := by
      intro a
      have h0 := (hf axis c (by rw [hl]; exact List.mem_cons_self)).1 a
      unfold faceBox
      dsimp only
      split
      · rename_i e
        subst e
        have := maxOf_le (l := c :: cs) (a := axis) (m := ext axis - 2) (fun d hd => by
          have := (hf axis d (by rw [hl]; exact hd)).2
          omega)
        have h1 := (hf axis c (by rw [hl]; exact List.mem_cons_self)).2
        omega
      · split
        · omega
        · have := maxOf_le (l := c :: cs) (a := a) (m := ext a - 1) (fun d hd => by
            have := (hf axis d (by rw [hl]; exact hd)).1 a
            omega)
          omega
    dsimp only at hx
    cases b with
    | none =>
      injection hx with hx
      subst hx
      exact hbox
    | some b =>
      injection hx with hx
      subst hx
      intro a
      have h1 := hbox a
      have h2 := hb b rfl a
      dsimp only
      omega

theorem boundaryOfArrays_good {ext : Cell 3} {faces : Fin 3 → Option (List (Cell 3))} (hext : ∀ a, 0 < ext a) (hf : FacesInGrid ext (listOf faces)) :
    GoodBox ext (boundaryOfArrays ext faces).1 (boundaryOfArrays ext faces).2 (listOf faces) := by
  have hfold : boundaryOfArrays ext faces = ((((List.finRange 3).foldl (boxStep ext faces) none).getD (fun _ => 0, fun _ => 0)).1,
      fun a => (((List.finRange 3).foldl (boxStep ext faces) none).getD (fun _ => 0, fun _ => 0)).2 a + 1) := rfl
  have hle := boxFold_le hf (List.finRange 3) none (fun x h => by cases h)
  have hmem : ∀ ax, ∀ c ∈ listOf faces ax, ∃ y, (List.finRange 3).foldl (boxStep ext faces) none = some y ∧
      ∀ a, y.1 a ≤ (faceBox ext ax (listOf faces ax)).1 a ∧ (faceBox ext ax (listOf faces ax)).2 a ≤ y.2 a := by
    intro ax c hc
    unfold listOf at hc ⊢
    cases hfa : faces ax with
    | none => rw [hfa] at hc; exact (List.not_mem_nil hc).elim
    | some l =>
      cases l with
      | nil => rw [hfa] at hc; exact (List.not_mem_nil hc).elim
      | cons d l => exact boxFold_mem (List.finRange 3) none (List.mem_finRange _) hfa
  rw [hfold]
  cases hr : (List.finRange 3).foldl (boxStep ext faces) none with
  | none =>
    have hno : ∀ ax, ∀ c, c ∉ listOf faces ax := by
      intro ax c hc
      obtain ⟨y, hy, -⟩ := hmem ax c hc
      rw [hr] at hy
      cases hy
    refine ⟨fun a => Nat.zero_lt_succ _, fun a => hext a, ?_, ?_, ?_, ?_⟩
    · exact fun ax c hc => absurd hc (hno ax c)
    · exact fun ax c hc => absurd hc (hno ax c)
    · exact fun a _ ax _ c hc => absurd hc (hno ax c)
    · exact fun a _ ax _ c hc => absurd hc (hno ax c)
  | some b =>
    have hb : ∀ ax, ∀ c ∈ listOf faces ax, ∀ a, b.1 a ≤ (faceBox ext ax (listOf faces ax)).1 a ∧ (faceBox ext ax (listOf faces ax)).2 a ≤ b.2 a := by
      intro ax c hc
      obtain ⟨y, hy, h⟩ := hmem ax c hc
      rw [hr] at hy
      injection hy with hy
      subst hy
      exact h
    have hex : ∃ ax c, c ∈ listOf faces ax := by
      by_contra hno
      have hz : ∀ l : List (Fin 3), l.foldl (boxStep ext faces) none = none := by
        intro l
        induction l with
        | nil => rfl
        | cons ax l ih =>
          rw [List.foldl_cons]
          have : boxStep ext faces none ax = none := by
            unfold boxStep
            split
            · rfl
            · rfl
            · rename_i c cs hfa
              exact absurd ⟨ax, c, by unfold listOf; rw [hfa]; exact List.mem_cons_self⟩ hno
          rw [this]
          exact ih
      rw [hz] at hr
      cases hr
    -- bounds for one face
    have hface : ∀ ax, ∀ c ∈ listOf faces ax, ∀ a, b.1 a ≤ c a ∧ c a ≤ b.2 a ∧ (ax = a → c a + 1 ≤ b.2 a) ∧
        (ax ≠ a → (b.1 a ≠ 0 → b.1 a < c a) ∧ (b.2 a + 1 < ext a → c a < b.2 a)) := by
      intro ax c hc a
      have h1 := hb ax c hc a
      have h2 := minOf_le hc a
      have h3 := le_maxOf hc a
      have h4 := hf ax c hc
      have h5 := h4.1 a
      unfold faceBox at h1
      dsimp only at h1
      by_cases e : ax = a
      · rw [if_pos e, if_pos e] at h1
        refine ⟨by omega, by omega, fun _ => by omega, fun h => absurd e h⟩
      · rw [if_neg e, if_neg e] at h1
        refine ⟨?_, ?_, fun h => absurd h e, fun _ => ⟨?_, ?_⟩⟩
        · split at h1 <;> omega
        · split at h1 <;> split at h1 <;> omega
        · intro hne
          split at h1 <;> omega
        · intro hlt
          split at h1 <;> split at h1 <;> omega
    obtain ⟨ax0, c0, hc0⟩ := hex
    refine ⟨?_, ?_, ?_, ?_, ?_, ?_⟩
    · intro a
      have := hface ax0 c0 hc0 a
      show b.1 a < b.2 a + 1
      omega
    · exact hle b hr
    · intro ax c hc a
      have := hface ax c hc a
      show b.1 a ≤ c a ∧ c a < b.2 a + 1
      omega
    · intro ax c hc
      have := (hface ax c hc ax).2.2.1 rfl
      show c ax + 1 < b.2 ax + 1
      omega
    · intro a ha ax hne c hc
      have := ((hface ax c hc a).2.2.2 hne).1 ha
      show c a ≠ b.1 a
      omega
    · intro a ha ax hne c hc
      have := ((hface ax c hc a).2.2.2 hne).2 ha
      show c a ≠ b.2 a + 1 - 1
      omega

end Verif.FindFaces
