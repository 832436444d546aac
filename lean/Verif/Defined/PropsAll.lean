import Verif.Defined.Props

/-!
# C189: completing all pillars
-/

namespace Verif.Defined
open Verif.Py

theorem div_pil {d : Dims} {j i : Nat} (hi : i ≤ d.ni) : d.pil j i / (d.ni + 1) = j := by
  unfold Dims.pil
  rw [Nat.add_comm, Nat.add_mul_div_right _ _ (by omega), Nat.div_eq_of_lt (by omega), Nat.zero_add]

theorem mod_pil {d : Dims} {j i : Nat} (hi : i ≤ d.ni) : d.pil j i % (d.ni + 1) = i := by
  unfold Dims.pil
  rw [Nat.add_comm, Nat.add_mul_mod_self_right, Nat.mod_eq_of_lt (by omega)]

theorem pil_div {d : Dims} {q : Nat} : d.pil (q / (d.ni + 1)) (q % (d.ni + 1)) = q := by
  unfold Dims.pil
  rw [Nat.mul_comm]
  exact Nat.div_add_mod q (d.ni + 1)

theorem prim_div {d : Dims} {q : Nat} (h : q < d.prim) : q / (d.ni + 1) ≤ d.nj ∧ q % (d.ni + 1) ≤ d.ni := by
  constructor
  · have : q / (d.ni + 1) < d.nj + 1 := by
      rw [Nat.div_lt_iff_lt_mul (by omega)]; exact h
    omega
  · have := Nat.mod_lt q (show 0 < d.ni + 1 by omega)
    omega

theorem pil_prim {d : Dims} {j i : Nat} (hj : j ≤ d.nj) (hi : i ≤ d.ni) : d.pil j i < d.prim := by
  unfold Dims.pil Dims.prim
  have : j * (d.ni + 1) ≤ d.nj * (d.ni + 1) := Nat.mul_le_mul_right _ hj
  have h2 : (d.nj + 1) * (d.ni + 1) = d.nj * (d.ni + 1) + (d.ni + 1) := by ring
  omega

/-- Only holes have been changed. -/
def Kept (d : Dims) (h : Arr2) (pts : Pts) (s : Holes) : Prop :=
  (∀ j i, s.left j i = true → h j i = true) ∧
    ∀ k q c, ¬ (q < d.prim ∧ h (q / (d.ni + 1)) (q % (d.ni + 1)) = true) → s.pts k q c = pts k q c

theorem put_kept {d : Dims} {h sel : Arr2} {val} {pts : Pts} {s : Holes} (hs : Kept d h pts s) :
    Kept d h pts (put d sel val s) := by
  refine ⟨?_, ?_⟩
  · intro j i g
    simp only [put, Bool.and_eq_true] at g
    exact hs.1 j i g.1
  · intro k q c g
    simp only [put]
    rw [if_neg (fun e => g ⟨e.1, hs.1 _ _ e.2.1⟩)]
    exact hs.2 k q c g

theorem holesPass_kept {d : Dims} {h : Arr2} {pts : Pts} : Kept d h pts (holesPass d h pts) := by
  unfold holesPass
  dsimp only
  iterate 7 refine put_kept ?_
  exact ⟨fun _ _ g => g, fun _ _ _ _ => rfl⟩

theorem fillHoles_kept {d : Dims} : ∀ (f : Nat) (h : Arr2) (pts : Pts) (k q : Nat) (c : Fin 3),
    ¬ (q < d.prim ∧ h (q / (d.ni + 1)) (q % (d.ni + 1)) = true) → fillHoles d f h pts k q c = pts k q c := by
  intro f
  induction f with
  | zero => intro h pts k q c _; rfl
  | succ f ih =>
    intro h pts k q c g
    rw [fillHoles]
    have hk := @holesPass_kept d h pts
    split_ifs with h1
    · dsimp only
      split_ifs with h2
      · rw [ih _ _ k q c (fun e => g ⟨e.1, hk.1 _ _ e.2⟩)]
        exact hk.2 k q c g
      · exact hk.2 k q c g
    · rfl

theorem rowsDown_above {vec : Option Rat} : ∀ (j : Nat) (v : View) (r i : Nat) (c : Fin 3), j ≤ r →
    rowsDown vec j v r i c = v r i c := by
  intro j
  induction j with
  | zero => intro v r i c _; rfl
  | succ j ih =>
    intro v r i c h
    rw [rowsDown, ih _ r i c (by omega), if_neg (by omega)]

theorem rowsUp_out {vec : Option Rat} : ∀ (f j : Nat) (v : View) (r i : Nat) (c : Fin 3), r ≤ j ∨ j + f < r →
    rowsUp vec j f v r i c = v r i c := by
  intro f
  induction f with
  | zero => intro j v r i c _; rfl
  | succ f ih =>
    intro j v r i c h
    rw [rowsUp, ih (j + 1) _ r i c (by omega), if_neg (by omega)]

theorem colsDown_above {vec : Option Rat} : ∀ (j : Nat) (v : View) (r i : Nat) (c : Fin 3), j ≤ i →
    colsDown vec j v r i c = v r i c := by
  intro j
  induction j with
  | zero => intro v r i c _; rfl
  | succ j ih =>
    intro v r i c h
    rw [colsDown, ih _ r i c (by omega), if_neg (by omega)]

theorem colsUp_out {vec : Option Rat} : ∀ (f j : Nat) (v : View) (r i : Nat) (c : Fin 3), i ≤ j ∨ j + f < i →
    colsUp vec j f v r i c = v r i c := by
  intro f
  induction f with
  | zero => intro j v r i c _; rfl
  | succ f ih =>
    intro j v r i c h
    rw [colsUp, ih (j + 1) _ r i c (by omega), if_neg (by omega)]

theorem lift2_none_left {f : Rat → Rat → Rat} {b : Option Rat} : lift2 f none b = none := by
  cases b <;> rfl

theorem colsDown_row_none {vec : Option Rat} {r n : Nat} {c : Fin 3} : ∀ (j : Nat) (v : View), j ≤ n →
    (∀ i ≤ n, v r i c = none) → ∀ i ≤ n, colsDown vec j v r i c = none := by
  intro j
  induction j with
  | zero => intro v _ h i hi; exact h i hi
  | succ j ih =>
    intro v hj h i hi
    rw [colsDown]
    refine ih _ (by omega) (fun i hi => ?_) i hi
    split_ifs
    · rw [h _ hj, lift2_none_left]
    · exact h i hi

theorem colsUp_row_none {vec : Option Rat} {r n : Nat} {c : Fin 3} : ∀ (f j : Nat) (v : View), j ≤ n →
    j + f ≤ n → (∀ i ≤ n, v r i c = none) → ∀ i ≤ n, colsUp vec j f v r i c = none := by
  intro f
  induction f with
  | zero => intro j v _ _ h i hi; exact h i hi
  | succ f ih =>
    intro j v hj hf h i hi
    rw [colsUp]
    refine ih _ _ (by omega) (by omega) (fun i hi => ?_) i hi
    split_ifs
    · rw [h _ hj, lift2_none_left]
    · exact h i hi

theorem rowsDown_col_none {vec : Option Rat} {i n : Nat} {c : Fin 3} : ∀ (j : Nat) (v : View), j ≤ n →
    (∀ r ≤ n, v r i c = none) → ∀ r ≤ n, rowsDown vec j v r i c = none := by
  intro j
  induction j with
  | zero => intro v _ h r hr; exact h r hr
  | succ j ih =>
    intro v hj h r hr
    rw [rowsDown]
    refine ih _ (by omega) (fun r hr => ?_) r hr
    split_ifs
    · rw [h _ hj, lift2_none_left]
    · exact h r hr

theorem rowsUp_col_none {vec : Option Rat} {i n : Nat} {c : Fin 3} : ∀ (f j : Nat) (v : View), j ≤ n →
    j + f ≤ n → (∀ r ≤ n, v r i c = none) → ∀ r ≤ n, rowsUp vec j f v r i c = none := by
  intro f
  induction f with
  | zero => intro j v _ _ h r hr; exact h r hr
  | succ f ih =>
    intro j v hj hf h r hr
    rw [rowsUp]
    refine ih _ _ (by omega) (by omega) (fun r hr => ?_) r hr
    split_ifs
    · rw [h _ hj, lift2_none_left]
    · exact h r hr

/-- The part along J changes only rows which belong to the surround altogether. -/
theorem fillRows_kept {d : Dims} {sm : Arr2} {v v' : View} {b : Bool} (h : fillRows d sm v = .ok (v', b)) {r i : Nat}
    {c : Fin 3} (hr : d.nj ≤ r ∨ ∃ t ≤ d.ni, sm r t = false) : v' r i c = v r i c := by
  unfold fillRows at h
  split_ifs at h with h1
  · dsimp only at h
    split_ifs at h with h2
    · injection h with h
      rw [Prod.mk.injEq] at h
      rw [← h.1]
      obtain ⟨_, a2, a3⟩ := @scanUp_spec d.nj (fun j => allN (d.ni + 1) fun i => sm j i) d.nj 0 (by omega)
      have l1 := @scanDown_le (fun j => allN (d.ni + 1) fun i => sm j i) (d.nj - 1)
      have l2 := @scanDown_above (fun j => allN (d.ni + 1) fun i => sm j i) (d.nj - 1)
      generalize scanUp d.nj (fun j => allN (d.ni + 1) fun i => sm j i) d.nj 0 = j0 at a2 a3 h2 ⊢
      generalize scanDown (fun j => allN (d.ni + 1) fun i => sm j i) (d.nj - 1) = j1 at l1 l2 ⊢
      have notfull : r < d.nj → (allN (d.ni + 1) fun i => sm r i) = false := by
        intro hlt
        rcases hr with hr | ⟨t, t1, t2⟩
        · omega
        · exact allN_false.mpr ⟨t, by omega, t2⟩
      rw [rowsUp_out, rowsDown_above]
      · by_contra hh
        have := (a2 r (by omega) (by omega)).2
        rw [notfull (by omega)] at this; cases this
      · by_cases e : r ≤ j1
        · exact Or.inl e
        · right
          by_contra hh
          have := l2 r (by omega) (by omega)
          rw [notfull (by omega)] at this; cases this
  · injection h with h
    rw [Prod.mk.injEq] at h
    rw [← h.1]

/-- The part along I changes only columns which belong to the surround altogether. -/
theorem fillCols_kept {d : Dims} {sm : Arr2} {v v' : View} {b : Bool} (h : fillCols d sm v = .ok (v', b)) {r i : Nat}
    {c : Fin 3} (hr : d.ni ≤ i ∨ ∃ t ≤ d.nj, sm t i = false) : v' r i c = v r i c := by
  unfold fillCols at h
  split_ifs at h with h1
  · dsimp only at h
    split_ifs at h with h2
    · injection h with h
      rw [Prod.mk.injEq] at h
      rw [← h.1]
      obtain ⟨_, a2, a3⟩ := @scanUp_spec d.ni (fun i => allN (d.nj + 1) fun j => sm j i) d.ni 0 (by omega)
      have l1 := @scanDown_le (fun i => allN (d.nj + 1) fun j => sm j i) (d.ni - 1)
      have l2 := @scanDown_above (fun i => allN (d.nj + 1) fun j => sm j i) (d.ni - 1)
      generalize scanUp d.ni (fun i => allN (d.nj + 1) fun j => sm j i) d.ni 0 = j0 at a2 a3 h2 ⊢
      generalize scanDown (fun i => allN (d.nj + 1) fun j => sm j i) (d.ni - 1) = j1 at l1 l2 ⊢
      have notfull : i < d.ni → (allN (d.nj + 1) fun j => sm j i) = false := by
        intro hlt
        rcases hr with hr | ⟨t, t1, t2⟩
        · omega
        · exact allN_false.mpr ⟨t, by omega, t2⟩
      rw [colsUp_out, colsDown_above]
      · by_contra hh
        have := (a2 i (by omega) (by omega)).2
        rw [notfull (by omega)] at this; cases this
      · by_cases e : i ≤ j1
        · exact Or.inl e
        · right
          by_contra hh
          have := l2 i (by omega) (by omega)
          rw [notfull (by omega)] at this; cases this
  · injection h with h
    rw [Prod.mk.injEq] at h
    rw [← h.1]

theorem fillCols_row_none {d : Dims} {sm : Arr2} {v v' : View} {b : Bool} (h : fillCols d sm v = .ok (v', b)) {r : Nat}
    {c : Fin 3} (hn : ∀ i ≤ d.ni, v r i c = none) {i : Nat} (hi : i ≤ d.ni) : v' r i c = none := by
  unfold fillCols at h
  split_ifs at h with h1
  · dsimp only at h
    split_ifs at h with h2
    · injection h with h
      rw [Prod.mk.injEq] at h
      rw [← h.1]
      have l1 := @scanDown_le (fun i => allN (d.nj + 1) fun j => sm j i) (d.ni - 1)
      exact colsUp_row_none _ _ _ (by omega) (by omega) (colsDown_row_none _ _ (by omega) hn) i hi
  · injection h with h
    rw [Prod.mk.injEq] at h
    rw [← h.1]; exact hn i hi

theorem fillRows_col_none {d : Dims} {sm : Arr2} {v v' : View} {b : Bool} (h : fillRows d sm v = .ok (v', b)) {i : Nat}
    {c : Fin 3} (hn : ∀ r ≤ d.nj, v r i c = none) {r : Nat} (hr : r ≤ d.nj) : v' r i c = none := by
  unfold fillRows at h
  split_ifs at h with h1
  · dsimp only at h
    split_ifs at h with h2
    · injection h with h
      rw [Prod.mk.injEq] at h
      rw [← h.1]
      have l1 := @scanDown_le (fun j => allN (d.ni + 1) fun i => sm j i) (d.nj - 1)
      exact rowsUp_col_none _ _ _ (by omega) (by omega) (rowsDown_col_none _ _ (by omega) hn) r hr
  · injection h with h
    rw [Prod.mk.injEq] at h
    rw [← h.1]; exact hn r hr

/-- What `__fill_surround` returns. -/
theorem fillSurround_inv {d : Dims} {sm : Arr2} {pts p : Pts} (h : fillSurround d sm pts = .ok p) :
    ∃ v1 m1 v2 m2, fillRows d sm (fun j i c => pts d.nraw (d.pil j i) c) = .ok (v1, m1) ∧
      fillCols d sm v1 = .ok (v2, m2) ∧ p = fun k q c =>
        if q < d.prim ∧ c ≠ 2 ∧ (k = d.nraw ∨ ((m1 || m2) = true ∧ sm (q / (d.ni + 1)) (q % (d.ni + 1)) = true)) then
          v2 (q / (d.ni + 1)) (q % (d.ni + 1)) c else pts k q c := by
  unfold fillSurround at h
  cases h1 : fillRows d sm (fun j i c => pts d.nraw (d.pil j i) c) with
  | error e => rw [h1] at h; cases h
  | ok r =>
    obtain ⟨v1, m1⟩ := r
    rw [h1] at h
    change (do
      let (v2, m2) ← fillCols d sm v1
      return fun k q c =>
        let j := q / (d.ni + 1)
        let i := q % (d.ni + 1)
        if q < d.prim ∧ c ≠ 2 ∧ (k = d.nraw ∨ ((m1 || m2) = true ∧ sm j i = true)) then v2 j i c
        else pts k q c : Res Pts) = .ok p at h
    cases h2 : fillCols d sm v1 with
    | error e => rw [h2] at h; cases h
    | ok r =>
      obtain ⟨v2, m2⟩ := r
      rw [h2] at h
      injection h with h
      exact ⟨v1, m1, v2, m2, rfl, h2, h.symm⟩

theorem surround_top {d : Dims} {m : Arr2} {j i : Nat} (hj : j ≤ d.nj) (hi : i ≤ d.ni) (h : surround d m j i = true) :
    m j i = true := by
  unfold surround at h
  rw [Bool.or_eq_true] at h
  rcases h with h | h
  · exact allN_iff.mp h i (by omega)
  · exact allN_iff.mp h j (by omega)

theorem coastal_top {d : Dims} {m : Arr2} {j i : Nat} (hj : j ≤ d.nj) (hi : i ≤ d.ni) (h : coastal d m j i = true) :
    m j i = true := by
  unfold coastal at h
  dsimp only at h
  split_ifs at h
  simp only [Bool.or_eq_true, Bool.and_eq_true] at h
  rcases h with ⟨_, h | h⟩ | h | h
  · exact allN_iff.mp h i (by omega)
  · have := allN_iff.mp h i (by omega)
    simpa using this
  · exact allN_iff.mp h j (by omega)
  · have := allN_iff.mp h j (by omega)
    simpa using this

/-- What `__complete_all_pillars` returns. -/
theorem completeAll_inv {d : Dims} {sz : Rat} {pts p : Pts} (h : completeAll d sz pts = .ok p) :
    ∃ p2, (p2 = fillHoles d d.prim (fun j i => topNan d pts j i && !surround d (topNan d pts) j i) pts ∨ p2 = pts) ∧
      ∃ p3, ((any2 d (surround d (topNan d pts)) = false ∧ p3 = p2) ∨
        fillSurround d (surround d (topNan d pts)) p2 = .ok p3) ∧ p = fun k q c =>
        some ((if q < d.prim ∧ c = 2 ∧ (surround d (topNan d pts) (q / (d.ni + 1)) (q % (d.ni + 1)) ||
          coastal d (topNan d pts) (q / (d.ni + 1)) (q % (d.ni + 1))) = true then some sz else p3 k q c).getD 0) := by
  unfold completeAll at h
  dsimp only at h
  set p1 := (if any2 d (fun j i => topNan d pts j i && !surround d (topNan d pts) j i) then
    fillHoles d d.prim (fun j i => topNan d pts j i && !surround d (topNan d pts) j i) pts else pts) with hp1
  refine ⟨p1, ?_, ?_⟩
  · rw [hp1]; split_ifs
    · exact Or.inl rfl
    · exact Or.inr rfl
  · by_cases h2 : any2 d (surround d (topNan d pts)) = true
    · rw [if_pos h2] at h
      cases h3 : fillSurround d (surround d (topNan d pts)) p1 with
      | error e => rw [h3] at h; cases h
      | ok p3 =>
        rw [h3] at h
        injection h with h
        exact ⟨p3, Or.inr rfl, h.symm⟩
    · rw [if_neg h2] at h
      injection h with h
      exact ⟨p1, Or.inl ⟨by simpa using h2, rfl⟩, h.symm⟩

/-- A pillar with its top point keeps its points. -/
theorem completeAll_kept {d : Dims} {sz : Rat} {pts p : Pts} (h : completeAll d sz pts = .ok p) {k q : Nat} {c : Fin 3}
    {x : Rat} (hq : q < d.prim → (pts 0 q 0).isNone = false) (hx : pts k q c = some x) : p k q c = some x := by
  obtain ⟨p2, h2, p3, h3, rfl⟩ := completeAll_inv h
  have htop : q < d.prim → topNan d pts (q / (d.ni + 1)) (q % (d.ni + 1)) = false := by
    intro g
    unfold topNan
    rw [pil_div]; exact hq g
  have hsm : q < d.prim → surround d (topNan d pts) (q / (d.ni + 1)) (q % (d.ni + 1)) = false := by
    intro g
    obtain ⟨a, b⟩ := prim_div g
    rw [← Bool.not_eq_true]
    intro e
    have := surround_top a b e
    rw [htop g] at this; cases this
  have hco : q < d.prim → coastal d (topNan d pts) (q / (d.ni + 1)) (q % (d.ni + 1)) = false := by
    intro g
    obtain ⟨a, b⟩ := prim_div g
    rw [← Bool.not_eq_true]
    intro e
    have := coastal_top a b e
    rw [htop g] at this; cases this
  have hp2 : p2 k q c = some x := by
    rcases h2 with rfl | rfl
    · rw [fillHoles_kept _ _ _ k q c, hx]
      rintro ⟨g1, g2⟩
      rw [htop g1] at g2; cases g2
    · exact hx
  have hp2' : ∀ k c, p2 k q c = pts k q c := by
    intro k c
    rcases h2 with rfl | rfl
    · rw [fillHoles_kept _ _ _ k q c]
      rintro ⟨g1, g2⟩
      rw [htop g1] at g2; cases g2
    · rfl
  have hp3 : p3 k q c = some x := by
    rcases h3 with ⟨_, rfl⟩ | h3
    · exact hp2
    · obtain ⟨v1, m1, v2, m2, r1, r2, rfl⟩ := fillSurround_inv h3
      dsimp only
      split_ifs with g
      · obtain ⟨g1, g2, g3⟩ := g
        obtain ⟨a, b⟩ := prim_div g1
        rw [hsm g1] at g3
        have hk : k = d.nraw := by
          rcases g3 with g3 | ⟨_, g3⟩
          · exact g3
          · cases g3
        rw [fillCols_kept r2 (Or.inr ⟨_, a, hsm g1⟩), fillRows_kept r1 (Or.inr ⟨_, b, hsm g1⟩), pil_div, ← hk]
        exact hp2
      · exact hp2
  have hnot : ¬ (q < d.prim ∧ c = 2 ∧ (surround d (topNan d pts) (q / (d.ni + 1)) (q % (d.ni + 1)) ||
      coastal d (topNan d pts) (q / (d.ni + 1)) (q % (d.ni + 1))) = true) := by
    rintro ⟨g1, _, g3⟩
    rw [hsm g1, hco g1] at g3; cases g3
  dsimp only
  rw [if_neg hnot, hp3]
  rfl

/-- Missing in the last row all along, x and y become zero. -/
theorem completeAll_last_row {d : Dims} {sz : Rat} {pts p : Pts} (h : completeAll d sz pts = .ok p)
    (hrow : ∀ i ≤ d.ni, ∀ k ≤ d.nraw, ∀ c, pts k (d.pil d.nj i) c = none) {i k : Nat} (hi : i ≤ d.ni) (hk : k ≤ d.nraw)
    {c : Fin 3} (hc : c ≠ 2) : p k (d.pil d.nj i) c = some 0 := by
  obtain ⟨p2, h2, p3, h3, rfl⟩ := completeAll_inv h
  have hsm : ∀ i, surround d (topNan d pts) d.nj i = true := by
    intro i
    unfold surround
    rw [Bool.or_eq_true]
    left
    rw [allN_iff]
    intro t ht
    unfold topNan
    rw [hrow t (by omega) 0 (by omega) 0]; rfl
  have hp2 : ∀ i ≤ d.ni, ∀ k ≤ d.nraw, ∀ c, p2 k (d.pil d.nj i) c = none := by
    intro i hi k hk c
    rcases h2 with rfl | rfl
    · rw [fillHoles_kept _ _ _ k _ c, hrow i hi k hk c]
      rintro ⟨_, g⟩
      rw [div_pil hi, hsm] at g
      simp at g
    · exact hrow i hi k hk c
  have hp3 : p3 k (d.pil d.nj i) c = none := by
    rcases h3 with ⟨_, rfl⟩ | h3
    · exact hp2 i hi k hk c
    · obtain ⟨v1, m1, v2, m2, r1, r2, rfl⟩ := fillSurround_inv h3
      dsimp only
      split_ifs with g
      · rw [div_pil hi, mod_pil hi]
        refine fillCols_row_none r2 (fun t ht => ?_) hi
        rw [fillRows_kept r1 (Or.inl (le_refl _))]
        exact hp2 t ht d.nraw (le_refl _) c
      · exact hp2 i hi k hk c
  dsimp only
  rw [if_neg (fun g => hc g.2.1), hp3]
  rfl

/-- Missing in the last column all along, x and y become zero. -/
theorem completeAll_last_col {d : Dims} {sz : Rat} {pts p : Pts} (h : completeAll d sz pts = .ok p)
    (hcol : ∀ j ≤ d.nj, ∀ k ≤ d.nraw, ∀ c, pts k (d.pil j d.ni) c = none) {j k : Nat} (hj : j ≤ d.nj) (hk : k ≤ d.nraw)
    {c : Fin 3} (hc : c ≠ 2) : p k (d.pil j d.ni) c = some 0 := by
  obtain ⟨p2, h2, p3, h3, rfl⟩ := completeAll_inv h
  have hsm : ∀ j, surround d (topNan d pts) j d.ni = true := by
    intro j
    unfold surround
    rw [Bool.or_eq_true]
    right
    rw [allN_iff]
    intro t ht
    unfold topNan
    rw [hcol t (by omega) 0 (by omega) 0]; rfl
  have hp2 : ∀ j ≤ d.nj, ∀ k ≤ d.nraw, ∀ c, p2 k (d.pil j d.ni) c = none := by
    intro j hj k hk c
    rcases h2 with rfl | rfl
    · rw [fillHoles_kept _ _ _ k _ c, hcol j hj k hk c]
      rintro ⟨_, g⟩
      rw [mod_pil (le_refl _), hsm] at g
      simp at g
    · exact hcol j hj k hk c
  have hp3 : p3 k (d.pil j d.ni) c = none := by
    rcases h3 with ⟨_, rfl⟩ | h3
    · exact hp2 j hj k hk c
    · obtain ⟨v1, m1, v2, m2, r1, r2, rfl⟩ := fillSurround_inv h3
      dsimp only
      split_ifs with g
      · rw [div_pil (le_refl _), mod_pil (le_refl _), fillCols_kept r2 (Or.inl (le_refl _))]
        exact fillRows_col_none r1 (fun r hr => hp2 r hr d.nraw (le_refl _) c) hj
      · exact hp2 j hj k hk c
  dsimp only
  rw [if_neg (fun g => hc g.2.1), hp3]
  rfl

/-- The ways in which `set_geometry_is_defined` ends when all pillars are to be completed. -/
theorem setDefined_all {d : Dims} {sz : Pts → Rat} {tn : Option Rat} {nl cp : Bool} {s s' : St}
    (h : setDefined d sz tn none cp nl true s = .ok s') :
    ((∀ k ≤ d.nraw, ∀ q < d.total, Point tn (s.pts k q)) ∧
      s' = { s with allPillars := some true, pillarArr := none, allCells := some true, cellArr := none }) ∨
    ∃ (s2 : St) (p : Pts), completeAll d (sz (baseState d (nanMask d tn none s.pts) s).pts) s2.pts = .ok p ∧
      s2.inactive = (baseState d (nanMask d tn none s.pts) s).inactive ∧
      s' = { s2 with pts := p, allPillars := some true, pillarArr := none, allCells := some true, cellArr := none } ∧
      (∀ q < d.total, (∀ k ≤ d.nraw, ¬ Point tn (s.pts k q)) → ∀ k ≤ d.nraw, ∀ c, s2.pts k q c = none) ∧
      (∀ q < d.total, (∀ k ≤ d.nraw, Point tn (s.pts k q)) ∨ (nl = false ∧ ∃ k ≤ d.nraw, Point tn (s.pts k q)) →
        (∀ k ≤ d.nraw, Point none (s2.pts k q)) ∧ ∀ k ≤ d.nraw, Point tn (s.pts k q) → s2.pts k q = s.pts k q) := by
  have hd : (if someDots d none then none else none : Option Arr3) = none := by simp
  unfold setDefined at h
  by_cases h1 : (cp && nl) = true
  · rw [if_pos h1] at h; cases h
  rw [if_neg h1] at h
  by_cases h2 : (!(anyN (d.nraw + 1) fun k => anyN d.total fun q => nanPoint tn (s.pts k q)) && !someDots d none) = true
  · rw [if_pos h2] at h
    injection h with h
    simp only [Bool.and_eq_true, Bool.not_eq_true', anyN_false] at h2
    refine Or.inl ⟨?_, h.symm⟩
    intro k hk q hq
    exact nanPoint_false.mp (h2.1 k (by omega) q hq)
  rw [if_neg h2] at h
  dsimp only at h
  rw [hd] at h
  by_cases h3 : (allN (d.nraw + 1) fun k => allN d.total fun q => nanMask d tn none s.pts k q) = true
  · rw [if_pos h3] at h; cases h
  rw [if_neg h3] at h
  right
  have mp : ∀ {k q}, Point tn (s.pts k q) → nanMask d tn none s.pts k q = false := by
    intro k q g; rw [nanMask_none]; exact nanPoint_false.mpr g
  have mn : ∀ {k q}, ¬ Point tn (s.pts k q) → nanMask d tn none s.pts k q = true := by
    intro k q g; rw [nanMask_none]; exact nanPoint_true.mpr g
  have basekeep : ∀ {k q}, Point tn (s.pts k q) →
      (baseState d (nanMask d tn none s.pts) s).pts k q = s.pts k q := by
    intro k q g; funext c; simp [baseState, mp g]
  have basemiss : ∀ {k q}, ¬ Point tn (s.pts k q) → ∀ c,
      (baseState d (nanMask d tn none s.pts) s).pts k q c = none := by
    intro k q g c; simp [baseState, mn g]
  -- the end of the call, once the treatment of partial pillars is known
  have fin : ∀ (s2 : St) (b : Bool),
      (do let r ← allStage d (sz (baseState d (nanMask d tn none s.pts) s).pts) true (s2, b)
          return if r.2 then updateCells d r.1 else r.1 : Res St) = .ok s' →
      ∃ p, completeAll d (sz (baseState d (nanMask d tn none s.pts) s).pts) s2.pts = .ok p ∧
        s' = { s2 with pts := p, allPillars := some true, pillarArr := none, allCells := some true, cellArr := none } := by
    intro s2 b g
    unfold allStage at g
    rw [if_pos rfl] at g
    dsimp only at g
    cases hc : completeAll d (sz (baseState d (nanMask d tn none s.pts) s).pts) s2.pts with
    | error e => rw [hc] at g; cases g
    | ok p =>
      rw [hc] at g
      injection g with g
      refine ⟨p, rfl, ?_⟩
      rw [← g]
      rfl
  have wholeK : ∀ q, (∀ k ≤ d.nraw, Point tn (s.pts k q)) →
      partialPillar d (nanMask d tn none s.pts) q = false := by
    intro q g
    rw [← Bool.not_eq_true, partialPillar_iff]
    rintro ⟨_, b, b1, b2⟩
    rw [mp (g b b1)] at b2; cases b2
  have emptyK : ∀ q, (∀ k ≤ d.nraw, ¬ Point tn (s.pts k q)) →
      partialPillar d (nanMask d tn none s.pts) q = false := by
    intro q g
    rw [← Bool.not_eq_true, partialPillar_iff]
    rintro ⟨⟨b, b1, b2⟩, _⟩
    rw [mn (g b b1)] at b2; cases b2
  have noPart : (∀ q < d.total, partialPillar d (nanMask d tn none s.pts) q = false) →
      (∀ q < d.total, (∃ k ≤ d.nraw, Point tn (s.pts k q)) → ∀ k ≤ d.nraw, Point tn (s.pts k q)) := by
    intro g q hq ⟨a, a1, a2⟩ k hk
    by_contra hh
    have := g q hq
    rw [← Bool.not_eq_true, partialPillar_iff] at this
    exact this ⟨⟨a, a1, mp a2⟩, k, hk, mn hh⟩
  have pn : ∀ {p : Fin 3 → Option Rat}, Point tn p → Point none p := fun g => g.none
  cases nl with
  | true =>
    unfold partialStage at h
    rw [if_pos rfl] at h
    by_cases h4 : anyN d.total (partialPillar d (nanMask d tn none s.pts)) = true
    · rw [if_pos h4] at h
      obtain ⟨p, hp1, hp2⟩ := fin _ _ h
      refine ⟨_, p, hp1, rfl, hp2, ?_, ?_⟩
      · intro q hq g k hk c
        simp only [nullified]
        split_ifs
        · rfl
        · exact basemiss (g k hk) c
      · intro q hq g
        have gw : ∀ k ≤ d.nraw, Point tn (s.pts k q) := by
          rcases g with g | ⟨g, _⟩
          · exact g
          · cases g
        have hk : ∀ k ≤ d.nraw, (nullified d (nanMask d tn none s.pts)
            (baseState d (nanMask d tn none s.pts) s)).pts k q = s.pts k q := by
          intro k hk
          rw [← basekeep (gw k hk)]
          funext c
          simp [nullified, wholeK q gw]
        exact ⟨fun k h => by rw [hk k h]; exact pn (gw k h), fun k h _ => hk k h⟩
    · rw [if_neg h4] at h
      obtain ⟨p, hp1, hp2⟩ := fin _ _ h
      refine ⟨_, p, hp1, rfl, hp2, fun q hq g k hk c => basemiss (g k hk) c, ?_⟩
      intro q hq g
      have gw : ∀ k ≤ d.nraw, Point tn (s.pts k q) := by
        rcases g with g | ⟨g, _⟩
        · exact g
        · cases g
      exact ⟨fun k h => by rw [basekeep (gw k h)]; exact pn (gw k h), fun k h _ => basekeep (gw k h)⟩
  | false =>
    unfold partialStage at h
    rw [if_neg (by simp), if_pos (by simp)] at h
    by_cases h4 : anyN d.total (partialPillar d (nanMask d tn none s.pts)) = true
    · rw [if_pos h4] at h
      by_cases h5 : anyN d.total (fun q => partialPillar d (nanMask d tn none s.pts) q &&
          infillFails d.nraw fun k => ((baseState d (nanMask d tn none s.pts) s).pts k q 0).isNone) = true
      · rw [if_pos h5] at h; cases h
      rw [if_neg h5] at h
      obtain ⟨p, hp1, hp2⟩ := fin _ _ h
      refine ⟨_, p, hp1, rfl, hp2, ?_, ?_⟩
      · intro q hq g k hk c
        exact infilled_missing (fun t ht => mn (g t ht)) k hk c
      · intro q hq g
        have ge : ∃ k ≤ d.nraw, Point tn (s.pts k q) := by
          rcases g with g | ⟨_, g⟩
          · exact ⟨0, by omega, g 0 (by omega)⟩
          · exact g
        obtain ⟨a, a1, a2⟩ := ge
        refine ⟨infilled_whole hq ⟨a, a1, mp a2⟩, ?_⟩
        intro k hk gk
        rw [← basekeep gk]
        funext c
        by_cases hpp : partialPillar d (nanMask d tn none s.pts) q = true
        · simp only [infilled, hq, hpp, and_self, if_true, base_isNone]
          exact (@infill_spec d.nraw (nanMask d tn none s.pts · q)
            (fun t => (baseState d (nanMask d tn none s.pts) s).pts t q c)
            (fun t _ => by simp only [base_isNone]) ⟨a, a1, mp a2⟩).2.1 k hk (mp gk)
        · simp [infilled, hpp]
    · rw [if_neg h4] at h
      obtain ⟨p, hp1, hp2⟩ := fin _ _ h
      have np := noPart (anyN_false.mp (by simpa using h4))
      refine ⟨_, p, hp1, rfl, hp2, fun q hq g k hk c => basemiss (g k hk) c, ?_⟩
      intro q hq g
      have gw : ∀ k ≤ d.nraw, Point tn (s.pts k q) := by
        rcases g with g | ⟨_, g⟩
        · exact g
        · exact np q hq g
      exact ⟨fun k h => by rw [basekeep (gw k h)]; exact pn (gw k h), fun k h _ => basekeep (gw k h)⟩

/-- **C189**: after completing all pillars every point has numbers on all axes, and every pillar and every cell is said
to be defined. -/
theorem C189_all_defined {d : Dims} {sz : Pts → Rat} {tn : Option Rat} {cp nl : Bool} {s s' : St}
    (h : setDefined d sz tn none cp nl true s = .ok s') :
    (∀ k ≤ d.nraw, ∀ q < d.total, Point none (s'.pts k q)) ∧
      (∀ node x cache, (pillarQuery d node x cache s').1 = .ok (some true)) ∧
      (∀ node x cache, (cellQuery d node x cache s').1 = .ok (some true)) := by
  have hq : ∀ s2 : St, s2.allPillars = some true → s2.allCells = some true →
      (∀ node x cache, (pillarQuery d node x cache s2).1 = .ok (some true)) ∧
      (∀ node x cache, (cellQuery d node x cache s2).1 = .ok (some true)) := by
    intro s2 e1 e2
    refine ⟨fun node x cache => ?_, fun node x cache => by rw [cellQuery_all e2]⟩
    unfold pillarQuery
    rw [if_pos e1]
  rcases setDefined_all h with ⟨h1, rfl⟩ | ⟨s2, p, h1, _, rfl, _⟩
  · exact ⟨fun k hk q hq => (h1 k hk q hq).none, hq _ rfl rfl⟩
  · refine ⟨?_, hq _ rfl rfl⟩
    intro k _ q _ c
    obtain ⟨p2, _, p3, _, rfl⟩ := completeAll_inv h1
    exact ⟨_, rfl, by simp⟩

/-- **C189**: a usable point keeps its place, unless it lies on a pillar defined only in part and such pillars are to be
nullified. -/
theorem C189_kept {d : Dims} {sz : Pts → Rat} {tn : Option Rat} {cp nl : Bool} {s s' : St}
    (h : setDefined d sz tn none cp nl true s = .ok s') {k q : Nat} (hk : k ≤ d.nraw) (hq : q < d.total)
    (hp : Point tn (s.pts k q)) (hn : nl = true → ∀ t ≤ d.nraw, Point tn (s.pts t q)) :
    s'.pts k q = s.pts k q := by
  rcases setDefined_all h with ⟨_, rfl⟩ | ⟨s2, p, h1, _, rfl, _, h3⟩
  · rfl
  · have hs2 := h3 q hq (by
      cases nl with
      | true => exact Or.inl (hn rfl)
      | false => exact Or.inr ⟨rfl, k, hk, hp⟩)
    funext c
    obtain ⟨v, hv, _⟩ := hp c
    rw [hv]
    refine completeAll_kept h1 (fun _ => ?_) ?_
    · obtain ⟨w, hw, _⟩ := hs2.1 0 (by omega) 0
      rw [hw]; rfl
    · rw [hs2.2 k hk hp]; exact hv

/-- **C189**: cells which lacked a point before are inactive afterwards, although all points have been completed; no
cell becomes active. -/
theorem C189_inactive {d : Dims} {sz : Pts → Rat} {tn : Option Rat} {cp nl : Bool} {s s' : St} (hw : WF d)
    (h : setDefined d sz tn none cp nl true s = .ok s') {k j i : Nat} (hk : k < d.nk) (hj : j < d.nj)
    (hi : i < d.ni) : Inactive s' k j i ↔ Inactive s k j i ∨ ¬ CellWhole d tn s.pts k j i := by
  have htop := hw.2 k hk
  rcases setDefined_all h with ⟨hall, rfl⟩ | ⟨s2, p, _, h2, rfl, _⟩
  · have : CellWhole d tn s.pts k j i := by
      intro dk dj di _ _ _
      exact hall _ (by omega) _ (pil_lt hw (by omega) (by omega))
    simp [Inactive, this]
  · have hcell : cellsFromMask d (nanMask d tn none s.pts) k j i = false ↔ ¬ CellWhole d tn s.pts k j i := by
      have hr : (if d.kGaps then d.raw k else k) = d.top k := rfl
      rw [← Bool.not_eq_true, not_iff_not]
      unfold cellsFromMask
      dsimp only
      rw [hr]
      simp only [colNan, Bool.not_eq_true', Bool.or_eq_false_iff, nanMask_none, nanPoint_false]
      unfold CellWhole
      constructor
      · rintro ⟨⟨⟨a0, a1⟩, a2, a3⟩, ⟨b0, b1⟩, b2, b3⟩ dk dj di e1 e2 e3
        rcases Nat.le_one_iff_eq_zero_or_eq_one.mp e1 with rfl | rfl <;>
        rcases Nat.le_one_iff_eq_zero_or_eq_one.mp e2 with rfl | rfl <;>
          rcases Nat.le_one_iff_eq_zero_or_eq_one.mp e3 with rfl | rfl <;> assumption
      · intro g
        exact ⟨⟨⟨g 0 0 0 (by omega) (by omega) (by omega), g 0 0 1 (by omega) (by omega) (by omega)⟩,
          g 0 1 0 (by omega) (by omega) (by omega), g 0 1 1 (by omega) (by omega) (by omega)⟩,
          ⟨g 1 0 0 (by omega) (by omega) (by omega), g 1 0 1 (by omega) (by omega) (by omega)⟩,
          g 1 1 0 (by omega) (by omega) (by omega), g 1 1 1 (by omega) (by omega) (by omega)⟩
    unfold Inactive
    dsimp only
    rw [h2, ← hcell]
    simp only [baseState]
    cases hs : s.inactive with
    | none => simp
    | some f => simp

/-- **C189**: when the whole last row of pillars is missing, the completed pillars all stand at x = 0 and y = 0, whatever
the rest of the grid is like: the filling of rows stops one short of the end. For every grid. -/
theorem C189_last_row_violated {d : Dims} {sz : Pts → Rat} {tn : Option Rat} {cp nl : Bool} {s s' : St} (hw : WF d)
    (h : setDefined d sz tn none cp nl true s = .ok s')
    (hrow : ∀ i ≤ d.ni, ∀ k ≤ d.nraw, ¬ Point tn (s.pts k (d.pil d.nj i))) {i k : Nat} (hi : i ≤ d.ni)
    (hk : k ≤ d.nraw) : s'.pts k (d.pil d.nj i) 0 = some 0 ∧ s'.pts k (d.pil d.nj i) 1 = some 0 := by
  rcases setDefined_all h with ⟨hall, _⟩ | ⟨s2, p, h1, _, rfl, h2, _⟩
  · exact absurd (hall k hk _ (pil_lt hw (le_refl _) hi)) (hrow i hi k hk)
  · have hm : ∀ i ≤ d.ni, ∀ k ≤ d.nraw, ∀ c, s2.pts k (d.pil d.nj i) c = none :=
      fun i hi k hk c => h2 _ (pil_lt hw (le_refl _) hi) (hrow i hi) k hk c
    exact ⟨completeAll_last_row h1 hm hi hk (by decide), completeAll_last_row h1 hm hi hk (by decide)⟩

/-- **C189**: likewise when the whole last column of pillars is missing. For every grid. -/
theorem C189_last_column_violated {d : Dims} {sz : Pts → Rat} {tn : Option Rat} {cp nl : Bool} {s s' : St} (hw : WF d)
    (h : setDefined d sz tn none cp nl true s = .ok s')
    (hcol : ∀ j ≤ d.nj, ∀ k ≤ d.nraw, ¬ Point tn (s.pts k (d.pil j d.ni))) {j k : Nat} (hj : j ≤ d.nj)
    (hk : k ≤ d.nraw) : s'.pts k (d.pil j d.ni) 0 = some 0 ∧ s'.pts k (d.pil j d.ni) 1 = some 0 := by
  rcases setDefined_all h with ⟨hall, _⟩ | ⟨s2, p, h1, _, rfl, h2, _⟩
  · exact absurd (hall k hk _ (pil_lt hw hj (le_refl _))) (hcol j hj k hk)
  · have hm : ∀ j ≤ d.nj, ∀ k ≤ d.nraw, ∀ c, s2.pts k (d.pil j d.ni) c = none :=
      fun j hj k hk c => h2 _ (pil_lt hw hj (le_refl _)) (hcol j hj) k hk c
    exact ⟨completeAll_last_col h1 hm hj hk (by decide), completeAll_last_col h1 hm hj hk (by decide)⟩

/-- **C189**: when only the last row of pillars is there, of at least three, completing all pillars fails, although the
grid has geometry to start from. For every grid. -/
theorem C189_only_last_row_violated {d : Dims} {sz : Pts → Rat} {tn : Option Rat} {cp nl : Bool} {s s' : St} (hw : WF d)
    (hnj : 2 ≤ d.nj) (hrows : ∀ j < d.nj, ∀ i ≤ d.ni, ∀ k ≤ d.nraw, ¬ Point tn (s.pts k (d.pil j i))) :
    setDefined d sz tn none cp nl true s ≠ .ok s' := by
  intro h
  rcases setDefined_all h with ⟨hall, _⟩ | ⟨s2, p, h1, _, rfl, h2, _⟩
  · exact hrows 0 (by omega) 0 (by omega) 0 (by omega) (hall 0 (by omega) _ (pil_lt hw (by omega) (by omega)))
  · have hsm : ∀ j < d.nj, ∀ i, surround d (topNan d s2.pts) j i = true := by
      intro j hj i
      unfold surround
      rw [Bool.or_eq_true]
      left
      rw [allN_iff]
      intro t ht
      unfold topNan
      rw [h2 _ (pil_lt hw (by omega) (by omega)) (hrows j hj t (by omega)) 0 (by omega) 0]; rfl
    obtain ⟨p2, _, p3, h3, _⟩ := completeAll_inv h1
    rcases h3 with ⟨h3, _⟩ | h3
    · unfold any2 at h3
      have := anyN_false.mp (anyN_false.mp h3 0 (by omega)) 0 (by omega)
      rw [hsm 0 (by omega)] at this; cases this
    · obtain ⟨v1, m1, v2, m2, r1, _, _⟩ := fillSurround_inv h3
      unfold fillRows at r1
      rw [if_pos (by omega)] at r1
      dsimp only at r1
      split_ifs at r1 with g
      apply g
      obtain ⟨_, _, a3⟩ := @scanUp_spec d.nj
        (fun j => allN (d.ni + 1) fun i => surround d (topNan d s2.pts) j i) d.nj 0 (by omega)
      by_contra hh
      exact a3 ⟨by omega, allN_iff.mpr fun i _ => hsm _ (by omega) i⟩

theorem nanmean_some {l : List (Option Rat)} {x : Rat} (h : some x ∈ l) : ∃ m, nanmean l = some m := by
  unfold nanmean
  dsimp only
  rw [if_neg]
  · exact ⟨_, rfl⟩
  · intro e
    have : x ∈ l.filterMap id := by rw [List.mem_filterMap]; exact ⟨some x, h, rfl⟩
    rw [e] at this; cases this

/-- **C189**: when the first row of pillars is missing and all the others are whole, the completed row stands at the same
distance from the next along x as along y, in every layer of points: the mean step between rows is one number for both
axes, so that a row of a grid with its J axis along y is moved along x too. For every grid. -/
theorem C189_step_violated {d : Dims} {sz : Pts → Rat} {tn : Option Rat} {cp nl : Bool} {s s' : St} (hw : WF d)
    (hnj : 2 ≤ d.nj) (h : setDefined d sz tn none cp nl true s = .ok s')
    (hrow : ∀ i ≤ d.ni, ∀ k ≤ d.nraw, ¬ Point tn (s.pts k (d.pil 0 i)))
    (hrest : ∀ j, 1 ≤ j → j ≤ d.nj → ∀ i ≤ d.ni, ∀ k ≤ d.nraw, Point tn (s.pts k (d.pil j i))) :
    ∃ v : Rat, ∀ i ≤ d.ni, ∀ k ≤ d.nraw, ∃ x y, s.pts d.nraw (d.pil 1 i) 0 = some x ∧
      s.pts d.nraw (d.pil 1 i) 1 = some y ∧ s'.pts k (d.pil 0 i) 0 = some (x - v) ∧
      s'.pts k (d.pil 0 i) 1 = some (y - v) := by
  rcases setDefined_all h with ⟨hall, _⟩ | ⟨s2, p, h1, _, rfl, h2, h2'⟩
  · exact absurd (hall 0 (by omega) _ (pil_lt hw (by omega) (by omega))) (hrow 0 (by omega) 0 (by omega))
  · have tops : ∀ j i, 1 ≤ j → j ≤ d.nj → i ≤ d.ni → topNan d s2.pts j i = false := by
      intro j i g1 g2 g3
      obtain ⟨w, hw', _⟩ := (h2' _ (pil_lt hw g2 g3) (Or.inl (hrest j g1 g2 i g3))).1 0 (by omega) 0
      unfold topNan
      rw [hw']; rfl
    have top0 : ∀ i ≤ d.ni, topNan d s2.pts 0 i = true := by
      intro i hi
      unfold topNan
      rw [h2 _ (pil_lt hw (by omega) hi) (hrow i hi) 0 (by omega) 0]; rfl
    have sm0 : ∀ i, surround d (topNan d s2.pts) 0 i = true := by
      intro i
      unfold surround
      rw [Bool.or_eq_true]
      left
      rw [allN_iff]
      exact fun t ht => top0 t (by omega)
    have smj : ∀ j i, 1 ≤ j → j ≤ d.nj → i ≤ d.ni → surround d (topNan d s2.pts) j i = false := by
      intro j i g1 g2 g3
      rw [← Bool.not_eq_true]
      intro e
      have := surround_top g2 g3 e
      rw [tops j i g1 g2 g3] at this; cases this
    have keep : ∀ j i k, 1 ≤ j → j ≤ d.nj → i ≤ d.ni → k ≤ d.nraw → s2.pts k (d.pil j i) = s.pts k (d.pil j i) := by
      intro j i k g1 g2 g3 g4
      exact (h2' _ (pil_lt hw g2 g3) (Or.inl (hrest j g1 g2 i g3))).2 k g4 (hrest j g1 g2 i g3 k g4)
    obtain ⟨p2, e2, p3, h3, rfl⟩ := completeAll_inv h1
    have hp2 : ∀ k q c, q < d.prim → p2 k q c = s2.pts k q c := by
      intro k q c hq
      rcases e2 with rfl | rfl
      · refine fillHoles_kept _ _ _ k q c ?_
        rintro ⟨_, g⟩
        obtain ⟨g1, g2⟩ := prim_div hq
        by_cases hz : q / (d.ni + 1) = 0
        · rw [hz, sm0] at g; simp at g
        · rw [tops _ _ (Nat.one_le_iff_ne_zero.mpr hz) g1 g2] at g; simp at g
      · rfl
    rcases h3 with ⟨h3, _⟩ | h3
    · unfold any2 at h3
      have := anyN_false.mp (anyN_false.mp h3 0 (by omega)) 0 (by omega)
      rw [sm0] at this; cases this
    · obtain ⟨v1, m1, v2, m2, r1, r2, rfl⟩ := fillSurround_inv h3
      -- the mean step is a number
      have vec : ∃ m, jVector d (fun j i c => p2 d.nraw (d.pil j i) c) = some m := by
        obtain ⟨a, ha, _⟩ := hrest 1 (by omega) (by omega) 0 (by omega) d.nraw (le_refl _) 0
        obtain ⟨b, hb, _⟩ := hrest 2 (by omega) (by omega) 0 (by omega) d.nraw (le_refl _) 0
        refine nanmean_some (x := b - a) ?_
        rw [List.mem_flatMap]
        refine ⟨1, List.mem_range.mpr (by omega), ?_⟩
        rw [List.mem_flatMap]
        refine ⟨0, List.mem_range.mpr (by omega), ?_⟩
        dsimp only
        have q1 : p2 d.nraw (d.pil 1 0) 0 = some a := by
          rw [hp2 _ _ _ (pil_prim (by omega) (by omega)), keep 1 0 _ (by omega) (by omega) (by omega) (le_refl _), ha]
        have q2 : p2 d.nraw (d.pil (1 + 1) 0) 0 = some b := by
          rw [hp2 _ _ _ (pil_prim (by omega) (by omega)), keep (1 + 1) 0 _ (by omega) (by omega) (by omega) (le_refl _)]
          exact hb
        rw [q1, q2]
        simp [lift2]
      obtain ⟨v, hv⟩ := vec
      -- the part along J sets the first row from the second
      have rows : m1 = true ∧ ∀ i c, v1 0 i c = lift2 (· - ·) (p2 d.nraw (d.pil 1 i) c) (some v) := by
        unfold fillRows at r1
        rw [if_pos (by omega)] at r1
        dsimp only at r1
        split_ifs at r1 with g
        injection r1 with r1
        rw [Prod.mk.injEq] at r1
        obtain ⟨_, a2, a3⟩ := @scanUp_spec d.nj
          (fun j => allN (d.ni + 1) fun i => surround d (topNan d s2.pts) j i) d.nj 0 (by omega)
        have full1 : ∀ j, 1 ≤ j → j ≤ d.nj →
            (allN (d.ni + 1) fun i => surround d (topNan d s2.pts) j i) = false := by
          intro j g1 g2
          exact allN_false.mpr ⟨0, by omega, smj j 0 g1 g2 (by omega)⟩
        have full0 : (allN (d.ni + 1) fun i => surround d (topNan d s2.pts) 0 i) = true :=
          allN_iff.mpr fun i _ => sm0 i
        have hj0 : scanUp d.nj (fun j => allN (d.ni + 1) fun i => surround d (topNan d s2.pts) j i) d.nj 0 = 1 := by
          generalize scanUp d.nj (fun j => allN (d.ni + 1) fun i => surround d (topNan d s2.pts) j i) d.nj 0 = j0
            at a2 a3 g
          rcases Nat.lt_trichotomy j0 1 with e | e | e
          · have : j0 = 0 := by omega
            subst this
            exact absurd ⟨by omega, full0⟩ a3
          · exact e
          · have := (a2 1 (by omega) e).2
            rw [full1 1 (by omega) (by omega)] at this; cases this
        have hj1 : scanDown (fun j => allN (d.ni + 1) fun i => surround d (topNan d s2.pts) j i) (d.nj - 1) =
            d.nj - 1 := by
          have l1 := @scanDown_le (fun j => allN (d.ni + 1) fun i => surround d (topNan d s2.pts) j i) (d.nj - 1)
          by_contra hh
          have := @scanDown_above (fun j => allN (d.ni + 1) fun i => surround d (topNan d s2.pts) j i) (d.nj - 1)
            (d.nj - 1) (by omega) (le_refl _)
          rw [full1 _ (by omega) (by omega)] at this; cases this
        rw [hj0, hj1, Nat.sub_self] at r1
        refine ⟨by rw [← r1.2]; simp, ?_⟩
        intro i c
        rw [← r1.1, hv]
        simp [rowsUp, rowsDown]
      obtain ⟨hm1, rows⟩ := rows
      refine ⟨v, ?_⟩
      intro i hi k hk
      obtain ⟨x, hx, _⟩ := hrest 1 (by omega) (by omega) i hi d.nraw (le_refl _) 0
      obtain ⟨y, hy, _⟩ := hrest 1 (by omega) (by omega) i hi d.nraw (le_refl _) 1
      have val : ∀ c x, s.pts d.nraw (d.pil 1 i) c = some x → v2 0 i c = some (x - v) := by
        intro c x hx
        rw [fillCols_kept r2 (Or.inr ⟨1, by omega, smj 1 i (by omega) (by omega) hi⟩), rows i c,
          hp2 _ _ _ (pil_prim (by omega) hi), keep _ _ _ (by omega) (by omega) hi (le_refl _), hx]
        rfl
      have cond : ∀ c : Fin 3, c ≠ 2 → d.pil 0 i < d.prim ∧ c ≠ 2 ∧ (k = d.nraw ∨ ((m1 || m2) = true ∧
          surround d (topNan d s2.pts) (d.pil 0 i / (d.ni + 1)) (d.pil 0 i % (d.ni + 1)) = true)) := by
        intro c hc
        refine ⟨pil_prim (by omega) hi, hc, Or.inr ⟨by rw [hm1]; rfl, ?_⟩⟩
        rw [div_pil hi]; exact sm0 _
      refine ⟨x, y, hx, hy, ?_, ?_⟩
      · dsimp only
        rw [if_neg (by simp), if_pos (cond 0 (by decide)), div_pil hi, mod_pil hi, val 0 x hx]
        rfl
      · dsimp only
        rw [if_neg (by simp), if_pos (cond 1 (by decide)), div_pil hi, mod_pil hi, val 1 y hy]
        rfl

/-! ## Cases -/

/-- One layer, three rows of pillars and two columns, with the J axis along y; the row given is missing. -/
def exAll (missing : Nat) : St :=
  ⟨fun _ q c => if q / 2 = missing then none else some (if c = 0 then 100 + (q % 2 : Nat) else
    if c = 1 then 10 * (q / 2 : Nat) else 5), none, none, none, none, none, none⟩

/-- The extent of the example. -/
def exAllDims : Dims := ⟨1, 2, 1, 1, 6, false, id⟩

/-- The lateral place of a pillar after completion. -/
def exPlace (missing q : Nat) : Option Rat × Option Rat :=
  match setDefined exAllDims (fun _ => 7) none none false false true (exAll missing) with
  | .ok s => (s.pts 0 q 0, s.pts 0 q 1)
  | .error _ => (none, none)

-- the first row should stand at x = 100, y = 0, the last at x = 100, y = 20
example : exPlace 0 0 = (some 95, some 5) := by decide +kernel
example : exPlace 2 4 = (some 0, some 0) := by decide +kernel
example : exPlace 0 2 = (some 100, some 10) := by decide +kernel

end Verif.Defined
