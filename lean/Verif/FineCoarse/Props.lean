import Verif.FineCoarse.Lemmas

/-!
# Properties C06, C07: refinement mappings
-/

namespace Verif.FineCoarse
open Verif.Py Verif.Box

/-! ## C06 fine / coarse cell mapping -/

private theorem nat_of {x n : Int} (h : 0 ≤ x ∧ x < n) : ∃ m : Nat, x = m ∧ (m : Int) < n :=
  ⟨x.toNat, by omega, by omega⟩

private theorem inFineBox_iff (s : FC) (r : Fin 3 → List Int) (h : ∀ a, AxisOk (s.ax a) (r a)) (f : V3)
    (k j i : Nat) (hk : k < (r 0).length) (hj : j < (r 1).length) (hi : i < (r 2).length) :
    InFineBox s f ⟨k, j, i⟩ ↔ Owns (r 0) k f.k ∧ Owns (r 1) j f.j ∧ Owns (r 2) i f.i := by
  unfold InFineBox
  rw [fineBox_spec s r h k j i hk hj hi]
  simp only [Except.ok.injEq, exists_eq_left', In, Owns]
  constructor
  · intro h; omega
  · intro h; omega

/-- In a refinement that passes its own validity check, every fine cell lies in the fine box of
exactly one coarse cell. -/
theorem C06_each_fine_cell_in_one_box (s : FC) (hv : s.valid = true) (f : V3) (hf : FineCell s f) :
    ∃ c, (CoarseCell s c ∧ InFineBox s f c) ∧ ∀ d, CoarseCell s d → InFineBox s f d → d = c := by
  obtain ⟨r, hr⟩ := exists_ratios s (fun a => ⟨(valid_axes s hv a).1, (valid_axes s hv a).2.2.1⟩)
  have l0 := (hr 0).len; have l1 := (hr 1).len; have l2 := (hr 2).len
  have s0 := (hr 0).sum; have s1 := (hr 1).sum; have s2 := (hr 2).sum
  obtain ⟨k, hk⟩ := owns_exists (r 0) (hr 0).pos f.k hf.1.1 (by rw [s0]; exact hf.1.2)
  obtain ⟨j, hj⟩ := owns_exists (r 1) (hr 1).pos f.j hf.2.1.1 (by rw [s1]; exact hf.2.1.2)
  obtain ⟨i, hi⟩ := owns_exists (r 2) (hr 2).pos f.i hf.2.2.1 (by rw [s2]; exact hf.2.2.2)
  refine ⟨⟨k, j, i⟩, ⟨?_, ?_⟩, ?_⟩
  · have := hk.1; have := hj.1; have := hi.1
    simp only [CoarseCell]; omega
  · rw [inFineBox_iff s r hr f k j i hk.1 hj.1 hi.1]; exact ⟨hk, hj, hi⟩
  · intro d hd hb
    obtain ⟨dk, dj, di⟩ := d
    obtain ⟨k', rfl, hk'⟩ := nat_of hd.1
    obtain ⟨j', rfl, hj'⟩ := nat_of hd.2.1
    obtain ⟨i', rfl, hi'⟩ := nat_of hd.2.2
    rw [inFineBox_iff s r hr f k' j' i' (by omega) (by omega) (by omega)] at hb
    rw [owns_unique _ (hr 0).pos _ _ _ hb.1 hk, owns_unique _ (hr 1).pos _ _ _ hb.2.1 hj,
      owns_unique _ (hr 2).pos _ _ _ hb.2.2 hi]

/-- The fine box of a coarse cell holds exactly the fine cells that the fine-to-coarse lookup sends to
that coarse cell (for an object on which no lookup was made before, see C07). -/
theorem C06_lookup_iff_in_box (s : FC) (hv : s.valid = true) (hm : s.map = none) (f c : V3)
    (hf : FineCell s f) (hc : CoarseCell s c) :
    (coarseForFine s f).2 = .ok (some c.k, some c.j, some c.i) ↔ InFineBox s f c := by
  obtain ⟨r, hr⟩ := exists_ratios s (fun a => ⟨(valid_axes s hv a).1, (valid_axes s hv a).2.2.1⟩)
  have l0 := (hr 0).len; have l1 := (hr 1).len; have l2 := (hr 2).len
  have s0 := (hr 0).sum; have s1 := (hr 1).sum; have s2 := (hr 2).sum
  obtain ⟨k, hk⟩ := owns_exists (r 0) (hr 0).pos f.k hf.1.1 (by rw [s0]; exact hf.1.2)
  obtain ⟨j, hj⟩ := owns_exists (r 1) (hr 1).pos f.j hf.2.1.1 (by rw [s1]; exact hf.2.1.2)
  obtain ⟨i, hi⟩ := owns_exists (r 2) (hr 2).pos f.i hf.2.2.1 (by rw [s2]; exact hf.2.2.2)
  obtain ⟨m, hme, hmo⟩ := setMapping_spec s r hr
  obtain ⟨v0, e0, _, p0⟩ := hmo 0
  obtain ⟨v1, e1, _, p1⟩ := hmo 1
  obtain ⟨v2, e2, _, p2⟩ := hmo 2
  have hl : (coarseForFine s f).2 = .ok (some (k : Int), some (j : Int), some (i : Int)) := by
    simp only [coarseForFine, ensureMapping, hm, hme, mapEntry, e0, e1, e2, p0 _ _ hk, p1 _ _ hj,
      p2 _ _ hi]
    rfl
  obtain ⟨ck, cj, ci⟩ := c
  obtain ⟨k', rfl, hk'⟩ := nat_of hc.1
  obtain ⟨j', rfl, hj'⟩ := nat_of hc.2.1
  obtain ⟨i', rfl, hi'⟩ := nat_of hc.2.2
  rw [hl, inFineBox_iff s r hr f k' j' i' (by omega) (by omega) (by omega)]
  constructor
  · intro h
    simp only [Except.ok.injEq, Prod.mk.injEq, Option.some.injEq] at h
    have a1 : k = k' := by omega
    have a2 : j = j' := by omega
    have a3 : i = i' := by omega
    subst a1; subst a2; subst a3; exact ⟨hk, hj, hi⟩
  · rintro ⟨h1, h2, h3⟩
    rw [owns_unique _ (hr 0).pos _ _ _ h1 hk, owns_unique _ (hr 1).pos _ _ _ h2 hj,
      owns_unique _ (hr 2).pos _ _ _ h3 hi]

/-- Every coarse cell has a non-empty fine box within the fine grid. -/
theorem C06_boxes_within_fine_grid (s : FC) (hv : s.valid = true) (c : V3) (hc : CoarseCell s c) :
    ∃ b, s.fineBox c = .ok b ∧ Valid b ∧ ∀ f, In f b → FineCell s f := by
  obtain ⟨r, hr⟩ := exists_ratios s (fun a => ⟨(valid_axes s hv a).1, (valid_axes s hv a).2.2.1⟩)
  have l0 := (hr 0).len; have l1 := (hr 1).len; have l2 := (hr 2).len
  have s0 := (hr 0).sum; have s1 := (hr 1).sum; have s2 := (hr 2).sum
  obtain ⟨ck, cj, ci⟩ := c
  obtain ⟨k, rfl, hk⟩ := nat_of hc.1
  obtain ⟨j, rfl, hj⟩ := nat_of hc.2.1
  obtain ⟨i, rfl, hi⟩ := nat_of hc.2.2
  refine ⟨_, fineBox_spec s r hr k j i (by omega) (by omega) (by omega), ?_, ?_⟩
  · have t0 := take_succ_sum (r 0) k (by omega)
    have t1 := take_succ_sum (r 1) j (by omega)
    have t2 := take_succ_sum (r 2) i (by omega)
    have p0 := (hr 0).pos _ (List.getElem_mem (by omega : k < (r 0).length))
    have p1 := (hr 1).pos _ (List.getElem_mem (by omega : j < (r 1).length))
    have p2 := (hr 2).pos _ (List.getElem_mem (by omega : i < (r 2).length))
    simp only [Valid]; omega
  · intro f hf
    simp only [In] at hf
    have q0 := owns_range (r 0) (hr 0).pos k f.k ⟨by omega, by omega, by omega⟩
    have q1 := owns_range (r 1) (hr 1).pos j f.j ⟨by omega, by omega, by omega⟩
    have q2 := owns_range (r 2) (hr 2).pos i f.i ⟨by omega, by omega, by omega⟩
    simp only [FineCell]; omega

/-- The natural (row major) index of a coarse column is sent to the natural index of the first fine
column of that coarse column. -/
theorem C06_natural_column_index (s : FC) (hv : s.valid = true) (c : V3) (hc : CoarseCell s c) :
    ∃ b, s.fineBox c = .ok b ∧
      s.fineColumn (c.j * (s.ax 2).coarse + c.i) = .ok (b.lo.j * (s.ax 2).fine + b.lo.i) := by
  obtain ⟨r, hr⟩ := exists_ratios s (fun a => ⟨(valid_axes s hv a).1, (valid_axes s hv a).2.2.1⟩)
  have l0 := (hr 0).len; have l1 := (hr 1).len; have l2 := (hr 2).len
  obtain ⟨ck, cj, ci⟩ := c
  obtain ⟨k, rfl, hk⟩ := nat_of hc.1
  obtain ⟨j, rfl, hj⟩ := nat_of hc.2.1
  obtain ⟨i, rfl, hi⟩ := nat_of hc.2.2
  refine ⟨_, fineBox_spec s r hr k j i (by omega) (by omega) (by omega), ?_⟩
  have hp : 0 < (s.ax 2).coarse := by omega
  have hd : Int.fdiv ((j : Int) * (s.ax 2).coarse + i) (s.ax 2).coarse = j := by
    rw [Int.fdiv_eq_ediv_of_nonneg _ (by omega), Int.add_comm, Int.add_mul_ediv_right _ _ (by omega),
      Int.ediv_eq_zero_of_lt (by omega) hi]; omega
  have hmod : Int.fmod ((j : Int) * (s.ax 2).coarse + i) (s.ax 2).coarse = i := by
    rw [Int.fmod_eq_emod_of_nonneg _ (by omega), Int.add_comm, Int.add_mul_emod_self_right,
      Int.emod_eq_of_lt (by omega) hi]
  simp only [FC.fineColumn, if_neg (by omega : ¬ (s.ax 2).coarse = 0), hd, hmod,
    (hr 1).scale j (by omega), (hr 2).scale i (by omega), ok_bind]
  rfl

/-- The natural index of a coarse pillar is sent to the natural index of the fine pillar at the same
place: the first fine pillar of the coarse cell, or the last of all at the far edges. -/
theorem C06_natural_pillar_index (s : FC) (hv : s.valid = true) (pj pi : Nat)
    (hj : (pj : Int) ≤ (s.ax 1).coarse) (hi : (pi : Int) ≤ (s.ax 2).coarse) :
    ∃ fj fi, s.fineBase 1 pj = .ok fj ∧ s.fineBase 2 pi = .ok fi ∧
      0 ≤ fj ∧ fj ≤ (s.ax 1).fine ∧ 0 ≤ fi ∧ fi ≤ (s.ax 2).fine ∧
      s.finePillar (pj * ((s.ax 2).coarse + 1) + pi) = .ok (fj * ((s.ax 2).fine + 1) + fi) := by
  obtain ⟨r, hr⟩ := exists_ratios s (fun a => ⟨(valid_axes s hv a).1, (valid_axes s hv a).2.2.1⟩)
  have l1 := (hr 1).len; have l2 := (hr 2).len
  have s1 := (hr 1).sum; have s2 := (hr 2).sum
  have m1 := sum_take_mono (r 1) (hr 1).pos 0 pj (by omega)
  have m2 := sum_take_mono (r 2) (hr 2).pos 0 pi (by omega)
  have n1 := sum_take_mono (r 1) (hr 1).pos pj (r 1).length (by omega)
  have n2 := sum_take_mono (r 2) (hr 2).pos pi (r 2).length (by omega)
  simp only [List.take_zero, List.sum_nil, List.take_length] at m1 m2 n1 n2
  refine ⟨_, _, (hr 1).base pj (by omega), (hr 2).base pi (by omega), by omega, by omega, by omega,
    by omega, ?_⟩
  have hd : Int.fdiv ((pj : Int) * ((s.ax 2).coarse + 1) + pi) ((s.ax 2).coarse + 1) = pj := by
    rw [Int.fdiv_eq_ediv_of_nonneg _ (by omega), Int.add_comm, Int.add_mul_ediv_right _ _ (by omega),
      Int.ediv_eq_zero_of_lt (by omega) (by omega)]; omega
  have hmod : Int.fmod ((pj : Int) * ((s.ax 2).coarse + 1) + pi) ((s.ax 2).coarse + 1) = pi := by
    rw [Int.fmod_eq_emod_of_nonneg _ (by omega), Int.add_comm, Int.add_mul_emod_self_right,
      Int.emod_eq_of_lt (by omega) (by omega)]
  simp only [FC.finePillar, if_neg (by omega : ¬ (s.ax 2).coarse + 1 = 0), hd, hmod,
    (hr 1).scale pj (by omega), (hr 2).scale pi (by omega), ok_bind]
  rfl

/-- A 1 x 2 x 3 coarse grid refined to 2 x 5 x 6. -/
def exampleFC : FC :=
  { ax := fun a => if a = 0 then ⟨2, 1, some 2, none, true, none⟩
                   else if a = 1 then ⟨5, 2, none, some [2, 3], true, none⟩
                   else ⟨6, 3, none, some [1, 4, 1], true, none⟩
    map := none }

example : exampleFC.valid = true := by decide
example : (coarseForFine exampleFC ⟨1, 2, 4⟩).2 = .ok (some 0, some 1, some 1) := by decide
example : exampleFC.fineBox ⟨0, 1, 1⟩ = .ok ⟨⟨0, 2, 1⟩, ⟨1, 4, 4⟩⟩ := by decide
example : exampleFC.fineColumn 4 = .ok 13 := by decide
example : exampleFC.finePillar 11 = .ok 41 := by decide

/-! ### the setters establish the validity of the ratios -/

/-- what every history of calls maintains for each axis -/
private structure AxisInv (fine coarse : Int) (a : Axis) : Prop where
  f : a.fine = fine
  c : a.coarse = coarse
  v : 0 < coarse → (a.const.isSome ∨ a.vec.isSome) → a.ratiosValid = true

private theorem foldl_min_le (xs : List Int) : ∀ x, xs.foldl min x ≤ x ∧ ∀ y ∈ xs, xs.foldl min x ≤ y := by
  induction xs with
  | nil => intro x; simp
  | cons a as ih =>
    intro x
    obtain ⟨h1, h2⟩ := ih (min x a)
    simp only [List.foldl_cons]
    refine ⟨by omega, ?_⟩
    intro y hy
    rcases List.mem_cons.1 hy with rfl | hy
    · omega
    · exact h2 y hy

private theorem setConst_inv (fine coarse : Int) (a a' : Axis) (hf : 0 < fine) (hle : coarse ≤ fine)
    (h : AxisInv fine coarse a) (he : a.setConst = .ok a') : AxisInv fine coarse a' := by
  unfold Axis.setConst at he
  split at he
  · simp at he
  · rename_i hc0
    rw [assert_bind] at he
    obtain ⟨hm, he⟩ := he
    simp only [pure, Except.pure, Except.ok.injEq] at he
    subst he
    refine ⟨h.f, h.c, ?_⟩
    intro hc _
    simp only [Axis.ratiosValid, Bool.and_eq_true, decide_eq_true_eq, beq_iff_eq, Option.isNone_none,
      and_true]
    simp only [beq_iff_eq] at hm
    have hfe := h.f
    have hce := h.c
    rw [hfe, hce] at hm ⊢
    rw [Int.fmod_eq_emod_of_nonneg _ (by omega)] at hm
    rw [Int.fdiv_eq_ediv_of_nonneg _ (by omega)]
    have hmul := Int.mul_ediv_cancel' (Int.dvd_of_emod_eq_zero hm)
    refine ⟨?_, hmul⟩
    exact Int.ediv_pos_of_pos_of_dvd hf (by omega) (Int.dvd_of_emod_eq_zero hm)

private theorem setVec_inv (fine coarse : Int) (a a' : Axis) (v : List Int) (hf : 0 < fine)
    (hle : coarse ≤ fine) (h : AxisInv fine coarse a) (he : a.setVec v = .ok a') :
    AxisInv fine coarse a' := by
  unfold Axis.setVec at he
  rw [assert_bind] at he
  obtain ⟨h1, he⟩ := he
  rw [assert_bind] at he
  obtain ⟨h2, he⟩ := he
  simp only [beq_iff_eq] at h1 h2
  cases v with
  | nil => simp [vmin, err_bind] at he
  | cons x xs =>
    simp only [vmin, vmax, ok_bind] at he
    rw [assert_bind] at he
    obtain ⟨h3, he⟩ := he
    simp only [decide_eq_true_eq] at h3
    split at he
    · cases hs : a.setConst with
      | error e => rw [hs] at he; simp [err_bind] at he
      | ok b =>
        rw [hs, ok_bind, assert_bind] at he
        obtain ⟨_, he⟩ := he
        simp only [pure, Except.pure, Except.ok.injEq] at he
        subst he
        exact setConst_inv fine coarse a b hf hle h hs
    · simp only [pure, Except.pure, Except.ok.injEq] at he
      subst he
      refine ⟨h.f, h.c, ?_⟩
      intro hc _
      simp only [Axis.ratiosValid, Bool.and_eq_true, beq_iff_eq, List.all_eq_true, decide_eq_true_eq]
      refine ⟨⟨h1, ?_⟩, h2⟩
      have hmin := foldl_min_le xs x
      intro y hy
      rcases List.mem_cons.1 hy with rfl | hy
      · have := hmin.1; omega
      · have := hmin.2 y hy; omega

private theorem setProps_keeps (a a' : Axis) (vs : List (List Rat)) (he : a.setProps vs = .ok a') :
    a'.fine = a.fine ∧ a'.coarse = a.coarse ∧ a'.const = a.const ∧ a'.vec = a.vec := by
  unfold Axis.setProps at he
  rw [assert_bind] at he
  obtain ⟨_, he⟩ := he
  cases hn : normaliseAll a 0 vs with
  | error e => rw [hn] at he; simp [err_bind] at he
  | ok p =>
    obtain ⟨fs, eq⟩ := p
    rw [hn, ok_bind] at he
    dsimp only at he
    split at he <;> simp only [pure, Except.pure, Except.ok.injEq] at he <;> subst he <;> simp

private theorem ratiosValid_congr (a a' : Axis) (h1 : a'.fine = a.fine) (h2 : a'.coarse = a.coarse)
    (h3 : a'.const = a.const) (h4 : a'.vec = a.vec) : a'.ratiosValid = a.ratiosValid := by
  unfold Axis.ratiosValid; rw [h1, h2, h3, h4]

private theorem fillAxes_ax (s : FC) : (setMapping s).1.ax = s.ax := by
  unfold setMapping; rfl

private theorem lookup_ax (s : FC) (a : Fin 3) (f : Int) : (coarseForFineAxial s a f).1.ax = s.ax := by
  unfold coarseForFineAxial ensureMapping
  cases hm : s.map with
  | some m => rfl
  | none =>
    have := fillAxes_ax s
    cases hs : setMapping s with
    | mk s' r => rw [hs] at this; cases r <;> exact this

private theorem setAxis_inv (fine coarse : Fin 3 → Int) (s : FC) (a : Fin 3) (r : Res Axis)
    (h : ∀ b, AxisInv (fine b) (coarse b) (s.ax b))
    (hr : ∀ a', r = .ok a' → AxisInv (fine a) (coarse a) a') :
    ∀ b, AxisInv (fine b) (coarse b) ((setAxis s a r).1.ax b) := by
  intro b
  cases r with
  | error e => exact h b
  | ok a' =>
    simp only [setAxis, upd]
    by_cases hb : b = a
    · subst hb; simp only [if_true]; exact hr a' rfl
    · simp only [hb, if_false]; exact h b

private theorem run_inv (fine coarse : Fin 3 → Int) (hf : ∀ a, 0 < fine a ∧ coarse a ≤ fine a)
    (ops : List Op) : ∀ s : FC, (∀ a, AxisInv (fine a) (coarse a) (s.ax a)) →
      ∀ a, AxisInv (fine a) (coarse a) ((run s ops).ax a) := by
  induction ops with
  | nil => intro s h; exact h
  | cons o os ih =>
    intro s h
    apply ih
    cases o with
    | setConst a =>
      exact setAxis_inv fine coarse s a _ h (fun a' he => setConst_inv _ _ _ _ (hf a).1 (hf a).2 (h a) he)
    | setVec a v =>
      exact setAxis_inv fine coarse s a _ h (fun a' he => setVec_inv _ _ _ _ _ (hf a).1 (hf a).2 (h a) he)
    | setEqual a =>
      refine setAxis_inv fine coarse s a _ h (fun a' he => ?_)
      simp only [Except.ok.injEq] at he
      subst he
      exact ⟨(h a).f, (h a).c, fun hc hs => (ratiosValid_congr (s.ax a) (s.ax a).setEqual rfl rfl rfl rfl).trans
        ((h a).v hc hs)⟩
    | setProps a vs =>
      refine setAxis_inv fine coarse s a _ h (fun a' he => ?_)
      obtain ⟨e1, e2, e3, e4⟩ := setProps_keeps _ _ _ he
      refine ⟨e1.trans (h a).f, e2.trans (h a).c, fun hc hs => ?_⟩
      rw [ratiosValid_congr _ _ e1 e2 e3 e4]
      rw [e3, e4] at hs
      exact (h a).v hc hs
    | lookup a f =>
      intro b
      show AxisInv _ _ ((coarseForFineAxial s a f).1.ax b)
      rw [lookup_ax]; exact h b

private theorem init_inv (fine coarse : Fin 3 → Int) (s : FC) (h : init fine coarse = .ok s) :
    (∀ a, 0 < fine a ∧ coarse a ≤ fine a) ∧ (∀ a, AxisInv (fine a) (coarse a) (s.ax a)) ∧ s.map = none := by
  unfold init at h
  rw [assert_bind] at h
  obtain ⟨h1, h2⟩ := h
  simp only [pure, Except.pure, Except.ok.injEq] at h2
  subst h2
  refine ⟨?_, ?_, rfl⟩
  · intro a
    simp only [extentsValid, List.all_eq_true, Bool.and_eq_true, decide_eq_true_eq] at h1
    exact h1 a (by rcases fin3 a with rfl | rfl | rfl <;> simp)
  · intro a
    exact ⟨rfl, rfl, fun _ h => by simp at h⟩

private theorem set_of_ratio (a : Axis) (c x : Int) (h : a.ratio c = .ok x) :
    a.const.isSome ∨ a.vec.isSome := by
  unfold Axis.ratio at h
  cases hc : a.const with
  | some _ => left; rfl
  | none =>
    rw [hc] at h
    cases hv : a.vec with
    | some _ => right; rfl
    | none => rw [hv] at h; simp at h

/-- After any history of setter and lookup calls on a new object, for each axis on which ratios have
been set: the ratios are positive whole numbers, one for each coarse slice, adding up to the fine
extent. -/
theorem C06_ratios_consistent_after_any_history (fine coarse : Fin 3 → Int) (s₀ : FC)
    (h₀ : init fine coarse = .ok s₀) (ops : List Op) (a : Fin 3) (hc : 0 < coarse a) (x : Int)
    (hset : (run s₀ ops).ratio a 0 = .ok x) :
    ∃ r, RatiosAre (run s₀ ops) a r ∧ (∀ y ∈ r, 0 < y) ∧ r.sum = fine a := by
  obtain ⟨hf, hi, _⟩ := init_inv fine coarse s₀ h₀
  have h := run_inv fine coarse hf ops s₀ hi a
  have hv := h.v hc (set_of_ratio _ _ _ hset)
  obtain ⟨r, hr⟩ := axisOk_of_valid _ hv (by rw [h.f]; exact (hf a).1)
  exact ⟨r, ⟨hr.len, hr.ratio⟩, hr.pos, hr.sum.trans h.f⟩

private def ops₁ : List Op := [.setConst 0, .setVec 1 [2, 3], .setVec 2 [1, 4, 1], .setVec 2 [2, 2, 2]]
private def fine₁ : Fin 3 → Int := fun a => if a = 0 then 2 else if a = 1 then 5 else 6
private def coarse₁ : Fin 3 → Int := fun a => if a = 0 then 1 else if a = 1 then 2 else 3

example : ∃ s₀, init fine₁ coarse₁ = .ok s₀ ∧ (run s₀ ops₁).ratio 2 0 = .ok 2 ∧
    (run s₀ ops₁).ratio 1 1 = .ok 3 := by
  refine ⟨_, rfl, ?_, ?_⟩ <;> decide

/-! ## C07 the mapping follows the current ratios -/

/-- The property: after any history of calls, a lookup answers according to the ratios in force. -/
def FollowsCurrentRatios : Prop :=
  ∀ (fine coarse : Fin 3 → Int) (s₀ : FC) (ops : List Op), init fine coarse = .ok s₀ →
    ∀ r : Fin 3 → List Int, (∀ a, RatiosAre (run s₀ ops) a (r a)) →
      ∀ (a : Fin 3) (f : Int) (c : Nat), Owns (r a) c f →
        (coarseForFineAxial (run s₀ ops) a f).2 = .ok (some (c : Int))

private def fine₂ : Fin 3 → Int := fun a => if a = 2 then 4 else 1
private def coarse₂ : Fin 3 → Int := fun a => if a = 2 then 2 else 1
private def ops₂ : List Op :=
  [.setConst 0, .setConst 1, .setVec 2 [1, 3], .lookup 2 1, .setVec 2 [3, 1]]
private def ratios₂ : Fin 3 → List Int := fun a => if a = 2 then [3, 1] else [1]
private def start₂ : FC :=
  { ax := fun a => ⟨fine₂ a, coarse₂ a, none, none, true, none⟩, map := none }

private theorem ratios₂_are (s : FC) (h : ∀ a, (s.ax a).coarse = coarse₂ a)
    (h0 : s.ratio 0 0 = .ok 1) (h1 : s.ratio 1 0 = .ok 1) (h2 : s.ratio 2 0 = .ok 3)
    (h3 : s.ratio 2 1 = .ok 1) : ∀ a, RatiosAre s a (ratios₂ a) := by
  intro a
  rcases fin3 a with rfl | rfl | rfl
  · refine ⟨by rw [h]; decide, ?_⟩
    intro c hc
    have : c = 0 := by simp [ratios₂] at hc; exact hc
    subst this; exact h0
  · refine ⟨by rw [h]; decide, ?_⟩
    intro c hc
    have : c = 0 := by simp [ratios₂] at hc; exact hc
    subst this; exact h1
  · refine ⟨by rw [h]; decide, ?_⟩
    intro c hc
    have : c < 2 := by simpa [ratios₂] using hc
    have : c = 0 ∨ c = 1 := by omega
    rcases this with rfl | rfl
    · exact h2
    · exact h3

/-- The mapping is built once and never rebuilt, so a lookup made before the ratios are changed fixes
the answers for ever. -/
theorem C07_stale_mapping_violated : ¬ FollowsCurrentRatios := by
  intro h
  have hr : ∀ a, RatiosAre (run start₂ ops₂) a (ratios₂ a) :=
    ratios₂_are _ (by decide) (by decide) (by decide) (by decide) (by decide)
  have := h fine₂ coarse₂ start₂ ops₂ rfl ratios₂ hr 2 1 0 (by unfold Owns; decide)
  exact absurd this (by decide)

private def ops₃ : List Op :=
  [.setConst 0, .setConst 1, .lookup 2 1, .setVec 2 [3, 1]]

/-- A lookup made before all ratios are set raises an error and leaves a partly built mapping behind:
later lookups, with all ratios properly set, return whatever was in the uninitialised vector. -/
theorem C07_early_lookup_violated :
    ∃ (s₀ : FC), init fine₂ coarse₂ = .ok s₀ ∧ (∀ a, RatiosAre (run s₀ ops₃) a (ratios₂ a)) ∧
      (coarseForFineAxial (run s₀ ops₃) 2 1).2 = .ok none := by
  refine ⟨start₂, rfl, ?_, by decide⟩
  exact ratios₂_are _ (by decide) (by decide) (by decide) (by decide) (by decide)

/-- calls that do not change ratios -/
def Op.keepsRatios : Op → Bool
  | .setConst _ => false
  | .setVec _ _ => false
  | _ => true

private theorem setters_map (ops : List Op) (hs : ∀ o ∈ ops, o.isSetter = true) :
    ∀ s : FC, s.map = none → (run s ops).map = none := by
  induction ops with
  | nil => intro s h; exact h
  | cons o os ih =>
    intro s h
    apply ih (fun o ho => hs o (by simp [ho]))
    have ho := hs o (by simp)
    have key : ∀ a r, (setAxis s a r).1.map = none := by
      intro a r; cases r <;> exact h
    cases o with
    | lookup a f => simp [Op.isSetter] at ho
    | setConst a => exact key _ _
    | setVec a v => exact key _ _
    | setEqual a => exact key _ _
    | setProps a vs => exact key _ _

private structure Fresh (r : Fin 3 → List Int) (s : FC) : Prop where
  ax : ∀ a, AxisOk (s.ax a) (r a)
  map : s.map = none ∨ ∃ m, s.map = some m ∧ MapOk s r m

private theorem axisOk_congr (a a' : Axis) (r : List Int) (h1 : a'.fine = a.fine) (h2 : a'.coarse = a.coarse)
    (h3 : a'.const = a.const) (h4 : a'.vec = a.vec) (h : AxisOk a r) : AxisOk a' r := by
  refine ⟨h2 ▸ h.len, h.pos, h1 ▸ h.sum, ?_, ?_, ?_⟩
  · intro c hc; rw [← h.ratio c hc]; unfold Axis.ratio; rw [h3, h4]
  · intro c hc; rw [← h.base c hc]; unfold Axis.fineBase; rw [h3, h4]
  · intro c hc; rw [← h.scale c hc]; unfold Axis.scaleIndex; rw [h3, h4]

private theorem setAxis_fresh (r : Fin 3 → List Int) (s : FC) (a : Fin 3) (x : Res Axis) (h : Fresh r s)
    (hx : ∀ a', x = .ok a' → a'.fine = (s.ax a).fine ∧ a'.coarse = (s.ax a).coarse ∧
      a'.const = (s.ax a).const ∧ a'.vec = (s.ax a).vec) : Fresh r (setAxis s a x).1 := by
  cases x with
  | error e => exact h
  | ok a' =>
    obtain ⟨e1, e2, e3, e4⟩ := hx a' rfl
    have hfine : ∀ b, (upd s.ax a a' b).fine = (s.ax b).fine := by
      intro b; unfold upd; split
      · rename_i hb; subst hb; exact e1
      · rfl
    refine ⟨?_, ?_⟩
    · intro b
      show AxisOk (upd s.ax a a' b) (r b)
      unfold upd; split
      · rename_i hb; subst hb; exact axisOk_congr _ _ _ e1 e2 e3 e4 (h.ax b)
      · exact h.ax b
    · rcases h.map with hm | ⟨m, hm, hok⟩
      · left; exact hm
      · right
        refine ⟨m, hm, ?_⟩
        intro b
        obtain ⟨v, q1, q2, q3⟩ := hok b
        exact ⟨v, q1, by show _ = (upd s.ax a a' b).fine; rw [hfine]; exact q2, q3⟩

private theorem lookup_fresh (r : Fin 3 → List Int) (s : FC) (h : Fresh r s) (a : Fin 3) (f : Int) :
    Fresh r (coarseForFineAxial s a f).1 ∧
    ∀ c, Owns (r a) c f → (coarseForFineAxial s a f).2 = .ok (some (c : Int)) := by
  rcases h.map with hm | ⟨m, hm, hok⟩
  · obtain ⟨m, hme, hmo⟩ := setMapping_spec s r h.ax
    simp only [coarseForFineAxial, ensureMapping, hm, hme]
    refine ⟨⟨h.ax, .inr ⟨m, rfl, hmo⟩⟩, ?_⟩
    intro c hc
    obtain ⟨v, q1, _, q3⟩ := hmo a
    simp only [mapEntry, q1, q3 _ _ hc]
  · simp only [coarseForFineAxial, ensureMapping, hm]
    refine ⟨⟨h.ax, .inr ⟨m, hm, hok⟩⟩, ?_⟩
    intro c hc
    obtain ⟨v, q1, _, q3⟩ := hok a
    simp only [mapEntry, hm, q1, q3 _ _ hc]

private theorem run_fresh (r : Fin 3 → List Int) (ops : List Op) (hk : ∀ o ∈ ops, o.keepsRatios = true) :
    ∀ s : FC, Fresh r s → Fresh r (run s ops) := by
  induction ops with
  | nil => intro s h; exact h
  | cons o os ih =>
    intro s h
    apply ih (fun o ho => hk o (by simp [ho]))
    have ho := hk o (by simp)
    cases o with
    | setConst a => simp [Op.keepsRatios] at ho
    | setVec a v => simp [Op.keepsRatios] at ho
    | setEqual a =>
      refine setAxis_fresh r s a _ h (fun a' he => ?_)
      simp only [Except.ok.injEq] at he
      subst he; exact ⟨rfl, rfl, rfl, rfl⟩
    | setProps a vs => exact setAxis_fresh r s a _ h (fun a' he => setProps_keeps _ _ _ he)
    | lookup a f => exact (lookup_fresh r s h a f).1

private theorem axisOk_ratios (s : FC) (a : Fin 3) (r r' : List Int) (h : AxisOk (s.ax a) r)
    (h' : RatiosAre s a r') : r' = r := by
  have hlen : r'.length = r.length := by have := h.len; have := h'.1; omega
  apply List.ext_getElem hlen
  intro n h1 h2
  have e1 := h'.2 n h1
  have e2 := h.ratio n h2
  unfold FC.ratio at e1
  rw [e2] at e1
  simpa using e1.symm

/-- What does hold: if all ratio setting precedes the first lookup, then every later lookup answers
according to those ratios, whatever other calls intervene.  Missing: histories in which ratios are
changed after a lookup. -/
theorem C07_follows_ratios_set_before_first_lookup_partial (fine coarse : Fin 3 → Int) (s₀ : FC)
    (setters others : List Op) (h₀ : init fine coarse = .ok s₀) (hc : ∀ a, 0 < coarse a)
    (hs : ∀ o ∈ setters, o.isSetter = true) (ho : ∀ o ∈ others, o.keepsRatios = true)
    (r : Fin 3 → List Int) (hr : ∀ a, RatiosAre (run s₀ setters) a (r a))
    (a : Fin 3) (f : Int) (hf : 0 ≤ f ∧ f < fine a) :
    ∃ c, Owns (r a) c f ∧
      (coarseForFineAxial (run (run s₀ setters) others) a f).2 = .ok (some (c : Int)) := by
  obtain ⟨hfi, hi, hmap⟩ := init_inv fine coarse s₀ h₀
  have hinv := run_inv fine coarse hfi setters s₀ hi
  have hm := setters_map setters hs s₀ hmap
  have hset : ∀ b, ((run s₀ setters).ax b).ratiosValid = true := by
    intro b
    have hl := (hr b).1
    have hlen : 0 < (r b).length := by
      have := (hinv b).c; have := hc b; omega
    exact (hinv b).v (hc b) (set_of_ratio _ _ _ ((hr b).2 0 hlen))
  obtain ⟨r', hr'⟩ := exists_ratios (run s₀ setters)
    (fun b => ⟨by rw [(hinv b).f]; exact (hfi b).1, hset b⟩)
  have heq : ∀ b, r b = r' b := fun b => axisOk_ratios _ b _ _ (hr' b) (hr b)
  have hfr := run_fresh r' others ho (run s₀ setters) ⟨hr', .inl hm⟩
  have hsum : (r' a).sum = fine a := (hr' a).sum.trans (hinv a).f
  obtain ⟨c, hcown⟩ := owns_exists (r' a) (hr' a).pos f hf.1 (by omega)
  exact ⟨c, by rw [heq]; exact hcown, (lookup_fresh r' _ hfr a f).2 c hcown⟩

example : ∃ s₀, init fine₁ coarse₁ = .ok s₀ ∧ (∀ o ∈ ops₁, o.isSetter = true) ∧
    (coarseForFineAxial (run (run s₀ ops₁) [.lookup 1 0, .setEqual 2]) 1 2).2 = .ok (some 1) := by
  refine ⟨_, rfl, by decide, by decide⟩

end Verif.FineCoarse
