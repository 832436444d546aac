import Verif.AddFaults.Lemmas2

namespace Verif.AddFaults
open Verif.Py Verif.Pillars Verif.CpGrid

variable {V : Type} [AddCommGroup V] [Module ℚ V]

theorem Inv.zero {v : Visit V} {e : Nat} {s0 : PState V} {ls0 : List (List Nat)} (g0 : Good s0.g s0.cl ls0) :
    Inv v e s0 ls0 [] { s0 with lr := none, made := false } ls0 where
  good := g0
  nj := rfl
  ni := rfl
  nkg := rfl
  full := id
  start := fun _ => ⟨rfl, rfl, rfl, rfl, fun x hx => (List.not_mem_nil hx).elim⟩
  first := fun b hb => by cases hb
  orig := fun b hb => by cases hb
  moved := fun b hb => by cases hb
  others := fun b hb => by cases hb
  unmade := fun _ => ⟨rfl, rfl, rfl⟩
  made := fun b hb => by cases hb
  switched := fun b hb => by cases hb
  kept := fun _ _ _ h _ => h

theorem Inv.loop {v : Visit V} {e : Nat} {s0 : PState V} {ls0 : List (List Nat)} (hat : At s0.g.tab v) (g0 : Good s0.g s0.cl ls0)
    (hval : ∀ x ∈ corners, Inside s0.g.tab v x → v.four x.1 x.2 = e → ValOf s0.g.tab ls0 v.primary (colAt s0.g.tab v x) e)
    (R : List (Nat × Nat)) (D : List (Nat × Nat)) (hR : ∀ x ∈ R, x ∈ corners) (hnd : (D ++ R).Nodup) {s : PState V}
    {ls : List (List Nat)} (I : Inv v e s0 ls0 D s ls) :
    ∃ s' ls', cornerLoop (baseOf s0.g.tab) v e R s = .ok s' ∧ Inv v e s0 ls0 (D ++ R) s' ls' := by
  induction R generalizing D s ls with
  | nil => exact ⟨s, ls, rfl, by rw [List.append_nil]; exact I⟩
  | cons x R ih =>
    have hx : x ∉ D := by
      intro h
      exact (List.disjoint_of_nodup_append hnd) h (by simp)
    obtain ⟨s1, ls1, h1, I1⟩ := I.step hat g0 hval (hR x (by simp)) hx
    have e1 : D ++ x :: R = (D ++ [x]) ++ R := by simp
    rw [e1] at hnd ⊢
    obtain ⟨s2, ls2, h2, I2⟩ := ih (D ++ [x]) (fun y hy => hR y (by simp [hy])) hnd I1
    refine ⟨s2, ls2, ?_, I2⟩
    rw [cornerLoop, h1]
    exact h2

/-- what is done at a natural pillar to the columns around it which use a pillar in `es` -/
structure Done (v : Visit V) (es : List Nat) (s : PState V) (ls : List (List Nat)) (s' : PState V) (ls' : List (List Nat)) : Prop where
  good : Good s'.g s'.cl ls'
  nj : s'.g.tab.nj = s.g.tab.nj
  ni : s'.g.tab.ni = s.g.tab.ni
  nkg : s'.g.nkg = s.g.nkg
  full : (∀ l ∈ ls, l ≠ []) → ∀ l ∈ ls', l ≠ []
  count : s.g.count ≤ s'.g.count
  moved : ∃ w : Nat × Nat → Nat,
    (∀ x ∈ corners, Inside s.g.tab v x → v.four x.1 x.2 ∈ es →
      ValOf s'.g.tab ls' v.primary (colAt s.g.tab v x) (w x) ∧ (w x = v.four x.1 x.2 ∨ s.g.count ≤ w x) ∧
      ∀ k, s'.g.pts k (w x) = s.g.pts k (v.four x.1 x.2) + v.throw (v.right x.1 x.2)) ∧
    (∀ x ∈ corners, Inside s.g.tab v x → v.four x.1 x.2 ∈ es → ∀ y ∈ corners, Inside s.g.tab v y → v.four y.1 y.2 ∈ es →
      w x = w y → v.four x.1 x.2 = v.four y.1 y.2 ∧ v.right x.1 x.2 = v.right y.1 y.2)
  kept : ∀ P0 c0 w, ValOf s.g.tab ls P0 c0 w →
    (∀ x ∈ corners, Inside s.g.tab v x → v.four x.1 x.2 ∈ es → ¬ (P0 = v.primary ∧ c0 = colAt s.g.tab v x)) →
    ValOf s'.g.tab ls' P0 c0 w
  others : ∀ k q, q < s.g.count → (∀ x ∈ corners, Inside s.g.tab v x → v.four x.1 x.2 ∈ es → v.four x.1 x.2 ≠ q) →
    s'.g.pts k q = s.g.pts k q
  whole : ∀ q, q < s.g.count → ∃ d : V, ∀ k, s'.g.pts k q = s.g.pts k q + d
  same : (∀ x ∈ corners, Inside s.g.tab v x → v.four x.1 x.2 ∈ es → ∀ y ∈ corners, Inside s.g.tab v y → v.four y.1 y.2 ∈ es →
    v.four x.1 x.2 = v.four y.1 y.2 → v.right x.1 x.2 = v.right y.1 y.2) → s'.g.tab = s.g.tab

theorem corners_nodup : corners.Nodup := by decide

/-- for one of the pillars in use -/
theorem one_done {v : Visit V} {e : Nat} {s : PState V} {ls : List (List Nat)} (hat : At s.g.tab v) (g : Good s.g s.cl ls)
    (hval : ∀ x ∈ corners, Inside s.g.tab v x → v.four x.1 x.2 = e → ValOf s.g.tab ls v.primary (colAt s.g.tab v x) e) :
    ∃ s' ls', cornerLoop (baseOf s.g.tab) v e corners { s with lr := none, made := false } = .ok s' ∧ Done v [e] s ls s' ls' := by
  obtain ⟨s', ls', h1, I⟩ := Inv.loop hat g hval corners [] (fun x h => h) corners_nodup (Inv.zero g)
  refine ⟨s', ls', h1, ?_⟩
  rw [List.nil_append] at I
  have helt : ∀ x ∈ corners, Inside s.g.tab v x → v.four x.1 x.2 = e → e < s.g.count := by
    intro x hx hin he
    rw [g.count]
    exact (hval x hx hin he).lt hat.lt
  have hm : ∀ x : Nat × Nat, v.four x.1 x.2 ∈ [e] ↔ v.four x.1 x.2 = e := fun x => List.mem_singleton
  cases hlr : s'.lr with
  | none =>
    obtain ⟨a, -, c, -, f⟩ := I.start hlr
    subst c
    refine { good := I.good, nj := I.nj, ni := I.ni, nkg := I.nkg, full := fun h => h, count := by rw [a], moved := ?_, kept := ?_, others := ?_, whole := ?_, same := ?_ }
    · refine ⟨fun _ => 0, ?_, ?_⟩
      · intro x hx hin he
        exact absurd ((hm x).mp he) (f x hx hin)
      · intro x hx hin he
        exact absurd ((hm x).mp he) (f x hx hin)
    · intro P0 c0 w hw _
      rw [a]; exact hw
    · intro k q _ _
      rw [a]
    · intro q _
      exact ⟨0, fun k => by rw [a, add_zero]⟩
    · intro _
      rw [a]
  | some b =>
    obtain ⟨y, hyD, hyc, hyin, hye, hyr⟩ := I.first b hlr
    have hcount : s.g.count ≤ s'.g.count := by
      cases hmade : s'.made with
      | false => rw [(I.unmade hmade).2.2]
      | true => rw [(I.made b hlr hmade).2.1]; omega
    refine { good := I.good, nj := I.nj, ni := I.ni, nkg := I.nkg, full := I.full, count := hcount, moved := ?_, kept := ?_, others := ?_, whole := ?_, same := ?_ }
    · refine ⟨fun x => if v.right x.1 x.2 = b then e else s.g.count, ?_, ?_⟩
      · intro x hx hin he
        rw [hm] at he
        by_cases hr : v.right x.1 x.2 = b
        · simp only [if_pos hr]
          refine ⟨?_, Or.inl he.symm, ?_⟩
          · apply I.kept _ _ _ (hval x hx hin he)
            intro b' hb' z hz hzc hzin hze hzr
            rw [hlr] at hb'
            cases hb'
            rintro ⟨-, hcc⟩
            have := col_inj hat hx hin hzc hzin hcc
            subst this
            exact hzr hr
          · intro k
            rw [I.moved b hlr k, he, hr]
        · simp only [if_neg hr]
          obtain ⟨a1, a2⟩ := I.switched b hlr x hx hx hin he hr
          refine ⟨a2, Or.inr (le_refl _), ?_⟩
          intro k
          rw [(I.made b hlr a1).2.2.1 k, he, bnot_of_ne hr]
      · intro x hx hin he z hz hzin hze hw
        rw [hm] at he hze
        refine ⟨by rw [he, hze], ?_⟩
        have hlt := helt x hx hin he
        by_cases h1 : v.right x.1 x.2 = b <;> by_cases h2 : v.right z.1 z.2 = b
        · rw [h1, h2]
        · simp only [if_pos h1, if_neg h2] at hw; omega
        · simp only [if_neg h1, if_pos h2] at hw; omega
        · rw [bnot_of_ne h1, bnot_of_ne h2]
    · intro P0 c0 w hw hn
      apply I.kept P0 c0 w hw
      intro b' hb' z hz hzc hzin hze hzr
      exact hn z hzc hzin ((hm z).mpr hze)
    · intro k q hq hn
      have : q ≠ e := fun h => hn y hyc hyin ((hm y).mpr hye) (by rw [hye, h])
      exact I.others b hlr k q this hq
    · intro q hq
      by_cases hqe : q = e
      · subst hqe
        exact ⟨_, fun k => I.moved b hlr k⟩
      · exact ⟨0, fun k => by rw [I.others b hlr k q hqe hq, add_zero]⟩
    · intro hs
      cases hmade : s'.made with
      | false => exact (I.unmade hmade).1
      | true =>
        obtain ⟨-, -, -, z, hz, hzin, hze, hzr⟩ := I.made b hlr hmade
        have := hs z hz hzin ((hm z).mpr hze) y hyc hyin ((hm y).mpr hye) (by rw [hze, hye])
        rw [hyr] at this
        exact absurd this hzr

theorem inside_congr {t t' : Pillars.Grid} (hj : t'.nj = t.nj) (hi : t'.ni = t.ni) (v : Visit V) (x : Nat × Nat) :
    Inside t' v x ↔ Inside t v x := by
  unfold Inside; rw [hj, hi]

theorem col_congr {t t' : Pillars.Grid} (hi : t'.ni = t.ni) (v : Visit V) (x : Nat × Nat) : colAt t' v x = colAt t v x := by
  unfold colAt; rw [hi]

/-- for all of them -/
theorem all_done {v : Visit V} (es : List Nat) (hnd : es.Nodup) {s : PState V} {ls : List (List Nat)} (hat : At s.g.tab v)
    (g : Good s.g s.cl ls)
    (hval : ∀ x ∈ corners, Inside s.g.tab v x → v.four x.1 x.2 ∈ es →
      ValOf s.g.tab ls v.primary (colAt s.g.tab v x) (v.four x.1 x.2)) :
    ∃ s' ls', existLoop (baseOf s.g.tab) v es s = .ok s' ∧ Done v es s ls s' ls' := by
  induction es generalizing s ls with
  | nil =>
    refine ⟨s, ls, rfl, ?_⟩
    refine { good := g, nj := rfl, ni := rfl, nkg := rfl, full := id, count := le_refl _, moved := ?_, kept := fun _ _ _ h _ => h,
             others := fun _ _ _ _ => rfl, whole := fun q _ => ⟨0, fun k => (add_zero _).symm⟩, same := fun _ => rfl }
    refine ⟨fun _ => 0, ?_, ?_⟩
    · intro x _ _ he; exact (List.not_mem_nil he).elim
    · intro x _ _ he; exact (List.not_mem_nil he).elim
  | cons e es ih =>
    obtain ⟨s1, ls1, h1, d1⟩ := one_done (e := e) hat g (by
      intro x hx hin he
      have := hval x hx hin (by simp [he])
      rw [he] at this
      exact this)
    have heb : baseOf s1.g.tab = baseOf s.g.tab := by unfold baseOf; rw [d1.nj, d1.ni]
    have hIn := fun x => inside_congr d1.nj d1.ni v x
    have hCol := fun x => col_congr d1.ni v x
    have hne : e ∉ es := (List.nodup_cons.mp hnd).1
    have hat1 : At s1.g.tab v := ⟨by rw [d1.nj]; exact hat.nj, by rw [d1.ni]; exact hat.ni, by rw [d1.nj]; exact hat.j,
      by rw [d1.ni]; exact hat.i, by rw [d1.ni]; exact hat.primary⟩
    have hval1 : ∀ x ∈ corners, Inside s1.g.tab v x → v.four x.1 x.2 ∈ es →
        ValOf s1.g.tab ls1 v.primary (colAt s1.g.tab v x) (v.four x.1 x.2) := by
      intro x hx hin he
      rw [hIn] at hin
      rw [hCol]
      apply d1.kept _ _ _ (hval x hx hin (by simp [he]))
      intro y hy hyin hye
      rintro ⟨-, hcc⟩
      have := col_inj hat hx hin hy hyin hcc
      subst this
      rw [List.mem_singleton] at hye
      rw [hye] at he
      exact hne he
    obtain ⟨s2, ls2, h2, d2⟩ := ih (List.nodup_cons.mp hnd).2 hat1 d1.good hval1
    rw [heb] at h2
    refine ⟨s2, ls2, ?_, ?_⟩
    · rw [existLoop, h1]
      exact h2
    obtain ⟨w1, m1, n1⟩ := d1.moved
    obtain ⟨w2, m2, n2⟩ := d2.moved
    have hlt : ∀ x ∈ corners, Inside s.g.tab v x → v.four x.1 x.2 ∈ e :: es → v.four x.1 x.2 < s.g.count := by
      intro x hx hin he
      rw [g.count]
      exact (hval x hx hin he).lt hat.lt
    -- a column done first is left alone by the rest
    have hfirst : ∀ x ∈ corners, Inside s.g.tab v x → v.four x.1 x.2 = e →
        ValOf s2.g.tab ls2 v.primary (colAt s.g.tab v x) (w1 x) ∧ ∀ k, s2.g.pts k (w1 x) = s1.g.pts k (w1 x) := by
      intro x hx hin he
      obtain ⟨a1, a2, a3⟩ := m1 x hx hin (by simp [he])
      constructor
      · apply d2.kept _ _ _ a1
        intro y hy hyin hye
        rw [hIn] at hyin
        rw [hCol]
        rintro ⟨-, hcc⟩
        have := col_inj hat hx hin hy hyin hcc
        subst this
        rw [he] at hye
        exact hne hye
      · intro k
        apply d2.others
        · rw [d1.good.count]
          exact a1.lt (by rw [heb]; exact hat.lt)
        · intro y hy hyin hye
          rw [hIn] at hyin
          have h3 := hlt y hy hyin (by simp [hye])
          rcases a2 with a2 | a2
          · rw [a2, he]
            intro h
            rw [h] at hye
            exact hne hye
          · omega
    have hrest : ∀ x ∈ corners, Inside s.g.tab v x → v.four x.1 x.2 ∈ es → ∀ k,
        s1.g.pts k (v.four x.1 x.2) = s.g.pts k (v.four x.1 x.2) := by
      intro x hx hin he k
      apply d1.others k _ (hlt x hx hin (by simp [he]))
      intro y hy hyin hye h
      rw [List.mem_singleton] at hye
      rw [← h, hye] at he
      exact hne he
    refine { good := d2.good, nj := by rw [d2.nj, d1.nj], ni := by rw [d2.ni, d1.ni], nkg := by rw [d2.nkg, d1.nkg],
             full := fun h => d2.full (d1.full h),
             count := le_trans d1.count d2.count, moved := ?_, kept := ?_, others := ?_, whole := ?_, same := ?_ }
    · refine ⟨fun x => if v.four x.1 x.2 = e then w1 x else w2 x, ?_, ?_⟩
      · intro x hx hin he
        by_cases hxe : v.four x.1 x.2 = e
        · simp only [if_pos hxe]
          obtain ⟨a1, a2, a3⟩ := m1 x hx hin (by simp [hxe])
          obtain ⟨b1, b2⟩ := hfirst x hx hin hxe
          exact ⟨b1, a2, fun k => by rw [b2, a3]⟩
        · simp only [if_neg hxe]
          have hes : v.four x.1 x.2 ∈ es := by
            rcases List.mem_cons.mp he with h | h
            · exact absurd h hxe
            · exact h
          obtain ⟨a1, a2, a3⟩ := m2 x hx ((hIn x).mpr hin) hes
          rw [hCol] at a1
          refine ⟨a1, ?_, fun k => by rw [a3, hrest x hx hin hes]⟩
          rcases a2 with a2 | a2
          · exact Or.inl a2
          · exact Or.inr (le_trans d1.count a2)
      · intro x hx hin he y hy hyin hye hw
        -- a column done first and one done later
        have cross : ∀ x ∈ corners, Inside s.g.tab v x → v.four x.1 x.2 = e → ∀ y ∈ corners, Inside s.g.tab v y →
            v.four y.1 y.2 ∈ es → w1 x ≠ w2 y := by
          intro x hx hin hxe y hy hyin hye h
          obtain ⟨a1, a2, -⟩ := m1 x hx hin (by simp [hxe])
          have hwlt := a1.lt (by rw [heb]; exact hat.lt)
          rw [← d1.good.count] at hwlt
          obtain ⟨-, b2, -⟩ := m2 y hy ((hIn y).mpr hyin) hye
          have h3 := hlt y hy hyin (by simp [hye])
          rcases b2 with b2 | b2
          · rcases a2 with a2 | a2
            · rw [h, b2, hxe] at a2
              rw [a2] at hye
              exact hne hye
            · omega
          · omega
        by_cases hxe : v.four x.1 x.2 = e <;> by_cases hye' : v.four y.1 y.2 = e
        · simp only [if_pos hxe, if_pos hye'] at hw
          exact n1 x hx hin (by simp [hxe]) y hy hyin (by simp [hye']) hw
        · simp only [if_pos hxe, if_neg hye'] at hw
          exact absurd hw (cross x hx hin hxe y hy hyin ((List.mem_cons.mp hye).resolve_left hye'))
        · simp only [if_neg hxe, if_pos hye'] at hw
          exact absurd hw.symm (cross y hy hyin hye' x hx hin ((List.mem_cons.mp he).resolve_left hxe))
        · simp only [if_neg hxe, if_neg hye'] at hw
          exact n2 x hx ((hIn x).mpr hin) ((List.mem_cons.mp he).resolve_left hxe) y hy ((hIn y).mpr hyin)
            ((List.mem_cons.mp hye).resolve_left hye') hw
    · intro P0 c0 w hw hn
      apply d2.kept
      · apply d1.kept _ _ _ hw
        intro x hx hin he
        rw [List.mem_singleton] at he
        exact hn x hx hin (by simp [he])
      · intro x hx hin he
        rw [hIn] at hin
        rw [hCol]
        exact hn x hx hin (by simp [he])
    · intro k q hq hn
      rw [d2.others k q (by have := d1.count; omega), d1.others k q hq]
      · intro x hx hin he
        rw [List.mem_singleton] at he
        exact hn x hx hin (by simp [he])
      · intro x hx hin he
        rw [hIn] at hin
        exact hn x hx hin (by simp [he])
    · intro q hq
      obtain ⟨a, ha⟩ := d1.whole q hq
      obtain ⟨b, hb⟩ := d2.whole q (by have := d1.count; omega)
      exact ⟨a + b, fun k => by rw [hb, ha, add_assoc]⟩
    · intro hs
      rw [d2.same, d1.same]
      · intro x hx hin he y hy hyin hye
        rw [List.mem_singleton] at he hye
        exact hs x hx hin (by simp [he]) y hy hyin (by simp [hye])
      · intro x hx hin he y hy hyin hye
        rw [hIn] at hin hyin
        exact hs x hx hin (by simp [he]) y hy hyin (by simp [hye])

end Verif.AddFaults
