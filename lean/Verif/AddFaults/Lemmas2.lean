import Verif.AddFaults.Lemmas

namespace Verif.AddFaults
open Verif.Py Verif.Pillars Verif.CpGrid

variable {V : Type} [AddCommGroup V] [Module ℚ V]

/-! ## Pillars used by columns, as the lists change -/

theorem getD_append_left {l : List (List Nat)} {r : List (List Nat)} {n : Nat} (h : n < l.length) : (l ++ r).getD n [] = l.getD n [] := by
  rw [List.getD_eq_getElem?_getD, List.getD_eq_getElem?_getD, List.getElem?_append_left h]

/-- taking a column from a list leaves the others -/
theorem mem_removed {spi : List Nat} {ls : List (List Nat)} {P c x : Nat} {l : List Nat} (hP : spi[x]? = some P)
    (hl : ls[x]? = some l) {P0 c0 : Nat} (hne : ¬ (P0 = P ∧ c0 = c)) {n : Nat} (hn : spi[n]? = some P0) :
    c0 ∈ (ls.set x (l.erase c)).getD n [] ↔ c0 ∈ ls.getD n [] := by
  rw [List.getD_eq_getElem?_getD, List.getD_eq_getElem?_getD]
  by_cases hx : x = n
  · subst hx
    rw [hP] at hn
    cases hn
    rw [List.getElem?_set_self (List.getElem?_eq_some_iff.mp hl).1, hl, Option.getD_some, Option.getD_some]
    exact List.mem_erase_of_ne (fun e => hne ⟨rfl, e⟩)
  · rw [List.getElem?_set_ne hx]

theorem Val.new {base : Nat} {spi : List Nat} {ls : List (List Nat)} (h : spi.length = ls.length) (P c : Nat) :
    Val base (spi ++ [P]) (ls ++ [[c]]) P c (base + spi.length) := by
  refine Or.inl ⟨spi.length, rfl, by simp, ?_, ?_⟩
  · rw [h, List.getD_eq_getElem?_getD]
    simp
  · intro n' hn hs
    have := (List.getElem?_eq_some_iff.mp hs).1
    simp at this
    omega

theorem Val.more {base : Nat} {spi : List Nat} {ls : List (List Nat)} {l : List Nat} (h : spi.length = ls.length + 1) {P : Nat} (c : Nat)
    (hP : spi[ls.length]? = some P) : Val base spi (ls ++ [l ++ [c]]) P c (base + ls.length) := by
  refine Or.inl ⟨ls.length, rfl, hP, ?_, ?_⟩
  · rw [List.getD_eq_getElem?_getD]
    simp
  · intro n' hn hs
    have := (List.getElem?_eq_some_iff.mp hs).1
    omega

theorem Val.keep_new {base : Nat} {spi : List Nat} {ls : List (List Nat)} (hlen : spi.length = ls.length) {P c P0 c0 v : Nat}
    (h : Val base spi ls P0 c0 v) (hne : ¬ (P0 = P ∧ c0 = c)) : Val base (spi ++ [P]) (ls ++ [[c]]) P0 c0 v := by
  apply h.keep
  · intro n hn
    rw [List.getElem?_append_left (List.getElem?_eq_some_iff.mp hn).1]
    exact hn
  · intro n hn
    by_cases hl : n < spi.length
    · rw [List.getElem?_append_left hl] at hn
      rw [getD_append_left (by omega)]
      simp [hn]
    · have hb := (List.getElem?_eq_some_iff.mp hn).1
      simp at hb
      have : n = spi.length := by omega
      subst this
      have hPP : P0 = P := by simpa using hn.symm
      have : c0 ≠ c := fun e => hne ⟨hPP, e⟩
      rw [hlen, List.getD_eq_getElem?_getD]
      simp [this, ← hlen]

theorem Val.keep_more {base : Nat} {spi : List Nat} {ls : List (List Nat)} {l : List Nat} (hlen : spi.length = ls.length + 1)
    {P c P0 c0 v : Nat} (hP : spi[ls.length]? = some P)
    (h : Val base spi (ls ++ [l]) P0 c0 v) (hne : ¬ (P0 = P ∧ c0 = c)) : Val base spi (ls ++ [l ++ [c]]) P0 c0 v := by
  apply h.keep (fun n hn => hn)
  intro n hn
  by_cases hl : n < ls.length
  · rw [getD_append_left hl, getD_append_left hl]
    simp [hn]
  · have hb := (List.getElem?_eq_some_iff.mp hn).1
    have : n = ls.length := by omega
    subst this
    have hPP : P0 = P := by rw [hP] at hn; cases hn; rfl
    have : c0 ≠ c := fun e => hne ⟨hPP, e⟩
    rw [List.getD_eq_getElem?_getD, List.getD_eq_getElem?_getD]
    simp [this, hn]

/-! ## One pillar in use -/

/-- the number of natural pillars -/
def baseOf (t : Pillars.Grid) : Nat := (t.nj + 1) * (t.ni + 1)

/-- the column is one of the grid -/
def Inside (t : Pillars.Grid) (v : Visit V) (x : Nat × Nat) : Prop :=
  ¬ (v.pj = 0 ∧ x.1 = 0 ∨ v.pj = t.nj ∧ x.1 = 1) ∧ ¬ (v.pi = 0 ∧ x.2 = 0 ∨ v.pi = t.ni ∧ x.2 = 1)

/-- its index -/
def colAt (t : Pillars.Grid) (v : Visit V) (x : Nat × Nat) : Nat := (v.pj + x.1 - 1) * t.ni + (v.pi + x.2) - 1

structure Good (g : FGrid V) (cl : Nat) (ls : List (List Nat)) : Prop where
  nj : 0 < g.tab.nj
  ni : 0 < g.tab.ni
  tab : Tabulates g.tab ls
  count : g.count = baseOf g.tab + g.tab.spi.length
  cl : cl = g.tab.cols.length

structure At (t : Pillars.Grid) (v : Visit V) : Prop where
  nj : 0 < t.nj
  ni : 0 < t.ni
  j : v.pj ≤ t.nj
  i : v.pi ≤ t.ni
  primary : v.primary = v.pj * (t.ni + 1) + v.pi

abbrev ValOf (t : Pillars.Grid) (ls : List (List Nat)) (P c w : Nat) : Prop := Val (baseOf t) t.spi ls P c w

theorem corners_le {x : Nat × Nat} (h : x ∈ corners) : x.1 ≤ 1 ∧ x.2 ≤ 1 := by
  unfold corners at h
  simp at h
  rcases h with rfl | rfl | rfl | rfl <;> simp

theorem At.lt {t : Pillars.Grid} {v : Visit V} (h : At t v) : v.primary < baseOf t := by
  rw [h.primary]
  unfold baseOf
  have h1 := h.j
  have h2 := h.i
  calc v.pj * (t.ni + 1) + v.pi < v.pj * (t.ni + 1) + (t.ni + 1) := by omega
    _ = (v.pj + 1) * (t.ni + 1) := by ring
    _ ≤ (t.nj + 1) * (t.ni + 1) := Nat.mul_le_mul_right _ (by omega)

theorem inside_col {t : Pillars.Grid} {v : Visit V} (h : At t v) {x : Nat × Nat} (hx : x ∈ corners) (hin : Inside t v x) :
    v.pj + x.1 - 1 < t.nj ∧ v.pi + x.2 - 1 < t.ni ∧ 1 ≤ v.pj + x.1 ∧ 1 ≤ v.pi + x.2 ∧
      colAt t v x = (v.pj + x.1 - 1) * t.ni + (v.pi + x.2 - 1) ∧
      v.primary = naturalPillar t (v.pj + x.1 - 1) (v.pi + x.2 - 1) (1 - x.1) (1 - x.2) := by
  obtain ⟨a, b⟩ := corners_le hx
  obtain ⟨hin1, hin2⟩ := hin
  have h1 := h.j
  have h2 := h.i
  have h3 := h.nj
  have h4 := h.ni
  have c1 : v.pj + x.1 - 1 < t.nj := by omega
  have c2 : v.pi + x.2 - 1 < t.ni := by omega
  have c3 : 1 ≤ v.pj + x.1 := by omega
  have c4 : 1 ≤ v.pi + x.2 := by omega
  refine ⟨c1, c2, c3, c4, ?_, ?_⟩
  · unfold colAt
    omega
  · rw [h.primary]
    unfold naturalPillar
    have e1 : v.pj + x.1 - 1 + (1 - x.1) = v.pj := by omega
    have e2 : v.pi + x.2 - 1 + (1 - x.2) = v.pi := by omega
    rw [e1, e2]

theorem inside_near {t : Pillars.Grid} {v : Visit V} (h : At t v) {x : Nat × Nat} (hx : x ∈ corners) (hin : Inside t v x) :
    ∃ j i jp ip, j < t.nj ∧ i < t.ni ∧ jp ≤ 1 ∧ ip ≤ 1 ∧ colAt t v x = j * t.ni + i ∧ v.primary = naturalPillar t j i jp ip := by
  obtain ⟨a, b, -, -, e, f⟩ := inside_col h hx hin
  exact ⟨_, _, _, _, a, b, by omega, by omega, e, f⟩

theorem col_inj {t : Pillars.Grid} {v : Visit V} (h : At t v) {x y : Nat × Nat} (hx : x ∈ corners) (hin : Inside t v x)
    (hy : y ∈ corners) (hiny : Inside t v y) (he : colAt t v x = colAt t v y) : x = y := by
  obtain ⟨a1, b1, c1, d1, e1, -⟩ := inside_col h hx hin
  obtain ⟨a2, b2, c2, d2, e2, -⟩ := inside_col h hy hiny
  have p1 := div_mod_of (n := t.ni) (a := v.pi + x.2 - 1) (b := v.pj + x.1 - 1) b1
  have p2 := div_mod_of (n := t.ni) (a := v.pi + y.2 - 1) (b := v.pj + y.1 - 1) b2
  rw [← e1, he, e2] at p1
  have q1 := p1.1.symm.trans p2.1
  have q2 := p1.2.symm.trans p2.2
  ext <;> omega

/-- what is known while the columns around a pillar are gone through for one of the pillars in use there: `s0` and `ls0` are the
state and the lists before, `D` the columns gone through -/
structure Inv (v : Visit V) (e : Nat) (s0 : PState V) (ls0 : List (List Nat)) (D : List (Nat × Nat)) (s : PState V)
    (ls : List (List Nat)) : Prop where
  good : Good s.g s.cl ls
  nj : s.g.tab.nj = s0.g.tab.nj
  ni : s.g.tab.ni = s0.g.tab.ni
  nkg : s.g.nkg = s0.g.nkg
  full : (∀ l ∈ ls0, l ≠ []) → ∀ l ∈ ls, l ≠ []
  start : s.lr = none → s.g = s0.g ∧ s.cl = s0.cl ∧ ls = ls0 ∧ s.made = false ∧ ∀ x ∈ D, Inside s0.g.tab v x → v.four x.1 x.2 ≠ e
  first : ∀ b, s.lr = some b → ∃ x ∈ D, x ∈ corners ∧ Inside s0.g.tab v x ∧ v.four x.1 x.2 = e ∧ v.right x.1 x.2 = b
  orig : ∀ b, s.lr = some b → ∀ k, s.orig k = s0.g.pts k e
  moved : ∀ b, s.lr = some b → ∀ k, s.g.pts k e = s0.g.pts k e + v.throw b
  others : ∀ b, s.lr = some b → ∀ k q, q ≠ e → q < s0.g.count → s.g.pts k q = s0.g.pts k q
  unmade : s.made = false → s.g.tab = s0.g.tab ∧ ls = ls0 ∧ s.g.count = s0.g.count
  made : ∀ b, s.lr = some b → s.made = true → s.g.tab.spi = s0.g.tab.spi ++ [v.primary] ∧ s.g.count = s0.g.count + 1 ∧
    (∀ k, s.g.pts k s0.g.count = s0.g.pts k e + v.throw (!b)) ∧
    ∃ x ∈ D, Inside s0.g.tab v x ∧ v.four x.1 x.2 = e ∧ v.right x.1 x.2 ≠ b
  switched : ∀ b, s.lr = some b → ∀ x ∈ D, x ∈ corners → Inside s0.g.tab v x → v.four x.1 x.2 = e → v.right x.1 x.2 ≠ b →
    s.made = true ∧ ValOf s.g.tab ls v.primary (colAt s0.g.tab v x) s0.g.count
  kept : ∀ P0 c0 w, ValOf s0.g.tab ls0 P0 c0 w →
    (∀ b, s.lr = some b → ∀ x ∈ D, x ∈ corners → Inside s0.g.tab v x → v.four x.1 x.2 = e → v.right x.1 x.2 ≠ b →
      ¬ (P0 = v.primary ∧ c0 = colAt s0.g.tab v x)) → ValOf s.g.tab ls P0 c0 w

theorem bnot_of_ne {a b : Bool} (h : a ≠ b) : a = !b := by
  cases a <;> cases b <;> simp_all

theorem Inv.step {v : Visit V} {e : Nat} {s0 : PState V} {ls0 : List (List Nat)} {D : List (Nat × Nat)} {s : PState V}
    {ls : List (List Nat)} (I : Inv v e s0 ls0 D s ls) (hat : At s0.g.tab v) (g0 : Good s0.g s0.cl ls0)
    (hval : ∀ x ∈ corners, Inside s0.g.tab v x → v.four x.1 x.2 = e → ValOf s0.g.tab ls0 v.primary (colAt s0.g.tab v x) e)
    {x : Nat × Nat} (hx : x ∈ corners) (hD : x ∉ D) :
    ∃ s' ls', cornerStep (baseOf s0.g.tab) v e s x = .ok s' ∧ Inv v e s0 ls0 (D ++ [x]) s' ls' := by
  -- nothing to do for this column
  have idle : (¬ (Inside s0.g.tab v x ∧ v.four x.1 x.2 = e) ∨ s.lr = some (v.right x.1 x.2)) → Inv v e s0 ls0 (D ++ [x]) s ls := by
    intro hno
    have hmem : ∀ y, y ∈ D ++ [x] → y ∈ D ∨ y = x := by
      intro y hy
      simpa using hy
    refine { good := I.good, nj := I.nj, ni := I.ni, nkg := I.nkg, full := I.full, start := ?_, first := ?_, orig := I.orig, moved := I.moved,
             others := I.others, unmade := I.unmade, made := ?_, switched := ?_, kept := ?_ }
    · intro hlr
      obtain ⟨a, b, c, d, f⟩ := I.start hlr
      refine ⟨a, b, c, d, ?_⟩
      intro y hy hin
      rcases hmem y hy with hy | rfl
      · exact f y hy hin
      · rcases hno with hno | hno
        · exact fun he => hno ⟨hin, he⟩
        · rw [hlr] at hno; cases hno
    · intro b hb
      obtain ⟨y, h1, h2⟩ := I.first b hb
      exact ⟨y, by simp [h1], h2⟩
    · intro b hb hm
      obtain ⟨a, c, d, y, h1, h2⟩ := I.made b hb hm
      exact ⟨a, c, d, y, by simp [h1], h2⟩
    · intro b hb y hy hyc hin he hr
      rcases hmem y hy with hy | rfl
      · exact I.switched b hb y hy hyc hin he hr
      · rcases hno with hno | hno
        · exact absurd ⟨hin, he⟩ hno
        · rw [hb] at hno; cases hno; exact absurd rfl hr
    · intro P0 c0 w hw hn
      apply I.kept P0 c0 w hw
      intro b hb y hy
      exact hn b hb y (by simp [hy])
  unfold cornerStep
  dsimp only
  rw [I.nj, I.ni]
  by_cases h1 : v.pj = 0 ∧ x.1 = 0 ∨ v.pj = s0.g.tab.nj ∧ x.1 = 1
  · rw [if_pos h1]
    exact ⟨s, ls, rfl, idle (Or.inl fun h => h.1.1 h1)⟩
  rw [if_neg h1]
  by_cases h2 : v.pi = 0 ∧ x.2 = 0 ∨ v.pi = s0.g.tab.ni ∧ x.2 = 1
  · rw [if_pos h2]
    exact ⟨s, ls, rfl, idle (Or.inl fun h => h.1.2 h2)⟩
  rw [if_neg h2]
  by_cases h3 : v.four x.1 x.2 ≠ e
  · rw [if_pos h3]
    exact ⟨s, ls, rfl, idle (Or.inl fun h => h3 h.2)⟩
  rw [if_neg h3]
  push Not at h3
  have hin : Inside s0.g.tab v x := ⟨h1, h2⟩
  have hv0 := hval x hx hin h3
  have helt : e < s0.g.count := by
    rw [g0.count]
    exact hv0.lt hat.lt
  cases hlr : s.lr with
  | none =>
    dsimp only
    obtain ⟨a, b, c, d, f⟩ := I.start hlr
    refine ⟨_, ls, rfl, ?_⟩
    refine { good := ?_, nj := I.nj, ni := I.ni, nkg := I.nkg, full := I.full, start := ?_, first := ?_, orig := ?_, moved := ?_, others := ?_,
             unmade := ?_, made := ?_, switched := ?_, kept := ?_ }
    · exact ⟨I.good.nj, I.good.ni, I.good.tab, I.good.count, I.good.cl⟩
    · intro h; cases h
    · intro b' hb'
      cases hb'
      exact ⟨x, by simp, hx, hin, h3, rfl⟩
    · intro b' hb' k
      dsimp only
      rw [a]
    · intro b' hb' k
      cases hb'
      dsimp only
      rw [if_pos rfl, a]
    · intro b' hb' k q hq _
      dsimp only
      rw [if_neg hq, a]
    · intro _
      dsimp only
      rw [a]
      exact ⟨rfl, c, rfl⟩
    · intro b' _ hm
      dsimp only at hm
      rw [d] at hm
      cases hm
    · intro b' hb' y hy hyc hyin hye hyr
      cases hb'
      rcases List.mem_append.mp hy with hy | hy
      · exact absurd hye (f y hy hyin)
      · rw [List.mem_singleton] at hy
        subst hy
        exact absurd rfl hyr
    · intro P0 c0 w hw _
      dsimp only
      rw [a, c]
      exact hw
  | some b =>
    dsimp only
    by_cases hb : v.right x.1 x.2 = b
    · rw [if_pos hb]
      exact ⟨s, ls, rfl, idle (Or.inr (by rw [hlr, hb]))⟩
    rw [if_neg hb]
    have ecol : (v.pj + x.1 - 1) * s0.g.tab.ni + (v.pi + x.2) - 1 = colAt s0.g.tab v x := rfl
    rw [ecol]
    have ebase : baseOf s.g.tab = baseOf s0.g.tab := by unfold baseOf; rw [I.nj, I.ni]
    -- the column uses the pillar still
    have hvx : ValOf s.g.tab ls v.primary (colAt s0.g.tab v x) e := by
      apply I.kept _ _ _ hv0
      intro b' hb' y hy hyc hyin hye hyr
      rintro ⟨-, hcc⟩
      exact hD ((col_inj hat hx hin hyc hyin hcc) ▸ hy)
    -- and so does the first
    obtain ⟨y, hyD, hyc, hyin, hye, hyr⟩ := I.first b hlr
    have hyx : colAt s0.g.tab v y ≠ colAt s0.g.tab v x := fun hc => hD ((col_inj hat hyc hyin hx hin hc) ▸ hyD)
    have hvy : ValOf s.g.tab ls v.primary (colAt s0.g.tab v y) e := by
      apply I.kept _ _ _ (hval y hyc hyin hye)
      intro b' hb' z hz hzc hzin hze hzr
      rw [hlr] at hb'
      cases hb'
      rintro ⟨-, hcc⟩
      have := col_inj hat hyc hyin hzc hzin hcc
      subst this
      exact hzr hyr
    have hnear : ∃ j i jp ip, j < s.g.tab.nj ∧ i < s.g.tab.ni ∧ jp ≤ 1 ∧ ip ≤ 1 ∧ colAt s0.g.tab v x = j * s.g.tab.ni + i ∧
        v.primary = naturalPillar s.g.tab j i jp ip := by
      obtain ⟨j, i, jp, ip, a1, a2, a3, a4, a5, a6⟩ := inside_near hat hx hin
      refine ⟨j, i, jp, ip, by rw [I.nj]; exact a1, by rw [I.ni]; exact a2, a3, a4, by rw [I.ni]; exact a5, ?_⟩
      rw [a6]
      unfold naturalPillar
      rw [I.ni]
    -- the column is taken from the list of the pillar, if that is an extra one
    obtain ⟨t1, ls1, hr, ht1, hs1, hj1, hi1, hlen1, hmem1, hfull1⟩ : ∃ t1 ls1,
        (if e ≠ v.primary then removeCol s.g.tab v.primary (e - baseOf s0.g.tab) (colAt s0.g.tab v x) s.cl else .ok (s.g.tab, s.cl)) =
          .ok (t1, t1.cols.length) ∧ Tabulates t1 ls1 ∧ t1.spi = s.g.tab.spi ∧ t1.nj = s.g.tab.nj ∧ t1.ni = s.g.tab.ni ∧
          ls1.length = ls.length ∧
          (∀ P0 c0 n, ¬ (P0 = v.primary ∧ c0 = colAt s0.g.tab v x) → s.g.tab.spi[n]? = some P0 →
            (c0 ∈ ls1.getD n [] ↔ c0 ∈ ls.getD n [])) ∧ ((∀ l ∈ ls, l ≠ []) → ∀ l ∈ ls1, l ≠ []) := by
      by_cases hep : e ≠ v.primary
      · rw [if_pos hep]
        rcases hvx with ⟨n, rfl, a1, a2, a3⟩ | ⟨a, -⟩
        · rw [ebase, Nat.add_sub_cancel_left, I.good.cl]
          have hnl : n < ls.length := by
            have := (List.getElem?_eq_some_iff.mp a1).1
            rw [I.good.tab.size] at this
            exact this
          have hl : ls[n]? = some (ls.getD n []) := by
            rw [List.getD_eq_getElem?_getD, List.getElem?_eq_getElem hnl]
            rfl
          have hyl : colAt s0.g.tab v y ∈ ls.getD n [] := by
            rcases hvy with ⟨n', h', -, h'', -⟩ | ⟨h', -⟩
            · have : n = n' := by omega
              rw [this]
              exact h''
            · exact absurd h' hep
          obtain ⟨t1, b1, b2, b3, b4, b5⟩ := removeCol_ok I.good.tab a1 hl a2 hyl hyx
          refine ⟨t1, _, b1, b2, b3, b4, b5, by simp, ?_, ?_⟩
          · intro P0 c0 n' hne hn'
            exact mem_removed a1 hl hne hn'
          · intro hf l hmem
            rcases List.mem_or_eq_of_mem_set hmem with hm | rfl
            · exact hf l hm
            · exact List.ne_nil_of_mem ((List.mem_erase_of_ne hyx).mpr hyl)
        · exact absurd a hep
      · rw [if_neg hep]
        exact ⟨s.g.tab, ls, by rw [I.good.cl], I.good.tab, rfl, rfl, rfl, rfl, fun _ _ _ _ _ => Iff.rfl, id⟩
    rw [hr]
    dsimp only
    have hside : v.right x.1 x.2 = !b := bnot_of_ne hb
    have hnear1 : ∃ j i jp ip, j < t1.nj ∧ i < t1.ni ∧ jp ≤ 1 ∧ ip ≤ 1 ∧ colAt s0.g.tab v x = j * t1.ni + i ∧
        v.primary = naturalPillar t1 j i jp ip := by
      obtain ⟨j, i, jp, ip, a1, a2, a3, a4, a5, a6⟩ := hnear
      refine ⟨j, i, jp, ip, by rw [hj1]; exact a1, by rw [hi1]; exact a2, a3, a4, by rw [hi1]; exact a5, ?_⟩
      rw [a6]
      unfold naturalPillar
      rw [hi1]
    have hsz : t1.spi.length = ls1.length := ht1.size
    -- values kept when the column is taken away
    have hkeep1 : ∀ P0 c0 w, ValOf s.g.tab ls P0 c0 w → ¬ (P0 = v.primary ∧ c0 = colAt s0.g.tab v x) →
        Val (baseOf s0.g.tab) t1.spi ls1 P0 c0 w := by
      intro P0 c0 w hw hne
      unfold ValOf at hw
      rw [ebase] at hw
      apply hw.keep
      · intro n hn; rw [hs1]; exact hn
      · intro n hn
        rw [hs1] at hn
        rw [hmem1 P0 c0 n hne hn]
        simp [hn]
    cases hmade : s.made with
    | false =>
      rw [if_neg (by simp)]
      obtain ⟨um1, um2, um3⟩ := I.unmade hmade
      have hsp : t1.spi = s0.g.tab.spi := by rw [hs1, um1]
      refine ⟨_, ls1 ++ [[colAt s0.g.tab v x]], rfl, ?_⟩
      have hebase2 : (t1.nj + 1) * (t1.ni + 1) = baseOf s0.g.tab := by unfold baseOf; rw [hj1, hi1, I.nj, I.ni]
      refine { good := ?_, nj := ?_, ni := ?_, nkg := I.nkg, full := ?_, start := ?_, first := ?_, orig := ?_, moved := ?_, others := ?_,
               unmade := ?_, made := ?_, switched := ?_, kept := ?_ }
      · refine ⟨?_, ?_, ht1.new hnear1, ?_, ?_⟩
        · dsimp only; rw [hj1]; exact I.good.nj
        · dsimp only; rw [hi1]; exact I.good.ni
        · dsimp only
          have hb2 : baseOf { t1 with spi := t1.spi ++ [v.primary], cols := t1.cols ++ [colAt s0.g.tab v x], cl := t1.cl ++ [t1.cols.length + 1] } =
              baseOf s0.g.tab := hebase2
          rw [hb2, um3, g0.count, List.length_append, hsp]
          rfl
        · dsimp only
          rw [List.length_append]
          rfl
      · dsimp only; rw [hj1, I.nj]
      · dsimp only; rw [hi1, I.ni]
      · intro hf l hl
        rcases List.mem_append.mp hl with hl | hl
        · exact hfull1 (I.full hf) l hl
        · rw [List.mem_singleton] at hl
          rw [hl]
          simp
      · intro h; cases h
      · intro b' hb'
        cases hb'
        obtain ⟨z, z1, z2⟩ := I.first b hlr
        exact ⟨z, by simp [z1], z2⟩
      · intro b' hb'
        cases hb'
        exact I.orig b hlr
      · intro b' hb' k
        cases hb'
        dsimp only
        rw [if_neg (by omega)]
        exact I.moved b hlr k
      · intro b' hb' k q hq hlt
        cases hb'
        dsimp only
        rw [if_neg (by omega)]
        exact I.others b hlr k q hq hlt
      · intro h; cases h
      · intro b' hb' _
        cases hb'
        dsimp only
        refine ⟨by rw [hsp], by rw [um3], ?_, x, by simp, hin, h3, hb⟩
        intro k
        rw [if_pos um3.symm, I.orig b hlr, hside]
      · intro b' hb' z hz hzc hzin hze hzr
        refine ⟨rfl, ?_⟩
        cases hb'
        dsimp only
        rcases List.mem_append.mp hz with hz | hz
        · obtain ⟨hm, -⟩ := I.switched b hlr z hz hzc hzin hze hzr
          rw [hmade] at hm
          cases hm
        · rw [List.mem_singleton] at hz
          subst hz
          have hnew := Val.new (base := baseOf s0.g.tab) hsz v.primary (colAt s0.g.tab v z)
          have ecnt : s0.g.count = baseOf s0.g.tab + t1.spi.length := by rw [g0.count, hsp]
          unfold ValOf
          dsimp only
          rw [ecnt]
          have : baseOf { t1 with spi := t1.spi ++ [v.primary], cols := t1.cols ++ [colAt s0.g.tab v z], cl := t1.cl ++ [t1.cols.length + 1] } =
              baseOf s0.g.tab := hebase2
          rw [this]
          exact hnew
      · intro P0 c0 w hw hn
        dsimp only at hn
        have hne : ¬ (P0 = v.primary ∧ c0 = colAt s0.g.tab v x) := hn b rfl x (by simp) hx hin h3 hb
        have h4 : ValOf s.g.tab ls P0 c0 w := by
          apply I.kept P0 c0 w hw
          intro b' hb' z hz
          rw [hlr] at hb'
          cases hb'
          exact hn b rfl z (by simp [hz])
        have h5 := (hkeep1 P0 c0 w h4 hne).keep_new hsz hne
        unfold ValOf
        have : baseOf { t1 with spi := t1.spi ++ [v.primary], cols := t1.cols ++ [colAt s0.g.tab v x], cl := t1.cl ++ [t1.cols.length + 1] } =
            baseOf s0.g.tab := hebase2
        dsimp only
        rw [this]
        exact h5
    | true =>
      rw [if_pos rfl]
      obtain ⟨md1, md2, md3, md4⟩ := I.made b hlr hmade
      have hsp : t1.spi = s0.g.tab.spi ++ [v.primary] := by rw [hs1, md1]
      have hlen : ls1.length = s0.g.tab.spi.length + 1 := by rw [← hsz, hsp]; simp
      obtain ⟨A, l, rfl⟩ : ∃ A l, ls1 = A ++ [l] := by
        refine ⟨ls1.dropLast, ls1.getLast (by intro h; rw [h] at hlen; simp at hlen), ?_⟩
        rw [List.dropLast_append_getLast]
      have hA : A.length = s0.g.tab.spi.length := by simpa using hlen
      have hPA : t1.spi[A.length]? = some v.primary := by rw [hsp, hA]; simp
      have hsz' : t1.spi.length = A.length + 1 := by rw [hsz]; simp
      have hebase2 : (t1.nj + 1) * (t1.ni + 1) = baseOf s0.g.tab := by unfold baseOf; rw [hj1, hi1, I.nj, I.ni]
      refine ⟨_, A ++ [l ++ [colAt s0.g.tab v x]], rfl, ?_⟩
      have hb2 : baseOf { t1 with cols := t1.cols ++ [colAt s0.g.tab v x], cl := t1.cl.dropLast ++ [t1.cols.length + 1] } =
          baseOf s0.g.tab := hebase2
      refine { good := ?_, nj := ?_, ni := ?_, nkg := I.nkg, full := ?_, start := ?_, first := ?_, orig := ?_, moved := ?_, others := ?_,
               unmade := ?_, made := ?_, switched := ?_, kept := ?_ }
      · refine ⟨?_, ?_, ht1.more hPA hnear1, ?_, ?_⟩
        · dsimp only; rw [hj1]; exact I.good.nj
        · dsimp only; rw [hi1]; exact I.good.ni
        · dsimp only
          rw [hb2, md2, g0.count, hsp, List.length_append]
          rfl
        · dsimp only
          rw [List.length_append]
          rfl
      · dsimp only; rw [hj1, I.nj]
      · dsimp only; rw [hi1, I.ni]
      · intro hf l' hl'
        rcases List.mem_append.mp hl' with hl' | hl'
        · exact hfull1 (I.full hf) l' (by simp [hl'])
        · rw [List.mem_singleton] at hl'
          rw [hl']
          simp
      · intro h; cases h
      · intro b' hb'
        cases hb'
        obtain ⟨z, z1, z2⟩ := I.first b hlr
        exact ⟨z, by simp [z1], z2⟩
      · intro b' hb'
        cases hb'
        exact I.orig b hlr
      · intro b' hb'
        cases hb'
        exact I.moved b hlr
      · intro b' hb'
        cases hb'
        exact I.others b hlr
      · intro h
        cases h
      · intro b' hb' _
        cases hb'
        dsimp only
        obtain ⟨z, z1, z2⟩ := md4
        exact ⟨hsp, md2, md3, z, by simp [z1], z2⟩
      · intro b' hb' z hz hzc hzin hze hzr
        refine ⟨rfl, ?_⟩
        cases hb'
        dsimp only
        unfold ValOf
        dsimp only
        rw [hb2]
        by_cases hzx : z = x
        · subst hzx
          have hnew := Val.more (base := baseOf s0.g.tab) (l := l) hsz' (colAt s0.g.tab v z) hPA
          rw [g0.count, ← hA]
          exact hnew
        · have hz' : z ∈ D := by
            rcases List.mem_append.mp hz with hz | hz
            · exact hz
            · rw [List.mem_singleton] at hz
              exact absurd hz hzx
          obtain ⟨-, h4⟩ := I.switched b hlr z hz' hzc hzin hze hzr
          have hne : ¬ (v.primary = v.primary ∧ colAt s0.g.tab v z = colAt s0.g.tab v x) :=
            fun hc => hzx (col_inj hat hzc hzin hx hin hc.2)
          exact (hkeep1 _ _ _ h4 hne).keep_more hsz' hPA hne
      · intro P0 c0 w hw hn
        dsimp only at hn
        have hne : ¬ (P0 = v.primary ∧ c0 = colAt s0.g.tab v x) := hn b rfl x (by simp) hx hin h3 hb
        have h4 : ValOf s.g.tab ls P0 c0 w := by
          apply I.kept P0 c0 w hw
          intro b' hb' z hz
          rw [hlr] at hb'
          cases hb'
          exact hn b rfl z (by simp [hz])
        have h5 := (hkeep1 P0 c0 w h4 hne).keep_more hsz' hPA hne
        unfold ValOf
        dsimp only
        rw [hb2]
        exact h5

end Verif.AddFaults
