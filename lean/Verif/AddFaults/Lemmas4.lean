import Verif.AddFaults.Lemmas3
import Mathlib.Tactic.Module

namespace Verif.AddFaults
open Verif.Py Verif.Pillars Verif.CpGrid

variable {V : Type} [AddCommGroup V] [Module ℚ V]

theorem foursome_some {t : Pillars.Grid} {j i : Nat} {r : Option Foursome} (h : pillarFoursome t j i false = .ok r) : ∃ f, r = some f := by
  unfold pillarFoursome at h
  dsimp only at h
  split at h
  · cases h; exact ⟨_, rfl⟩
  · split at h
    · cases h; exact ⟨_, rfl⟩
    · split at h
      · cases h
      · split at h
        · split at h
          · cases h
          · cases h; exact ⟨_, rfl⟩
        · cases h

theorem Tabulates.last {t : Pillars.Grid} {ls : List (List Nat)} (h : Tabulates t ls) (hne : t.spi ≠ []) :
    t.cl.getLast? = some t.cols.length := by
  have hl : ls ≠ [] := by
    intro e
    have := h.size
    rw [e] at this
    exact hne (List.length_eq_zero_iff.mp this)
  have hlp : 0 < ls.length := List.length_pos_of_ne_nil hl
  rw [List.getLast?_eq_getElem?, h.cum, cumLengths_length, cumLengths_get 0 ls _ (by omega), show ls.length - 1 + 1 = ls.length by omega,
    List.take_length, Nat.zero_add, h.flat, List.length_flatten]

/-- the sides given for a path -/
theorem sides_ok {t : Pillars.Grid} {l : List (Nat × Nat)} (h : IsPath t l) {x : Nat} (hx : x < l.length) :
    ∃ r, GridFns.leftRightFoursome (l.map fun p => ((p.1 : Int), (p.2 : Int))) x = .ok r ∧
      ∀ jp ip, jp < 2 → ip < 2 → (GridFns.marked r jp ip = true ↔ GridFns.OnRight (arriving l x) (leaving l x) (GridFns.colDir jp ip)) := by
  have hself : ∀ d q : GridFns.Vec, GridFns.OnRight d d q ↔ 0 < GridFns.cross d q := by
    intro d q
    unfold GridFns.OnRight
    have : ¬ 0 < GridFns.cross d d := by unfold GridFns.cross; have := mul_comm d.2 d.1; omega
    rw [if_neg this, or_self]
  have hget : ∀ n (hn : n < l.length), (l.map fun p => ((p.1 : Int), (p.2 : Int)))[n]? = some (((l[n]).1 : Int), ((l[n]).2 : Int)) := by
    intro n hn
    rw [List.getElem?_map, List.getElem?_eq_getElem hn]
    rfl
  have hstep : ∀ n (hn : n + 1 < l.length), stepAt l n = GridFns.sub (((l[n + 1]).1 : Int), ((l[n + 1]).2 : Int)) (((l[n]).1 : Int), ((l[n]).2 : Int)) ∧
      GridFns.IsStep (stepAt l n) := by
    intro n hn
    have e : stepAt l n = (((l[n + 1]).1 : Int) - (l[n]).1, ((l[n + 1]).2 : Int) - (l[n]).2) := by
      unfold stepAt
      rw [List.getD_eq_getElem?_getD, List.getD_eq_getElem?_getD, List.getElem?_eq_getElem hn,
        List.getElem?_eq_getElem (show n < l.length by omega)]
      rfl
    refine ⟨e, ?_⟩
    rw [e]
    exact h.steps n _ _ (List.getElem?_eq_getElem _) (List.getElem?_eq_getElem hn)
  have h2 := h.two
  by_cases h0 : x = 0
  · subst h0
    have ea : arriving l 0 = stepAt l 0 := rfl
    have el : leaving l 0 = stepAt l 0 := by unfold leaving; rw [if_neg (by omega)]
    rw [ea, el]
    simp only [hself]
    obtain ⟨e, hs⟩ := hstep 0 (by omega)
    rw [e] at hs ⊢
    clear hget hstep ea el e
    match l, h2 with
    | a :: b :: l, _ =>
      exact (GridFns.C45_ends_of_path (l.map fun p => ((p.1 : Int), (p.2 : Int))) ((a.1 : Int), (a.2 : Int)) ((b.1 : Int), (b.2 : Int))).1 hs
  · obtain ⟨p, rfl⟩ : ∃ p, x = p + 1 := ⟨x - 1, by omega⟩
    have ea : arriving l (p + 1) = stepAt l p := by unfold arriving; rw [if_neg h0]; rfl
    rw [ea]
    obtain ⟨e, hs⟩ := hstep p hx
    by_cases hl : p + 1 + 1 = l.length
    · have el : leaving l (p + 1) = stepAt l p := by unfold leaving; rw [if_pos hl]; rfl
      rw [el]
      simp only [hself]
      rw [e] at hs ⊢
      refine (GridFns.C45_ends_of_path _ _ _).2 p (hget p (by omega)) (hget (p + 1) hx) ?_ hs
      rw [List.getElem?_eq_none (by simp; omega)]
    · have el : leaving l (p + 1) = stepAt l (p + 1) := by unfold leaving; rw [if_neg hl]
      rw [el]
      obtain ⟨e', hs'⟩ := hstep (p + 1) (by omega)
      rw [e] at hs ⊢
      rw [e'] at hs' ⊢
      refine (GridFns.C45_columns_on_the_right _ p _ _ _ (hget p (by omega)) (hget (p + 1) hx) (hget (p + 2) (by omega)) hs hs').1 ?_
      intro hc
      have hne := h.onward p _ _ (List.getElem?_eq_getElem (by omega)) (List.getElem?_eq_getElem (show p + 2 < l.length by omega))
      apply hne
      simp only [Prod.mk.injEq] at hc
      obtain ⟨c1, c2⟩ := hc
      have d1 := Int.ofNat_inj.mp c1
      have d2 := Int.ofNat_inj.mp c2
      exact Prod.ext d1.symm d2.symm

theorem mem_uniques {f : Foursome} {x : Nat × Nat} (hx : x ∈ corners) : f x.1 x.2 ∈ uniques f := by
  unfold uniques
  rw [List.mem_insertionSort, List.mem_dedup]
  exact List.mem_map.mpr ⟨x, hx, rfl⟩

theorem uniques_nodup (f : Foursome) : (uniques f).Nodup := by
  unfold uniques
  exact (List.perm_insertionSort _ _).nodup_iff.mpr (List.nodup_dedup _)

/-- two columns which use the same pillar at pillar number `x` of a path are on the same side of it -/
def Sep (t : Pillars.Grid) (ls : List (List Nat)) (l : List (Nat × Nat)) (x : Nat) : Prop :=
  ∀ j i jp ip j' i' jp' ip' w, j < t.nj → i < t.ni → jp ≤ 1 → ip ≤ 1 → j' < t.nj → i' < t.ni → jp' ≤ 1 → ip' ≤ 1 →
    l[x]? = some (j + jp, i + ip) → l[x]? = some (j' + jp', i' + ip') → ¬ Tip t l x (j + jp, i + ip) →
    ValOf t ls (naturalPillar t j i jp ip) (j * t.ni + i) w → ValOf t ls (naturalPillar t j' i' jp' ip') (j' * t.ni + i') w →
    (ColumnOnRight l x jp ip ↔ ColumnOnRight l x jp' ip')

/-- what is done for some of the pillars of a path: `mv` is how much the corners are moved -/
structure Moved (unit : V → V) (straight : V) (mv : Nat → Nat → Nat → Nat → ℚ) (s : PState V) (ls : List (List Nat)) (s' : PState V)
    (ls' : List (List Nat)) : Prop where
  good : Good s'.g s'.cl ls'
  nj : s'.g.tab.nj = s.g.tab.nj
  ni : s'.g.tab.ni = s.g.tab.ni
  nkg : s'.g.nkg = s.g.nkg
  full : (∀ l ∈ ls, l ≠ []) → ∀ l ∈ ls', l ≠ []
  count : s.g.count ≤ s'.g.count
  whole : ∀ q, q < s.g.count → ∃ d : V, ∀ k, s'.g.pts k q = s.g.pts k q + d
  corner : ∀ j i jp ip w, j < s.g.tab.nj → i < s.g.tab.ni → jp ≤ 1 → ip ≤ 1 →
    ValOf s.g.tab ls (naturalPillar s.g.tab j i jp ip) (j * s.g.tab.ni + i) w →
    ∃ w', ValOf s'.g.tab ls' (naturalPillar s.g.tab j i jp ip) (j * s.g.tab.ni + i) w' ∧
      ∀ k, s'.g.pts k w' = s.g.pts k w + mv j i jp ip • pillarVector unit straight s.g (naturalPillar s.g.tab j i jp ip)
  finer : ∀ j i jp ip j' i' jp' ip' w w' u, j < s.g.tab.nj → i < s.g.tab.ni → jp ≤ 1 → ip ≤ 1 → j' < s.g.tab.nj → i' < s.g.tab.ni →
    jp' ≤ 1 → ip' ≤ 1 → naturalPillar s.g.tab j i jp ip = naturalPillar s.g.tab j' i' jp' ip' →
    ValOf s.g.tab ls (naturalPillar s.g.tab j i jp ip) (j * s.g.tab.ni + i) w →
    ValOf s.g.tab ls (naturalPillar s.g.tab j' i' jp' ip') (j' * s.g.tab.ni + i') w' →
    ValOf s'.g.tab ls' (naturalPillar s.g.tab j i jp ip) (j * s.g.tab.ni + i) u →
    ValOf s'.g.tab ls' (naturalPillar s.g.tab j' i' jp' ip') (j' * s.g.tab.ni + i') u → w = w'

theorem natural_lt {t : Pillars.Grid} {j i jp ip : Nat} (hj : j < t.nj) (hi : i < t.ni) (hjp : jp ≤ 1) (hip : ip ≤ 1) :
    naturalPillar t j i jp ip < baseOf t := by
  unfold naturalPillar baseOf
  calc (j + jp) * (t.ni + 1) + (i + ip) < (j + jp) * (t.ni + 1) + (t.ni + 1) := by omega
    _ = (j + jp + 1) * (t.ni + 1) := by ring
    _ ≤ (t.nj + 1) * (t.ni + 1) := Nat.mul_le_mul_right _ (by omega)

theorem Moved.vector {unit : V → V} {straight : V} {mv : Nat → Nat → Nat → Nat → ℚ} {s s' : PState V} {ls ls' : List (List Nat)}
    (h : Moved unit straight mv s ls s' ls') {P : Nat} (hP : P < s.g.count) :
    pillarVector unit straight s'.g P = pillarVector unit straight s.g P := by
  unfold pillarVector
  rw [h.nkg]
  split
  · rfl
  · obtain ⟨d, hd⟩ := h.whole P hP
    rw [hd, hd]
    congr 1
    module

/-- one pillar of the path -/
theorem visit_done (unit : V → V) (straight : V) (left right : ℚ) {s : PState V} {ls : List (List Nat)} (g : Good s.g s.cl ls)
    {l : List (Nat × Nat)} (hp : IsPath s.g.tab l) {x : Nat} (hx : x < l.length) :
    ∃ s' ls', visitPillar unit straight left right l s x = .ok s' ∧
      Moved unit straight (fun j i jp ip => moveAt s.g.tab l left right j i jp ip x) s ls s' ls' ∧
      Sep s'.g.tab ls' l x ∧ (Sep s.g.tab ls l x → s'.g.tab = s.g.tab) := by
  obtain ⟨⟨pj, pi⟩, hpx⟩ : ∃ p, l[x]? = some p := ⟨_, List.getElem?_eq_getElem hx⟩
  obtain ⟨hpj, hpi⟩ := hp.within (pj, pi) (List.mem_of_getElem? hpx)
  dsimp only at hpj hpi
  have houter : ((pj = 0 ∨ pj = s.g.tab.nj) ∨ (pi = 0 ∨ pi = s.g.tab.ni)) ↔ Outer s.g.tab (pj, pi) := by
    unfold Outer; dsimp only; tauto
  unfold visitPillar
  rw [hpx]
  dsimp only
  by_cases htip : (x = 0 ∨ x + 1 = l.length) ∧ ¬ ((pj = 0 ∨ pj = s.g.tab.nj) ∨ (pi = 0 ∨ pi = s.g.tab.ni))
  · rw [if_pos htip]
    have hT : Tip s.g.tab l x (pj, pi) := ⟨htip.1, fun h => htip.2 (houter.mpr h)⟩
    refine ⟨s, ls, rfl, ?_, ?_, fun _ => rfl⟩
    · refine { good := g, nj := rfl, ni := rfl, nkg := rfl, full := id, count := le_refl _, whole := fun q _ => ⟨0, fun k => (add_zero _).symm⟩,
               corner := ?_, finer := ?_ }
      · intro j i jp ip w _ _ _ _ hw
        refine ⟨w, hw, fun k => ?_⟩
        have : moveAt s.g.tab l left right j i jp ip x = 0 := by
          unfold moveAt
          rw [if_neg]
          rintro ⟨h1, h2⟩
          rw [hpx] at h1
          cases h1
          exact h2 hT
        rw [this, zero_smul, add_zero]
      · intro j i jp ip j' i' jp' ip' w w' u _ _ _ _ _ _ _ _ _ h1 h2 h3 h4
        rw [h1.unique h3, h2.unique h4]
    · intro j i jp ip j' i' jp' ip' w _ _ _ _ _ _ _ _ h1 _ h3
      rw [hpx] at h1
      cases h1
      exact absurd hT h3
  rw [if_neg htip]
  have hnT : ¬ Tip s.g.tab l x (pj, pi) := fun h => htip ⟨h.1, fun h' => h.2 (houter.mp h')⟩
  have hPlt : pj * (s.g.tab.ni + 1) + pi < baseOf s.g.tab := by
    unfold baseOf
    calc pj * (s.g.tab.ni + 1) + pi < pj * (s.g.tab.ni + 1) + (s.g.tab.ni + 1) := by omega
      _ = (pj + 1) * (s.g.tab.ni + 1) := by ring
      _ ≤ (s.g.tab.nj + 1) * (s.g.tab.ni + 1) := Nat.mul_le_mul_right _ (by omega)
  rw [if_neg (by rw [g.count]; omega)]
  obtain ⟨m, hm⟩ := mapping_ok g.tab g.ni
  obtain ⟨r0, hr0, hr⟩ := C31_foursome_agrees hm g.tab.last (j0 := pj) (i0 := pi) hpi false
  obtain ⟨four, rfl⟩ := foursome_some hr0
  rw [hr0]
  dsimp only at hr ⊢
  obtain ⟨r, hlr, hsides⟩ := sides_ok hp hx
  rw [hlr]
  dsimp only
  set v : Visit V := { pj := pj, pi := pi, primary := pj * (s.g.tab.ni + 1) + pi, four := four,
                       right := fun jp ip => (r.getD jp []).getD ip false,
                       throwR := right • pillarVector unit straight s.g (pj * (s.g.tab.ni + 1) + pi),
                       throwL := left • pillarVector unit straight s.g (pj * (s.g.tab.ni + 1) + pi) } with hv
  have hat : At s.g.tab v := ⟨g.nj, g.ni, hpj, hpi, rfl⟩
  -- the pillars found around this one are those the columns use
  have hval : ∀ y ∈ corners, Inside s.g.tab v y → v.four y.1 y.2 ∈ uniques four →
      ValOf s.g.tab ls v.primary (colAt s.g.tab v y) (v.four y.1 y.2) := by
    intro y hy hin _
    obtain ⟨a1, a2, a3, a4, a5, a6⟩ := inside_col hat hy hin
    obtain ⟨c1, c2⟩ := corners_le hy
    have h3 := hr _ _ (1 - y.1) (1 - y.2) a1 a2 (by omega) (by omega) (by change _ = v.pj; omega) (by change _ = v.pi; omega)
    have e1 : 1 - (1 - y.1) = y.1 := by omega
    have e2 : 1 - (1 - y.2) = y.2 := by omega
    rw [e1, e2] at h3
    have h4 := mapping_Val g.tab hm (j := v.pj + y.1 - 1) (i := v.pi + y.2 - 1) (jp := 1 - y.1) (ip := 1 - y.2) a2 (by omega)
    rw [← h3, ← a6, ← a5] at h4
    exact h4
  obtain ⟨s', ls', hrun, d⟩ := all_done (uniques four) (uniques_nodup four) hat g hval
  refine ⟨s', ls', hrun, ?_⟩
  obtain ⟨wf, mv1, mv2⟩ := d.moved
  -- the column at a corner of which the pillar is, as one of the four
  have hcol : ∀ j i jp ip, j < s.g.tab.nj → i < s.g.tab.ni → jp ≤ 1 → ip ≤ 1 → j + jp = pj → i + ip = pi →
      ∃ y ∈ corners, Inside s.g.tab v y ∧ y = (1 - jp, 1 - ip) ∧ colAt s.g.tab v y = j * s.g.tab.ni + i ∧
        v.primary = naturalPillar s.g.tab j i jp ip ∧ (v.right y.1 y.2 = true ↔ ColumnOnRight l x jp ip) ∧
        v.four y.1 y.2 ∈ uniques four := by
    intro j i jp ip hj hi hjp hip ej ei
    have hyc : ((1 - jp, 1 - ip) : Nat × Nat) ∈ corners := by
      unfold corners
      have h1 : jp = 0 ∨ jp = 1 := by omega
      have h2 : ip = 0 ∨ ip = 1 := by omega
      rcases h1 with rfl | rfl <;> rcases h2 with rfl | rfl <;> simp
    have hin : Inside s.g.tab v (1 - jp, 1 - ip) := by
      have e1 : v.pj = pj := rfl
      have e2 : v.pi = pi := rfl
      unfold Inside
      dsimp only
      rw [e1, e2]
      constructor <;> omega
    refine ⟨(1 - jp, 1 - ip), hyc, hin, rfl, ?_, ?_, ?_, mem_uniques (f := four) hyc⟩
    · rw [(inside_col hat hyc hin).2.2.2.2.1]
      have e1 : v.pj + (1 - jp) - 1 = j := by change pj + (1 - jp) - 1 = j; omega
      have e2 : v.pi + (1 - ip) - 1 = i := by change pi + (1 - ip) - 1 = i; omega
      dsimp only
      rw [e1, e2]
    · change pj * (s.g.tab.ni + 1) + pi = (j + jp) * (s.g.tab.ni + 1) + (i + ip)
      rw [ej, ei]
    · exact hsides (1 - jp) (1 - ip) (by omega) (by omega)
  have hother : ∀ j i jp ip, i < s.g.tab.ni → ip ≤ 1 → ¬ (j + jp = pj ∧ i + ip = pi) → naturalPillar s.g.tab j i jp ip ≠ v.primary := by
    intro j i jp ip hi hip hne h
    have h1 := natural_div_mod (t := s.g.tab) (j := j) (jp := jp) hi hip
    have h2 := div_mod_of (n := s.g.tab.ni + 1) (a := pi) (b := pj) (by omega)
    have h3 : v.primary = pj * (s.g.tab.ni + 1) + pi := rfl
    rw [h, h3, h2.1, h2.2] at h1
    exact hne ⟨h1.1.symm, h1.2.symm⟩
  have heb : baseOf s'.g.tab = baseOf s.g.tab := by unfold baseOf; rw [d.nj, d.ni]
  have hnat : ∀ j i jp ip, naturalPillar s'.g.tab j i jp ip = naturalPillar s.g.tab j i jp ip := by
    intro j i jp ip; unfold naturalPillar; rw [d.ni]
  refine ⟨?_, ?_, ?_⟩
  · refine { good := d.good, nj := d.nj, ni := d.ni, nkg := d.nkg, full := d.full, count := d.count, whole := d.whole, corner := ?_, finer := ?_ }
    · intro j i jp ip w hj hi hjp hip hw
      by_cases hc : j + jp = pj ∧ i + ip = pi
      · obtain ⟨y, hy, hin, rfl, hcy, hPy, hry, hmy⟩ := hcol j i jp ip hj hi hjp hip hc.1 hc.2
        obtain ⟨a1, -, a3⟩ := mv1 _ hy hin hmy
        have h0 := hval _ hy hin hmy
        rw [hcy, hPy] at a1 h0
        refine ⟨_, a1, fun k => ?_⟩
        rw [a3 k, hw.unique h0]
        congr 1
        unfold moveAt
        rw [if_pos ⟨by rw [hpx, hc.1, hc.2], by rw [hc.1, hc.2]; exact hnT⟩]
        unfold Visit.throw
        by_cases hR : ColumnOnRight l x jp ip
        · rw [if_pos (hry.mpr hR), if_pos hR, ← hPy]
        · rw [if_neg (fun h => hR (hry.mp h)), if_neg hR, ← hPy]
      · refine ⟨w, d.kept _ _ _ hw ?_, fun k => ?_⟩
        · intro y _ _ _
          rintro ⟨h, -⟩
          exact hother j i jp ip hi hip hc h
        · have : moveAt s.g.tab l left right j i jp ip x = 0 := by
            unfold moveAt
            rw [if_neg]
            rintro ⟨h1, -⟩
            rw [hpx] at h1
            cases h1
            exact hc ⟨rfl, rfl⟩
          rw [this, zero_smul, add_zero]
          apply d.others
          · rw [g.count]
            exact hw.lt (natural_lt hj hi hjp hip)
          · intro y hy hin hmy
            exact (hval y hy hin hmy).ne hw hat.lt (natural_lt hj hi hjp hip) (hother j i jp ip hi hip hc).symm
    · intro j i jp ip j' i' jp' ip' w w' u hj hi hjp hip hj' hi' hjp' hip' hPP h1 h2 h3 h4
      by_cases hc : j + jp = pj ∧ i + ip = pi
      · by_cases hc' : j' + jp' = pj ∧ i' + ip' = pi
        · obtain ⟨y, hy, hin, -, hcy, hPy, -, hmy⟩ := hcol j i jp ip hj hi hjp hip hc.1 hc.2
          obtain ⟨y', hy', hin', -, hcy', hPy', -, hmy'⟩ := hcol j' i' jp' ip' hj' hi' hjp' hip' hc'.1 hc'.2
          obtain ⟨a1, -, -⟩ := mv1 _ hy hin hmy
          obtain ⟨b1, -, -⟩ := mv1 _ hy' hin' hmy'
          have c1 := hval _ hy hin hmy
          have c2 := hval _ hy' hin' hmy'
          rw [hcy, hPy] at a1 c1
          rw [hcy', hPy'] at b1 c2
          obtain ⟨h5, -⟩ := mv2 y hy hin hmy y' hy' hin' hmy' (by rw [a1.unique h3, b1.unique h4])
          rw [h1.unique c1, h2.unique c2, h5]
        · exfalso
          obtain ⟨y, -, -, -, -, hPy, -, -⟩ := hcol j i jp ip hj hi hjp hip hc.1 hc.2
          exact hother j' i' jp' ip' hi' hip' hc' (by rw [hPy, hPP])
      · have hc' : ¬ (j' + jp' = pj ∧ i' + ip' = pi) := by
          intro hc'
          obtain ⟨y, -, -, -, -, hPy, -, -⟩ := hcol j' i' jp' ip' hj' hi' hjp' hip' hc'.1 hc'.2
          exact hother j i jp ip hi hip hc (by rw [hPy, hPP])
        have k1 := d.kept _ _ _ h1 (by
          intro y _ _ _
          rintro ⟨h, -⟩
          exact hother j i jp ip hi hip hc h)
        have k2 := d.kept _ _ _ h2 (by
          intro y _ _ _
          rintro ⟨h, -⟩
          exact hother j' i' jp' ip' hi' hip' hc' h)
        rw [k1.unique h3, k2.unique h4]
  · intro j i jp ip j' i' jp' ip' w hj hi hjp hip hj' hi' hjp' hip' h1 h2 _ h3 h4
    rw [d.nj] at hj hj'
    rw [d.ni] at hi hi' h3 h4
    rw [hnat] at h3 h4
    rw [hpx] at h1 h2
    simp only [Option.some.injEq, Prod.mk.injEq] at h1 h2
    obtain ⟨y, hy, hin, -, hcy, hPy, hry, hmy⟩ := hcol j i jp ip hj hi hjp hip h1.1.symm h1.2.symm
    obtain ⟨y', hy', hin', -, hcy', hPy', hry', hmy'⟩ := hcol j' i' jp' ip' hj' hi' hjp' hip' h2.1.symm h2.2.symm
    obtain ⟨a1, -, -⟩ := mv1 _ hy hin hmy
    obtain ⟨b1, -, -⟩ := mv1 _ hy' hin' hmy'
    rw [hcy, hPy] at a1
    rw [hcy', hPy'] at b1
    obtain ⟨-, h5⟩ := mv2 y hy hin hmy y' hy' hin' hmy' (by rw [a1.unique h3, b1.unique h4])
    rw [← hry, ← hry', h5]
  · intro hsep
    apply d.same
    intro y hy hin hmy y' hy' hin' hmy' hff
    obtain ⟨a1, a2, a3, a4, a5, a6⟩ := inside_col hat hy hin
    obtain ⟨b1, b2, b3, b4, b5, b6⟩ := inside_col hat hy' hin'
    obtain ⟨c1, c2⟩ := corners_le hy
    obtain ⟨d1, d2⟩ := corners_le hy'
    have e1 : v.pj = pj := rfl
    have e2 : v.pi = pi := rfl
    have v1 := hval y hy hin hmy
    have v2 := hval y' hy' hin' hmy'
    rw [a5, a6] at v1
    rw [b5, b6, ← hff] at v2
    have key := hsep _ _ _ _ _ _ _ _ _ a1 a2 (show 1 - y.1 ≤ 1 by omega) (show 1 - y.2 ≤ 1 by omega) b1 b2
      (show 1 - y'.1 ≤ 1 by omega) (show 1 - y'.2 ≤ 1 by omega)
      (by rw [hpx]; congr 2 <;> omega) (by rw [hpx]; congr 2 <;> omega)
      (by
        have e3 : v.pj + y.1 - 1 + (1 - y.1) = pj := by omega
        have e4 : v.pi + y.2 - 1 + (1 - y.2) = pi := by omega
        rw [e3, e4]; exact hnT) v1 v2
    obtain ⟨z, hz, hzin, hze, -, -, hrz, -⟩ := hcol _ _ (1 - y.1) (1 - y.2) a1 a2 (by omega) (by omega) (by omega) (by omega)
    obtain ⟨z', hz', hzin', hze', -, -, hrz', -⟩ := hcol _ _ (1 - y'.1) (1 - y'.2) b1 b2 (by omega) (by omega) (by omega) (by omega)
    have q1 : z = y := by rw [hze]; ext <;> dsimp only <;> omega
    have q2 : z' = y' := by rw [hze']; ext <;> dsimp only <;> omega
    rw [q1] at hrz
    rw [q2] at hrz'
    rw [← hrz, ← hrz'] at key
    exact Bool.eq_iff_iff.mpr key

end Verif.AddFaults
