import Verif.AddFaults.Lemmas4
import Mathlib.Algebra.Module.Prod
import Mathlib.Tactic.NormNum

/-! # C86: faults added to a grid -/

namespace Verif.AddFaults
open Verif.Py Verif.Pillars Verif.CpGrid

variable {V : Type} [AddCommGroup V] [Module ℚ V]

theorem direction_eq (unit : V → V) (straight : V) (g : FGrid V) (P : Nat) :
    pillarVector unit straight g P = direction unit straight g P := by
  unfold pillarVector direction
  by_cases h : g.nkg ≤ 1
  · rw [if_pos (by omega), if_pos h]
  · rw [if_neg (by omega), if_neg h]

/-! ## All the pillars of a path -/

theorem Moved.refl (unit : V → V) (straight : V) {s : PState V} {ls : List (List Nat)} (g : Good s.g s.cl ls) :
    Moved unit straight (fun _ _ _ _ => 0) s ls s ls where
  good := g
  nj := rfl
  ni := rfl
  nkg := rfl
  full := id
  count := le_refl _
  whole := fun q _ => ⟨0, fun k => (add_zero _).symm⟩
  corner := fun j i jp ip w _ _ _ _ hw => ⟨w, hw, fun k => by rw [zero_smul, add_zero]⟩
  finer := fun j i jp ip j' i' jp' ip' w w' u _ _ _ _ _ _ _ _ _ h1 h2 h3 h4 => by rw [h1.unique h3, h2.unique h4]

theorem Moved.trans {unit : V → V} {straight : V} {mv1 mv2 : Nat → Nat → Nat → Nat → ℚ} {s s1 s2 : PState V}
    {ls ls1 ls2 : List (List Nat)} (g : Good s.g s.cl ls) (h1 : Moved unit straight mv1 s ls s1 ls1)
    (h2 : Moved unit straight mv2 s1 ls1 s2 ls2) :
    Moved unit straight (fun j i jp ip => mv1 j i jp ip + mv2 j i jp ip) s ls s2 ls2 := by
  have hnat : ∀ j i jp ip, naturalPillar s1.g.tab j i jp ip = naturalPillar s.g.tab j i jp ip := by
    intro j i jp ip; unfold naturalPillar; rw [h1.ni]
  refine { good := h2.good, nj := by rw [h2.nj, h1.nj], ni := by rw [h2.ni, h1.ni], nkg := by rw [h2.nkg, h1.nkg],
           full := fun h => h2.full (h1.full h), count := le_trans h1.count h2.count, whole := ?_, corner := ?_, finer := ?_ }
  · intro q hq
    obtain ⟨a, ha⟩ := h1.whole q hq
    obtain ⟨b, hb⟩ := h2.whole q (by have := h1.count; omega)
    exact ⟨a + b, fun k => by rw [hb, ha, add_assoc]⟩
  · intro j i jp ip w hj hi hjp hip hw
    obtain ⟨w1, a1, a2⟩ := h1.corner j i jp ip w hj hi hjp hip hw
    obtain ⟨w2, b1, b2⟩ := h2.corner j i jp ip w1 (by rw [h1.nj]; exact hj) (by rw [h1.ni]; exact hi) hjp hip
      (by rw [hnat, h1.ni]; exact a1)
    rw [hnat, h1.ni] at b1
    refine ⟨w2, b1, fun k => ?_⟩
    rw [b2, a2, hnat, h1.vector (by rw [g.count]; have := natural_lt hj hi hjp hip; omega), add_smul, add_assoc]
  · intro j i jp ip j' i' jp' ip' w w' u hj hi hjp hip hj' hi' hjp' hip' hPP v1 v2 v3 v4
    obtain ⟨x1, a1, -⟩ := h1.corner j i jp ip w hj hi hjp hip v1
    obtain ⟨x2, a2, -⟩ := h1.corner j' i' jp' ip' w' hj' hi' hjp' hip' v2
    have e := h2.finer j i jp ip j' i' jp' ip' x1 x2 u (by rw [h1.nj]; exact hj) (by rw [h1.ni]; exact hi) hjp hip
      (by rw [h1.nj]; exact hj') (by rw [h1.ni]; exact hi') hjp' hip' (by rw [hnat, hnat]; exact hPP)
      (by rw [hnat, h1.ni]; exact a1) (by rw [hnat, h1.ni]; exact a2) (by rw [hnat, h1.ni]; exact v3) (by rw [hnat, h1.ni]; exact v4)
    subst e
    exact h1.finer j i jp ip j' i' jp' ip' w w' x1 hj hi hjp hip hj' hi' hjp' hip' hPP v1 v2 a1 a2

theorem tip_congr {t t' : Pillars.Grid} (hj : t'.nj = t.nj) (hi : t'.ni = t.ni) (l : List (Nat × Nat)) (x : Nat) (p : Nat × Nat) :
    Tip t' l x p ↔ Tip t l x p := by
  unfold Tip Outer; rw [hj, hi]

theorem moveAt_congr {t t' : Pillars.Grid} (hj : t'.nj = t.nj) (hi : t'.ni = t.ni) (l : List (Nat × Nat)) (left right : ℚ)
    (j i jp ip x : Nat) : moveAt t' l left right j i jp ip x = moveAt t l left right j i jp ip x := by
  unfold moveAt
  have := tip_congr hj hi l x (j + jp, i + ip)
  by_cases h : l[x]? = some (j + jp, i + ip) ∧ ¬ Tip t l x (j + jp, i + ip)
  · rw [if_pos h, if_pos ⟨h.1, fun h' => h.2 (this.mp h')⟩]
  · rw [if_neg h, if_neg (fun h' => h ⟨h'.1, fun h'' => h'.2 (this.mpr h'')⟩)]

theorem IsPath.congr {t t' : Pillars.Grid} (hj : t'.nj = t.nj) (hi : t'.ni = t.ni) {l : List (Nat × Nat)} (h : IsPath t l) :
    IsPath t' l := ⟨h.two, by rw [hj, hi]; exact h.within, h.steps, h.onward⟩

theorem val_exists {t : Pillars.Grid} {ls : List (List Nat)} (h : Tabulates t ls) (hni : 0 < t.ni) {j i jp ip : Nat} (hi : i < t.ni)
    (hip : ip ≤ 1) : ∃ w, ValOf t ls (naturalPillar t j i jp ip) (j * t.ni + i) w := by
  obtain ⟨m, hm⟩ := mapping_ok h hni
  exact ⟨_, mapping_Val h hm hi hip⟩

theorem Sep.keep {unit : V → V} {straight : V} {mv : Nat → Nat → Nat → Nat → ℚ} {s s' : PState V} {ls ls' : List (List Nat)}
    (g : Good s.g s.cl ls) (h : Moved unit straight mv s ls s' ls') {l : List (Nat × Nat)} {x : Nat} (hs : Sep s.g.tab ls l x) :
    Sep s'.g.tab ls' l x := by
  have hnat : ∀ j i jp ip, naturalPillar s'.g.tab j i jp ip = naturalPillar s.g.tab j i jp ip := by
    intro j i jp ip; unfold naturalPillar; rw [h.ni]
  intro j i jp ip j' i' jp' ip' w hj hi hjp hip hj' hi' hjp' hip' h1 h2 h3 h4 h5
  rw [tip_congr h.nj h.ni] at h3
  rw [hnat, h.ni] at h4 h5
  rw [h.nj] at hj hj'
  rw [h.ni] at hi hi'
  obtain ⟨w1, v1⟩ := val_exists g.tab g.ni (j := j) (jp := jp) hi hip
  obtain ⟨w2, v2⟩ := val_exists g.tab g.ni (j := j') (jp := jp') hi' hip'
  have hPP : naturalPillar s.g.tab j i jp ip = naturalPillar s.g.tab j' i' jp' ip' := by
    rw [h1] at h2
    simp only [Option.some.injEq, Prod.mk.injEq] at h2
    unfold naturalPillar
    rw [h2.1, h2.2]
  have e := h.finer j i jp ip j' i' jp' ip' w1 w2 w hj hi hjp hip hj' hi' hjp' hip' hPP v1 v2 h4 h5
  subst e
  exact hs j i jp ip j' i' jp' ip' w1 hj hi hjp hip hj' hi' hjp' hip' h1 h2 h3 v1 v2

theorem Tabulates.unique {t : Pillars.Grid} {ls ls' : List (List Nat)} (h : Tabulates t ls) (h' : Tabulates t ls') : ls = ls' := by
  apply List.ext_getElem?
  intro n
  by_cases hn : n < ls.length
  · have hn' : n < ls'.length := by rw [← h'.size, h.size]; exact hn
    have a := segment_of h (List.getElem?_eq_getElem hn)
    have b := segment_of h' (List.getElem?_eq_getElem hn')
    rw [a] at b
    rw [List.getElem?_eq_getElem hn, List.getElem?_eq_getElem hn']
    exact congrArg some (Except.ok.inj b)
  · rw [List.getElem?_eq_none (by omega), List.getElem?_eq_none (by rw [← h'.size, h.size]; omega)]

theorem visits_done (unit : V → V) (straight : V) (left right : ℚ) (l : List (Nat × Nat)) (xs : List Nat) (hxs : ∀ x ∈ xs, x < l.length)
    {s : PState V} {ls : List (List Nat)} (g : Good s.g s.cl ls) (hp : IsPath s.g.tab l) :
    ∃ s' ls', visitLoop unit straight left right l xs s = .ok s' ∧
      Moved unit straight (fun j i jp ip => (xs.map (moveAt s.g.tab l left right j i jp ip)).sum) s ls s' ls' ∧
      (∀ x ∈ xs, Sep s'.g.tab ls' l x) ∧ ((∀ x ∈ xs, Sep s.g.tab ls l x) → s'.g.tab = s.g.tab) := by
  induction xs generalizing s ls with
  | nil => exact ⟨s, ls, rfl, Moved.refl unit straight g, fun x hx => (List.not_mem_nil hx).elim, fun _ => rfl⟩
  | cons x xs ih =>
    obtain ⟨s1, ls1, h1, m1, sep1, same1⟩ := visit_done unit straight left right g hp (hxs x (by simp))
    obtain ⟨s2, ls2, h2, m2, sep2, same2⟩ := ih (fun y hy => hxs y (by simp [hy])) m1.good (hp.congr m1.nj m1.ni)
    refine ⟨s2, ls2, ?_, ?_, ?_, ?_⟩
    · rw [visitLoop, h1]
      exact h2
    · have := m1.trans g m2
      simp only [List.map_cons, List.sum_cons]
      simp only [show ∀ j i jp ip, moveAt s1.g.tab l left right j i jp ip = moveAt s.g.tab l left right j i jp ip from
        fun j i jp ip => funext fun x => moveAt_congr m1.nj m1.ni l left right j i jp ip x] at this
      exact this
    · intro y hy
      rcases List.mem_cons.mp hy with rfl | hy
      · exact sep1.keep m1.good m2
      · exact sep2 y hy
    · intro hs
      have e1 := same1 (hs x (by simp))
      rw [same2, e1]
      intro y hy
      have e2 : ls1 = ls := by
        have a := m1.good.tab
        rw [e1] at a
        exact a.unique g.tab
      rw [e1, e2]
      exact hs y (by simp [hy])

/-- the grid as the loop is given it -/
def opened (g : FGrid V) : FGrid V := if g.tab.hasSplit then g else { g with tab := ⟨g.tab.nj, g.tab.ni, true, [], [], []⟩ }

def begin (g : FGrid V) : PState V := ⟨opened g, (opened g).tab.cl.getLastD 0, none, false, fun k => (opened g).pts k 0⟩

theorem opened_dims (g : FGrid V) : (opened g).tab.nj = g.tab.nj ∧ (opened g).tab.ni = g.tab.ni ∧ (opened g).pts = g.pts ∧
    (opened g).nkg = g.nkg ∧ (opened g).count = g.count := by
  unfold opened
  split <;> exact ⟨rfl, rfl, rfl, rfl, rfl⟩

theorem opened_good {g : FGrid V} (h : WellFormed g) : ∃ ls, Good (opened g) ((opened g).tab.cl.getLastD 0) ls ∧
    (g.tab.hasSplit = false → ls = []) ∧ (g.tab.hasSplit = true → Tabulates g.tab ls) ∧
    ∃ m, columnPillarMapping g.tab = .ok m ∧ ∀ j i jp ip, i < g.tab.ni → ip ≤ 1 →
      ValOf (opened g).tab ls (naturalPillar g.tab j i jp ip) (j * g.tab.ni + i) (m j i jp ip) := by
  cases hs : g.tab.hasSplit with
  | false =>
    have e : opened g = { g with tab := ⟨g.tab.nj, g.tab.ni, true, [], [], []⟩ } := by unfold opened; rw [hs]; rfl
    refine ⟨[], ?_, fun _ => rfl, fun h => (by cases h), unsplitMapping g.tab, ?_, ?_⟩
    · rw [e]
      refine ⟨h.nj, h.ni, ⟨rfl, rfl, rfl, rfl, ?_⟩, ?_, rfl⟩
      · intro n P cs c h1; cases h1
      · exact h.plain hs
    · unfold columnPillarMapping; rw [hs]; rfl
    · intro j i jp ip _ _
      refine Or.inr ⟨by unfold unsplitMapping naturalPillar; omega, ?_⟩
      intro n hn
      rw [e] at hn
      cases hn
  | true =>
    have e : opened g = g := by unfold opened; rw [hs]; rfl
    obtain ⟨hc, ls, ht⟩ := h.faulted hs
    rw [e]
    refine ⟨ls, ⟨h.nj, h.ni, ht, hc, ?_⟩, fun h => (by cases h), fun _ => ht, ?_⟩
    · by_cases hne : g.tab.spi = []
      · have h1 := ht.size
        rw [hne] at h1
        have h2 : ls = [] := List.length_eq_zero_iff.mp h1.symm
        rw [ht.flat, ht.cum, h2]
        rfl
      · rw [List.getLastD_eq_getLast?, ht.last hne]
        rfl
    · obtain ⟨m, hm⟩ := mapping_ok ht h.ni
      exact ⟨m, hm, fun j i jp ip hi hip => mapping_Val ht hm hi hip⟩

theorem fault_run (unit : V → V) (straight : V) {g : FGrid V} (h : WellFormed g) {l : List (Nat × Nat)} (hp : IsPath g.tab l)
    (left right : ℚ) : ∃ s' ls ls', faultFromPillarList unit straight true g l left right = .ok s'.g ∧
      Good (opened g) ((opened g).tab.cl.getLastD 0) ls ∧ (g.tab.hasSplit = false → ls = []) ∧ (g.tab.hasSplit = true → Tabulates g.tab ls) ∧
      Moved unit straight (move g.tab l left right) (begin g) ls s' ls' ∧
      (∀ x, x < l.length → Sep s'.g.tab ls' l x) ∧
      ((∀ x, x < l.length → Sep (opened g).tab ls l x) → s'.g.tab = (opened g).tab) ∧
      ∃ m m', columnPillarMapping g.tab = .ok m ∧ columnPillarMapping s'.g.tab = .ok m' ∧
        ∀ j i jp ip, i < g.tab.ni → ip ≤ 1 →
          ValOf (opened g).tab ls (naturalPillar g.tab j i jp ip) (j * g.tab.ni + i) (m j i jp ip) ∧
          ValOf s'.g.tab ls' (naturalPillar g.tab j i jp ip) (j * g.tab.ni + i) (m' j i jp ip) := by
  obtain ⟨dj, di, dp, dk, dc⟩ := opened_dims g
  obtain ⟨ls, g0, e0, e1, m, hm, hmv⟩ := opened_good h
  have hp' : IsPath (opened g).tab l := hp.congr dj di
  obtain ⟨s', ls', hrun, hmoved, hsep, hsame⟩ := visits_done unit straight left right l (List.range l.length)
    (fun x hx => List.mem_range.mp hx) (s := begin g) g0 hp'
  have hgood := hmoved.good
  obtain ⟨m', hm'⟩ := mapping_ok hgood.tab hgood.ni
  refine ⟨s', ls, ls', ?_, g0, e0, e1, ?_, fun x hx => hsep x (List.mem_range.mpr hx),
    fun hs => hsame (fun x hx => hs x (List.mem_range.mp hx)), m, m', hm, hm', ?_⟩
  · unfold faultFromPillarList
    rw [if_neg (by have := hp.two; omega), if_neg (by simp)]
    have : visitLoop unit straight left right l (List.range l.length) (begin g) = .ok s' := hrun
    unfold begin opened at this
    dsimp only
    rw [this]
  · have e : (fun j i jp ip => ((List.range l.length).map (moveAt (begin g).g.tab l left right j i jp ip)).sum) = move g.tab l left right := by
      funext j i jp ip
      unfold move
      congr 2
      funext x
      exact moveAt_congr dj di l left right j i jp ip x
    rw [e] at hmoved
    exact hmoved
  · intro j i jp ip hi hip
    refine ⟨hmv j i jp ip hi hip, ?_⟩
    have en : s'.g.tab.ni = g.tab.ni := by rw [hmoved.ni]; exact di
    have h1 := mapping_Val hgood.tab hm' (j := j) (jp := jp) (by rw [en]; exact hi) hip
    have e2 : naturalPillar s'.g.tab j i jp ip = naturalPillar g.tab j i jp ip := by unfold naturalPillar; rw [en]
    rw [e2] at h1
    unfold ValOf baseOf
    rw [en] at h1 ⊢
    exact h1

theorem wellFormed_of {g : FGrid V} {cl : Nat} {ls : List (List Nat)} (h : Good g cl ls) : WellFormed g :=
  ⟨h.nj, h.ni, fun e => (by have := h.tab.split; rw [e] at this; cases this), fun _ => ⟨h.count, ls, h.tab⟩⟩

/-! ## The property -/

/-- C86: a fault is added along a path of pillars by moving every corner of every column by the left or right throw along the pillar
it is on, once for each time the path goes through the pillar (but not at a tip within the grid), by the throw of the side of the
path on which the column is; the other corners stay where they are.  The corner points are those found with the pillar tables before
and after. -/
theorem C86_corners_moved (unit : V → V) (straight : V) {g : FGrid V} (h : WellFormed g) {l : List (Nat × Nat)} (hp : IsPath g.tab l)
    (left right : ℚ) : ∃ g' m m', faultFromPillarList unit straight true g l left right = .ok g' ∧
      columnPillarMapping g.tab = .ok m ∧ columnPillarMapping g'.tab = .ok m' ∧
      ∀ k j i jp ip, j < g.tab.nj → i < g.tab.ni → jp ≤ 1 → ip ≤ 1 →
        g'.pts k (m' j i jp ip) = g.pts k (m j i jp ip) +
          move g.tab l left right j i jp ip • direction unit straight g (naturalPillar g.tab j i jp ip) := by
  obtain ⟨s', ls, ls', hrun, -, -, -, hmoved, -, -, m, m', hm, hm', hv⟩ := fault_run unit straight h hp left right
  obtain ⟨dj, di, dp, dk, dc⟩ := opened_dims g
  refine ⟨s'.g, m, m', hrun, hm, hm', ?_⟩
  intro k j i jp ip hj hi hjp hip
  obtain ⟨v1, v2⟩ := hv j i jp ip hi hip
  have ebt : (begin g).g.tab = (opened g).tab := rfl
  have en : naturalPillar (opened g).tab j i jp ip = naturalPillar g.tab j i jp ip := by unfold naturalPillar; rw [di]
  obtain ⟨w', a1, a2⟩ := hmoved.corner j i jp ip (m j i jp ip) (by rw [ebt, dj]; exact hj) (by rw [ebt, di]; exact hi) hjp hip
    (by rw [ebt, en, di]; exact v1)
  rw [ebt, en, di] at a1
  rw [v2.unique a1, a2 k, ebt, en]
  have e1 : (begin g).g.pts = g.pts := dp
  have e2 : pillarVector unit straight (begin g).g (naturalPillar g.tab j i jp ip) = direction unit straight g (naturalPillar g.tab j i jp ip) := by
    rw [direction_eq]
    unfold direction
    rw [e1, show (begin g).g.nkg = g.nkg from dk]
  rw [e1, e2]

/-- C86: the tables of split pillars are in order afterwards, whatever the faults there before; the extents are kept, and extra
pillars are used by columns if those there before are. -/
theorem C86_tables_in_order (unit : V → V) (straight : V) {g : FGrid V} (h : WellFormed g) {l : List (Nat × Nat)} (hp : IsPath g.tab l)
    (left right : ℚ) : ∃ g', faultFromPillarList unit straight true g l left right = .ok g' ∧ WellFormed g' ∧
      g'.tab.hasSplit = true ∧ g'.tab.nj = g.tab.nj ∧ g'.tab.ni = g.tab.ni ∧ g'.nkg = g.nkg ∧
      ((g.tab.hasSplit = true → ExtrasUsed g.tab) → ExtrasUsed g'.tab) := by
  obtain ⟨s', ls, ls', hrun, -, e0, e1, hmoved, -, -, -⟩ := fault_run unit straight h hp left right
  obtain ⟨dj, di, dp, dk, dc⟩ := opened_dims g
  refine ⟨s'.g, hrun, wellFormed_of hmoved.good, hmoved.good.tab.split, hmoved.nj.trans dj, hmoved.ni.trans di, hmoved.nkg.trans dk, ?_⟩
  intro hu n hn
  have hfull : ∀ l ∈ ls, l ≠ [] := by
    cases hs : g.tab.hasSplit with
    | false =>
      rw [e0 hs]
      intro l hl
      cases hl
    | true =>
      have ht := e1 hs
      intro l hl
      obtain ⟨n, hn⟩ := List.mem_iff_getElem?.mp hl
      have hlt : n < g.tab.spi.length := by rw [ht.size]; exact (List.getElem?_eq_some_iff.mp hn).1
      obtain ⟨cs, h1, h2⟩ := hu hs n hlt
      rw [← segment_iff, segment_of ht hn] at h1
      cases h1
      exact h2
  have hlt : n < ls'.length := by rw [← hmoved.good.tab.size]; exact hn
  exact ⟨ls'[n], segment_iff.mp (segment_of hmoved.good.tab (List.getElem?_eq_getElem hlt)), hmoved.full hfull _ (List.getElem_mem hlt)⟩

/-- C86: existing splits are used: a fault added again, with whatever throws, leaves the tables as they are. -/
theorem C86_again (unit : V → V) (straight : V) {g : FGrid V} (h : WellFormed g) {l : List (Nat × Nat)} (hp : IsPath g.tab l)
    (left right left' right' : ℚ) : ∃ g' g'', faultFromPillarList unit straight true g l left right = .ok g' ∧
      faultFromPillarList unit straight true g' l left' right' = .ok g'' ∧ g''.tab = g'.tab := by
  obtain ⟨s', ls, ls', hrun, -, -, -, hmoved, hsep, -, -⟩ := fault_run unit straight h hp left right
  obtain ⟨dj, di, dp, dk, dc⟩ := opened_dims g
  have hp' : IsPath s'.g.tab l := hp.congr (hmoved.nj.trans dj) (hmoved.ni.trans di)
  obtain ⟨s'', ls1, ls'', hrun', -, -, e1, hmoved', -, hsame, -⟩ := fault_run unit straight (wellFormed_of hmoved.good) hp' left' right'
  refine ⟨s'.g, s''.g, hrun, hrun', ?_⟩
  have hop : opened s'.g = s'.g := by unfold opened; rw [hmoved.good.tab.split]; rfl
  have hls : ls1 = ls' := (e1 hmoved.good.tab.split).unique hmoved.good.tab
  rw [hop, hls] at hsame
  exact hsame hsep

theorem sum_single (f : Nat → ℚ) (x : Nat) (xs : List Nat) (hnd : xs.Nodup) (hx : x ∈ xs) (h : ∀ y ∈ xs, y ≠ x → f y = 0) :
    (xs.map f).sum = f x := by
  induction xs with
  | nil => cases hx
  | cons a xs ih =>
    rw [List.map_cons, List.sum_cons]
    rw [List.nodup_cons] at hnd
    by_cases ha : a = x
    · subst ha
      have : (xs.map f).sum = 0 := by
        apply List.sum_eq_zero
        intro z hz
        obtain ⟨y, hy, rfl⟩ := List.mem_map.mp hz
        exact h y (by simp [hy]) (fun e => hnd.1 (e ▸ hy))
      rw [this, add_zero]
    · rw [h a (by simp) ha, zero_add]
      exact ih hnd.2 ((List.mem_cons.mp hx).resolve_left (fun e => ha e.symm)) (fun y hy hne => h y (by simp [hy]) hne)

/-- C86: what it comes to where a path does not meet itself: the corners on the right are moved by the right throw, those on the left by
the left throw, except at a tip. -/
theorem C86_simple_path (t : Pillars.Grid) {l : List (Nat × Nat)} (hnd : l.Nodup) (left right : ℚ) {x j i jp ip : Nat}
    (hx : l[x]? = some (j + jp, i + ip)) :
    (ColumnOnRight l x jp ip → ¬ Tip t l x (j + jp, i + ip) → move t l left right j i jp ip = right) ∧
    (¬ ColumnOnRight l x jp ip → ¬ Tip t l x (j + jp, i + ip) → move t l left right j i jp ip = left) ∧
    (Tip t l x (j + jp, i + ip) → move t l left right j i jp ip = 0) := by
  have hlt : x < l.length := (List.getElem?_eq_some_iff.mp hx).1
  have e : move t l left right j i jp ip = moveAt t l left right j i jp ip x := by
    unfold move
    apply sum_single _ x _ List.nodup_range (List.mem_range.mpr hlt)
    intro y hy hne
    unfold moveAt
    rw [if_neg]
    rintro ⟨h1, -⟩
    apply hne
    rw [List.mem_range] at hy
    rw [List.getElem?_eq_getElem hy] at h1
    rw [List.getElem?_eq_getElem hlt] at hx
    exact (List.Nodup.getElem_inj_iff hnd).mp (by rw [Option.some.inj h1, Option.some.inj hx])
  rw [e]
  unfold moveAt
  refine ⟨fun h1 h2 => ?_, fun h1 h2 => ?_, fun h1 => ?_⟩
  · rw [if_pos ⟨hx, h2⟩, if_pos h1]
  · rw [if_pos ⟨hx, h2⟩, if_neg h1]
  · rw [if_neg (fun h => h.2 h1)]

/-- C86: corners on pillars which the path does not go through are not moved. -/
theorem C86_elsewhere (t : Pillars.Grid) {l : List (Nat × Nat)} (left right : ℚ) {j i jp ip : Nat}
    (hx : (j + jp, i + ip) ∉ l) : move t l left right j i jp ip = 0 := by
  unfold move
  apply List.sum_eq_zero
  intro z hz
  obtain ⟨y, hy, rfl⟩ := List.mem_map.mp hz
  unfold moveAt
  rw [if_neg]
  rintro ⟨h1, -⟩
  exact hx (List.mem_of_getElem? h1)

/-- C86: with two layers or more, the direction is that of the pillar when its points down to the last but one go the same way as
the whole of it. -/
theorem C86_along_pillar_partial (unit : V → V) (straight : V) (g : FGrid V) (P : Nat) (hn : 2 ≤ g.nkg)
    (hu : ∀ (c : ℚ) (d : V), 0 < c → unit (c • d) = unit d) (c : ℚ) (hc : 0 < c)
    (hs : g.pts (g.nkg - 1) P - g.pts 0 P = c • (g.pts g.nkg P - g.pts 0 P)) :
    direction unit straight g P = unit (g.pts g.nkg P - g.pts 0 P) := by
  unfold direction
  rw [if_neg (by omega), hs, hu c _ hc]

/-- the faults of a dictionary: the moves are added up -/
noncomputable def totalMove (t : Pillars.Grid) (ds : List FaultDef) (j i jp ip : Nat) : ℚ :=
  (ds.map fun d => move t d.pillars (d.throws.getD (1 / 2, -(1 / 2))).1 (d.throws.getD (1 / 2, -(1 / 2))).2 j i jp ip).sum

theorem move_congr {t t' : Pillars.Grid} (hj : t'.nj = t.nj) (hi : t'.ni = t.ni) (l : List (Nat × Nat)) (left right : ℚ) :
    move t' l left right = move t l left right := by
  funext j i jp ip
  unfold move
  congr 2
  funext x
  exact moveAt_congr hj hi l left right j i jp ip x

/-- C86: faults are added one after the other; in the end each corner has been moved by the sum of what each fault asks for, with half
up and half down where no throws are given for a fault, always along the pillar as it was at first. -/
theorem C86_several (unit : V → V) (straight : V) (ds : List FaultDef) {g : FGrid V} (h : WellFormed g)
    (hp : ∀ d ∈ ds, IsPath g.tab d.pillars) : ∃ g' m m', addFaults unit straight true ds g = .ok g' ∧ WellFormed g' ∧
      columnPillarMapping g.tab = .ok m ∧ columnPillarMapping g'.tab = .ok m' ∧
      ∀ k j i jp ip, j < g.tab.nj → i < g.tab.ni → jp ≤ 1 → ip ≤ 1 →
        g'.pts k (m' j i jp ip) = g.pts k (m j i jp ip) +
          totalMove g.tab ds j i jp ip • direction unit straight g (naturalPillar g.tab j i jp ip) := by
  induction ds generalizing g with
  | nil =>
    obtain ⟨-, -, -, -, m, hm, -⟩ := opened_good h
    refine ⟨g, m, m, rfl, h, hm, hm, ?_⟩
    intro k j i jp ip _ _ _ _
    unfold totalMove
    rw [List.map_nil, List.sum_nil, zero_smul, add_zero]
  | cons d ds ih =>
    set t := d.throws.getD (1 / 2, -(1 / 2)) with ht
    obtain ⟨s', ls, ls', hrun, g0, -, -, hmoved, -, -, -⟩ := fault_run unit straight h (hp d (by simp)) t.1 t.2
    obtain ⟨g1, m, m1, hrun1, hm, hm1, hc1⟩ := C86_corners_moved unit straight h (hp d (by simp)) t.1 t.2
    rw [hrun] at hrun1
    cases hrun1
    obtain ⟨dj, di, dp, dk, dc⟩ := opened_dims g
    have ej : s'.g.tab.nj = g.tab.nj := hmoved.nj.trans dj
    have ei : s'.g.tab.ni = g.tab.ni := hmoved.ni.trans di
    obtain ⟨g2, m2, m3, hrun2, hw2, hm2, hm3, hc2⟩ := ih (wellFormed_of hmoved.good) (fun d' hd' => (hp d' (by simp [hd'])).congr ej ei)
    rw [hm1] at hm2
    cases hm2
    refine ⟨g2, m, m3, ?_, hw2, hm, hm3, ?_⟩
    · rw [addFaults]
      rw [← ht, hrun]
      exact hrun2
    · intro k j i jp ip hj hi hjp hip
      rw [hc2 k j i jp ip (by rw [ej]; exact hj) (by rw [ei]; exact hi) hjp hip, hc1 k j i jp ip hj hi hjp hip]
      have en : naturalPillar s'.g.tab j i jp ip = naturalPillar g.tab j i jp ip := by unfold naturalPillar; rw [ei]
      have ed : direction unit straight s'.g (naturalPillar g.tab j i jp ip) = direction unit straight g (naturalPillar g.tab j i jp ip) := by
        have hlt : naturalPillar g.tab j i jp ip < (begin g).g.count := by
          have := natural_lt (t := g.tab) hj hi hjp hip
          have hb : baseOf (opened g).tab = baseOf g.tab := by unfold baseOf; rw [dj, di]
          change _ < (opened g).count
          rw [g0.count, hb]
          omega
        have := hmoved.vector hlt
        rw [direction_eq, direction_eq] at this
        rw [this]
        unfold direction
        rw [show (begin g).g.nkg = g.nkg from dk, show (begin g).g.pts = g.pts from dp]
      have et : totalMove s'.g.tab ds j i jp ip = totalMove g.tab ds j i jp ip := by
        unfold totalMove
        simp only [move_congr ej ei]
      rw [en, ed, et, add_assoc, ← add_smul]
      rfl

/-! ## Cases -/

instance (t : Pillars.Grid) (l : List (Nat × Nat)) (x : Nat) (p : Nat × Nat) : Decidable (Tip t l x p) := by
  unfold Tip Outer; infer_instance

instance (l : List (Nat × Nat)) (x jp ip : Nat) : Decidable (ColumnOnRight l x jp ip) := by
  unfold ColumnOnRight GridFns.OnRight; infer_instance

instance (d : GridFns.Vec) : Decidable (GridFns.IsStep d) := by
  unfold GridFns.IsStep; infer_instance

/-- a grid of one layer, with pillars which go one across for each one down -/
def exSlanted : FGrid (ℚ × ℚ) := ⟨1, ⟨1, 2, false, [], [], []⟩, fun k p => ((p % 3 : ℕ) + (k : ℚ), (k : ℚ)), 6⟩

/-- C86 (violated): in a grid with one layer the corners are moved straight down (or up), not along the pillar they are on. -/
theorem C86_one_layer_violated (unit : ℚ × ℚ → ℚ × ℚ) : ∃ g' : FGrid (ℚ × ℚ), ∃ m' : Mapping,
    faultFromPillarList unit ((0, 1) : ℚ × ℚ) true exSlanted [(0, 1), (1, 1)] 2 0 = .ok g' ∧ columnPillarMapping g'.tab = .ok m' ∧
    exSlanted.pts 1 1 - exSlanted.pts 0 1 = (1, 1) ∧
    g'.pts 0 (m' 0 1 0 0) - exSlanted.pts 0 1 = (0, 2) ∧ ∀ c : ℚ, c • ((1, 1) : ℚ × ℚ) ≠ (0, 2) := by
  have h : WellFormed exSlanted := ⟨by decide, by decide, fun _ => rfl, fun h => (by cases h)⟩
  have hp : IsPath exSlanted.tab [(0, 1), (1, 1)] := by
    refine ⟨by decide, by decide, ?_, ?_⟩
    · intro x p q hx hy
      have : x = 0 := by have := (List.getElem?_eq_some_iff.mp hy).1; simp only [List.length_cons, List.length_nil] at this; omega
      subst this
      cases hx; cases hy
      decide
    · intro x p q hx hy
      have := (List.getElem?_eq_some_iff.mp hy).1
      simp only [List.length_cons, List.length_nil] at this
      omega
  obtain ⟨g', m, m', h1, h2, h3, h4⟩ := C86_corners_moved unit ((0, 1) : ℚ × ℚ) h hp 2 0
  refine ⟨g', m', h1, h3, by decide +kernel, ?_, ?_⟩
  · have hm : m 0 1 0 0 = 1 := by
      have : columnPillarMapping exSlanted.tab = .ok (unsplitMapping exSlanted.tab) := rfl
      rw [this] at h2
      cases h2
      rfl
    have := C86_simple_path exSlanted.tab (l := [(0, 1), (1, 1)]) (by decide) 2 0 (x := 0) (j := 0) (i := 1) (jp := 0) (ip := 0) rfl
    have hmove := this.2.1 (by decide) (by decide)
    rw [h4 0 0 1 0 0 (by decide) (by decide) (by decide) (by decide), hm, hmove]
    unfold direction
    rw [if_pos (by decide)]
    simp
  · intro c hc
    have h1 := congrArg Prod.fst hc
    have h2 := congrArg Prod.snd hc
    simp at h1 h2
    rw [h1] at h2
    norm_num at h2

/-- depths of a flat grid with two layers and two by two columns -/
def exFlat : FGrid ℚ := ⟨2, ⟨2, 2, false, [], [], []⟩, fun k _ => k, 9⟩

def exSign (x : ℚ) : ℚ := if 0 < x then 1 else if x < 0 then -1 else 0

/-- the hypotheses of `C86_corners_moved`, `C86_tables_in_order`, `C86_again` and `C86_several` are met, by a path across the grid
and one which ends at the middle -/
example : WellFormed exFlat ∧ IsPath exFlat.tab [(0, 1), (1, 1), (2, 1)] ∧ IsPath exFlat.tab [(1, 0), (1, 1)] := by
  refine ⟨⟨by decide, by decide, fun _ => rfl, fun h => (by cases h)⟩, ⟨by decide, by decide, ?_, ?_⟩, ⟨by decide, by decide, ?_, ?_⟩⟩
  · intro x p q hx hy
    have h := (List.getElem?_eq_some_iff.mp hy).1
    have hx0 : x = 0 ∨ x = 1 := by simp only [List.length_cons, List.length_nil] at h; omega
    rcases hx0 with rfl | rfl <;> cases hx <;> cases hy <;> decide
  · intro x p q hx hy
    have h := (List.getElem?_eq_some_iff.mp hy).1
    have hx0 : x = 0 := by simp only [List.length_cons, List.length_nil] at h; omega
    subst hx0
    cases hx; cases hy
    decide
  · intro x p q hx hy
    have h := (List.getElem?_eq_some_iff.mp hy).1
    have hx0 : x = 0 := by simp only [List.length_cons, List.length_nil] at h; omega
    subst hx0
    cases hx; cases hy
    decide
  · intro x p q hx hy
    have h := (List.getElem?_eq_some_iff.mp hy).1
    simp only [List.length_cons, List.length_nil] at h
    omega

/-- and what is made of them: the pillars of the fault are split, once; the corners on the right (I side 0, going to higher J) are
moved by the right throw -/
example : (match addFaults exSign 1 true [⟨[(0, 1), (1, 1), (2, 1)], some (3, 5)⟩, ⟨[(0, 1), (1, 1), (2, 1)], none⟩] exFlat with
    | .ok g => decide (g.tab.spi = [1, 4, 7] ∧ g.tab.cl = [1, 3, 4] ∧ g.count = 12 ∧
        ((List.range 12).map (g.pts 0)).Perm [0, 0, 0, 0, 0, 0, 7/2, 7/2, 7/2, 9/2, 9/2, 9/2])
    | .error _ => false) = true := by decide +kernel

/-- a case of each kind for `C86_simple_path` and `C86_elsewhere` -/
example : ColumnOnRight [(0, 1), (1, 1), (2, 1)] 1 0 1 ∧ ¬ ColumnOnRight [(0, 1), (1, 1), (2, 1)] 1 0 0 ∧
    ¬ Tip exFlat.tab [(0, 1), (1, 1), (2, 1)] 1 (1, 1) ∧ Tip exFlat.tab [(1, 0), (1, 1)] 1 (1, 1) ∧
    ((1, 0) : Nat × Nat) ∉ [(0, 1), (1, 1), (2, 1)] := by decide

/-- pillars for which the direction is that of the pillar -/
example : exFlat.pts (exFlat.nkg - 1) 0 - exFlat.pts 0 0 = (1 / 2 : ℚ) • (exFlat.pts exFlat.nkg 0 - exFlat.pts 0 0) := by
  decide +kernel

end Verif.AddFaults
