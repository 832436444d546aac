import Verif.Frame.Props
import Mathlib.Algebra.Order.BigOperators.Group.Finset

/-!
# C157: properties of a blocked well derived from those of a wellbore frame
-/

namespace Verif.Frame

open Verif.Py

variable {K : Type} [Field K] [LinearOrder K] [IsStrictOrderedRing K]

/-! ### Perforated fraction, length, flag and dominant interval -/

omit [IsStrictOrderedRing K] in
theorem fold_pperf (act : Nat → Bool) (l : List (Contrib K)) (s : Acc K) :
    (l.foldl (activeStep act) s).pperf = s.pperf + (l.map fun c => if act c.1 then c.2.2 else 0).sum ∧
    (l.foldl (activeStep act) s).active = (s.active || l.any fun c => act c.1) := by
  induction l generalizing s with
  | nil => simp
  | cons c l ih =>
    obtain ⟨h1, h2⟩ := ih (activeStep act s c)
    rw [List.foldl_cons, h1, h2]
    unfold activeStep
    by_cases ha : act c.1 = true
    · simp [ha, add_assoc]
    · simp [ha]

/-- C157: the perforated fraction of a cell is the length of active intervals in it over its own length, the length that of the active
intervals in it. -/
theorem C157_length {nodes : List K} {md : Nat → K} (h : IsFrame nodes md) {a b : K} (hab : a < b) {l : List (Contrib K)}
    (hl : cellContrib nodes a b = .ok l) (act : Nat → Bool) :
    (cellActive act a b l).2.1 =
      (∑ i ∈ Finset.range (nodes.length - 1), if act i then overlap a b (md i) (md (i + 1)) else 0) / (b - a) ∧
    (cellActive act a b l).2.2.2 = ∑ i ∈ Finset.range (nodes.length - 1), if act i then overlap a b (md i) (md (i + 1)) else 0 := by
  have hba : 0 < b - a := by linarith
  have e : (l.foldl (activeStep act) ⟨false, 0, 0, none⟩).pperf =
      (∑ i ∈ Finset.range (nodes.length - 1), if act i then overlap a b (md i) (md (i + 1)) else 0) / (b - a) := by
    rw [(fold_pperf act l _).1, zero_add, sum_contrib h hab hl (fun i _ y => if act i then y else 0) (fun i => by simp), Finset.sum_div]
    apply Finset.sum_congr rfl
    intro i _
    by_cases ha : act i = true <;> simp [ha]
  have hle : (∑ i ∈ Finset.range (nodes.length - 1), if act i then overlap a b (md i) (md (i + 1)) else 0) ≤ b - a := by
    calc (∑ i ∈ Finset.range (nodes.length - 1), if act i then overlap a b (md i) (md (i + 1)) else 0)
        ≤ ∑ i ∈ Finset.range (nodes.length - 1), overlap a b (md i) (md (i + 1)) := by
          apply Finset.sum_le_sum
          intro i _
          by_cases ha : act i = true
          · simp [ha]
          · simpa [ha] using overlap_nonneg _ _ _ _
      _ = overlap a b (md 0) (md (nodes.length - 1)) := sum_overlap h (le_of_lt hab)
      _ ≤ b - a := overlap_le_left (le_of_lt hab)
  have hcap : (if 1 < (l.foldl (activeStep act) ⟨false, 0, 0, none⟩).pperf then 1 else (l.foldl (activeStep act) ⟨false, 0, 0, none⟩).pperf) =
      (∑ i ∈ Finset.range (nodes.length - 1), if act i then overlap a b (md i) (md (i + 1)) else 0) / (b - a) := by
    rw [e, if_neg]
    rw [not_lt, div_le_one hba]
    exact hle
  unfold cellActive
  simp only
  rw [hcap]
  exact ⟨rfl, div_mul_cancel₀ _ (ne_of_gt hba)⟩

/-- C157 says that a cell is active exactly if some length of an active interval is in it.  What holds: a cell with such a length is
active; an active cell has such a length, or an active interval ends where the cell begins. -/
theorem C157_active_partial {nodes : List K} {md : Nat → K} (h : IsFrame nodes md) {a b : K} (hab : a < b) {l : List (Contrib K)}
    (hl : cellContrib nodes a b = .ok l) (act : Nat → Bool) :
    ((cellActive act a b l).1 = true ↔ ∃ i, i + 1 < nodes.length ∧ act i = true ∧
      (0 < overlap a b (md i) (md (i + 1)) ∨ (a = md (i + 1) ∧ i + 2 < nodes.length))) ∧
    (cellOpen act l = true ↔ ∃ i, i + 1 < nodes.length ∧ act i = true ∧
      (0 < overlap a b (md i) (md (i + 1)) ∨ (a = md (i + 1) ∧ i + 2 < nodes.length))) := by
  obtain ⟨l', hl', hs⟩ := C156_cell h hab
  rw [hl] at hl'
  simp only [Except.ok.injEq] at hl'
  subst hl'
  have key : (l.any fun c => act c.1) = true ↔ ∃ i, i + 1 < nodes.length ∧ act i = true ∧
      (0 < overlap a b (md i) (md (i + 1)) ∨ (a = md (i + 1) ∧ i + 2 < nodes.length)) := by
    rw [List.any_eq_true]
    constructor
    · rintro ⟨c, hc, ha⟩
      have := (hs.which c.1).1 (List.mem_map_of_mem hc)
      exact ⟨c.1, this.1, ha, this.2⟩
    · rintro ⟨i, h1, h2, h3⟩
      obtain ⟨c, hc, rfl⟩ := List.mem_map.1 ((hs.which i).2 ⟨h1, h3⟩)
      exact ⟨c, hc, h2⟩
  refine ⟨?_, ?_⟩
  · rw [← key]
    unfold cellActive
    simp only
    rw [(fold_pperf act l _).2]
    simp
  · exact key

/-- The cell from 10 to 20 is flagged as active and open, although the only active interval is that from 0 to 10: the flag does not agree
with the perforated fraction and the length, which are zero; nor with the dominant interval, of which there is none. -/
theorem C157_active_violated : ∃ l, cellContrib [(0 : ℚ), 10, 20] 10 20 = .ok l ∧
    cellActive (fun i => i == 0) 10 20 l = (true, 0, -1, 0) ∧ cellOpen (fun i => i == 0) l = true ∧
    overlap (10 : ℚ) 20 0 10 = 0 := by
  refine ⟨[(0, 0, 0), (1, 1, 1)], by decide +kernel, by decide +kernel, by decide +kernel, by decide +kernel⟩

/-- What is known of the dominant interval when some intervals have been looked at. -/
def Dominant (act : Nat → Bool) (seen : List (Contrib K)) (s : Acc K) : Prop :=
  (s.maxInterval = none ∧ s.maxFr = 0 ∧ ∀ c ∈ seen, act c.1 = true → c.2.2 ≤ 0) ∨
  ∃ c ∈ seen, act c.1 = true ∧ s.maxInterval = some c.1 ∧ s.maxFr = c.2.2 ∧ 0 < s.maxFr ∧
    ∀ d ∈ seen, act d.1 = true → d.2.2 ≤ s.maxFr ∧ (d.1 < c.1 → d.2.2 < s.maxFr)

omit [IsStrictOrderedRing K] in
theorem fold_dominant (act : Nat → Bool) (l seen : List (Contrib K)) (s : Acc K) (h : Dominant act seen s)
    (ho : ((seen ++ l).map Prod.fst).Pairwise (· < ·)) : Dominant act (seen ++ l) (l.foldl (activeStep act) s) := by
  induction l generalizing seen s with
  | nil => simpa using h
  | cons x l ih =>
    rw [List.foldl_cons, show seen ++ x :: l = (seen ++ [x]) ++ l by simp]
    apply ih
    swap
    · simpa using ho
    have hlt : ∀ d ∈ seen, d.1 < x.1 := by
      intro d hd
      rw [List.map_append, List.pairwise_append] at ho
      exact ho.2.2 d.1 (List.mem_map_of_mem hd) x.1 (by simp)
    unfold activeStep
    by_cases ha : act x.1 = true
    · rw [if_pos ha]
      by_cases hm : s.maxFr < x.2.2
      · right
        refine ⟨x, by simp, ha, by simp [hm], by simp [hm], ?_, ?_⟩
        · simp only [hm, if_true]
          rcases h with ⟨_, h2, _⟩ | ⟨c, _, _, _, _, h5, _⟩
          · rwa [h2] at hm
          · exact lt_trans h5 hm
        · simp only [hm, if_true]
          intro d hd hda
          rcases List.mem_append.1 hd with hd | hd
          · have : d.2.2 < x.2.2 := by
              rcases h with ⟨_, h2, h3⟩ | ⟨c, _, _, _, _, _, h6⟩
              · have := h3 d hd hda
                rw [h2] at hm
                exact lt_of_le_of_lt this hm
              · exact lt_of_le_of_lt (h6 d hd hda).1 hm
            exact ⟨le_of_lt this, fun _ => this⟩
          · simp only [List.mem_singleton] at hd
            subst hd
            exact ⟨le_refl _, fun hc => absurd hc (lt_irrefl _)⟩
      · rcases h with ⟨h1, h2, h3⟩ | ⟨c, h1, h2, h3, h4, h5, h6⟩
        · left
          refine ⟨by simp [hm, h1], (if_neg hm).trans h2, ?_⟩
          intro d hd hda
          rcases List.mem_append.1 hd with hd | hd
          · exact h3 d hd hda
          · simp only [List.mem_singleton] at hd
            subst hd
            rw [h2] at hm
            exact not_lt.1 hm
        · right
          refine ⟨c, by simp [h1], h2, by simp [hm, h3], (if_neg hm).trans h4, by simpa [hm] using h5, ?_⟩
          intro d hd hda
          simp only [hm, if_false]
          rcases List.mem_append.1 hd with hd | hd
          · exact h6 d hd hda
          · simp only [List.mem_singleton] at hd
            subst hd
            exact ⟨not_lt.1 hm, fun hc => absurd (lt_trans hc (hlt c h1)) (lt_irrefl _)⟩
    · rw [if_neg ha]
      rcases h with ⟨h1, h2, h3⟩ | ⟨c, h1, h2, h3, h4, h5, h6⟩
      · left
        refine ⟨h1, h2, ?_⟩
        intro d hd hda
        rcases List.mem_append.1 hd with hd | hd
        · exact h3 d hd hda
        · simp only [List.mem_singleton] at hd
          subst hd
          exact absurd hda ha
      · right
        refine ⟨c, by simp [h1], h2, h3, h4, h5, ?_⟩
        intro d hd hda
        rcases List.mem_append.1 hd with hd | hd
        · exact h6 d hd hda
        · simp only [List.mem_singleton] at hd
          subst hd
          exact absurd hda ha

/-- C157: the dominant interval of a cell is the active one with the greatest length in the cell, the first of them if there are several;
it is -1 exactly if no length of an active interval is in the cell. -/
theorem C157_dominant {nodes : List K} {md : Nat → K} (h : IsFrame nodes md) {a b : K} (hab : a < b) {l : List (Contrib K)}
    (hl : cellContrib nodes a b = .ok l) (act : Nat → Bool) :
    ((cellActive act a b l).2.2.1 = -1 ∧ ∀ i, i + 1 < nodes.length → act i = true → overlap a b (md i) (md (i + 1)) = 0) ∨
    ∃ i : Nat, (cellActive act a b l).2.2.1 = i ∧ i + 1 < nodes.length ∧ act i = true ∧ 0 < overlap a b (md i) (md (i + 1)) ∧
      ∀ j, j + 1 < nodes.length → act j = true → overlap a b (md j) (md (j + 1)) ≤ overlap a b (md i) (md (i + 1)) ∧
        (j < i → overlap a b (md j) (md (j + 1)) < overlap a b (md i) (md (i + 1))) := by
  obtain ⟨l', hl', hs⟩ := C156_cell h hab
  rw [hl] at hl'
  simp only [Except.ok.injEq] at hl'
  subst hl'
  have hba : 0 < b - a := by linarith
  have hd := fold_dominant act l [] ⟨false, 0, 0, none⟩ (Or.inl ⟨rfl, rfl, by simp⟩) (by simpa using hs.order)
  rw [List.nil_append] at hd
  have hfr : ∀ c ∈ l, c.2.2 * (b - a) = overlap a b (md c.1) (md (c.1 + 1)) := by
    intro c hc
    rw [(hs.fractions c hc).2, div_mul_cancel₀ _ (ne_of_gt hba)]
  unfold cellActive
  simp only
  rcases hd with ⟨h1, h2, h3⟩ | ⟨c, h1, h2, h3, h4, h5, h6⟩
  · left
    rw [h1]
    refine ⟨rfl, ?_⟩
    intro i hi ha
    by_contra hne
    have hpos : 0 < overlap a b (md i) (md (i + 1)) := lt_of_le_of_ne (overlap_nonneg _ _ _ _) (Ne.symm hne)
    obtain ⟨c, hc, rfl⟩ := List.mem_map.1 ((hs.which i).2 ⟨hi, Or.inl hpos⟩)
    have := h3 c hc ha
    rw [← hfr c hc] at hpos
    have := mul_nonpos_of_nonpos_of_nonneg this (le_of_lt hba)
    linarith
  · right
    rw [h3]
    have hc := (hs.which c.1).1 (List.mem_map_of_mem h1)
    refine ⟨c.1, rfl, hc.1, h2, ?_, ?_⟩
    · rw [← hfr c h1]
      exact mul_pos (by rwa [← h4]) hba
    · intro j hj ha
      by_cases hz : overlap a b (md j) (md (j + 1)) = 0
      · have hp : 0 < overlap a b (md c.1) (md (c.1 + 1)) := by
          rw [← hfr c h1]
          exact mul_pos (by rwa [← h4]) hba
        rw [hz]
        exact ⟨le_of_lt hp, fun _ => hp⟩
      · have hpos : 0 < overlap a b (md j) (md (j + 1)) := lt_of_le_of_ne (overlap_nonneg _ _ _ _) (Ne.symm hz)
        obtain ⟨d, hd, rfl⟩ := List.mem_map.1 ((hs.which j).2 ⟨hj, Or.inl hpos⟩)
        obtain ⟨q1, q2⟩ := h6 d hd ha
        rw [← hfr c h1, ← hfr d hd]
        rw [h4] at q1 q2
        exact ⟨mul_le_mul_of_nonneg_right q1 (le_of_lt hba), fun hlt => mul_lt_mul_of_pos_right (q2 hlt) hba⟩

/-! ### Permeability thickness -/

omit [LinearOrder K] [IsStrictOrderedRing K] in
theorem fold_kh (kh : Nat → Option K) (l : List (Contrib K)) (s : K) :
    l.foldl (khStep kh) s = s + (l.map fun c => (kh c.1).getD 0 * c.2.1).sum := by
  induction l generalizing s with
  | nil => simp
  | cons c l ih =>
    rw [List.foldl_cons, ih]
    unfold khStep
    cases e : kh c.1 <;> simp [e, add_assoc]

/-- C157: the permeability thickness of a cell is that of the intervals of the frame, each in proportion to its length in the cell. -/
theorem C157_kh {nodes : List K} {md : Nat → K} (h : IsFrame nodes md) {a b : K} (hab : a < b) {l : List (Contrib K)}
    (hl : cellContrib nodes a b = .ok l) (kh : Nat → Option K) :
    cellKh kh l = ∑ i ∈ Finset.range (nodes.length - 1), (kh i).getD 0 * (overlap a b (md i) (md (i + 1)) / (md (i + 1) - md i)) := by
  unfold cellKh
  rw [fold_kh, zero_add, sum_contrib h hab hl (fun i x _ => (kh i).getD 0 * x) (fun i => by simp)]

omit [LinearOrder K] [IsStrictOrderedRing K] in
theorem sum_comm_list {α : Type} (l : List α) (n : Nat) (g : α → Nat → K) :
    (l.map fun x => ∑ i ∈ Finset.range n, g x i).sum = ∑ i ∈ Finset.range n, (l.map fun x => g x i).sum := by
  induction l with
  | nil => simp
  | cons x l ih => simp [ih, Finset.sum_add_distrib]

/-- C157: no permeability thickness is lost or made: if all of the well is in cells and the frame is within the well, the cells have
together the permeability thickness of the intervals of the frame.  With parts of the well outside of cells they have no more. -/
theorem C157_kh_conserved {nodes : List K} {md : Nat → K} (h : IsFrame nodes md) {a : K} {mds : List K} (gi : List Int)
    (hm : (a :: mds).Pairwise (· < ·)) {cs : List (List (Contrib K))} (hc : contributions nodes (a :: mds) gi = .ok cs)
    (kh : Nat → Option K) :
    (mds.length = gi.length → (∀ g ∈ gi, 0 ≤ g) → a ≤ md 0 → md (nodes.length - 1) ≤ (a :: mds).getLastD 0 →
      (cs.map (cellKh kh)).sum = ∑ i ∈ Finset.range (nodes.length - 1), (kh i).getD 0) ∧
    ((∀ i, 0 ≤ (kh i).getD 0) → (cs.map (cellKh kh)).sum ≤ ∑ i ∈ Finset.range (nodes.length - 1), (kh i).getD 0) := by
  have h2 := h.two
  have e : cs.map (cellKh kh) = cs.map fun l => (l.map fun c => (kh c.1).getD 0 * c.2.1).sum := by
    apply List.map_congr_left
    intro l _
    rw [cellKh, fold_kh, zero_add]
  rw [e, sum_wells h gi hm hc (fun i x _ => (kh i).getD 0 * x) (fun i => by simp), sum_comm_list]
  have key : ∀ i, ((inCells (a :: mds) gi).map fun ab => (kh i).getD 0 * (overlap ab.1 ab.2 (md i) (md (i + 1)) / (md (i + 1) - md i))).sum =
      (kh i).getD 0 * (((inCells (a :: mds) gi).map fun ab => overlap ab.1 ab.2 (md i) (md (i + 1))).sum / (md (i + 1) - md i)) := by
    intro i
    rw [div_eq_mul_inv, ← List.sum_map_mul_right, ← List.sum_map_mul_left]
    simp only [div_eq_mul_inv]
  refine ⟨?_, ?_⟩
  · intro hl hall ha hz
    apply Finset.sum_congr rfl
    intro i hi
    simp only [Finset.mem_range] at hi
    have hp := md_lt h (i := i) (j := i + 1) (by omega) (by omega)
    have h0 := md_le h (i := 0) (j := i) (Nat.zero_le _) (by omega)
    have h1 := md_le h (i := i + 1) (j := nodes.length - 1) (by omega) (by omega)
    rw [key, (sum_cells (le_of_lt hp) gi hm).2 hl hall, overlap_of (le_last hm) (le_of_lt hp) (by linarith) (by linarith),
      min_eq_right (by linarith), max_eq_right (by linarith), div_self (by linarith), mul_one]
  · intro hk
    apply Finset.sum_le_sum
    intro i hi
    simp only [Finset.mem_range] at hi
    have hp := md_lt h (i := i) (j := i + 1) (by omega) (by omega)
    have hp' : 0 < md (i + 1) - md i := by linarith
    rw [key]
    have hle := (sum_cells (le_of_lt hp) gi hm).1
    have hov : overlap a ((a :: mds).getLastD 0) (md i) (md (i + 1)) ≤ md (i + 1) - md i := by
      rw [overlap_comm]
      exact overlap_le_left (le_of_lt hp)
    have : ((inCells (a :: mds) gi).map fun ab => overlap ab.1 ab.2 (md i) (md (i + 1))).sum / (md (i + 1) - md i) ≤ 1 := by
      rw [div_le_one hp']
      linarith
    calc _ ≤ (kh i).getD 0 * 1 := mul_le_mul_of_nonneg_left this (hk i)
      _ = _ := mul_one _

/-! ### Skin and radius -/

omit [LinearOrder K] [IsStrictOrderedRing K] in
theorem fold_skin (skin : Nat → Option K) (l : List (Contrib K)) (s : Option K × K) :
    (l.foldl (skinStep skin) s).2 = s.2 + (l.map fun c => if (skin c.1).isSome then c.2.2 else 0).sum ∧
    (l.foldl (skinStep skin) s).1.getD 0 = s.1.getD 0 + (l.map fun c => (skin c.1).getD 0 * c.2.2).sum ∧
    ((l.foldl (skinStep skin) s).1.isSome ↔ s.1.isSome ∨ ∃ c ∈ l, (skin c.1).isSome) := by
  induction l generalizing s with
  | nil => simp
  | cons c l ih =>
    obtain ⟨h1, h2, h3⟩ := ih (skinStep skin s c)
    rw [List.foldl_cons, h1, h2, h3]
    unfold skinStep
    cases hk : skin c.1 with
    | none => simp [hk]
    | some v => simp [hk, add_assoc]

/-- C157 says that the skin of a cell is the mean of that of the intervals which have one, by their length in the cell, and missing if
no length of such an interval is in the cell.  The first is so. -/
theorem C157_skin_partial {nodes : List K} {md : Nat → K} (h : IsFrame nodes md) {a b : K} (hab : a < b) {l : List (Contrib K)}
    (hl : cellContrib nodes a b = .ok l) (skin : Nat → Option K)
    (hs : ∃ i, i + 1 < nodes.length ∧ (skin i).isSome ∧ 0 < overlap a b (md i) (md (i + 1))) :
    cellSkin skin l = some ((∑ i ∈ Finset.range (nodes.length - 1), (skin i).getD 0 * overlap a b (md i) (md (i + 1))) /
      ∑ i ∈ Finset.range (nodes.length - 1), if (skin i).isSome then overlap a b (md i) (md (i + 1)) else 0) := by
  have hba : 0 < b - a := by linarith
  obtain ⟨f1, f2, f3⟩ := fold_skin skin l (none, 0)
  have e1 : (l.foldl (skinStep skin) (none, 0)).2 =
      (∑ i ∈ Finset.range (nodes.length - 1), if (skin i).isSome then overlap a b (md i) (md (i + 1)) else 0) / (b - a) := by
    rw [f1, zero_add, sum_contrib h hab hl (fun i _ y => if (skin i).isSome then y else 0) (fun i => by simp), Finset.sum_div]
    apply Finset.sum_congr rfl
    intro i _
    by_cases ha : (skin i).isSome = true <;> simp [ha]
  have e2 : (l.foldl (skinStep skin) (none, 0)).1.getD 0 =
      (∑ i ∈ Finset.range (nodes.length - 1), (skin i).getD 0 * overlap a b (md i) (md (i + 1))) / (b - a) := by
    rw [f2]
    simp only [Option.getD_none, zero_add]
    rw [sum_contrib h hab hl (fun i _ y => (skin i).getD 0 * y) (fun i => by simp), Finset.sum_div]
    apply Finset.sum_congr rfl
    intro i _
    rw [mul_div_assoc]
  obtain ⟨i, i1, i2, i3⟩ := hs
  have hpos : 0 < ∑ i ∈ Finset.range (nodes.length - 1), if (skin i).isSome then overlap a b (md i) (md (i + 1)) else 0 := by
    have hsingle := Finset.single_le_sum (s := Finset.range (nodes.length - 1))
      (f := fun i => if (skin i).isSome then overlap a b (md i) (md (i + 1)) else 0) (fun j _ => by
        by_cases hj : (skin j).isSome = true
        · simpa [hj] using overlap_nonneg _ _ _ _
        · simp [hj]) (a := i) (by simp; omega)
    simp only [i2, if_true] at hsingle
    exact lt_of_lt_of_le i3 hsingle
  obtain ⟨l', hl', hsh⟩ := C156_cell h hab
  rw [hl] at hl'
  simp only [Except.ok.injEq] at hl'
  subst hl'
  have hsome : (l.foldl (skinStep skin) (none, 0)).1.isSome := by
    rw [f3]
    obtain ⟨c, hc, rfl⟩ := List.mem_map.1 ((hsh.which i).2 ⟨i1, Or.inl i3⟩)
    exact Or.inr ⟨c, hc, i2⟩
  obtain ⟨v, hv⟩ := Option.isSome_iff_exists.1 hsome
  unfold cellSkin
  simp only
  rw [if_pos (by rw [e1]; exact div_pos hpos hba), hv, Option.map_some]
  rw [hv, Option.getD_some] at e2
  rw [e2, e1, div_div_div_cancel_right₀ (ne_of_gt hba)]

/-- A cell in which no interval with a skin has any length gets the skin zero, where such an interval ends at its entry. -/
theorem C157_skin_violated : ∃ l, cellContrib [(0 : ℚ), 10, 20] 10 20 = .ok l ∧
    cellSkin (fun i => if i = 0 then some 5 else none) l = some 0 := by
  refine ⟨[(0, 0, 0), (1, 1, 1)], by decide +kernel, by decide +kernel⟩

omit [Field K] [IsStrictOrderedRing K] in
theorem nanMax_spec (l : List (Option K)) :
    (nanMax l = none ↔ ∀ x ∈ l, x = none) ∧ ∀ m, nanMax l = some m → some m ∈ l ∧ ∀ x, some x ∈ l → x ≤ m := by
  induction l with
  | nil => simp [nanMax]
  | cons x l ih =>
    cases x with
    | none => simpa [nanMax] using ih
    | some x =>
      unfold nanMax
      cases e : nanMax l with
      | none =>
        have hn := ih.1.1 e
        refine ⟨by simp, ?_⟩
        intro m hm
        simp only [Option.some.injEq] at hm
        subst hm
        refine ⟨by simp, ?_⟩
        intro y hy
        rcases List.mem_cons.1 hy with hy | hy
        · simp only [Option.some.injEq] at hy
          exact le_of_eq hy
        · have := hn _ hy
          simp at this
      | some z =>
        obtain ⟨h1, h2⟩ := ih.2 z e
        refine ⟨by simp, ?_⟩
        intro m hm
        simp only [Option.some.injEq] at hm
        subst hm
        refine ⟨?_, ?_⟩
        · rcases le_total x z with hx | hx
          · rw [max_eq_right hx]
            simp [h1]
          · rw [max_eq_left hx]
            simp
        · intro y hy
          rcases List.mem_cons.1 hy with hy | hy
          · simp only [Option.some.injEq] at hy
            rw [hy]
            exact le_max_left _ _
          · exact le_trans (h2 y hy) (le_max_right _ _)

/-- C157 says that the radius of the well in a cell is the greatest of those of the intervals with some length in it.  What holds: it is
the greatest of those and of that of the interval which ends where the cell begins, and missing if none of them has one. -/
theorem C157_radius_partial {nodes : List K} {md : Nat → K} (h : IsFrame nodes md) {a b : K} (hab : a < b) {l : List (Contrib K)}
    (hl : cellContrib nodes a b = .ok l) (r : Nat → Option K) :
    let near := fun i => i + 1 < nodes.length ∧ (0 < overlap a b (md i) (md (i + 1)) ∨ (a = md (i + 1) ∧ i + 2 < nodes.length))
    (cellRadius r l = none ↔ ∀ i, near i → r i = none) ∧
    ∀ m, cellRadius r l = some m → (∃ i, near i ∧ r i = some m) ∧ ∀ i x, near i → r i = some x → x ≤ m := by
  intro near
  obtain ⟨l', hl', hsh⟩ := C156_cell h hab
  obtain ⟨l'', hl'', hr⟩ := cellContrib_spec h hab
  rw [hl] at hl' hl''
  simp only [Except.ok.injEq] at hl' hl''
  subst hl'
  have hn : ∀ i, near i ↔ i ∈ l.map Prod.fst := fun i => (hsh.which i).symm
  rw [← hl''] at hr
  rcases hr with ⟨rfl, _⟩ | ⟨p, q, hpq, hq, rfl, _⟩
  · simp [hn, cellRadius]
  · have hrad : cellRadius r (listed md a b p q) = nanMax ((List.range (q + 1 - p)).map fun k => r (p + k)) := by
      unfold cellRadius
      have h1 : (listed md a b p q).head? = some (p, overlap a b (md p) (md (p + 1)) / (md (p + 1) - md p),
          overlap a b (md p) (md (p + 1)) / (b - a)) := by
        unfold listed
        obtain ⟨d, rfl⟩ : ∃ d, q = p + d := ⟨q - p, by omega⟩
        rw [show p + d + 1 - p = d + 1 by omega, List.range_succ_eq_map]
        simp
      have h2 : ∃ y z, (listed md a b p q).getLast? = some (q, y, z) := by
        unfold listed
        obtain ⟨d, rfl⟩ : ∃ d, q = p + d := ⟨q - p, by omega⟩
        rw [show p + d + 1 - p = d + 1 by omega, List.range_succ, List.map_append, List.map_singleton, List.getLast?_append]
        simp
      obtain ⟨y, z, h2⟩ := h2
      rw [h1, h2]
    have hmem : ∀ i, near i ↔ p ≤ i ∧ i ≤ q := by
      intro i
      rw [hn]
      simp only [listed, List.map_map, List.mem_map, List.mem_range, Function.comp]
      constructor
      · rintro ⟨k, hk, rfl⟩
        omega
      · rintro ⟨h1, h2⟩
        exact ⟨i - p, by omega, by omega⟩
    rw [hrad]
    obtain ⟨n1, n2⟩ := nanMax_spec ((List.range (q + 1 - p)).map fun k => r (p + k))
    have hin : ∀ i, near i → r i ∈ (List.range (q + 1 - p)).map fun k => r (p + k) := by
      intro i hi
      rw [hmem] at hi
      exact List.mem_map.2 ⟨i - p, by simp; omega, by congr 1; omega⟩
    have hout : ∀ x ∈ (List.range (q + 1 - p)).map (fun k => r (p + k)), ∃ i, near i ∧ r i = x := by
      intro x hx
      obtain ⟨k, hk, rfl⟩ := List.mem_map.1 hx
      rw [List.mem_range] at hk
      exact ⟨p + k, (hmem _).2 (by omega), rfl⟩
    refine ⟨?_, ?_⟩
    · rw [n1]
      constructor
      · intro hx i hi
        exact hx _ (hin i hi)
      · intro hx x hx'
        obtain ⟨i, hi, rfl⟩ := hout x hx'
        exact hx i hi
    · intro m hm
      obtain ⟨m1, m2⟩ := n2 m hm
      refine ⟨hout _ m1, ?_⟩
      intro i x hi hx
      apply m2
      rw [← hx]
      exact hin i hi

/-- The cell from 10 to 20 lies in the interval with the radius 1, but gets the radius 5 of the interval which ends at its entry. -/
theorem C157_radius_violated : ∃ l, cellContrib [(0 : ℚ), 10, 20] 10 20 = .ok l ∧
    cellRadius (fun i => some (if i = 0 then 5 else 1)) l = some 5 := by
  refine ⟨[(0, 0, 0), (1, 1, 1)], by decide +kernel, by decide +kernel⟩

/-- the sums for a cell across three intervals -/
example : ∃ l, cellContrib [(0 : ℚ), 10, 20, 40] 5 30 = .ok l ∧ cellActive (fun i => i != 1) 5 30 l = (true, 3 / 5, 2, 15) ∧
    cellKh (fun i => if i = 1 then none else some 8) l = 8 ∧ cellSkin (fun i => if i = 1 then none else some (i : ℚ)) l = some (4 / 3) := by
  refine ⟨[(0, 1 / 2, 1 / 5), (1, 1, 2 / 5), (2, 1 / 2, 2 / 5)], by decide +kernel, by decide +kernel, by decide +kernel, by decide +kernel⟩

end Verif.Frame
