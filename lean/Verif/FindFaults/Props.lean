import Verif.FindFaults.Lemmas
import Mathlib.Tactic.FieldSimp
import Mathlib.Algebra.Order.Group.MinMax

/-! # C199, C200: the faults of a grid and their throws -/

namespace Verif.FindFaults

/-- C199: a face has fault number zero just when the columns on both sides share its pillars. -/
theorem C199_zero (p : Pillars) (nj ni : Nat) (f : Face) (hf : Inside nj ni f) :
    (findFaults p nj ni).1 f = 0 ↔ ¬ Split p f := by
  have h := (merge_inv p nj ni).pos f
  show merge nj ni (number p nj ni).id f = 0 ↔ _
  constructor
  · intro h0 hs
    have := h.2 ⟨hf, hs⟩; omega
  · intro hs
    by_contra hc
    exact hs (h.1 (Nat.pos_of_ne_zero hc)).2

/-- C199: two split faces have the same fault number just when they are joined by faces next to each other in a line or meeting alone at a pillar. -/
theorem C199_same_fault (p : Pillars) (nj ni : Nat) (f g : Face) (hf : Inside nj ni f) (sf : Split p f) :
    (findFaults p nj ni).1 f = (findFaults p nj ni).1 g ↔ Joined nj ni p f g := by
  have h := merge_inv p nj ni
  show merge nj ni (number p nj ni).id f = merge nj ni (number p nj ni).id g ↔ _
  constructor
  · exact h.conn f g ((h.pos f).2 ⟨hf, sf⟩)
  · intro hj
    clear hf sf
    induction hj with
    | rel x y hl =>
      obtain ⟨a, b, c, d, hn | ⟨j, i, h1, h2⟩⟩ := hl
      · exact h.next x y hn a b c d
      · refine h.meet j i ?_ x y c d h1 h2
        rcases h1 with ⟨rfl, _⟩ | ⟨rfl, _⟩ <;> rcases h2 with ⟨rfl, _⟩ | ⟨rfl, _⟩ <;> simp only [Inside] at a b <;> omega
    | refl => rfl
    | symm x y hxy ih => exact ih.symm
    | trans x y z h1 h2 ih1 ih2 => exact ih1.trans ih2

/-- C199 (in part): where some face is not split, each split face is in the list of faces of just one fault, and the faces listed for a fault are
joined.  Missing: grids with every face split (`C199_all_split_violated`). -/
theorem C199_listed_partial (p : Pillars) (nj ni : Nat) (u : Face) (hu : Inside nj ni u) (su : ¬ Split p u) :
    (∀ f, Inside nj ni f → Split p f → ∃! e, e ∈ (findFaults p nj ni).2 ∧ f ∈ e.2) ∧
    (∀ e ∈ (findFaults p nj ni).2, e.2 ≠ [] ∧ (∀ f ∈ e.2, Inside nj ni f ∧ Split p f ∧ (findFaults p nj ni).1 f = e.1) ∧
      ∀ f ∈ e.2, ∀ g, g ∈ e.2 ↔ Inside nj ni g ∧ Joined nj ni p f g) := by
  have same := C199_same_fault p nj ni
  have hpos := (merge_inv p nj ni).pos
  have hz := C199_zero p nj ni u hu
  have hid : (findFaults p nj ni).1 = merge nj ni (number p nj ni).id := rfl
  have h2 : (findFaults p nj ni).2 = (faultIds nj ni (findFaults p nj ni).1).map fun n => (n, (faces nj ni).filter fun f => (findFaults p nj ni).1 f = n) := rfl
  rw [← hid] at hpos
  rw [h2]
  generalize (findFaults p nj ni).1 = id at *
  have mem : ∀ x, x ∈ faultIds nj ni id ↔ ∃ f, Inside nj ni f ∧ Split p f ∧ id f = x := by
    intro x
    unfold faultIds
    rw [mem_drop]
    simp only [List.mem_map, mem_faces]
    constructor
    · rintro ⟨⟨f, hf, rfl⟩, y, _, hlt⟩
      exact ⟨f, hf, ((hpos f).1 (by omega)).2, rfl⟩
    · rintro ⟨f, hf, sf, rfl⟩
      exact ⟨⟨f, hf, rfl⟩, 0, ⟨u, hu, hz.2 su⟩, (hpos f).2 ⟨hf, sf⟩⟩
  constructor
  · intro f hf sf
    refine ⟨_, ⟨List.mem_map.2 ⟨id f, (mem _).2 ⟨f, hf, sf, rfl⟩, rfl⟩, ?_⟩, ?_⟩
    · simp [mem_faces, hf]
    · rintro e ⟨he, hfe⟩
      obtain ⟨n, _, rfl⟩ := List.mem_map.1 he
      have : id f = n := by simpa [mem_faces, hf] using hfe
      rw [this]
  · intro e he
    obtain ⟨n, hn, rfl⟩ := List.mem_map.1 he
    obtain ⟨f0, hf0, sf0, e0⟩ := (mem n).1 hn
    have hn0 : 0 < n := e0 ▸ (hpos f0).2 ⟨hf0, sf0⟩
    refine ⟨?_, ?_, ?_⟩
    · refine List.ne_nil_of_mem (a := f0) ?_
      simp [mem_faces, hf0, e0]
    · intro f hf
      simp only [List.mem_filter, mem_faces, decide_eq_true_eq] at hf
      exact ⟨hf.1, ((hpos f).1 (by omega)).2, hf.2⟩
    · intro f hf g
      simp only [List.mem_filter, mem_faces, decide_eq_true_eq] at hf ⊢
      rw [← same f g hf.1 ((hpos f).1 (by omega)).2, hf.2]
      constructor
      · rintro ⟨a, b⟩; exact ⟨a, b.symm⟩
      · rintro ⟨a, b⟩; exact ⟨a, b.symm⟩

/-- C199 fails: where every face is split one fault, with all its faces, is missing from the list of faults. -/
theorem C199_all_split_violated (p : Pillars) (nj ni : Nat) (u : Face) (hu : Inside nj ni u) (hs : ∀ f, Inside nj ni f → Split p f) :
    ∃ f, Inside nj ni f ∧ Split p f ∧ ∀ g, Joined nj ni p f g → ∀ e ∈ (findFaults p nj ni).2, g ∉ e.2 := by
  have same := C199_same_fault p nj ni
  have h2 : (findFaults p nj ni).2 = (faultIds nj ni (findFaults p nj ni).1).map fun n => (n, (faces nj ni).filter fun f => (findFaults p nj ni).1 f = n) := rfl
  rw [h2]
  generalize (findFaults p nj ni).1 = id at *
  have hne : ∃ n, ∃ f, Inside nj ni f ∧ id f = n := ⟨_, u, hu, rfl⟩
  classical
  obtain ⟨f, hf, e⟩ := Nat.find_spec hne
  refine ⟨f, hf, hs f hf, ?_⟩
  intro g hg e' he' hge
  obtain ⟨n, hn, rfl⟩ := List.mem_map.1 he'
  simp only [List.mem_filter, mem_faces, decide_eq_true_eq] at hge
  unfold faultIds at hn
  rw [mem_drop] at hn
  obtain ⟨_, y, hy, hlt⟩ := hn
  simp only [List.mem_map, mem_faces] at hy
  obtain ⟨f', hf', rfl⟩ := hy
  have := Nat.find_min' hne ⟨f', hf', rfl⟩
  have h3 := (same f g hf (hs f hf)).2 hg
  omega

/-- C200: the throw of a J face which is on a fault is the mean over its corners of the difference in depth; zero elsewhere. -/
theorem C200_throw_j (p : Pillars) (nj ni : Nat) (z : Nat → Nat → Nat → Nat → Nat → Nat → ℚ) (k j i : Nat) (hf : Inside nj ni (.j j i)) :
    (Split p (.j j i) → throwJ (findFaults p nj ni).1 z k j i = MeanThrow (fun kp ip => z k j i kp 1 ip) (fun kp ip => z k (j + 1) i kp 0 ip)) ∧
    (¬ Split p (.j j i) → throwJ (findFaults p nj ni).1 z k j i = 0) := by
  have h := C199_zero p nj ni _ hf
  constructor
  · intro hs
    rw [throwJ, if_neg (fun h0 => h.1 h0 hs)]
    simp only [corners, MeanThrow]; ring
  · intro hs
    rw [throwJ, if_pos (h.2 hs)]

/-- C200 fails for I faces: the last column takes the place of the first of the two columns, so the throw is right just when the depths of their I+
faces add up to the same. -/
theorem C200_throw_i_violated (p : Pillars) (nj ni : Nat) (z : Nat → Nat → Nat → Nat → Nat → Nat → ℚ) (k j i : Nat) (hf : Inside nj ni (.i j i))
    (hs : Split p (.i j i)) :
    (throwI ni (findFaults p nj ni).1 z k j i = MeanThrow (fun kp jp => z k j i kp jp 1) (fun kp jp => z k j (i + 1) kp jp 0) ↔
      z k j i 0 0 1 + z k j i 0 1 1 + z k j i 1 0 1 + z k j i 1 1 1 =
        z k j (ni - 1) 0 0 1 + z k j (ni - 1) 0 1 1 + z k j (ni - 1) 1 0 1 + z k j (ni - 1) 1 1 1) := by
  have h := C199_zero p nj ni _ hf
  rw [throwI, if_neg (fun h0 => h.1 h0 hs)]
  simp only [corners, MeanThrow]
  constructor <;> intro e <;> linarith

theorem foldl_min_le (l : List ℚ) : ∀ x, l.foldl min x ≤ x ∧ ∀ y ∈ l, l.foldl min x ≤ y := by
  induction l with
  | nil => intro x; simp
  | cons a l ih =>
    intro x
    rw [List.foldl_cons]
    obtain ⟨h1, h2⟩ := ih (min x a)
    refine ⟨h1.trans (min_le_left _ _), fun y hy => ?_⟩
    rcases List.mem_cons.1 hy with rfl | hy
    · exact h1.trans (min_le_right _ _)
    · exact h2 y hy

theorem le_foldl_max (l : List ℚ) : ∀ x, x ≤ l.foldl max x ∧ ∀ y ∈ l, y ≤ l.foldl max x := by
  induction l with
  | nil => intro x; simp
  | cons a l ih =>
    intro x
    rw [List.foldl_cons]
    obtain ⟨h1, h2⟩ := ih (max x a)
    refine ⟨(le_max_left _ _).trans h1, fun y hy => ?_⟩
    rcases List.mem_cons.1 hy with rfl | hy
    · exact (le_max_right _ _).trans h1
    · exact h2 y hy

theorem least_le (l : List ℚ) (y : ℚ) (hy : y ∈ l) : least l ≤ y := by
  cases l with
  | nil => simp at hy
  | cons a l =>
    rcases List.mem_cons.1 hy with rfl | hy
    · exact (foldl_min_le l _).1
    · exact (foldl_min_le l a).2 y hy

theorem le_greatest (l : List ℚ) (y : ℚ) (hy : y ∈ l) : y ≤ greatest l := by
  cases l with
  | nil => simp at hy
  | cons a l =>
    rcases List.mem_cons.1 hy with rfl | hy
    · exact (le_foldl_max l _).1
    · exact (le_foldl_max l a).2 y hy

theorem edge_const (mode : Mode) (n : Nat) (c d : ℚ) :
    edgeThrow mode ((List.range (n + 1)).map fun _ => c) ((List.range (n + 1)).map fun _ => d) = (c + d) / 2 := by
  have hc : ∀ (l : List Nat) (c : ℚ), (l.map fun _ => c).foldl min c = c ∧ (l.map fun _ => c).foldl max c = c ∧ (l.map fun _ => c).sum = l.length * c := by
    intro l c
    induction l with
    | nil => simp
    | cons a l ih => refine ⟨by simpa using ih.1, by simpa using ih.2.1, ?_⟩; simp [ih.2.2]; ring
  have h1 : ∀ c : ℚ, least ((List.range (n + 1)).map fun _ => c) = c := by
    intro c; rw [List.range_succ_eq_map, List.map_cons, List.map_map]; exact (hc (List.range n) c).1
  have h2 : ∀ c : ℚ, greatest ((List.range (n + 1)).map fun _ => c) = c := by
    intro c; rw [List.range_succ_eq_map, List.map_cons, List.map_map]; exact (hc (List.range n) c).2.1
  cases mode with
  | mean =>
    simp only [edgeThrow, (hc _ _).2.2, List.length_map, List.length_range]
    have : ((n + 1 : Nat) : ℚ) ≠ 0 := by exact_mod_cast Nat.succ_ne_zero n
    field_simp; ring
  | maximum => simp only [edgeThrow, h1, h2, ite_self]
  | minimum => simp only [edgeThrow, h1, h2, ite_self]

/-- C200: the edges of two neighbouring columns have opposite throws, in every mode; edges at the sides of the grid have none. -/
theorem C200_opposite (mode : Mode) (p : Pillars) (z : Nat → Nat → ℚ) (nk nj ni j i : Nat) :
    (j + 1 < nj → edgeThrows mode p z nk nj ni (j + 1) i 0 0 = -edgeThrows mode p z nk nj ni j i 0 1) ∧
    (i + 1 < ni → edgeThrows mode p z nk nj ni j (i + 1) 1 0 = -edgeThrows mode p z nk nj ni j i 1 1) ∧
    edgeThrows mode p z nk nj ni 0 i 0 0 = 0 ∧ edgeThrows mode p z nk nj ni j 0 1 0 = 0 ∧
    (j + 1 = nj → edgeThrows mode p z nk nj ni j i 0 1 = 0) ∧ (i + 1 = ni → edgeThrows mode p z nk nj ni j i 1 1 = 0) := by
  refine ⟨fun h => ?_, fun h => ?_, ?_, ?_, fun h => ?_, fun h => ?_⟩ <;> simp [edgeThrows, *]

/-- C200: an edge which is not on a fault has throw zero; where all points of a column lie deeper by the same amount than those of the next, the throw of
its edge is that amount, whatever the mode. -/
theorem C200_uniform (mode : Mode) (p : Pillars) (z : Nat → Nat → ℚ) (nk nj ni j i : Nat) :
    (Inside nj ni (.j j i) → ¬ Split p (.j j i) → edgeThrows mode p z nk nj ni j i 0 1 = 0) ∧
    (Inside nj ni (.i j i) → ¬ Split p (.i j i) → edgeThrows mode p z nk nj ni j i 1 1 = 0) ∧
    (∀ c, Inside nj ni (.j j i) → (∀ k ip, k ≤ nk → ip < 2 → z k (p j i 1 ip) = z k (p (j + 1) i 0 ip) + c) → edgeThrows mode p z nk nj ni j i 0 1 = c) ∧
    (∀ c, Inside nj ni (.i j i) → (∀ k jp, k ≤ nk → jp < 2 → z k (p j i jp 1) = z k (p j (i + 1) jp 0) + c) → edgeThrows mode p z nk nj ni j i 1 1 = c) := by
  have hj : ∀ c, Inside nj ni (.j j i) → (∀ k ip, k ≤ nk → ip < 2 → z k (p j i 1 ip) = z k (p (j + 1) i 0 ip) + c) → edgeThrows mode p z nk nj ni j i 0 1 = c := by
    intro c hin h
    have e : ∀ ip, ip < 2 → sepJ p z nk j i ip = (List.range (nk + 1)).map fun _ => c := by
      intro ip hip
      refine List.map_congr_left fun k hk => ?_
      rw [h k ip (by have := List.mem_range.1 hk; omega) hip]; ring
    have h1 : j + 1 < nj := hin.1
    simp only [edgeThrows, if_true, if_pos h1, one_ne_zero, if_false, e 0 (by omega), e 1 (by omega), edge_const]; ring
  have hi : ∀ c, Inside nj ni (.i j i) → (∀ k jp, k ≤ nk → jp < 2 → z k (p j i jp 1) = z k (p j (i + 1) jp 0) + c) → edgeThrows mode p z nk nj ni j i 1 1 = c := by
    intro c hin h
    have e : ∀ jp, jp < 2 → sepI p z nk j i jp = (List.range (nk + 1)).map fun _ => c := by
      intro jp hjp
      refine List.map_congr_left fun k hk => ?_
      rw [h k jp (by have := List.mem_range.1 hk; omega) hjp]; ring
    have h1 : i + 1 < ni := hin.2
    simp only [edgeThrows, if_pos h1, one_ne_zero, if_false, e 0 (by omega), e 1 (by omega), edge_const]; ring
  refine ⟨fun hin hs => hj 0 hin ?_, fun hin hs => hi 0 hin ?_, hj, hi⟩
  · intro k ip _ hip
    have hs := not_not.1 hs
    rcases (by omega : ip = 0 ∨ ip = 1) with rfl | rfl
    · rw [hs.1]; ring
    · rw [hs.2]; ring
  · intro k jp _ hjp
    have hs := not_not.1 hs
    rcases (by omega : jp = 0 ∨ jp = 1) with rfl | rfl
    · rw [hs.1]; ring
    · rw [hs.2]; ring

/-- C200: the order I-, J+, I+, J- holds the same throws. -/
theorem C200_orders (mode : Mode) (p : Pillars) (z : Nat → Nat → ℚ) (nk nj ni j i : Nat) :
    edgeThrowsResqml mode p z nk nj ni j i 0 = edgeThrows mode p z nk nj ni j i 1 0 ∧
    edgeThrowsResqml mode p z nk nj ni j i 1 = edgeThrows mode p z nk nj ni j i 0 1 ∧
    edgeThrowsResqml mode p z nk nj ni j i 2 = edgeThrows mode p z nk nj ni j i 1 1 ∧
    edgeThrowsResqml mode p z nk nj ni j i 3 = edgeThrows mode p z nk nj ni j i 0 0 := by
  simp [edgeThrowsResqml, edgeThrows]

theorem least_mem (l : List ℚ) (h : l ≠ []) : least l ∈ l := by
  cases l with
  | nil => exact absurd rfl h
  | cons a l =>
    have : ∀ (l : List ℚ) (a : ℚ), l.foldl min a = a ∨ l.foldl min a ∈ l := by
      intro l
      induction l with
      | nil => intro a; exact Or.inl rfl
      | cons b l ih =>
        intro a
        rw [List.foldl_cons]
        rcases ih (min a b) with h | h
        · rw [h]
          rcases min_choice a b with e | e <;> rw [e]
          · exact Or.inl rfl
          · exact Or.inr (by simp)
        · exact Or.inr (by simp [h])
    rcases this l a with h | h <;> simp [least, h]

theorem least_neg (l : List ℚ) : least (l.map fun x => -x) = -greatest l ∧ greatest (l.map fun x => -x) = -least l := by
  cases l with
  | nil => simp [least, greatest]
  | cons a l =>
    have : ∀ (l : List ℚ) (a : ℚ), (l.map fun x => -x).foldl min (-a) = -(l.foldl max a) ∧ (l.map fun x => -x).foldl max (-a) = -(l.foldl min a) := by
      intro l
      induction l with
      | nil => intro a; simp
      | cons b l ih =>
        intro a
        have h1 := (ih (max a b)).1
        have h2 := (ih (min a b)).2
        rw [← min_neg_neg] at h1
        rw [← max_neg_neg] at h2
        exact ⟨h1, h2⟩
    exact this l a

theorem greatest_mem (l : List ℚ) (h : l ≠ []) : greatest l ∈ l := by
  have h1 := least_mem (l.map fun x => -x) (by simpa using h)
  rw [(least_neg l).1, List.mem_map] at h1
  obtain ⟨x, hx, e⟩ := h1
  rw [← neg_injective e]; exact hx

/-- C200 (in part): where no separation is negative, minimum and maximum are means, over the two pillars, of the least and of the greatest separations;
where none is positive it is the same with the other sign.  Missing: separations of both signs (`C200_minimum_violated`). -/
theorem C200_modes_partial (a b : List ℚ) (na : a ≠ []) (nb : b ≠ []) (ha : ∀ x ∈ a, 0 ≤ x) (hb : ∀ x ∈ b, 0 ≤ x) :
    (∀ x ∈ a, ∀ y ∈ b, edgeThrow .minimum a b ≤ (x + y) / 2 ∧ (x + y) / 2 ≤ edgeThrow .maximum a b) ∧
    (∃ x ∈ a, ∃ y ∈ b, edgeThrow .minimum a b = (x + y) / 2) ∧ (∃ x ∈ a, ∃ y ∈ b, edgeThrow .maximum a b = (x + y) / 2) ∧
    ∀ mode, edgeThrow mode (a.map fun x => -x) (b.map fun x => -x) = -edgeThrow mode a b := by
  have ma := least_mem a na
  have mb := least_mem b nb
  have ga := greatest_mem a na
  have gb := greatest_mem b nb
  have p1 := ha _ ma
  have p2 := hb _ mb
  have q1 := le_greatest a _ ma
  have q2 := le_greatest b _ mb
  have e1 : |(least a + least b) / 2| = (least a + least b) / 2 := abs_of_nonneg (by linarith)
  have e2 : |(greatest a + greatest b) / 2| = (greatest a + greatest b) / 2 := abs_of_nonneg (by linarith)
  have hno : ¬ |(least a + least b) / 2| > |(greatest a + greatest b) / 2| := by rw [e1, e2]; linarith
  have k1 : edgeThrow .minimum a b = (least a + least b) / 2 := by simp only [edgeThrow, if_neg hno]
  have k2 : edgeThrow .maximum a b = (greatest a + greatest b) / 2 := by simp only [edgeThrow, if_neg hno]
  refine ⟨fun x hx y hy => ?_, ⟨_, ma, _, mb, k1⟩, ⟨_, ga, _, gb, k2⟩, fun mode => ?_⟩
  · have := least_le a x hx
    have := least_le b y hy
    have := le_greatest a x hx
    have := le_greatest b y hy
    rw [k1, k2]
    constructor <;> linarith
  · have s1 : (-greatest a + -greatest b) / 2 = -((greatest a + greatest b) / 2) := by ring
    have s2 : (-least a + -least b) / 2 = -((least a + least b) / 2) := by ring
    cases mode with
    | mean =>
      have hs : ∀ l : List ℚ, (l.map fun x => -x).sum = -l.sum := by
        intro l
        induction l with
        | nil => simp
        | cons c l ih => simp only [List.map_cons, List.sum_cons, ih]; ring
      simp only [edgeThrow, hs, List.length_map]; ring
    | maximum =>
      rw [k2]
      simp only [edgeThrow, (least_neg a).1, (least_neg a).2, (least_neg b).1, (least_neg b).2, s1, s2, abs_neg, e1, e2]
      split
      · rfl
      · linarith
    | minimum =>
      rw [k1]
      simp only [edgeThrow, (least_neg a).1, (least_neg a).2, (least_neg b).1, (least_neg b).2, s1, s2, abs_neg, e1, e2]
      split
      · rfl
      · linarith

/-- C200 fails: with separations of both signs the least absolute throw is not found, not even where a separation is zero. -/
theorem C200_minimum_violated (a : List ℚ) (x y : ℚ) (hx : x ∈ a) (hy : y ∈ a) (x0 : x < 0) (y0 : 0 < y) (_h0 : 0 ∈ a) :
    edgeThrow .minimum a a ≠ 0 := by
  have l1 := least_le a x hx
  have g1 := le_greatest a y hy
  simp only [edgeThrow]
  split
  · intro h; linarith
  · intro h; linarith

/-- Four columns; the first has pillars of its own. -/
def exPillars : Pillars := fun j i jp ip => if j = 0 ∧ i = 0 ∧ (jp = 1 ∨ ip = 1) then 100 + 2 * jp + ip else (j + jp) * 10 + (i + ip)

/-- Its J+ face and I+ face meet alone at the inner pillar: one fault. -/
example : (findFaults exPillars 2 2).2 = [(1, [.j 0 0, .i 0 0])] := by decide +kernel

example : Inside 2 2 (.j 0 1) ∧ ¬ Split exPillars (.j 0 1) ∧ Split exPillars (.j 0 0) := by
  simp [Inside, Split, exPillars]

/-- Two columns with a fault between: no fault is listed. -/
example : (∀ f, Inside 1 2 f → Split exPillars f) ∧ (findFaults exPillars 1 2).2 = [] ∧ (findFaults exPillars 1 2).1 (.i 0 0) = 1 := by
  refine ⟨?_, by decide +kernel, by decide +kernel⟩
  intro f hf
  cases f with
  | j a b => simp [Inside] at hf
  | i a b =>
    simp only [Inside] at hf
    obtain ⟨rfl, rfl⟩ : a = 0 ∧ b = 0 := by omega
    simp [Split, exPillars]

/-- Three columns at depths 0, 5 and 7: the throw of the first fault is 5, but -2 comes out. -/
example : let z : Nat → Nat → Nat → Nat → Nat → Nat → ℚ := fun _ _ i _ _ _ => if i = 0 then 0 else if i = 1 then 5 else 7
    MeanThrow (fun kp jp => z 0 0 0 kp jp 1) (fun kp jp => z 0 0 1 kp jp 0) = 5 ∧ throwI 3 (findFaults exPillars 1 3).1 z 0 0 0 = -2 := by decide +kernel

example : edgeThrow .minimum [-1, 0, 2] [-1, 0, 2] = -1 ∧ edgeThrow .minimum [1, 2] [3, 5] = 2 ∧ edgeThrow .maximum [1, 2] [3, 5] = 7 / 2 := by decide +kernel

end Verif.FindFaults
