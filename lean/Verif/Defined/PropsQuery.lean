import Verif.Defined.Props

/-!
# C190: answers about stored flags, in any order and with or without caching
-/

namespace Verif.Defined
open Verif.Py

/-- A question about cells: about one of them, or about all, with or without caching. -/
inductive CellOp where
  | ask (k j i : Nat) (cache : Bool)
  | askAll (cache : Bool)

/-- The answers to a sequence of questions about cells. -/
def runCells (d : Dims) (node : Option (Node Arr3)) : List CellOp → St → List (Res (Option Bool))
  | [], _ => []
  | .ask k j i c :: rest, s =>
    (cellQuery d node (some (k, j, i)) c s).1 :: runCells d node rest (cellQuery d node (some (k, j, i)) c s).2
  | .askAll c :: rest, s => (allCellsQuery d node c s).1 :: runCells d node rest (allCellsQuery d node c s).2

/-- The answers expected from the stored array. -/
def expectCell (d : Dims) (a : Arr3) : CellOp → Res (Option Bool)
  | .ask k j i _ => .ok (some (a k j i))
  | .askAll _ => .ok (some (decide (∀ k < d.nk, ∀ j < d.nj, ∀ i < d.ni, a k j i = true)))

/-- The question is about a cell of the grid. -/
def CellOp.InRange (d : Dims) : CellOp → Prop
  | .ask k j i _ => k < d.nk ∧ j < d.nj ∧ i < d.ni
  | .askAll _ => True

/-- What is cached agrees with what is stored. -/
def CellInv (d : Dims) (a : Arr3) (s : St) : Prop :=
  (s.allCells = none ∨ s.allCells = some (allCellsOf d a)) ∧ (s.cellArr = none ∨ s.cellArr = some a)

theorem allCellsOf_iff {d : Dims} {a : Arr3} :
    allCellsOf d a = true ↔ ∀ k < d.nk, ∀ j < d.nj, ∀ i < d.ni, a k j i = true := by
  unfold allCellsOf
  simp only [allN_iff]

theorem cellQuery_inv {d : Dims} {a : Arr3} {s : St} (h : CellInv d a s) (c : Bool) {k j i : Nat} (hk : k < d.nk)
    (hj : j < d.nj) (hi : i < d.ni) :
    (cellQuery d (some (.h5 (some a))) (some (k, j, i)) c s).1 = .ok (some (a k j i)) ∧
      CellInv d a (cellQuery d (some (.h5 (some a))) (some (k, j, i)) c s).2 := by
  obtain ⟨h1, h2⟩ := h
  unfold cellQuery
  by_cases g : s.allCells = some true
  · rw [if_pos g]
    have : allCellsOf d a = true := by
      rcases h1 with h1 | h1
      · rw [h1] at g; cases g
      · rw [h1] at g; injection g
    refine ⟨by rw [allCellsOf_iff.mp this k hk j hj i hi], ⟨h1, h2⟩⟩
  · rw [if_neg g]
    rcases h2 with h2 | h2
    · rw [h2]
      dsimp only
      have hx : (some (k, j, i) : Option (Nat × Nat × Nat)).isNone = false := rfl
      rw [hx]
      simp only [Bool.false_eq_true, if_false]
      refine ⟨rfl, ?_⟩
      unfold CellInv
      cases c with
      | false =>
        simp only [Bool.false_eq_true, and_false, if_false]
        exact ⟨h1, Or.inl h2⟩
      | true =>
        simp only [and_true, if_true]
        split_ifs with e1 e2
        · exact ⟨Or.inr (by rw [e2]), Or.inl rfl⟩
        · exact ⟨Or.inr (by simp at e2; rw [e2]), Or.inr rfl⟩
        · exact ⟨h1, Or.inr rfl⟩
    · rw [h2]
      dsimp only
      split_ifs with e
      · exact ⟨by rw [allCellsOf_iff.mp e k hk j hj i hi], Or.inr rfl, Or.inr rfl⟩
      · exact ⟨rfl, Or.inr rfl, Or.inr rfl⟩

theorem cellLoop_inv {d : Dims} {a : Arr3} : ∀ (l : List (Nat × Nat × Nat)) (s : St), CellInv d a s →
    (∀ c ∈ l, c.1 < d.nk ∧ c.2.1 < d.nj ∧ c.2.2 < d.ni) →
    (cellLoop d (some (.h5 (some a))) l s).1 = .ok (l.all fun c => a c.1 c.2.1 c.2.2) ∧
      CellInv d a (cellLoop d (some (.h5 (some a))) l s).2 := by
  intro l
  induction l with
  | nil => intro s h _; exact ⟨rfl, h⟩
  | cons x rest ih =>
    intro s h hr
    obtain ⟨k, j, i⟩ := x
    obtain ⟨r1, r2, r3⟩ := hr _ (List.mem_cons_self ..)
    obtain ⟨q1, q2⟩ := cellQuery_inv h false r1 r2 r3
    rw [cellLoop]
    generalize hq : cellQuery d (some (.h5 (some a))) (some (k, j, i)) false s = q at q1 q2
    obtain ⟨qa, qs⟩ := q
    dsimp only at q1 q2
    subst q1
    dsimp only
    cases ha : a k j i with
    | true =>
      rw [if_pos rfl]
      obtain ⟨i1, i2⟩ := ih qs q2 (fun c hc => hr c (List.mem_cons_of_mem _ hc))
      refine ⟨?_, i2⟩
      rw [i1, List.all_cons, ha, Bool.true_and]
    | false =>
      rw [if_neg (by simp)]
      exact ⟨by rw [List.all_cons, ha, Bool.false_and], q2⟩

theorem cellList_mem {d : Dims} {c : Nat × Nat × Nat} :
    c ∈ cellList d ↔ c.1 < d.nk ∧ c.2.1 < d.nj ∧ c.2.2 < d.ni := by
  unfold cellList
  simp only [List.mem_flatMap, List.mem_range, List.mem_map]
  constructor
  · rintro ⟨k, hk, j, hj, i, hi, rfl⟩; exact ⟨hk, hj, hi⟩
  · rintro ⟨h1, h2, h3⟩; exact ⟨_, h1, _, h2, _, h3, rfl⟩

theorem allCellsQuery_inv {d : Dims} {a : Arr3} {s : St} (h : CellInv d a s) (c : Bool) :
    (allCellsQuery d (some (.h5 (some a))) c s).1 = .ok (some (allCellsOf d a)) ∧
      CellInv d a (allCellsQuery d (some (.h5 (some a))) c s).2 := by
  unfold allCellsQuery
  obtain ⟨h1, h2⟩ := h
  rcases h1 with h1 | h1
  · rw [h1]
    dsimp only
    cases c with
    | true =>
      simp only [if_true]
      have key : ∃ r, (cellQuery d (some (.h5 (some a))) none true s).1 = .ok r ∧
          (cellQuery d (some (.h5 (some a))) none true s).2.allCells = some (allCellsOf d a) ∧
          ((cellQuery d (some (.h5 (some a))) none true s).2.cellArr = none ∨
            (cellQuery d (some (.h5 (some a))) none true s).2.cellArr = some a) := by
        unfold cellQuery
        rw [if_neg (by rw [h1]; simp)]
        rcases h2 with h2 | h2
        · rw [h2]
          dsimp only
          simp only [h1, Option.isNone_none, if_true, and_self]
          split_ifs with e
          · exact ⟨_, rfl, by rw [e], Or.inl rfl⟩
          · exact ⟨_, rfl, by simp at e; rw [e], Or.inr rfl⟩
        · rw [h2]
          dsimp only
          split_ifs with e
          · exact ⟨_, rfl, rfl, Or.inr rfl⟩
          · exact ⟨_, rfl, rfl, Or.inr rfl⟩
      obtain ⟨r, k1, k2, k3⟩ := key
      generalize cellQuery d (some (.h5 (some a))) none true s = q at k1 k2 k3
      obtain ⟨qa, qs⟩ := q
      dsimp only at k1 k2 k3
      subst k1
      dsimp only
      exact ⟨by rw [k2], Or.inr k2, k3⟩
    | false =>
      simp only [Bool.false_eq_true, if_false]
      obtain ⟨i1, i2⟩ := cellLoop_inv (a := a) (cellList d) s ⟨Or.inl h1, h2⟩ (fun c hc => cellList_mem.mp hc)
      have hall : ((cellList d).all fun c => a c.1 c.2.1 c.2.2) = allCellsOf d a := by
        rw [Bool.eq_iff_iff, allCellsOf_iff, List.all_eq_true]
        constructor
        · intro g k hk j hj i hi
          exact g (k, j, i) (cellList_mem.mpr ⟨hk, hj, hi⟩)
        · intro g c hc
          obtain ⟨g1, g2, g3⟩ := cellList_mem.mp hc
          exact g _ g1 _ g2 _ g3
      rw [hall] at i1
      generalize cellLoop d (some (.h5 (some a))) (cellList d) s = q at i1 i2
      obtain ⟨qa, qs⟩ := q
      dsimp only at i1 i2
      subst i1
      exact ⟨rfl, Or.inr rfl, i2.2⟩
  · rw [h1]
    exact ⟨rfl, Or.inr h1, h2⟩

/-- **C190**: on a grid as loaded, with an array of flags stored for its cells, every sequence of questions about single
cells and about all cells, each with or without caching, is answered from the stored array. -/
theorem C190_cells {d : Dims} {a : Arr3} : ∀ (ops : List CellOp) (s : St), s.allCells = none → s.cellArr = none →
    (∀ o ∈ ops, o.InRange d) →
    runCells d (some (.h5 (some a))) ops s = ops.map (expectCell d a) := by
  have main : ∀ (ops : List CellOp) (s : St), CellInv d a s → (∀ o ∈ ops, o.InRange d) →
      runCells d (some (.h5 (some a))) ops s = ops.map (expectCell d a) := by
    intro ops
    induction ops with
    | nil => intro s _ _; rfl
    | cons o rest ih =>
      intro s h hr
      have hr1 := hr o (List.mem_cons_self ..)
      have hr2 : ∀ o ∈ rest, o.InRange d := fun o ho => hr o (List.mem_cons_of_mem _ ho)
      cases o with
      | ask k j i c =>
        obtain ⟨g1, g2, g3⟩ := hr1
        obtain ⟨q1, q2⟩ := cellQuery_inv h c g1 g2 g3
        rw [runCells, ih _ q2 hr2, List.map_cons, q1]
        rfl
      | askAll c =>
        obtain ⟨q1, q2⟩ := allCellsQuery_inv h c
        rw [runCells, ih _ q2 hr2, List.map_cons, q1]
        have : allCellsOf d a = decide (∀ k < d.nk, ∀ j < d.nj, ∀ i < d.ni, a k j i = true) := by
          rw [Bool.eq_iff_iff, allCellsOf_iff, decide_eq_true_iff]
        rw [this]
        rfl
  intro ops s h1 h2 hr
  exact main ops s ⟨Or.inl h1, Or.inl h2⟩ hr

/-- A question about pillars: about one of them, with or without caching, or about all, with caching. -/
inductive PillarOp where
  | ask (j i : Nat) (cache : Bool)
  | askAll

/-- The answers to a sequence of questions about pillars. -/
def runPillars (d : Dims) (node : Option (Node Arr2)) : List PillarOp → St → List (Res (Option Bool))
  | [], _ => []
  | .ask j i c :: rest, s =>
    (pillarQuery d node (some (j, i)) c s).1 :: runPillars d node rest (pillarQuery d node (some (j, i)) c s).2
  | .askAll :: rest, s => (allPillarsQuery d node true s).1 :: runPillars d node rest (allPillarsQuery d node true s).2

/-- The answers expected from the stored array. -/
def expectPillar (d : Dims) (a : Arr2) : PillarOp → Res (Option Bool)
  | .ask j i _ => .ok (some (a j i))
  | .askAll => .ok (some (decide (∀ j ≤ d.nj, ∀ i ≤ d.ni, a j i = true)))

/-- The question is about a primary pillar of the grid. -/
def PillarOp.InRange (d : Dims) : PillarOp → Prop
  | .ask j i _ => j ≤ d.nj ∧ i ≤ d.ni
  | .askAll => True

/-- What is cached agrees with what is stored. -/
def PillarInv (d : Dims) (a : Arr2) (s : St) : Prop :=
  (s.allPillars = none ∧ s.pillarArr = none) ∨
    (s.allPillars = some (allPillarsOf d a) ∧ (s.pillarArr = none ∨ s.pillarArr = some a))

theorem allPillarsOf_iff {d : Dims} {a : Arr2} :
    allPillarsOf d a = true ↔ ∀ j ≤ d.nj, ∀ i ≤ d.ni, a j i = true := by
  unfold allPillarsOf
  simp only [allN_iff, Nat.lt_succ_iff]

theorem pillarQuery_inv {d : Dims} {a : Arr2} {s : St} (h : PillarInv d a s) (c : Bool) (x : Option (Nat × Nat))
    (hx : ∀ j i, x = some (j, i) → j ≤ d.nj ∧ i ≤ d.ni) :
    (∀ j i, x = some (j, i) → (pillarQuery d (some (.h5 (some a))) x c s).1 = .ok (some (a j i))) ∧
      (∃ r, (pillarQuery d (some (.h5 (some a))) x c s).1 = .ok r) ∧
      PillarInv d a (pillarQuery d (some (.h5 (some a))) x c s).2 ∧
      (c = true → (pillarQuery d (some (.h5 (some a))) x c s).2.allPillars = some (allPillarsOf d a)) := by
  unfold pillarQuery
  by_cases g : s.allPillars = some true
  · rw [if_pos g]
    have hall : allPillarsOf d a = true := by
      rcases h with ⟨h1, _⟩ | ⟨h1, _⟩
      · rw [h1] at g; cases g
      · rw [h1] at g; injection g
    refine ⟨fun j i e => ?_, ⟨_, rfl⟩, h, fun _ => by rw [g, hall]⟩
    obtain ⟨r1, r2⟩ := hx j i e
    rw [allPillarsOf_iff.mp hall j r1 i r2]
  · rw [if_neg g]
    rcases h with ⟨h1, h2⟩ | ⟨h1, h2⟩
    · rw [h2]
      dsimp only
      simp only [h1]
      cases c with
      | true =>
        simp only [and_self, if_true]
        refine ⟨fun j i e => by rw [e]; rfl, ⟨_, rfl⟩, ?_, fun _ => ?_⟩
        · split_ifs with e
          · exact Or.inr ⟨by rw [e], Or.inl rfl⟩
          · exact Or.inr ⟨by simp at e; rw [e], Or.inr rfl⟩
        · split_ifs with e
          · rw [e]
          · simp at e; rw [e]
      | false =>
        simp only [Bool.false_eq_true, and_false, if_false]
        exact ⟨fun j i e => by rw [e]; rfl, ⟨_, rfl⟩, Or.inl ⟨h1, h2⟩, fun e => by cases e⟩
    · rcases h2 with h2 | h2
      · rw [h2]
        dsimp only
        simp only [h1, reduceCtorEq, false_and, if_false]
        refine ⟨fun j i e => by rw [e]; rfl, ⟨_, rfl⟩, ?_, fun e => ?_⟩
        · cases c with
          | true => exact Or.inr ⟨rfl, Or.inr rfl⟩
          | false => exact Or.inr ⟨h1, Or.inl h2⟩
        · subst e; rfl
      · rw [h2]
        dsimp only
        cases x with
        | none => exact ⟨(fun j i e => by cases e), ⟨_, rfl⟩, Or.inr ⟨h1, Or.inr h2⟩, fun _ => h1⟩
        | some x =>
          obtain ⟨j, i⟩ := x
          refine ⟨fun j' i' e => ?_, ⟨_, rfl⟩, Or.inr ⟨h1, Or.inr h2⟩, fun _ => h1⟩
          injection e with e
          rw [Prod.mk.injEq] at e
          dsimp only
          rw [e.1, e.2]

theorem allPillarsQuery_inv {d : Dims} {a : Arr2} {s : St} (h : PillarInv d a s) :
    (allPillarsQuery d (some (.h5 (some a))) true s).1 = .ok (some (allPillarsOf d a)) ∧
      PillarInv d a (allPillarsQuery d (some (.h5 (some a))) true s).2 := by
  unfold allPillarsQuery
  cases hp : s.allPillars with
  | some b =>
    dsimp only
    have : b = allPillarsOf d a := by
      rcases h with ⟨h1, _⟩ | ⟨h1, _⟩
      · rw [h1] at hp; cases hp
      · rw [h1] at hp; injection hp with hp; exact hp.symm
    exact ⟨by rw [this], h⟩
  | none =>
    simp only [if_true]
    obtain ⟨_, ⟨r, k1⟩, k2, k3⟩ := pillarQuery_inv h true none (fun j i e => by cases e)
    have k3 := k3 rfl
    generalize pillarQuery d (some (.h5 (some a))) none true s = q at k1 k2 k3
    obtain ⟨qa, qs⟩ := q
    dsimp only at k1 k2 k3
    subst k1
    exact ⟨by dsimp only; rw [k3], k2⟩

/-- **C190**: likewise for pillars, as long as the question about all pillars is put with caching. -/
theorem C190_pillars_partial {d : Dims} {a : Arr2} : ∀ (ops : List PillarOp) (s : St), s.allPillars = none →
    s.pillarArr = none → (∀ o ∈ ops, o.InRange d) →
    runPillars d (some (.h5 (some a))) ops s = ops.map (expectPillar d a) := by
  have main : ∀ (ops : List PillarOp) (s : St), PillarInv d a s → (∀ o ∈ ops, o.InRange d) →
      runPillars d (some (.h5 (some a))) ops s = ops.map (expectPillar d a) := by
    intro ops
    induction ops with
    | nil => intro s _ _; rfl
    | cons o rest ih =>
      intro s h hr
      have hr1 := hr o (List.mem_cons_self ..)
      have hr2 : ∀ o ∈ rest, o.InRange d := fun o ho => hr o (List.mem_cons_of_mem _ ho)
      cases o with
      | ask j i c =>
        obtain ⟨q1, _, q2, _⟩ := pillarQuery_inv h c (some (j, i)) (fun j' i' e => by
          injection e with e
          rw [Prod.mk.injEq] at e
          rw [← e.1, ← e.2]; exact hr1)
        rw [runPillars, ih _ q2 hr2, List.map_cons, q1 j i rfl]
        rfl
      | askAll =>
        obtain ⟨q1, q2⟩ := allPillarsQuery_inv h
        rw [runPillars, ih _ q2 hr2, List.map_cons, q1]
        have : allPillarsOf d a = decide (∀ j ≤ d.nj, ∀ i ≤ d.ni, a j i = true) := by
          rw [Bool.eq_iff_iff, allPillarsOf_iff, decide_eq_true_iff]
        rw [this]
        rfl
  intro ops s h1 h2 hr
  exact main ops s (Or.inl ⟨h1, h2⟩) hr

theorem pillarLoop_true {d : Dims} {node : Option (Node Arr2)} : ∀ (l : List (Nat × Nat)) (s : St),
    s.allPillars = some true → pillarLoop d node l s = .ok s := by
  intro l
  induction l with
  | nil => intro s _; rfl
  | cons x rest ih =>
    intro s h
    have : pillarQuery d node (some x) false s = (.ok (some true), s) := by
      unfold pillarQuery; rw [if_pos h]
    rw [pillarLoop, this]
    dsimp only
    rw [if_pos rfl]
    exact ih s h

/-- **C190**: asked without caching, the question whether all pillars are defined is answered with yes whatever is
stored, and from then on so is every question about a single pillar. For every grid and every stored array. -/
theorem C190_uncached_violated {d : Dims} {a : Arr2} {s : St} (h : s.allPillars = none) :
    (allPillarsQuery d (some (.h5 (some a))) false s).1 = .ok (some true) ∧
      ∀ x cache, (pillarQuery d (some (.h5 (some a))) x cache
        (allPillarsQuery d (some (.h5 (some a))) false s).2).1 = .ok (some true) := by
  have hr : allPillarsQuery d (some (.h5 (some a))) false s =
      (.ok (some true), { s with allPillars := some true }) := by
    unfold allPillarsQuery
    rw [h]
    dsimp only
    rw [if_neg (by simp), pillarLoop_true _ _ rfl]
  rw [hr]
  refine ⟨rfl, fun x cache => ?_⟩
  unfold pillarQuery
  rw [if_pos rfl]

/-- **C190**: with nothing stored about the pillars, each single pillar is said to be defined, but the question about
all pillars has no answer. -/
theorem C190_nothing_stored_violated {d : Dims} {s : St} (h1 : s.allPillars = none) (h2 : s.pillarArr = none) :
    (∀ x cache, (pillarQuery d none (some x) cache s).1 = .ok (some true)) ∧
      (allPillarsQuery d none true s).1 = .ok none := by
  have hq : ∀ x cache, pillarQuery d none x cache s = (.ok (some true), s) := by
    intro x cache
    unfold pillarQuery
    rw [if_neg (by rw [h1]; simp), h2]
  refine ⟨fun x cache => by rw [hq], ?_⟩
  unfold allPillarsQuery
  rw [h1]
  dsimp only
  rw [if_pos rfl, hq]
  dsimp only
  rw [h1]

/-- **C190**: with nothing stored about the cells and a point missing, the question about a single cell fails, whichever
cell it is; and without caching all cells are said to be defined. For every grid. -/
theorem C190_missing_point_violated {d : Dims} {s : St} (h1 : s.allCells = none) (h2 : s.cellArr = none)
    (hm : ∃ k ≤ d.nraw, ∃ q < d.total, ¬ Point none (s.pts k q)) :
    (∀ x cache, (cellQuery d none (some x) cache s).1 = .error .assertion) ∧
      (allCellsQuery d none false s).1 = .ok (some true) := by
  obtain ⟨k, hk, q, hq, hp⟩ := hm
  constructor
  · intro x cache
    unfold cellQuery
    rw [if_neg (by rw [h1]; simp), h2]
    dsimp only
    have : (anyN (d.nraw + 1) fun k => anyN d.total fun q => nanPoint none (s.pts k q)) = true :=
      anyN_iff.mpr ⟨k, by omega, anyN_iff.mpr ⟨q, hq, nanPoint_true.mpr hp⟩⟩
    rw [this]
    rfl
  · unfold allCellsQuery
    rw [h1]
    rfl

/-! ## Cases -/

/-- A grid as loaded, with one cell of the two defined. -/
example : runCells exDims (some (.h5 (some fun k _ _ => k == 0)))
    [.ask 1 0 0 false, .askAll false, .ask 0 0 0 true, .ask 1 0 0 true, .askAll true]
    ⟨exPts, none, none, none, none, none, none⟩ =
    [.ok (some false), .ok (some false), .ok (some true), .ok (some false), .ok (some false)] := by decide +kernel

example : runPillars exDims (some (.h5 (some fun j i => j + i != 2)))
    [.ask 1 1 false, .askAll, .ask 0 1 true, .ask 1 1 true] ⟨exPts, none, none, none, none, none, none⟩ =
    [.ok (some false), .ok (some false), .ok (some true), .ok (some false)] := by decide +kernel

example : (allPillarsQuery exDims (some (.h5 (some fun _ _ => false))) false
    ⟨exPts, none, none, none, none, none, none⟩).1 = .ok (some true) := by decide +kernel

example : (cellQuery exDims none (some (1, 0, 0)) true ⟨exPts, none, none, none, none, none, none⟩).1 =
    .error .assertion := by decide +kernel

end Verif.Defined
