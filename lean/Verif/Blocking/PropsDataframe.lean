import Verif.Blocking.Dataframe
import Verif.Blocking.PropsDerive
import Verif.Wells.PropsFrame

/-!
# C126: tables of the intervals of blocked wells
-/

namespace Verif.Blocking
open Verif.Py
open Verif.Wells.Spec (IntervalOfCell)

variable {K : Type} [Field K] [LinearOrder K]

/-! ## specification -/

/-- the cell is within the limits -/
def Allowed (l : Limits K) (w : WellData K) (c : Cell) : Prop :=
  (∀ d, l.maxDepth = some d → (if w.zDown then w.centreZ c else -w.centreZ c) ≤ d) ∧
  (l.activeOnly = true → ∀ f, w.inactive = some f → f c = false) ∧
  (∀ m, l.minK0 = some m → m ≤ c.1) ∧ (∀ m, l.maxK0 = some m → c.1 ≤ m) ∧ (∀ ks, l.k0List = some ks → c.1 ∈ ks) ∧
  (∀ rs f, l.regions = some rs → w.region = some f → f c ∈ rs) ∧
  (∀ m f, l.maxSatw = some m → w.satw = some f → f c ≤ m) ∧ (∀ m f, l.minSato = some m → w.sato = some f → m ≤ f c) ∧
  (∀ m f, l.maxSatg = some m → w.satg = some f → f c ≤ m)

/-- the length of an interval before perforations are considered -/
def gross (a : Ask) (w : WellData K) (ii : Nat) : K :=
  if a.straight then w.line ii else if a.uomGiven && w.hasTrajectory then w.convert (w.md (ii + 1) - w.md ii) else w.md (ii + 1) - w.md ii

/-- perforated fraction: see C69 for what it is -/
def fraction (l : Limits K) (w : WellData K) (ii : Nat) : Bool × K := Verif.Wells.partPerf (1 / 100) (w.md ii) (w.md (ii + 1)) l.perforations

/-- the row is that of cell `ci` and interval `ii` of the well, which satisfies all limits -/
def IsRow (l : Limits K) (a : Ask) (w : WellData K) (doingKh : Bool) (r : DRow K) (ci ii : Nat) : Prop :=
  Allowed l w (w.cell ci) ∧ (fraction l w ii).1 = false ∧
  r.ci = ci ∧ r.interval = ii ∧
  r.ijk = (if a.oneBased then ((w.cell ci).2.2 + 1, (w.cell ci).2.1 + 1, (w.cell ci).1 + 1) else ((w.cell ci).2.2, (w.cell ci).2.1, (w.cell ci).1)) ∧
  r.ppf = (fraction l w ii).2 ∧ r.length = gross a w ii * (if l.perforations.isSome then r.ppf else 1) ∧
  (∀ m, l.minLength = some m → m ≤ r.length) ∧
  (doingKh = true → ∃ k, w.kh ii r.length r.ppf = .ok k ∧ r.kh = some k ∧ ∀ m, l.minKh = some m → m ≤ k) ∧
  (doingKh = false → r.kh = none) ∧
  r.md = (if a.uomGiven && w.hasTrajectory then w.convert ((w.md (ii + 1) + w.md ii) / 2) else (w.md (ii + 1) + w.md ii) / 2)

theorem interval_nil (ci k : Nat) : ¬IntervalOfCell [] ci k := by
  rintro ⟨⟨g, h, -⟩, -⟩
  simp at h

theorem interval_cons (g : Int) (gs : List Int) (ci k : Nat) :
    IntervalOfCell (g :: gs) ci k ↔
      (0 ≤ g ∧ k = 0 ∧ ci = 0) ∨ (g < 0 ∧ ∃ k', k = k' + 1 ∧ IntervalOfCell gs ci k') ∨
      (0 ≤ g ∧ ∃ k' ci', k = k' + 1 ∧ ci = ci' + 1 ∧ IntervalOfCell gs ci' k') := by
  unfold IntervalOfCell
  cases k with
  | zero =>
    simp only [List.getElem?_cons_zero, Option.some.injEq, List.take_zero, List.filter_nil, List.length_nil]
    constructor
    · rintro ⟨⟨g', rfl, h⟩, rfl⟩
      exact Or.inl ⟨h, by simp, rfl⟩
    · rintro (⟨h, -, rfl⟩ | ⟨-, k', hk, -⟩ | ⟨-, k', ci', hk, -⟩)
      · exact ⟨⟨g, rfl, h⟩, rfl⟩
      · omega
      · omega
  | succ n =>
    simp only [List.getElem?_cons_succ, List.take_succ_cons]
    by_cases hg : 0 ≤ g
    · rw [List.filter_cons_of_pos (by simpa using hg), List.length_cons]
      constructor
      · rintro ⟨h1, h2⟩
        exact Or.inr (Or.inr ⟨hg, n, ci - 1, rfl, by omega, h1, by omega⟩)
      · rintro (⟨-, h, -⟩ | ⟨h, -⟩ | ⟨-, k', ci', hk, hc, h1, h2⟩)
        · omega
        · omega
        · obtain rfl : n = k' := by omega
          exact ⟨h1, by omega⟩
    · rw [List.filter_cons_of_neg (by simpa using hg)]
      constructor
      · rintro ⟨h1, h2⟩
        exact Or.inr (Or.inl ⟨by omega, n, rfl, h1, h2⟩)
      · rintro (⟨h, -⟩ | ⟨-, k', hk, h1, h2⟩ | ⟨h, -⟩)
        · omega
        · obtain rfl : n = k' := by omega
          exact ⟨h1, h2⟩
        · omega

theorem rowsFrom_mem (l : Limits K) (a : Ask) (w : WellData K) (dk ee : Bool) : ∀ (gs : List Int) (ii ci : Nat) (rows : List (DRow K)),
    rowsFrom l a w dk ee gs ii ci = .ok rows →
    ∀ r, r ∈ rows ↔ ∃ c k, IntervalOfCell gs c k ∧ rowFor l a w dk ee (ci + c) (ii + k) = .ok (some r)
  | [], ii, ci, rows, h, r => by
    unfold rowsFrom at h
    cases h
    simp only [List.not_mem_nil, false_iff]
    rintro ⟨c, k, hi, -⟩
    exact interval_nil c k hi
  | g :: gs, ii, ci, rows, h, r => by
    rw [rowsFrom.eq_2] at h
    by_cases hg : g < 0
    · rw [if_pos hg] at h
      rw [rowsFrom_mem l a w dk ee gs (ii + 1) ci rows h r]
      constructor
      · rintro ⟨c, k, h1, h2⟩
        refine ⟨c, k + 1, (interval_cons g gs c (k + 1)).mpr (Or.inr (Or.inl ⟨hg, k, rfl, h1⟩)), ?_⟩
        rw [← h2]; congr 1; omega
      · rintro ⟨c, k, h1, h2⟩
        rcases (interval_cons g gs c k).mp h1 with ⟨h3, -⟩ | ⟨-, k', rfl, h3⟩ | ⟨h3, -⟩
        · omega
        · exact ⟨c, k', h3, by rw [← h2]; congr 1; omega⟩
        · omega
    · rw [if_neg hg] at h
      cases h1 : rowFor l a w dk ee ci ii with
      | error x => rw [h1, err_bind] at h; cases h
      | ok o =>
        rw [h1, res_bind] at h
        cases h2 : rowsFrom l a w dk ee gs (ii + 1) (ci + 1) with
        | error x => rw [h2, err_bind] at h; cases h
        | ok rest =>
          rw [h2, res_bind] at h
          cases h
          rw [List.mem_append, Option.mem_toList, rowsFrom_mem l a w dk ee gs (ii + 1) (ci + 1) rest h2 r]
          constructor
          · rintro (h3 | ⟨c, k, h3, h4⟩)
            · refine ⟨0, 0, (interval_cons g gs 0 0).mpr (Or.inl ⟨by omega, rfl, rfl⟩), ?_⟩
              rw [Nat.add_zero, Nat.add_zero, h1, h3]
            · refine ⟨c + 1, k + 1, (interval_cons g gs _ _).mpr (Or.inr (Or.inr ⟨by omega, k, c, rfl, rfl, h3⟩)), ?_⟩
              rw [← h4]; congr 1 <;> omega
          · rintro ⟨c, k, h3, h4⟩
            rcases (interval_cons g gs c k).mp h3 with ⟨-, rfl, rfl⟩ | ⟨h5, -⟩ | ⟨-, k', c', rfl, rfl, h5⟩
            · rw [Nat.add_zero, Nat.add_zero, h1] at h4
              cases h4
              exact Or.inl rfl
            · omega
            · exact Or.inr ⟨c', k', h5, by rw [← h4]; congr 1 <;> omega⟩

theorem skipCheck_spec (l : Limits K) (w : WellData K) (c : Cell) (b : Bool) (h : skipCheck l w c = .ok b) : b = false ↔ Allowed l w c := by
  have part : ∀ {α β : Type} (limit : Option α) (values : Option (Cell → β)) (bad : α → β → Bool) (x : Bool), beyondLimit limit values c bad = .ok x →
      (x = false ↔ ∀ m f, limit = some m → values = some f → bad m (f c) = false) := by
    intro α β limit values bad x hx
    cases limit with
    | none => simp [beyondLimit] at hx; simp [← hx]
    | some m =>
      cases values with
      | none => simp [beyondLimit] at hx
      | some f => simp [beyondLimit] at hx; simp [← hx]
  unfold skipCheck at h
  cases h1 : beyondLimit l.regions w.region c (fun rs r => !rs.contains r) with
  | error x => simp only [h1] at h; cases h
  | ok b1 =>
    cases h2 : beyondLimit l.maxSatw w.satw c (fun m s => decide (m < s)) with
    | error x => simp only [h1, h2] at h; cases h
    | ok b2 =>
      cases h3 : beyondLimit l.minSato w.sato c (fun m s => decide (s < m)) with
      | error x => simp only [h1, h2, h3] at h; cases h
      | ok b3 =>
        cases h4 : beyondLimit l.maxSatg w.satg c (fun m s => decide (m < s)) with
        | error x => simp only [h1, h2, h3, h4] at h; cases h
        | ok b4 =>
          simp only [h1, h2, h3, h4, res_bind, Except.ok.injEq] at h
          rw [← h]
          simp only [Bool.or_eq_false_iff]
          rw [part _ _ _ _ h1, part _ _ _ _ h2, part _ _ _ _ h3, part _ _ _ _ h4]
          unfold Allowed
          have d1 : tooDeep w l.maxDepth c = false ↔ ∀ d, l.maxDepth = some d → (if w.zDown then w.centreZ c else -w.centreZ c) ≤ d := by
            unfold tooDeep
            cases l.maxDepth <;> simp
          have d2 : (l.activeOnly && ((w.inactive.map fun f => f c).getD false)) = false ↔
              (l.activeOnly = true → ∀ f, w.inactive = some f → f c = false) := by
            cases l.activeOnly <;> cases w.inactive <;> simp
          have d3 : ((l.minK0.map fun m => decide (c.1 < m)).getD false) = false ↔ ∀ m, l.minK0 = some m → m ≤ c.1 := by
            cases l.minK0 <;> simp
          have d4 : ((l.maxK0.map fun m => decide (m < c.1)).getD false) = false ↔ ∀ m, l.maxK0 = some m → c.1 ≤ m := by
            cases l.maxK0 <;> simp
          have d5 : ((l.k0List.map fun ks => !ks.contains c.1).getD false) = false ↔ ∀ ks, l.k0List = some ks → c.1 ∈ ks := by
            cases l.k0List <;> simp
          rw [d1, d2, d3, d4, d5]
          simp only [decide_eq_false_iff_not, not_lt, Bool.not_eq_false', List.contains_iff_mem, and_assoc]

theorem rowFor_spec [IsStrictOrderedRing K] (l : Limits K) (a : Ask) (w : WellData K) (dk ee : Bool) (ha : a.pcTitles = []) (ci ii : Nat) (o : Option (DRow K))
    (h : rowFor l a w dk ee ci ii = .ok o) (r : DRow K) : o = some r ↔ IsRow l a w dk r ci ii := by
  unfold rowFor at h
  cases h1 : skipCheck l w (w.cell ci) with
  | error x => simp only [h1] at h; cases h
  | ok b =>
    have hs := skipCheck_spec l w (w.cell ci) b h1
    simp only [h1, res_bind] at h
    have hp : partFor l a w ci ii = fraction l w ii := by simp [partFor, ha, fraction]
    rw [hp] at h
    cases b with
    | true =>
      simp only [if_true, Except.ok.injEq] at h
      rw [← h]
      simp only [reduceCtorEq, false_iff]
      intro hr
      exact absurd (hs.mpr hr.1) (by simp)
    | false =>
      have hal := hs.mp rfl
      simp only [Bool.false_eq_true, if_false] at h
      cases hf : (fraction l w ii).1 with
      | true =>
        simp only [hf, if_true, Except.ok.injEq] at h
        rw [← h]
        simp only [reduceCtorEq, false_iff]
        intro hr
        rw [hr.2.1] at hf
        cases hf
      | false =>
        simp only [hf, Bool.false_eq_true, if_false] at h
        cases h2 : lengthOf l a w ee ii (fraction l w ii).2 with
        | error x => simp only [h2] at h; cases h
        | ok len =>
          simp only [h2, res_bind] at h
          have hlen : len = gross a w ii * (if l.perforations.isSome then (fraction l w ii).2 else 1) := by
            unfold lengthOf at h2
            by_cases q : (ee && !w.hasTrajectory) = true
            · rw [if_pos q] at h2; cases h2
            · rw [if_neg q] at h2
              unfold gross
              cases hst : a.straight with
              | true =>
                simp only [hst, if_true] at h2 ⊢
                cases ee with
                | false => simp only [Bool.false_eq_true, if_false] at h2; cases h2
                | true =>
                  simp only [if_true, res_bind, Except.ok.injEq] at h2
                  rw [← h2]
                  split_ifs <;> simp
              | false =>
                simp only [hst, Bool.false_eq_true, if_false, res_bind, Except.ok.injEq] at h2 ⊢
                rw [← h2]
                split_ifs <;> simp
          by_cases hm : ((l.minLength.map fun m => decide (len < m)).getD false) = true
          · rw [if_pos hm] at h
            simp only [Except.ok.injEq] at h
            rw [← h]
            simp only [reduceCtorEq, false_iff]
            intro hr
            obtain ⟨-, -, -, -, -, e6, e7, e8, -⟩ := hr
            rw [e6] at e7
            rw [e7, ← hlen] at e8
            cases hml : l.minLength with
            | none => rw [hml] at hm; simp at hm
            | some m =>
              rw [hml] at hm
              have := e8 m hml
              simp at hm
              exact absurd hm (not_lt.mpr this)
          · rw [if_neg hm] at h
            have hml : ∀ m, l.minLength = some m → m ≤ len := by
              intro m hm2
              rw [hm2] at hm
              simpa using hm
            cases h3 : khOf l.minKh a w dk ci ii len (fraction l w ii).2 with
            | error x => simp only [h3] at h; cases h
            | ok kk =>
              obtain ⟨sk, k⟩ := kk
              simp only [h3, res_bind] at h
              cases dk with
              | true =>
                unfold khOf at h3
                rw [if_pos rfl] at h3
                cases h4 : w.kh ii len (fraction l w ii).2 with
                | error x => simp only [h4] at h3; cases h3
                | ok kv =>
                  simp only [h4, res_bind, Except.ok.injEq, Prod.mk.injEq] at h3
                  obtain ⟨e1, e2⟩ := h3
                  cases sk with
                  | true =>
                    simp only [if_true, Except.ok.injEq] at h
                    rw [← h]
                    simp only [reduceCtorEq, false_iff]
                    intro hr
                    obtain ⟨-, -, -, -, -, e6, e7, -, e9, -⟩ := hr
                    obtain ⟨k', g1, -, g3⟩ := e9 rfl
                    rw [e6] at e7 g1
                    rw [e7, ← hlen, h4] at g1
                    cases g1
                    cases hmk : l.minKh with
                    | none => rw [hmk] at e1; simp at e1
                    | some m =>
                      rw [hmk] at e1
                      have := g3 m hmk
                      simp at e1
                      exact absurd e1 (not_lt.mpr this)
                  | false =>
                    have hmk : ∀ m, l.minKh = some m → m ≤ kv := by
                      intro m hm2
                      rw [hm2] at e1
                      simpa using e1
                    simp only [Bool.false_eq_true, if_false] at h
                    by_cases q : (!a.uomGiven && !w.hasTrajectory) = true
                    · rw [if_pos q] at h; cases h
                    · rw [if_neg q] at h
                      simp only [ha, List.contains_nil, Bool.false_eq_true, if_false, Except.ok.injEq] at h
                      rw [← h, Option.some.injEq]
                      constructor
                      · rintro rfl
                        refine ⟨hal, hf, rfl, rfl, rfl, rfl, hlen, hml, fun _ => ⟨kv, h4, e2.symm, hmk⟩, by simp, ?_⟩
                        simp only
                        split_ifs <;> congr 1 <;> ring
                      · rintro ⟨-, -, e3, e4, e5, e6, e7, -, e9, -, e11⟩
                        obtain ⟨k', g1, g2, -⟩ := e9 rfl
                        rw [e6] at e7 g1
                        rw [e7, ← hlen, h4] at g1
                        cases g1
                        obtain ⟨rc, ri, rj, rl, rp, rk, rm⟩ := r
                        simp only at e3 e4 e5 e6 e7 e11 g2
                        subst e3 e4 e5 e6
                        rw [e7, ← hlen, g2, e11, ← e2]
                        congr 1
                        split_ifs <;> congr 1 <;> ring
              | false =>
                unfold khOf at h3
                rw [if_neg (by simp), if_neg (by simp [ha])] at h3
                simp only [Except.ok.injEq, Prod.mk.injEq] at h3
                obtain ⟨rfl, rfl⟩ := h3
                simp only [Bool.false_eq_true, if_false] at h
                by_cases q : (!a.uomGiven && !w.hasTrajectory) = true
                · rw [if_pos q] at h; cases h
                · rw [if_neg q] at h
                  simp only [ha, List.contains_nil, Bool.false_eq_true, if_false, Except.ok.injEq] at h
                  rw [← h, Option.some.injEq]
                  constructor
                  · rintro rfl
                    refine ⟨hal, hf, rfl, rfl, rfl, rfl, hlen, hml, by simp, fun _ => rfl, ?_⟩
                    simp only
                    split_ifs <;> congr 1 <;> ring
                  · rintro ⟨-, -, e3, e4, e5, e6, e7, -, -, e10, e11⟩
                    have g2 := e10 rfl
                    rw [e6] at e7
                    obtain ⟨rc, ri, rj, rl, rp, rk, rm⟩ := r
                    simp only at e3 e4 e5 e6 e7 e11 g2
                    subst e3 e4 e5 e6
                    rw [e7, ← hlen, g2, e11]
                    congr 1
                    split_ifs <;> congr 1 <;> ring

theorem rowsFrom_order [IsStrictOrderedRing K] (l : Limits K) (a : Ask) (w : WellData K) (dk ee : Bool) (ha : a.pcTitles = []) :
    ∀ (gs : List Int) (ii ci : Nat) (rows : List (DRow K)), rowsFrom l a w dk ee gs ii ci = .ok rows →
    rows.Pairwise (fun r s => r.interval < s.interval ∧ r.ci < s.ci)
  | [], ii, ci, rows, h => by
    unfold rowsFrom at h
    cases h
    exact List.Pairwise.nil
  | g :: gs, ii, ci, rows, h => by
    rw [rowsFrom.eq_2] at h
    by_cases hg : g < 0
    · rw [if_pos hg] at h
      exact rowsFrom_order l a w dk ee ha gs (ii + 1) ci rows h
    · rw [if_neg hg] at h
      cases h1 : rowFor l a w dk ee ci ii with
      | error x => rw [h1, err_bind] at h; cases h
      | ok o =>
        rw [h1, res_bind] at h
        cases h2 : rowsFrom l a w dk ee gs (ii + 1) (ci + 1) with
        | error x => rw [h2, err_bind] at h; cases h
        | ok rest =>
          rw [h2, res_bind] at h
          cases h
          have hp := rowsFrom_order l a w dk ee ha gs (ii + 1) (ci + 1) rest h2
          cases o with
          | none => simpa using hp
          | some r =>
            simp only [Option.toList_some, List.cons_append, List.nil_append, List.pairwise_cons]
            refine ⟨?_, hp⟩
            intro s hs
            obtain ⟨c, k, -, h4⟩ := (rowsFrom_mem l a w dk ee gs (ii + 1) (ci + 1) rest h2 s).mp hs
            obtain ⟨-, -, e1, e2, -⟩ := (rowFor_spec l a w dk ee ha ci ii (some r) h1 r).mp rfl
            obtain ⟨-, -, e3, e4, -⟩ := (rowFor_spec l a w dk ee ha _ _ (some s) h4 s).mp rfl
            rw [e1, e2, e3, e4]
            omega

theorem rowsFrom_all (l : Limits K) (a : Ask) (w : WellData K) (dk ee : Bool) : ∀ (gs : List Int) (ii ci : Nat) (rows : List (DRow K)),
    rowsFrom l a w dk ee gs ii ci = .ok rows → ∀ c k, IntervalOfCell gs c k → ∃ o, rowFor l a w dk ee (ci + c) (ii + k) = .ok o
  | [], ii, ci, rows, h, c, k, hi => absurd hi (interval_nil c k)
  | g :: gs, ii, ci, rows, h, c, k, hi => by
    rw [rowsFrom.eq_2] at h
    by_cases hg : g < 0
    · rw [if_pos hg] at h
      rcases (interval_cons g gs c k).mp hi with ⟨h3, -⟩ | ⟨-, k', rfl, h3⟩ | ⟨h3, -⟩
      · omega
      · obtain ⟨o, ho⟩ := rowsFrom_all l a w dk ee gs (ii + 1) ci rows h c k' h3
        exact ⟨o, by rw [← ho]; congr 1; omega⟩
      · omega
    · rw [if_neg hg] at h
      cases h1 : rowFor l a w dk ee ci ii with
      | error x => rw [h1, err_bind] at h; cases h
      | ok o =>
        rw [h1, res_bind] at h
        cases h2 : rowsFrom l a w dk ee gs (ii + 1) (ci + 1) with
        | error x => rw [h2, err_bind] at h; cases h
        | ok rest =>
          rcases (interval_cons g gs c k).mp hi with ⟨-, rfl, rfl⟩ | ⟨h5, -⟩ | ⟨-, k', c', rfl, rfl, h5⟩
          · exact ⟨o, h1⟩
          · omega
          · obtain ⟨o', ho⟩ := rowsFrom_all l a w dk ee gs (ii + 1) (ci + 1) rest h2 c' k' h5
            exact ⟨o', by rw [← ho]; congr 1 <;> omega⟩

/-- what a table that was made comes from -/
theorem dataframe_inv (l : Limits K) (a : Ask) (w : WellData K) (rows : List (DRow K)) (h : dataframe l a w = .ok rows) :
    ∃ (l' : Limits K) (m : Option K) (dk ee : Bool), verifySaturations l w = .ok l' ∧ verifyKh a l'.minKh = .ok (m, dk) ∧
      rowsFrom { l' with minKh := m, minLength := if (l'.minLength.map fun x => decide (x ≤ 0)) = some true then none else l'.minLength } a w dk ee w.gi 0 0
        = .ok rows := by
  unfold dataframe at h
  split_ifs at h
  cases h1 : verifySaturations l w with
  | error x => rw [h1, err_bind] at h; cases h
  | ok l' =>
    rw [h1, res_bind] at h
    cases h2 : verifyKh a l'.minKh with
    | error x => rw [h2, err_bind] at h; cases h
    | ok mk =>
      obtain ⟨m, dk⟩ := mk
      rw [h2, res_bind] at h
      simp only at h
      cases h3 : inflow a with
      | error x => rw [h3, err_bind] at h; cases h
      | ok inf =>
        rw [h3, res_bind] at h
        by_cases hr : (l'.regions.isSome && w.region.isNone) = true
        · rw [if_pos hr] at h; cases h
        rw [if_neg hr] at h
        cases h4 : verifyLayers l' with
        | error x => rw [h4, err_bind] at h; cases h
        | ok u =>
          rw [h4, res_bind] at h
          exact ⟨l', m, dk, _, rfl, h2, h⟩

/-- saturations are fractions; lengths and permeability thicknesses are not negative -/
def Sane (a : Ask) (l : Limits K) (w : WellData K) : Prop :=
  (∀ f c, w.satw = some f → f c ≤ 1) ∧ (∀ f c, w.sato = some f → 0 ≤ f c) ∧ (∀ f c, w.satg = some f → f c ≤ 1) ∧
  (∀ ci ii, IntervalOfCell w.gi ci ii → 0 ≤ gross a w ii ∧ 0 ≤ (fraction l w ii).2) ∧
  (∀ ii x p k, 0 ≤ x → w.kh ii x p = .ok k → 0 ≤ k)

theorem drop_le {x : Option K} {b y : K} (h : y ≤ b) :
    (∀ m, (if (x.map fun v => decide (b ≤ v)) = some true then none else x) = some m → y ≤ m) ↔ ∀ m, x = some m → y ≤ m := by
  cases x with
  | none => simp
  | some v =>
    by_cases hv : b ≤ v
    · simp [hv]; exact le_trans h hv
    · simp [hv]

theorem drop_ge {x : Option K} {b y : K} (h : b ≤ y) :
    (∀ m, (if (x.map fun v => decide (v ≤ b)) = some true then none else x) = some m → m ≤ y) ↔ ∀ m, x = some m → m ≤ y := by
  cases x with
  | none => simp
  | some v =>
    by_cases hv : v ≤ b
    · simp [hv]; exact le_trans hv h
    · simp [hv]

theorem isRow_drop {l l' : Limits K} {a : Ask} {w : WellData K} {m : Option K} {dk : Bool} {r : DRow K} {ci ii : Nat} (hs : Sane a l w)
    (hi : IntervalOfCell w.gi ci ii) (h1 : verifySaturations l w = .ok l') (h2 : verifyKh a l'.minKh = .ok (m, dk)) [IsStrictOrderedRing K] :
    IsRow { l' with minKh := m, minLength := if (l'.minLength.map fun x => decide (x ≤ 0)) = some true then none else l'.minLength } a w dk r ci ii ↔
      IsRow l a w dk r ci ii := by
  obtain ⟨s1, s2, s3, s4, s5⟩ := hs
  obtain ⟨s4a, s4b⟩ := s4 ci ii hi
  have e1 : l' = { l with
      maxSatw := if (l.maxSatw.map fun x => decide (1 ≤ x)) = some true then none else l.maxSatw
      minSato := if (l.minSato.map fun x => decide (x ≤ 0)) = some true then none else l.minSato
      maxSatg := if (l.maxSatg.map fun x => decide (1 ≤ x)) = some true then none else l.maxSatg } := by
    unfold verifySaturations at h1
    simp only at h1
    by_cases q : ((if (l.maxSatw.map fun x => decide (1 ≤ x)) = some true then none else l.maxSatw).isSome && w.satw.isNone ||
        (if (l.minSato.map fun x => decide (x ≤ 0)) = some true then none else l.minSato).isSome && w.sato.isNone ||
        (if (l.maxSatg.map fun x => decide (1 ≤ x)) = some true then none else l.maxSatg).isSome && w.satg.isNone) = true
    · rw [if_pos q] at h1; cases h1
    · rw [if_neg q] at h1
      simp only [Except.ok.injEq] at h1
      exact h1.symm
  have e2 : m = if (l'.minKh.map fun x => decide (x ≤ 0)) = some true then none else l'.minKh := by
    unfold verifyKh at h2
    simp only at h2
    by_cases q : (((a.columns.contains "KH" || (if (l'.minKh.map fun x => decide (x ≤ 0)) = some true then none else l'.minKh).isSome) &&
        !a.pcTitles.contains "KH" || a.columns.contains "WBC" && !a.pcTitles.contains "WBC") && !a.permGiven) = true
    · rw [if_pos q] at h2; cases h2
    · rw [if_neg q] at h2
      simp only [Except.ok.injEq, Prod.mk.injEq] at h2
      exact h2.1.symm
  subst e1
  subst e2
  have sat1 : ∀ (x : Option K) (v : Option (Cell → K)) (c : Cell), (∀ f c, v = some f → f c ≤ 1) →
      ((∀ m f, (if (x.map fun x => decide (1 ≤ x)) = some true then none else x) = some m → v = some f → f c ≤ m) ↔
        ∀ m f, x = some m → v = some f → f c ≤ m) := by
    intro x v c hv
    cases v with
    | none => simp
    | some f =>
      have := drop_le (x := x) (hv f c rfl)
      simpa using this
  have sat2 : ∀ (x : Option K) (v : Option (Cell → K)) (c : Cell), (∀ f c, v = some f → 0 ≤ f c) →
      ((∀ m f, (if (x.map fun x => decide (x ≤ 0)) = some true then none else x) = some m → v = some f → m ≤ f c) ↔
        ∀ m f, x = some m → v = some f → m ≤ f c) := by
    intro x v c hv
    cases v with
    | none => simp
    | some f =>
      have := drop_ge (x := x) (hv f c rfl)
      simpa using this
  have hal : Allowed { l with
      maxSatw := if (l.maxSatw.map fun x => decide (1 ≤ x)) = some true then none else l.maxSatw
      minSato := if (l.minSato.map fun x => decide (x ≤ 0)) = some true then none else l.minSato
      maxSatg := if (l.maxSatg.map fun x => decide (1 ≤ x)) = some true then none else l.maxSatg
      minKh := if (l.minKh.map fun x => decide (x ≤ 0)) = some true then none else l.minKh
      minLength := if (l.minLength.map fun x => decide (x ≤ 0)) = some true then none else l.minLength } w (w.cell ci) ↔ Allowed l w (w.cell ci) := by
    unfold Allowed
    simp only
    rw [sat1 l.maxSatw w.satw _ s1, sat2 l.minSato w.sato _ s2, sat1 l.maxSatg w.satg _ s3]
  unfold IsRow
  simp only
  rw [hal]
  simp only [fraction] at s4b ⊢
  constructor
  · rintro ⟨q1, q2, q3, q4, q5, q6, q7, q8, q9, q10, q11⟩
    have hl : 0 ≤ r.length := by
      rw [q7]
      refine mul_nonneg s4a ?_
      split_ifs
      · rw [q6]; exact s4b
      · exact zero_le_one
    refine ⟨q1, q2, q3, q4, q5, q6, q7, (drop_ge hl).mp q8, ?_, q10, q11⟩
    intro hd
    obtain ⟨k, g1, g2, g3⟩ := q9 hd
    exact ⟨k, g1, g2, (drop_ge (s5 _ _ _ _ hl g1)).mp g3⟩
  · rintro ⟨q1, q2, q3, q4, q5, q6, q7, q8, q9, q10, q11⟩
    have hl : 0 ≤ r.length := by
      rw [q7]
      refine mul_nonneg s4a ?_
      split_ifs
      · rw [q6]; exact s4b
      · exact zero_le_one
    refine ⟨q1, q2, q3, q4, q5, q6, q7, (drop_ge hl).mpr q8, ?_, q10, q11⟩
    intro hd
    obtain ⟨k, g1, g2, g3⟩ := q9 hd
    exact ⟨k, g1, g2, (drop_ge (s5 _ _ _ _ hl g1)).mpr g3⟩

/-- **C126** a table (with no columns taken from properties of the well) has exactly the rows of the blocked intervals which satisfy all limits, each
with its cell, perforated fraction, length and permeability thickness, in order along the well -/
theorem C126_rows_partial [IsStrictOrderedRing K] (l : Limits K) (a : Ask) (w : WellData K) (ha : a.pcTitles = []) (hs : Sane a l w) (rows : List (DRow K))
    (h : dataframe l a w = .ok rows) :
    ∃ dk, (∀ r, r ∈ rows ↔ ∃ ci ii, IntervalOfCell w.gi ci ii ∧ IsRow l a w dk r ci ii) ∧
      (dk = true ↔ "KH" ∈ a.columns ∨ "WBC" ∈ a.columns ∨ ∃ m, l.minKh = some m ∧ 0 < m) ∧
      rows.Pairwise (fun r s => r.interval < s.interval ∧ r.ci < s.ci) := by
  obtain ⟨l', m, dk, ee, h1, h2, h3⟩ := dataframe_inv l a w rows h
  refine ⟨dk, ?_, ?_, rowsFrom_order _ a w dk ee ha w.gi 0 0 rows h3⟩
  · intro r
    rw [rowsFrom_mem _ a w dk ee w.gi 0 0 rows h3 r]
    have key : ∀ ci ii, IntervalOfCell w.gi ci ii → ((rowFor { l' with minKh := m, minLength := if (l'.minLength.map fun x => decide (x ≤ 0)) = some true then none
        else l'.minLength } a w dk ee ci ii = .ok (some r)) ↔ IsRow l a w dk r ci ii) := by
      intro ci ii hi
      obtain ⟨o, ho⟩ := rowsFrom_all _ a w dk ee w.gi 0 0 rows h3 ci ii hi
      rw [Nat.zero_add, Nat.zero_add] at ho
      have hspec := rowFor_spec _ a w dk ee ha ci ii o ho r
      rw [ho, Except.ok.injEq, hspec]
      exact isRow_drop hs hi h1 h2
    constructor
    · rintro ⟨c, k, hi, hr⟩
      rw [Nat.zero_add, Nat.zero_add] at hr
      exact ⟨c, k, hi, (key c k hi).mp hr⟩
    · rintro ⟨c, k, hi, hr⟩
      exact ⟨c, k, hi, by rw [Nat.zero_add, Nat.zero_add]; exact (key c k hi).mpr hr⟩
  · have e1 : l'.minKh = l.minKh := by
      unfold verifySaturations at h1
      simp only at h1
      by_cases q : ((if (l.maxSatw.map fun x => decide (1 ≤ x)) = some true then none else l.maxSatw).isSome && w.satw.isNone ||
          (if (l.minSato.map fun x => decide (x ≤ 0)) = some true then none else l.minSato).isSome && w.sato.isNone ||
          (if (l.maxSatg.map fun x => decide (1 ≤ x)) = some true then none else l.maxSatg).isSome && w.satg.isNone) = true
      · rw [if_pos q] at h1; cases h1
      · rw [if_neg q] at h1
        simp only [Except.ok.injEq] at h1
        rw [← h1]
    rw [e1] at h2
    unfold verifyKh at h2
    simp only [ha, List.contains_nil, Bool.not_false, Bool.and_true] at h2
    have e2 : (if (l.minKh.map fun x => decide (x ≤ 0)) = some true then none else l.minKh).isSome = true ↔ ∃ m, l.minKh = some m ∧ 0 < m := by
      cases l.minKh with
      | none => simp
      | some v =>
        by_cases hv : v ≤ 0
        · simp [hv]
        · simp [hv, not_le.mp hv]
    generalize (if (l.minKh.map fun x => decide (x ≤ 0)) = some true then none else l.minKh) = o at h2 e2
    split_ifs at h2
    simp only [Except.ok.injEq, Prod.mk.injEq] at h2
    obtain ⟨-, h2⟩ := h2
    rw [← h2]
    simp only [Bool.or_eq_true, List.contains_iff_mem]
    rw [e2, or_assoc]
    exact or_congr_right or_comm

/-! ## sums and whole tables -/

/-- **C126** the total permeability thickness of a well is the sum over the rows of the table with the same limits -/
theorem C126_static_kh [IsStrictOrderedRing K] (l : Limits K) (a : Ask) (w : WellData K)
    (hs : Sane { a with columns := ["KH"], pcTitles := [], oneBased := false } l w) (s : K) (h : staticKh l a w = .ok s) :
    ∃ rows : List (DRow K), (∀ r, r ∈ rows ↔ ∃ ci ii, IntervalOfCell w.gi ci ii ∧
        IsRow l { a with columns := ["KH"], pcTitles := [], oneBased := false } w true r ci ii) ∧
      rows.Pairwise (fun r t => r.interval < t.interval ∧ r.ci < t.ci) ∧ (∀ r ∈ rows, ∃ k, r.kh = some k) ∧
      s = (rows.filterMap fun r => r.kh).sum := by
  unfold staticKh at h
  cases h1 : dataframe l { a with columns := ["KH"], pcTitles := [], oneBased := false } w with
  | error x => rw [h1, err_bind] at h; cases h
  | ok rows =>
    rw [h1, res_bind] at h
    obtain ⟨dk, e1, e2, e3⟩ := C126_rows_partial l _ w rfl hs rows h1
    obtain rfl : dk = true := e2.mpr (Or.inl (by simp))
    have e4 : ∀ r ∈ rows, ∃ k, r.kh = some k := by
      intro r hr
      obtain ⟨ci, ii, -, -, -, -, -, -, -, -, -, q, -⟩ := (e1 r).mp hr
      obtain ⟨k, -, hk, -⟩ := q rfl
      exact ⟨k, hk⟩
    refine ⟨rows, e1, e3, e4, ?_⟩
    cases h
    clear e1 e3 h1
    induction rows with
    | nil => rfl
    | cons r rows ih =>
      obtain ⟨k, hk⟩ := e4 r (by simp)
      rw [List.map_cons, List.sum_cons, ih (fun r hr => e4 r (by simp [hr])), List.filterMap_cons, hk]
      simp

theorem rowsFrom_ok (l : Limits K) (a : Ask) (w : WellData K) (dk ee : Bool) : ∀ (gs : List Int) (ii ci : Nat),
    (∀ c k, IntervalOfCell gs c k → ∃ o, rowFor l a w dk ee (ci + c) (ii + k) = .ok o) → ∃ rows, rowsFrom l a w dk ee gs ii ci = .ok rows
  | [], _, _, _ => ⟨[], rfl⟩
  | g :: gs, ii, ci, h => by
    rw [rowsFrom.eq_2]
    by_cases hg : g < 0
    · rw [if_pos hg]
      refine rowsFrom_ok l a w dk ee gs (ii + 1) ci ?_
      intro c k hi
      obtain ⟨o, ho⟩ := h c (k + 1) ((interval_cons g gs c (k + 1)).mpr (Or.inr (Or.inl ⟨hg, k, rfl, hi⟩)))
      exact ⟨o, by rw [← ho]; congr 1; omega⟩
    · rw [if_neg hg]
      obtain ⟨o, ho⟩ := h 0 0 ((interval_cons g gs 0 0).mpr (Or.inl ⟨by omega, rfl, rfl⟩))
      obtain ⟨rest, hr⟩ := rowsFrom_ok l a w dk ee gs (ii + 1) (ci + 1) (by
        intro c k hi
        obtain ⟨o, ho⟩ := h (c + 1) (k + 1) ((interval_cons g gs _ _).mpr (Or.inr (Or.inr ⟨by omega, k, c, rfl, rfl, hi⟩)))
        exact ⟨o, by rw [← ho]; congr 1 <;> omega⟩)
      rw [Nat.add_zero, Nat.add_zero] at ho
      exact ⟨o.toList ++ rest, by rw [ho, res_bind, hr, res_bind]⟩

/-- **C126** with a trajectory, known columns, properties of the grid for the limits given and a permeability where one is needed, lengths by
measured depth, and layers in order, a table is made -/
theorem C126_succeeds (l : Limits K) (a : Ask) (w : WellData K) (h1 : ∀ c ∈ a.columns, c ∈ knownColumns) (h2 : w.hasTrajectory = true)
    (h3 : a.straight = false) (h4 : a.permGiven = true) (h5 : l.regions.isSome → w.region.isSome) (h6 : l.maxSatw.isSome → w.satw.isSome)
    (h7 : l.minSato.isSome → w.sato.isSome) (h8 : l.maxSatg.isSome → w.satg.isSome) (h9 : ∀ m, l.minK0 = some m → 0 ≤ m)
    (h10 : ∀ m, l.maxK0 = some m → 0 ≤ m ∧ ∀ m', l.minK0 = some m' → m' ≤ m) (h11 : ∀ ii x p, ∃ k, w.kh ii x p = .ok k) :
    ∃ rows, dataframe l a w = .ok rows := by
  have sub : ∀ (p : Bool) (x : Option K), (if p = true then none else x).isSome = true → x.isSome = true := by
    intro p x
    cases p <;> simp
  have hv : verifySaturations l w = .ok { l with
      maxSatw := if (l.maxSatw.map fun x => decide (1 ≤ x)) = some true then none else l.maxSatw
      minSato := if (l.minSato.map fun x => decide (x ≤ 0)) = some true then none else l.minSato
      maxSatg := if (l.maxSatg.map fun x => decide (1 ≤ x)) = some true then none else l.maxSatg } := by
    unfold verifySaturations
    simp only
    rw [if_neg]
    cases k1 : l.maxSatw <;> cases k2 : l.minSato <;> cases k3 : l.maxSatg <;> simp [k1, k2, k3] at h6 h7 h8 ⊢ <;>
      simp_all [Option.isSome_iff_ne_none]
  have hl : ∀ l' : Limits K, l'.minK0 = l.minK0 → l'.maxK0 = l.maxK0 → verifyLayers l' = .ok () := by
    intro l' e1 e2
    unfold verifyLayers
    rw [e1, e2]
    cases k1 : l.minK0 with
    | none =>
      cases k2 : l.maxK0 with
      | none => simp
      | some m => simp [(h10 m k2).1]
    | some m' =>
      have := h9 m' k1
      cases k2 : l.maxK0 with
      | none => simp [this]
      | some m =>
        have h12 := (h10 m k2).2 m' k1
        simp only [Option.map_some, Option.getD_some, decide_eq_true_eq]
        rw [if_neg (by omega), if_neg (by omega)]
  have hc : (!a.columns.all fun c => knownColumns.contains c) = false := by
    simpa using h1
  unfold dataframe
  rw [hc, if_neg (by simp), hv, res_bind]
  simp only [verifyKh, h4, Bool.not_true, Bool.and_false, Bool.false_eq_true, if_false, res_bind, inflow]
  rw [if_neg (by cases k1 : l.regions <;> cases k2 : w.region <;> simp [k1, k2] at h5 ⊢)]
  simp only [hl, res_bind]
  refine rowsFrom_ok _ a w _ _ w.gi 0 0 ?_
  intro c k hi
  generalize hL : ({ l with
      maxSatw := if (l.maxSatw.map fun x => decide (1 ≤ x)) = some true then none else l.maxSatw
      minSato := if (l.minSato.map fun x => decide (x ≤ 0)) = some true then none else l.minSato
      maxSatg := if (l.maxSatg.map fun x => decide (1 ≤ x)) = some true then none else l.maxSatg
      minKh := if (l.minKh.map fun x => decide (x ≤ 0)) = some true then none else l.minKh
      minLength := if (l.minLength.map fun x => decide (x ≤ 0)) = some true then none else l.minLength } : Limits K) = L
  have b : ∀ {α β : Type} (o : Option α) (v : Option (Cell → β)) (cc : Cell) (bad : α → β → Bool), (o.isSome → v.isSome) →
      ∃ x, beyondLimit o v cc bad = .ok x := by
    intro α β o v cc bad h
    cases o <;> cases v <;> simp [beyondLimit] at h ⊢
  have sk : ∀ cc, ∃ x, skipCheck L w cc = .ok x := by
    intro cc
    subst hL
    unfold skipCheck
    obtain ⟨x1, y1⟩ := b l.regions w.region cc (fun rs r => !rs.contains r) h5
    obtain ⟨x2, y2⟩ := b (if (l.maxSatw.map fun x => decide (1 ≤ x)) = some true then none else l.maxSatw) w.satw cc (fun m s => decide (m < s))
      (fun q => h6 (by split_ifs at q <;> simp_all))
    obtain ⟨x3, y3⟩ := b (if (l.minSato.map fun x => decide (x ≤ 0)) = some true then none else l.minSato) w.sato cc (fun m s => decide (s < m))
      (fun q => h7 (by split_ifs at q <;> simp_all))
    obtain ⟨x4, y4⟩ := b (if (l.maxSatg.map fun x => decide (1 ≤ x)) = some true then none else l.maxSatg) w.satg cc (fun m s => decide (m < s))
      (fun q => h8 (by split_ifs at q <;> simp_all))
    simp only [y1, y2, y3, y4, res_bind]
    exact ⟨_, rfl⟩
  unfold rowFor
  obtain ⟨x, hx⟩ := sk (w.cell (0 + c))
  rw [hx, res_bind]
  cases x with
  | true => exact ⟨none, rfl⟩
  | false =>
    rw [if_neg (by simp)]
    generalize partFor L a w (0 + c) (0 + k) = pf
    obtain ⟨s, ppf⟩ := pf
    simp only
    cases s with
    | true => exact ⟨none, rfl⟩
    | false =>
      rw [if_neg (by simp)]
      simp only [lengthOf, h2, h3, Bool.not_true, Bool.and_false, Bool.false_eq_true, if_false, res_bind]
      split_ifs
      all_goals first
        | exact ⟨none, rfl⟩
        | (generalize hK : khOf L.minKh a w _ _ _ _ _ = kk
           unfold khOf at hK
           split_ifs at hK
           all_goals
             first
             | (rw [← hK]; simp only [res_bind]; exact ⟨_, rfl⟩)
             | (obtain ⟨kv, hkv⟩ := h11 (0 + k) _ _
                rw [hkv, res_bind] at hK
                rw [← hK]; simp only [res_bind]
                split_ifs <;> exact ⟨_, rfl⟩))


/-! ## violations -/

/-- a well of three intervals, the second in no cell, through two cells of 10 m -/
def wellA : WellData Rat where
  md := fun i => 10 * (i : Rat)
  gi := [0, -1, 0]
  cell := fun i => if i = 0 then (0, 0, 0) else (1, 0, 0)
  centreZ := fun c => 1000 + 10 * (c.1 : Rat)
  satw := some fun c => if c.1 = 0 then 3 / 10 else 9 / 10
  line := fun _ => 10
  kh := fun _ x _ => .ok (100 * x)
  prop := fun t ci => if t = "LENGTH" then 4 else if t = "PPERF" then 1 / 2 else if ci = 0 then 1 else 2

/-- a table as its cell numbers, lengths and permeability thicknesses -/
def shown (t : Res (List (DRow Rat))) : Res (List (Nat × Rat × Option Rat)) := t.map fun rows => rows.map fun r => (r.ci, r.length, r.kh)

/-- all limits at work: hypotheses of the theorems above are met by a well with a table of one row of two -/
example : shown (dataframe (K := Rat) { maxSatw := some (1 / 2), minLength := some 1, perforations := some [(0, 5), (20, 30)] } { columns := ["KH"], permGiven := true } wellA) =
    .ok [(0, 5, some 500)] := by decide +kernel

example : Sane (K := Rat) { columns := ["KH"], permGiven := true } { maxSatw := some (1 / 2) } wellA := by
  refine ⟨?_, ?_, ?_, ?_, ?_⟩
  · intro f c h
    cases h
    dsimp only
    split_ifs <;> norm_num
  · intro f c h; cases h
  · intro f c h; cases h
  · intro ci ii _
    refine ⟨?_, ?_⟩
    · simp [gross, wellA]
    · simp [fraction, Verif.Wells.partPerf]
  · intro ii x p k hx h
    simp only [wellA, Except.ok.injEq] at h
    linarith

example : staticKh (K := Rat) {} { columns := [], permGiven := true } wellA = .ok 2000 := by decide +kernel

/-- **C126** violated: a least length with straight lengths fails unless something else (angles, permeability thickness, the LENGTH column) needs
entry and exit points -/
theorem C126_straight_violated :
    dataframe (K := Rat) { minLength := some 1 } { columns := [], straight := true } wellA = .error .attribute ∧
    dataframe (K := Rat) {} { columns := [], straight := true } wellA = .error .attribute ∧
    shown (dataframe (K := Rat) { minLength := some 1 } { columns := ["LENGTH"], straight := true } wellA) = .ok [(0, 10, none), (1, 10, none)] := by
  refine ⟨?_, ?_, ?_⟩
  · rfl
  · rfl
  · decide +kernel

/-- **C126** violated: a blocked well without a trajectory has no table unless a unit of length is given -/
theorem C126_no_trajectory_violated (l : Limits K) (a : Ask) (w : WellData K) (h1 : w.hasTrajectory = false) (h2 : a.uomGiven = false) (rows : List (DRow K))
    (h : dataframe l a w = .ok rows) : rows = [] := by
  obtain ⟨l', m, dk, ee, -, -, h5⟩ := dataframe_inv l a w rows h
  rw [List.eq_nil_iff_forall_not_mem]
  intro r hr
  obtain ⟨c, k, -, hk⟩ := (rowsFrom_mem _ a w dk ee w.gi 0 0 rows h5 r).mp hr
  unfold rowFor at hk
  generalize skipCheck _ w (w.cell (0 + c)) = x at hk
  cases x with
  | error x => cases hk
  | ok b =>
    rw [res_bind] at hk
    cases b with
    | true => rw [if_pos rfl] at hk; cases hk
    | false =>
      rw [if_neg (by simp)] at hk
      generalize partFor _ a w (0 + c) (0 + k) = pf at hk
      obtain ⟨s, ppf⟩ := pf
      simp only at hk
      cases s with
      | true => rw [if_pos rfl] at hk; cases hk
      | false =>
        rw [if_neg (by simp)] at hk
        generalize lengthOf _ a w ee (0 + k) ppf = y at hk
        cases y with
        | error x => cases hk
        | ok len =>
          rw [res_bind] at hk
          generalize khOf _ a w dk (0 + c) (0 + k) len ppf = z at hk
          cases z with
          | error x => rw [err_bind] at hk; split_ifs at hk <;> cases hk
          | ok z =>
            obtain ⟨s, kv⟩ := z
            simp only [res_bind, h1, h2, Bool.not_false, Bool.and_self, if_true] at hk
            split_ifs at hk <;> cases hk

example : dataframe (K := Rat) {} { columns := [] } { wellA with hasTrajectory := false } = .error .attribute := by rfl
example : shown (dataframe (K := Rat) {} { columns := [], uomGiven := true } { wellA with hasTrajectory := false }) = .ok [(0, 10, none), (1, 10, none)] := by decide +kernel

/-- **C126** violated: the limit on permeability thickness is not applied where this column comes from properties of the well -/
theorem C126_min_kh_violated :
    shown (dataframe (K := Rat) { minKh := some 50 } { columns := ["KH"], pcTitles := ["KH"], permGiven := true } wellA) = .ok [(0, 10, some 1), (1, 10, some 2)] := by
  decide +kernel

/-- **C126** violated: the limit on length is not applied to the lengths in the table where these come from properties of the well -/
theorem C126_min_length_violated :
    shown (dataframe (K := Rat) { minLength := some 8 } { columns := ["LENGTH"], pcTitles := ["LENGTH"] } wellA) = .ok [(0, 4, none), (1, 4, none)] := by
  decide +kernel

/-- **C126** violated: lengths are those of whole intervals where partial perforation comes from properties of the well, so permeability thickness
depends on where the perforated fraction comes from -/
theorem C126_pperf_violated :
    shown (dataframe (K := Rat) {} { columns := ["LENGTH", "PPERF"], pcTitles := ["PPERF"] } wellA) = .ok [(0, 10, none), (1, 10, none)] ∧
    shown (dataframe (K := Rat) { perforations := some [(0, 5), (20, 25)] } { columns := ["LENGTH", "PPERF"] } wellA) = .ok [(0, 5, none), (1, 5, none)] := by
  refine ⟨?_, ?_⟩ <;> decide +kernel

/-- **C126** violated: depths of the table with straight lengths change sign if no direction of depth is given; and there are none if nothing else needs
entry and exit points -/
theorem C126_depth_violated (trajZDown : Bool) (z md : K) :
    depthFor true true none trajZDown md (some z) = .ok (-z) ∧ depthFor true true (some trajZDown) trajZDown md (some z) = .ok z ∧
    depthFor (K := K) true true (some trajZDown) trajZDown md none = .error .type := by
  refine ⟨?_, ?_, ?_⟩ <;> simp [depthFor]

/-- **C126** depths by measured depth are positive downwards if that is asked for -/
theorem C126_depth_partial (trajZDown : Bool) (md : K) (line : Option K) :
    depthFor false true (some true) trajZDown md line = .ok (if trajZDown then md else -md) := by
  cases trajZDown <;> simp [depthFor]

/-- **C126** violated: a table cannot be kept as properties of the well if any limit has taken out an interval, unless it has taken out all -/
theorem C126_as_properties_violated :
    (dataframe (K := Rat) { maxK0 := some 0 } { columns := [] } wellA >>= fun rows => addAsProperties 2 rows) = .error .assertion ∧
    (dataframe (K := Rat) { minK0 := some 2 } { columns := [] } wellA >>= fun rows => addAsProperties 2 rows) = .ok () ∧
    (dataframe (K := Rat) {} { columns := [] } wellA >>= fun rows => addAsProperties 2 rows) = .ok () := by
  refine ⟨?_, ?_, ?_⟩ <;> rfl

/-- **C126** violated: the default radius is in metres unless feet are asked for by name, so also for a grid in feet -/
theorem C126_default_radius_violated : defaultRadius (K := Rat) none = 1 / 10 ∧ defaultRadius (K := Rat) (some "ft") = 33 / 100 := by
  refine ⟨?_, ?_⟩ <;> decide +kernel


end Verif.Blocking
