import Verif.Gcs.FaceArrays
import Verif.Gcs.Lemmas
import Mathlib.Algebra.BigOperators.Group.List.Basic
import Mathlib.Algebra.Order.BigOperators.Group.List
import Mathlib.Algebra.Order.Field.Basic
import Mathlib.Algebra.Order.Ring.Rat
import Mathlib.Data.Nat.Cast.Order.Field
import Mathlib.Tactic.FieldSimp
import Mathlib.Tactic.Ring
import Mathlib.Tactic.Linarith
import Mathlib.Tactic.Push

/-! # C59: face arrays from a property of a connection set; C55: combined multipliers; C56: map from K faces; C58: K gaps -/

namespace Verif.Gcs
open Verif.Py

variable {K : Type}

/-! ## C59 -/

/-- the connections that contribute: of the feature if one is given, and active if that is asked for -/
def Contributes (featureIndex : Option Nat) (useActive : Bool) (c : FaceValue K) : Prop :=
  (∀ f, featureIndex = some f → c.feature = f) ∧ (useActive = true → c.active = true)

/-- the boundary between cells (or at the edge of the grid) that a cell face lies on: the plus face of a cell and the minus face of
the next cell are the same -/
def OnFace (p : Nat × Cell) (f : Face) : Prop := gridFace f = p

theorem assignSide_spec (e : Ext) (side : Nat) (cs : List (Conn × Option K)) (arr : FaceArr K) (p : Nat × Cell) :
    ((∀ c ∈ cs, gridFace (if side = 0 then (decode e c.1).1 else (decode e c.1).2) ≠ p) ∧ assignSide e side cs arr p = arr p) ∨
    (∃ c ∈ cs, gridFace (if side = 0 then (decode e c.1).1 else (decode e c.1).2) = p ∧ assignSide e side cs arr p = c.2) := by
  unfold assignSide
  induction cs generalizing arr with
  | nil => exact Or.inl ⟨fun c h => (by cases h), rfl⟩
  | cons c cs ih =>
    rw [List.foldl_cons]
    rcases ih (fun q => if q = gridFace (if side = 0 then (decode e c.1).1 else (decode e c.1).2) then c.2 else arr q) with
      ⟨h1, h2⟩ | ⟨d, hd, h1, h2⟩
    · by_cases hp : p = gridFace (if side = 0 then (decode e c.1).1 else (decode e c.1).2)
      · right
        refine ⟨c, List.mem_cons_self, hp.symm, ?_⟩
        rw [h2]
        exact if_pos hp
      · left
        refine ⟨fun d hd => ?_, ?_⟩
        · rcases List.mem_cons.mp hd with rfl | hd
          · exact fun h => hp h.symm
          · exact h1 d hd
        · rw [h2]
          exact if_neg hp
    · exact Or.inr ⟨d, List.mem_cons_of_mem _ hd, h1, h2⟩

theorem mem_contributing {featureIndex : Option Nat} {useActive : Bool} {cs : List (FaceValue K)} {c : FaceValue K} :
    c ∈ (let cs := match featureIndex with
            | none => cs
            | some f => cs.filter fun c => c.feature == f
         if useActive then cs.filter (·.active) else cs) ↔ c ∈ cs ∧ Contributes featureIndex useActive c := by
  unfold Contributes
  cases featureIndex <;> cases useActive <;> simp [and_assoc, and_comm]

/-- C59 without a baffle property: at each face of the grid, the value is the default if no contributing connection has a face
there (on the first side only if lazy), and otherwise the value of a contributing connection that has. -/
theorem C59_values_partial (e : Ext) (default : Option K) (featureIndex : Option Nat) (useActive lazy : Bool) (cs : List (FaceValue K))
    (p : Nat × Cell) :
    let here (c : FaceValue K) := c ∈ cs ∧ Contributes featureIndex useActive c ∧
      (OnFace p (decode e c.conn).1 ∨ (lazy = false ∧ OnFace p (decode e c.conn).2))
    ((∀ c, ¬ here c) → faceArrays e default featureIndex useActive lazy cs p = default) ∧
    ((∃ c, here c) → ∃ c, here c ∧ faceArrays e default featureIndex useActive lazy cs p = c.value) := by
  intro here
  unfold faceArrays
  generalize hcs2 : (if useActive = true then List.filter (fun x : FaceValue K => x.active)
      (match featureIndex with
        | none => cs
        | some f => List.filter (fun c => c.feature == f) cs)
    else match featureIndex with
        | none => cs
        | some f => List.filter (fun c => c.feature == f) cs) = cs2
  generalize hcvd : List.map (fun c : FaceValue K => (c.conn, c.value)) cs2 = cv
  have hmem : ∀ c, c ∈ cs2 ↔ c ∈ cs ∧ Contributes featureIndex useActive c := fun c => by rw [← hcs2]; exact mem_contributing
  have hcv : ∀ d, d ∈ cv ↔ ∃ c, (c ∈ cs ∧ Contributes featureIndex useActive c) ∧ (c.conn, c.value) = d := by
    intro d
    rw [← hcvd, List.mem_map]
    simp only [hmem]
  have s0 := assignSide_spec e 0 cv (fun _ => default) p
  simp only [if_true] at s0
  cases lazy with
  | true =>
    simp only [if_true, List.foldl_cons, List.foldl_nil]
    rcases s0 with ⟨h1, h2⟩ | ⟨d, hd, h1, h2⟩
    · refine ⟨fun _ => h2, ?_⟩
      rintro ⟨c, hc, hcon, hf⟩
      rcases hf with hf | hf
      · exact absurd hf (h1 _ ((hcv _).mpr ⟨c, ⟨hc, hcon⟩, rfl⟩))
      · cases hf.1
    · rw [hcv] at hd
      obtain ⟨c, hc, rfl⟩ := hd
      exact ⟨fun hn => absurd ⟨hc.1, hc.2, Or.inl h1⟩ (hn c), fun _ => ⟨c, ⟨hc.1, hc.2, Or.inl h1⟩, h2⟩⟩
  | false =>
    simp only [Bool.false_eq_true, if_false, List.foldl_cons, List.foldl_nil]
    have s1 := assignSide_spec e 1 cv (assignSide e 0 cv fun _ => default) p
    simp only [Nat.one_ne_zero, if_false] at s1
    rcases s1 with ⟨g1, g2⟩ | ⟨d, hd, g1, g2⟩
    · rcases s0 with ⟨h1, h2⟩ | ⟨d, hd, h1, h2⟩
      · refine ⟨fun _ => by rw [g2, h2], ?_⟩
        rintro ⟨c, hc, hcon, hf⟩
        rcases hf with hf | hf
        · exact absurd hf (h1 _ ((hcv _).mpr ⟨c, ⟨hc, hcon⟩, rfl⟩))
        · exact absurd hf.2 (g1 _ ((hcv _).mpr ⟨c, ⟨hc, hcon⟩, rfl⟩))
      · rw [hcv] at hd
        obtain ⟨c, hc, rfl⟩ := hd
        exact ⟨fun hn => absurd ⟨hc.1, hc.2, Or.inl h1⟩ (hn c), fun _ => ⟨c, ⟨hc.1, hc.2, Or.inl h1⟩, by rw [g2, h2]⟩⟩
    · rw [hcv] at hd
      obtain ⟨c, hc, rfl⟩ := hd
      exact ⟨fun hn => absurd ⟨hc.1, hc.2, Or.inr ⟨rfl, g1⟩⟩ (hn c), fun _ => ⟨c, ⟨hc.1, hc.2, Or.inr ⟨rfl, g1⟩⟩, g2⟩⟩

/-- C59: the two facing cell faces of neighbours are the same entry of the arrays, and otherwise distinct cell faces have distinct
entries -/
theorem C59_face_identity (f g : Face) (hf : f.2.1 < 3 ∧ f.2.2 < 2) (hg : g.2.1 < 3 ∧ g.2.2 < 2) :
    gridFace f = gridFace g ↔ f = g ∨ ∃ axis c, (f = plusFace axis c ∧ g = minusFace axis c ∧ axis < 3) ∨
      (g = plusFace axis c ∧ f = minusFace axis c ∧ axis < 3) := by
  obtain ⟨⟨fk, fj, fi⟩, fa, fp⟩ := f
  obtain ⟨⟨gk, gj, gi⟩, ga, gp⟩ := g
  dsimp only at hf hg
  constructor
  · intro h
    have ha : fa = ga := by
      have h1 : ∀ x : Face, x.2.1 < 3 → (gridFace x).1 = x.2.1 := by
        intro x hx
        unfold gridFace
        split <;> simp_all
      have := congrArg Prod.fst h
      rwa [h1 _ hf.1, h1 _ hg.1] at this
    subst ha
    have h01 : ∀ n, n < 2 → n = 0 ∨ n = 1 := by omega
    have ha3 : fa = 0 ∨ fa = 1 ∨ fa = 2 := by omega
    rcases ha3 with rfl | rfl | rfl <;> rcases h01 fp hf.2 with rfl | rfl <;> rcases h01 gp hg.2 with rfl | rfl <;>
      simp only [gridFace, Prod.mk.injEq, true_and] at h
    · exact Or.inl (by simp only [Prod.mk.injEq, and_true]; omega)
    · refine Or.inr ⟨0, (gk, gj, gi), Or.inr ⟨rfl, ?_, by omega⟩⟩
      simp only [minusFace, next, Prod.mk.injEq, and_true]; omega
    · refine Or.inr ⟨0, (fk, fj, fi), Or.inl ⟨rfl, ?_, by omega⟩⟩
      simp only [minusFace, next, Prod.mk.injEq, and_true]; omega
    · exact Or.inl (by simp only [Prod.mk.injEq, and_true]; omega)
    · exact Or.inl (by simp only [Prod.mk.injEq, and_true]; omega)
    · refine Or.inr ⟨1, (gk, gj, gi), Or.inr ⟨rfl, ?_, by omega⟩⟩
      simp only [minusFace, next, Prod.mk.injEq, and_true]; omega
    · refine Or.inr ⟨1, (fk, fj, fi), Or.inl ⟨rfl, ?_, by omega⟩⟩
      simp only [minusFace, next, Prod.mk.injEq, and_true]; omega
    · exact Or.inl (by simp only [Prod.mk.injEq, and_true]; omega)
    · exact Or.inl (by simp only [Prod.mk.injEq, and_true]; omega)
    · refine Or.inr ⟨2, (gk, gj, gi), Or.inr ⟨rfl, ?_, by omega⟩⟩
      simp only [minusFace, next, Prod.mk.injEq, and_true]; omega
    · refine Or.inr ⟨2, (fk, fj, fi), Or.inl ⟨rfl, ?_, by omega⟩⟩
      simp only [minusFace, next, Prod.mk.injEq, and_true]; omega
    · exact Or.inl (by simp only [Prod.mk.injEq, and_true]; omega)
  · have key : ∀ (axis : Nat) (c : Cell), axis < 3 → gridFace (plusFace axis c) = gridFace (minusFace axis c) := by
      intro axis c ha
      have ha3 : axis = 0 ∨ axis = 1 ∨ axis = 2 := by omega
      rcases ha3 with rfl | rfl | rfl <;> rfl
    rintro (h | ⟨axis, c, ⟨h1, h2, h3⟩ | ⟨h1, h2, h3⟩⟩)
    · rw [h]
    · rw [h1, h2]; exact key axis c h3
    · rw [h1, h2]; exact (key axis c h3).symm

/-- hypotheses met: two connections in a row of three cells, the second not active -/
example : faceArrays ⟨1, 1, 3⟩ (none : Option Nat) none true false
    [⟨⟨0, 1, 3, 5⟩, 0, true, some 7⟩, ⟨⟨1, 2, 3, 5⟩, 0, false, some 8⟩] (2, (0, 0, 1)) = some 7 := by decide
example : faceArrays ⟨1, 1, 3⟩ (none : Option Nat) none true false
    [⟨⟨0, 1, 3, 5⟩, 0, true, some 7⟩, ⟨⟨1, 2, 3, 5⟩, 0, false, some 8⟩] (2, (0, 0, 2)) = none := by decide

/-- C59 does not hold with a baffle property: with the third of three faces a baffle, the first two are set to zero, and the third
is not. -/
theorem C59_baffle_violated : applyBaffle [some 5, some 6, some (7 : Nat)] [0, 0, 1] = .ok [some 0, some 0, some 7] := by decide

/-! ## C55 -/

section
variable [Field K] [LinearOrder K] [IsStrictOrderedRing K]

/-- the values present at a face -/
def valuesAt (arrs : List (FaceArr K)) (p : Nat × Cell) : List K := arrs.filterMap fun a => a p

/-- the value that the mode asks for, of those present at a face -/
def Merged (mode : Merge) (vs : List K) (r : K) : Prop :=
  match mode with
  | .minimum => r ∈ vs ∧ ∀ v ∈ vs, r ≤ v
  | .maximum => r ∈ vs ∧ ∀ v ∈ vs, v ≤ r
  | .multiply => r = vs.prod
  | .exception => vs = [r]

theorem combineLoop_value (dom : List (Nat × Cell)) (mode : Merge) (arrs : List (FaceArr K)) (combo r : FaceArr K)
    (h : combineLoop dom mode arrs combo = .ok r) (p : Nat × Cell) (hp : p ∈ dom) (pre : List K)
    (hpre : (pre = [] ∧ combo p = none) ∨ ∃ x, combo p = some x ∧ Merged mode pre x) :
    (pre ++ valuesAt arrs p = [] ∧ r p = none) ∨ ∃ x, r p = some x ∧ Merged mode (pre ++ valuesAt arrs p) x := by
  induction arrs generalizing combo pre with
  | nil =>
    cases h
    simpa [valuesAt] using hpre
  | cons a as ih =>
    unfold combineLoop at h
    split at h
    · cases h
    · rename_i hx
      cases ha : a p with
      | none =>
        have hv : valuesAt (a :: as) p = valuesAt as p := by simp [valuesAt, ha]
        rw [hv]
        refine ih _ h pre ?_
        rw [ha]
        cases hc : combo p <;> rw [hc] at hpre <;> exact hpre
      | some v =>
        have hv : valuesAt (a :: as) p = [v] ++ valuesAt as p := by simp [valuesAt, ha]
        rw [hv, ← List.append_assoc]
        refine ih _ h (pre ++ [v]) (Or.inr ?_)
        rw [ha]
        rcases hpre with ⟨rfl, hc⟩ | ⟨x, hc, hm⟩
        · rw [hc]
          refine ⟨v, rfl, ?_⟩
          cases mode <;> simp [Merged]
        · rw [hc]
          cases mode with
          | minimum =>
            refine ⟨min x v, rfl, ?_⟩
            obtain ⟨h1, h2⟩ := hm
            refine ⟨?_, ?_⟩
            · rcases min_choice x v with h | h <;> rw [h] <;> simp [h1]
            · intro w hw
              rcases List.mem_append.mp hw with hw | hw
              · exact le_trans (min_le_left _ _) (h2 w hw)
              · rw [List.mem_singleton] at hw
                rw [hw]; exact min_le_right _ _
          | maximum =>
            refine ⟨max x v, rfl, ?_⟩
            obtain ⟨h1, h2⟩ := hm
            refine ⟨?_, ?_⟩
            · rcases max_choice x v with h | h <;> rw [h] <;> simp [h1]
            · intro w hw
              rcases List.mem_append.mp hw with hw | hw
              · exact le_trans (h2 w hw) (le_max_left _ _)
              · rw [List.mem_singleton] at hw
                rw [hw]; exact le_max_right _ _
          | multiply =>
            refine ⟨x * v, rfl, ?_⟩
            have hm' : x = pre.prod := hm
            show x * v = (pre ++ [v]).prod
            rw [List.prod_append, List.prod_singleton, ← hm']
          | exception =>
            exact absurd ⟨rfl, List.any_eq_true.mpr ⟨p, hp, by simp [hc, ha]⟩⟩ hx

/-- C55: when multipliers are combined, the value at each face present in some of the sets is the minimum, maximum or product of
the values there, or the only value when conflicts are not allowed; faces in none have the fill value (NaN if there is none);
and no multiplier is negative. -/
theorem C55_combined (dom : List (Nat × Cell)) (mode : Merge) (fill : Option K) (arrs : List (FaceArr K)) (r : FaceArr K)
    (h : combinedTrMult dom mode fill arrs = .ok r) (p : Nat × Cell) (hp : p ∈ dom) :
    (valuesAt arrs p = [] → r p = fill) ∧ (valuesAt arrs p ≠ [] → ∃ x, r p = some x ∧ Merged mode (valuesAt arrs p) x) ∧
      ∀ x, r p = some x → 0 ≤ x := by
  unfold combinedTrMult at h
  split at h
  · cases h
  · cases hc : combineLoop dom mode arrs (fun _ => none) with
    | error e => rw [hc] at h; cases h
    | ok combo =>
      rw [hc] at h
      dsimp only at h
      split at h
      · rename_i hall
        cases h
        have hv := combineLoop_value dom mode arrs _ combo hc p hp [] (Or.inl ⟨rfl, rfl⟩)
        rw [List.nil_append] at hv
        refine ⟨fun he => ?_, fun hne => ?_, fun x hx => ?_⟩
        · rcases hv with ⟨-, h2⟩ | ⟨x, h1, h2⟩
          · cases fill with
            | none => exact h2
            | some v => simp [fillFaces, h2]
          · exfalso
            rw [he] at h2
            cases mode with
            | minimum => simp [Merged] at h2
            | maximum => simp [Merged] at h2
            | exception => simp [Merged] at h2
            | multiply =>
              have : ∀ (as : List (FaceArr K)) (c r : FaceArr K), combineLoop dom .multiply as c = .ok r → valuesAt as p = [] →
                  r p = c p := by
                intro as
                induction as with
                | nil => intro c r h _; cases h; rfl
                | cons a as ih =>
                  intro c r h hv
                  unfold combineLoop at h
                  rw [if_neg (by simp)] at h
                  unfold valuesAt at hv
                  cases ha : a p with
                  | none =>
                    rw [List.filterMap_cons, ha] at hv
                    rw [ih _ r h hv]
                    show mergeValue _ (c p) (a p) = _
                    rw [ha]
                    cases c p <;> rfl
                  | some v => rw [List.filterMap_cons, ha] at hv; cases hv
              have := this arrs _ combo hc he
              rw [h1] at this
              cases this
        · rcases hv with ⟨h1, -⟩ | ⟨x, h1, h2⟩
          · exact absurd h1 hne
          · refine ⟨x, ?_, h2⟩
            cases fill with
            | none => exact h1
            | some v => simp [fillFaces, h1]
        · have := List.all_eq_true.mp hall p hp
          rw [hx] at this
          simpa using this
      · cases h

/-- C55: combining succeeds when no multiplier is negative and, if conflicts are not allowed, no face has two values. -/
theorem C55_succeeds (dom : List (Nat × Cell)) (mode : Merge) (fill : Option K) (arrs : List (FaceArr K)) (hne : arrs ≠ [])
    (hfill : ∀ v, fill = some v → 0 ≤ v) (hpos : ∀ a ∈ arrs, ∀ p x, a p = some x → 0 ≤ x)
    (hex : mode = .exception → ∀ p ∈ dom, (valuesAt arrs p).length ≤ 1) : ∃ r, combinedTrMult dom mode fill arrs = .ok r := by
  have loop : ∀ (as : List (FaceArr K)) (c : FaceArr K), (∀ a ∈ as, ∀ p x, a p = some x → 0 ≤ x) → (∀ p x, c p = some x → 0 ≤ x) →
      (mode = .exception → ∀ p ∈ dom, (valuesAt (c :: as) p).length ≤ 1) →
      ∃ r, combineLoop dom mode as c = .ok r ∧ ∀ p x, r p = some x → 0 ≤ x := by
    intro as
    induction as with
    | nil => intro c _ hc _; exact ⟨c, rfl, hc⟩
    | cons a as ih =>
      intro c has hc hx
      unfold combineLoop
      have hcond : ¬ (mode = .exception ∧ dom.any (fun p => (c p).isSome && (a p).isSome) = true) := by
        rintro ⟨hm, hany⟩
        obtain ⟨p, hp, h⟩ := List.any_eq_true.mp hany
        rw [Bool.and_eq_true, Option.isSome_iff_exists, Option.isSome_iff_exists] at h
        obtain ⟨⟨x, h1⟩, y, h2⟩ := h
        have := hx hm p hp
        simp [valuesAt, h1, h2] at this
      rw [if_neg hcond]
      have ha : ∀ p x, a p = some x → 0 ≤ x := has a List.mem_cons_self
      refine ih _ (fun b hb => has b (List.mem_cons_of_mem _ hb)) ?_ ?_
      · intro p x hpx
        cases h1 : c p with
        | none =>
          cases h2 : a p with
          | none => simp [mergeValue, h1, h2] at hpx
          | some v => simp only [mergeValue, h1, h2, Option.some.injEq] at hpx; rw [← hpx]; exact ha p v h2
        | some u =>
          have hu := hc p u h1
          cases h2 : a p with
          | none => simp only [mergeValue, h1, h2, Option.some.injEq] at hpx; rw [← hpx]; exact hu
          | some v =>
            have hv := ha p v h2
            cases mode <;> simp only [mergeValue, h1, h2, Option.some.injEq] at hpx <;> rw [← hpx]
            · exact le_min hu hv
            · exact le_trans hu (le_max_left _ _)
            · exact mul_nonneg hu hv
            · exact hu
      · intro hm p hp
        have := hx hm p hp
        subst hm
        cases h1 : c p with
        | none =>
          cases h2 : a p with
          | none => simpa [valuesAt, mergeValue, h1, h2] using this
          | some v => simpa [valuesAt, mergeValue, h1, h2] using this
        | some u =>
          cases h2 : a p with
          | none => simpa [valuesAt, mergeValue, h1, h2] using this
          | some v => simp [valuesAt, h1, h2] at this
  obtain ⟨combo, hcombo, hcpos⟩ := loop arrs (fun _ => none) hpos (fun p x h => by cases h) (fun hm p hp => by
    have := hex hm p hp
    simpa [valuesAt] using this)
  unfold combinedTrMult
  rw [if_neg hne, hcombo]
  dsimp only
  rw [if_pos]
  · exact ⟨_, rfl⟩
  · rw [List.all_eq_true]
    intro p _
    unfold fillFaces
    cases fill with
    | none =>
      dsimp only
      cases hq : combo p with
      | none => rfl
      | some x => simpa using hcpos p x hq
    | some v =>
      dsimp only
      cases hq : combo p with
      | none => simpa using hfill v rfl
      | some x => simpa using hcpos p x hq

end

/-- hypotheses met -/
example : (combinedTrMult [(0, (0, 0, 0)), (0, (1, 0, 0))] .minimum (some (1 : Rat))
    [fun p => if p = (0, (1, 0, 0)) then some 3 else none, fun p => if p = (0, (1, 0, 0)) then some 2 else none]).map
      (fun r => [r (0, (0, 0, 0)), r (0, (1, 0, 0))]) = .ok [some 1, some 2] := by decide +kernel

/-! ## C56 -/

section
variable [Field K] [LinearOrder K] [IsStrictOrderedRing K]

/-- a connection between the K faces of two cells, the first of them in the column -/
def InColumn (col : Nat × Nat) (d : Face × Face) : Bool :=
  d.1.2.1 == 0 && d.2.2.1 == 0 && (d.1.1.2.1, d.1.1.2.2) == col

/-- the property values of the K face connections of a column -/
def columnValues (rows : List ((Face × Face) × K)) (col : Nat × Nat) : List K :=
  rows.filterMap fun r => if InColumn col r.1 then some r.2 else none

/-- what each way of handling multiple values asks for; with 'any' it is one of them, with 'exception' there may only be one -/
def Handled (mode : Multi) (vs : List K) (x : K) : Prop :=
  match mode with
  | .mean => x = vs.sum / vs.length
  | .min => x ∈ vs ∧ ∀ v ∈ vs, x ≤ v
  | .max => x ∈ vs ∧ ∀ v ∈ vs, v ≤ x
  | .any => x ∈ vs
  | .exception => vs = [x]

theorem columnsLoop_spec (mode : Multi) (rows : List ((Face × Face) × K)) (st r : ColMap K) (pre : Nat × Nat → List K) (null : K)
    (hinv : ∀ c, st.count c = (pre c).length ∧ ((pre c = [] ∧ st.map c = null) ∨ (pre c ≠ [] ∧ Handled mode (pre c) (st.map c))))
    (h : columnsLoop mode rows st = .ok r) :
    ∀ c, (pre c ++ columnValues rows c = [] ∧ r.map c = null) ∨
      (pre c ++ columnValues rows c ≠ [] ∧ Handled mode (pre c ++ columnValues rows c) (r.map c)) := by
  induction rows generalizing st pre with
  | nil =>
    cases h
    intro c
    simpa [columnValues] using (hinv c).2
  | cons row rows ih =>
    obtain ⟨d, v⟩ := row
    unfold columnsLoop at h
    split at h
    · rename_i hk
      have hv : ∀ c, columnValues ((d, v) :: rows) c = columnValues rows c := by
        intro c
        have : InColumn c d = false := by
          unfold InColumn
          rcases hk with hk | hk <;> simp [hk]
        simp [columnValues, this]
      intro c
      rw [hv]
      exact ih st pre hinv h c
    · rename_i hk
      rw [not_or, not_not, not_not] at hk
      dsimp only at h
      set col := (d.1.1.2.1, d.1.1.2.2) with hcol
      have hv : ∀ c, pre c ++ columnValues ((d, v) :: rows) c =
          (if c = col then pre c ++ [v] else pre c) ++ columnValues rows c := by
        intro c
        by_cases hc : c = col
        · have : InColumn c d = true := by
            unfold InColumn
            simp [hk, hc, ← hcol]
          subst hc
          simp only [columnValues, List.filterMap_cons, this, if_true]
          simp
        · have : InColumn c d = false := by
            unfold InColumn
            rw [← hcol]
            simp [Ne.symm hc]
          simp [columnValues, this, hc]
      -- the step, given that the new value is right for the column
      have step : ∀ x : K, Handled mode (pre col ++ [v]) x →
          columnsLoop mode rows ⟨fun c => if c = col then x else st.map c,
            fun c => if c = col then st.count col + 1 else st.count c⟩ = .ok r →
          ∀ c, (pre c ++ columnValues ((d, v) :: rows) c = [] ∧ r.map c = null) ∨
            (pre c ++ columnValues ((d, v) :: rows) c ≠ [] ∧ Handled mode (pre c ++ columnValues ((d, v) :: rows) c) (r.map c)) := by
        intro x hx hr c
        rw [hv c]
        refine ih _ (fun c => if c = col then pre c ++ [v] else pre c) ?_ hr c
        intro c
        by_cases hc : c = col
        · subst hc
          simp only [if_true]
          refine ⟨by rw [(hinv _).1]; simp, Or.inr ⟨by simp, hx⟩⟩
        · simp only [if_neg hc]
          exact hinv c
      obtain ⟨hcount, hval⟩ := hinv col
      split at h
      · rename_i h0
        refine step v ?_ h
        rcases h0 with h0 | h0
        · have hnil : pre col = [] := List.length_eq_zero_iff.mp (by omega)
          rw [hnil]
          cases mode <;> simp [Handled]
        · subst h0
          simp [Handled]
      · rename_i h0
        rw [not_or] at h0
        have hne : pre col ≠ [] := fun hnil => h0.1 (by rw [hcount, hnil]; rfl)
        rcases hval with ⟨hnil, -⟩ | ⟨-, hH⟩
        · exact absurd hnil hne
        · cases mode with
          | mean =>
            refine step _ ?_ h
            have hH' : st.map col = (pre col).sum / (pre col).length := hH
            show _ = (pre col ++ [v]).sum / _
            rw [hH', hcount, List.sum_append, List.sum_singleton, List.length_append, List.length_singleton]
            have hl : ((pre col).length : K) ≠ 0 := Nat.cast_ne_zero.mpr (by rw [← hcount]; exact h0.1)
            rw [div_mul_cancel₀ _ hl]
          | min =>
            refine step _ ?_ h
            obtain ⟨h1, h2⟩ := hH
            split
            · rename_i hlt
              refine ⟨by simp, fun w hw => ?_⟩
              rcases List.mem_append.mp hw with hw | hw
              · exact le_trans (le_of_lt hlt) (h2 w hw)
              · rw [List.mem_singleton] at hw; rw [hw]
            · rename_i hlt
              refine ⟨List.mem_append_left _ h1, fun w hw => ?_⟩
              rcases List.mem_append.mp hw with hw | hw
              · exact h2 w hw
              · rw [List.mem_singleton] at hw; rw [hw]; exact not_lt.mp hlt
          | max =>
            refine step _ ?_ h
            obtain ⟨h1, h2⟩ := hH
            split
            · rename_i hlt
              refine ⟨by simp, fun w hw => ?_⟩
              rcases List.mem_append.mp hw with hw | hw
              · exact le_trans (h2 w hw) (le_of_lt hlt)
              · rw [List.mem_singleton] at hw; rw [hw]
            · rename_i hlt
              refine ⟨List.mem_append_left _ h1, fun w hw => ?_⟩
              rcases List.mem_append.mp hw with hw | hw
              · exact h2 w hw
              · rw [List.mem_singleton] at hw; rw [hw]; exact not_lt.mp hlt
          | any => exact absurd rfl h0.2
          | exception => cases h

/-- C56: in the map derived from a property of a connection set, each column has the mean, least, greatest, a (last) or the only
value of the K faces of the set in that column, as asked for; columns without K faces have the null value. -/
theorem C56_columns (mode : Multi) (rows : List ((Face × Face) × K)) (null : K) (r : ColMap K)
    (h : columnsLoop mode rows ⟨fun _ => null, fun _ => 0⟩ = .ok r) (col : Nat × Nat) :
    (columnValues rows col = [] → r.map col = null) ∧ (columnValues rows col ≠ [] → Handled mode (columnValues rows col) (r.map col)) := by
  have := columnsLoop_spec mode rows ⟨fun _ => null, fun _ => 0⟩ r (fun _ => []) null (fun c => ⟨rfl, Or.inl ⟨rfl, rfl⟩⟩) h col
  rw [List.nil_append] at this
  rcases this with ⟨h1, h2⟩ | ⟨h1, h2⟩
  · exact ⟨fun _ => h2, fun h => absurd h1 h⟩
  · exact ⟨fun h => absurd h h1, fun _ => h2⟩

/-- C56: an exception is raised only when multiple values are not allowed. -/
theorem C56_no_exception (mode : Multi) (hm : mode ≠ .exception) (rows : List ((Face × Face) × K)) (st : ColMap K) :
    ∃ r, columnsLoop mode rows st = .ok r := by
  induction rows generalizing st with
  | nil => exact ⟨st, rfl⟩
  | cons row rows ih =>
    obtain ⟨d, v⟩ := row
    unfold columnsLoop
    split
    · exact ih _
    · dsimp only
      split
      · exact ih _
      · cases mode with
        | exception => exact absurd rfl hm
        | any => rename_i h; exact absurd (Or.inr rfl) h
        | mean => exact ih _
        | min => exact ih _
        | max => exact ih _

/-- C56 does not hold for discrete properties with the default null value: instead of -1 being used an exception is raised. -/
theorem C56_discrete_default_null_violated (toInt : K → K) : columnsNull false none toInt = .error .value := rfl

end

/-- hypotheses met: the mean of two K faces in a column; the I face is left out -/
example : (columnsLoop .mean [((((0, 0, 0), (0, 1)), ((1, 0, 0), (0, 0))), (2 : Rat)), ((((0, 0, 0), (2, 1)), ((0, 0, 1), (2, 0))), 5),
    ((((1, 0, 0), (0, 1)), ((2, 0, 0), (0, 0))), 3)] ⟨fun _ => 0, fun _ => 0⟩).map (fun r => (r.map (0, 0), r.map (0, 1))) =
    .ok (5 / 2, 0) := by decide +kernel

/-! ## C58 -/

/-- raw interface index of the top of layer `k` by counting: layers above and gaps above -/
def topOf (gaps : List Bool) (k : Nat) : Nat := k + ((gaps.take k).filter id).length

theorem rawIndexLoop_spec (gaps : List Bool) (k g n : Nat) :
    (rawIndexLoop gaps k g n).length = n ∧
    ∀ m, m < n → (rawIndexLoop gaps k g n)[m]? = some (k + g + m + ((gaps.take m).filter id).length) := by
  induction n generalizing gaps k g with
  | zero => exact ⟨rfl, fun m h => by omega⟩
  | succ n ih =>
    unfold rawIndexLoop
    cases gaps with
    | nil =>
      dsimp only
      obtain ⟨h1, h2⟩ := ih [] (k + 1) g
      refine ⟨by rw [List.length_cons, h1], fun m hm => ?_⟩
      cases m with
      | zero => simp
      | succ m =>
        rw [List.getElem?_cons_succ, h2 m (by omega)]
        simp only [List.take_nil, List.filter_nil, List.length_nil]
        congr 1; omega
    | cons b gs =>
      dsimp only
      obtain ⟨h1, h2⟩ := ih gs (k + 1) (if n ≠ 0 ∧ b = true then g + 1 else g)
      refine ⟨by rw [List.length_cons, h1], fun m hm => ?_⟩
      cases m with
      | zero => simp
      | succ m =>
        have hn : n ≠ 0 := by omega
        rw [List.getElem?_cons_succ, h2 m (by omega), List.take_succ_cons]
        cases b with
        | true =>
          rw [if_pos ⟨hn, rfl⟩, List.filter_cons_of_pos rfl, List.length_cons]
          congr 1; omega
        | false =>
          rw [if_neg (by simp), List.filter_cons_of_neg (by simp)]
          congr 1; omega

/-- C58: the base of each layer is the top of the next, unless there is a gap after the layer, in which case it is the interface
before it; the first layer starts at interface 0. -/
theorem C58_interfaces (nk : Nat) (gaps : List Bool) :
    (rawIndex nk gaps).length = nk ∧ (0 < nk → (rawIndex nk gaps)[0]? = some 0) ∧
    ∀ k, k + 1 < nk → ∃ r s, (rawIndex nk gaps)[k]? = some r ∧ (rawIndex nk gaps)[k + 1]? = some s ∧
      (gaps[k]? ≠ some true → s = r + 1) ∧ (gaps[k]? = some true → s = r + 2) := by
  obtain ⟨h1, h2⟩ := rawIndexLoop_spec gaps 0 0 nk
  refine ⟨h1, fun h => by have := h2 0 h; simpa [rawIndex] using this, fun k hk => ?_⟩
  refine ⟨_, _, h2 k (by omega), h2 (k + 1) hk, fun hg => ?_, fun hg => ?_⟩
  · rw [List.take_succ, List.filter_append, List.length_append]
    cases hq : gaps[k]? with
    | none => simp; omega
    | some b =>
      cases b with
      | true => exact absurd hq hg
      | false => simp; omega
  · rw [List.take_succ, List.filter_append, List.length_append, hg]
    simp; omega

/-- C58: with one flag per layer other than the last, the base of the last layer is the last of the nk + k_gaps + 1 interfaces. -/
theorem C58_last (nk : Nat) (gaps : List Bool) (h : gaps.length + 1 = nk) :
    (rawIndex nk gaps)[nk - 1]? = some (nk - 1 + (gaps.filter id).length) := by
  obtain ⟨-, h2⟩ := rawIndexLoop_spec gaps 0 0 nk
  have := h2 (nk - 1) (by omega)
  rw [show nk - 1 = gaps.length by omega, List.take_length] at this
  rw [show nk - 1 = gaps.length by omega]
  rw [show rawIndex nk gaps = rawIndexLoop gaps 0 0 nk from rfl, this]
  congr 1; omega

section
variable [Field K] [LinearOrder K] [IsStrictOrderedRing K]

/-- C58: the K gap connections are exactly those between a cell and the one below it, where there is a K gap after the cell's layer
whose thickness in the column is defined and less than the tolerance, and (if inactive cells are skipped) both are active. -/
theorem C58_connections (e : Ext) (gaps : List Bool) (z : Nat → Nat → Option K) (pillars : Nat × Nat → Nat × Nat × Nat × Nat)
    (flip : Bool) (dead : Option (Cell → Bool)) (tol : K) (a b : Cell) (ha : Inside e a) (hb : Inside e b) :
    (natural e a, natural e b) ∈ kGapPairs e gaps z pillars flip dead tol ↔
      b = (a.1 + 1, a.2.1, a.2.2) ∧ gaps[a.1]? = some true ∧
      (∃ t, gapThickness (rawIndex e.nk gaps) z pillars flip a.1 (a.2.1, a.2.2) = some t ∧ t < tol) ∧
      (∀ d, dead = some d → d a = false ∧ d b = false) := by
  unfold kGapPairs
  simp only [List.mem_flatMap, List.mem_range]
  constructor
  · rintro ⟨k, hk, hmem⟩
    split at hmem
    · cases hmem
    · rename_i hg
      rw [not_not] at hg
      rw [List.mem_flatMap] at hmem
      obtain ⟨j, hj, hmem⟩ := hmem
      rw [List.mem_filterMap] at hmem
      obtain ⟨i, hi, hif⟩ := hmem
      rw [List.mem_range] at hj hi
      rw [Option.ite_none_right_eq_some] at hif
      obtain ⟨hc, hif⟩ := hif
      · simp only [Option.some.injEq, Prod.mk.injEq] at hif
        have e1 := natural_inj e (c := (k, j, i)) (d := a) ⟨by dsimp only; omega, hj, hi⟩ ha hif.1
        have e2 := natural_inj e (c := (k + 1, j, i)) (d := b) ⟨by dsimp only; omega, hj, hi⟩ hb hif.2
        subst e1 e2
        rw [Bool.and_eq_true] at hc
        refine ⟨rfl, hg, ?_, ?_⟩
        · dsimp only
          cases ht : gapThickness (rawIndex e.nk gaps) z pillars flip k (j, i) with
          | none => rw [ht] at hc; simp at hc
          | some t => rw [ht] at hc; exact ⟨t, rfl, by simpa using hc.1⟩
        · intro d hd
          rw [hd] at hc
          simpa using hc.2
  · rintro ⟨rfl, hg, ⟨t, ht, hlt⟩, hd⟩
    obtain ⟨k, j, i⟩ := a
    dsimp only at hg ht hd hb ⊢
    refine ⟨k, by have := hb.1; dsimp only at this; omega, ?_⟩
    rw [if_neg (not_not.mpr hg)]
    rw [List.mem_flatMap]
    refine ⟨j, List.mem_range.mpr ha.2.1, ?_⟩
    rw [List.mem_filterMap]
    refine ⟨i, List.mem_range.mpr ha.2.2, ?_⟩
    rw [if_pos]
    rw [Bool.and_eq_true]
    refine ⟨by rw [ht]; simpa using hlt, ?_⟩
    cases dead with
    | none => rfl
    | some d =>
      obtain ⟨h1, h2⟩ := hd d rfl
      simp [h1, h2]

/-- C58: the thickness is the mean over the four pillars of the column of the distance from the base of the layer to the top of
the next, these being the two interfaces of the gap. -/
theorem C58_thickness (nk : Nat) (gaps : List Bool) (zv : Nat → Nat → K) (pillars : Nat × Nat → Nat × Nat × Nat × Nat)
    (flip : Bool) (k : Nat) (col : Nat × Nat) (hk : k + 1 < nk) :
    let gap (p : Nat) := zv (topOf gaps (k + 1)) p - zv (topOf gaps k + 1) p
    let q := pillars col
    gapThickness (rawIndex nk gaps) (fun r p => some (zv r p)) pillars flip k col =
      some ((if flip then -1 else 1) * ((gap q.1 + gap q.2.1 + gap q.2.2.1 + gap q.2.2.2) / 4)) := by
  obtain ⟨-, h2⟩ := rawIndexLoop_spec gaps 0 0 nk
  have e0 : (rawIndex nk gaps)[k]? = some (topOf gaps k) := by
    rw [show rawIndex nk gaps = rawIndexLoop gaps 0 0 nk from rfl, h2 k (by omega)]; unfold topOf; congr 1; omega
  have e1 : (rawIndex nk gaps)[k + 1]? = some (topOf gaps (k + 1)) := by
    rw [show rawIndex nk gaps = rawIndexLoop gaps 0 0 nk from rfl, h2 (k + 1) hk]; unfold topOf; congr 1; omega
  dsimp only
  unfold gapThickness
  rw [e0, e1]
  dsimp only
  congr 1
  cases flip
  · simp only [Bool.false_eq_true, if_false]; ring
  · simp only [if_true]; ring

end

/-- hypotheses met: three layers with a gap after the second -/
example : rawIndex 3 [false, true] = [0, 1, 3] := by decide
example : kGapPairs ⟨3, 1, 1⟩ [false, true] (fun r _ => some ([0, 1, 2, 2, 3].getD r (0 : Rat))) (fun _ => (0, 1, 2, 3)) false none (1 / 1000) =
    [(1, 2)] := by decide +kernel

end Verif.Gcs
