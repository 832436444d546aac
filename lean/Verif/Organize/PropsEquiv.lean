import Verif.Organize.PropsReuse
import Mathlib.Tactic.NormNum

/-!
# C152: what it means that two objects are equivalent
-/

namespace Verif.Organize

open Verif.Py

/-- C152: two features are equivalent exactly if they are of one class and are the same part, or have the same content; having the same
content is an equivalence relation. -/
theorem C152_feature (md : Bool) :
    (∀ f g : Feat, (f.md.map Prod.fst).Nodup → (g.md.map Prod.fst).Nodup →
      (eqvFeat md f g = true ↔ f.cls = g.cls ∧ (f.uuid = g.uuid ∨ SameFeature md f g))) ∧ Equivalence (SameFeature md) := by
  refine ⟨fun f g hf hg => eqvFeat_iff hf hg, fun f => ⟨rfl, rfl, fun _ => rfl, fun _ => rfl, fun _ _ => rfl⟩, ?_, sameFeature_trans⟩
  rintro f g ⟨a1, a2, a3, a4, a5⟩
  exact ⟨a1.symm, a2.symm, fun h => (a3 (a1 ▸ h)).symm, fun h => (a4 (a1 ▸ h)).symm, fun h k => (a5 h k).symm⟩

example : eqvFeat true (exGenetic 1) (exGenetic 2) = true ∧ eqvFeat true (exGenetic 1) { exGenetic 2 with kind := some "geobody boundary" } = false ∧
    eqvFeat true (exGenetic 1) { exGenetic 2 with md := [] } = false ∧ eqvFeat false (exGenetic 1) { exGenetic 2 with md := [] } = true := by
  decide +kernel

theorem alike_iff {md : Bool} {f g : Option Feat} (hf : ∀ x, f = some x → (x.md.map Prod.fst).Nodup)
    (hg : ∀ x, g = some x → (x.md.map Prod.fst).Nodup) : eqvFeat? md f g = true ↔ Alike md f g := by
  cases f <;> cases g <;> simp only [eqvFeat?, Alike, iff_self, Bool.false_eq_true]
  exact eqvFeat_iff (hf _ rfl) (hg _ rfl)

theorem bothOrNeither_iff (s : Store) (u v : Nat) : sameRoots s u v = true ↔ BothOrNeither s u v := by
  unfold sameRoots BothOrNeither
  cases rootFor s u <;> cases rootFor s v <;> simp

theorem eqvRelations_iff (a b : Option (List String)) : eqvRelations a b = true ↔ ∀ x, x ∈ a.getD [] ↔ x ∈ b.getD [] := by
  unfold eqvRelations
  simp only
  generalize a.getD [] = p
  generalize b.getD [] = q
  by_cases hp : p = []
  · by_cases hq : q = []
    · simp [hp, hq]
    · simp only [hp, hq, and_false, if_false, true_or, if_true, Bool.false_eq_true, false_iff]
      intro h
      obtain ⟨x, l, rfl⟩ := List.exists_cons_of_ne_nil hq
      simpa using (h x)
  · by_cases hq : q = []
    · simp only [hp, hq, and_true, if_false, or_true, if_true, Bool.false_eq_true, false_iff]
      intro h
      obtain ⟨x, l, rfl⟩ := List.exists_cons_of_ne_nil hp
      simpa using (h x)
    · rw [if_neg (by simp [hp]), if_neg (by simp [hp, hq])]
      simp only [Bool.and_eq_true, List.all_eq_true, decide_eq_true_eq]
      constructor
      · rintro ⟨h1, h2⟩ x
        exact ⟨h1 x, h2 x⟩
      · intro h
        exact ⟨fun x => (h x).1, fun x => (h x).2⟩

theorem metaCheck_iff {md : Bool} {a b : Meta} (ha : (a.map Prod.fst).Nodup) (hb : (b.map Prod.fst).Nodup) :
    (md && !eqvMeta a b) = false ↔ (md = true → SameMeta a b) := by
  cases md
  · simp
  · simp [eqvMeta_iff ha hb]

/-- C152 for boundary feature interpretations. -/
theorem C152_boundary_interpretation {md : Bool} {a b : Interp} (ha : DistinctNames a.md a.feature) (hb : DistinctNames b.md b.feature) :
    eqvBoundaryInterp md a b = true ↔ a.uuid = b.uuid ∨
      (Alike md a.feature b.feature ∧ a.title = b.title ∧ a.domain = b.domain ∧ a.hod = b.hod ∧ (md = true → SameMeta a.md b.md)) := by
  unfold eqvBoundaryInterp
  have h1 := alike_iff (md := md) ha.2 hb.2
  have h2 := metaCheck_iff (md := md) ha.1 hb.1
  have h3 := eqvHod_iff a.hod b.hod
  by_cases hu : a.uuid = b.uuid
  · simp [hu]
  · rw [← h1, ← h2, ← h3]
    simp only [hu, if_false, false_or]
    generalize (md && !eqvMeta a.md b.md) = m
    generalize eqvFeat? md a.feature b.feature = f
    generalize eqvHod a.hod b.hod = o
    by_cases ht : a.title = b.title <;> by_cases hd : a.domain = b.domain <;> cases m <;> cases f <;> cases o <;> simp [ht, hd]

/-- C152 for horizon interpretations: the boundary relations are compared as sets. -/
theorem C152_horizon {md : Bool} {s : Store} {a b : Horizon} (ha : DistinctNames a.md a.feature) (hb : DistinctNames b.md b.feature) :
    eqvHorizon md s a b = true ↔ a.uuid = b.uuid ∨
      (Alike md a.feature b.feature ∧ BothOrNeither s a.uuid b.uuid ∧ a.domain = b.domain ∧ a.hod = b.hod ∧ a.sss = b.sss ∧
        (md = true → SameMeta a.md b.md) ∧ ∀ r, r ∈ a.relations.getD [] ↔ r ∈ b.relations.getD []) := by
  unfold eqvHorizon
  have h1 := alike_iff (md := md) ha.2 hb.2
  have h2 := metaCheck_iff (md := md) ha.1 hb.1
  have h3 := eqvHod_iff a.hod b.hod
  have h4 := bothOrNeither_iff s a.uuid b.uuid
  by_cases hu : a.uuid = b.uuid
  · simp [hu]
  · rw [← h1, ← h2, ← h3, ← h4, ← eqvRelations_iff]
    simp only [hu, if_false, false_or]
    generalize (md && !eqvMeta a.md b.md) = m
    generalize eqvFeat? md a.feature b.feature = f
    generalize eqvHod a.hod b.hod = o
    generalize sameRoots s a.uuid b.uuid = r
    by_cases ht : a.sss = b.sss <;> by_cases hd : a.domain = b.domain <;> cases m <;> cases f <;> cases o <;> cases r <;> simp [ht, hd]

/-- C152 for geobody boundary interpretations. -/
theorem C152_geobody_boundary {md : Bool} {s : Store} {a b : Horizon} (ha : DistinctNames a.md a.feature) (hb : DistinctNames b.md b.feature) :
    eqvGeobodyBoundary md s a b = true ↔ a.uuid = b.uuid ∨
      (Alike md a.feature b.feature ∧ BothOrNeither s a.uuid b.uuid ∧ a.domain = b.domain ∧ a.hod = b.hod ∧
        (md = true → SameMeta a.md b.md) ∧ ∀ r, r ∈ a.relations.getD [] ↔ r ∈ b.relations.getD []) := by
  unfold eqvGeobodyBoundary
  have h1 := alike_iff (md := md) ha.2 hb.2
  have h2 := metaCheck_iff (md := md) ha.1 hb.1
  have h3 := eqvHod_iff a.hod b.hod
  have h4 := bothOrNeither_iff s a.uuid b.uuid
  by_cases hu : a.uuid = b.uuid
  · simp [hu]
  · rw [← h1, ← h2, ← h3, ← h4, ← eqvRelations_iff]
    simp only [hu, if_false, false_or]
    generalize (md && !eqvMeta a.md b.md) = m
    generalize eqvFeat? md a.feature b.feature = f
    generalize eqvHod a.hod b.hod = o
    generalize sameRoots s a.uuid b.uuid = r
    by_cases hd : a.domain = b.domain <;> cases m <;> cases f <;> cases o <;> cases r <;> simp [hd]

/-- C152 for earth model interpretations. -/
theorem C152_earth_model {md : Bool} {s : Store} {a b : Interp} (ha : DistinctNames a.md a.feature) (hb : DistinctNames b.md b.feature) :
    eqvEarthModel md s a b = true ↔ a.uuid = b.uuid ∨
      (Alike md a.feature b.feature ∧ BothOrNeither s a.uuid b.uuid ∧ a.domain = b.domain ∧ a.hod = b.hod ∧
        (md = true → SameMeta a.md b.md)) := by
  unfold eqvEarthModel
  have h1 := alike_iff (md := md) ha.2 hb.2
  have h2 := metaCheck_iff (md := md) ha.1 hb.1
  have h3 := eqvHod_iff a.hod b.hod
  have h4 := bothOrNeither_iff s a.uuid b.uuid
  by_cases hu : a.uuid = b.uuid
  · simp [hu]
  · rw [← h1, ← h2, ← h3, ← h4]
    simp only [hu, if_false, false_or]
    generalize (md && !eqvMeta a.md b.md) = m
    generalize eqvFeat? md a.feature b.feature = f
    generalize eqvHod a.hod b.hod = o
    generalize sameRoots s a.uuid b.uuid = r
    by_cases hd : a.domain = b.domain <;> cases m <;> cases f <;> cases o <;> cases r <;> simp [hd]

/-- C152 for geobody interpretations. -/
theorem C152_geobody {md : Bool} {s : Store} {a b : Geobody} (ha : DistinctNames a.md a.feature) (hb : DistinctNames b.md b.feature) :
    eqvGeobody md s a b = true ↔ a.uuid = b.uuid ∨
      (Alike md a.feature b.feature ∧ BothOrNeither s a.uuid b.uuid ∧ a.domain = b.domain ∧ a.hod = b.hod ∧
        a.composition = b.composition ∧ a.implacement = b.implacement ∧ a.shape = b.shape ∧ (md = true → SameMeta a.md b.md)) := by
  unfold eqvGeobody
  have h1 := alike_iff (md := md) ha.2 hb.2
  have h2 := metaCheck_iff (md := md) ha.1 hb.1
  have h3 := eqvHod_iff a.hod b.hod
  have h4 := bothOrNeither_iff s a.uuid b.uuid
  by_cases hu : a.uuid = b.uuid
  · simp [hu]
  · rw [← h1, ← h2, ← h3, ← h4]
    simp only [hu, if_false, false_or]
    generalize (md && !eqvMeta a.md b.md) = m
    generalize eqvFeat? md a.feature b.feature = f
    generalize eqvHod a.hod b.hod = o
    generalize sameRoots s a.uuid b.uuid = r
    cases m <;> cases f <;> cases o <;> cases r <;> simp [and_assoc]

/-- C152 for wellbore interpretations: the domain is only compared if both are parts. -/
theorem C152_wellbore {md : Bool} {s : Store} {a b : Wellbore} (ha : DistinctNames a.md a.feature) (hb : DistinctNames b.md b.feature) :
    eqvWellbore md s a b = true ↔ a.uuid = b.uuid ∨
      (Alike md a.feature b.feature ∧ BothOrNeither s a.uuid b.uuid ∧ ((rootFor s a.uuid).isSome → a.domain = b.domain) ∧
        a.title = b.title ∧ a.drilled = b.drilled ∧ (md = true → SameMeta a.md b.md)) := by
  unfold eqvWellbore
  have h1 := alike_iff (md := md) ha.2 hb.2
  have h2 := metaCheck_iff (md := md) ha.1 hb.1
  have h4 : sameRootsDomain s a b = true ↔ BothOrNeither s a.uuid b.uuid ∧ ((rootFor s a.uuid).isSome → a.domain = b.domain) := by
    unfold sameRootsDomain BothOrNeither
    cases rootFor s a.uuid <;> cases rootFor s b.uuid <;> simp
  by_cases hu : a.uuid = b.uuid
  · simp [hu]
  · rw [← h1, ← h2, ← and_assoc (b := _ → _), ← h4]
    simp only [hu, if_false, false_or]
    generalize (md && !eqvMeta a.md b.md) = m
    generalize eqvFeat? md a.feature b.feature = f
    generalize sameRootsDomain s a b = r
    cases m <;> cases f <;> cases r <;> simp

/-- C152 for geologic unit interpretations. -/
theorem C152_geologic_unit {md : Bool} {s : Store} {a b : GeoUnit} (ha : DistinctNames a.md a.feature) (hb : DistinctNames b.md b.feature) :
    eqvUnit md s a b = true ↔ a.uuid = b.uuid ∨
      (Alike true a.feature b.feature ∧ BothOrNeither s a.uuid b.uuid ∧ a.domain = b.domain ∧ a.hod = b.hod ∧
        a.composition = b.composition ∧ a.implacement = b.implacement ∧ (md = true → SameMeta a.md b.md)) := by
  unfold eqvUnit
  have h1 := alike_iff (md := true) ha.2 hb.2
  have h2 := metaCheck_iff (md := md) ha.1 hb.1
  have h3 := eqvHod_iff a.hod b.hod
  have h4 := bothOrNeither_iff s a.uuid b.uuid
  by_cases hu : a.uuid = b.uuid
  · simp [hu]
  · rw [← h1, ← h2, ← h3, ← h4]
    simp only [hu, if_false, false_or]
    generalize (md && !eqvMeta a.md b.md) = m
    generalize eqvFeat? true a.feature b.feature = f
    generalize eqvHod a.hod b.hod = o
    generalize sameRoots s a.uuid b.uuid = r
    cases m <;> cases f <;> cases o <;> cases r <;> simp [and_assoc] <;> tauto

/-- C152 for fault interpretations, as it holds: the throw is compared to one part in a thousand, azimuth and dip to half a degree (or to
one part in 10⁹); the throws one by one in order. -/
theorem C152_fault_partial {md : Bool} {a b : Fault} (ha : DistinctNames a.md a.feature) (hb : DistinctNames b.md b.feature) :
    eqvFault md a b = true ↔ a.uuid = b.uuid ∨
      (Alike md a.feature b.feature ∧ a.title = b.title ∧ a.domain = b.domain ∧ a.hod = b.hod ∧ a.normal = b.normal ∧
        a.listric = b.listric ∧ (md = true → SameMeta a.md b.md) ∧ a.throws.getD [] = b.throws.getD [] ∧
        close? (1 / 1000) 0 a.throw b.throw = true ∧ close? (1 / 1000000000) (1 / 2) a.azimuth b.azimuth = true ∧
        close? (1 / 1000000000) (1 / 2) a.dip b.dip = true) := by
  have h5 : eqvThrows a.throws b.throws = true ↔ a.throws.getD [] = b.throws.getD [] := by
    unfold eqvThrows
    simp only
    generalize a.throws.getD [] = p
    generalize b.throws.getD [] = q
    by_cases hp : p = []
    · by_cases hq : q = []
      · simp [hp, hq]
      · simp [hp, hq, Ne.symm hq]
    · by_cases hq : q = []
      · simp [hp, hq]
      · rw [if_neg (by simp [hp]), if_neg (by simp [hp, hq])]
        by_cases hl : p.length = q.length
        · rw [if_neg (by simp [hl])]
          simp only [List.all_eq_true, Bool.and_eq_true, beq_iff_eq, eqvHod_iff]
          constructor
          · intro h
            apply List.ext_getElem hl
            intro i h1 h2
            have := h (p[i], q[i]) (by
              rw [List.mem_iff_getElem]
              exact ⟨i, by simp; omega, by simp⟩)
            exact Prod.ext this.1 this.2
          · rintro rfl x hx
            rw [List.mem_iff_getElem] at hx
            obtain ⟨i, hi, rfl⟩ := hx
            simp
        · rw [if_pos hl]
          simp only [Bool.false_eq_true, false_iff]
          rintro rfl
          exact hl rfl
  unfold eqvFault
  have h1 := alike_iff (md := md) ha.2 hb.2
  have h2 := metaCheck_iff (md := md) ha.1 hb.1
  have h3 := eqvHod_iff a.hod b.hod
  by_cases hu : a.uuid = b.uuid
  · simp [hu]
  · rw [← h1, ← h2, ← h3, ← h5]
    simp only [hu, if_false, false_or]
    generalize (md && !eqvMeta a.md b.md) = m
    generalize eqvFeat? md a.feature b.feature = f
    generalize eqvHod a.hod b.hod = o
    generalize close? (1 / 1000) 0 a.throw b.throw = c1
    generalize close? (1 / 1000000000) (1 / 2) a.azimuth b.azimuth = c2
    generalize close? (1 / 1000000000) (1 / 2) a.dip b.dip = c3
    by_cases ht : a.title = b.title
    · cases m <;> cases f <;> cases o <;> cases c1 <;> cases c2 <;> cases c3 <;> simp [ht]
      tauto
    · simp [ht]

/-- a fault with an azimuth -/
def exFault (u : Nat) (az : ℚ) : Fault := ⟨⟨u, some "G", [], some "time", none, (none, none)⟩, some true, none, none, some az, none, none⟩

/-- C152: equivalence of fault interpretations is not transitive, as azimuths may differ by half a degree. -/
theorem C152_fault_violated : ∃ a b c : Fault, a.uuid ≠ b.uuid ∧ b.uuid ≠ c.uuid ∧ a.uuid ≠ c.uuid ∧ eqvFault true a b = true ∧
    eqvFault true b c = true ∧ eqvFault true a c = false :=
  ⟨exFault 1 0, exFault 2 (2 / 5), exFault 3 (4 / 5), by decide, by decide, by decide, by decide +kernel, by decide +kernel, by decide +kernel⟩

/-- C152: equivalence of fault interpretations does not know that azimuths go round: 359.9 and 0.1 degrees are not alike. -/
theorem C152_azimuth_violated : eqvFault true (exFault 1 (3599 / 10)) (exFault 2 (1 / 10)) = false := by decide +kernel

/-- a stratigraphic unit with a deposition mode -/
def exUnit (u : Nat) (d : Option String) : StratUnit :=
  ⟨⟨⟨u, some "S", [], some "depth", none, (none, none)⟩, none, none⟩, d, none, none, none⟩

/-- C152: equivalence of stratigraphic unit interpretations is not transitive, as a missing deposition mode is like any other. -/
theorem C152_stratigraphic_unit_violated : ∃ a b c : StratUnit, a.uuid ≠ b.uuid ∧ b.uuid ≠ c.uuid ∧ a.uuid ≠ c.uuid ∧
    eqvStrat [] a b = true ∧ eqvStrat [] b c = true ∧ eqvStrat [] a c = false :=
  ⟨exUnit 1 (some "parallel to top"), exUnit 2 none, exUnit 3 (some "parallel to bottom"), by decide, by decide, by decide,
    by decide +kernel, by decide +kernel, by decide +kernel⟩

/-- Thicknesses are not compared at all. -/
theorem C152_thickness_violated : eqvStrat [] { exUnit 1 none with minThick := some 1, uom := some "m" }
    { exUnit 2 none with minThick := some 500, uom := some "m" } = true := by decide +kernel

end Verif.Organize
