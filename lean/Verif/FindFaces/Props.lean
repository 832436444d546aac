import Verif.FindFaces.Means

/-! # C91: bisection of a grid by faces -/

namespace Verif.FindFaces
open Verif.Py

/-- what the bisector is, given what its box is known to be -/
theorem finish_raw {ext lo hi : Cell 3} {faces : Fin 3 → Option (List (Cell 3))} (hg : GoodBox ext lo hi (listOf faces)) :
    (∀ a cur, finishBisector ext (rawBisector ext lo hi faces) true = .ok (a, cur) →
      (∀ c, InGrid ext c → (a c = true ↔ Connected ext (listOf faces) (fun _ => 0) c)) ∧
        ∃ c, InGrid ext c ∧ ¬ Connected ext (listOf faces) (fun _ => 0) c) ∧
    (∀ raw e, finishBisector ext (rawBisector ext lo hi faces) raw = .error e →
      e = .assertion ∧ ∀ c, InGrid ext c → Connected ext (listOf faces) (fun _ => 0) c) ∧
    (∀ raw a cur, finishBisector ext (rawBisector ext lo hi faces) raw = .ok (a, cur) → ∃ b : Cell 3 → Bool,
      (∀ c, InGrid ext c → (b c = true ↔ Connected ext (listOf faces) (fun _ => 0) c)) ∧
      (∃ c, InGrid ext c ∧ ¬ Connected ext (listOf faces) (fun _ => 0) c) ∧ 0 < countTrue ext b ∧ 0 < countTrue ext (fun c => !(b c)) ∧
      (a, cur) = (if MeanLayer ext (fun c => !(b c)) < MeanLayer ext b ∧ raw = false then fun c => !(b c) else b,
      decide (|MeanLayer ext b - MeanLayer ext fun c => !(b c)| ≤ 1 / 1000))) := by
  have hr := fun c (hc : InGrid ext c) => raw_iff hg hc
  have h0 : InGrid ext fun _ => 0 := fun a => lt_of_le_of_lt (Nat.zero_le _) (lt_of_lt_of_le (hg.lt a) (hg.le a))
  have hpos : 0 < countTrue ext (rawBisector ext lo hi faces) := countTrue_pos.mpr ⟨_, h0, (hr _ h0).mpr Relation.ReflTransGen.refl⟩
  have third : ∀ raw a cur, finishBisector ext (rawBisector ext lo hi faces) raw = .ok (a, cur) → ∃ b : Cell 3 → Bool,
      (∀ c, InGrid ext c → (b c = true ↔ Connected ext (listOf faces) (fun _ => 0) c)) ∧
      (∃ c, InGrid ext c ∧ ¬ Connected ext (listOf faces) (fun _ => 0) c) ∧ 0 < countTrue ext b ∧ 0 < countTrue ext (fun c => !(b c)) ∧
      (a, cur) = (if MeanLayer ext (fun c => !(b c)) < MeanLayer ext b ∧ raw = false then fun c => !(b c) else b,
      decide (|MeanLayer ext b - MeanLayer ext fun c => !(b c)| ≤ 1 / 1000)) := by
    intro raw a cur h
    unfold finishBisector at h
    dsimp only at h
    split at h
    · rename_i hcount
      injection h with h
      rw [shallow_eq] at h
      obtain ⟨c, hc, hcf⟩ := countTrue_lt.mp hcount.2
      refine ⟨rawBisector ext lo hi faces, hr, ⟨c, hc, fun hcon => ?_⟩, hpos, ?_, h.symm⟩
      · rw [(hr c hc).mpr hcon] at hcf
        cases hcf
      · exact countTrue_pos.mpr ⟨c, hc, by rw [hcf]; rfl⟩
    · cases h
  refine ⟨?_, ?_, third⟩
  · intro a cur h
    obtain ⟨b, b1, b2, -, -, b3⟩ := third true a cur h
    rw [if_neg (fun h => Bool.noConfusion h.2)] at b3
    obtain ⟨rfl, -⟩ := Prod.mk.inj b3
    exact ⟨b1, b2⟩
  · intro raw e h
    unfold finishBisector at h
    dsimp only at h
    split at h
    · cases h
    · rename_i hcount
      injection h with h
      refine ⟨h.symm, fun c hc => ?_⟩
      by_contra hn
      refine hcount ⟨hpos, countTrue_lt.mpr ⟨c, hc, ?_⟩⟩
      rw [Bool.eq_false_iff]
      exact fun ht => hn ((hr c hc).mp ht)

/-- C91: the raw bisector found from indices of faces is true exactly for the cells which can be reached from the first cell of the grid
without crossing a face, and some cell cannot. -/
theorem C91_raw {ext : Cell 3} {faces : Fin 3 → Option (List (Cell 3))} (hf : FacesInGrid ext (listOf faces)) {a : Cell 3 → Bool} {cur : Bool}
    (h : bisectorFromFaceIndices ext faces true = .ok (a, cur)) :
    (∀ c, InGrid ext c → (a c = true ↔ Connected ext (listOf faces) (fun _ => 0) c)) ∧
      ∃ c, InGrid ext c ∧ ¬ Connected ext (listOf faces) (fun _ => 0) c := by
  unfold bisectorFromFaceIndices at h
  cases hb : boundaryFromIndices ext faces with
  | error e => rw [hb] at h; cases h
  | ok b =>
    rw [hb] at h
    exact (finish_raw (boundaryFromIndices_good hf hb)).1 a cur h

/-- C91: and the same of the function which takes arrays, which may have no faces at all. -/
theorem C91_raw_arrays {ext : Cell 3} {faces : Fin 3 → Option (List (Cell 3))} (hext : ∀ a, 0 < ext a) (hf : FacesInGrid ext (listOf faces))
    {a : Cell 3 → Bool} {cur : Bool} (h : bisectorFromFaces ext faces true = .ok (a, cur)) :
    (∀ c, InGrid ext c → (a c = true ↔ Connected ext (listOf faces) (fun _ => 0) c)) ∧
      ∃ c, InGrid ext c ∧ ¬ Connected ext (listOf faces) (fun _ => 0) c :=
  (finish_raw (boundaryOfArrays_good hext hf)).1 a cur h

/-- C91: an error is raised exactly if the faces leave all cells connected (the surface leaks).  An axis without faces must be given as
none, and some face be given. -/
theorem C91_leak {ext : Cell 3} {faces : Fin 3 → Option (List (Cell 3))} (hf : FacesInGrid ext (listOf faces)) (hne : ∀ ax, faces ax ≠ some [])
    (hex : ∃ ax c, c ∈ listOf faces ax) (raw : Bool) :
    (∃ e, bisectorFromFaceIndices ext faces raw = .error e) ↔ ∀ c, InGrid ext c → Connected ext (listOf faces) (fun _ => 0) c := by
  obtain ⟨lo, hi, hb⟩ := boundaryFromIndices_ok hf hne hex
  have hfin := finish_raw (boundaryFromIndices_good hf hb)
  unfold bisectorFromFaceIndices
  rw [hb]
  dsimp only
  constructor
  · rintro ⟨e, he⟩
    exact (hfin.2.1 raw e he).2
  · intro hall
    cases hr : finishBisector ext (rawBisector ext lo hi faces) raw with
    | error e => exact ⟨e, rfl⟩
    | ok r =>
      obtain ⟨a, cur⟩ := r
      obtain ⟨-, -, ⟨c, hc, hn⟩, -⟩ := hfin.2.2 raw a cur hr
      exact absurd (hall c hc) hn

theorem C91_leak_arrays {ext : Cell 3} {faces : Fin 3 → Option (List (Cell 3))} (hext : ∀ a, 0 < ext a) (hf : FacesInGrid ext (listOf faces)) (raw : Bool) :
    (∃ e, bisectorFromFaces ext faces raw = .error e) ↔ ∀ c, InGrid ext c → Connected ext (listOf faces) (fun _ => 0) c := by
  have hfin := finish_raw (boundaryOfArrays_good hext hf)
  constructor
  · rintro ⟨e, he⟩
    exact (hfin.2.1 raw e he).2
  · intro hall
    cases hr : bisectorFromFaces ext faces raw with
    | error e => exact ⟨e, rfl⟩
    | ok r =>
      obtain ⟨a, cur⟩ := r
      obtain ⟨-, -, ⟨c, hc, hn⟩, -⟩ := hfin.2.2 raw a cur hr
      exact absurd (hall c hc) hn

/-- either side -/
theorem shallow_of {ext : Cell 3} {F : Fin 3 → List (Cell 3)} {b a : Cell 3 → Bool} {cur : Bool}
    (hb : ∀ c, InGrid ext c → (b c = true ↔ Connected ext F (fun _ => 0) c))
    (h : (a, cur) = (if MeanLayer ext (fun c => !(b c)) < MeanLayer ext b ∧ false = false then fun c => !(b c) else b,
      decide (|MeanLayer ext b - MeanLayer ext fun c => !(b c)| ≤ 1 / 1000))) :
    ((∀ c, InGrid ext c → (a c = true ↔ Connected ext F (fun _ => 0) c)) ∨ (∀ c, InGrid ext c → (a c = true ↔ ¬ Connected ext F (fun _ => 0) c))) ∧
      MeanLayer ext a ≤ MeanLayer ext (fun c => !(a c)) ∧ (cur = true ↔ |MeanLayer ext a - MeanLayer ext fun c => !(a c)| ≤ 1 / 1000) := by
  have hnn : (fun c => !(!(b c))) = b := by funext c; exact Bool.not_not _
  by_cases hlt : MeanLayer ext (fun c => !(b c)) < MeanLayer ext b
  · rw [if_pos ⟨hlt, rfl⟩] at h
    obtain ⟨rfl, rfl⟩ := Prod.mk.inj h
    refine ⟨Or.inr fun c hc => ?_, ?_, ?_⟩
    · rw [← hb c hc]; simp
    · rw [hnn]; exact le_of_lt hlt
    · rw [hnn, decide_eq_true_eq, abs_sub_comm]
  · rw [if_neg (fun h => hlt h.1)] at h
    obtain ⟨rfl, rfl⟩ := Prod.mk.inj h
    exact ⟨Or.inl hb, not_lt.mp hlt, decide_eq_true_iff⟩

/-- C91: otherwise the array is true for one side, of which the mean layer is no deeper than that of the other, and it is reported to be a
curtain exactly if the two differ by no more than a thousandth of a layer. -/
theorem C91_shallow {ext : Cell 3} {faces : Fin 3 → Option (List (Cell 3))} (hf : FacesInGrid ext (listOf faces)) {a : Cell 3 → Bool} {cur : Bool}
    (h : bisectorFromFaceIndices ext faces false = .ok (a, cur)) :
    ((∀ c, InGrid ext c → (a c = true ↔ Connected ext (listOf faces) (fun _ => 0) c)) ∨
      (∀ c, InGrid ext c → (a c = true ↔ ¬ Connected ext (listOf faces) (fun _ => 0) c))) ∧
      MeanLayer ext a ≤ MeanLayer ext (fun c => !(a c)) ∧ (cur = true ↔ |MeanLayer ext a - MeanLayer ext fun c => !(a c)| ≤ 1 / 1000) := by
  unfold bisectorFromFaceIndices at h
  cases hb : boundaryFromIndices ext faces with
  | error e => rw [hb] at h; cases h
  | ok b =>
    rw [hb] at h
    obtain ⟨b', h1, -, -, -, h2⟩ := (finish_raw (boundaryFromIndices_good hf hb)).2.2 false a cur h
    exact shallow_of h1 h2

theorem C91_shallow_arrays {ext : Cell 3} {faces : Fin 3 → Option (List (Cell 3))} (hext : ∀ a, 0 < ext a) (hf : FacesInGrid ext (listOf faces))
    {a : Cell 3 → Bool} {cur : Bool} (h : bisectorFromFaces ext faces false = .ok (a, cur)) :
    ((∀ c, InGrid ext c → (a c = true ↔ Connected ext (listOf faces) (fun _ => 0) c)) ∨
      (∀ c, InGrid ext c → (a c = true ↔ ¬ Connected ext (listOf faces) (fun _ => 0) c))) ∧
      MeanLayer ext a ≤ MeanLayer ext (fun c => !(a c)) ∧ (cur = true ↔ |MeanLayer ext a - MeanLayer ext fun c => !(a c)| ≤ 1 / 1000) := by
  obtain ⟨b', h1, -, -, -, h2⟩ := (finish_raw (boundaryOfArrays_good hext hf)).2.2 false a cur h
  exact shallow_of h1 h2

/-- C91: faces which divide all layers alike are reported to be a curtain. -/
theorem C91_curtain_partial {ext : Cell 3} {faces : Fin 3 → Option (List (Cell 3))} (hf : FacesInGrid ext (listOf faces)) {a : Cell 3 → Bool}
    {raw cur : Bool} (h : bisectorFromFaceIndices ext faces raw = .ok (a, cur))
    (hsame : ∀ c d, InGrid ext c → InGrid ext d → c 1 = d 1 → c 2 = d 2 →
      (Connected ext (listOf faces) (fun _ => 0) c ↔ Connected ext (listOf faces) (fun _ => 0) d)) : cur = true := by
  unfold bisectorFromFaceIndices at h
  cases hb : boundaryFromIndices ext faces with
  | error e => rw [hb] at h; cases h
  | ok b =>
    rw [hb] at h
    obtain ⟨b', h1, -, p1, p2, h2⟩ := (finish_raw (boundaryFromIndices_good hf hb)).2.2 raw a cur h
    obtain ⟨-, rfl⟩ := Prod.mk.inj h2
    have hs : ∀ c d, InGrid ext c → InGrid ext d → c 1 = d 1 → c 2 = d 2 → b' c = b' d := by
      intro c d hc hd e1 e2
      rw [Bool.eq_iff_iff, h1 c hc, h1 d hd]
      exact hsame c d hc hd e1 e2
    rw [mean_of_columns ext b' hs p1, mean_of_columns ext (fun c => !(b' c)) (fun c d hc hd e1 e2 => by rw [hs c d hc hd e1 e2]) p2]
    simp

/-! ## Cases -/

/-- a grid of two layers and three columns, with a step in a surface -/
def stepFaces : Fin 3 → Option (List (Cell 3))
  | 0 => some [![0, 0, 0], ![0, 0, 1]]
  | 1 => none
  | 2 => some [![0, 0, 1]]

example : FacesInGrid ![3, 1, 4] (listOf stepFaces) := by
  intro ax c hc
  fin_cases ax
  · simp only [listOf, stepFaces, Option.getD_some, List.mem_cons, List.not_mem_nil, or_false] at hc
    rcases hc with rfl | rfl <;> exact ⟨by unfold InGrid; decide, by decide⟩
  · exact (List.not_mem_nil hc).elim
  · simp only [listOf, stepFaces, Option.getD_some, List.mem_cons, List.not_mem_nil, or_false] at hc
    subst hc
    exact ⟨by unfold InGrid; decide, by decide⟩

example : (match bisectorFromFaceIndices ![3, 1, 4] stepFaces true with
    | .ok r => decide ((cells ![3, 1, 4]).filter r.1 = [![0, 0, 0], ![0, 0, 1]] ∧ r.2 = false) | .error _ => false) = true := by decide +kernel

example : (match bisectorFromFaces ![3, 1, 4] stepFaces false with
    | .ok r => decide ((cells ![3, 1, 4]).filter r.1 = [![0, 0, 0], ![0, 0, 1]] ∧ r.2 = false) | .error _ => false) = true := by decide +kernel

/-- a leak -/
example : (match bisectorFromFaceIndices ![3, 1, 4] (fun ax => if ax = 0 then stepFaces 0 else none) true with
    | .ok _ => false | .error e => decide (e = .assertion)) = true := by decide +kernel

/-- a curtain -/
example : (match bisectorFromFaceIndices ![2, 1, 3] (fun ax => if ax = 2 then some [![0, 0, 0], ![1, 0, 0]] else none) false with
    | .ok r => r.2 | .error _ => false) = true := by decide +kernel

/-- the faces of a surface with the shape of a chevron: columns before one, two and one -/
def chevron : Fin 3 → Option (List (Cell 3))
  | 0 => some [![0, 0, 1], ![1, 0, 1]]
  | 1 => none
  | 2 => some [![0, 0, 0], ![1, 0, 1], ![2, 0, 0]]

/-- C91: but not only those: a surface symmetric about the middle of the grid is reported to be a curtain although the layers differ (what
follows keeps the first layer only). -/
theorem C91_curtain_violated : ∃ (ext : Cell 3) (faces : Fin 3 → Option (List (Cell 3))) (a : Cell 3 → Bool),
    FacesInGrid ext (listOf faces) ∧ bisectorFromFaceIndices ext faces false = .ok (a, true) ∧
      ∃ c d, InGrid ext c ∧ InGrid ext d ∧ c 1 = d 1 ∧ c 2 = d 2 ∧ a c ≠ a d := by
  have key : (match bisectorFromFaceIndices ![3, 1, 3] chevron false with
    | .ok r => decide (r.2 = true ∧ r.1 ![0, 0, 1] = false ∧ r.1 ![1, 0, 1] = true) | .error _ => false) = true := by decide +kernel
  cases h : bisectorFromFaceIndices ![3, 1, 3] chevron false with
  | error e => rw [h] at key; cases key
  | ok r =>
    rw [h] at key
    obtain ⟨a, cur⟩ := r
    obtain ⟨h1, h2, h3⟩ := of_decide_eq_true key
    dsimp only at h1 h2 h3
    subst h1
    refine ⟨_, _, a, ?_, h, ![0, 0, 1], ![1, 0, 1], by unfold InGrid; decide, by unfold InGrid; decide, rfl, rfl, by rw [h2, h3]; decide⟩
    intro ax c hc
    fin_cases ax
    · simp only [listOf, chevron, Option.getD_some, List.mem_cons, List.not_mem_nil, or_false] at hc
      rcases hc with rfl | rfl <;> exact ⟨by unfold InGrid; decide, by decide⟩
    · exact (List.not_mem_nil hc).elim
    · simp only [listOf, chevron, Option.getD_some, List.mem_cons, List.not_mem_nil, or_false] at hc
      rcases hc with rfl | rfl | rfl <;> exact ⟨by unfold InGrid; decide, by decide⟩

end Verif.FindFaces
