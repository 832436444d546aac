import Verif.FindFaces.Means

/-! # C92: bisection of the columns of a grid by faces -/

namespace Verif.FindFaces

theorem columnLoop_spec (ext : Cell 2) (isOpen : Fin 2 → Cell 2 → Bool) (fuel : Nat) (set : List (Cell 2)) (hn : set.Nodup)
    (hs : ∀ x ∈ set, x ∈ cells ext) (hf : (cells ext).length < fuel + set.length) :
    (∀ x ∈ set, x ∈ columnLoop ext isOpen fuel set) ∧
      (∀ P, Spreads ext isOpen P → (∀ x ∈ set, P x) → ∀ x ∈ columnLoop ext isOpen fuel set, P x) ∧
      ∀ c ∈ cells ext, spreads ext isOpen (columnLoop ext isOpen fuel set) c = true → c ∈ columnLoop ext isOpen fuel set := by
  induction fuel generalizing set with
  | zero =>
    have := length_le_cells hn hs
    omega
  | succ fuel ih =>
    rw [columnLoop]
    generalize hc : (cells ext).filter (fun c => spreads ext isOpen set c && !(set.contains c)) = new
    have hmem : ∀ x ∈ new, x ∈ cells ext ∧ spreads ext isOpen set x = true ∧ x ∉ set := by
      intro x hx
      rw [← hc, List.mem_filter, Bool.and_eq_true, Bool.not_eq_true', ← Bool.not_eq_true, List.contains_iff_mem] at hx
      exact hx
    split
    · rename_i h0
      refine ⟨fun x h => h, fun P _ h => h, ?_⟩
      intro c hcc hsp
      by_contra hcn
      have : c ∈ new := by
        rw [← hc, List.mem_filter, Bool.and_eq_true, Bool.not_eq_true', ← Bool.not_eq_true, List.contains_iff_mem]
        exact ⟨hcc, hsp, hcn⟩
      rw [List.length_eq_zero_iff] at h0
      rw [h0] at this
      exact List.not_mem_nil this
    · rename_i h0
      obtain ⟨a1, a2, a3⟩ := ih (set ++ new) (by
        rw [List.nodup_append]
        refine ⟨hn, ?_, ?_⟩
        · rw [← hc]; exact (nodup_cells ext).filter _
        · rintro x hx y hy rfl
          exact (hmem x hy).2.2 hx) (by
        intro x hx
        rcases List.mem_append.mp hx with hx | hx
        · exact hs x hx
        · exact (hmem x hx).1) (by rw [List.length_append]; omega)
      refine ⟨fun x hx => a1 x (List.mem_append_left _ hx), ?_, a3⟩
      intro P hP h
      refine a2 P hP ?_
      intro x hx
      rcases List.mem_append.mp hx with hx | hx
      · exact h x hx
      · exact hP set h x (hmem x hx).1 (hmem x hx).2.1

/-- C92: the bisector of columns is true exactly for the columns which can be reached from the first without crossing one of the faces. -/
theorem C92_connected {ext : Cell 2} (hext : ∀ a, 0 < ext a) (jFaces iFaces : List (Cell 2)) {c : Cell 2} (hc : InGrid ext c) :
    c ∈ columnBisector ext jFaces iFaces ↔ Connected ext (fun ax => if ax = 0 then jFaces else iFaces) (fun _ => 0) c := by
  unfold columnBisector
  dsimp only
  set isOpen : Fin 2 → Cell 2 → Bool := fun ax c => if ax = 0 then !(jFaces.contains c) else !(iFaces.contains c) with hopen
  set F : Fin 2 → List (Cell 2) := fun ax => if ax = 0 then jFaces else iFaces with hF
  have hO : ∀ ax r, isOpen ax r = true ↔ r ∉ F ax := by
    intro ax r
    simp only [hopen, hF]
    split <;> rw [Bool.not_eq_true', ← Bool.not_eq_true, List.contains_iff_mem]
  have h0 : (fun _ => 0 : Cell 2) ∈ cells ext := mem_cells.mpr hext
  obtain ⟨a1, a2, a3⟩ := columnLoop_spec ext isOpen (ext 0 * ext 1) [fun _ => 0] (List.nodup_singleton _)
    (fun x hx => by rw [List.mem_singleton] at hx; subst hx; exact h0) (by rw [length_cells2, List.length_singleton]; omega)
  constructor
  · have key : Spreads ext isOpen fun r => r ∈ cells ext ∧ Connected ext F (fun _ => 0) r := by
      intro set hset r hr hsp
      refine ⟨hr, ?_⟩
      obtain ⟨ax, ⟨g1, g2, g3⟩ | ⟨g1, g2, g3⟩⟩ := spreads_iff.mp hsp
      · refine Relation.ReflTransGen.tail (hset _ g2).2 (Or.inl ?_)
        have := openStep_next (ext := ext) (faces := F) (c := prev r ax) (ax := ax) (by rw [next_prev g1]; exact mem_cells.mp hr) ((hO _ _).mp g3)
        rwa [next_prev g1] at this
      · exact Relation.ReflTransGen.tail (hset _ g2).2 (Or.inr (openStep_next (mem_cells.mp (hset _ g2).1) ((hO _ _).mp g3)))
    intro h
    refine (a2 _ key ?_ c h).2
    intro x hx
    rw [List.mem_singleton] at hx
    subst hx
    exact ⟨h0, Relation.ReflTransGen.refl⟩
  · intro h
    have hmove : ∀ x y, OpenStep ext F x y → (x ∈ columnLoop ext isOpen (ext 0 * ext 1) [fun _ => 0] ↔ y ∈ columnLoop ext isOpen (ext 0 * ext 1) [fun _ => 0]) := by
      rintro x y ⟨-, hy, ax, e1, e2, hf⟩
      have e := eq_next e1 e2
      subst e
      exact closed_step a3 (mem_cells.mpr hy) ((hO _ _).mpr hf)
    induction h with
    | refl => exact a1 _ (List.mem_singleton.mpr rfl)
    | tail h hs ih =>
      rcases hs with hs | hs
      · exact (hmove _ _ hs).mp (ih hs.1)
      · exact (hmove _ _ hs).mpr (ih hs.2.1)

example : columnBisector ![2, 3] [![0, 0]] [![0, 0], ![1, 1]] = [![0, 0]] := by decide +kernel

/-- a path round the end of the faces -/
example : columnBisector ![2, 3] [![0, 0]] [![1, 0], ![1, 1]] = [![0, 0], ![0, 1], ![0, 2], ![1, 1], ![1, 2]] := by decide +kernel

end Verif.FindFaces
