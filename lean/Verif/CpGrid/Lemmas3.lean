import Verif.CpGrid.Lemmas2

/-! # Lemmas: lines of points and mapping of the grid made -/

namespace Verif.CpGrid
open Verif.Py

theorem grid_get (w : Nat) (n s a b : Nat) (ha : a < n) (hb : b < w) :
    ((List.range' s n).flatMap fun j => (List.range w).map fun i => (j, i))[a * w + b]? = some (s + a, b) := by
  induction n generalizing s a with
  | zero => omega
  | succ n ih =>
    rw [List.range'_succ, List.flatMap_cons]
    have hl : ((List.range w).map fun i => (s, i)).length = w := by simp
    cases a with
    | zero =>
      rw [Nat.zero_mul, Nat.zero_add, List.getElem?_append_left (by rw [hl]; exact hb)]
      simp [hb]
    | succ a =>
      rw [List.getElem?_append_right (by rw [hl, Nat.succ_mul]; omega), hl]
      rw [show (a + 1) * w + b - w = a * w + b by rw [Nat.succ_mul]; omega, ih (s + 1) a (by omega)]
      congr 2
      omega

theorem pillars_get {nj ni a b : Nat} (ha : a ≤ nj) (hb : b ≤ ni) : (pillars nj ni)[a * (ni + 1) + b]? = some (a, b) := by
  unfold pillars
  rw [List.range_eq_range' (n := nj + 1), grid_get (ni + 1) (nj + 1) 0 a b (by omega) (by omega), Nat.zero_add]

theorem pillars_length (nj ni : Nat) : (pillars nj ni).length = (nj + 1) * (ni + 1) := by
  unfold pillars
  rw [List.length_flatMap]
  simp

variable {K : Type} [Field K] [LinearOrder K] [IsStrictOrderedRing K]

section

variable {nj ni : Nat} {tol : K} {tr : Nat × Nat → Nat × Nat → List (Pt K)} {active : Nat → Nat → Bool}

theorem noExtras_inv : Inv nj ni tol tr noExtras [] := by
  refine ⟨rfl, fun _ _ => rfl, ?_, ?_, ?_, ?_, ?_⟩
  · intro p c e _ h
    cases h
  · intro p e h
    exact absurd h (Nat.not_lt_zero _)
  · intro p h
    exact absurd h (Nat.lt_irrefl 0)
  · intro p e h
    exact absurd h (Nat.not_lt_zero _)
  · intro p h
    cases h

/-- what holds of the extra pillars in the end -/
theorem extraRefs_spec (htol : 0 ≤ tol) :
    Inv nj ni tol tr (extraRefs nj ni tol tr active true) (pillars nj ni) ∧
    ∀ p ∈ pillars nj ni, ∀ c ∈ four, Covered nj ni tol tr (extraRefs nj ni tol tr active true) p (primaryJip nj ni active p) c := by
  obtain ⟨h1, h2, _⟩ := extras_inv (nj := nj) (ni := ni) (tr := tr) htol active (pillars nj ni) []
    (by rw [List.nil_append]; exact nodup_pillars nj ni) noExtras noExtras_inv
  unfold extraRefs
  rw [if_pos rfl]
  exact ⟨h1, h2⟩

theorem extraOrder_length {s : Extras} (h : Inv nj ni tol tr s (pillars nj ni)) : (extraOrder nj ni s).length = s.list.length := by
  have : ((extraOrder nj ni s).map fun q => s.index q.1 + q.2) = List.range s.list.length := by
    rw [← h.enum]
    unfold extraOrder
    rw [List.map_flatMap]
    apply flatMap_congr_mem
    intro p _
    rw [List.map_map]
    rfl
  have hl := congrArg List.length this
  rw [List.length_map, List.length_range] at hl
  exact hl

/-- extra pillar `e` of pillar `p` has its place in the order -/
theorem extraOrder_get {s : Extras} (h : Inv nj ni tol tr s (pillars nj ni)) {p : Nat × Nat} (hp : p ∈ pillars nj ni) {e : Nat}
    (he : e < s.count p) : (extraOrder nj ni s)[s.index p + e]? = some (p, e) := by
  have hm : ((extraOrder nj ni s).map fun q => s.index q.1 + q.2) = List.range s.list.length := by
    rw [← h.enum]
    unfold extraOrder
    rw [List.map_flatMap]
    apply flatMap_congr_mem
    intro p _
    rw [List.map_map]
    rfl
  have hmem : (p, e) ∈ extraOrder nj ni s := by
    unfold extraOrder
    exact List.mem_flatMap.mpr ⟨p, hp, List.mem_map.mpr ⟨e, List.mem_range.mpr he, rfl⟩⟩
  obtain ⟨n, hn⟩ := List.mem_iff_getElem?.mp hmem
  have hn' : (List.range s.list.length)[n]? = some (s.index p + e) := by
    rw [← hm, List.getElem?_map, hn]
    rfl
  obtain ⟨hlt, hv⟩ := List.getElem?_eq_some_iff.mp hn'
  rw [List.getElem_range] at hv
  rw [← hv]
  exact hn

theorem extraOrder_get_inv {s : Extras} (h : Inv nj ni tol tr s (pillars nj ni)) {n : Nat} {p : Nat × Nat} {e : Nat}
    (hn : (extraOrder nj ni s)[n]? = some (p, e)) : p ∈ pillars nj ni ∧ e < s.count p ∧ n = s.index p + e := by
  have hmem : (p, e) ∈ extraOrder nj ni s := List.mem_iff_getElem?.mpr ⟨n, hn⟩
  unfold extraOrder at hmem
  obtain ⟨q, hq, hqe⟩ := List.mem_flatMap.mp hmem
  obtain ⟨e', he', h2⟩ := List.mem_map.mp hqe
  injection h2 with h2 h3
  subst h2 h3
  refine ⟨hq, List.mem_range.mp he', ?_⟩
  have hm : ((extraOrder nj ni s).map fun q => s.index q.1 + q.2) = List.range s.list.length := by
    rw [← h.enum]
    unfold extraOrder
    rw [List.map_flatMap]
    apply flatMap_congr_mem
    intro p _
    rw [List.map_map]
    rfl
  have hn' : (List.range s.list.length)[n]? = some (s.index q + e') := by
    rw [← hm, List.getElem?_map, hn]
    rfl
  obtain ⟨_, hv⟩ := List.getElem?_eq_some_iff.mp hn'
  rw [List.getElem_range] at hv
  exact hv

theorem lines_primary (s : Extras) {a b : Nat} (ha : a ≤ nj) (hb : b ≤ ni) :
    (pointLines nj ni tr active s)[a * (ni + 1) + b]? =
      some (tr (colOf (a, b) (primaryJip nj ni active (a, b))) (primaryJip nj ni active (a, b))) := by
  unfold pointLines
  have hlt : a * (ni + 1) + b < (pillars nj ni).length := (List.getElem?_eq_some_iff.mp (pillars_get ha hb)).1
  rw [List.getElem?_append_left (by rw [List.length_map]; exact hlt), List.getElem?_map, pillars_get ha hb]
  rfl

theorem lines_extra {s : Extras} (h : Inv nj ni tol tr s (pillars nj ni)) {p : Nat × Nat} (hp : p ∈ pillars nj ni) {e : Nat}
    (he : e < s.count p) :
    (pointLines nj ni tr active s)[(nj + 1) * (ni + 1) + (s.index p + e)]? =
      some (tr (colOf p (s.list.getD (s.index p + e) (0, 0))) (s.list.getD (s.index p + e) (0, 0))) := by
  unfold pointLines
  rw [List.getElem?_append_right (by rw [List.length_map, pillars_length]; omega), List.length_map, pillars_length,
    Nat.add_sub_cancel_left, List.getElem?_map, extraOrder_get h hp he]
  rfl

theorem mem_four {jp ip : Nat} : (jp, ip) ∈ four ↔ jp ≤ 1 ∧ ip ≤ 1 := by
  unfold four
  simp only [List.mem_cons, Prod.mk.injEq, List.not_mem_nil, or_false]
  omega

theorem hasCol_of {j i jp ip : Nat} (hj : j < nj) (hi : i < ni) : hasCol nj ni (j + jp, i + ip) (jp, ip) := by
  unfold hasCol
  dsimp only
  omega

theorem colOf_add (j i jp ip : Nat) : colOf (j + jp, i + ip) (jp, ip) = (j, i) := by
  unfold colOf
  dsimp only
  rw [Nat.add_sub_cancel, Nat.add_sub_cancel]

/-- the line of the pillar given for a corner by the mapping of the new grid is aligned with the corner -/
theorem mapping_line (htol : 0 ≤ tol) {j i jp ip : Nat} (hj : j < nj) (hi : i < ni) (hjp : jp ≤ 1) (hip : ip ≤ 1) (b : Bool)
    (hb : b = false → (extraRefs nj ni tol tr active true).list = []) :
    ∃ l, (pointLines nj ni tr active (extraRefs nj ni tol tr active true))[pillarsForColumn nj ni b (extraRefs nj ni tol tr active true) j i jp ip]? = some l ∧
      (aligned tol (tr (j, i) (jp, ip)) l = true) ∧
      ∃ q, hasCol nj ni (j + jp, i + ip) q ∧ q ∈ four ∧ l = tr (colOf (j + jp, i + ip) q) q := by
  obtain ⟨hI, hcov⟩ := extraRefs_spec (nj := nj) (ni := ni) (tr := tr) (active := active) htol
  have hp : (j + jp, i + ip) ∈ pillars nj ni := mem_pillars.mpr ⟨by dsimp only; omega, by dsimp only; omega⟩
  have hcol := hasCol_of (jp := jp) (ip := ip) hj hi
  have hprim := primary_hasCol (by omega : 0 < nj) (by omega : 0 < ni) active (p := (j + jp, i + ip)) (by dsimp only; omega)
    (by dsimp only; omega)
  cases hu : (extraRefs nj ni tol tr active true).use (j, i) (jp, ip) with
  | none =>
    have hmap : pillarsForColumn nj ni b (extraRefs nj ni tol tr active true) j i jp ip = (j + jp) * (ni + 1) + (i + ip) := by
      unfold pillarsForColumn
      rw [hu]
      cases b <;> dsimp only <;> omega
    rw [hmap]
    refine ⟨_, lines_primary _ (by omega) (by omega), ?_, _, hprim.1, hprim.2, rfl⟩
    have := hcov _ hp (jp, ip) (mem_four.mpr ⟨hjp, hip⟩) hcol (by rw [colOf_add]; exact hu)
    rw [colOf_add] at this
    rcases this with h | h
    · rw [← h, colOf_add]
      exact aligned_refl htol _
    · exact h
  | some e =>
    obtain ⟨h1, h2, h3⟩ := hI.useOk _ (jp, ip) e hcol (by rw [colOf_add]; exact hu)
    have hbt : b = true := by
      cases b with
      | true => rfl
      | false =>
        have := hb rfl
        have hbd := hI.bound (j + jp, i + ip) (by omega)
        rw [this] at hbd
        simp at hbd
        omega
    have hmap : pillarsForColumn nj ni b (extraRefs nj ni tol tr active true) j i jp ip =
        (nj + 1) * (ni + 1) + ((extraRefs nj ni tol tr active true).index (j + jp, i + ip) + e) := by
      unfold pillarsForColumn
      rw [hu, hbt]
    rw [hmap]
    refine ⟨_, lines_extra hI h1 h2, ?_, ?_⟩
    · unfold Fits at h3
      rw [colOf_add] at h3
      exact h3
    · obtain ⟨v1, v2⟩ := hI.valid (j + jp, i + ip) e h2
      exact ⟨_, v1, v2, rfl⟩

end

end Verif.CpGrid
