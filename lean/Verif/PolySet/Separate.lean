import Verif.PolySet.Model

/-!
# Separating concatenated coordinates

Auxiliary lemmas, and the small specification of what becomes of a polyline on its way through the arrays.
-/

namespace Verif.PolySet
open Verif.Py

variable {C P : Type}

/-- whether the first and last of some points are near each other, for more than two points -/
def endsMeet (near : P → P → Bool) (pts : List P) : Bool :=
  match pts.head?, pts.getLast? with
  | some a, some z => near a z && decide (pts.length > 2)
  | _, _ => false

/-- specification: the points of a polyline, without the last one if it is a closed polyline which repeats its first point at its
end -/
def tidied (near : P → P → Bool) (closed : Bool) (pts : List P) : List P :=
  if closed && endsMeet near pts then pts.dropLast else pts

theorem ok_bind' {α β : Type} (a : α) (f : α → Res β) : ((Except.ok a : Res α) >>= f) = f a := rfl

theorem tidied_length (near : P → P → Bool) (closed : Bool) (pts : List P) (h : 2 ≤ pts.length) :
    1 < (tidied near closed pts).length := by
  unfold tidied
  split_ifs with hc
  · have : pts.length > 2 := by
      unfold endsMeet at hc
      revert hc
      cases pts.head? <;> cases pts.getLast? <;> simp <;> omega
    rw [List.length_dropLast]; omega
  · omega

theorem separateOne_some (near : P → P → Bool) (crs : C) (b : Bool) (pts : List P) (h : 2 ≤ pts.length) :
    separateOne near crs (some b) pts = .ok ⟨0, crs, tidied near b pts, b⟩ := by
  have hl := tidied_length near b pts h
  unfold separateOne
  obtain ⟨a, ha⟩ : ∃ a, pts.head? = some a := by
    cases pts with
    | nil => simp at h
    | cons a _ => exact ⟨a, rfl⟩
  obtain ⟨z, hz⟩ : ∃ z, pts.getLast? = some z := by
    cases hp : pts.getLast? with
    | none => rw [List.getLast?_eq_none_iff] at hp; subst hp; simp at h
    | some z => exact ⟨z, rfl⟩
  have he : endsMeet near pts = (near a z && decide (pts.length > 2)) := by unfold endsMeet; rw [ha, hz]
  rw [ha, hz]
  dsimp only [Option.getD_some]
  rw [← he]
  have : (if (b && endsMeet near pts) = true then pts.dropLast else pts) = tidied near b pts := rfl
  rw [this]
  unfold newPoly
  rw [if_pos hl]

/-- the general shape: all the polylines but the last are cut out exactly, and the last one takes one point more than its count -/
theorem separate_append (near : P → P → Bool) (crs : C) (ls : List (List P × Bool)) (b : Bool) (m : Nat) (tail : List P)
    (hls : ∀ q ∈ ls, 2 ≤ q.1.length) (ht : 2 ≤ (tail.take (m + 1)).length) :
    separate near crs (some (ls.map (·.2) ++ [b])) (ls.map (fun q => q.1.length) ++ [m]) (ls.flatMap (·.1) ++ tail) =
      .ok (ls.map (fun q => ⟨0, crs, tidied near q.2 q.1, q.2⟩) ++ [⟨0, crs, tidied near b (tail.take (m + 1)), b⟩]) := by
  induction ls with
  | nil =>
    simp only [List.map_nil, List.nil_append, List.flatMap_nil]
    rw [separate]
    simp only [ne_eq, not_true_eq_false, if_false]
    rw [separateOne_some near crs b _ ht]
    rfl
  | cons q ls ih =>
    have ih := ih (fun r hr => hls r (List.mem_cons_of_mem _ hr))
    simp only [List.map_cons, List.cons_append, List.flatMap_cons, List.append_assoc]
    rw [separate]
    have hne : ls.map (fun q => q.1.length) ++ [m] ≠ [] := by simp
    rw [if_pos hne, List.take_left, List.drop_left]
    rw [separateOne_some near crs q.2 _ (hls q (List.mem_cons_self ..)), ih]
    rfl

/-- polylines cut out of their concatenated points -/
theorem separate_flat (near : P → P → Bool) (crs : C) (ls : List (List P × Bool)) (hls : ∀ q ∈ ls, 2 ≤ q.1.length) :
    separate near crs (some (ls.map (·.2))) (ls.map (fun q => q.1.length)) (ls.flatMap (·.1)) =
      .ok (ls.map (fun q => ⟨0, crs, tidied near q.2 q.1, q.2⟩)) := by
  rcases List.eq_nil_or_concat ls with rfl | ⟨init, q, rfl⟩
  · rfl
  · rw [List.concat_eq_append] at *
    have hq := hls q (by simp)
    have htk : q.1.take (q.1.length + 1) = q.1 := List.take_of_length_le (by omega)
    have h := separate_append near crs init q.2 q.1.length q.1 (fun r hr => hls r (by simp [hr])) (by rw [htk]; exact hq)
    rw [htk] at h
    simpa using h

/-! ### flags -/

theorem placesOf_mem (b : Bool) (closed : List Bool) (i : Nat) :
    i ∈ placesOf b closed ↔ closed[i]? = some b := by
  unfold placesOf
  rw [List.mem_map]
  constructor
  · rintro ⟨⟨c, j⟩, hm, rfl⟩
    rw [List.mem_filter] at hm
    have := List.mem_zipIdx_iff_getElem?.mp hm.1
    simp only [decide_eq_true_eq] at hm
    rw [← hm.2]
    exact this
  · intro h
    exact ⟨(b, i), List.mem_filter.mpr ⟨List.mem_zipIdx_iff_getElem?.mpr h, by simp⟩, rfl⟩

theorem setPlaces_ok (b : Bool) (is : List Nat) (out : List Bool) (h : ∀ i ∈ is, i < out.length) :
    ∃ r, setPlaces b out (is.map (fun (i : Nat) => (i : Int))) = .ok r ∧ r.length = out.length ∧
      ∀ j, j < out.length → r[j]? = if j ∈ is then some b else out[j]? := by
  induction is generalizing out with
  | nil => exact ⟨out, rfl, rfl, fun j _ => by simp⟩
  | cons i is ih =>
    have hi := h i (List.mem_cons_self ..)
    obtain ⟨r, hr, hl, hj⟩ := ih (out.set i b) (fun k hk => by rw [List.length_set]; exact h k (List.mem_cons_of_mem _ hk))
    refine ⟨r, ?_, by simpa using hl, ?_⟩
    · rw [List.map_cons, setPlaces, if_pos ⟨by omega, by exact_mod_cast hi⟩]
      simpa using hr
    · intro j hjl
      rw [hj j (by simpa using hjl)]
      by_cases hji : j = i
      · subst hji; simp [hjl]
      · simp [List.getElem?_set_ne (Ne.symm hji), hji]

end Verif.PolySet
