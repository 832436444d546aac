import Verif.Stencil.Hex
import Mathlib.Data.List.Nodup
import Mathlib.Data.List.GetD
import Mathlib.Tactic.Ring

/-!
# The nodes visited and their weights
-/

namespace Verif.Stencil
open Verif.Py

variable {K : Type*} [Field K] [LinearOrder K]

/-- The node visited below (`σ = -1`) or above (`σ = 1`), in a row and place of the stencil. -/
def spot (n : ℕ) (j i : ℤ) (jp ip : ℕ) (σ : ℤ) : Node :=
  (j + σ * (jp : ℤ), i + startIp n jp + (ip : ℤ) + ((jp % 2 : ℕ) : ℤ) * (j % 2))

theorem spot_x {n jp ip : ℕ} {j i σ : ℤ} (hn : 0 < n) (hσ : σ = 1 ∨ σ = -1) :
    twoX (spot n j i jp ip σ) - twoX (j, i) = (jp : ℤ) - 2 * ((n : ℤ) - 1) + 2 * (ip : ℤ) := by
  unfold spot twoX startIp
  dsimp only
  have h2 : j % 2 = 0 ∨ j % 2 = 1 := by omega
  have h3 : jp % 2 = 0 ∨ jp % 2 = 1 := by omega
  rcases hσ with rfl | rfl <;> rcases h2 with e | e <;> rcases h3 with e' | e' <;> rw [e, e'] <;> push_cast <;> omega

theorem spot_j {n jp ip : ℕ} {j i σ : ℤ} (hσ : σ = 1 ∨ σ = -1) : ((spot n j i jp ip σ).1 - j).natAbs = jp := by
  unfold spot
  dsimp only
  rcases hσ with rfl | rfl <;> omega

theorem hd_comm (a b : Node) : hd a b = hd b a := by
  unfold hd
  have h1 : (a.1 - b.1).natAbs = (b.1 - a.1).natAbs := by omega
  have h2 : (twoX a - twoX b).natAbs = (twoX b - twoX a).natAbs := by omega
  rw [h1, h2]

theorem hd_spot {n jp ip : ℕ} {j i σ : ℤ} (hσ : σ = 1 ∨ σ = -1) (hjp : jp < n) (hip : ip < rowLength n jp) :
    hd (j, i) (spot n j i jp ip σ) = max jp (max (n - 1 - ip) (n - 1 - (rowLength n jp - 1 - ip))) := by
  rw [hd_comm]
  have h1 := spot_x (n := n) (jp := jp) (ip := ip) (j := j) (i := i) (by omega) hσ
  have h2 := spot_j (n := n) (ip := ip) (i := i) (j := j) (jp := jp) hσ
  unfold hd
  show max ((spot n j i jp ip σ).1 - j).natAbs (((twoX (spot n j i jp ip σ) - twoX (j, i)).natAbs + ((spot n j i jp ip σ).1 - j).natAbs) / 2) = _
  rw [h1, h2]
  unfold rowLength at *
  omega

theorem rowV_length {p : List K} {jp : ℕ} (h : jp < p.length) : (rowV p jp).length = rowLength p.length jp := by
  unfold rowV rowLength setFirst setLast
  split_ifs with h1 h2
  · subst h1
    simp
    omega
  · simp
    omega
  · simp

theorem rowV_eq {p : List K} {jp : ℕ} (h : jp < p.length) (h0 : 0 < jp) :
    rowV p jp = (p.drop (jp + 1)).reverse ++ List.replicate (jp + 1) (p.getD jp 0) ++ p.drop (jp + 1) := by
  unfold rowV rowLength setFirst setLast
  rw [if_neg (by omega)]
  split_ifs with h2
  · simp only [List.length_replicate, List.length_drop, List.length_reverse, List.take_replicate]
    rw [List.drop_append_of_le_length (by simp; omega), List.drop_replicate, List.append_assoc]
    congr 3
    omega
  · rw [List.drop_eq_nil_of_le (by omega)]
    simp
    omega

theorem rowV_get {p : List K} {jp ip : ℕ} (h : jp < p.length) (hip : ip < rowLength p.length jp) :
    (rowV p jp)[ip]? = p[max jp (max (p.length - 1 - ip) (p.length - 1 - (rowLength p.length jp - 1 - ip)))]? := by
  unfold rowLength at *
  by_cases h0 : jp = 0
  · subst h0
    unfold rowV
    rw [if_pos rfl]
    by_cases h1 : ip < p.length - 1
    · rw [List.getElem?_append_left (by simp; omega), List.getElem?_reverse (by simp; omega), List.length_drop, List.getElem?_drop]
      congr 1
      omega
    · rw [List.getElem?_append_right (by simp; omega), List.length_reverse, List.length_drop]
      congr 1
      omega
  · rw [rowV_eq h (by omega), List.append_assoc]
    by_cases h1 : ip < p.length - (jp + 1)
    · rw [List.getElem?_append_left (by simp; omega), List.getElem?_reverse (by simp; omega), List.length_drop, List.getElem?_drop]
      congr 1
      omega
    · rw [List.getElem?_append_right (by simp; omega), List.length_reverse, List.length_drop]
      by_cases h2 : ip - (p.length - (jp + 1)) < jp + 1
      · rw [List.getElem?_append_left (by simp; omega), List.getElem?_replicate, if_pos h2]
        have : max jp (max (p.length - 1 - ip) (p.length - 1 - (2 * p.length - 1 - jp - 1 - ip))) = jp := by omega
        rw [this, List.getElem?_eq_getElem h, List.getD_eq_getElem _ _ h]
      · rw [List.getElem?_append_right (by simp; omega), List.length_replicate, List.getElem?_drop]
        congr 1
        omega

theorem mem_visits {p : List K} {j i : ℤ} {b : Node} {s : Option K} : (b, s) ∈ visits p j i ↔
    ∃ jp < p.length, ∃ ip < rowLength p.length jp, ∃ σ : ℤ, (σ = 1 ∨ σ = -1) ∧ (jp = 0 → σ = -1) ∧ b = spot p.length j i jp ip σ ∧ s = (rowV p jp)[ip]? := by
  unfold visits
  simp only [List.mem_flatMap, List.mem_range]
  constructor
  · rintro ⟨jp, hjp, ip, hip, h⟩
    simp only [List.mem_cons, Prod.mk.injEq] at h
    rcases h with ⟨h1, h2⟩ | h
    · exact ⟨jp, hjp, ip, hip, -1, Or.inr rfl, fun _ => rfl, by rw [h1]; unfold spot; congr 1; omega, h2⟩
    · by_cases h0 : jp = 0
      · simp [h0] at h
      · rw [if_pos h0] at h
        simp only [List.mem_singleton, Prod.mk.injEq] at h
        exact ⟨jp, hjp, ip, hip, 1, Or.inl rfl, fun e => absurd e h0, by rw [h.1]; unfold spot; congr 1; omega, h.2⟩
  · rintro ⟨jp, hjp, ip, hip, σ, hσ, h0, hb, hs⟩
    refine ⟨jp, hjp, ip, hip, ?_⟩
    rw [List.mem_cons]
    rcases hσ with rfl | rfl
    · right
      rw [if_pos (fun e => by have := h0 e; omega), List.mem_singleton, hb, hs]
      unfold spot
      congr 2
      omega
    · left
      rw [hb, hs]
      unfold spot
      congr 2
      omega

theorem node_visited {p : List K} {j i : ℤ} {b : Node} (hp : 0 < p.length) :
    b ∈ (visits p j i).map Prod.fst ↔ hd (j, i) b < p.length := by
  rw [List.mem_map]
  constructor
  · rintro ⟨⟨b', s⟩, h, rfl⟩
    obtain ⟨jp, hjp, ip, hip, σ, hσ, h0, hb, hs⟩ := mem_visits.1 h
    show hd (j, i) b' < _
    rw [hb, hd_spot hσ hjp hip]
    omega
  · intro h
    have pb := parity b
    have pa := parity (j, i)
    rw [hd_comm] at h
    have h' : max (b.1 - j).natAbs (((twoX b - twoX (j, i)).natAbs + (b.1 - j).natAbs) / 2) < p.length := h
    have pa' : twoX (j, i) % 2 = j % 2 := pa
    obtain ⟨jp, hjp⟩ : ∃ jp, (b.1 - j).natAbs = jp := ⟨_, rfl⟩
    obtain ⟨u, hu⟩ : ∃ u, twoX b - twoX (j, i) = u := ⟨_, rfl⟩
    rw [hu, hjp] at h'
    obtain ⟨ip, hip⟩ : ∃ ip : ℕ, u = (jp : ℤ) - 2 * ((p.length : ℤ) - 1) + 2 * (ip : ℤ) :=
      ⟨((u - jp + 2 * ((p.length : ℤ) - 1)) / 2).toNat, by omega⟩
    obtain ⟨σ, hσ, h0, hb⟩ : ∃ σ : ℤ, (σ = 1 ∨ σ = -1) ∧ (jp = 0 → σ = -1) ∧ b.1 = j + σ * jp := by
      by_cases hc : b.1 ≤ j
      · exact ⟨-1, Or.inr rfl, fun _ => rfl, by omega⟩
      · exact ⟨1, Or.inl rfl, fun e => by omega, by omega⟩
    refine ⟨(b, (rowV p jp)[ip]?), mem_visits.2 ⟨jp, by omega, ip, by unfold rowLength; omega, σ, hσ, h0, ?_, rfl⟩, rfl⟩
    apply node_ext
    · exact hb
    · have := spot_x (n := p.length) (jp := jp) (ip := ip) (j := j) (i := i) hp hσ
      omega

theorem weight_visited {p : List K} {j i : ℤ} {b : Node} {s : Option K} (h : (b, s) ∈ visits p j i) : s = p[hd (j, i) b]? := by
  obtain ⟨jp, hjp, ip, hip, σ, hσ, h0, hb, hs⟩ := mem_visits.1 h
  rw [hs, hb, hd_spot hσ hjp hip, rowV_get hjp hip]

theorem visits_nodup {p : List K} {j i : ℤ} : ((visits p j i).map Prod.fst).Nodup := by
  have e : (visits p j i).map Prod.fst = (List.range p.length).flatMap fun (jp : ℕ) => (List.range (rowLength p.length jp)).flatMap fun (ip : ℕ) =>
      spot p.length j i jp ip (-1) :: if jp ≠ 0 then [spot p.length j i jp ip 1] else [] := by
    unfold visits
    rw [List.map_flatMap]
    congr 1
    funext jp
    rw [List.map_flatMap]
    congr 1
    funext ip
    by_cases h0 : jp = 0
    · simp [spot, h0]
    · simp only [if_pos h0, List.map_cons, List.map_nil, spot]
      congr 3 <;> omega
  rw [e, List.nodup_flatMap]
  refine ⟨fun jp _ => ?_, ?_⟩
  · rw [List.nodup_flatMap]
    refine ⟨fun ip _ => ?_, ?_⟩
    · by_cases h0 : jp = 0
      · simp [h0]
      · rw [if_pos h0]
        simp only [List.nodup_cons, List.mem_singleton, List.not_mem_nil, not_false_eq_true, List.nodup_nil, and_true]
        intro h
        have := congrArg Prod.fst h
        simp only [spot] at this
        omega
    · refine List.Pairwise.imp ?_ (List.nodup_range (n := rowLength p.length jp))
      intro a b hab x hx hy
      have key : ∀ ip, x ∈ (spot p.length j i jp ip (-1) :: if jp ≠ 0 then [spot p.length j i jp ip 1] else []) →
          x.2 = i + startIp p.length jp + (ip : ℤ) + ((jp % 2 : ℕ) : ℤ) * (j % 2) := by
        intro ip hx
        by_cases h0 : jp = 0
        · rw [if_neg (by simpa using h0)] at hx
          simp only [List.mem_singleton] at hx
          rw [hx]
          rfl
        · rw [if_pos h0] at hx
          simp only [List.mem_cons, List.not_mem_nil, or_false] at hx
          rcases hx with rfl | rfl <;> rfl
      have h1 := key a hx
      have h2 := key b hy
      omega
  · refine List.Pairwise.imp ?_ (List.nodup_range (n := p.length))
    intro a b hab x hx hy
    have key : ∀ jp, x ∈ ((List.range (rowLength p.length jp)).flatMap fun (ip : ℕ) =>
        spot p.length j i jp ip (-1) :: if jp ≠ 0 then [spot p.length j i jp ip 1] else []) → (x.1 - j).natAbs = jp := by
      intro jp hx
      rw [List.mem_flatMap] at hx
      obtain ⟨ip, _, hx⟩ := hx
      by_cases h0 : jp = 0
      · rw [if_neg (by simpa using h0)] at hx
        simp only [List.mem_singleton] at hx
        rw [hx]
        exact spot_j (Or.inr rfl)
      · rw [if_pos h0] at hx
        simp only [List.mem_cons, List.not_mem_nil, or_false] at hx
        rcases hx with rfl | rfl
        · exact spot_j (Or.inr rfl)
        · exact spot_j (Or.inl rfl)
    have h1 := key a hx
    have h2 := key b hy
    omega

/-- The disc which is visited. -/
theorem visits_disc {p : List K} (hp : 0 < p.length) (j i : ℤ) :
    Disc p (j, i) ((visits p j i).map Prod.fst) fun b => p.getD (hd (j, i) b) 0 := by
  refine ⟨visits_nodup, fun b => ?_, fun b k hk hs => ?_⟩
  · rw [node_visited hp]
    constructor
    · exact fun h => ⟨_, h, steps_iff.2 rfl⟩
    · rintro ⟨k, hk, hs⟩
      rw [steps_iff.1 hs]
      exact hk
  · rw [steps_iff.1 hs, List.getElem?_eq_getElem hk, List.getD_eq_getElem _ _ hk]

/-- Any two discs have the same nodes, and the same weights there. -/
theorem disc_perm {p : List K} {a : Node} {n1 n2 : List Node} {w1 w2 : Node → K} (h1 : Disc p a n1 w1) (h2 : Disc p a n2 w2) :
    n1.Perm n2 ∧ ∀ b ∈ n1, w1 b = w2 b := by
  refine ⟨(List.perm_ext_iff_of_nodup h1.nodup h2.nodup).2 fun b => by rw [h1.mem, h2.mem], fun b hb => ?_⟩
  obtain ⟨k, hk, hs⟩ := (h1.mem b).1 hb
  have e1 := h1.weight b k hk hs
  rw [h2.weight b k hk hs] at e1
  simpa using e1.symm

/-- The visits, in terms of a disc. -/
theorem visits_eq {p : List K} (hp : 0 < p.length) (j i : ℤ) :
    visits p j i = ((visits p j i).map Prod.fst).map fun b => (b, some (p.getD (hd (j, i) b) 0)) := by
  rw [List.map_map]
  conv_lhs => rw [← List.map_id (visits p j i)]
  apply List.map_congr_left
  rintro ⟨b, s⟩ h
  have h1 := weight_visited h
  have h2 : hd (j, i) b < p.length := (node_visited hp).1 (List.mem_map.2 ⟨(b, s), h, rfl⟩)
  show (b, s) = (b, some (p.getD (hd (j, i) b) 0))
  rw [h1, List.getElem?_eq_getElem h2, List.getD_eq_getElem _ _ h2]

end Verif.Stencil
