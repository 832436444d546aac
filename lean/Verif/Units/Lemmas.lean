import Verif.Units.Spec

namespace Verif.Units
open Verif.Py

theorem find_some {D : Data} {u : Uom} {r : Row} (h : find D u = some r) : r ∈ D.rows ∧ r.name.toList = u := by
  unfold find at h
  exact ⟨List.mem_of_find?_eq_some h, by have := List.find?_some h; simpa using this⟩

theorem valid_iff {D : Data} {u : Uom} : valid D u = true ↔ ∃ r, find D u = some r := by
  unfold valid; rw [Option.isSome_iff_exists]

/-! ### recognition of unit names -/

theorem splitSlash_length {u p q : Uom} (h : splitSlash u = some (p, q)) :
    p.length < u.length ∧ q.length < u.length ∧ u = p ++ '/' :: q := by
  induction u generalizing p q with
  | nil => cases h
  | cons c u ih =>
    unfold splitSlash at h
    split at h
    · rename_i hc
      cases h
      simp [hc]
    · cases e : splitSlash u with
      | none => rw [e] at h; cases h
      | some pq =>
        obtain ⟨p', q'⟩ := pq
        rw [e] at h
        cases h
        obtain ⟨h1, h2, h3⟩ := ih e
        refine ⟨by simp; omega, by simp; omega, by rw [h3]; rfl⟩

/-- the fuel is enough -/
theorem tryParse_fuel (D : Data) (n : Nat) : ∀ (m : Nat) (u : Uom), u.length < n → u.length < m → tryParse D n u = tryParse D m u := by
  induction n with
  | zero => intro m u h; omega
  | succ n ih =>
    intro m u h h'
    obtain ⟨m, rfl⟩ : ∃ k, m = k + 1 := ⟨m - 1, by omega⟩
    unfold tryParse
    split
    · rfl
    · split
      · rfl
      · split
        · rfl
        · split
          · rfl
          · split
            · rename_i hp
              have hne : u ≠ [] := by rintro rfl; simp [startsWith] at hp
              have : u.tail.dropLast.length < u.length := by
                have := List.length_pos_iff.2 hne
                simp; omega
              exact ih m _ (by omega) (by omega)
            · cases e : splitSlash u with
              | none => rfl
              | some pq =>
                obtain ⟨p, q⟩ := pq
                obtain ⟨h1, h2, _⟩ := splitSlash_length e
                dsimp only
                rw [ih m p (by omega) (by omega), ih m q (by omega) (by omega)]

theorem tryParse_valid {D : Data} (hn : NamesSound D) (n : Nat) (u v : Uom) (h : tryParse D n u = some v) :
    valid D v = true := by
  induction n generalizing u v with
  | zero => cases h
  | succ n ih =>
    unfold tryParse at h
    split at h
    · rename_i hv; cases h; exact hv
    · split at h
      · rename_i hc
        cases h
        obtain ⟨p, hp, e⟩ := List.mem_map.1 hc
        rw [← e]
        exact hn.2.2 p hp
      · split at h
        · rename_i t ht
          cases h
          unfold aliasOf at ht
          cases e : D.aliases.find? fun p => decide (p.1.toList = lower u) with
          | none => rw [e] at ht; cases ht
          | some p =>
            rw [e] at ht
            cases ht
            exact hn.2.1 p (List.mem_of_find?_eq_some e)
        · split at h
          · rename_i hv; cases h; exact hv
          · split at h
            · exact ih _ _ h
            · split at h
              · cases h
              · split at h
                · split at h
                  · rename_i hv; cases h; exact hv.2.2
                  · cases h
                · cases h

theorem rqUom_valid {D : Data} (hn : NamesSound D) {u v : Uom} {q : Option (List Uom)} (h : rqUom D u q = .ok v) :
    valid D v = true ∧ ∀ m, q = some m → v ∈ m := by
  unfold rqUom at h
  split at h
  · cases h
  · split at h
    · cases h
    · rename_i w hw
      cases q with
      | none => cases h; exact ⟨tryParse_valid hn _ _ _ hw, fun m hm => by cases hm⟩
      | some members =>
        dsimp only at h
        split at h
        · rename_i hm
          cases h
          exact ⟨tryParse_valid hn _ _ _ hw, fun m e => by cases e; exact hm⟩
        · cases h

theorem rqUom_of_valid {D : Data} (hn : NamesSound D) {v : Uom} {q : Option (List Uom)} (hv : valid D v = true)
    (hq : ∀ m, q = some m → v ∈ m) : rqUom D v q = .ok v := by
  obtain ⟨r, hr⟩ := valid_iff.1 hv
  obtain ⟨h1, h2⟩ := find_some hr
  obtain ⟨h3, h4⟩ := hn.1 r h1
  rw [h2] at h3 h4
  unfold rqUom
  rw [if_neg h3, h4]
  unfold tryParse
  rw [if_pos hv]
  cases q with
  | none => rfl
  | some m => dsimp only; rw [if_pos (hq m rfl)]

/-! ### arithmetic -/

section
variable {K : Type} [Field K] [LinearOrder K] [IsStrictOrderedRing K]

theorem frac_pos {p : Int × Nat} (h1 : 0 < p.1) (h2 : 0 < p.2) : 0 < frac K p := by
  unfold frac
  have : (0 : K) < (p.1 : K) := by exact_mod_cast h1
  have : (0 : K) < (p.2 : K) := by exact_mod_cast h2
  positivity

theorem frac_zero {p : Int × Nat} (h : p.1 = 0) : frac K p = 0 := by
  unfold frac; rw [h]; simp

theorem from_to {D : Data} (hs : Sound D) {r : Row} (hr : r ∈ D.rows) (x : K) : fromBase r (toBase r x) = x := by
  obtain ⟨_, h2, h3, h4, h5, h6⟩ := hs.1 r hr
  have hb := frac_pos (K := K) h2 h3
  have hc := frac_pos (K := K) h4 h5
  unfold fromBase toBase
  rw [frac_zero h6, zero_mul, zero_mul, add_zero, zero_sub]
  have hb' := hb.ne'
  have hc' := hc.ne'
  field_simp
  ring

theorem to_from {D : Data} (hs : Sound D) {r : Row} (hr : r ∈ D.rows) (y : K) : toBase r (fromBase r y) = y := by
  obtain ⟨_, h2, h3, h4, h5, h6⟩ := hs.1 r hr
  have hb := frac_pos (K := K) h2 h3
  have hc := frac_pos (K := K) h4 h5
  unfold fromBase toBase
  rw [frac_zero h6, zero_mul, zero_mul, add_zero, zero_sub]
  have hb' := hb.ne'
  have hc' := hc.ne'
  field_simp
  ring

theorem toBase_lt {D : Data} (hs : Sound D) {r : Row} (hr : r ∈ D.rows) {x y : K} (h : x < y) :
    toBase r x < toBase r y := by
  obtain ⟨_, h2, h3, h4, h5, h6⟩ := hs.1 r hr
  have hb := frac_pos (K := K) h2 h3
  have hc := frac_pos (K := K) h4 h5
  unfold toBase
  rw [frac_zero h6, zero_mul, zero_mul, add_zero]
  apply div_lt_div_of_pos_right _ hc
  have := mul_lt_mul_of_pos_left h hb
  linarith

theorem fromBase_lt {D : Data} (hs : Sound D) {r : Row} (hr : r ∈ D.rows) {x y : K} (h : x < y) :
    fromBase r x < fromBase r y := by
  by_contra hc
  rcases lt_or_eq_of_le (not_lt.1 hc) with h1 | h1
  · have := toBase_lt hs hr h1
    rw [to_from hs hr, to_from hs hr] at this
    exact absurd (lt_trans h this) (lt_irrefl _)
  · have := congrArg (toBase r) h1
    rw [to_from hs hr, to_from hs hr] at this
    exact absurd this (ne_of_gt h)

/-- conversion between recognised units -/
theorem convert_eq {D : Data} (hs : Sound D) (hn : NamesSound D) {u v u1 v1 : Uom} {q : Option (List Uom)} (x : K)
    (hu : rqUom D u q = .ok u1) (hv : rqUom D v q = .ok v1) :
    ∃ r s, find D u1 = some r ∧ find D v1 = some s ∧
      (convert D x u v q false = if r.dim = s.dim then .ok (fromBase s (toBase r x)) else .error .custom) ∧
      (convert D x u v q true = if u1 = v1 then .ok x else if r.dim = s.dim then
        if r.a.1 = 0 ∧ s.a.1 = 0 then .ok (fromBase s (toBase r x)) else .error .notImpl else .error .custom) := by
  obtain ⟨r, hr⟩ := valid_iff.1 (rqUom_valid hn hu).1
  obtain ⟨s, hsf⟩ := valid_iff.1 (rqUom_valid hn hv).1
  have hrm := (find_some hr).1
  have hsm := (find_some hsf).1
  refine ⟨r, s, hr, hsf, ?_⟩
  unfold convert
  rw [hu, hv]
  dsimp only
  rw [hr, hsf]
  dsimp only
  by_cases h : u1 = v1
  · subst h
    have : r = s := by rw [hr] at hsf; exact Option.some.inj hsf
    subst this
    rw [if_pos rfl, if_pos rfl, if_pos rfl, if_pos rfl, from_to hs hrm]
    exact ⟨rfl, rfl⟩
  · rw [if_neg h, if_neg h, if_neg h]
    have hd : (r.base ≠ s.base ∧ r.dim ≠ s.dim) ↔ ¬ r.dim = s.dim := by
      constructor
      · exact fun h => h.2
      · exact fun h => ⟨fun hb => h (hs.2 r hrm s hsm hb), h⟩
    by_cases hdim : r.dim = s.dim
    · have hnd : ¬ (r.base ≠ s.base ∧ r.dim ≠ s.dim) := fun hc => hd.1 hc hdim
      rw [if_neg hnd, if_pos hdim, if_neg hnd, if_pos hdim]
      refine ⟨if_neg (by decide), ?_⟩
      rw [if_pos rfl]
      obtain ⟨_, a2, a3, a4, a5, a6⟩ := hs.1 r hrm
      obtain ⟨_, b2, b3, b4, b5, b6⟩ := hs.1 s hsm
      have ht : trivialPair r s = true ↔ r.a.1 = 0 ∧ s.a.1 = 0 := by
        unfold trivialPair; simp [a6, b6]
      by_cases hA : r.a.1 = 0 ∧ s.a.1 = 0
      · rw [if_pos (ht.2 hA), if_pos hA]
        congr 1
        have p1 := frac_pos (K := K) a2 a3
        have p2 := frac_pos (K := K) a4 a5
        have p3 := frac_pos (K := K) b2 b3
        have p4 := frac_pos (K := K) b4 b5
        unfold fromBase toBase
        rw [frac_zero a6, frac_zero b6, frac_zero hA.1, frac_zero hA.2, zero_mul, zero_mul, add_zero, zero_sub, zero_add,
          zero_sub]
        have p1' := p1.ne'
        have p2' := p2.ne'
        have p3' := p3.ne'
        have p4' := p4.ne'
        field_simp
      · rw [if_neg (fun hc => hA (ht.1 hc)), if_neg hA]
    · rw [if_pos (hd.2 hdim), if_neg hdim, if_pos (hd.2 hdim), if_neg hdim]
      exact ⟨rfl, rfl⟩

theorem convert_ok {D : Data} {u v : Uom} {q : Option (List Uom)} {x y : K} {b : Bool}
    (h : convert D x u v q b = .ok y) : ∃ u1 v1, rqUom D u q = .ok u1 ∧ rqUom D v q = .ok v1 := by
  unfold convert at h
  split at h
  · cases h
  · split at h
    · cases h
    · rename_i h1 _ _ h2
      exact ⟨_, _, h1, h2⟩

end

end Verif.Units
