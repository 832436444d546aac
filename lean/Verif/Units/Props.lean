import Verif.Units.Lemmas
import Verif.Units.Checked

/-! # C29: unit conversion -/

namespace Verif.Units
open Verif.Py

/-- The table that comes with resqpy meets all the requirements used below. -/
theorem C29_table_is_sound : Sound theData ∧ NamesSound theData := ⟨theData_sound, theData_names⟩

/-- A recognised unit is in the table, belongs to the quantity asked for, and is itself recognised as itself. -/
theorem C29_recognised_units (D : Data) (hn : NamesSound D) (u v : Uom) (q : Option (List Uom))
    (h : rqUom D u q = .ok v) :
    (∃ r ∈ D.rows, r.name.toList = v) ∧ (∀ m, q = some m → v ∈ m) ∧ rqUom D v q = .ok v := by
  obtain ⟨h1, h2⟩ := rqUom_valid hn h
  obtain ⟨r, hr⟩ := valid_iff.1 h1
  exact ⟨⟨r, find_some hr⟩, h2, rqUom_of_valid hn h1 h2⟩

section
variable {K : Type} [Field K] [LinearOrder K] [IsStrictOrderedRing K]

/-- Converting and converting back gives the value one started with; in both the returning and the in place form. -/
theorem C29_roundtrip (D : Data) (hs : Sound D) (hn : NamesSound D) (x y : K) (u v : Uom) (q : Option (List Uom))
    (inplace : Bool) (h : convert D x u v q inplace = .ok y) : convert D y v u q inplace = .ok x := by
  obtain ⟨u1, v1, hu, hv⟩ := convert_ok h
  obtain ⟨r, s, hr, hsf, e1, e2⟩ := convert_eq hs hn x hu hv
  obtain ⟨s', r', hs', hr', e3, e4⟩ := convert_eq hs hn y hv hu
  rw [hr] at hr'
  rw [hsf] at hs'
  cases hr'
  cases hs'
  have hrm := (find_some hr).1
  have hsm := (find_some hsf).1
  have key : fromBase r (toBase s (fromBase s (toBase r x))) = x := by rw [to_from hs hsm, from_to hs hrm]
  cases inplace with
  | false =>
    rw [e1] at h
    rw [e3]
    split at h
    · rename_i hd
      cases h
      rw [if_pos hd.symm, key]
    · cases h
  | true =>
    rw [e2] at h
    rw [e4]
    split at h
    · rename_i he
      cases h
      rw [if_pos he.symm]
    · rename_i he
      rw [if_neg (fun hc => he hc.symm)]
      split at h
      · rename_i hd
        split at h
        · rename_i hA
          cases h
          rw [if_pos hd.symm, if_pos ⟨hA.2, hA.1⟩, key]
        · cases h
      · cases h

/-- Going through an intermediate unit makes no difference. -/
theorem C29_transitive (D : Data) (hs : Sound D) (hn : NamesSound D) (x y z : K) (u v w : Uom) (q : Option (List Uom))
    (h1 : convert D x u v q false = .ok y) (h2 : convert D y v w q false = .ok z) : convert D x u w q false = .ok z := by
  obtain ⟨u1, v1, hu, hv⟩ := convert_ok h1
  obtain ⟨_, w1, _, hw⟩ := convert_ok h2
  obtain ⟨r, s, hr, hsf, e1, _⟩ := convert_eq hs hn x hu hv
  obtain ⟨s', t, hs', ht, e2, _⟩ := convert_eq hs hn y hv hw
  obtain ⟨r', t', hr', ht', e3, _⟩ := convert_eq hs hn x hu hw
  rw [hsf] at hs'; cases hs'
  rw [hr] at hr'; cases hr'
  rw [ht] at ht'; cases ht'
  rw [e1] at h1
  rw [e2] at h2
  rw [e3]
  split at h1
  · rename_i d1
    split at h2
    · rename_i d2
      cases h1
      cases h2
      rw [if_pos (d1.trans d2), to_from hs (find_some hsf).1]
    · cases h2
  · cases h1

/-- The same for conversion in place. -/
theorem C29_transitive_in_place (D : Data) (hs : Sound D) (hn : NamesSound D) (x y z : K) (u v w : Uom)
    (q : Option (List Uom)) (h1 : convert D x u v q true = .ok y) (h2 : convert D y v w q true = .ok z) :
    convert D x u w q true = .ok z := by
  obtain ⟨u1, v1, hu, hv⟩ := convert_ok h1
  obtain ⟨_, w1, _, hw⟩ := convert_ok h2
  obtain ⟨r, s, hr, hsf, _, e1⟩ := convert_eq hs hn x hu hv
  obtain ⟨s', t, hs', ht, _, e2⟩ := convert_eq hs hn y hv hw
  obtain ⟨r', t', hr', ht', _, e3⟩ := convert_eq hs hn x hu hw
  rw [hsf] at hs'; cases hs'
  rw [hr] at hr'; cases hr'
  rw [ht] at ht'; cases ht'
  rw [e1] at h1
  rw [e2] at h2
  rw [e3]
  have hsm := (find_some hsf).1
  have hrm := (find_some hr).1
  by_cases huv : u1 = v1
  · rw [if_pos huv] at h1
    cases h1
    subst huv
    rw [hr] at hsf
    cases hsf
    exact h2
  · rw [if_neg huv] at h1
    split at h1
    · rename_i d1
      split at h1
      · rename_i A1
        cases h1
        by_cases hvw : v1 = w1
        · rw [if_pos hvw] at h2
          cases h2
          subst hvw
          rw [hsf] at ht
          cases ht
          rw [if_neg huv, if_pos d1, if_pos A1]
        · rw [if_neg hvw] at h2
          split at h2
          · rename_i d2
            split at h2
            · rename_i A2
              cases h2
              rw [to_from hs hsm]
              by_cases huw : u1 = w1
              · rw [if_pos huw]
                subst huw
                rw [hr] at ht
                cases ht
                rw [from_to hs hrm]
              · rw [if_neg huw, if_pos (d1.trans d2), if_pos ⟨A1.1, A2.2⟩]
            · cases h2
          · cases h2
      · cases h1
    · cases h1

/-- Between recognised units the conversion is refused exactly when their dimensions differ. -/
theorem C29_refusal (D : Data) (hs : Sound D) (hn : NamesSound D) (x : K) (u v u1 v1 : Uom) (q : Option (List Uom))
    (hu : rqUom D u q = .ok u1) (hv : rqUom D v q = .ok v1) :
    ∃ r ∈ D.rows, ∃ s ∈ D.rows, r.name.toList = u1 ∧ s.name.toList = v1 ∧
      ((∃ y, convert D x u v q false = .ok y) ↔ r.dim = s.dim) := by
  obtain ⟨r, s, hr, hsf, e1, _⟩ := convert_eq hs hn x hu hv
  refine ⟨r, (find_some hr).1, s, (find_some hsf).1, (find_some hr).2, (find_some hsf).2, ?_⟩
  rw [e1]
  split
  · rename_i h; exact ⟨fun _ => h, fun _ => ⟨_, rfl⟩⟩
  · rename_i h
    constructor
    · rintro ⟨y, hy⟩; cases hy
    · exact fun hc => absurd hc h

/-- Conversion keeps the order of values, and the outcome (conversion or refusal) does not depend on the value. -/
theorem C29_order (D : Data) (hs : Sound D) (hn : NamesSound D) (x x' y : K) (u v : Uom) (q : Option (List Uom))
    (h : convert D x u v q false = .ok y) (hlt : x < x') : ∃ y', convert D x' u v q false = .ok y' ∧ y < y' := by
  obtain ⟨u1, v1, hu, hv⟩ := convert_ok h
  obtain ⟨r, s, hr, hsf, e1, _⟩ := convert_eq hs hn x hu hv
  obtain ⟨r', s', hr', hs', e2, _⟩ := convert_eq hs hn x' hu hv
  rw [hsf] at hs'; cases hs'
  rw [hr] at hr'; cases hr'
  rw [e1] at h
  rw [e2]
  split at h
  · rename_i d
    cases h
    rw [if_pos d]
    exact ⟨_, rfl, fromBase_lt hs (find_some hsf).1 (toBase_lt hs (find_some hr).1 hlt)⟩
  · cases h

/-- Conversion in place gives the same value as the returning form, and works whenever neither unit has an offset. -/
theorem C29_in_place (D : Data) (hs : Sound D) (hn : NamesSound D) (x y : K) (u v : Uom) (q : Option (List Uom)) :
    (convert D x u v q true = .ok y → convert D x u v q false = .ok y) ∧
    (convert D x u v q false = .ok y →
      (∀ u1 v1, rqUom D u q = .ok u1 → rqUom D v q = .ok v1 → IsScale D u1 ∧ IsScale D v1) →
      convert D x u v q true = .ok y) := by
  constructor
  · intro h
    obtain ⟨u1, v1, hu, hv⟩ := convert_ok h
    obtain ⟨r, s, hr, hsf, e1, e2⟩ := convert_eq hs hn x hu hv
    rw [e2] at h
    rw [e1]
    split at h
    · rename_i he
      cases h
      subst he
      rw [hr] at hsf
      cases hsf
      rw [if_pos rfl, from_to hs (find_some hr).1]
    · split at h
      · rename_i hd
        rw [if_pos hd]
        split at h
        · exact h
        · cases h
      · cases h
  · intro h hsc
    obtain ⟨u1, v1, hu, hv⟩ := convert_ok h
    obtain ⟨r, s, hr, hsf, e1, e2⟩ := convert_eq hs hn x hu hv
    obtain ⟨hA, hB⟩ := hsc u1 v1 hu hv
    rw [e1] at h
    rw [e2]
    split at h
    · rename_i hd
      cases h
      split
      · rename_i he
        subst he
        rw [hr] at hsf
        cases hsf
        rw [from_to hs (find_some hr).1]
      · rw [if_pos ⟨hA r hr, hB s hsf⟩]
    · cases h

/-! ### transmissibilities -/

theorem sfind_append (c : Char) (a b : List Char) (h : c ∉ a) : sfind c (a ++ c :: b) = some a.length := by
  induction a with
  | nil => simp [sfind]
  | cons x a ih =>
    rw [List.mem_cons, not_or] at h
    rw [List.cons_append, sfind, if_neg (Ne.symm h.1), ih h.2]
    rfl

theorem findSlashParen_append (a b : List Char) (h : findSlashParen a = none) (h' : a.getLast? ≠ some '/') :
    findSlashParen (a ++ '/' :: '(' :: b) = some a.length := by
  induction a with
  | nil => simp [findSlashParen]
  | cons x a ih =>
    cases a with
    | nil =>
      simp only [List.getLast?_singleton, ne_eq, Option.some.injEq] at h'
      show findSlashParen (x :: '/' :: ('(' :: b)) = _
      unfold findSlashParen
      dsimp only
      rw [if_neg (fun hc => h' hc.1)]
      simp [findSlashParen]
    | cons y a =>
      unfold findSlashParen at h
      dsimp only at h
      split at h
      · cases h
      · rename_i hn
        have h2 : findSlashParen (y :: a) = none := by
          cases e : findSlashParen (y :: a) with
          | none => rfl
          | some n => rw [e] at h; cases h
        have := ih h2 (by rw [List.getLast?_cons_cons] at h'; exact h')
        show findSlashParen (x :: y :: (a ++ '/' :: '(' :: b)) = _
        unfold findSlashParen
        dsimp only
        rw [if_neg hn]
        rw [show y :: (a ++ '/' :: '(' :: b) = (y :: a) ++ '/' :: '(' :: b from rfl, this]
        rfl

/-- Units written A.B/(C.D) are taken apart into their four components. -/
theorem C29_transmissibility_components (a b c d : List Char) (ha : '.' ∉ a) (hd : '.' ∉ d) (ha0 : a ≠ []) (hb0 : b ≠ [])
    (hc0 : c ≠ []) (hab : findSlashParen (a ++ '.' :: b) = none) (hb1 : b.getLast? ≠ some '/') :
    components (a ++ '.' :: b ++ '/' :: '(' :: (c ++ '.' :: d) ++ [')']) = .ok (a, b, c, d) := by
  have la := List.length_pos_iff.2 ha0
  have lb := List.length_pos_iff.2 hb0
  have lc := List.length_pos_iff.2 hc0
  have e1 : sfind '.' (a ++ '.' :: b ++ '/' :: '(' :: (c ++ '.' :: d) ++ [')']) = some a.length := by
    have := sfind_append '.' a (b ++ '/' :: '(' :: (c ++ '.' :: d) ++ [')']) ha
    simpa using this
  have e2 : findSlashParen (a ++ '.' :: b ++ '/' :: '(' :: (c ++ '.' :: d) ++ [')']) = some (a.length + 1 + b.length) := by
    have hl : (a ++ '.' :: b).getLast? ≠ some '/' := by
      rw [List.getLast?_append_of_ne_nil _ (by simp)]
      cases b with
      | nil => exact absurd rfl hb0
      | cons x b => rw [List.getLast?_cons_cons]; exact hb1
    have := findSlashParen_append (a ++ '.' :: b) ((c ++ '.' :: d) ++ [')']) hab hl
    rw [show (a ++ '.' :: b).length = a.length + 1 + b.length from by simp; omega] at this
    simpa using this
  have e3 : rfind '.' (a ++ '.' :: b ++ '/' :: '(' :: (c ++ '.' :: d) ++ [')']) =
      some (a.length + 1 + b.length + 2 + c.length) := by
    have := rfind_append '.' (a ++ '.' :: b ++ '/' :: '(' :: c) (d ++ [')']) (by simp [hd])
    rw [show (a ++ '.' :: b ++ '/' :: '(' :: c).length = a.length + 1 + b.length + 2 + c.length from by simp; omega] at this
    simpa using this
  unfold components
  rw [e1, e2, e3]
  dsimp only
  rw [if_pos ⟨la, by omega, by omega, List.getLast?_concat⟩]
  congr 1
  refine Prod.ext ?_ (Prod.ext ?_ (Prod.ext ?_ ?_)) <;> dsimp only
  · simp
  · have : a ++ '.' :: b ++ '/' :: '(' :: (c ++ '.' :: d) ++ [')'] =
      (a ++ '.' :: b) ++ ('/' :: '(' :: (c ++ '.' :: d) ++ [')']) := by simp
    rw [this, List.take_left' (by simp; omega)]
    rw [show a ++ '.' :: b = (a ++ ['.']) ++ b from by simp, List.drop_left' (by simp)]
  · have : a ++ '.' :: b ++ '/' :: '(' :: (c ++ '.' :: d) ++ [')'] =
      (a ++ '.' :: b ++ ['/', '('] ++ c) ++ ('.' :: d ++ [')']) := by simp
    rw [this, List.take_left' (by simp; omega), List.drop_left' (by simp; omega)]
  · have : a ++ '.' :: b ++ '/' :: '(' :: (c ++ '.' :: d) ++ [')'] =
      (a ++ '.' :: b ++ ['/', '('] ++ c ++ ['.']) ++ (d ++ [')']) := by simp
    rw [this, List.drop_left' (by simp; omega), List.dropLast_concat]

theorem partFactor_back {D : Data} (hs : Sound D) (hn : NamesSound D) (m : List Uom) (hm : ∀ u ∈ m, valid D u = true ∧ IsScale D u)
    (u v : Uom) (f : K) (h : partFactor K D m u v = .ok f) : f ≠ 0 ∧ partFactor K D m v u = .ok f⁻¹ := by
  unfold partFactor at h ⊢
  split at h
  · cases h
  · rename_i hu
    rw [not_not] at hu
    split at h
    · rename_i he
      cases h
      subst he
      rw [if_neg (not_not.2 hu), if_pos rfl, inv_one]
      exact ⟨one_ne_zero, rfl⟩
    · rename_i he
      split at h
      · cases h
      · rename_i hv
        rw [not_not] at hv
        rw [if_neg (not_not.2 hv), if_neg (Ne.symm he), if_neg (not_not.2 hu)]
        have ru := rqUom_of_valid hn (hm u hu).1 (q := none) (fun m e => by cases e)
        have rv := rqUom_of_valid hn (hm v hv).1 (q := none) (fun m e => by cases e)
        obtain ⟨r, s, hr, hsf, e1, _⟩ := convert_eq hs hn (1 : K) ru rv
        obtain ⟨s', r', hs', hr', e2, _⟩ := convert_eq hs hn (1 : K) rv ru
        rw [hsf] at hs'; cases hs'
        rw [hr] at hr'; cases hr'
        rw [e1] at h
        rw [e2]
        split at h
        · rename_i hd
          cases h
          rw [if_pos hd.symm]
          obtain ⟨_, a2, a3, a4, a5, a6⟩ := hs.1 r (find_some hr).1
          obtain ⟨_, b2, b3, b4, b5, b6⟩ := hs.1 s (find_some hsf).1
          have p1 := frac_pos (K := K) a2 a3
          have p2 := frac_pos (K := K) a4 a5
          have p3 := frac_pos (K := K) b2 b3
          have p4 := frac_pos (K := K) b4 b5
          unfold fromBase toBase
          rw [frac_zero a6, frac_zero b6, frac_zero ((hm u hu).2 r hr), frac_zero ((hm v hv).2 s hsf)]
          simp only [zero_mul, add_zero, zero_sub, zero_add, mul_one]
          have p1' := p1.ne'
          have p2' := p2.ne'
          have p3' := p3.ne'
          have p4' := p4.ne'
          constructor
          · have : frac K s.c * (frac K r.b / frac K r.c) ≠ 0 := by positivity
            exact div_ne_zero (neg_ne_zero.2 this) (neg_ne_zero.2 p3')
          · congr 1
            field_simp
        · cases h

/-- Transmissibilities converted and converted back are unchanged. -/
theorem C29_transmissibility_roundtrip (D : Data) (hs : Sound D) (hn : NamesSound D) (Q : TransQuantities)
    (hQ : ∀ m ∈ [Q.vol, Q.visc, Q.press, Q.time], ∀ u ∈ m, valid D u = true ∧ IsScale D u) (x y : K)
    (u v : List Char) (h : convertTrans D Q x u v = .ok y) : convertTrans D Q y v u = .ok x := by
  unfold convertTrans at h ⊢
  split at h
  · cases h
  · rename_i v1 m1 p1 t1 hu
    try rw [hu]
    split at h
    · cases h
    · rename_i v2 m2 p2 t2 hv
      try rw [hv]
      split at h
      · cases h
      · rename_i fv h1
        obtain ⟨z1, g1⟩ := partFactor_back hs hn _ (hQ _ (by simp)) _ _ _ h1
        rw [g1]
        split at h
        · cases h
        · rename_i fm h2
          obtain ⟨z2, g2⟩ := partFactor_back hs hn _ (hQ _ (by simp)) _ _ _ h2
          rw [g2]
          split at h
          · cases h
          · rename_i fp h3
            obtain ⟨z3, g3⟩ := partFactor_back hs hn _ (hQ _ (by simp)) _ _ _ h3
            rw [g3]
            split at h
            · cases h
            · rename_i ft h4
              obtain ⟨z4, g4⟩ := partFactor_back hs hn _ (hQ _ (by simp)) _ _ _ h4
              rw [g4]
              cases h
              dsimp only
              congr 1
              field_simp

/-- `f` is the factor from one unit to another: what one of the first is in terms of the second -/
def FactorOf (D : Data) (u v : Uom) (f : K) : Prop := u = v ∧ f = 1 ∨ convert D 1 u v none false = .ok f

/-- A transmissibility is converted by the factors of its four units: volume and viscosity in the numerator, pressure and time
in the denominator. -/
theorem C29_transmissibility_factor (D : Data) (Q : TransQuantities) (x y : K) (u v : List Char) (a b c d a' b' c' d' : Uom)
    (hu : components u = .ok (a, b, c, d)) (hv : components v = .ok (a', b', c', d')) (h : convertTrans D Q x u v = .ok y) :
    ∃ fv fm fp ft : K, FactorOf D a a' fv ∧ FactorOf D b b' fm ∧ FactorOf D c c' fp ∧ FactorOf D d d' ft ∧
      y = x * ((fv * fm) / (fp * ft)) := by
  have part : ∀ (m : List Uom) (u v : Uom) (f : K), partFactor K D m u v = .ok f → FactorOf D u v f := by
    intro m u v f h
    unfold partFactor at h
    split at h
    · cases h
    split at h
    · rename_i e
      cases h
      exact Or.inl ⟨e, rfl⟩
    split at h
    · cases h
    · exact Or.inr h
  unfold convertTrans at h
  rw [hu, hv] at h
  dsimp only at h
  split at h
  · cases h
  rename_i fv h1
  split at h
  · cases h
  rename_i fm h2
  split at h
  · cases h
  rename_i fp h3
  split at h
  · cases h
  rename_i ft h4
  cases h
  refine ⟨fv, fm, fp, ft, part _ _ _ _ h1, part _ _ _ _ h2, part _ _ _ _ h3, part _ _ _ _ h4, ?_⟩
  rw [one_mul, div_div]

/-- For the table that comes with resqpy this covers all the units of volume, viscosity, pressure and time. -/
theorem C29_transmissibility_resqpy (x y : K) (u v : List Char)
    (h : convertTrans theData ⟨volumeUoms.map String.toList, viscosityUoms.map String.toList,
      pressureUoms.map String.toList, timeUoms.map String.toList⟩ x u v = .ok y) :
    convertTrans theData ⟨volumeUoms.map String.toList, viscosityUoms.map String.toList,
      pressureUoms.map String.toList, timeUoms.map String.toList⟩ y v u = .ok x := by
  refine C29_transmissibility_roundtrip _ theData_sound theData_names _ ?_ x y u v h
  intro m hm w hw
  simp only [List.mem_cons, List.not_mem_nil, or_false] at hm
  rcases hm with rfl | rfl | rfl | rfl <;>
    (obtain ⟨s, hs, rfl⟩ := List.mem_map.1 hw; exact members_ok s (by simp [hs]))

end

/-! ### cases -/

/-- a small table for the examples: metre, foot, Celsius, kelvin, second -/
def tiny : Data :=
  ⟨[⟨"m", 0, 0, (0, 1), (1, 1), (1, 1), (0, 1)⟩, ⟨"ft", 0, 0, (0, 1), (381, 1250), (1, 1), (0, 1)⟩,
    ⟨"degC", 1, 1, (5463, 20), (1, 1), (1, 1), (0, 1)⟩, ⟨"K", 1, 1, (0, 1), (1, 1), (1, 1), (0, 1)⟩,
    ⟨"s", 2, 2, (0, 1), (1, 1), (1, 1), (0, 1)⟩, ⟨"m/s", 3, 3, (0, 1), (1, 1), (1, 1), (0, 1)⟩],
   [("feet", "ft"), ("sec", "s")], ["m", "ft"]⟩

example : Sound tiny := ⟨by decide +kernel, by decide +kernel⟩
example : NamesSound tiny := ⟨by decide +kernel, by decide +kernel, by decide +kernel⟩
example : convert (K := Rat) tiny 10 "Feet".toList "M".toList none false = .ok (381 / 125) := by decide +kernel
example : convert (K := Rat) tiny 0 "degC".toList "K".toList none false = .ok (5463 / 20) := by decide +kernel
example : convert (K := Rat) tiny 0 "degC".toList "K".toList none true = .error .notImpl := by decide +kernel
example : convert (K := Rat) tiny 1 "s".toList "ft".toList none false = .error .custom := by decide +kernel
example : rqUom tiny " M/sec".toList none = .ok "m/s".toList := by decide +kernel
example : components "bbl.cP/(psi.d)".toList = .ok ("bbl".toList, "cP".toList, "psi".toList, "d".toList) := by
  decide +kernel

end Verif.Units
