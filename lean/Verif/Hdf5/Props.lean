import Verif.Hdf5.Spec
import Mathlib.Tactic.Ring
import Mathlib.Tactic.IntervalCases
import Mathlib.Algebra.BigOperators.Group.List.Basic

/-! # C16, C17, C18: arrays are read back as they were stored -/

namespace Verif.Hdf5
open Verif.Py

/-! ### C16 -/

/-- Conversions as assumed exist (saturating ones). -/
def clip (lo hi v : Int) : Int := if v < lo then lo else if hi < v then hi else v

def saturate : Conv := fun _ d v => match d with
  | .bool => if v = 0 then 0 else 1
  | .uint8 => clip 0 255 v
  | .int32 => clip (-2147483648) 2147483647 v
  | .int64 => clip (-9223372036854775808) 9223372036854775807 v

theorem saturate_faithful : Faithful saturate := by
  refine ⟨?_, ?_, ?_⟩
  · intro d d' v _
    cases d' <;> simp only [saturate, Holds, clip] <;> split <;> (try split) <;> omega
  · intro d d' v _ h
    cases d' <;> simp only [saturate, Holds, clip] at h ⊢ <;> split <;> (try split) <;> omega
  · intro d v; rfl

/-- An integer array registered without a dtype, written with the default settings and read back as int64 has
the same values, exactly when all its values fit in 32 bits, whatever the conversion does to other values. -/
theorem C16_default_roundtrip_iff_partial (conv : Conv) (hc : Faithful conv) (a : Arr) (ha : Proper a)
    (ht : a.dtype = .int64) :
    (∃ b, readArray conv (store conv true a .none) .int64 none = .ok b ∧ SameValues b a) ↔
      ∀ k, k < size a.shape → Holds .int32 (a.flat k) := by
  have e : readArray conv (store conv true a .none) .int64 none =
      .ok ⟨.int64, a.shape, fun k => conv .int32 .int64 (conv .int64 .int32 (a.flat k))⟩ := by
    simp [readArray, store, register, storedType, astype, ht]
  rw [e]
  constructor
  · rintro ⟨b, hb, hs⟩ k hk
    cases hb
    have h := hs.2 k hk
    dsimp only at h
    have h64 : Holds .int64 (a.flat k) := ht ▸ ha k hk
    have h32 := hc.holds .int64 .int32 _ h64
    have h1 : conv .int32 .int64 (conv .int64 .int32 (a.flat k)) = conv .int64 .int32 (a.flat k) := by
      apply hc.same _ _ _ h32
      simp only [Holds] at h32 ⊢; omega
    rw [h1] at h
    rw [← h]; exact h32
  · intro h
    refine ⟨_, rfl, rfl, ?_⟩
    intro k hk
    have h64 : Holds .int64 (a.flat k) := ht ▸ ha k hk
    have h32 := h k hk
    dsimp only
    rw [hc.same _ _ _ h64 h32, hc.same _ _ _ h32 h64]

/-- A 64 bit array with a value that needs more than 32 bits is not read back as it was, whatever the
conversion does. -/
theorem C16_default_storage_violated : ∃ a : Arr, Proper a ∧ a.dtype = .int64 ∧
    ∀ conv, Faithful conv → ¬ ∃ b, readArray conv (store conv true a .none) .int64 none = .ok b ∧ SameValues b a := by
  have hp : Proper ⟨.int64, [1], fun _ => 2147483648⟩ := by intro k _; simp only [Holds]; omega
  refine ⟨⟨.int64, [1], fun _ => 2147483648⟩, hp, rfl, ?_⟩
  intro conv hc h
  have := (C16_default_roundtrip_iff_partial conv hc _ hp rfl).1 h 0 (by decide)
  simp only [Holds] at this
  omega

/-- With 32 bit storage turned off, or with the element type of the array asked for explicitly, every array is
read back as it was; booleans too. -/
theorem C16_full_storage (conv : Conv) (hc : Faithful conv) (a : Arr) (ha : Proper a) (useInt32 : Bool) (r : RegType)
    (hr : r = .as a.dtype ∨ (r = .none ∧ (useInt32 = false ∨ a.dtype ≠ .int64))) :
    ∃ b, readArray conv (store conv useInt32 a r) a.dtype none = .ok b ∧ b.dtype = a.dtype ∧ SameValues b a := by
  have key : ∀ k, k < size a.shape → ∀ d, (d = a.dtype ∨ (a.dtype = .bool ∧ d = .uint8)) →
      conv d a.dtype (conv a.dtype d (a.flat k)) = a.flat k := by
    intro k hk d hd
    have h := ha k hk
    rcases hd with rfl | ⟨h1, rfl⟩
    · rw [hc.same _ _ _ h h, hc.same _ _ _ h h]
    · rw [h1] at h ⊢
      have h8 : Holds .uint8 (a.flat k) := by simp only [Holds] at h ⊢; omega
      rw [hc.same _ _ _ h h8, hc.same _ _ _ h8 h]
  have hself : ∀ k, k < size a.shape → conv a.dtype a.dtype (a.flat k) = a.flat k := fun k hk =>
    hc.same _ _ _ (ha k hk) (ha k hk)
  have hst : ∀ (b : Arr) (od : Option DType), b.dtype = a.dtype →
      (od = some a.dtype ∨ (od = none ∧ (useInt32 = false ∨ a.dtype ≠ .int64))) →
      storedType useInt32 b od = a.dtype ∨ (a.dtype = .bool ∧ storedType useInt32 b od = .uint8) := by
    intro b od hb hod
    unfold storedType
    rcases hod with rfl | ⟨rfl, h | h⟩
    · dsimp only
      split
      · rename_i h; exact .inr ⟨h, rfl⟩
      · exact .inl rfl
    · simp only [h, Bool.false_and, Bool.false_eq_true, if_false, hb]
      split
      · rename_i h; exact .inr ⟨h, rfl⟩
      · exact .inl rfl
    · have h' : (a.dtype == DType.int64) = false := by simpa using h
      simp only [hb, h', Bool.and_false, Bool.false_eq_true, if_false]
      split
      · rename_i h; exact .inr ⟨h, rfl⟩
      · exact .inl rfl
  rcases hr with rfl | ⟨rfl, h⟩
  · have hd := hst (astype conv a.dtype a) (some a.dtype) rfl (.inl rfl)
    have er : readArray conv (store conv useInt32 a (.as a.dtype)) a.dtype none =
        .ok (astype conv a.dtype (store conv useInt32 a (.as a.dtype))) := by
      simp only [readArray, Option.getD_none, if_true]
    refine ⟨_, er, rfl, rfl, ?_⟩
    intro k hk
    show conv _ a.dtype (conv a.dtype _ (conv a.dtype a.dtype (a.flat k))) = a.flat k
    rw [hself k hk]
    exact key k hk _ hd
  · have hd := hst a none rfl (.inr ⟨rfl, h⟩)
    have er : readArray conv (store conv useInt32 a .none) a.dtype none =
        .ok (astype conv a.dtype (store conv useInt32 a .none)) := by
      simp only [readArray, Option.getD_none, if_true]
    refine ⟨_, er, rfl, rfl, ?_⟩
    intro k hk
    exact key k hk _ hd

example : Proper ⟨.int64, [2, 2], fun k => 5000000000 * (k : Int)⟩ ∧ Faithful saturate :=
  ⟨by intro k hk; simp [size] at hk; simp only [Holds]; omega, saturate_faithful⟩

/-! ### C17 -/

private theorem bit_le (b : Bool) : ∃ x : Nat, x ≤ 1 ∧ x = b.toNat ∧ ∀ t, bit b t = x * 2 ^ (7 - t) := by
  cases b
  · exact ⟨0, by simp, rfl, by simp [bit]⟩
  · exact ⟨1, by simp, rfl, by simp [bit]⟩

private theorem packByte_le (f : Nat → Bool) : packByte f ≤ 255 := by
  obtain ⟨x0, h0, _, e0⟩ := bit_le (f 0)
  obtain ⟨x1, h1, _, e1⟩ := bit_le (f 1)
  obtain ⟨x2, h2, _, e2⟩ := bit_le (f 2)
  obtain ⟨x3, h3, _, e3⟩ := bit_le (f 3)
  obtain ⟨x4, h4, _, e4⟩ := bit_le (f 4)
  obtain ⟨x5, h5, _, e5⟩ := bit_le (f 5)
  obtain ⟨x6, h6, _, e6⟩ := bit_le (f 6)
  obtain ⟨x7, h7, _, e7⟩ := bit_le (f 7)
  unfold packByte
  rw [e0, e1, e2, e3, e4, e5, e6, e7]
  norm_num
  omega

private theorem packByte_bit (f : Nat → Bool) (t : Nat) (ht : t < 8) : packByte f / 2 ^ (7 - t) % 2 = (f t).toNat := by
  obtain ⟨x0, h0, g0, e0⟩ := bit_le (f 0)
  obtain ⟨x1, h1, g1, e1⟩ := bit_le (f 1)
  obtain ⟨x2, h2, g2, e2⟩ := bit_le (f 2)
  obtain ⟨x3, h3, g3, e3⟩ := bit_le (f 3)
  obtain ⟨x4, h4, g4, e4⟩ := bit_le (f 4)
  obtain ⟨x5, h5, g5, e5⟩ := bit_le (f 5)
  obtain ⟨x6, h6, g6, e6⟩ := bit_le (f 6)
  obtain ⟨x7, h7, g7, e7⟩ := bit_le (f 7)
  unfold packByte
  rw [e0, e1, e2, e3, e4, e5, e6, e7]
  interval_cases t
  · rw [← g0]; norm_num; omega
  · rw [← g1]; norm_num; omega
  · rw [← g2]; norm_num; omega
  · rw [← g3]; norm_num; omega
  · rw [← g4]; norm_num; omega
  · rw [← g5]; norm_num; omega
  · rw [← g6]; norm_num; omega
  · rw [← g7]; norm_num; omega

private theorem lastDim_append (l : List Nat) (n : Nat) : lastDim (l ++ [n]) = n := by simp [lastDim]

private theorem split_last (shape : List Nat) (h : shape ≠ []) : shape = shape.dropLast ++ [lastDim shape] := by
  rw [lastDim, List.getLastD_eq_getLast?, List.getLast?_eq_some_getLast h, Option.getD_some]
  exact (List.dropLast_append_getLast h).symm

/-- The byte and bit holding an element. -/
private theorem packed_bit (conv : Conv) (hc : Faithful conv) (a : Arr) (k : Nat) (hn : 0 < lastDim a.shape) :
    let n := lastDim a.shape
    let s := (n + 7) / 8
    (conv .uint8 .uint8 ((packbits a).flat (k / n * s + k % n / 8)) / 2 ^ (7 - k % n % 8)) % 2 =
      if a.flat k = 0 then 0 else 1 := by
  intro n s
  have hn : 0 < n := hn
  have hs : 0 < s := by omega
  have hkn := Nat.mod_lt k hn
  have hb : k % n / 8 < s := by omega
  have hdiv : (k / n * s + k % n / 8) / s = k / n := by
    rw [Nat.add_comm, Nat.add_mul_div_right _ _ hs, Nat.div_eq_of_lt hb, Nat.zero_add]
  have hmod : (k / n * s + k % n / 8) % s = k % n / 8 := by
    rw [Nat.add_comm, Nat.add_mul_mod_self_right, Nat.mod_eq_of_lt hb]
  have hflat : (packbits a).flat (k / n * s + k % n / 8) =
      ((packByte fun t => decide (8 * (k % n / 8) + t < n) &&
        decide (a.flat (k / n * n + (8 * (k % n / 8) + t)) ≠ 0) : Nat) : Int) := by
    show ((packByte fun t => decide (8 * ((k / n * s + k % n / 8) % s) + t < n) &&
        decide (a.flat ((k / n * s + k % n / 8) / s * n + (8 * ((k / n * s + k % n / 8) % s) + t)) ≠ 0) : Nat) : Int) = _
    rw [hdiv, hmod]
  rw [hflat]
  generalize hf : (fun t => decide (8 * (k % n / 8) + t < n) &&
        decide (a.flat (k / n * n + (8 * (k % n / 8) + t)) ≠ 0)) = f
  have hle := packByte_le f
  have h8 : Holds .uint8 (packByte f : Int) := by simp only [Holds]; omega
  rw [hc.same _ _ _ h8 h8]
  have hbit := packByte_bit f (k % n % 8) (by omega)
  have : ((packByte f : Nat) : Int) / 2 ^ (7 - k % n % 8) % 2 = ((f (k % n % 8)).toNat : Int) := by
    rw [← hbit]; push_cast; rfl
  rw [this, ← hf]
  have e1 : 8 * (k % n / 8) + k % n % 8 = k % n := by omega
  have e2 : k / n * n + k % n = k := by rw [Nat.mul_comm]; exact Nat.div_add_mod k n
  dsimp only
  rw [e1, e2]
  by_cases h : a.flat k = 0 <;> simp [h, hkn]

/-- A boolean array of any shape with at least one axis, registered for packing, is read back unchanged as a
boolean array when the shape is given. -/
theorem C17_packed_roundtrip (conv : Conv) (hc : Faithful conv) (useInt32 : Bool) (a : Arr) (ha : Proper a)
    (hb : a.dtype = .bool) (hsh : a.shape ≠ []) :
    ∃ b, readArray conv (store conv useInt32 a .pack) .bool (some a.shape) = .ok b ∧ SameValues b a := by
  have hst : store conv useInt32 a .pack = astype conv .uint8 (packbits a) := rfl
  have hshape : (astype conv .uint8 (packbits a)).shape = a.shape.dropLast ++ [(lastDim a.shape + 7) / 8] := rfl
  have hsplit := split_last a.shape hsh
  rw [hst]
  unfold readArray
  simp only [Option.getD_some, hshape, lastDim_append]
  have hval : ∀ k, k < size a.shape → a.flat k = if a.flat k = 0 then 0 else 1 := by
    intro k hk
    have := ha k hk
    rw [hb] at this
    simp only [Holds] at this
    split <;> omega
  have hpos : ∀ k, k < size a.shape → 0 < lastDim a.shape := by
    intro k hk
    rw [Nat.pos_iff_ne_zero]
    intro h0
    rw [h0] at hsplit
    rw [hsplit] at hk
    simp [size] at hk
  by_cases heq : a.shape.dropLast ++ [(lastDim a.shape + 7) / 8] = a.shape
  · rw [if_pos heq]
    refine ⟨_, rfl, heq, ?_⟩
    intro k hk
    have hk' : k < size a.shape := heq ▸ hk
    have h1 : (lastDim a.shape + 7) / 8 = lastDim a.shape := by
      have := congrArg lastDim heq
      rwa [lastDim_append] at this
    have hn := hpos k hk'
    have hn1 : lastDim a.shape = 1 := by omega
    have hp := packed_bit conv hc a k hn
    simp only [hn1, Nat.div_one, Nat.mul_one, Nat.mod_one] at hp
    norm_num at hp
    show conv .uint8 .bool (conv .uint8 .uint8 ((packbits a).flat k)) = a.flat k
    rw [hc.bool]
    have hk0 : (packbits a).flat k = ((packByte fun t => decide (8 * (k % ((lastDim a.shape + 7) / 8)) + t < lastDim a.shape) &&
        decide (a.flat (k / ((lastDim a.shape + 7) / 8) * lastDim a.shape + (8 * (k % ((lastDim a.shape + 7) / 8)) + t)) ≠ 0) : Nat) : Int) := rfl
    rw [hn1] at hk0
    norm_num [Nat.mod_one] at hk0
    have hf : ∀ t, t ≠ 0 → (decide (t < 1) && !decide (a.flat (k + t) = 0)) = false := by
      intro t ht; simp; omega
    have hpb : packByte (fun t => decide (t < 1) && !decide (a.flat (k + t) = 0)) = if a.flat k = 0 then 0 else 128 := by
      unfold packByte
      simp only [hf 1 (by simp), hf 2 (by simp), hf 3 (by simp), hf 4 (by simp), hf 5 (by simp), hf 6 (by simp), hf 7 (by simp)]
      by_cases h : a.flat k = 0 <;> simp [bit, h]
    have hk1 : (packbits a).flat k = if a.flat k = 0 then 0 else 128 := by
      rw [hk0]
      have : (packByte fun t => decide (t = 0) && !decide (a.flat (k + t) = 0)) = if a.flat k = 0 then 0 else 128 := by
        rw [← hpb]; congr 1; funext t; congr 1; simp
      first
        | (rw [this]; split <;> rfl)
        | (rw [hpb]; split <;> rfl)
    have h8 : Holds .uint8 ((packbits a).flat k) := by rw [hk1]; simp only [Holds]; split <;> omega
    rw [hc.same _ _ _ h8 h8, hk1, hval k hk']
    by_cases h : a.flat k = 0 <;> simp [h]
  · rw [if_neg heq]
    rw [if_pos (by
      refine ⟨?_, .inl trivial, by omega, by omega⟩
      conv_rhs => rw [hsplit]
      simp)]
    have hs2 : (unpackbits (astype conv .uint8 (packbits a)) (lastDim a.shape)).shape = a.shape := by
      simp only [unpackbits, hshape, List.dropLast_concat]
      exact hsplit.symm
    rw [if_pos hs2]
    refine ⟨_, rfl, hs2, ?_⟩
    intro k hk
    have hk' : k < size a.shape := by
      have : size (unpackbits (astype conv .uint8 (packbits a)) (lastDim a.shape)).shape = size a.shape := by rw [hs2]
      exact this ▸ hk
    have hp := packed_bit conv hc a k (hpos k hk')
    have hu : (unpackbits (astype conv .uint8 (packbits a)) (lastDim a.shape)).flat k = if a.flat k = 0 then 0 else 1 := by
      simp only [unpackbits, hshape, lastDim_append]
      exact hp
    show conv .bool .bool ((unpackbits (astype conv .uint8 (packbits a)) (lastDim a.shape)).flat k) = a.flat k
    rw [hc.bool, hu]
    rw [hval k hk']
    by_cases h : a.flat k = 0 <;> simp [h]

/-- A boolean array that was not packed is taken for a packed one when a shape of the same number of axes
is asked for whose last extent is as many bits as the stored bytes can hold: the reshape, which is
otherwise done, fails. -/
theorem C17_unpacked_taken_for_packed_violated (conv : Conv) : ∃ a : Arr, a.dtype = .bool ∧ size a.shape = size [1, 8] ∧
    readArray conv (store conv true a .none) .bool (some [1, 8]) = .error .value :=
  ⟨⟨.bool, [8, 1], fun _ => 1⟩, rfl, rfl, rfl⟩

/-- A dataset whose rows do not have the length of packed rows for the shape asked for is not taken for a packed one: if it has as many
elements as asked for, its values are delivered in that shape, otherwise the read is refused. -/
theorem C17_not_packed_reshaped (conv : Conv) (h : Arr) (d : DType) (req : List Nat) (hne : h.shape ≠ req)
    (hp : h.shape.length = req.length → lastDim h.shape ≠ (lastDim req + 7) / 8) :
    (size h.shape = size req → ∃ b, readArray conv h d (some req) = .ok b ∧ b.shape = req ∧
      ∀ k, b.flat k = conv h.dtype d (h.flat k)) ∧
    (size h.shape ≠ size req → readArray conv h d (some req) = .error .value) := by
  unfold readArray
  dsimp only
  rw [Option.getD_some, if_neg hne, if_neg]
  · constructor
    · intro hs
      rw [if_pos hs]
      exact ⟨_, rfl, rfl, fun _ => rfl⟩
    · intro hs
      rw [if_neg hs]
  · rintro ⟨h1, _, h2, h3⟩
    have := hp h1
    omega

example : (⟨.uint8, [2, 12], fun _ => 0⟩ : Arr).shape ≠ [3, 8] ∧ lastDim [2, 12] ≠ (lastDim [3, 8] + 7) / 8 ∧
    size [2, 12] = size [3, 8] := by decide

/-- A packed array with one element per row read back as bytes gives 128 for True. -/
theorem C17_single_element_rows_violated : ∃ (a : Arr) (b : Arr), Proper a ∧ a.dtype = .bool ∧
    readArray saturate (store saturate true a .pack) .uint8 (some a.shape) = .ok b ∧ a.flat 0 = 1 ∧ b.flat 0 = 128 :=
  ⟨⟨.bool, [2, 1], fun _ => 1⟩, _, by intro k _; exact .inr rfl, rfl, rfl, rfl, by decide⟩

example : Proper ⟨.bool, [2, 11], fun k => (k % 3 % 2 : Nat)⟩ := by
  intro k _; simp only [Holds]; omega

/-! ### C18 -/

private theorem natural_eq (is ds : List Nat) (h : is.length = ds.length) :
    natural is ds = (position is ds, ds.prod) := by
  induction is generalizing ds with
  | nil => cases ds with
    | nil => rfl
    | cons d ds => simp at h
  | cons i is ih => cases ds with
    | nil => simp at h
    | cons d ds =>
      simp only [natural]
      rw [ih ds (by simpa using h)]
      simp only [position, List.prod_cons]
      ext
      · simp only; ring
      · simp only; ring

private theorem position_lt (is ds : List Nat) (h : ValidIndex is ds) : position is ds < ds.prod := by
  induction is generalizing ds with
  | nil => cases ds with
    | nil => simp [position]
    | cons d ds => exact h.elim
  | cons i is ih => cases ds with
    | nil => exact h.elim
    | cons d ds =>
      obtain ⟨h1, h2⟩ := h
      have := ih ds h2
      simp only [position, List.prod_cons]
      calc i * ds.prod + position is ds < i * ds.prod + ds.prod := by omega
        _ = (i + 1) * ds.prod := by ring
        _ ≤ d * ds.prod := Nat.mul_le_mul_right _ h1

private theorem extents_cons (d : Nat) (ds : List Nat) : ∃ es, extents (d :: ds) = (d :: ds).prod :: es := by
  induction ds generalizing d with
  | nil => exact ⟨[], by simp [extents]⟩
  | cons d' ds ih =>
    obtain ⟨es, h⟩ := ih d'
    exact ⟨(d' :: ds).prod :: es, by simp only [extents, h, List.prod_cons]⟩

private theorem divide_spec (n : Nat) (ds : List Nat) (h : n < ds.prod) (hne : ds ≠ []) :
    ValidIndex (divide n (extents ds)) ds ∧ position (divide n (extents ds)) ds = n := by
  induction ds generalizing n with
  | nil => exact absurd rfl hne
  | cons d ds ih =>
    cases ds with
    | nil =>
      simp only [List.prod_cons, List.prod_nil, Nat.mul_one] at h
      simp [extents, divide, ValidIndex, position, h]
    | cons d' ds =>
      obtain ⟨es, he⟩ := extents_cons d' ds
      have hex : extents (d :: d' :: ds) = d * (d' :: ds).prod :: (d' :: ds).prod :: es := by
        simp only [extents, he]
      have hpos : 0 < (d' :: ds).prod := by
        rw [Nat.pos_iff_ne_zero]
        intro h0
        rw [List.prod_cons, h0] at h
        simp at h
      rw [hex]
      simp only [divide]
      rw [← he]
      obtain ⟨g1, g2⟩ := ih (n % (d' :: ds).prod) (Nat.mod_lt _ hpos) (by simp)
      refine ⟨⟨?_, g1⟩, ?_⟩
      · rw [Nat.div_lt_iff_lt_mul hpos]
        rwa [List.prod_cons] at h
      · show n / (d' :: ds).prod * (d' :: ds).prod + position _ (d' :: ds) = n
        rw [g2]
        rw [Nat.mul_comm]; exact Nat.div_add_mod _ _

private theorem validIndex_length (is ds : List Nat) (h : ValidIndex is ds) : is.length = ds.length := by
  induction is generalizing ds with
  | nil => cases ds with
    | nil => rfl
    | cons d ds => exact h.elim
  | cons i is ih => cases ds with
    | nil => exact h.elim
    | cons d ds => simp [ih ds h.2]

private theorem position_append (is ts ds es : List Nat) (h : is.length = ds.length) :
    position (is ++ ts) (ds ++ es) = position is ds * es.prod + position ts es := by
  induction is generalizing ds with
  | nil => cases ds with
    | nil => simp [position]
    | cons d ds => simp at h
  | cons i is ih => cases ds with
    | nil => simp at h
    | cons d ds =>
      simp only [List.cons_append, position]
      rw [ih ds (by simpa using h)]
      rw [List.prod_append]
      ring

private theorem validIndex_append (is ts ds es : List Nat) (h1 : ValidIndex is ds) (h2 : ValidIndex ts es) :
    ValidIndex (is ++ ts) (ds ++ es) := by
  induction is generalizing ds with
  | nil => cases ds with
    | nil => exact h2
    | cons d ds => exact h1.elim
  | cons i is ih => cases ds with
    | nil => exact h1.elim
    | cons d ds => exact ⟨h1.1, ih ds h1.2⟩

/-- For every stored shape and required shape with the same number of elements, a full or partial index into
the required shape (the axes not indexed having the same extents in both shapes) is converted to an index
into the stored array that is in range, and that gives the element (or, for each further index `t`, the
element of the sub-array) which reshaping the whole array would put there. -/
theorem C18_reshaped_element (a : Arr) (req lead tail index : List Nat)
    (hreq : req = lead ++ tail) (hi : ValidIndex index lead)
    (stored_lead : List Nat) (hst : a.shape = stored_lead ++ tail) (hne : stored_lead ≠ [])
    (hsize : size req = size a.shape) (htail : tail.prod ≠ 0) :
    ∃ r, reshapedIndex index req a.shape = .ok r ∧ ValidIndex r stored_lead ∧
      ∀ t, ValidIndex t tail → ValidIndex (r ++ t) a.shape ∧ a.at (r ++ t) = (reshape a req).at (index ++ t) := by
  have hlen := validIndex_length _ _ hi
  have hprod : lead.prod = stored_lead.prod := by
    rw [hreq, hst] at hsize
    simp only [size, List.prod_append] at hsize
    exact Nat.eq_of_mul_eq_mul_right (Nat.pos_of_ne_zero htail) hsize
  have htl : req.length - index.length = tail.length := by
    rw [hreq, List.length_append, hlen]; omega
  have hpos := position_lt _ _ hi
  have hd := divide_spec (position index lead) stored_lead (hprod ▸ hpos) hne
  have e : reshapedIndex index req a.shape = .ok (divide (position index lead) (extents stored_lead)) := by
    unfold reshapedIndex
    dsimp only
    rw [htl, hreq, hst]
    simp only [List.length_append, Nat.add_sub_cancel, List.drop_left, List.take_left, ne_eq, not_true, and_false, if_false,
      if_neg hne]
    rw [natural_eq _ _ hlen]
  refine ⟨_, e, hd.1, ?_⟩
  intro t ht
  have hrl := validIndex_length _ _ hd.1
  refine ⟨hst ▸ validIndex_append _ _ _ _ hd.1 ht, ?_⟩
  unfold Arr.at reshape
  dsimp only
  rw [hst, hreq, position_append _ _ _ _ hrl, position_append _ _ _ _ hlen, hd.2]

/-- With too few indices for the unindexed axes to agree, the access is refused. -/
theorem C18_mismatched_tail_refused (index req stored : List Nat) (hl : index.length < req.length)
    (h : req.drop index.length ≠ stored.drop (stored.length - (req.length - index.length))) :
    reshapedIndex index req stored = .error .assertion := by
  unfold reshapedIndex
  dsimp only
  rw [if_pos]
  refine ⟨by omega, ?_⟩
  have : req.length - (req.length - index.length) = index.length := by omega
  rw [this]; exact h

example : reshapedIndex [5, 1] [6, 2, 3] [2, 3, 2, 3] = .ok [1, 2, 1] := by decide

example : ValidIndex [5, 1] [6, 2] ∧ size [6, 2, 3] = size [2, 3, 2, 3] := ⟨⟨by decide, by decide, trivial⟩, by decide⟩

end Verif.Hdf5
