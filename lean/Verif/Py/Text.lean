/-!
# Decimal text and whitespace splitting

`str(int)`, `int(str)` and `str.split()` on character lists (Python strings are modelled as
`List Char`).
-/

namespace Verif.Py

/-- The decimal digit character of `d < 10`. -/
def digitChar (d : Nat) : Char := Char.ofNat (48 + d)

/-- Value of a decimal digit character. -/
def digitVal? (c : Char) : Option Nat :=
  if 48 ≤ c.toNat ∧ c.toNat ≤ 57 then some (c.toNat - 48) else none

/-- `str(n)` for a non-negative integer. -/
def showNatF : Nat → Nat → List Char
  | 0, _ => []
  | f + 1, n => if n < 10 then [digitChar n] else showNatF f (n / 10) ++ [digitChar (n % 10)]

/-- `str(n)` for a non-negative integer (the fuel `n + 1` always suffices, see `showNat_eq`). -/
def showNat (n : Nat) : List Char := showNatF (n + 1) n

/-- `str(n)` -/
def showInt : Int → List Char
  | .ofNat n => showNat n
  | .negSucc n => '-' :: showNat (n + 1)

/-- digits of a non-empty string, most significant first -/
def readDigits (acc : Nat) : List Char → Option Nat
  | [] => some acc
  | c :: cs => match digitVal? c with
    | none => none
    | some d => readDigits (acc * 10 + d) cs

def readNat? : List Char → Option Nat
  | [] => none
  | cs => readDigits 0 cs

/-- `int(s)`; simplification: surrounding whitespace, underscores and non-ascii digits, which Python
also accepts, are rejected. -/
def readInt? : List Char → Option Int
  | '-' :: cs => (readNat? cs).map fun n => -(n : Int)
  | '+' :: cs => (readNat? cs).map fun n => (n : Int)
  | cs => (readNat? cs).map fun n => (n : Int)

/-- whitespace as recognised by `str.split()` (ascii part) -/
def isWS (c : Char) : Bool := c = ' ' || c = '\t' || c = '\n' || c = '\r' || c = '\x0b' || c = '\x0c'

/-- `s.split()`: maximal runs of non-whitespace. -/
def splitWSAux (cur : List Char) : List Char → List (List Char)
  | [] => if cur = [] then [] else [cur.reverse]
  | c :: cs => if isWS c then (if cur = [] then splitWSAux [] cs else cur.reverse :: splitWSAux [] cs)
      else splitWSAux (c :: cur) cs

def splitWS (s : List Char) : List (List Char) := splitWSAux [] s

/-! ### Lemmas -/

theorem showNatF_fuel (f g n : Nat) (hf : n < f) (hg : n < g) : showNatF f n = showNatF g n := by
  induction f generalizing g n with
  | zero => omega
  | succ f ih =>
    cases g with
    | zero => omega
    | succ g =>
      simp only [showNatF]
      split
      · rfl
      · rw [ih g (n / 10) (by omega) (by omega)]

theorem showNat_eq (n : Nat) :
    showNat n = if n < 10 then [digitChar n] else showNat (n / 10) ++ [digitChar (n % 10)] := by
  unfold showNat
  rw [showNatF]
  split
  · rfl
  · rw [showNatF_fuel n (n / 10 + 1) (n / 10) (by omega) (by omega)]

theorem digitVal?_digitChar (d : Nat) (h : d < 10) : digitVal? (digitChar d) = some d := by
  have : ∀ d : Fin 10, digitVal? (digitChar d.val) = some d.val := by decide
  exact this ⟨d, h⟩

theorem isWS_digitChar (d : Nat) (h : d < 10) : isWS (digitChar d) = false := by
  have : ∀ d : Fin 10, isWS (digitChar d.val) = false := by decide
  exact this ⟨d, h⟩

theorem digitChar_ne_sign (d : Nat) (h : d < 10) : digitChar d ≠ '-' ∧ digitChar d ≠ '+' := by
  have : ∀ d : Fin 10, digitChar d.val ≠ '-' ∧ digitChar d.val ≠ '+' := by decide
  exact this ⟨d, h⟩

theorem readDigits_append (acc : Nat) (xs ys : List Char) :
    readDigits acc (xs ++ ys) = (readDigits acc xs).bind fun a => readDigits a ys := by
  induction xs generalizing acc with
  | nil => rfl
  | cons c cs ih =>
    simp only [List.cons_append, readDigits]
    cases digitVal? c with
    | none => rfl
    | some d => exact ih _

theorem showNat_ne_nil (n : Nat) : showNat n ≠ [] := by
  rw [showNat_eq]; split <;> simp

theorem readDigits_showNat (n : Nat) : readDigits 0 (showNat n) = some n := by
  induction n using Nat.strongRecOn with
  | _ n ih =>
    rw [showNat_eq]
    split
    · rename_i h; simp [readDigits, digitVal?_digitChar n h]
    · rename_i h
      rw [readDigits_append, ih (n / 10) (by omega)]
      simp only [Option.bind_some, readDigits, digitVal?_digitChar (n % 10) (by omega)]
      congr 1; omega

theorem readNat?_showNat (n : Nat) : readNat? (showNat n) = some n := by
  have h := readDigits_showNat n
  have h2 := showNat_ne_nil n
  revert h h2
  cases showNat n with
  | nil => simp
  | cons c cs => intro h _; exact h

/-- every character of `str(n)` is a digit character -/
theorem showNat_digits (n : Nat) : ∀ c ∈ showNat n, ∃ d, d < 10 ∧ c = digitChar d := by
  induction n using Nat.strongRecOn with
  | _ n ih =>
    rw [showNat_eq]
    split
    · rename_i h; intro c hc; simp at hc; exact ⟨n, h, hc⟩
    · rename_i h
      intro c hc
      rw [List.mem_append] at hc
      rcases hc with hc | hc
      · exact ih (n / 10) (by omega) c hc
      · simp at hc; exact ⟨n % 10, by omega, hc⟩

theorem readInt?_showInt (z : Int) : readInt? (showInt z) = some z := by
  cases z with
  | ofNat n =>
    simp only [showInt]
    have hd := showNat_digits n
    have hr := readNat?_showNat n
    revert hd hr
    cases showNat n with
    | nil => simp [readNat?]
    | cons c cs =>
      intro hd hr
      obtain ⟨d, hd10, hc⟩ := hd c (by simp)
      have hs := digitChar_ne_sign d hd10
      rw [← hc] at hs
      unfold readInt?
      split
      · rename_i h; cases h; exact absurd rfl hs.1
      · rename_i h; cases h; exact absurd rfl hs.2
      · rw [hr]; rfl
  | negSucc n =>
    simp only [showInt, readInt?, readNat?_showNat]
    rfl

theorem showInt_ne_nil (z : Int) : showInt z ≠ [] := by
  cases z with
  | ofNat n => exact showNat_ne_nil n
  | negSucc n => simp [showInt]

theorem showInt_no_ws (z : Int) : ∀ c ∈ showInt z, isWS c = false := by
  have hn : ∀ n, ∀ c ∈ showNat n, isWS c = false := by
    intro n c hc
    obtain ⟨d, h10, rfl⟩ := showNat_digits n c hc
    exact isWS_digitChar d h10
  cases z with
  | ofNat n => exact hn n
  | negSucc n =>
    intro c hc
    simp only [showInt, List.mem_cons] at hc
    rcases hc with rfl | hc
    · decide
    · exact hn _ c hc

/-- Splitting a word followed by a whitespace character. -/
theorem splitWSAux_word (cur w rest : List Char) (hw : ∀ c ∈ w, isWS c = false) :
    splitWSAux cur (w ++ rest) = splitWSAux (w.reverse ++ cur) rest := by
  induction w generalizing cur with
  | nil => rfl
  | cons c cs ih =>
    have hc : isWS c = false := hw c (by simp)
    simp only [List.cons_append, splitWSAux, hc]
    simp only [Bool.false_eq_true, if_false]
    rw [ih (c :: cur) (fun d hd => hw d (by simp [hd]))]
    simp

theorem splitWS_word_ws (w rest : List Char) (s : Char) (hw : ∀ c ∈ w, isWS c = false)
    (hne : w ≠ []) (hs : isWS s = true) :
    splitWS (w ++ s :: rest) = w :: splitWS rest := by
  unfold splitWS
  rw [splitWSAux_word [] w _ hw]
  simp [splitWSAux, hs, hne]

theorem splitWS_word (w : List Char) (hw : ∀ c ∈ w, isWS c = false) (hne : w ≠ []) :
    splitWS w = [w] := by
  unfold splitWS
  have := splitWSAux_word [] w [] hw
  rw [List.append_nil] at this
  rw [this]
  simp [splitWSAux, hne]

theorem splitWS_ws (rest : List Char) (s : Char) (hs : isWS s = true) :
    splitWS (s :: rest) = splitWS rest := by
  simp [splitWS, splitWSAux, hs]

end Verif.Py
