import Verif.Py.Basic
import Mathlib.Data.List.Sort
import Mathlib.Data.List.Dedup

/-!
# Model of `resqpy/olio/factors.py`
-/

namespace Verif.Factors
open Verif.Py

/-- the `while True` loop of `factorize`, factors.py:8-18.  The first argument bounds the number of
iterations; `none` means that the bound was used up. -/
def factLoop : Nat → Nat → Nat → Option (List Nat)
  | 0, _, _ => none
  | fuel + 1, n, i =>
    if n % i ≠ 0 then
      if i + 1 > n then some [] else factLoop fuel n (i + 1)
    else if n / i < i then some [i]
    else (factLoop fuel (n / i) i).map (i :: ·)

/-- factors.py:4-18 `factorize` -/
def factorize (n : Nat) : Option (List Nat) := factLoop (2 * n + 1) n 2

/-- loop body of `combinatorial`, factors.py:27-30 -/
def combine (head : Nat) : List Nat → List Nat
  | [] => []
  | o :: os => if o ≠ head then o :: head * o :: combine head os else head * o :: combine head os

/-- factors.py:21-31 `combinatorial`; `sorted` is insertion sort -/
def combinatorial : List Nat → List Nat
  | [] => []
  | head :: rest => (head :: combine head (combinatorial rest)).insertionSort (· ≤ ·)

/-- factors.py:34-38 `all_factors_from_primes`: `set` removes duplicates -/
def allFactorsFromPrimes (primes : List Nat) : List Nat :=
  ((combinatorial primes).dedup ++ [1]).insertionSort (· ≤ ·)

/-- factors.py:41-44 `all_factors` -/
def allFactors (n : Nat) : Option (List Nat) := (factorize n).map allFactorsFromPrimes

/-- factors.py:47-51 `remove_subset`: `list.remove` takes out the first occurrence, ValueError when
there is none -/
def removeSubset (primary : List Nat) : List Nat → Res (List Nat)
  | [] => .ok primary
  | e :: es => if e ∈ primary then removeSubset (primary.erase e) es else .error .value

end Verif.Factors
