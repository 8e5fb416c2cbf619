import Verif.Model.Basic

/-
`a / b` for Python ints under `from __future__ import division` (coretypes.py:3): CPython's `long_true_divide`, the IEEE 754
double nearest to the quotient (ties to even).
-/
namespace DS

/-- The integer nearest to `n / d`, the even one of two. -/
def roundHalfEven (n d : Nat) : Nat :=
  let q := n / d
  let r := n % d
  if 2 * r < d then q else if d < 2 * r then q + 1 else q + q % 2

/-- The exponent of the quotient: `2^k ≤ a / b < 2^(k+1)`, for positive `a` and `b`. -/
def quotientLog (a b : Nat) : Int :=
  let k : Int := (a.log2 : Int) - b.log2
  if b * 2 ^ k.toNat ≤ a * 2 ^ (-k).toNat then k else k - 1

/-- The double nearest to `a / b`, as numerator and denominator: 53 binary digits from the first one on, but none after
the 1074th binary place; `OverflowError` from `2^1024` on. -/
def trueDiv (a b : Nat) : Except PyErr (Nat × Nat) :=
  let k := quotientLog a b
  if 52 ≤ k then
    let u := 2 ^ (k - 52).toNat
    let v := roundHalfEven a (b * u) * u
    if 2 ^ 1024 ≤ v then .error .overflow else .ok (v, 1)
  else
    let s := (min (52 - k) 1074).toNat
    .ok (roundHalfEven (a * 2 ^ s) b, 2 ^ s)

/-- `int(ceil(a / b))` (the use of it in coretypes.py:696) -/
def ceilDiv (a b : Int) : Except PyErr Int :=
  if b = 0 then .error .zeroDivision
  else (trueDiv a.natAbs b.natAbs).map fun (n, d) =>
    if 0 ≤ a ↔ 0 ≤ b then ((n + d - 1) / d : Nat) else -(n / d : Nat)

end DS
