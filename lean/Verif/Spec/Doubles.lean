/-
The numbers of IEEE 754 double precision, and which of them is nearest to a quotient of natural numbers. Independent of
the algorithm.
-/
namespace DS

/-- A double is a multiple of `2^-1074` of which at most 53 binary digits are needed: `D` stands for `D / 2^1074`. Nothing is
said about the largest exponent here. -/
def Double (D : Nat) : Prop := ∃ m e, m < 2 ^ 53 ∧ D = m * 2 ^ e

/-- A double whose last binary digit is 0. -/
def EvenDouble (D : Nat) : Prop := ∃ m e, m < 2 ^ 52 ∧ D = m * 2 ^ (e + 1)

/-- How far natural numbers are apart. -/
def dist (x y : Nat) : Nat := (x - y) + (y - x)

/-- `D` is the double nearest to `a / b`: no double is nearer, and it is the even one of two. (The distance of `D / 2^1074` and
`a / b` is `dist (D * b) (a * 2^1074)`, divided by `2^1074 * b`.) -/
def NearestDouble (a b D : Nat) : Prop :=
  Double D ∧ ∀ D', Double D' → D' ≠ D →
    dist (D * b) (a * 2 ^ 1074) < dist (D' * b) (a * 2 ^ 1074) ∨
    (dist (D * b) (a * 2 ^ 1074) = dist (D' * b) (a * 2 ^ 1074) ∧ EvenDouble D)

/-- The largest exponent: the double nearest to `a / b` is below `2^1024`; otherwise it is an infinity. -/
def FiniteDouble (D : Nat) : Prop := D < 2 ^ 1024 * 2 ^ 1074

end DS
