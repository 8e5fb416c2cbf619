/-
What a Python slice with a positive step selects, from the library reference ("Common sequence operations"): a
negative bound has the length added to it, bounds are then limited to `0 … len`, and the positions
`lo, lo + step, lo + 2*step, …` below `hi` are selected; and what a slice with a negative step selects.
-/
namespace DS

/-- A slice bound for a sequence of length `n`; `dflt` stands for a missing bound. -/
def bound (n : Nat) (dflt : Int) : Option Int → Int
  | none => dflt
  | some x => max 0 (min (n : Int) (if x < 0 then x + n else x))

/-- The positions that `a:b:step` selects in a sequence of length `n`, for `step ≥ 1`. -/
def selected (n : Nat) (a b : Option Int) (step : Int) : List Nat :=
  (List.range n).filter fun i => bound n 0 a ≤ i && i < bound n n b && ((i : Int) - bound n 0 a) % step == 0

/-- A bound of a slice with negative step: limited to `-1 … len - 1`. -/
def boundDown (n : Nat) (dflt : Int) : Option Int → Int
  | none => dflt
  | some x => max (-1) (min ((n : Int) - 1) (if x < 0 then x + n else x))

/-- The positions that `a:b:-step` selects, for `step ≥ 1`: from `a` (by default the last) down to, but not including,
`b` (by default: to the front), `step` apart, in descending order. -/
def selectedDown (n : Nat) (a b : Option Int) (step : Int) : List Nat :=
  (List.range n).reverse.filter fun i =>
    boundDown n (-1) b < i && i ≤ boundDown n (n - 1) a && (boundDown n (n - 1) a - (i : Int)) % step == 0

/-- Dividing `count` by the step is harmless in floating point: doubles have 53 binary digits, and at most 1074 places
after the binary point. -/
def FitsDouble (count : Int) (c : Option Int) : Prop := ∀ x, c = some x → count ≤ 2 ^ 53 ∧ x < 2 ^ 1075

/-- The bounds lie inside the sequence, the end is not `0`, the beginning is not after the end, the step is not
zero or negative, and if there is a step the numbers fit into doubles. -/
structure InRange (n : Nat) (a b c : Option Int) : Prop where
  start : ∀ x, a = some x → -(n : Int) ≤ x ∧ x ≤ n
  stop : ∀ x, b = some x → -(n : Int) ≤ x ∧ x ≤ n ∧ x ≠ 0
  step : ∀ x, c = some x → 1 ≤ x
  order : bound n 0 a ≤ bound n n b
  double : FitsDouble (bound n n b - bound n 0 a) c

example : selected 10 none none 1 = [0, 1, 2, 3, 4, 5, 6, 7, 8, 9] := rfl
example : selected 10 (some 1) (some (-2)) 3 = [1, 4, 7] := rfl
example : selected 10 (some (-100)) (some 100) 4 = [0, 4, 8] := rfl

example : selectedDown 10 none none 1 = [9, 8, 7, 6, 5, 4, 3, 2, 1, 0] := rfl
example : selectedDown 10 (some (-2)) (some 1) 3 = [8, 5, 2] := rfl
example : selectedDown 10 (some 100) (some (-100)) 4 = [9, 5, 1] := rfl

end DS
