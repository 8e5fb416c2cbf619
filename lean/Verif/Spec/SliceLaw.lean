import Verif.Model.Ty
import Verif.Spec.Doubles

/-
What `ds.subshape[a:b:c]` gives for any bounds and step: the bounds as the code reads them, the length as the ceiling of a
double, and the datashape made of it. Written with integers and doubles only.
-/
namespace DS

/-- Where a slice of a dimension of length `n` begins: a missing beginning is 0, a negative one counts from the end. Nothing
is limited to the dimension. -/
inductive SliceBegins (n : Nat) : Option Int → Int → Prop where
  | missing : SliceBegins n none 0
  | front {i : Int} : 0 ≤ i → SliceBegins n (some i) i
  | back {i : Int} : i < 0 → SliceBegins n (some i) (n + i)

/-- Where it ends: a missing end is `n`, and so is an end of 0. -/
inductive SliceEnds (n : Nat) : Option Int → Int → Prop where
  | missing : SliceEnds n none n
  | zero : SliceEnds n (some 0) n
  | front {i : Int} : 0 < i → SliceEnds n (some i) i
  | back {i : Int} : i < 0 → SliceEnds n (some i) (n + i)

/-- `int(ceil(x / c))`: the smallest integer that is not below the double nearest to the quotient. -/
inductive CeilQuotient (x c : Int) : Except PyErr Int → Prop where
  | zero : c = 0 → CeilQuotient x c (.error .zeroDivision)
  | infinite {D : Nat} : c ≠ 0 → NearestDouble x.natAbs c.natAbs D → ¬ FiniteDouble D → CeilQuotient x c (.error .overflow)
  | least {D : Nat} {k : Int} : c ≠ 0 → NearestDouble x.natAbs c.natAbs D → FiniteDouble D →
      x.sign * c.sign * D ≤ k * 2 ^ 1074 → (∀ j : Int, x.sign * c.sign * D ≤ j * 2 ^ 1074 → k ≤ j) →
      CeilQuotient x c (.ok k)

/-- The length of a slice over `x` positions with a step, if there is one. -/
inductive SliceLength (x : Int) : Option Int → Except PyErr Int → Prop where
  | whole : SliceLength x none (.ok x)
  | stepped {c : Int} {r : Except PyErr Int} : CeilQuotient x c r → SliceLength x (some c) r

/-- The datashape with a first dimension of that length: a negative length is a `ValueError`. -/
inductive WithLength (rest : List Ty) : Except PyErr Int → Except PyErr Ty → Prop where
  | made (k : Nat) : WithLength rest (.ok k) (.ok (.dshape (.fixed k :: rest)))
  | negative {k : Int} : k < 0 → WithLength rest (.ok k) (.error .valueError)
  | failed (e : PyErr) : WithLength rest (.error e) (.error e)

/-- `ds.subshape[a:b:c]` for `ds` a fixed dimension of length `n` over `rest`. -/
inductive SliceOfFixed (n : Nat) (rest : List Ty) (a b c : Option Int) : Except PyErr Ty → Prop where
  | of {p q : Int} {k : Except PyErr Int} {r : Except PyErr Ty} : SliceBegins n a p → SliceEnds n b q → SliceLength (q - p) c k →
      WithLength rest k r → SliceOfFixed n rest a b c r

/-- Neither bound counts from the end of the dimension, so that the number of positions is known: `q - p` of them. -/
inductive KnownBounds : Option Int → Option Int → Int → Int → Prop where
  | missing {q : Int} : 0 ≤ q → KnownBounds none (some q) 0 q
  | both {p q : Int} : 0 ≤ p → 0 ≤ q → KnownBounds (some p) (some q) p q

/-- `ds.subshape[a:b:c]` for `ds` any other dimension over `rest`: a fixed one if the bounds are known, and otherwise `var`
without a look at the step. -/
inductive SliceOfDim (rest : List Ty) (a b c : Option Int) : Except PyErr Ty → Prop where
  | known {p q : Int} {k : Except PyErr Int} {r : Except PyErr Ty} : KnownBounds a b p q → SliceLength (q - p) c k →
      WithLength rest k r → SliceOfDim rest a b c r
  | unknown : (∀ p q, ¬ KnownBounds a b p q) → SliceOfDim rest a b c (.ok (.dshape (.var :: rest)))

end DS
