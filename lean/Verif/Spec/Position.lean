import Verif.Model.Ty

/-
Specification vocabulary: which types may stand where in a `DataShape`. The lists are given in full, independently of the
class attributes `cls` of the code.
-/
namespace DS

/-- may come before the last part of a datashape: a dimension, or one of the kinds that are neither dimensions nor
measures by declaration -/
inductive MayPrecede : Ty → Prop where
  | fixed (n : Nat) : MayPrecede (.fixed n)
  | var : MayPrecede .var
  | typevar (s : Str) : MayPrecede (.typevar s)
  | ellipsis (s : Option Str) : MayPrecede (.ellipsis s)
  | null : MayPrecede .null
  | option (t : Ty) : MayPrecede (.option t)
  | func (l : List Ty) : MayPrecede (.func l)
  | map (k v : Ty) : MayPrecede (.map k v)
  | typeset (o n) : MayPrecede (.typeset o n)
  | dshape (l : List Ty) : MayPrecede (.dshape l)

/-- may be the last part: anything but a fixed or variable dimension -/
def MayEnd (t : Ty) : Prop := (∀ n, t ≠ .fixed n) ∧ t ≠ .var

/-- a `DataShape` with a single parameter -/
def Ty.isSingleton : Ty → Bool
  | .dshape [_] => true
  | _ => false

/-- `MayEnd`, as a test -/
def Ty.endsOk : Ty → Bool
  | .fixed _ | .var => false
  | _ => true

/-- The parameters of a `DataShape` object: types that may precede, then one that may end; no element is itself a
one-element `DataShape`. -/
def Constructible (ps : List Ty) : Prop :=
  ∃ dims m, ps = dims ++ [m] ∧ (∀ d ∈ dims, MayPrecede d) ∧ MayEnd m ∧ ∀ p ∈ ps, p.isSingleton = false

end DS
