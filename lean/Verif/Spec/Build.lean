import Verif.Model.Build
import Verif.Spec.Constructors
import Verif.Spec.Position

/-
What the parts of a datashape may be given as, in words.
-/
namespace DS

/-- A one-element `DataShape` counts as its element, any other datashape as itself. -/
inductive Unpacked : Ty → Ty → Prop where
  | single (m : Ty) : Unpacked (.dshape [m]) m
  | same (t : Ty) : (∀ m, t ≠ .dshape [m]) → Unpacked t t

/-- The part of a datashape that a Python value stands for: a size stands for a fixed dimension, a text for the
datashape it is read as, a datashape for itself. -/
inductive StandsFor (nest : Str → Except PyErr Ty) : PVal → Ty → Prop where
  | size (n : Nat) : StandsFor nest (.int n) (.fixed n)
  | text {s t u} : nest s = .ok t → Unpacked t u → StandsFor nest (.str s) u
  | object {t u} : Unpacked t u → StandsFor nest (.ty t) u

/-- The exception raised for a value that stands for no part. -/
inductive NoPart (nest : Str → Except PyErr Ty) : PVal → PyErr → Prop where
  | negative {i : Int} : i < 0 → NoPart nest (.int i) .valueError
  | text {s e} : nest s = .error e → NoPart nest (.str s) e
  | none : NoPart nest .none .typeError
  | other : NoPart nest .other .typeError

/-- `ds` is built from the values `vs` -/
inductive BuiltFrom (nest : Str → Except PyErr Ty) (vs : List PVal) : Ty → Prop where
  | mk {dims : List Ty} {m : Ty} : (∀ s, vs ≠ [.str s]) → Each (StandsFor nest) vs (dims ++ [m]) →
      (∀ d ∈ dims, MayPrecede d) → MayEnd m → BuiltFrom nest vs (.dshape (dims ++ [m]))

/-- The datashape objects that `dshape` wraps into a `DataShape`: the ones of a unit class, records and JSON. -/
inductive Wrapped : Ty → Prop where
  | ctype (n i a) : Wrapped (.ctype n i a)
  | null : Wrapped .null
  | date : Wrapped .date
  | time (z) : Wrapped (.time z)
  | datetime (z) : Wrapped (.datetime z)
  | timedelta (u) : Wrapped (.timedelta u)
  | units (u t) : Wrapped (.units u t)
  | bytes : Wrapped .bytes
  | string (n e) : Wrapped (.string n e)
  | decimal (p s) : Wrapped (.decimal p s)
  | typevar (s) : Wrapped (.typevar s)
  | typeset (o n) : Wrapped (.typeset o n)
  | record (fs) : Wrapped (.record fs)
  | json : Wrapped .json

end DS
