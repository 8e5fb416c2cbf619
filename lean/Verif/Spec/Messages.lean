import Verif.Model.Util
import Verif.Model.Repr
import Verif.Model.TestingPath
import Verif.Spec.Dtype
import Verif.Spec.Position

/-
Specification for C75: messages of exceptions. `pyReprTy`, `pyStr`, `pyRepr` and `listRepr` are `repr` and `str` of datashapes,
strings and lists of strings.
-/
namespace DS

/-- A `DataShape` of one element stands for this element. -/
inductive Stands : Ty → Ty → Prop where
  | one {t} : Stands (.dshape [t]) t
  | self {t} : (∀ u, t ≠ .dshape [u]) → Stands t t

/-- the part of `ps` that does not fit into a datashape, and the message -/
inductive PartMistake (env : Env) : List Ty → PyErr → Str → Prop where
  | empty : PartMistake env [] .valueError
      (py"the data shape should be constructed from 2 or more parameters, only got 0")
  /-- no measure at the end -/
  | last {dims m} : ¬ MayEnd m → PartMistake env (dims ++ [m]) .typeError
      (py"Only a measure can appear on the last position of a datashape, not " ++ pyReprTy env m)
  /-- the first measure before the end -/
  | inner {dims d rest m} : MayEnd m → (∀ x ∈ dims, MayPrecede x) → ¬ MayPrecede d →
      PartMistake env (dims ++ d :: (rest ++ [m])) .typeError
      (py"Only dimensions can appear before the last position of a datashape, not " ++ pyReprTy env d)

/-- `again` are those of `names` that are in `seen` or come a second, third, … time, in this order -/
inductive Repetitions : (seen names again : List Str) → Prop where
  | done {seen} : Repetitions seen [] []
  | first {seen x names again} : x ∉ seen → Repetitions (x :: seen) names again → Repetitions seen (x :: names) again
  | again {seen x names again} : x ∈ seen → Repetitions seen names again → Repetitions seen (x :: names) (x :: again)

/-- what is wrong with the item at position `n` of `R[…]`; `shown` is `str` of its name if that is a foreign object -/
inductive ItemMistake (env : Env) (shown : Str) (n : Nat) : RItem → Str → Prop where
  | noSlice : ItemMistake env shown n .other
      (py"invalid field specification at position " ++ natStr n ++ py".\nfields must be formatted like: {name}:{type}")
  | noName {t s} : ItemMistake env shown n (.slice .none t s) (py"missing field name at position " ++ natStr n)
  | intName {i t s} : ItemMistake env shown n (.slice (.int i) t s)
      (py"field name at position " ++ natStr n ++ py" ('" ++ intStr i ++ py"') was not a string")
  | typeName {u t s} : ItemMistake env shown n (.slice (.ty u) t s)
      (py"field name at position " ++ natStr n ++ py" ('" ++ pyStr env u ++ py"') was not a string")
  | otherName {t s} : ItemMistake env shown n (.slice .other t s)
      (py"field name at position " ++ natStr n ++ py" ('" ++ shown ++ py"') was not a string")
  | noType {x} : ItemMistake env shown n (.slice (.str x) .none .none)
      (py"missing type for field '" ++ x ++ py"' at position " ++ natStr n)
  | step {x t s} : s ≠ .none → ItemMistake env shown n (.slice (.str x) t s)
      (py"unexpected slice step for field '" ++ x ++ py"' at position " ++ natStr n ++ py".\nhint: you might have a second ':'")

/-- `name:type` -/
inductive FieldItem : RItem → Str × PVal → Prop where
  | field {x t} : t ≠ .none → FieldItem (.slice (.str x) t .none) (x, t)

end DS
