import Verif.Spec.Dtype
import Verif.Spec.DtypeErrors
import Verif.Model.Printer

/-
Specification for C75: which part of a datashape has no dtype. `none` is a message of NumPy's.
-/
namespace DS

/-- types that NumPy has nothing for, whatever their parameters -/
inductive Foreign : Ty → Prop where
  | null : Foreign .null
  | time {z} : Foreign (.time z)
  | units {u t} : Foreign (.units u t)
  | bytes : Foreign .bytes
  | json : Foreign .json
  | fixed {n} : Foreign (.fixed n)
  | var : Foreign .var
  | typevar {s} : Foreign (.typevar s)
  | ellipsis {s} : Foreign (.ellipsis s)
  | func {ps} : Foreign (.func ps)
  | categorical {c t o} : Foreign (.categorical c t o)
  | typeset {o n} : Foreign (.typeset o n)
  | dshape {ps} : Foreign (.dshape ps)

mutual
/-- the message of the method `t.to_numpy_dtype()` -/
inductive DtypeBlame (env : Env) : Ty → Option Str → Prop where
  | foreign {t} : Foreign t → DtypeBlame env t (some (py"DataShape " ++ pyStr env t ++ py" is not NumPy-compatible"))
  | option {t} : (∀ d, ¬ DtypeOf (.option t) d) →
      DtypeBlame env (.option t) (some (py"DataShape measure " ++ pyStr env (.option t) ++ py" is not NumPy-compatible"))
  | decimal {p} : 18 < p → DtypeBlame env (.decimal p 0) (some (py"Integer Decimal precision > 18 is not NumPy-compatible"))
  /-- NumPy does not know the name, or rejects a negative length -/
  | name {n i a} : (∀ p, ¬ NpName n p) → DtypeBlame env (.ctype n i a) none
  | length {n : Int} {e} : n < 0 → DtypeBlame env (.string (some n) e) none
  /-- of a mapping, the keys -/
  | map {k v m} : MeasureBlame env k m → DtypeBlame env (.map k v) m
  /-- the first field, or component, that has no dtype -/
  | field {pre : List (Str × Ty)} {n : Str} {t : Ty} {post : List (Str × Ty)} {m} : (∀ f ∈ pre, ∃ d, MeasureDtype f.2 d) →
      MeasureBlame env t m → DtypeBlame env (.record (pre ++ (n, t) :: post)) m
  | component {pre : List Ty} {t : Ty} {post : List Ty} {m} : (∀ u ∈ pre, ∃ d, MeasureDtype u d) →
      MeasureBlame env t m → DtypeBlame env (.tuple (pre ++ t :: post)) m
  /-- NumPy rejects repeated names -/
  | clash {fs : List (Str × Ty)} : (∀ f ∈ fs, ∃ d, MeasureDtype f.2 d) → NpClash fs → DtypeBlame env (.record fs) none
/-- the message of `to_numpy(t)` -/
inductive NumpyBlame (env : Env) : Ty → Option Str → Prop where
  | measure {t m} : (∀ ps, t ≠ .dshape ps) → DtypeBlame env t m → NumpyBlame env t m
  /-- the first dimension that NumPy does not have -/
  | dim {dims d rest} : (∀ x ∈ dims, ∃ n, NpDim x n) → (∀ n, ¬ NpDim d n) → rest ≠ [] →
      NumpyBlame env (.dshape (dims ++ d :: rest)) (some (py"DataShape dimension " ++ pyStr env d ++ py" is not NumPy-compatible"))
  | elements {dims : List Ty} {t m} : (∀ x ∈ dims, ∃ n, NpDim x n) → DtypeBlame env t m → NumpyBlame env (.dshape (dims ++ [t])) m
  /-- (there is no such datashape) -/
  | empty : NumpyBlame env (.dshape []) none
/-- the message of the function `to_numpy_dtype(t)` -/
inductive MeasureBlame (env : Env) : Ty → Option Str → Prop where
  | measure {t m} : (∀ ps, t ≠ .dshape ps) → DtypeBlame env t m → MeasureBlame env t m
  | elements {dims : List Ty} {t m} : NumpyBlame env t m → MeasureBlame env (.dshape (dims ++ [t])) m
  /-- (there is no such datashape) -/
  | empty : MeasureBlame env (.dshape []) none
end

end DS
