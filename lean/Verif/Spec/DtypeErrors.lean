import Verif.Spec.Dtype

/-
Specification for C63: when the dtype of a datashape is a `ValueError`. (Otherwise it is a `TypeError`, or there is one.)
-/
namespace DS

mutual
/-- The method `t.to_numpy_dtype()` raises `ValueError`. -/
inductive DtypeClash : Ty → Prop where
  | map {k v} : MeasureClash k → DtypeClash (.map k v)
  /-- all the fields have dtypes, but two of them would have one name -/
  | names {fs : List (Str × Ty)} : (∀ f ∈ fs, ∃ d, MeasureDtype f.2 d) → NpClash fs → DtypeClash (.record fs)
  /-- the first field without a dtype decides -/
  | field {pre : List (Str × Ty)} {n : Str} {t : Ty} {post : List (Str × Ty)} : (∀ f ∈ pre, ∃ d, MeasureDtype f.2 d) →
      MeasureClash t → DtypeClash (.record (pre ++ (n, t) :: post))
  | component {pre : List Ty} {t : Ty} {post : List Ty} : (∀ u ∈ pre, ∃ d, MeasureDtype u d) → MeasureClash t →
      DtypeClash (.tuple (pre ++ t :: post))
/-- The function `to_numpy_dtype(t)` raises `ValueError`. -/
inductive MeasureClash : Ty → Prop where
  | measure {t} : DtypeClash t → MeasureClash t
  | array {dims : List Ty} {m} : DtypeClash m → MeasureClash (.dshape (dims ++ [m]))
  | arrays {dims dims' : List Ty} {m} : (∀ x ∈ dims', ∃ n, NpDim x n) → DtypeClash m →
      MeasureClash (.dshape (dims ++ [.dshape (dims' ++ [m])]))
end

/-- `to_numpy(t)` raises `ValueError`. -/
inductive NumpyClash : Ty → Prop where
  | measure {t} : DtypeClash t → NumpyClash t
  | array {dims : List Ty} {m} : (∀ x ∈ dims, ∃ n, NpDim x n) → DtypeClash m → NumpyClash (.dshape (dims ++ [m]))

end DS
