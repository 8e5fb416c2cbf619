import Verif.Model.Ty

/-
Specification vocabulary for C08: when two datashapes are the same type.
Independent of the definition of `==` in the model.
-/
namespace DS

/-- `View t dims m`: seen as an array, `t` has the dimensions `dims` and the measure `m`.
An option shows the dimensions of its content (coretypes.py:732-734) but is its own measure. -/
inductive View : Ty → List Ty → Ty → Prop where
  | array (dims : List Ty) (m : Ty) : View (.dshape (dims ++ [m])) dims m
  | option {t m : Ty} {dims : List Ty} : View t dims m → View (.option t) dims (.option t)
  | scalar (t : Ty) : (∀ ps, t ≠ .dshape ps) → (∀ u, t ≠ .option u) → View t [] t

/-- Python equality of two category literals: `True == 1` and `False == 0`. -/
inductive SameLit : Lit → Lit → Prop where
  | same (l : Lit) : SameLit l l
  | trueOne : SameLit (.bool true) (.int 1)
  | oneTrue : SameLit (.int 1) (.bool true)
  | falseZero : SameLit (.bool false) (.int 0)
  | zeroFalse : SameLit (.int 0) (.bool false)

/-- Types without type parameters. -/
def Ty.atomic : Ty → Bool
  | .ctype .. | .null | .date | .time _ | .datetime _ | .timedelta _ | .bytes | .string .. | .decimal ..
  | .json | .fixed _ | .var | .typevar _ | .ellipsis _ => true
  | _ => false

mutual
/-- Two datashapes are the same type: as arrays they have the same dimensions and the same measure. -/
inductive Same : Ty → Ty → Prop where
  | mk {a b m n : Ty} {ds es : List Ty} : View a ds m → View b es n → ds.length = es.length →
      (∀ p ∈ ds.zip es, Same p.1 p.2) → SameMeasure m n → Same a b
/-- Two measures are the same: same class, the same parameters. -/
inductive SameMeasure : Ty → Ty → Prop where
  | atom (t : Ty) : t.atomic = true → SameMeasure t t
  | units (u : Str) {t t' : Ty} : Same t t' → SameMeasure (.units u t) (.units u t')
  | option {t t' : Ty} : Same t t' → SameMeasure (.option t) (.option t')
  | map {k k' v v' : Ty} : Same k k' → Same v v' → SameMeasure (.map k v) (.map k' v')
  | func {ts us : List Ty} : ts.length = us.length → (∀ p ∈ ts.zip us, Same p.1 p.2) →
      SameMeasure (.func ts) (.func us)
  | tuple {ts us : List Ty} : ts.length = us.length → (∀ p ∈ ts.zip us, Same p.1 p.2) →
      SameMeasure (.tuple ts) (.tuple us)
  | record {fs gs : List (Str × Ty)} : fs.map (·.1) = gs.map (·.1) →
      (∀ p ∈ fs.zip gs, Same p.1.2 p.2.2) → SameMeasure (.record fs) (.record gs)
  | categorical {c d : List Lit} {t u : Ty} (o : Bool) : c.length = d.length →
      (∀ p ∈ c.zip d, SameLit p.1 p.2) → Same t u → SameMeasure (.categorical c t o) (.categorical d u o)
  | array {ts us : List Ty} : ts.length = us.length → (∀ p ∈ ts.zip us, Same p.1 p.2) →
      SameMeasure (.dshape ts) (.dshape us)
end

end DS
