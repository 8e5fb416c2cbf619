import Verif.Model.Discovery

/-
Specification vocabulary for C65: cells of a table that are in the same place, and types whose combination does not depend
on which comes first.
-/
namespace DS

/-- `x` is a cell of `v` and `y` is a cell of `w`, in the same place: at the same position of two lists or tuples, or under
the same key of two dicts -/
inductive SamePlace : PyObj → PyObj → PyObj → PyObj → Prop where
  | row {k k' l l' x y} (i : Nat) : k ≠ .set → k' ≠ .set → l[i]? = some x → l'[i]? = some y →
      SamePlace (.seq k l) (.seq k' l') x y
  | key {v w l l' n x y} : (v = .dict l ∨ v = .od l) → (w = .dict l' ∨ w = .od l') → (n, x) ∈ l → (n, y) ∈ l' →
      SamePlace v w x y

/-- `x` is a cell of `v`: an element of a list or tuple, or a value of a dict -/
inductive CellOf : PyObj → PyObj → Prop where
  | row {k l x} : k ≠ .set → x ∈ l → CellOf (.seq k l) x
  | key {v l n x} : (v = .dict l ∨ v = .od l) → (n, x) ∈ l → CellOf v x

/-- `t` is not the type of a dict -/
def NoRecord (t : Ty) : Prop := ∀ fs, t ≠ .record fs

/-- One of the types is null, or neither is a record, or both are records with the same field names in the same order and
fields of which this is true again, or only one is a record and that has a field. -/
inductive Alike : Ty → Ty → Prop where
  | nullLeft {t} : Alike .null t
  | nullRight {t} : Alike t .null
  | noRecords {s t} : NoRecord s → NoRecord t → Alike s t
  | records {fs gs : List (Str × Ty)} : fs.map (·.1) = gs.map (·.1) → (∀ p ∈ fs.zip gs, Alike p.1.2 p.2.2) →
      Alike (.record fs) (.record gs)
  | recordLeft {fs t} : fs ≠ [] → NoRecord t → Alike (.record fs) t
  | recordRight {fs t} : fs ≠ [] → NoRecord t → Alike t (.record fs)

end DS
