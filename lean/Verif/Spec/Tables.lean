import Verif.Model.Discovery
import Verif.Spec.Same
import Verif.Spec.Constructors

/-
Specification vocabulary for C55: the type of a column of a table.
-/
namespace DS

/-- one datashape of the conversion table (discovery.py:239-249) can turn into another, in zero or more steps -/
inductive Turns : Node → Node → Prop where
  | refl (a) : Turns a a
  | step {a b c} : Turns a b → (c, b) ∈ edgePairs → Turns a c

/-- everything in `ts` that is not null is in the conversion table and can turn into `n`, and `n` can turn into everything
else of which that is true -/
structure LeastCommon (ts : List Ty) (n : Node) : Prop where
  upper : ∀ t ∈ ts, t ≠ .null → ∃ m : Node, t = m.ty ∧ Turns m n
  least : ∀ n', (∀ t ∈ ts, t ≠ .null → ∃ m : Node, t = m.ty ∧ Turns m n') → Turns n n'

/-- The type of a column whose cells have the types `ts`: their common type if all are the same; otherwise their least
common generalisation, which is optional if there are nulls among them. -/
inductive ColumnOf : List Ty → Ty → Prop where
  | same {t ts} : (∀ u ∈ ts, Same t u) → ColumnOf (t :: ts) t
  | mixed {ts n} : .null ∉ ts → (∃ a ∈ ts, ∃ b ∈ ts, ¬ Same a b) → LeastCommon ts n → ColumnOf ts n.ty
  | optional {ts n} : .null ∈ ts → (∃ t ∈ ts, t ≠ .null) → LeastCommon ts n → ColumnOf ts (.option n.ty)

/-- `v` is a list or tuple, and `ts` are the types of its items -/
def RowOf (strTy : Str → Except PyErr Ty) (topo : List Node) (v : PyObj) (ts : List Ty) : Prop :=
  ∃ kind l, kind ≠ .set ∧ v = .seq kind l ∧ Each (fun x t => discover strTy topo x = .ok t) l ts

/-- `v` is a dict with distinct keys, and `es` are its keys with the types of the values -/
def DictOf (strTy : Str → Except PyErr Ty) (topo : List Node) (v : PyObj) (es : List (Str × Ty)) : Prop :=
  ∃ l, (v = .dict l ∨ v = .od l) ∧ (l.map (·.1)).Nodup ∧ Each (fun x e => e.1 = x.1 ∧ discover strTy topo x.2 = .ok e.2) l es

/-- the type of the cell of a dict at a key: a missing key counts as null -/
def cellType (k : Str) (es : List (Str × Ty)) : Ty := (es.lookup k).getD .null

end DS
