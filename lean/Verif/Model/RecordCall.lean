import Verif.Model.Classes
import Verif.Model.Typesets

/-
`Record(fields)` and `Categorical(categories, type, ordered)` called from Python with arbitrary values.
-/
namespace DS

/-- An item of the argument of `Record`: a list or tuple of values, or a single value. -/
inductive RecItem where
  | seq (l : List PVal)
  | val (v : PVal)

/-- The argument of `Record`: a list or tuple of items, an `OrderedDict`, a plain dict (with their items in order), or a
single value. -/
inductive RecArg where
  | list (l : List RecItem)
  | ordered (l : List (PVal × PVal))
  | dict (l : List (PVal × PVal))
  | val (v : PVal)

/-- `if isinstance(fields, OrderedDict): fields = fields.items()`, `fields = list(fields)`: coretypes.py:1047-1049. Iterating
over a plain dict yields its keys, over a string its characters, over a datashape what `pyIter` says. -/
def recordItems : RecArg → Except PyErr (List RecItem)
  | .list l => .ok l
  | .ordered l => .ok (l.map fun p => .seq [p.1, p.2])
  | .dict l => .ok (l.map fun p => .val p.1)
  | .val (.str s) => .ok (s.map fun c => .val (.str [c]))
  | .val (.ty t) => do
    let l ← pyIter t
    .ok (l.map fun x => .val (.ty x))
  | .val .none | .val (.int _) => .error .typeError
  | .val .other => .error .unmodelled

/-- unpacking a list into two names: `for name, _ in fields`, coretypes.py:1052, 1054 -/
def twoOf {α : Type} : List α → Except PyErr (α × α)
  | [a, b] => .ok (a, b)
  | _ => .error .valueError

/-- unpacking an item into two names: coretypes.py:1052, 1054 -/
def unpackItem : RecItem → Except PyErr (PVal × PVal)
  | .seq l => twoOf l
  | .val (.str s) => twoOf (s.map fun c => .str [c])
  | .val (.ty t) => do
    let l ← pyIter t
    twoOf (l.map .ty)
  | .val .none | .val (.int _) => .error .typeError
  | .val .other => .error .unmodelled

/-- the name and the unchecked type of an item: coretypes.py:1050-1054. `str` of an unknown object is not modelled. -/
def namedItem (env : Env) (i : RecItem) : Except PyErr (Str × PVal) := do
  let p ← unpackItem i
  let n ← pvalStr env p.1
  .ok (n, p.2)

/-- `Record(fields)`: coretypes.py:1040-1061 -/
def recordClass (env : Env) (nest : Str → Except PyErr Ty) (a : RecArg) : Except PyErr Ty := do
  let items ← recordItems a
  let fields ← items.mapM (namedItem env)
  record nest fields

/-- `type or datashape.discover(self.categories)`, and its `measure`: coretypes.py:1112. An empty `TypeSet` is falsy
(typesets.py:60-61), as are the empty string and zero. What is neither falsy nor a datashape has no `measure`; an unknown
object is not modelled. -/
def categoryType (disc : List Lit → Except PyErr Ty) (c : List Lit) : Option PVal → Except PyErr Ty
  | none | some .none => (disc c).map Ty.measure
  | some (.str s) => if s = [] then (disc c).map Ty.measure else .error .attributeError
  | some (.int i) => if i = 0 then (disc c).map Ty.measure else .error .attributeError
  | some (.ty (.typeset o n)) => if o = [] then (disc c).map Ty.measure else .ok (.typeset o n)
  | some (.ty t) => .ok t.measure
  | some .other => .error .unmodelled

/-- `Categorical(categories, type=None, ordered=False)`: coretypes.py:1110-1113, for categories that are a list or tuple of
strings, ints and bools, and an `ordered` that is a bool -/
def categoricalClass (disc : List Lit → Except PyErr Ty) (c : List Lit) (tp : Option PVal) (ordered : Option Bool) :
    Except PyErr Ty := do
  let t ← categoryType disc c tp
  .ok (.categorical c t (ordered.getD false))

end DS
