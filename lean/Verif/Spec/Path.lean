import Verif.Model.TestingPath
import Verif.Spec.Same
import Verif.Spec.Repr
import Verif.Spec.Constructors

/-
Following a path through a datashape, and when two values found there differ.
-/
namespace DS

/-- `getattr(t, s) is v` for the attributes that the classes keep their parameters in -/
inductive Attr : Ty → Str → Param → Prop where
  | name (n i a) : Attr (.ctype n i a) (py"name") (.str n)
  | itemsize (n) (i a : Nat) : Attr (.ctype n i a) (py"_itemsize") (.int i)
  | alignment (n) (i a : Nat) : Attr (.ctype n i a) (py"_alignment") (.int a)
  | timeTz (z : Str) : Attr (.time (some z)) (py"tz") (.str z)
  | timeNoTz : Attr (.time none) (py"tz") .none
  | datetimeTz (z : Str) : Attr (.datetime (some z)) (py"tz") (.str z)
  | datetimeNoTz : Attr (.datetime none) (py"tz") .none
  | deltaUnit (u) : Attr (.timedelta u) (py"unit") (.str u)
  | unit (u t) : Attr (.units u t) (py"unit") (.str u)
  | unitType (u t) : Attr (.units u t) (py"tp") (.ty t)
  | fixlen (n : Int) (e) : Attr (.string (some n) e) (py"fixlen") (.int n)
  | noFixlen (e) : Attr (.string none e) (py"fixlen") .none
  | encoding (n e) : Attr (.string n e) (py"encoding") (.str e)
  | precision (p s) : Attr (.decimal p s) (py"precision") (.int p)
  | scale (p s) : Attr (.decimal p s) (py"scale") (.int s)
  | val (n : Nat) : Attr (.fixed n) (py"val") (.int n)
  | symbol (s) : Attr (.typevar s) (py"symbol") (.str s)
  | dots : Attr (.ellipsis none) (py"typevar") .none
  | dotsVar (s : Str) : Attr (.ellipsis (some s)) (py"typevar") (.ty (.typevar s))
  | key (k v) : Attr (.map k v) (py"key") (.ty k)
  | value (k v) : Attr (.map k v) (py"value") (.ty v)
  | categories (c t o) : Attr (.categorical c t o) (py"categories") (.lits c)
  | type (c t o) : Attr (.categorical c t o) (py"type") (.ty t)
  | ordered (c t o) : Attr (.categorical c t o) (py"ordered") (.bool o)
  | order (o n) : Attr (.typeset o n) (py"_order") (.tys o)
  | setName (o) (n : Str) : Attr (.typeset o (some n)) (py"name") (.str n)
  | setNoName (o) : Attr (.typeset o none) (py"name") .none

/-- `Leads path t v`: the Python expression `t` followed by the pieces of the path is `v`. (The names of a record are
distinct.) -/
inductive Leads : List Step → Ty → Param → Prop where
  | here (t : Ty) : Leads [] t (.ty t)
  | slot {t : Ty} {s : Str} {v : Param} : Attr t s v → Leads [.slot s] t v
  | within {t u : Ty} {s : Str} {r v} : Attr t s (.ty u) → Leads r u v → Leads (.slot s :: r) t v
  | shape {dims : List Ty} {m d : Ty} {n : Nat} {r v} : dims[n]? = some d → Leads r d v →
      Leads (.shape n :: r) (.dshape (dims ++ [m])) v
  | measure {dims : List Ty} {m : Ty} {r v} : Leads r m v → Leads (.measure :: r) (.dshape (dims ++ [m])) v
  | ty {t : Ty} {r v} : Leads r t v → Leads (.ty :: r) (.option t) v
  | field {fs : List (Str × Ty)} {n : Str} {t : Ty} {r v} : (n, t) ∈ fs → Leads r t v →
      Leads (.field n :: r) (.record fs) v
  | dshapes {ts : List Ty} {t : Ty} {n : Nat} {r v} : ts[n]? = some t → Leads r t v → Leads (.dshapes n :: r) (.tuple ts) v
  | argtypes {args : List Ty} {res t : Ty} {n : Nat} {r v} : args[n]? = some t → Leads r t v →
      Leads (.argtypes n :: r) (.func (args ++ [res])) v
  | restype {args : List Ty} {res : Ty} {r v} : Leads r res v → Leads (.restype :: r) (.func (args ++ [res])) v

/-- the values are equal for Python -/
inductive SameValue : Param → Param → Prop where
  | none : SameValue .none .none
  | int (i : Int) : SameValue (.int i) (.int i)
  | str (s : Str) : SameValue (.str s) (.str s)
  | bool (b : Bool) : SameValue (.bool b) (.bool b)
  | ty {a b : Ty} : pyEq a b = true → SameValue (.ty a) (.ty b)
  | tys {l m : List Ty} : l.length = m.length → (∀ p ∈ l.zip m, pyEq p.1 p.2 = true) → SameValue (.tys l) (.tys m)
  | lits {l m : List Lit} : l.length = m.length → (∀ p ∈ l.zip m, SameLit p.1 p.2) → SameValue (.lits l) (.lits m)

/-- a `Time` against a `DateTime` -/
inductive TimeClash : Ty → Ty → Prop where
  | left (x y : Option Str) : TimeClash (.time x) (.datetime y)
  | right (x y : Option Str) : TimeClash (.datetime x) (.time y)

/-- the Python source text of a step -/
inductive StepText (env : Env) : Step → Str → Prop where
  | shape (n : Nat) : StepText env (.shape n) (py".shape[" ++ natStr n ++ py"]")
  | measure : StepText env .measure (py".measure")
  | slot (s : Str) : StepText env (.slot s) (py"." ++ s)
  | ty : StepText env .ty (py".ty")
  | field {n r : Str} : PyReprOf env n r → StepText env (.field n) (py"[" ++ r ++ py"]")
  | dshapes (n : Nat) : StepText env (.dshapes n) (py".dshapes[" ++ natStr n ++ py"]")
  | argtypes (n : Nat) : StepText env (.argtypes n) (py".argtypes[" ++ natStr n ++ py"]")
  | restype : StepText env .restype (py".restype")

/-- how the path is shown: an expression in which `_` is the datashape; nothing for the empty path -/
inductive PathText (env : Env) : List Step → Str → Prop where
  | nil : PathText env [] []
  | steps {q : List Step} {ts : List Str} : q ≠ [] → Each (StepText env) q ts → PathText env q (py"path: _" ++ ts.flatten)

end DS
