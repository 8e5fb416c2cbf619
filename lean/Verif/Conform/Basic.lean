import Verif.Model.Build
import Verif.Model.Repr
import Verif.Model.StrDiscovery
import Verif.Model.ArrayDiscovery
import Verif.Model.Predicates
import Verif.Model.User
import Verif.Model.TestingPath
import Verif.Model.Params

/-
Conformance of the model with the test suite of `/repo`: the assertions of datashape/tests/*.py (and of the doctests)
that are about modelled behaviour, evaluated on the model by the kernel. These are checks of the reading of the code,
not proofs of properties; no theorem depends on them.
-/
namespace DS.Conform

/-- `conforms b`: the closed boolean `b` evaluates to `true` (in the kernel) -/
macro "conforms " t:term : command => `(example : ($t : Bool) = true := by decide +kernel)

/-- Python's character tables, as far as the tests need them -/
def E : Env := ⟨fun c => 0xa0 < c, fun c => 0xc0 ≤ c && c ≤ 0xde && c != 0xd7⟩

/-- decimal digits, at least one -/
def digits (s : Str) : Bool := !s.isEmpty && s.all isDigit

/-- without a leading sign -/
def unsigned : Str → Str
  | 45 :: r => r
  | 43 :: r => r
  | s => s

/-- `int(s)` on the strings of the tests -/
def readsInt (s : Str) : Bool := digits (unsigned s)

/-- `float(s)` on the strings of the tests: digits, or digits with a fraction; the fraction is not zero -/
def readsFloat (s : Str) : Option (Option Int) :=
  let u := unsigned s
  if digits u then some (some (if s.head? = some 45 then -(digitsVal 0 u) else digitsVal 0 u))
  else match u.span (· != 46) with
    | (a, _ :: b) => if digits a && digits b then some none else none
    | _ => none

/-- `%H:%M:%S` and `%H:%M:%S.%f` -/
def readsTime (s fmt : Str) : Bool :=
  match s with
  | [a, b, 58, c, d, 58, e, f] => fmt == py"%H:%M:%S" && digits [a, b, c, d, e, f]
  | a :: b :: 58 :: c :: d :: 58 :: e :: f :: 46 :: r => fmt == py"%H:%M:%S.%f" && digits ([a, b, c, d, e, f] ++ r) && digits r
  | _ => false

/-- dateutil on the strings of the tests, as listed there -/
def dates : List (Str × Bool) :=
  [(py"1991-02-03 04:05:06", false), (py"11/12/1822 06:47:26.00", false), (py"1822-11-12T06:47:26", false),
   (py"Fri Dec 19 15:10:11 1997", false), (py"Friday, November 11, 2005 17:56:21", false),
   (py"1982-2-20 5:02:00", false), (py"20030331 05:59:59.9", false), (py"Jul  6 2030  5:55PM", false),
   (py"1994-10-20 T 11:15", false), (py"2013-03-04T14:38:05.123", false), (py"10-10-01T12:00:01", false),
   (py"10-10-01 12:00:01", false), (py"2014-01-01", true)]

/-- Python and dateutil on the strings of the tests -/
def SE : StrEnv where
  int := readsInt
  float := readsFloat
  strptime := readsTime
  isAlpha c := isLower c || isUpperA c
  dateparse s := if s == py"INF US Equity" then .error .overflow else match dates.lookup s with
    | some b => .ok b
    | none => .error .valueError

/-- a topological order of the conversion graph -/
def topo : List Node := [.null, .bool, .int32, .int64, .real, .timedelta, .date, .datetime, .string]

/-- `discover` -/
def disco (v : PyObj) : Except PyErr Ty := discover (discoverStr SE) topo v

/-- a literal as a Python value -/
def litObj : Lit → PyObj
  | .int _ => .int
  | .bool _ => .bool
  | .str s => .str s

/-- `discover` on the categories of a categorical type -/
def D (l : List Lit) : Except PyErr Ty := disco (.seq .tuple (l.map litObj))

/-- `dshape(s)` -/
def P (s : Str) : Except PyErr Ty := dshape E D s

/-- `parse(s, TypeSymbolTable())` -/
def pp (s : Str) : Except PyErr Ty := parse (defaultSym E P D) s

/-- returns a value equal to `t` -/
def ok (r : Except PyErr Ty) (t : Ty) : Bool := match r with | .ok u => pyEq u t && pyEq t u | .error _ => false

/-- both return, and the results are equal -/
def same (r s : Except PyErr Ty) : Bool := match r, s with | .ok u, .ok t => pyEq u t && pyEq t u | _, _ => false

/-- both return, and the results are different -/
def differ (r s : Except PyErr Ty) : Bool := match r, s with | .ok u, .ok t => !pyEq u t && !pyEq t u | _, _ => false

/-- raises `e` -/
def raises (r : Except PyErr α) (e : PyErr) : Bool := match r with | .ok _ => false | .error f => decide (f = e)

/-- raises `DataShapeSyntaxError` -/
def synErr (r : Except PyErr α) : Bool := match r with | .error (.syntax _ _ _) => true | _ => false

/-- `str(x) == s` -/
def prints (r : Except PyErr Ty) (s : Str) : Bool := match r with | .ok t => pyStr E t == s | .error _ => false

/-- `repr(x) == s` -/
def represented (r : Except PyErr Ty) (s : Str) : Bool := match r with | .ok t => pyReprTy E t == s | .error _ => false

/-- `p` holds of the result -/
def holds (r : Except PyErr α) (p : α → Bool) : Bool := match r with | .ok t => p t | .error _ => false

/-- the single component of a `DataShape` -/
def only : Ty → Ty
  | .dshape [t] => t
  | t => t

end DS.Conform
