import Verif.Model.Equality

/-
`str()` and `pprint()` of datashapes.
-/
namespace DS

/-! ### `repr` of a Python `str` (CPython 3, `unicode_repr`; external, modelled) -/

/-- lower-case hexadecimal digit -/
def hexDigit (n : Nat) : Nat := if n < 10 then 48 + n else 87 + n

/-- `n` in hexadecimal with exactly `k` digits (of the low bits) -/
def hexStr : Nat → Nat → Str
  | 0, _ => []
  | k + 1, n => hexStr k (n / 16) ++ [hexDigit (n % 16)]

/-- the quote character `repr` chooses: `'` unless the string contains `'` and no `"` -/
def reprQuote (s : Str) : Nat := if s.contains 39 && !s.contains 34 then 34 else 39

/-- `repr` of one character inside quotes `q` -/
def reprChar (env : Env) (q c : Nat) : Str :=
  if c = q ∨ c = 92 then [92, c]
  else if c = 9 then [92, 116]
  else if c = 10 then [92, 110]
  else if c = 13 then [92, 114]
  else if c < 32 ∨ c = 127 then [92, 120] ++ hexStr 2 c
  else if c < 127 then [c]
  else if env.printable c then [c]
  else if c ≤ 0xff then [92, 120] ++ hexStr 2 c
  else if c ≤ 0xffff then [92, 117] ++ hexStr 4 c
  else [92, 85] ++ hexStr 8 c

/-- `repr(s)` -/
def pyRepr (env : Env) (s : Str) : Str :=
  let q := reprQuote s
  [q] ++ s.flatMap (reprChar env q) ++ [q]

/-- `str(b)` of a Python bool -/
def boolStr (b : Bool) : Str := if b then py"True" else py"False"

/-- `repr` of a literal -/
def litRepr (env : Env) : Lit → Str
  | .int i => intStr i
  | .str s => pyRepr env s
  | .bool b => boolStr b

/-! ### Layout helpers -/

/-- `re.match(r'^[_a-zA-Z][_a-zA-Z0-9]*$', s)`: internal_utils.py:121-123. Without `re.MULTILINE`,
`$` also matches before a trailing newline. The test `keyword.iskeyword(s)` is subsumed: every Python
keyword matches the regular expression. -/
def isIdentifier : Str → Bool
  | [] => false
  | c :: r => (isLower c || isUpperA c || c == 95) && rest r
where
  rest : Str → Bool
  | [] => true
  | [c] => isWord c || c == 10
  | c :: d :: r => isWord c && rest (d :: r)

/-- `s.replace('\n', '\n  ')` (coretypes.py:1433, 1443) -/
def replaceNL (s : Str) : Str := s.flatMap fun c => if c = 10 then [10, 32, 32] else [c]

/-- The layout choice of `pprint` for records and tuples: coretypes.py:1422-1433, 1435-1443.
`l`, `r` are the brackets, `items` the printed components. -/
def layout (l r : Nat) (result : Str) (items : List Str) (width : Int) : Str :=
  let short := [l] ++ join (py", ") items ++ [r]
  if ((result ++ short).length : Int) < width then result ++ short
  else
    let long := [l, 10] ++ join [44, 10] items ++ [10, r]
    result ++ replaceNL long

/-- name of a field as printed: coretypes.py:1423-1424 (`print_unicode_string` is the identity on
Python 3, 1356-1360) -/
def fieldName (env : Env) (n : Str) : Str := if isIdentifier n then n else pyRepr env n

/-- `_format_categories(cats)` with `n=10`: coretypes.py:1096-1100 -/
def formatCategories (env : Env) (cats : List Lit) : Str :=
  py"[" ++ join (py", ") ((cats.take 10).map (litRepr env)) ++
    (if cats.length > 10 then py", ..." else []) ++ py"]"

/-- The result prefix of `pprint` for a `DataShape`: coretypes.py:1416-1420. -/
def dimPrefix (dims : List Str) : Str :=
  if dims.isEmpty then [] else join (py" * ") dims ++ py" * "

/-! ### `str` and `pprint` -/

mutual
/-- `render env t none` is `str(t)`; `render env t (some w)` is `pprint(t, w)` (coretypes.py:1363-1446).
The `__str__` methods: 182-183 `Unit`, 201-202 `Ellipsis`, 236-241 `Time`, 257-262 `DateTime`,
315-316 `TimeDelta`, 339-343 `Units`, 408-417 `String`, 474-477 `Decimal`, 574-575 `DataShape` (without
`name`), 740-741 `Option`, 817-818 `CType`, 854-855 `Fixed`, 879-880 `TypeVar`, 894-897 `Function`,
907-910 `Map`, 1089-1090 `Record`, 1115-1121 `Categorical`, 1151-1152 `Tuple`, 1168-1169 `JSON`. -/
def render (env : Env) : (t : Ty) → Option Int → Str
  | .ctype n _ _, _ => n
  | .null, _ => py"null"
  | .date, _ => py"date"
  | .time none, _ => py"time"
  | .time (some z), _ => py"time[tz=" ++ pyRepr env z ++ py"]"
  | .datetime none, _ => py"datetime"
  | .datetime (some z), _ => py"datetime[tz=" ++ pyRepr env z ++ py"]"
  | .timedelta u, _ => py"timedelta[unit=" ++ pyRepr env u ++ py"]"
  | .units u t, _ =>
    if pyEq t (.dshape [tFloat64]) then py"units[" ++ pyRepr env u ++ py"]"
    else py"units[" ++ pyRepr env u ++ py", " ++ render env t none ++ py"]"
  | .bytes, _ => py"bytes"
  | .string n e, _ => (match n with
    | none => if e = py"U8" then py"string" else py"string[" ++ pyRepr env e ++ py"]"
    | some k => if e = py"U8" then py"string[" ++ intStr k ++ py"]"
      else py"string[" ++ intStr k ++ py", " ++ pyRepr env e ++ py"]")
  | .decimal p s, _ => py"decimal[precision=" ++ intStr p ++ py", scale=" ++ intStr s ++ py"]"
  | .json, _ => py"json"
  | .fixed n, _ => natStr n
  | .var, _ => py"var"
  | .typevar s, _ => s
  | .ellipsis none, _ => py"..."
  | .ellipsis (some s), _ => s ++ py"..."
  | .option t, _ => py"?" ++ render env t none
  | .map k v, _ => py"map[" ++ render env k none ++ py", " ++ render env v none ++ py"]"
  | .func ps, _ => py"(" ++ join (py", ") (renderInit env ps) ++ py") -> " ++ renderLast env ps
  | .record fs, w => layout 123 125 [] (renderF env fs (w.getD 80)) (w.getD 80)
  | .tuple ts, none => py"(" ++ join (py", ") (renderL env ts none) ++ py")"
  | .tuple ts, some w => layout 40 41 [] (renderL env ts (some w)) w
  | .categorical c t o, _ => py"categorical[" ++ formatCategories env c ++ py", type=" ++
      render env t none ++ py", ordered=" ++ boolStr o ++ py"]"
  | .typeset .., _ => py"typeset"
  | .dshape ps, none => join (py" * ") (renderL env ps none)
  | .dshape ps, some w => renderDS env ps (dimPrefix (renderInit env ps)) w
termination_by structural t => t
/-- every element printed with the same option -/
def renderL (env : Env) : (l : List Ty) → Option Int → List Str
  | [], _ => []
  | t :: r, w => render env t w :: renderL env r w
termination_by structural l => l
/-- `str` of all elements but the last -/
def renderInit (env : Env) : (l : List Ty) → List Str
  | [] => []
  | [_] => []
  | t :: u :: r => render env t none :: renderInit env (u :: r)
termination_by structural l => l
/-- `str` of the last element -/
def renderLast (env : Env) : (l : List Ty) → Str
  | [] => []
  | [t] => render env t none
  | _ :: u :: r => renderLast env (u :: r)
termination_by structural l => l
/-- The part of `pprint` after the dimensions (coretypes.py:1420-1446): `ds = ds[-1]`, then by class. -/
def renderDS (env : Env) : (l : List Ty) → Str → Int → Str
  | [], result, _ => result
  | [.record fs], result, w => layout 123 125 result (renderF env fs (w - result.length)) w
  | [.tuple ts], result, w => layout 40 41 result (renderL env ts (some (w - result.length))) w
  | [t], result, _ => result ++ render env t none
  | _ :: u :: r, result, w => renderDS env (u :: r) result w
termination_by structural l => l
/-- the `name: type` pairs of a record: coretypes.py:1423-1426 -/
def renderF (env : Env) : (l : List (Str × Ty)) → Int → List Str
  | [], _ => []
  | (n, t) :: r, w =>
    (fieldName env n ++ py": " ++ render env t (some (w - n.length))) :: renderF env r w
termination_by structural l => l
end

/-- `str(t)` -/
def pyStr (env : Env) (t : Ty) : Str := render env t none

/-- `pprint(t, width)` -/
def pprint (env : Env) (t : Ty) (width : Int) : Str := render env t (some width)

/-- the text inside `repr(ds)`: coretypes.py:577-582 (`DataShape.__repr__` calls `pprint(self)`) -/
def reprText (env : Env) (t : Ty) : Str := pprint env t 80

end DS
