import Verif.Model.Printer
import Verif.Model.Lexer

/-
`repr()` of datashapes.
-/
namespace DS

/-- `s.encode('unicode_escape').decode('ascii')` of one character (CPython; external, modelled) -/
def escapeChar (c : Nat) : Str :=
  if c = 92 then [92, 92]
  else if c = 9 then [92, 116]
  else if c = 10 then [92, 110]
  else if c = 13 then [92, 114]
  else if 32 ≤ c ∧ c < 127 then [c]
  else if c ≤ 0xff then [92, 120] ++ hexStr 2 c
  else if c ≤ 0xffff then [92, 117] ++ hexStr 4 c
  else [92, 85] ++ hexStr 8 c

/-- `'dshape("%s")' % s`, with three quotes if the text has several lines: coretypes.py:577-582, 943-946 -/
def quoteDshape (s : Str) : Str :=
  if s.contains 10 then py"dshape(" ++ py"\"\"\"" ++ s ++ py"\"\"\"" ++ py")"
  else py"dshape(" ++ py"\"" ++ s ++ py"\"" ++ py")"

/-- `'ctype("%s")' % s.encode('unicode_escape').decode('ascii')`: coretypes.py:419-421, 820-822 -/
def quoteCtype (s : Str) : Str := py"ctype(\"" ++ s.flatMap escapeChar ++ py"\")"

/-- `repr` of a str or `None` -/
def optRepr (env : Env) : Option Str → Str
  | none => py"None"
  | some s => pyRepr env s

/-- `str` of a Python set, given the `repr` of its members -/
def setRepr (l : List Str) : Str :=
  match l.foldl (fun s x => if s.contains x then s else s ++ [x]) [] with
  | [] => py"set()"
  | s => py"{" ++ join (py", ") s ++ py"}"

mutual
/-- `repr(t)`: coretypes.py:114-123 (`Mono`: the class name and the slots, or the parameters), 204-205 `Ellipsis`,
419-421 `String`, 577-582 `DataShape`, 820-822 `CType`, 941-946 `Record` and `Tuple`, 1123-1129 `Categorical`.
`Null` has no `__slots__` and no parameters, `Function` no `__slots__`. typesets.py:48-52 `TypeSet`
(simplified: the members of an unnamed one, a Python set, are given in the order of the arguments, and members that print
alike once). -/
def pyReprTy (env : Env) : (t : Ty) → Str
  | .ctype n _ _ => quoteCtype n
  | .null => py"Null()"
  | .date => py"Date()"
  | .time z => py"Time(tz=" ++ optRepr env z ++ py")"
  | .datetime z => py"DateTime(tz=" ++ optRepr env z ++ py")"
  | .timedelta u => py"TimeDelta(unit=" ++ pyRepr env u ++ py")"
  | .units u t => py"Units(unit=" ++ pyRepr env u ++ py", tp=" ++ pyReprTy env t ++ py")"
  | .bytes => py"Bytes()"
  | .string n e => quoteCtype (pyStr env (.string n e))
  | .decimal p s => py"Decimal(precision=" ++ intStr p ++ py", scale=" ++ intStr s ++ py")"
  | .json => py"JSON()"
  | .fixed n => py"Fixed(val=" ++ natStr n ++ py")"
  | .var => py"Var()"
  | .typevar s => py"TypeVar(symbol=" ++ pyRepr env s ++ py")"
  | .ellipsis s => py"Ellipsis(" ++ pyRepr env (pyStr env (.ellipsis s)) ++ py")"
  | .option t => py"Option(ty=" ++ pyReprTy env t ++ py")"
  | .map k v => py"Map(key=" ++ pyReprTy env k ++ py", value=" ++ pyReprTy env v ++ py")"
  | .func ps => py"Function(" ++ join (py", ") (pyReprL env ps) ++ py")"
  | .record fs => quoteDshape (pyStr env (.record fs))
  | .tuple ts => quoteDshape (pyStr env (.tuple ts))
  | .categorical c t o => py"Categorical(categories=" ++ formatCategories env c ++ py", type=" ++ pyReprTy env t ++
      py", ordered=" ++ boolStr o ++ py")"
  | .typeset o n => match n with
    | some (c :: r) => py"{" ++ (c :: r) ++ py"}"
    | n => py"TypeSet(" ++ setRepr (pyReprL env o) ++ py", name=" ++ (n.getD (py"None")) ++ py")"
  | .dshape ps => quoteDshape (reprText env (.dshape ps))
termination_by structural t => t
/-- list version -/
def pyReprL (env : Env) : (l : List Ty) → List Str
  | [] => []
  | t :: r => pyReprTy env t :: pyReprL env r
termination_by structural l => l
end

/-- `str(DataShapeSyntaxError)`: error.py:3-10, 34-44, and `repr` of it: error.py:46-47. `{filename}` and `{msg}` are given as text. -/
def syntaxErrStr (e : SyntaxErr) (filename msg : Str) : Str :=
  py"\n\n  File " ++ filename ++ py", line " ++ natStr e.lineno ++ py"\n    " ++ e.line ++ py"\n    " ++
    (List.replicate e.colOffset 32 ++ py"^") ++ py"\n\nDataShapeSyntaxError: " ++ msg ++ py"\n"

end DS
