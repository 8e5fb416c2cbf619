import Verif.Spec.Lexical
import Verif.Model.Params

/-
Specification vocabulary for `repr` of the types (property C58): Python string literals with escapes, the names of the
classes and of their slots.
-/
namespace DS

/-- a hexadecimal number -/
inductive HexNum : Str → Nat → Prop where
  | nil : HexNum [] 0
  | snoc {s : Str} {n c d : Nat} : HexNum s n → HexDigit c d → HexNum (s ++ [c]) (16 * n + d)

/-- `PyBody q body v`: the Python source text `body`, between quotes `q`, denotes the string `v`. -/
inductive PyBody (q : Nat) : Str → Str → Prop where
  | nil : PyBody q [] []
  /-- a character for itself -/
  | raw {c : Nat} {r v : Str} : c ≠ q → c ≠ 10 → c ≠ 13 → c ≠ 92 → c ≠ 0 → ¬ (0xd800 ≤ c ∧ c ≤ 0xdfff) →
      PyBody q r v → PyBody q (c :: r) (c :: v)
  /-- a backslash before a backslash, quote, `t`, `n` or `r` -/
  | esc {e x : Nat} {r v : Str} : (e, x) ∈ [(92, 92), (39, 39), (34, 34), (116, 9), (110, 10), (114, 13)] →
      PyBody q r v → PyBody q (92 :: e :: r) (x :: v)
  /-- a backslash before `x`, `u` or `U` and 2, 4 or 8 hexadecimal digits -/
  | hex {e k n : Nat} {ds r v : Str} : (e, k) ∈ [(120, 2), (117, 4), (85, 8)] → ds.length = k → HexNum ds n →
      n ≤ 0x10ffff → PyBody q r v → PyBody q (92 :: e :: (ds ++ r)) (n :: v)

/-- `PyQuoted src v`: `src` is a Python string literal, in single or double quotes, with value `v`. -/
def PyQuoted (src v : Str) : Prop := ∃ q body, (q = 34 ∨ q = 39) ∧ src = q :: (body ++ [q]) ∧ PyBody q body v

/-- a string of Unicode code points -/
def Unicode (s : Str) : Prop := ∀ c ∈ s, c ≤ 0x10ffff

/-- `str.isprintable` is false for surrogates -/
def Env.Usual (env : Env) : Prop := ∀ c, 0xd800 ≤ c → c ≤ 0xdfff → env.printable c = false

/-- `Escaped p qs v body`: how Python writes the string `v` when the characters with `p` can be printed and those of `qs` need a
backslash: `\t`, `\n`, `\r` for tab, line feed and carriage return, and otherwise lower-case hexadecimal digits, as few as 2, 4
or 8 of them as suffice. -/
inductive Escaped (p : Nat → Prop) (qs : List Nat) : Str → Str → Prop where
  | nil : Escaped p qs [] []
  | quoted {c : Nat} {v r : Str} : c ∈ qs → Escaped p qs v r → Escaped p qs (c :: v) (92 :: c :: r)
  | control {c e : Nat} {v r : Str} : c ∉ qs → (c, e) ∈ [(9, 116), (10, 110), (13, 114)] → Escaped p qs v r →
      Escaped p qs (c :: v) (92 :: e :: r)
  | plain {c : Nat} {v r : Str} : c ∉ qs → p c → Escaped p qs v r → Escaped p qs (c :: v) (c :: r)
  | hex {c e k : Nat} {ds v r : Str} : c ∉ qs → ¬ p c → c ∉ [9, 10, 13] →
      (e = 120 ∧ k = 2 ∧ c < 256 ∨ e = 117 ∧ k = 4 ∧ 256 ≤ c ∧ c < 65536 ∨ e = 85 ∧ k = 8 ∧ 65536 ≤ c) →
      ds.length = k → HexNum ds c → (∀ x ∈ ds, x ∈ py"0123456789abcdef") → Escaped p qs v r →
      Escaped p qs (c :: v) (92 :: e :: (ds ++ r))

/-- `str.isprintable` of a character -/
def Env.Printable (env : Env) (c : Nat) : Prop := (32 ≤ c ∧ c < 127) ∨ (127 < c ∧ env.printable c = true)

/-- `PyReprOf env v src`: `repr(v)` of a Python string. In single quotes, unless it contains single but no double quotes. -/
inductive PyReprOf (env : Env) : Str → Str → Prop where
  | double {v body : Str} : 39 ∈ v → 34 ∉ v → Escaped env.Printable [34, 92] v body → PyReprOf env v (34 :: (body ++ [34]))
  | single {v body : Str} : (39 ∉ v ∨ 34 ∈ v) → Escaped env.Printable [39, 92] v body → PyReprOf env v (39 :: (body ++ [39]))

/-- The names of the classes -/
def Klass.name : Klass → Str
  | .ctype => py"CType" | .null => py"Null" | .date => py"Date" | .time => py"Time" | .datetime => py"DateTime"
  | .timedelta => py"TimeDelta" | .units => py"Units" | .bytes => py"Bytes" | .string => py"String"
  | .decimal => py"Decimal" | .json => py"JSON" | .fixed => py"Fixed" | .var => py"Var" | .typevar => py"TypeVar"
  | .ellipsis => py"Ellipsis" | .option => py"Option" | .map => py"Map" | .func => py"Function"
  | .record => py"Record" | .tuple => py"Tuple" | .categorical => py"Categorical" | .typeset => py"TypeSet"
  | .dshape => py"DataShape"

/-- The names under which `repr` shows the parameters, for the classes whose `repr` is the general one; `none` for
classes with a `repr` of their own. -/
def Klass.shown : Klass → Option (List Str)
  | .null | .date | .bytes | .json | .var => some []
  | .time | .datetime => some [py"tz"]
  | .timedelta => some [py"unit"]
  | .units => some [py"unit", py"tp"]
  | .decimal => some [py"precision", py"scale"]
  | .fixed => some [py"val"]
  | .typevar => some [py"symbol"]
  | .option => some [py"ty"]
  | .map => some [py"key", py"value"]
  | _ => none

/-- Python source text of a parameter; `shown` is the text for a datashape -/
inductive Shows (shown : Ty → Str) : Param → Str → Prop where
  | none : Shows shown .none (py"None")
  | int (i : Int) : Shows shown (.int i) (intStr i)
  | str {s src : Str} : PyQuoted src s → Shows shown (.str s) src
  | ty (t : Ty) : Shows shown (.ty t) (shown t)

/-- Python source text of a category -/
inductive ShowsLit : Lit → Str → Prop where
  | int (i : Int) : ShowsLit (.int i) (intStr i)
  | str {s src : Str} : PyQuoted src s → ShowsLit (.str s) src
  | true : ShowsLit (.bool true) (py"True")
  | false : ShowsLit (.bool false) (py"False")

end DS
