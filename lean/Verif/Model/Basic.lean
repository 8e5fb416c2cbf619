/-
Basic vocabulary of the model: Python strings, exceptions, and the external
environment (the parts of CPython whose tables are not modelled).
-/
namespace DS

/-- A Python 3 `str`: a sequence of code points (lone surrogates included).
Simplification: code points above 0x10FFFF are not excluded. -/
abbrev Str := List Nat

open Lean in
/-- `py"abc"` is the Python string literal `'abc'` as a list of code points. -/
macro "py" s:str : term => do
  let elems ← s.getString.toList.toArray.mapM fun c => `($(quote c.toNat))
  `(([$elems,*] : Str))

/-- Python exceptions raised by the modelled code. Messages are not modelled,
except that a `DataShapeSyntaxError` (datashape/error.py:12-32) carries the
text being parsed and the offset `lexpos`.
`recursion` is `RecursionError` (a call that never returns by itself).
`fuel` is an artefact of the model (see `Props/Termination.lean`: it never happens).
`unmodelled` marks constructor calls whose arguments are outside the model. -/
inductive PyErr where
  | syntax (text : Str) (pos : Nat) (msg : Str)
  | typeError
  | valueError
  | keyError
  | indexError
  | attributeError
  | notImplemented
  | unboundLocal
  | assertion
  | zeroDivision
  | overflow
  | recursion
  | fuel
  | unmodelled
  deriving DecidableEq, Repr

deriving instance DecidableEq for Except

/-- Python literals that the datashape language can spell inside brackets. -/
inductive Lit where
  | int (i : Int)
  | str (s : Str)
  | bool (b : Bool)
  deriving DecidableEq, Repr

/-- Python `==` on the literals: `bool` is a subclass of `int`, so `True == 1`. -/
def Lit.canon : Lit → Lit
  | .bool b => .int (if b then 1 else 0)
  | l => l

/-- Python `==` on literals. -/
def Lit.pyEq (a b : Lit) : Bool := a.canon == b.canon

/-- External environment: tables of CPython and calls that leave the modelled code.
Theorems quantify over every `Env`. -/
structure Env where
  /-- `str.isprintable` for one code point `≥ 0x7f` (used by `repr` of a `str`). -/
  printable : Nat → Bool
  /-- `str.isupper` of a one-character string, for code points `≥ 128`. -/
  upper : Nat → Bool

/-! ### Characters -/

/-- `[a-z]` -/
def isLower (c : Nat) : Bool := 97 ≤ c && c ≤ 122
/-- `[A-Z]` -/
def isUpperA (c : Nat) : Bool := 65 ≤ c && c ≤ 90
/-- `[0-9]` -/
def isDigit (c : Nat) : Bool := 48 ≤ c && c ≤ 57
/-- `[a-zA-Z0-9_]`, the continuation characters of names (datashape/lexer.py:25-27). -/
def isWord (c : Nat) : Bool := isLower c || isUpperA c || isDigit c || c == 95
/-- `[0-9a-fA-F]` -/
def isHex (c : Nat) : Bool := isDigit c || (97 ≤ c && c ≤ 102) || (65 ≤ c && c ≤ 70)

/-- `\s` of Python's `re` for `str` patterns, and `str.isspace`/`str.strip`:
the Unicode white space table of CPython 3. -/
def isSpace (c : Nat) : Bool :=
  (9 ≤ c && c ≤ 13) || (28 ≤ c && c ≤ 32) || c == 0x85 || c == 0xa0 || c == 0x1680 ||
  (0x2000 ≤ c && c ≤ 0x200a) || c == 0x2028 || c == 0x2029 || c == 0x202f || c == 0x205f ||
  c == 0x3000

/-! ### Decimal numerals -/

/-- Digits of `n`, most significant first, in front of `acc`. -/
def natStrAux : Nat → Nat → Str → Str
  | 0, _, acc => acc
  | fuel + 1, n, acc =>
    if n < 10 then (48 + n) :: acc else natStrAux fuel (n / 10) ((48 + n % 10) :: acc)

/-- `str(n)` of a non-negative Python int. -/
def natStr (n : Nat) : Str := natStrAux (n + 1) n []

/-- `str(i)` (and `'%i' % i`) of a Python int. -/
def intStr : Int → Str
  | .ofNat n => natStr n
  | .negSucc n => 45 :: natStr (n + 1)

/-- `sep.join(parts)` -/
def join (sep : Str) : List Str → Str
  | [] => []
  | [x] => x
  | x :: y :: rest => x ++ sep ++ join sep (y :: rest)

end DS
