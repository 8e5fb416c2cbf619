import Verif.Model.StrDiscovery
import Verif.Model.TrueDiv

/-
The coercions of Python that `discover` of a string tries first (`string_coercions`: discovery.py:138-168): `int(s)`, `float(s)` and
`datetime.strptime(s, …)`, as CPython 3 defines them. With them only `str.isalpha`, the decimal digits outside ASCII, the limit on
the digits of an int and dateutil are left open.
-/
namespace DS

/-- What is used of Unicode and of the configuration of the interpreter. -/
structure PyText where
  /-- the value of a decimal digit outside ASCII (`unicodedata.decimal`) -/
  digit : Nat → Option (Fin 10)
  /-- white space is not a digit -/
  digit_space : ∀ c, isSpace c = true → digit c = none
  /-- `sys.get_int_max_str_digits()`: `int` of more digits raises `ValueError`; `none` is 0, no limit -/
  maxDigits : Option Nat
  /-- `c.isalpha()` of a single character -/
  isAlpha : Nat → Bool
  /-- `dateutil.parser.parse(s)`, as in `StrEnv` -/
  dateparse : Str → Except PyErr Bool

/-- The character that `int` and `float` see (`_PyUnicode_TransformDecimalAndSpaceToASCII`): outside ASCII white space is a space,
a decimal digit the digit, everything else a question mark. -/
def PyText.ascii (P : PyText) (c : Nat) : Nat :=
  if c < 128 then c
  else if isSpace c then 32
  else match P.digit c with
    | some d => 48 + d.val
    | none => 63

/-- white space of C -/
def cSpace (c : Nat) : Bool := (9 ≤ c && c ≤ 13) || c == 32

/-- without white space at both ends -/
def cStrip (s : Str) : Str := ((s.dropWhile cSpace).reverse.dropWhile cSpace).reverse

/-- an optional sign: whether it is `-`, and the rest -/
def takeSign : Str → Bool × Str
  | 45 :: r => (true, r)
  | 43 :: r => (false, r)
  | s => (false, s)

/-- a digit stands first -/
def startsDigit : Str → Bool
  | d :: _ => isDigit d
  | [] => false

/-- Every underscore stands between two digits; `prev` tells whether a digit stands in front. -/
def underscoresOk (prev : Bool) : Str → Bool
  | [] => true
  | 95 :: r => prev && startsDigit r && underscoresOk false r
  | c :: r => underscoresOk (isDigit c) r

/-- without the underscores -/
def dropUnderscores (s : Str) : Str := s.filter (· != 95)

/-- not more digits than the interpreter allows -/
def PyText.fewDigits (P : PyText) (ds : Str) : Bool :=
  match P.maxDigits with
  | none => true
  | some n => ds.length ≤ n

/-- `int(s)` returns -/
def PyText.int (P : PyText) (s : Str) : Bool :=
  let body := (takeSign (cStrip (s.map P.ascii))).2
  let ds := dropUnderscores body
  underscoresOk false body && !ds.isEmpty && ds.all isDigit &&
    P.fewDigits ds

/-- an ASCII letter in lower case -/
def lowerA (c : Nat) : Nat := if isUpperA c then c + 32 else c

/-- an exponent: empty, or `e`, an optional sign and digits; `none` if it is something else -/
def readExponent : Str → Option Int
  | [] => some 0
  | c :: r =>
    if c = 101 ∨ c = 69 then
      let (neg, ds) := takeSign r
      if ds.isEmpty || !ds.all isDigit then none
      else some (if neg then -(digitsVal 0 ds : Int) else digitsVal 0 ds)
    else none

/-- A decimal number without sign and underscores: `(m, x)` stands for `m · 10^x`. -/
def readDecimal (s : Str) : Option (Nat × Int) :=
  let ip := s.takeWhile isDigit
  let r := s.dropWhile isDigit
  let (fp, r) := match r with
    | 46 :: r => (r.takeWhile isDigit, r.dropWhile isDigit)
    | _ => ([], r)
  if ip.isEmpty && fp.isEmpty then none
  else (readExponent r).map fun x => (digitsVal 0 (ip ++ fp), x - fp.length)

/-- The double nearest to `m · 10^x`, if it is finite and an integer: `value.is_integer()` and `int(value)` -/
def wholeDouble (m : Nat) (x : Int) : Option Nat :=
  match trueDiv (m * 10 ^ x.toNat) (10 ^ (-x).toNat) with
  | .ok (n, d) => if n % d = 0 then some (n / d) else none
  | .error _ => none

/-- `float(s)`, as in `StrEnv` -/
def PyText.float (P : PyText) (s : Str) : Option (Option Int) :=
  let t := cStrip (s.map P.ascii)
  if !underscoresOk false t then none
  else
    let (neg, body) := takeSign (dropUnderscores t)
    if [py"inf", py"infinity", py"nan"].contains (body.map lowerA) then some none
    else (readDecimal body).map fun (m, x) => (wholeDouble m x).map fun n => if neg then -(n : Int) else n

/-- `\d` -/
def PyText.isDecimal (P : PyText) (c : Nat) : Bool := isDigit c || (128 ≤ c && (P.digit c).isSome)

/-- A part of a regular expression: the texts that may follow it, in the order in which they are tried. -/
abbrev Rx := Str → List Str

/-- `2[0-3]|[0-1]\d|\d` -/
def PyText.rxHour (P : PyText) : Rx := fun s =>
  (match s with | t :: c :: r => if t = 50 ∧ 48 ≤ c ∧ c ≤ 51 then [r] else [] | _ => []) ++
  (match s with | t :: c :: r => if (48 ≤ t ∧ t ≤ 49) ∧ P.isDecimal c then [r] else [] | _ => []) ++
  (match s with | c :: r => if P.isDecimal c then [r] else [] | _ => [])

/-- `[0-5]\d|\d` -/
def PyText.rxMinute (P : PyText) : Rx := fun s =>
  (match s with | t :: c :: r => if (48 ≤ t ∧ t ≤ 53) ∧ P.isDecimal c then [r] else [] | _ => []) ++
  (match s with | c :: r => if P.isDecimal c then [r] else [] | _ => [])

/-- `6[0-1]|[0-5]\d|\d`; with the second, whether it is a 60th or 61st, for which `datetime` raises `ValueError` -/
def PyText.rxSecond (P : PyText) (s : Str) : List (Bool × Str) :=
  (match s with | t :: c :: r => if t = 54 ∧ 48 ≤ c ∧ c ≤ 49 then [(true, r)] else [] | _ => []) ++
  (P.rxMinute s).map fun r => (false, r)

/-- a fixed character -/
def rxChar (c : Nat) : Rx := fun s => match s with | d :: r => if d = c then [r] else [] | [] => []

/-- `[0-9]{1,6}`: as many digits as possible first; `k` more may follow -/
def rxDigits : Nat → Rx
  | 0, _ => []
  | k + 1, s => match s with
    | c :: r => if isDigit c then rxDigits k r ++ [r] else []
    | [] => []

/-- the regular expression that `strptime` makes of `%H:%M:%S` -/
def PyText.rxClock (P : PyText) (s : Str) : List (Bool × Str) :=
  (P.rxHour s).flatMap fun s => (rxChar 58 s).flatMap fun s => (P.rxMinute s).flatMap fun s => (rxChar 58 s).flatMap P.rxSecond

/-- `datetime.strptime(s, format)` returns, for the two formats of `timeparse` (discovery.py:138): the first match of the regular
expression reaches to the end, and the seconds are below 60. -/
def PyText.strptime (P : PyText) (s format : Str) : Bool :=
  let first := if format = py"%H:%M:%S" then (P.rxClock s).head?
    else if format = py"%H:%M:%S.%f" then
      ((P.rxClock s).flatMap fun p => (rxChar 46 p.2).flatMap fun s => (rxDigits 6 s).map fun r => (p.1, r)).head?
    else none
  match first with
  | some (leap, rest) => !leap && rest.isEmpty
  | none => false

/-- the coercions of Python -/
def PyText.env (P : PyText) : StrEnv where
  int := P.int
  float := P.float
  strptime := P.strptime
  isAlpha := P.isAlpha
  dateparse := P.dateparse

end DS
