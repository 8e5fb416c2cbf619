import Verif.Model.Discovery
import Verif.Model.Numpy

/-
`discover` of a string: discovery.py:132-197.

Python's `int`, `float`, `datetime.strptime`, the letters of Unicode and `dateutil.parser.parse` are external: they are
given by a `StrEnv`, and the theorems hold for every one.
-/
namespace DS

/-- What is used of Python and dateutil on strings. -/
structure StrEnv where
  /-- `int(s)` succeeds; otherwise it raises `ValueError` -/
  int : Str → Bool
  /-- `float(s)`: `none` is `ValueError`, `some none` is a number `x` with `x.is_integer()` false (this includes
  infinities and nan), `some (some n)` is the number `n` -/
  float : Str → Option (Option Int)
  /-- `datetime.strptime(s, format)` succeeds; otherwise it raises `ValueError` -/
  strptime : Str → Str → Bool
  /-- `c.isalpha()` of a single character -/
  isAlpha : Nat → Bool
  /-- `dateutil.parser.parse(s)`: whether the time of the result is midnight, or an exception -/
  dateparse : Str → Except PyErr Bool

/-- the text begins with white space -/
def startsSpace : Str → Bool
  | [] => false
  | c :: _ => isSpace c

/-- put a character in front of the first piece -/
def consHead (c : Nat) : List Str → List Str
  | [] => [[c]]
  | w :: ws => (c :: w) :: ws

/-- `re.split('\s+', s)`: the pieces between the maximal runs of white space -/
def splitWs : Str → List Str
  | [] => [[]]
  | c :: r =>
    if isSpace c then if startsSpace r then splitWs r else [] :: splitWs r
    else consHead c (splitWs r)

/-- the keys of `bools`: discovery.py:132-135 -/
def boolWords : List Str := [py"False", py"false", py"True", py"true"]

/-- `discover(int(s))` -/
def viaInt (E : StrEnv) (s : Str) : Except PyErr Ty := if E.int s then .ok tInt64 else .error .valueError

/-- `discover(float(s))` -/
def viaFloat (E : StrEnv) (s : Str) : Except PyErr Ty :=
  match E.float s with
  | some _ => .ok tFloat64
  | none => .error .valueError

/-- `discover(bools[s])` -/
def viaBool (s : Str) : Except PyErr Ty := if s ∈ boolWords then .ok tBool else .error .keyError

/-- `discover(deltaparse(s))`: discovery.py:148-165, and 382-384 for the result. `np.timedelta64(n, unit)` takes the
integers of 64 bits. -/
def viaDelta (E : StrEnv) (s : Str) : Except PyErr Ty :=
  match splitWs (strip s) with
  | [value, unit] =>
    match E.float value with
    | none => .error .valueError
    | some none => .error .valueError
    | some (some n) => do
      let u ← normalizeTimeUnit unit
      if -(2 ^ 63) ≤ n ∧ n < 2 ^ 63 then fromNumpy (.timedelta u) [] else .error .overflow
  | _ => .error .valueError

/-- `discover(timeparse(s))`: discovery.py:138-145 -/
def viaTime (E : StrEnv) (s : Str) : Except PyErr Ty :=
  if [py"%H:%M:%S", py"%H:%M:%S.%f"].any (E.strptime s) then .ok (.time none) else .error .valueError

/-- `for f in string_coercions: try: return discover(f(s)) except (ValueError, KeyError): pass`:
discovery.py:180-184; `none` when the loop ends without a return. -/
def firstOf : List (Str → Except PyErr Ty) → Str → Except PyErr (Option Ty)
  | [], _ => .ok none
  | f :: fs, s =>
    match f s with
    | .ok t => .ok (some t)
    | .error .valueError => firstOf fs s
    | .error .keyError => firstOf fs s
    | .error e => .error e

/-- `string_coercions`: discovery.py:168 -/
def stringCoercions (E : StrEnv) : List (Str → Except PyErr Ty) := [viaInt E, viaFloat E, viaBool, viaDelta E, viaTime E]

/-- `discover(s)` for a non-empty string: discovery.py:180-197 (with `is_zero_time`, 171-172) -/
def discoverStr (E : StrEnv) (s : Str) : Except PyErr Ty := do
  match ← firstOf (stringCoercions E) s with
  | some t => .ok t
  | none =>
    if (!s.isEmpty && s.all E.isAlpha) || (!s.isEmpty && s.all isSpace) then .ok tString
    else
      match E.dateparse s with
      | .ok midnight => .ok (if midnight then .date else .datetime none)
      | .error .valueError => .ok tString
      | .error .overflow => .ok tString
      | .error e => .error e

end DS
