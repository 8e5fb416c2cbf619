import Verif.Model.PyNumbers
import Verif.Spec.Doubles
import Verif.Spec.StrDiscovery

/-
What the texts of whole numbers, of numbers and of times of day are in Python, as grammars.
-/
namespace DS

/-- How a text is read: outside ASCII white space counts as a space, a decimal digit as the digit of ASCII, and anything else as
a question mark. -/
inductive ReadAs (P : PyText) : Str → Str → Prop where
  | nil : ReadAs P [] []
  | ascii {c : Nat} {s r : Str} : c < 128 → ReadAs P s r → ReadAs P (c :: s) (c :: r)
  | space {c : Nat} {s r : Str} : 128 ≤ c → isSpace c = true → ReadAs P s r → ReadAs P (c :: s) (32 :: r)
  | digit {c : Nat} {d : Fin 10} {s r : Str} : 128 ≤ c → P.digit c = some d → ReadAs P s r → ReadAs P (c :: s) ((48 + d.val) :: r)
  | other {c : Nat} {s r : Str} : 128 ≤ c → isSpace c = false → P.digit c = none → ReadAs P s r → ReadAs P (c :: s) (63 :: r)

/-- A run of digits, single underscores allowed between two of them: the text and its digits. -/
inductive DigitRun : Str → Str → Prop where
  | one {c : Nat} : isDigit c = true → DigitRun [c] [c]
  | next {c : Nat} {s ds : Str} : isDigit c = true → DigitRun s ds → DigitRun (c :: s) (c :: ds)
  | under {c : Nat} {s ds : Str} : isDigit c = true → DigitRun s ds → DigitRun (c :: 95 :: s) (c :: ds)

/-- The number that digits denote. -/
def digitsNumber (ds : Str) : Nat := ds.foldl (fun v c => 10 * v + (c - 48)) 0

/-- blanks: tab, line feed, vertical tab, form feed, carriage return and space -/
def Blanks (s : Str) : Prop := ∀ c ∈ s, (9 ≤ c ∧ c ≤ 13) ∨ c = 32

/-- `t` is `body` with an optional sign in front; `neg` tells whether it is a minus. -/
inductive Signed : Str → Bool → Str → Prop where
  | plain {body : Str} : Signed body false body
  | plus {body : Str} : Signed (43 :: body) false body
  | minus {body : Str} : Signed (45 :: body) true body

/-- `s` reads as `body`, with a sign and with blanks around. -/
def Wraps (P : PyText) (s : Str) (neg : Bool) (body : Str) : Prop :=
  ∃ a t b, ReadAs P s (a ++ t ++ b) ∧ Blanks a ∧ Blanks b ∧ Signed t neg body

/-- A whole number: blanks, a sign, digits, blanks; not more digits than the interpreter allows. -/
def WholeText (P : PyText) (s : Str) : Prop :=
  ∃ neg body ds, Wraps P s neg body ∧ DigitRun body ds ∧ ∀ n, P.maxDigits = some n → ds.length ≤ n

/-- digits, or nothing -/
inductive Digits : Str → Str → Prop where
  | none : Digits [] []
  | run {s ds : Str} : DigitRun s ds → Digits s ds

/-- the exponent of a number: nothing, or `e`, an optional sign and digits -/
inductive ExponentText : Str → Int → Prop where
  | none : ExponentText [] 0
  | some {c : Nat} {t body ds : Str} {neg : Bool} : c = 101 ∨ c = 69 → Signed t neg body → DigitRun body ds →
      ExponentText (c :: t) (if neg then -(digitsNumber ds : Int) else digitsNumber ds)

/-- a number without sign; it denotes `m · 10^x` -/
inductive DecimalText : Str → Nat → Int → Prop where
  | whole {i ds e : Str} {x : Int} : DigitRun i ds → ExponentText e x → DecimalText (i ++ e) (digitsNumber ds) x
  | point {i ds f fs e : Str} {x : Int} : Digits i ds → Digits f fs → ds ++ fs ≠ [] → ExponentText e x →
      DecimalText (i ++ 46 :: (f ++ e)) (digitsNumber (ds ++ fs)) (x - fs.length)

/-- The double nearest to `m · 10^x` is the whole number `n`. -/
def WholeDouble (m : Nat) (x : Int) (n : Nat) : Prop :=
  NearestDouble (m * 10 ^ x.toNat) (10 ^ (-x).toNat) (n * 2 ^ 1074) ∧ n < 2 ^ 1024

/-- `s` is the word `w` of small letters, in which any letters may be capital. -/
def AnyCase (w s : Str) : Prop :=
  s.length = w.length ∧ ∀ (i c d : Nat), s[i]? = some c → w[i]? = some d → c = d ∨ c + 32 = d

/-- `float(s)` is a number: the integer `n` for `some n`; for `none` it is not an integer, an infinity or not a number. -/
inductive FloatReads (P : PyText) (s : Str) : Option Int → Prop where
  | special {neg : Bool} {body : Str} : Wraps P s neg body →
      AnyCase (py"inf") body ∨ AnyCase (py"infinity") body ∨ AnyCase (py"nan") body → FloatReads P s none
  | whole {neg : Bool} {body : Str} {m n : Nat} {x : Int} : Wraps P s neg body → DecimalText body m x → WholeDouble m x n →
      FloatReads P s (some (if neg then -(n : Int) else n))
  | fraction {neg : Bool} {body : Str} {m : Nat} {x : Int} : Wraps P s neg body → DecimalText body m x →
      (∀ n, ¬ WholeDouble m x n) → FloatReads P s none

/-- a decimal digit of any script -/
def DecimalChar (P : PyText) (c : Nat) : Prop := (48 ≤ c ∧ c ≤ 57) ∨ (128 ≤ c ∧ ∃ d, P.digit c = some d)

/-- an hour: a digit, or two with the first 0 or 1, or 20 to 23 -/
inductive HourText (P : PyText) : Str → Prop where
  | one {c : Nat} : DecimalChar P c → HourText P [c]
  | two {t c : Nat} : t = 48 ∨ t = 49 → DecimalChar P c → HourText P [t, c]
  | late {c : Nat} : 48 ≤ c → c ≤ 51 → HourText P [50, c]

/-- a minute or a second: a digit, or two with the first 0 to 5 -/
inductive SixtyText (P : PyText) : Str → Prop where
  | one {c : Nat} : DecimalChar P c → SixtyText P [c]
  | two {t c : Nat} : 48 ≤ t → t ≤ 53 → DecimalChar P c → SixtyText P [t, c]

/-- a fraction of a second: nothing, or a point and one to six digits -/
def FractionText (f : Str) : Prop := f = [] ∨ ∃ ds, f = 46 :: ds ∧ 1 ≤ ds.length ∧ ds.length ≤ 6 ∧ ∀ c ∈ ds, isDigit c = true

/-- a time of day: hour, minute, second, separated by colons, and a fraction of the second -/
def ClockText (P : PyText) (s : Str) : Prop :=
  ∃ h m c f, s = h ++ 58 :: (m ++ 58 :: (c ++ f)) ∧ HourText P h ∧ SixtyText P m ∧ SixtyText P c ∧ FractionText f

end DS
