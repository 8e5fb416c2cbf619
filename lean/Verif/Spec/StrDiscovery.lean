import Verif.Model.StrDiscovery
import Verif.Spec.TimeUnits

/-
What the kinds of strings are, in terms of the text and of what Python says about it.
-/
namespace DS

/-- a word: not empty, no white space in it -/
def IsWord (w : Str) : Prop := w ≠ [] ∧ ∀ c ∈ w, isSpace c = false

/-- `s` consists of the two words `v` and `w`, white space between them, and perhaps around them -/
def TwoWords (s v w : Str) : Prop :=
  IsWord v ∧ IsWord w ∧ ∃ a b c, AllSpace a ∧ AllSpace b ∧ AllSpace c ∧ b ≠ [] ∧ s = a ++ v ++ b ++ w ++ c

/-- `n` is an integer of 64 bits -/
def Fits64 (n : Int) : Prop := -9223372036854775808 ≤ n ∧ n ≤ 9223372036854775807

/-- reads as an integer -/
def IntText (E : StrEnv) (s : Str) : Prop := E.int s = true

/-- reads as a number -/
def FloatText (E : StrEnv) (s : Str) : Prop := E.float s ≠ none

/-- one of the four spellings of a truth value -/
def BoolText (s : Str) : Prop := s = py"True" ∨ s = py"true" ∨ s = py"False" ∨ s = py"false"

/-- a whole number `n` followed by a word -/
def CountText (E : StrEnv) (s : Str) (n : Int) (w : Str) : Prop := ∃ v, TwoWords s v w ∧ E.float v = some (some n)

/-- a duration in the unit `u`: a whole number of 64 bits and a spelling of `u` -/
def DeltaText (E : StrEnv) (s u : Str) : Prop := ∃ n w, CountText E s n w ∧ SpellsUnit w u ∧ Fits64 n

/-- a time of day, with or without a fraction of a second -/
def TimeText (E : StrEnv) (s : Str) : Prop :=
  E.strptime s (py"%H:%M:%S") = true ∨ E.strptime s (py"%H:%M:%S.%f") = true

/-- a number, a truth value, a duration or a time of day -/
def Recognised (E : StrEnv) (s : Str) : Prop :=
  IntText E s ∨ FloatText E s ∨ BoolText s ∨ (∃ u, DeltaText E s u) ∨ TimeText E s

/-- only letters, or only white space -/
def NeverDate (E : StrEnv) (s : Str) : Prop := s ≠ [] ∧ ((∀ c ∈ s, E.isAlpha c = true) ∨ AllSpace s)

/-- The two kinds of duration on which `discover` raises: a number that does not fit 64 bits, and a unit spelled
with three or more `s` and nothing else. -/
inductive DeltaFault (E : StrEnv) (s : Str) : PyErr → Prop where
  | overflow {n : Int} {w u : Str} : CountText E s n w → SpellsUnit w u → ¬ Fits64 n → DeltaFault E s .overflow
  | index {n : Int} {k : Nat} : CountText E s n (List.replicate (k + 3) 115) → DeltaFault E s .indexError

/-- No number, truth value, duration or time of day, no faulty duration, and not just letters or white space: the text is
given to dateutil. -/
def AsksDateutil (E : StrEnv) (s : Str) : Prop :=
  ¬ Recognised E s ∧ (∀ e, ¬ DeltaFault E s e) ∧ ¬ NeverDate E s

/-- The datashape of a non-empty string. -/
inductive Understood (E : StrEnv) (s : Str) : Ty → Prop where
  | int : IntText E s → Understood E s tInt64
  | float : ¬ IntText E s → FloatText E s → Understood E s tFloat64
  | bool : ¬ IntText E s → ¬ FloatText E s → BoolText s → Understood E s tBool
  | delta {u : Str} : ¬ IntText E s → ¬ FloatText E s → ¬ BoolText s → DeltaText E s u → Understood E s (.timedelta u)
  | time : ¬ IntText E s → ¬ FloatText E s → ¬ BoolText s → (∀ u, ¬ DeltaText E s u) → (∀ e, ¬ DeltaFault E s e) →
      TimeText E s → Understood E s (.time none)
  | text : ¬ Recognised E s → (∀ e, ¬ DeltaFault E s e) → NeverDate E s → Understood E s tString
  | date : AsksDateutil E s → E.dateparse s = .ok true → Understood E s .date
  | datetime : AsksDateutil E s → E.dateparse s = .ok false → Understood E s (.datetime none)
  | other {e : PyErr} : AsksDateutil E s → E.dateparse s = .error e → e = .valueError ∨ e = .overflow →
      Understood E s tString

/-- The exceptions of `discover` on a non-empty string. -/
inductive NotUnderstood (E : StrEnv) (s : Str) : PyErr → Prop where
  | delta {e : PyErr} : ¬ IntText E s → ¬ FloatText E s → ¬ BoolText s → DeltaFault E s e → NotUnderstood E s e
  | dateutil {e : PyErr} : AsksDateutil E s → E.dateparse s = .error e → e ≠ .valueError → e ≠ .overflow →
      NotUnderstood E s e

end DS
