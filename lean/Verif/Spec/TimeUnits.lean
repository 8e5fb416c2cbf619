import Verif.Model.Ctor

/-
Specification of the time-unit spellings, independent of the recursion of `normalize_time_unit`.
-/
namespace DS

/-- only white space -/
def AllSpace (s : Str) : Prop := ∀ c ∈ s, isSpace c = true

/-- `s` neither begins nor ends with white space -/
def Trimmed (s : Str) : Prop :=
  (∀ c, s.head? = some c → isSpace c = false) ∧ (∀ c, s.getLast? = some c → isSpace c = false)

/-- The ten canonical units (the list in `_units`). -/
def canonicalUnits : List Str :=
  [py"ns", py"us", py"ms", py"s", py"m", py"h", py"D", py"W", py"M", py"Y"]

/-- The long names and the unit each abbreviates to. -/
def unitWords : List (Str × Str) :=
  [(py"year", py"Y"), (py"week", py"W"), (py"day", py"D"), (py"date", py"D"), (py"hour", py"h"),
   (py"second", py"s"), (py"millisecond", py"ms"), (py"microsecond", py"us"), (py"nanosecond", py"ns")]

/-- `SpellsUnit s u`: the text `s` is a spelling of the canonical unit `u`. -/
inductive SpellsUnit : Str → Str → Prop where
  /-- a canonical unit spells itself -/
  | unit {u} : u ∈ canonicalUnits → SpellsUnit u u
  /-- a long name -/
  | word {w u} : (w, u) ∈ unitWords → SpellsUnit w u
  /-- surrounding white space is ignored -/
  | space {a s b u} : AllSpace a → AllSpace b → Trimmed s → SpellsUnit s u → SpellsUnit (a ++ s ++ b) u
  /-- trailing `s`s are ignored when the whole word is longer than two and is not itself a unit or long name -/
  | plural {s k u} : s.getLast? ≠ some 115 → Trimmed (s ++ List.replicate (k + 1) 115) →
      s.length + (k + 1) > 2 → s ++ List.replicate (k + 1) 115 ∉ canonicalUnits →
      (∀ v, (s ++ List.replicate (k + 1) 115, v) ∉ unitWords) →
      SpellsUnit s u → SpellsUnit (s ++ List.replicate (k + 1) 115) u

/-- Nothing is left of `s` when white space around it, and trailing `s`s of a word longer than two, are taken away again and
again. -/
inductive RunsOut : Str → Prop where
  | blank {s} : AllSpace s → RunsOut s
  | plural {a s k b} : AllSpace a → AllSpace b → s.getLast? ≠ some 115 → Trimmed (s ++ List.replicate (k + 1) 115) →
      s.length + (k + 1) > 2 → RunsOut s → RunsOut (a ++ (s ++ List.replicate (k + 1) 115) ++ b)

end DS
