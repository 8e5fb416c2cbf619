import Verif.Spec.Version
import Verif.Model.VersionKeywords

/-
Specification for the keywords read from a file (C66): lines, quoted values, the last line that sets a keyword.
-/
namespace DS

/-- The lines of a text, each with its line end; the last one may lack it. -/
inductive TextLines : Str → List Str → Prop where
  | nil : TextLines [] []
  | last {l} : l ≠ [] → 10 ∉ l → TextLines l [l]
  | line {l rest ls} : 10 ∉ l → TextLines rest ls → TextLines (l ++ 10 :: rest) ((l ++ [10]) :: ls)

/-- The text behind `a` begins with an equals sign, white space and a quote, and goes on with `rest`. -/
def OpensAt (line a rest : Str) : Prop := ∃ ws, AllSpace ws ∧ line = a ++ [61] ++ ws ++ [34] ++ rest

/-- The value in a line: from the first quote that follows an equals sign up to the last quote of the line. -/
def QuotedIn (line value : Str) : Prop :=
  ∃ a b, OpensAt line a (value ++ [34] ++ b) ∧ 34 ∉ b ∧ ∀ a' rest, OpensAt line a' rest → a.length ≤ a'.length

/-- The line begins, but for white space, with the name and ` =`. -/
def BeginsWith (name line : Str) : Prop := ∃ ws rest, AllSpace ws ∧ line = ws ++ (name ++ py" =") ++ rest

/-- The line sets the keyword. -/
def SetsKeyword (name line value : Str) : Prop := BeginsWith name line ∧ QuotedIn line value

/-- The last line that sets the keyword sets it to `value`. -/
def LastSets (name : Str) (lines : List Str) (value : Str) : Prop :=
  ∃ before line after, lines = before ++ line :: after ∧ SetsKeyword name line value ∧
    ∀ l ∈ after, ∀ x, ¬ SetsKeyword name l x

/-- The value of the keyword in a file with these lines. -/
def KeywordIn (name : Str) (lines : List Str) : Option Str → Prop
  | some value => LastSets name lines value
  | none => ∀ l ∈ lines, ∀ x, ¬ SetsKeyword name l x

/-- The line with which `get_keywords` sets a keyword: _version.py:23-24 -/
def keywordLine (indent name value : Str) : Str := indent ++ (name ++ py" = \"" ++ value ++ py"\"\n")

end DS
