import Verif.Spec.Subterms
import Verif.Model.Basic

/-
Specification vocabulary: Python source text for strings, and the strings inside a datashape (property C49).
-/
namespace DS

/-- a character that stands for itself inside a Python string literal with quotes `"` (a newline only between three
quotes) -/
def ForItself (c : Nat) : Prop := c ≠ 34 ∧ c ≠ 92 ∧ c ≠ 13 ∧ c ≠ 0 ∧ ¬ (0xd800 ≤ c ∧ c ≤ 0xdfff)

/-- `PyLiteral src s`: the Python source text `src` is a string literal with value `s`. Only literals without quotes
and escapes inside are described. -/
inductive PyLiteral : Str → Str → Prop where
  | short {s : Str} : (∀ c ∈ s, ForItself c) → 10 ∉ s → PyLiteral (34 :: (s ++ [34])) s
  | long {s : Str} : (∀ c ∈ s, ForItself c) → PyLiteral (34 :: 34 :: 34 :: (s ++ [34, 34, 34])) s

/-- a printable character other than quotes and the backslash -/
def plainChar (env : Env) (c : Nat) : Bool :=
  if c < 127 then 32 ≤ c && c != 34 && c != 39 && c != 92
  else c != 127 && env.printable c && !(0xd800 ≤ c && c ≤ 0xdfff)

/-- a string of such characters -/
def plainStr (env : Env) (s : Str) : Bool := s.all (plainChar env)

/-- the strings that are stored in a datashape itself, not in its parts -/
def Ty.strings : Ty → List Str
  | .ctype n _ _ => [n]
  | .time (some z) => [z]
  | .datetime (some z) => [z]
  | .timedelta u => [u]
  | .units u _ => [u]
  | .string _ e => [e]
  | .typevar s => [s]
  | .ellipsis (some s) => [s]
  | .record fs => fs.map (·.1)
  | .categorical c _ _ => c.filterMap fun | .str s => some s | _ => none
  | _ => []

/-- all strings in the datashape, at any depth, are plain -/
def PlainStrings (env : Env) (t : Ty) : Prop := t.everywhere (fun u => u.strings.all (plainStr env)) = true

end DS
