import Verif.Model.Printer

/-
The text of a datashape without line breaks, and how `pprint` breaks it.
-/
namespace DS

mutual
/-- The datashape written without line breaks. -/
def oneLine (env : Env) : (t : Ty) → Str
  | .units u t => if pyEq t (.dshape [tFloat64]) then py"units[" ++ pyRepr env u ++ py"]"
      else py"units[" ++ pyRepr env u ++ py", " ++ oneLine env t ++ py"]"
  | .option t => py"?" ++ oneLine env t
  | .map k v => py"map[" ++ oneLine env k ++ py", " ++ oneLine env v ++ py"]"
  | .func ps => py"(" ++ join (py", ") (oneLineL env ps).dropLast ++ py") -> " ++ (oneLineL env ps).getLast?.getD []
  | .record fs => py"{" ++ join (py", ") (oneLineF env fs) ++ py"}"
  | .tuple ts => py"(" ++ join (py", ") (oneLineL env ts) ++ py")"
  | .categorical c t o => py"categorical[" ++ formatCategories env c ++ py", type=" ++ oneLine env t ++ py", ordered=" ++
      boolStr o ++ py"]"
  | .dshape ps => join (py" * ") (oneLineL env ps)
  | t => pyStr env t
termination_by structural t => t
/-- of each -/
def oneLineL (env : Env) : (l : List Ty) → List Str
  | [] => []
  | t :: r => oneLine env t :: oneLineL env r
termination_by structural l => l
/-- the fields of a record -/
def oneLineF (env : Env) : (l : List (Str × Ty)) → List Str
  | [] => []
  | (n, t) :: r => (fieldName env n ++ py": " ++ oneLine env t) :: oneLineF env r
termination_by structural l => l
end

/-- a record or a tuple type: what `pprint` can break -/
inductive Breakable : Ty → Prop where
  | record (fs : List (Str × Ty)) : Breakable (.record fs)
  | tuple (ts : List Ty) : Breakable (.tuple ts)

/-- The parts of `t` that `pprint` does not take apart, but prints with `str`: dimensions, and everything that is not a
`DataShape`, a record or a tuple type. -/
inductive ByStr : Ty → Ty → Prop where
  | self {t} : ¬ Breakable t → (∀ ps, t ≠ .dshape ps) → ByStr t t
  | field {fs f s} : f ∈ fs → ByStr f.2 s → ByStr (.record fs) s
  | component {ts t s} : t ∈ ts → ByStr t s → ByStr (.tuple ts) s
  | dimension {dims m d} : d ∈ dims → ByStr (.dshape (dims ++ [m])) d
  | measure {dims m} : ¬ Breakable m → ByStr (.dshape (dims ++ [m])) m
  | inside {dims m s} : Breakable m → ByStr m s → ByStr (.dshape (dims ++ [m])) s

/-- dimensions, each followed by a star -/
def starred (dims : List Str) : Str := dims.flatMap fun d => d ++ py" * "

/-- a line break and an indentation by two spaces -/
def newLine : Str := [10, 32, 32]

/-- The lines of `s` moved to the right by two spaces, except for the first. -/
def moved (s : Str) : Str := s.flatMap fun c => if c = 10 then newLine else [c]

/-- Text broken into lines: the opening bracket, each item on lines of its own, the closing bracket on the last line; all
lines but the first are indented by two spaces. -/
def broken (l r : Str) (items : List Str) : Str :=
  l ++ newLine ++ join (py"," ++ newLine) (items.map moved) ++ newLine ++ r

end DS
