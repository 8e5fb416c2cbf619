import Verif.Spec.WellFormed
import Verif.Model.SymTab

/-
Specification vocabulary: the datashapes whose printed form the datashape language can read back (properties C01,
C02, C41).
-/
namespace DS

/-- A character that `repr` of a `str` writes in a way the lexer reads back: not a backslash (written `\\`), not a
control character other than tab, newline and carriage return (written `\xNN`), and beyond ASCII either printed as
itself (and not a surrogate) or written `\uNNNN`; that excludes unprintable characters up to U+00FF (`\xNN`) and above
U+FFFF (`\UNNNNNNNN`). -/
def spelledChar (env : Env) (c : Nat) : Bool :=
  if c < 127 then c == 9 || c == 10 || c == 13 || (32 ≤ c && c != 92)
  else c != 127 && (if env.printable c then !(0xd800 ≤ c && c ≤ 0xdfff) else 0xff < c && c ≤ 0xffff)

/-- a string all of whose characters are spelled so -/
def spelledStr (env : Env) (s : Str) : Bool := s.all (spelledChar env)

/-- `[_a-zA-Z][_a-zA-Z0-9]*` -/
def identName : Str → Bool
  | [] => false
  | c :: r => (isLower c || isUpperA c || c == 95) && r.all isWord

/-- the name starts with `True` or `False`, which the lexer reads as a boolean -/
def startsBool (n : Str) : Bool := (py"True").isPrefixOf n || (py"False").isPrefixOf n

/-- A field name that is written in a way that is read back: an identifier that does not start with `True` or
`False`, or a string that is quoted and spelled; an identifier followed by a newline is not quoted. -/
def fieldNameOk (env : Env) (n : Str) : Bool :=
  if identName n then !startsBool n
  else spelledStr env n && !(n.getLast? == some 10 && identName n.dropLast)

/-- a name of a type variable that is read back -/
def typeVarName : Str → Bool
  | [] => false
  | c :: r => isUpperA c && r.all isWord && !startsBool (c :: r)

/-- name, size and alignment of the C types that have a name in the symbol table (all but `char`) -/
def spelledCtypes : List (Str × Nat × Nat) :=
  [(py"bool", 1, 1), (py"int8", 1, 1), (py"int16", 2, 2), (py"int32", 4, 4), (py"int64", 8, 8),
   (py"uint8", 1, 1), (py"uint16", 2, 2), (py"uint32", 4, 4), (py"uint64", 8, 8),
   (py"float16", 2, 2), (py"float32", 4, 4), (py"float64", 8, 8),
   (py"complex[float32]", 8, 4), (py"complex[float64]", 16, 8), (py"void", 0, 1), (py"object", 8, 8)]

/-- Categories that are written completely and in a form the language has: at most ten, of one kind, strings
spelled. -/
def categoriesOk (env : Env) (c : List Lit) : Bool :=
  c.length ≤ 10 &&
    (c.all (fun | .int _ => true | _ => false) || c.all (fun | .bool _ => true | _ => false) ||
     c.all (fun | .str s => spelledStr env s | _ => false))

/-- Something that can stand where a measure is expected: not a fixed length, `var` or an ellipsis. -/
def Ty.measureLike : Ty → Bool
  | .fixed _ | .var | .ellipsis _ => false
  | _ => true

/-- What each part of a printable datashape satisfies, besides being well formed. (A component of a function that is
not a `DataShape` must not be an option of an array: read back it becomes a `DataShape`, and that is not equal to it,
see `C08.option_of_array_witness`.) -/
def spelledLocal (env : Env) : Ty → Bool
  | .ctype n i a => spelledCtypes.contains (n, i, a)
  | .time (some z) => spelledStr env z
  | .datetime (some z) => spelledStr env z
  | .units u _ => spelledStr env u
  | .bytes => false
  | .typevar s => typeVarName s
  | .ellipsis (some s) => typeVarName s
  | .option t => !t.isOption && t.measureLike
  | .map k v => k.measureLike && v.measureLike
  | .func ps => ps.all fun p => p.measureLike && (p.isDShape || p.shape.isEmpty)
  | .record fs => fs.all fun f => fieldNameOk env f.1 && f.2.measureLike
  | .categorical c t _ => categoriesOk env c && !t.isDShape && t.measureLike
  | .dshape ps => ps.getLast?.all Ty.measureLike
  | _ => true

/-- A datashape in the printable fragment: well formed (what the constructors and the parser build, with dimensions in
front of a measure), made of parts that the language can spell, and accepted by `validate`. -/
structure Printable (env : Env) (t : Ty) : Prop where
  wf : WF env t
  spelled : t.everywhere (spelledLocal env) = true
  top : t.measureLike = true
  valid : validOk t = true

/-- `t` itself if it is a `DataShape`, else `DataShape(t)` -/
def Ty.wrap (t : Ty) : Ty := if t.isDShape then t else .dshape [t]

mutual
/-- `t` with the components of functions wrapped in `DataShape`s, as the parser builds them. `Function(int32, int64)`,
called directly, stores its arguments as they are. -/
def Ty.canon : (t : Ty) → Ty
  | .units u t => .units u t.canon
  | .option t => .option t.canon
  | .map k v => .map k.canon v.canon
  | .func ps => .func (canonW ps)
  | .record fs => .record (canonF fs)
  | .tuple ts => .tuple (canonL ts)
  | .categorical c t o => .categorical c t.canon o
  | .typeset o n => .typeset o n
  | .dshape ps => .dshape (canonL ps)
  | t => t
termination_by structural t => t
/-- list version -/
def canonL : (l : List Ty) → List Ty
  | [] => []
  | t :: r => t.canon :: canonL r
termination_by structural l => l
/-- list version, wrapping each element -/
def canonW : (l : List Ty) → List Ty
  | [] => []
  | t :: r => t.canon.wrap :: canonW r
termination_by structural l => l
/-- over the types of a record -/
def canonF : (l : List (Str × Ty)) → List (Str × Ty)
  | [] => []
  | (n, t) :: r => (n, t.canon) :: canonF r
termination_by structural l => l
end

end DS
