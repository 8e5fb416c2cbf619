import Verif.Spec.Position
import Verif.Spec.Denotes
import Verif.Spec.TimeUnits
import Verif.Spec.Encodings

/-
Specification for C44 and C45: the meaning of the type names, and of calls of type constructors, written down
independently of the tables and functions of the model.
-/
namespace DS

/-! ### Names -/

/-- The words that are types by themselves (docs/source/types.rst). The aliases are for a 64-bit build. -/
inductive NamedType : Str → Ty → Prop where
  | bool : NamedType (py"bool") (.ctype (py"bool") 1 1)
  /-- `int8` … `int64`: 1, 2, 4, 8 bytes, aligned to their size -/
  | int {k} : k ∈ [1, 2, 4, 8] → NamedType (py"int" ++ natStr (8 * k)) (.ctype (py"int" ++ natStr (8 * k)) k k)
  | uint {k} : k ∈ [1, 2, 4, 8] → NamedType (py"uint" ++ natStr (8 * k)) (.ctype (py"uint" ++ natStr (8 * k)) k k)
  | float {k} : k ∈ [2, 4, 8] → NamedType (py"float" ++ natStr (8 * k)) (.ctype (py"float" ++ natStr (8 * k)) k k)
  /-- `complex64`, `complex128`: two floats of half the size, aligned like one of them -/
  | complexes {k} : k ∈ [4, 8] → NamedType (py"complex" ++ natStr (16 * k))
      (.ctype (py"complex[float" ++ natStr (8 * k) ++ py"]") (2 * k) k)
  /-- aliases: `int` is `int32`, `real` is `float64`, `complex` is `complex128`, pointers are 64 bits wide -/
  | intAlias : NamedType (py"int") (.ctype (py"int32") 4 4)
  | intptr : NamedType (py"intptr") (.ctype (py"int64") 8 8)
  | uintptr : NamedType (py"uintptr") (.ctype (py"uint64") 8 8)
  | real : NamedType (py"real") (.ctype (py"float64") 8 8)
  | complex : NamedType (py"complex") (.ctype (py"complex[float64]") 16 8)
  | void : NamedType (py"void") (.ctype (py"void") 0 1)
  | object : NamedType (py"object") (.ctype (py"object") 8 8)
  | string : NamedType (py"string") (.string none (py"U8"))
  | json : NamedType (py"json") .json
  | date : NamedType (py"date") .date
  | time : NamedType (py"time") (.time none)
  | datetime : NamedType (py"datetime") (.datetime none)
  | timedelta : NamedType (py"timedelta") (.timedelta (py"us"))
  | null : NamedType (py"null") .null

/-- Text in front of a `*` that is a dimension, and the dimension. -/
inductive DimText : Str → Ty → Prop where
  | fixed (n : Nat) : DimText (natStr n) (.fixed n)
  | var : DimText (py"var") .var
  | ellipsis : DimText (py"...") (.ellipsis none)
  | typevar {s} : Word isUpperA s → ¬ (py"True") <+: s → ¬ (py"False") <+: s → DimText s (.typevar s)
  | named {s} : Word isUpperA s → ¬ (py"True") <+: s → ¬ (py"False") <+: s → DimText (s ++ py"...") (.ellipsis (some s))

/-! ### Calls -/

/-- `s` is a text that is read as the argument `a`: a datashape, an integer, a string, a boolean, or a
list of such, and it does not end in an open comment. -/
def ArgText (env : Env) (disc : List Lit → Except PyErr Ty) (s : Str) (a : Arg) : Prop :=
  ∃ ks, TextOf s ks ∧ G (theSym env disc) true .arg ks a

/-- a keyword argument: its name, the text of its value, its value -/
structure KwText where
  name : Str
  text : Str
  val : Arg

/-- `name[a1,…,an,k1=b1,…,km=bm]` -/
def callText (name : Str) (pos : List (Str × Arg)) (kw : List KwText) : Str :=
  name ++ (py"[" ++ (join (py",") (pos.map (·.1) ++ kw.map fun k => k.name ++ (py"=" ++ k.text)) ++ py"]"))

/-- Python's calling convention: `vals` are the values of the parameters `names` (`none` if not given) in a call with
these positional and keyword arguments. Of a repeated keyword the last one counts. -/
structure Binds (names : List Str) (args : List Arg) (kw : List (Str × Arg)) (vals : List (Option Arg)) : Prop where
  length : vals.length = names.length
  /-- positional arguments fill the first parameters -/
  positional : ∀ (i : Nat) (a : Arg), args[i]? = some a → vals[i]? = some (some a)
  /-- every keyword is one of the other parameters -/
  known : ∀ p ∈ kw, ∃ i : Nat, args.length ≤ i ∧ names[i]? = some p.1
  /-- which get the value of the last keyword argument of that name, or none -/
  keyword : ∀ (i : Nat) (n : Str), args.length ≤ i → names[i]? = some n →
    (∃ pre a post, kw = pre ++ (n, a) :: post ∧ (∀ p ∈ post, p.1 ≠ n) ∧ vals[i]? = some (some a)) ∨
    ((∀ p ∈ kw, p.1 ≠ n) ∧ vals[i]? = some none)

/-- pointwise relation of two lists of the same length -/
inductive Each {α β : Type} (R : α → β → Prop) : List α → List β → Prop where
  | nil : Each R [] []
  | cons {a b l m} : R a b → Each R l m → Each R (a :: l) (b :: m)

/-- the elements of an argument over which a constructor iterates -/
inductive Elems : Arg → List Arg → Prop where
  | lits {l} : Elems (.lits l) (l.map .lit)
  | dss {l} : Elems (.dss l) (l.map .ds)
  /-- a string is the sequence of its characters -/
  | chars {s} : Elems (.lit (.str s)) (s.map fun c => .lit (.str [c]))
  /-- a datashape is the sequence of its dimensions and its measure -/
  | params {ps} : Elems (.ds (.dshape ps)) (ps.map .ds)

/-- a datashape without dimensions stands for its measure -/
def unwrap : Ty → Ty
  | .dshape [t] => t
  | t => t

/-- the type an argument stands for where a type is expected -/
inductive AsType (env : Env) (disc : List Lit → Except PyErr Ty) : Arg → Ty → Prop where
  | ds {t} : AsType env disc (.ds t) (unwrap t)
  /-- a string is parsed -/
  | str {s t} : dshape env disc s = .ok t → AsType env disc (.lit (.str s)) (unwrap t)
  | int {n : Nat} : AsType env disc (.lit (.int n)) (.fixed n)
  | true : AsType env disc (.lit (.bool true)) (.fixed 1)
  | false : AsType env disc (.lit (.bool false)) (.fixed 0)

/-- the string an argument stands for where Python calls `str` on it -/
inductive AsName (env : Env) : Arg → Str → Prop where
  | str {s} : AsName env (.lit (.str s)) s
  | int {i} : AsName env (.lit (.int i)) (intStr i)
  | true : AsName env (.lit (.bool true)) (py"True")
  | false : AsName env (.lit (.bool false)) (py"False")
  | ds {t} : AsName env (.ds t) (pyStr env t)

/-- an argument that Python takes for false -/
inductive Falsy : Arg → Prop where
  | zero : Falsy (.lit (.int 0))
  | false : Falsy (.lit (.bool false))
  | empty : Falsy (.lit (.str []))
  | lits : Falsy (.lits [])
  | dss : Falsy (.dss [])

/-- an integer or a boolean, as a number -/
inductive AsInt : Arg → Int → Prop where
  | int {i} : AsInt (.lit (.int i)) i
  | true : AsInt (.lit (.bool true)) 1
  | false : AsInt (.lit (.bool false)) 0

/-- `SpellsEncoding`, and anything false means `U8` -/
inductive AsEncoding : Arg → Str → Prop where
  | name {e c} : SpellsEncoding e c → AsEncoding (.lit (.str e)) c
  | default {a} : Falsy a → AsEncoding a (py"U8")

/-- a component of a tuple: a datashape, wrapped into a `DataShape` if it is a measure -/
inductive AsComponent : Arg → Ty → Prop where
  | whole {ps} : AsComponent (.ds (.dshape ps)) (.dshape ps)
  | measure {t} : t.isDShape = false → MayEnd t → AsComponent (.ds t) (.dshape [t])

/-- `Means env disc name args kw t`: the call `name[args, kw]` denotes the type `t`. -/
inductive Means (env : Env) (disc : List Lit → Except PyErr Ty) :
    Str → List Arg → List (Str × Arg) → Ty → Prop where
  | complex32 {args kw} : Binds [py"tp"] args kw [some (.ds (.dshape [.ctype (py"float32") 4 4]))] →
      Means env disc (py"complex") args kw (.ctype (py"complex[float32]") 8 4)
  | complex64 {args kw} : Binds [py"tp"] args kw [some (.ds (.dshape [.ctype (py"float64") 8 8]))] →
      Means env disc (py"complex") args kw (.ctype (py"complex[float64]") 16 8)
  -- `string` takes positional arguments only
  | stringEnc {e c} : AsEncoding (.lit (.str e)) c → Means env disc (py"string") [.lit (.str e)] [] (.string none c)
  | stringLen {a n} : AsInt a n → Means env disc (py"string") [a] [] (.string (some n) (py"U8"))
  | stringBoth {a n b c} : AsInt a n → AsEncoding b c → Means env disc (py"string") [a, b] [] (.string (some n) c)
  -- field names and types, paired up to the shorter list
  | struct {args kw a b ns ts fs} : Binds [py"names", py"dshapes"] args kw [some a, some b] → Elems a ns → Elems b ts →
      Each (fun p f => AsName env p.1 f.1 ∧ AsType env disc p.2 f.2) (ns.zip ts) fs → (fs.map (·.1)).Nodup →
      Means env disc (py"struct") args kw (.record fs)
  | tuple {args kw a l ts} : Binds [py"dshapes"] args kw [some a] → Elems a l → Each AsComponent l ts →
      Means env disc (py"tuple") args kw (.tuple ts)
  | funcproto {args kw a l ts r} : Binds [py"args", py"ret"] args kw [some a, some (.ds r)] → Elems a l →
      l = ts.map .ds → Means env disc (py"funcproto") args kw (.func (ts ++ [r]))
  | option {args kw a t} : Binds [py"ds"] args kw [some a] → AsType env disc a t →
      Means env disc (py"option") args kw (.option t)
  | map {args kw a b k v} : Binds [py"key", py"value"] args kw [some a, some b] → AsType env disc a k →
      AsType env disc b v → Means env disc (py"map") args kw (.map k v)
  | time {args kw z} : Binds [py"tz"] args kw [some (.lit (.str z))] → Means env disc (py"time") args kw (.time (some z))
  | datetime {args kw z} : Binds [py"tz"] args kw [some (.lit (.str z))] →
      Means env disc (py"datetime") args kw (.datetime (some z))
  | timedelta {args kw a s u} : Binds [py"unit"] args kw [some a] → AsName env a s → SpellsUnit s u →
      Means env disc (py"timedelta") args kw (.timedelta u)
  | units {args kw u} : Binds [py"unit", py"tp"] args kw [some (.lit (.str u)), none] →
      Means env disc (py"units") args kw (.units u (.dshape [.ctype (py"float64") 8 8]))
  | unitsOf {args kw u t} : Binds [py"unit", py"tp"] args kw [some (.lit (.str u)), some (.ds t)] →
      Means env disc (py"units") args kw (.units u t)
  | decimal {args kw p} : Binds [py"precision", py"scale"] args kw [some (.lit (.int p)), none] →
      Means env disc (py"decimal") args kw (.decimal p 0)
  | decimalScale {args kw p s} : Binds [py"precision", py"scale"] args kw [some (.lit (.int p)), some (.lit (.int s))] →
      Means env disc (py"decimal") args kw (.decimal p s)
  -- the type is that of the argument, or what is discovered for the categories
  | categorical {args kw a cs b m o ordered} : Binds [py"categories", py"type", py"ordered"] args kw [some a, b, o] →
      Elems a (cs.map .lit) →
      ((∃ t, b = some (.ds t) ∧ m = t.measure) ∨
        ((b = none ∨ ∃ x, b = some x ∧ Falsy x) ∧ ∃ t, disc cs = .ok t ∧ m = t.measure)) →
      (o = none ∧ ordered = false ∨ o = some (.lit (.bool ordered))) →
      Means env disc (py"categorical") args kw (.categorical cs m ordered)

/-- The parameters of the constructors that take keywords, and how many of them have no default. -/
def signatures : List (Str × List Str × Nat) :=
  [(py"complex", [py"tp"], 1), (py"struct", [py"names", py"dshapes"], 2), (py"tuple", [py"dshapes"], 1),
   (py"funcproto", [py"args", py"ret"], 2), (py"option", [py"ds"], 1), (py"map", [py"key", py"value"], 2),
   (py"time", [py"tz"], 0), (py"datetime", [py"tz"], 0), (py"timedelta", [py"unit"], 0),
   (py"units", [py"unit", py"tp"], 1), (py"decimal", [py"precision", py"scale"], 1),
   (py"categorical", [py"categories", py"type", py"ordered"], 1)]

/-- The type constructors that can be called in a datashape string (`typevar` cannot: it is also a dimension). -/
def callable : List Str := py"string" :: signatures.map (·.1)

end DS
