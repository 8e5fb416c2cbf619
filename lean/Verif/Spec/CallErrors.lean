import Verif.Spec.Constructors

/-
Specification for C45: the exception that a call of a type constructor in a text raises.
-/
namespace DS

/-- An argument over which nothing iterates. -/
inductive NoElems : Arg → Prop where
  | int (i : Int) : NoElems (.lit (.int i))
  | bool (b : Bool) : NoElems (.lit (.bool b))

/-- What an argument raises where a type is expected. -/
inductive NotAType (env : Env) (disc : List Lit → Except PyErr Ty) : Arg → PyErr → Prop where
  /-- a dimension has no negative size -/
  | negative {i : Int} : i < 0 → NotAType env disc (.lit (.int i)) .valueError
  /-- a string raises what reading it raises -/
  | str {s e} : dshape env disc s = .error e → NotAType env disc (.lit (.str s)) e
  | lits (l : List Lit) : NotAType env disc (.lits l) .typeError
  | dss (l : List Ty) : NotAType env disc (.dss l) .typeError

/-- What an element raises as a component of a tuple. -/
inductive NotAComponent : Arg → PyErr → Prop where
  | negative {i : Int} : i < 0 → NotAComponent (.lit (.int i)) .valueError
  /-- a number stands for a dimension, which is no measure -/
  | dimension (n : Nat) : NotAComponent (.lit (.int n)) .typeError
  | bool (b : Bool) : NotAComponent (.lit (.bool b)) .typeError
  /-- strings are not read here -/
  | str (s : Str) : NotAComponent (.lit (.str s)) .typeError
  | ds {t} : t.isDShape = false → ¬ MayEnd t → NotAComponent (.ds t) .typeError

/-- What an argument raises as the encoding of a string. -/
inductive NotAnEncoding : Arg → PyErr → Prop where
  /-- lists cannot be looked up -/
  | lits {l} : l ≠ [] → NotAnEncoding (.lits l) .typeError
  | dss {l} : l ≠ [] → NotAnEncoding (.dss l) .typeError
  | other {a} : (∀ l, a ≠ .lits l) → (∀ l, a ≠ .dss l) → (∀ c, ¬ AsEncoding a c) → NotAnEncoding a .valueError

/-- `CallRaises env disc name args kw e`: the call `name[args, kw]` raises `e`. Python does not look at the length of a string,
the numbers of a `decimal`, `ordered` of a `categorical`, categories and the parts of a function type: it stores whatever it is
given. The calls where this is not what it should be are outside of the model; they are listed with `e = unmodelled`. -/
inductive CallRaises (env : Env) (disc : List Lit → Except PyErr Ty) :
    Str → List Arg → List (Str × Arg) → PyErr → Prop where
  /-- arguments that cannot be bound to the parameters, or do not fill those without default -/
  | unbound {n names req args kw} : (n, names, req) ∈ signatures →
      (¬ ∃ vals, Binds names args kw vals ∧ ∀ v ∈ vals.take req, v ≠ none) → CallRaises env disc n args kw .typeError
  | complex {args kw a} : Binds [py"tp"] args kw [some a] →
      a ≠ .ds (.dshape [.ctype (py"float32") 4 4]) → a ≠ .ds (.dshape [.ctype (py"float64") 8 8]) →
      CallRaises env disc (py"complex") args kw .typeError
  | stringKeyword {args kw} : kw ≠ [] → CallRaises env disc (py"string") args kw .typeError
  /-- one argument that is neither a string nor a number, or more than two arguments -/
  | stringOne {a} : (∀ s, a ≠ .lit (.str s)) → (∀ n, ¬ AsInt a n) → CallRaises env disc (py"string") [a] [] .unboundLocal
  | stringMany {args : List Arg} : 3 ≤ args.length → CallRaises env disc (py"string") args [] .unboundLocal
  | stringEnc {s e} : NotAnEncoding (.lit (.str s)) e → CallRaises env disc (py"string") [.lit (.str s)] [] e
  | stringBoth {a b e} : NotAnEncoding b e → CallRaises env disc (py"string") [a, b] [] e
  | structNames {args kw a b} : Binds [py"names", py"dshapes"] args kw [some a, some b] → NoElems a →
      CallRaises env disc (py"struct") args kw .typeError
  | structTypes {args kw a b ns} : Binds [py"names", py"dshapes"] args kw [some a, some b] → Elems a ns → NoElems b →
      CallRaises env disc (py"struct") args kw .typeError
  /-- the first type that is none -/
  | structField {args kw a b ns ts pre p post fs e} : Binds [py"names", py"dshapes"] args kw [some a, some b] →
      Elems a ns → Elems b ts → ns.zip ts = pre ++ p :: post →
      Each (fun p t => AsType env disc p.2 t) pre fs → NotAType env disc p.2 e →
      CallRaises env disc (py"struct") args kw e
  | structTwice {args kw a b ns ts} {fs : List (Str × Ty)} : Binds [py"names", py"dshapes"] args kw [some a, some b] → Elems a ns → Elems b ts →
      Each (fun p f => AsName env p.1 f.1 ∧ AsType env disc p.2 f.2) (ns.zip ts) fs → ¬ (fs.map (·.1)).Nodup →
      CallRaises env disc (py"struct") args kw .valueError
  | tuple {args kw a} : Binds [py"dshapes"] args kw [some a] → NoElems a → CallRaises env disc (py"tuple") args kw .typeError
  /-- the first component that is none -/
  | tuplePart {args kw a pre x post ts e} : Binds [py"dshapes"] args kw [some a] → Elems a (pre ++ x :: post) →
      Each AsComponent pre ts → NotAComponent x e → CallRaises env disc (py"tuple") args kw e
  | funcproto {args kw a b} : Binds [py"args", py"ret"] args kw [some a, some b] → NoElems a →
      CallRaises env disc (py"funcproto") args kw .typeError
  | option {args kw a e} : Binds [py"ds"] args kw [some a] → NotAType env disc a e → CallRaises env disc (py"option") args kw e
  | mapKey {args kw a b e} : Binds [py"key", py"value"] args kw [some a, some b] → NotAType env disc a e →
      CallRaises env disc (py"map") args kw e
  | mapValue {args kw a b k e} : Binds [py"key", py"value"] args kw [some a, some b] → AsType env disc a k →
      NotAType env disc b e → CallRaises env disc (py"map") args kw e
  | time {args kw a} : Binds [py"tz"] args kw [some a] → (∀ s, a ≠ .lit (.str s)) → CallRaises env disc (py"time") args kw .typeError
  | datetime {args kw a} : Binds [py"tz"] args kw [some a] → (∀ s, a ≠ .lit (.str s)) →
      CallRaises env disc (py"datetime") args kw .typeError
  | timedelta {args kw a s} : Binds [py"unit"] args kw [some a] → AsName env a s → (∀ u, ¬ SpellsUnit s u) → ¬ RunsOut s →
      CallRaises env disc (py"timedelta") args kw .valueError
  | timedeltaList {args kw a} : Binds [py"unit"] args kw [some a] → (∀ s, ¬ AsName env a s) →
      CallRaises env disc (py"timedelta") args kw .valueError
  | timedeltaEmpty {args kw a s} : Binds [py"unit"] args kw [some a] → AsName env a s → RunsOut s →
      CallRaises env disc (py"timedelta") args kw .indexError
  | units {args kw a b} : Binds [py"unit", py"tp"] args kw [some a, b] → (∀ s, a ≠ .lit (.str s)) →
      CallRaises env disc (py"units") args kw .typeError
  | unitsType {args kw a b} : Binds [py"unit", py"tp"] args kw [a, some b] → (∀ t, b ≠ .ds t) →
      CallRaises env disc (py"units") args kw .typeError
  | categorical {args kw a b o} : Binds [py"categories", py"type", py"ordered"] args kw [some a, b, o] → NoElems a →
      CallRaises env disc (py"categorical") args kw .typeError
  /-- a type that is true but not a datashape -/
  | categoricalType {args kw a} {cs : List Lit} {b o} : Binds [py"categories", py"type", py"ordered"] args kw [some a, some b, o] →
      Elems a (cs.map .lit) → ¬ Falsy b → (∀ t, b ≠ .ds t) → CallRaises env disc (py"categorical") args kw .attributeError
  /-- no type is given and none is discovered -/
  | categoricalDiscover {args kw a} {cs : List Lit} {b o e} : Binds [py"categories", py"type", py"ordered"] args kw [some a, b, o] →
      Elems a (cs.map .lit) → (b = none ∨ ∃ x, b = some x ∧ Falsy x) → disc cs = .error e →
      CallRaises env disc (py"categorical") args kw e
  /-- outside of the model: a length that is no number, such as `string['A', 'A']` -/
  | stringLength {a b c} : (∀ n, ¬ AsInt a n) → AsEncoding b c → CallRaises env disc (py"string") [a, b] [] .unmodelled
  /-- outside of the model: an argument or a result that is no datashape, such as `funcproto[[1], int32]` -/
  | funcprotoPart {args kw a b ns} : Binds [py"args", py"ret"] args kw [some a, some b] → Elems a ns →
      (∃ x ∈ ns ++ [b], ∀ t, x ≠ .ds t) → CallRaises env disc (py"funcproto") args kw .unmodelled
  /-- outside of the model: something other than two integers, such as `decimal[True]` -/
  | decimal {args kw a b} : Binds [py"precision", py"scale"] args kw [some a, b] →
      ((∀ i, a ≠ .lit (.int i)) ∨ ∃ x, b = some x ∧ ∀ i, x ≠ .lit (.int i)) → CallRaises env disc (py"decimal") args kw .unmodelled
  /-- outside of the model: a category that is a datashape, such as `categorical[[int32]]` -/
  | categories {args kw a b o ns} : Binds [py"categories", py"type", py"ordered"] args kw [some a, b, o] → Elems a ns →
      (∃ x ∈ ns, ∀ l, x ≠ .lit l) → CallRaises env disc (py"categorical") args kw .unmodelled
  /-- outside of the model: `ordered` is neither true nor false, such as `categorical[['a'], ordered=1]` -/
  | categoricalOrdered {args kw a} {cs : List Lit} {b x} :
      Binds [py"categories", py"type", py"ordered"] args kw [some a, b, some x] → Elems a (cs.map .lit) →
      ((∃ t, b = some (.ds t)) ∨ (b = none ∨ ∃ x, b = some x ∧ Falsy x) ∧ ∃ t, disc cs = .ok t) →
      (∀ y, x ≠ .lit (.bool y)) → CallRaises env disc (py"categorical") args kw .unmodelled

end DS
