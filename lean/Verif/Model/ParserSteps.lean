import Verif.Model.Parser

/-
datashape/parser.py again: the functions of Model/Parser.lean, counting steps and nested calls. A step is a call of `advance_tok`,
of `parse_homogeneous_list`, of `syntactic_sugar` or of another parsing method of `DataShapeParser`. That the results are those of
Model/Parser.lean is proved in Proofs/Steps.lean.
-/
namespace DS

/-- How many calls there are, and how many of them are open at the same time at most. -/
structure Cost where
  steps : Nat
  depth : Nat
  deriving Repr

/-- A computation of the parser: what it costs, and what comes out of it. -/
def K (α : Type) : Type := Cost × Except PFail α

/-- no call, and a value (no code) -/
def K.ok {α : Type} (a : α) : K α := (⟨0, 0⟩, .ok a)
/-- no call, and an exception (no code) -/
def K.error {α : Type} (e : PFail) : K α := (⟨0, 0⟩, .error e)
/-- one computation after the other (no code) -/
def K.bind {α β : Type} (x : K α) (f : α → K β) : K β :=
  match x with
  | (c, .ok a) => (⟨c.steps + (f a).1.steps, max c.depth (f a).1.depth⟩, (f a).2)
  | (c, .error e) => (c, .error e)
instance : Monad K where
  pure := K.ok
  bind := K.bind
/-- a call of a method: one step more, and all calls inside it are one deeper -/
def tick {α : Type} (x : K α) : K α := (⟨x.1.steps + 1, x.1.depth + 1⟩, x.2)

/-- Result of a parsing function: value and the new state. -/
notation "ResK" α:max => K (α × List Tk)

/-- the exceptions of constructors, which are not counted -/
def liftPyK {α : Type} (x : Except PyErr α) : K α := (⟨0, 0⟩, liftPy x)
/-- `self.raise_error` (parser.py:56-58) -/
def raiseAtK {α : Type} (s : List Tk) (msg : Msg) : K α := (⟨0, 0⟩, raiseAt s msg)
/-- `advance_tok` (parser.py:33-50) -/
def advanceK (bad : Option PyErr) (s : List Tk) : K (List Tk) := (⟨1, 1⟩, advance bad s)

section
variable (sym : Sym) (bad : Option PyErr)

/-- `parse_homogeneous_list` (parser.py:60-94) with separator COMMA, continuing with the items `acc`.
The fuel bounds the number of items; it is always enough (`hlist_no_fuel`). -/
def hlistK {α : Type} (item : List Tk → ResK (Option α)) (msg : Msg) (trailing : Bool) (saved : List Tk) :
    Nat → List α → List Tk → ResK (Option (List α))
  | 0, _, _ => K.error (.py .fuel)
  | fuel + 1, acc, s => do
    let (x, s) ← item s
    match x with
    | some x =>
      if s.head? = some .comma then
        let s ← advanceK bad s
        hlistK item msg trailing saved fuel (acc ++ [x]) s
      else .ok (some (acc ++ [x]), s)
    | none =>
      if acc.isEmpty then .ok (none, saved)
      else if trailing then .ok (some acc, s)
      else raiseAtK s msg

/-- `parse_homogeneous_list` -/
def parseListK {α : Type} (item : List Tk → ResK (Option α)) (msg : Msg) (trailing : Bool) (s : List Tk) :
    ResK (Option (List α)) := tick <| hlistK bad item msg trailing s (s.length + 1) [] s

/-- `syntactic_sugar` (parser.py:96-122): the entry `name` of a table, or a syntax error at `errorPos`. -/
def sugarK {α : Type} (table : Str → Option α) (name what : Str) (errorPos : List Tk) : K α := tick <|
  match table name with
  | some c => .ok c
  | none => raiseAtK errorPos (.missing name what)

/-- `parse_integer` (parser.py:430-439) -/
def parseIntegerK (s : List Tk) : ResK (Option Lit) := tick <|
  match s with
  | .int i :: _ => do let s' ← advanceK bad s; .ok (some (.int i), s')
  | _ => .ok (none, s)

/-- `parse_string` (parser.py:476-485) -/
def parseStringK (s : List Tk) : ResK (Option Lit) := tick <|
  match s with
  | .str v :: _ => do let s' ← advanceK bad s; .ok (some (.str v), s')
  | _ => .ok (none, s)

/-- `parse_boolean` (parser.py:453-462) -/
def parseBooleanK (s : List Tk) : ResK (Option Lit) := tick <|
  match s with
  | .bool b :: _ => do let s' ← advanceK bad s; .ok (some (.bool b), s')
  | _ => .ok (none, s)

/-! The remaining functions call `parse_datashape` recursively; it is the parameter `ds`. -/
variable (ds : List Tk → ResK (Option Ty))

/-- `parse_type_arg` (parser.py:354-394), with `parse_datashape_list` (parser.py:418-428), `parse_integer_list`
(parser.py:441-451), `parse_boolean_list` (parser.py:464-474) and `parse_string_list` (parser.py:487-497). After a failed
`parse_datashape` the position is not restored. -/
def parseTypeArgK (s : List Tk) : ResK (Option Arg) := tick do
  let (t, s) ← ds s
  match t with
  | some t => .ok (some (.ds t), s)
  | none =>
    match s with
    | .int i :: _ => do let s' ← advanceK bad s; .ok (some (.lit (.int i)), s')
    | .str v :: _ => do let s' ← advanceK bad s; .ok (some (.lit (.str v)), s')
    | .bool b :: _ => do let s' ← advanceK bad s; .ok (some (.lit (.bool b)), s')
    | .lbrack :: _ => do
      let s ← advanceK bad s
      let (v, s) ← tick (parseListK bad ds (.uniform (py"datashape")) false s)
      let (v, s) ← (match v with
        | some l => (.ok (some (Arg.dss l), s) : ResK (Option Arg))
        | none => do
          let (v, s) ← tick (parseListK bad (parseIntegerK bad) (.uniform (py"integer")) false s)
          match v with
          | some l => .ok (some (.lits l), s)
          | none => do
            let (v, s) ← tick (parseListK bad (parseStringK bad) (.uniform (py"string")) false s)
            match v with
            | some l => .ok (some (.lits l), s)
            | none => do
              let (v, s) ← tick (parseListK bad (parseBooleanK bad) (.uniform (py"boolean")) false s)
              .ok (v.map Arg.lits, s))
      if s.head? = some .rbrack then
        let s ← advanceK bad s
        .ok (some (v.getD (.lits [])), s)
      else raiseAtK s (if v.isNone then .listStart else .listNext)
    | _ => .ok (none, s)

/-- `parse_type_kwarg` (parser.py:396-416) -/
def parseTypeKwargK (s : List Tk) : ResK (Option (Str × Arg)) := tick <|
  match s with
  | .lower name :: _ => do
    let s1 ← advanceK bad s
    if s1.head? = some .equal then
      let s2 ← advanceK bad s1
      let (a, s3) ← parseTypeArgK bad ds s2
      match a with
      | some a => .ok (some (name, a), s3)
      | none => raiseAtK s3 .value
    else .ok (none, s)
  | _ => .ok (none, s)

/-- the `while` loop of `parse_type_arg_list` (parser.py:331-350); fuel bounds the number of arguments -/
def argLoopK : Nat → List Arg → List Tk → ResK (List Arg × List (Str × Arg))
  | 0, _, _ => K.error (.py .fuel)
  | fuel + 1, args, s => do
    let (a, s) ← parseTypeArgK bad ds s
    match a with
    | some a =>
      if s.head? = some .comma then
        let s ← advanceK bad s
        argLoopK fuel (args ++ [a]) s
      else .ok ((args ++ [a], []), s)
    | none => do
      let (kw, s) ← parseListK bad (parseTypeKwargK bad ds) .keyword false s
      .ok ((args, kw.getD []), s)

/-- `parse_type_arg_list` (parser.py:320-352); the keyword list is not yet a dict, see `kwLookup`. -/
def parseTypeArgListK (s : List Tk) : ResK (List Arg × List (Str × Arg)) := tick <| argLoopK bad ds (s.length + 1) [] s

/-- `parse_struct_field` (parser.py:525-547) -/
def parseStructFieldK (s : List Tk) : ResK (Option (Str × Ty)) :=
  let go (name : Str) : ResK (Option (Str × Ty)) := do
    let s1 ← advanceK bad s
    if s1.head? = some .colon then
      let s2 ← advanceK bad s1
      let (t, s3) ← ds s2
      match t with
      | some t => .ok (some (name, t), s3)
      | none => raiseAtK s3 .fieldType
    else raiseAtK s1 .colon
  tick <| match s with
  | .lower n :: _ => go n
  | .upper n :: _ => go n
  | .other n :: _ => go n
  | .str n :: _ => go n
  | _ => .ok (none, s)

/-- `parse_struct_type` (parser.py:499-523), called with the current token LBRACE -/
def parseStructK (s : List Tk) : ResK (Option Ty) := tick do
  let s1 ← advanceK bad s
  let (fields, s2) ← parseListK bad (parseStructFieldK bad ds) .field true s1
  let fields := fields.getD []
  if s2.head? = some .rbrace then
    let s3 ← advanceK bad s2
    let c ← sugarK sym.dtypeConstr (py"struct") (py"{...} dtype constructor") s
    let t ← liftPyK (c [.lits (fields.map fun f => .str f.1), .dss (fields.map (·.2))] [])
    .ok (some t, s3)
  else raiseAtK s2 .field

/-- `parse_funcproto_or_tuple_type` (parser.py:549-590), called with the current token LPAREN -/
def parseParenK (s : List Tk) : ResK (Option Ty) := tick do
  let s1 ← advanceK bad s
  let (l, s2) ← parseListK bad ds .tupleItem true s1
  let l := l.getD []
  if s2.head? = some .rparen then
    let s3 ← advanceK bad s2
    if s3.head? = some .rarrow then
      let s4 ← advanceK bad s3
      let (r, s5) ← ds s4
      match r with
      | none => raiseAtK s5 .result
      | some r =>
        let c ← sugarK sym.dtypeConstr (py"funcproto") (py"(...) -> ... dtype constructor") s
        let t ← liftPyK (c [.dss l, .ds r] [])
        .ok (some t, s5)
    else
      let c ← sugarK sym.dtypeConstr (py"tuple") (py"(...) dtype constructor") s
      let t ← liftPyK (c [.dss l] [])
      .ok (some t, s3)
  else raiseAtK s2 .tupleItem

/-- `parse_dim` (parser.py:176-260) -/
def parseDimK (s : List Tk) : ResK (Option Ty) := tick <|
  match s with
  | .upper v :: _ => do
    let s1 ← advanceK bad s
    if s1.head? = some .ellipsis then
      let s2 ← advanceK bad s1
      let c ← sugarK sym.dimConstr (py"ellipsis") (py"TypeVar... dim constructor") s
      let t ← liftPyK (c (.str v))
      .ok (some t, s2)
    else if s1.head? = some .star then
      let c ← sugarK sym.dimConstr (py"typevar") (py"TypeVar dim constructor") s
      let t ← liftPyK (c (.str v))
      .ok (some t, s1)
    else .ok (none, s)
  | .lower name :: _ => do
    let s1 ← advanceK bad s
    if s1.head? = some .lbrack then
      match sym.dimConstr name with
      | none => .ok (none, s)
      | some _ => do
        let s2 ← advanceK bad s1
        let (_, s3) ← parseTypeArgListK bad ds s2
        if s3.head? = some .rbrack then
          let _ ← advanceK bad s3
          K.error (.py .notImplemented)
        else raiseAtK s3 .closing
    else match sym.dim name with
      | some d => .ok (some d, s1)
      | none => .ok (none, s)
  | .int v :: _ => do
    let s1 ← advanceK bad s
    if s1.head? = some .star then
      let c ← sugarK sym.dimConstr (py"fixed") (py"integer dimensions") s1
      let t ← liftPyK (c (.int v))
      .ok (some t, s1)
    else .ok (none, s)
  | .ellipsis :: _ => do
    let s1 ← advanceK bad s
    let d ← sugarK sym.dim (py"ellipsis") (py"... dim") s
    .ok (some d, s1)
  | _ => .ok (none, s)

/-- `parse_dtype` (parser.py:262-318) -/
def parseDtypeK (s : List Tk) : ResK (Option Ty) := tick <|
  match s with
  | .upper v :: _ => do
    let s1 ← advanceK bad s
    let c ← sugarK sym.dtypeConstr (py"typevar") (py"TypeVar dtype constructor") s
    let t ← liftPyK (c [.lit (.str v)] [])
    .ok (some t, s1)
  | .lower name :: _ => do
    let s1 ← advanceK bad s
    if s1.head? = some .lbrack then
      match sym.dtypeConstr name with
      | none => .ok (none, s)
      | some c => do
        let s2 ← advanceK bad s1
        let (args, s3) ← parseTypeArgListK bad ds s2
        if s3.head? = some .rbrack then
          if args.1.isEmpty && args.2.isEmpty then raiseAtK s3 .someArgument
          else do
            let s4 ← advanceK bad s3
            let t ← liftPyK (c args.1 args.2)
            .ok (some t, s4)
        else raiseAtK s3 .argument
    else match sym.dtype name with
      | some d => .ok (some d, s1)
      | none => .ok (none, s)
  | .lbrace :: _ => parseStructK sym bad ds s
  | .lparen :: _ => parseParenK sym bad ds s
  | _ => .ok (none, s)

/-- `parse_datashape_nooption` (parser.py:149-174). When a dim is not followed by `*`, the dtype is parsed
from the position after the dim. -/
def parseNoOptionK (s : List Tk) : ResK (Option Ty) := tick do
  let (dim, s1) ← parseDimK sym bad ds s
  let tail (s1 : List Tk) : ResK (Option Ty) := do
    let (t, s2) ← parseDtypeK sym bad ds s1
    match t with
    | some t => if truthy t then do let r ← liftPyK (mkDS [t]); .ok (some r, s2) else .ok (none, s2)
    | none => .ok (none, s2)
  match dim with
  | some d =>
    if s1.head? = some .star then
      let s2 ← advanceK bad s1
      let (t, _s3) ← ds s2
      match t with
      | none => raiseAtK s2 .element
      | some t => do
        let r ← liftPyK (mkDS (d :: t.params))
        .ok (some r, _s3)
    else tail s1
  | none => tail s1

/-- `parse_datashape` (parser.py:124-147), with the recursive calls in `ds` -/
def parseDatashapeFK (s : List Tk) : ResK (Option Ty) := tick <|
  match s with
  | .qmark :: _ => do
    let s1 ← advanceK bad s
    let (t, s2) ← parseNoOptionK sym bad ds s1
    match t with
    | some t => do
      let c ← sugarK sym.dtypeConstr (py"option") (py"option dtype construction") s
      let o ← liftPyK (c [.ds t] [])
      let r ← liftPyK (mkDS [o])
      .ok (some r, s2)
    | none => .ok (none, s2)
  | _ => parseNoOptionK sym bad ds s

end

/-- `parse_datashape` with recursion depth bounded by the fuel. -/
def parseDatashapeNK (sym : Sym) (bad : Option PyErr) : Nat → List Tk → ResK (Option Ty)
  | 0, _ => K.error (.py .fuel)
  | fuel + 1, s => parseDatashapeFK sym bad (parseDatashapeNK sym bad fuel) s

/-- `parse_datashape`. A nested call always has fewer tokens left, so this fuel is always enough
(`parseDatashape_eq`, `parse_no_fuel` in Proofs/ParserFuel.lean). -/
def parseDatashapeK (sym : Sym) (bad : Option PyErr) (s : List Tk) : ResK (Option Ty) :=
  parseDatashapeNK sym bad (s.length + 1) s

/-- `parse` on a token list (parser.py:593-613) -/
def parseToksK (sym : Sym) (bad : Option PyErr) (toks : List Tk) : K Ty :=
  tick <| match toks, bad with
  | [], some e => .error (.py e)
  | _, _ => do
    let (t, s) ← parseDatashapeK sym bad toks
    match t with
    | none => raiseAtK s .invalid
    | some t => if s.isEmpty then .ok t else raiseAtK s .more

end DS
