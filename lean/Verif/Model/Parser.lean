import Verif.Model.Lexer
import Verif.Model.Ctor

/-
datashape/parser.py.

State of `DataShapeParser`: the list of tokens from the current one on (`self.tokens[self.pos:]`); the empty
list means that the current token is the EOF token.  Saving and restoring `self.pos` is keeping an old list.
Tokens are produced lazily by the generator: if the generator ends with an exception `bad = some e`,
advancing past the last token raises `e` (parser.py:33-50).
-/
namespace DS

/-- A value `parse_type_arg` can return (parser.py:354-394); the empty list `[]` is `lits []`. -/
inductive Arg where
  | lit (l : Lit)
  | ds (t : Ty)
  | lits (l : List Lit)
  | dss (l : List Ty)
  deriving Repr

/-- The messages given to `raise_error`: parser.py:122, 171, 224, 307, 313, 345-347, 386-390, 416, 425-428, 448-451, 471-474,
494-497, 510, 542, 546, 569, 583, 610, 614. -/
inductive Msg where
  | element | closing | someArgument | argument | keyword | listStart | listNext | value
  | uniform (what : Str)
  | field | colon | fieldType | tupleItem | result | invalid | more
  | missing (name what : Str)
  deriving DecidableEq, Repr

/-- their texts (the same lines) -/
def Msg.text : Msg → Str
  | .element => py"Expected a dim or a dtype"
  | .closing => py"Expected a closing \"]\""
  | .someArgument => py"Expected at least one type constructor argument"
  | .argument => py"Invalid type constructor argument"
  | .keyword => py"Expected another keyword argument, " ++ py"positional arguments cannot follow " ++ py"keyword arguments"
  | .listStart => py"Expected a type constructor argument " ++ py"or a closing \"]\""
  | .listNext => py"Expected a \",\" or a closing \"]\""
  | .value => py"Expected a type constructor argument"
  | .uniform what => py"Expected another " ++ what ++ py", type constructor parameter " ++ py"lists must have uniform type"
  | .field => py"Invalid field in struct"
  | .colon => py"Expected a \":\" separating the field " ++ py"name from its datashape"
  | .fieldType => py"Expected the datashape of the field"
  | .tupleItem => py"Invalid datashape in tuple"
  | .result => py"Expected function prototype return " ++ py"datashape"
  | .invalid => py"Invalid datashape"
  | .more => py"Unexpected token in datashape"
  | .missing name what => py"Symbol table missing \"" ++ name ++ py"\" " ++ py"entry for " ++ what

/-- Failure while parsing: `tok k m` is `raise_error` (parser.py:56-58) with the message `m` at the token where `k` tokens remain
(0 = EOF); `py e` is another exception. -/
inductive PFail where
  | tok (remaining : Nat) (msg : Msg)
  | py (e : PyErr)
  deriving DecidableEq, Repr

/-- A type constructor called with positional and keyword arguments. -/
abbrev Constr := List Arg → List (Str × Arg) → Except PyErr Ty

/-- `TypeSymbolTable` (type_symbol_table.py:117-147). The constructors of `dim_constr` are called by the
parser only with one string or integer. -/
structure Sym where
  dtype : Str → Option Ty
  dtypeConstr : Str → Option Constr
  dim : Str → Option Ty
  dimConstr : Str → Option (Lit → Except PyErr Ty)

/-- Result of a parsing function: value (`none` for Python's `None`) and the new state. -/
notation "Res" α:max => Except PFail (α × List Tk)

/-- Raise an exception that is not a syntax error of this parser. -/
def liftPy {α : Type} : Except PyErr α → Except PFail α
  | .ok a => .ok a
  | .error e => .error (.py e)

/-- `self.raise_error` at state `s` -/
def raiseAt {α : Type} (s : List Tk) (msg : Msg) : Except PFail α := .error (.tok s.length msg)

/-- `bool(dtype)` of a datashape: `__len__` is 1 for `Mono` (coretypes.py:108-109), the number of
members for a `TypeSet` (typesets.py:60-61), and positive for a `DataShape`. -/
def truthy : Ty → Bool
  | .typeset o _ => !o.isEmpty
  | _ => true

section
variable (sym : Sym) (bad : Option PyErr)

/-- `advance_tok`: parser.py:33-50; the current token `tok` (parser.py:52-54) is the head of the list -/
def advance : List Tk → Except PFail (List Tk)
  | [] => .ok []
  | [_] => match bad with
    | none => .ok []
    | some e => .error (.py e)
  | _ :: s => .ok s

/-- `parse_homogeneous_list` (parser.py:60-94) with separator COMMA, continuing with the items `acc`.
The fuel bounds the number of items; it is always enough (`hlist_no_fuel`). -/
def hlist {α : Type} (item : List Tk → Res (Option α)) (msg : Msg) (trailing : Bool) (saved : List Tk) :
    Nat → List α → List Tk → Res (Option (List α))
  | 0, _, _ => .error (.py .fuel)
  | fuel + 1, acc, s => do
    let (x, s) ← item s
    match x with
    | some x =>
      if s.head? = some .comma then
        let s ← advance bad s
        hlist item msg trailing saved fuel (acc ++ [x]) s
      else .ok (some (acc ++ [x]), s)
    | none =>
      if acc.isEmpty then .ok (none, saved)
      else if trailing then .ok (some acc, s)
      else raiseAt s msg

/-- `parse_homogeneous_list` -/
def parseList {α : Type} (item : List Tk → Res (Option α)) (msg : Msg) (trailing : Bool) (s : List Tk) :
    Res (Option (List α)) := hlist bad item msg trailing s (s.length + 1) [] s

/-- `syntactic_sugar` (parser.py:96-122): the entry `name` of a table, or a syntax error at `errorPos`. -/
def sugar {α : Type} (table : Str → Option α) (name what : Str) (errorPos : List Tk) : Except PFail α :=
  match table name with
  | some c => .ok c
  | none => raiseAt errorPos (.missing name what)

/-- `parse_integer` (parser.py:430-439) -/
def parseInteger (s : List Tk) : Res (Option Lit) :=
  match s with
  | .int i :: _ => do let s' ← advance bad s; .ok (some (.int i), s')
  | _ => .ok (none, s)

/-- `parse_string` (parser.py:476-485) -/
def parseString (s : List Tk) : Res (Option Lit) :=
  match s with
  | .str v :: _ => do let s' ← advance bad s; .ok (some (.str v), s')
  | _ => .ok (none, s)

/-- `parse_boolean` (parser.py:453-462) -/
def parseBoolean (s : List Tk) : Res (Option Lit) :=
  match s with
  | .bool b :: _ => do let s' ← advance bad s; .ok (some (.bool b), s')
  | _ => .ok (none, s)

/-! The remaining functions call `parse_datashape` recursively; it is the parameter `ds`. -/
variable (ds : List Tk → Res (Option Ty))

/-- `parse_type_arg` (parser.py:354-394), with `parse_datashape_list` (parser.py:418-428), `parse_integer_list`
(parser.py:441-451), `parse_boolean_list` (parser.py:464-474) and `parse_string_list` (parser.py:487-497). After a failed
`parse_datashape` the position is not restored. -/
def parseTypeArg (s : List Tk) : Res (Option Arg) := do
  let (t, s) ← ds s
  match t with
  | some t => .ok (some (.ds t), s)
  | none =>
    match s with
    | .int i :: _ => do let s' ← advance bad s; .ok (some (.lit (.int i)), s')
    | .str v :: _ => do let s' ← advance bad s; .ok (some (.lit (.str v)), s')
    | .bool b :: _ => do let s' ← advance bad s; .ok (some (.lit (.bool b)), s')
    | .lbrack :: _ => do
      let s ← advance bad s
      let (v, s) ← parseList bad ds (.uniform (py"datashape")) false s
      let (v, s) ← (match v with
        | some l => (.ok (some (Arg.dss l), s) : Res (Option Arg))
        | none => do
          let (v, s) ← parseList bad (parseInteger bad) (.uniform (py"integer")) false s
          match v with
          | some l => .ok (some (.lits l), s)
          | none => do
            let (v, s) ← parseList bad (parseString bad) (.uniform (py"string")) false s
            match v with
            | some l => .ok (some (.lits l), s)
            | none => do
              let (v, s) ← parseList bad (parseBoolean bad) (.uniform (py"boolean")) false s
              .ok (v.map Arg.lits, s))
      if s.head? = some .rbrack then
        let s ← advance bad s
        .ok (some (v.getD (.lits [])), s)
      else raiseAt s (if v.isNone then .listStart else .listNext)
    | _ => .ok (none, s)

/-- `parse_type_kwarg` (parser.py:396-416) -/
def parseTypeKwarg (s : List Tk) : Res (Option (Str × Arg)) :=
  match s with
  | .lower name :: _ => do
    let s1 ← advance bad s
    if s1.head? = some .equal then
      let s2 ← advance bad s1
      let (a, s3) ← parseTypeArg bad ds s2
      match a with
      | some a => .ok (some (name, a), s3)
      | none => raiseAt s3 .value
    else .ok (none, s)
  | _ => .ok (none, s)

/-- the `while` loop of `parse_type_arg_list` (parser.py:331-350); fuel bounds the number of arguments -/
def argLoop : Nat → List Arg → List Tk → Res (List Arg × List (Str × Arg))
  | 0, _, _ => .error (.py .fuel)
  | fuel + 1, args, s => do
    let (a, s) ← parseTypeArg bad ds s
    match a with
    | some a =>
      if s.head? = some .comma then
        let s ← advance bad s
        argLoop fuel (args ++ [a]) s
      else .ok ((args ++ [a], []), s)
    | none => do
      let (kw, s) ← parseList bad (parseTypeKwarg bad ds) .keyword false s
      .ok ((args, kw.getD []), s)

/-- `parse_type_arg_list` (parser.py:320-352); the keyword list is not yet a dict, see `kwLookup`. -/
def parseTypeArgList (s : List Tk) : Res (List Arg × List (Str × Arg)) := argLoop bad ds (s.length + 1) [] s

/-- `parse_struct_field` (parser.py:525-547) -/
def parseStructField (s : List Tk) : Res (Option (Str × Ty)) :=
  let go (name : Str) : Res (Option (Str × Ty)) := do
    let s1 ← advance bad s
    if s1.head? = some .colon then
      let s2 ← advance bad s1
      let (t, s3) ← ds s2
      match t with
      | some t => .ok (some (name, t), s3)
      | none => raiseAt s3 .fieldType
    else raiseAt s1 .colon
  match s with
  | .lower n :: _ => go n
  | .upper n :: _ => go n
  | .other n :: _ => go n
  | .str n :: _ => go n
  | _ => .ok (none, s)

/-- `parse_struct_type` (parser.py:499-523), called with the current token LBRACE -/
def parseStruct (s : List Tk) : Res (Option Ty) := do
  let s1 ← advance bad s
  let (fields, s2) ← parseList bad (parseStructField bad ds) .field true s1
  let fields := fields.getD []
  if s2.head? = some .rbrace then
    let s3 ← advance bad s2
    let c ← sugar sym.dtypeConstr (py"struct") (py"{...} dtype constructor") s
    let t ← liftPy (c [.lits (fields.map fun f => .str f.1), .dss (fields.map (·.2))] [])
    .ok (some t, s3)
  else raiseAt s2 .field

/-- `parse_funcproto_or_tuple_type` (parser.py:549-590), called with the current token LPAREN -/
def parseParen (s : List Tk) : Res (Option Ty) := do
  let s1 ← advance bad s
  let (l, s2) ← parseList bad ds .tupleItem true s1
  let l := l.getD []
  if s2.head? = some .rparen then
    let s3 ← advance bad s2
    if s3.head? = some .rarrow then
      let s4 ← advance bad s3
      let (r, s5) ← ds s4
      match r with
      | none => raiseAt s5 .result
      | some r =>
        let c ← sugar sym.dtypeConstr (py"funcproto") (py"(...) -> ... dtype constructor") s
        let t ← liftPy (c [.dss l, .ds r] [])
        .ok (some t, s5)
    else
      let c ← sugar sym.dtypeConstr (py"tuple") (py"(...) dtype constructor") s
      let t ← liftPy (c [.dss l] [])
      .ok (some t, s3)
  else raiseAt s2 .tupleItem

/-- `parse_dim` (parser.py:176-260) -/
def parseDim (s : List Tk) : Res (Option Ty) :=
  match s with
  | .upper v :: _ => do
    let s1 ← advance bad s
    if s1.head? = some .ellipsis then
      let s2 ← advance bad s1
      let c ← sugar sym.dimConstr (py"ellipsis") (py"TypeVar... dim constructor") s
      let t ← liftPy (c (.str v))
      .ok (some t, s2)
    else if s1.head? = some .star then
      let c ← sugar sym.dimConstr (py"typevar") (py"TypeVar dim constructor") s
      let t ← liftPy (c (.str v))
      .ok (some t, s1)
    else .ok (none, s)
  | .lower name :: _ => do
    let s1 ← advance bad s
    if s1.head? = some .lbrack then
      match sym.dimConstr name with
      | none => .ok (none, s)
      | some _ => do
        let s2 ← advance bad s1
        let (_, s3) ← parseTypeArgList bad ds s2
        if s3.head? = some .rbrack then
          let _ ← advance bad s3
          .error (.py .notImplemented)
        else raiseAt s3 .closing
    else match sym.dim name with
      | some d => .ok (some d, s1)
      | none => .ok (none, s)
  | .int v :: _ => do
    let s1 ← advance bad s
    if s1.head? = some .star then
      let c ← sugar sym.dimConstr (py"fixed") (py"integer dimensions") s1
      let t ← liftPy (c (.int v))
      .ok (some t, s1)
    else .ok (none, s)
  | .ellipsis :: _ => do
    let s1 ← advance bad s
    let d ← sugar sym.dim (py"ellipsis") (py"... dim") s
    .ok (some d, s1)
  | _ => .ok (none, s)

/-- `parse_dtype` (parser.py:262-318) -/
def parseDtype (s : List Tk) : Res (Option Ty) :=
  match s with
  | .upper v :: _ => do
    let s1 ← advance bad s
    let c ← sugar sym.dtypeConstr (py"typevar") (py"TypeVar dtype constructor") s
    let t ← liftPy (c [.lit (.str v)] [])
    .ok (some t, s1)
  | .lower name :: _ => do
    let s1 ← advance bad s
    if s1.head? = some .lbrack then
      match sym.dtypeConstr name with
      | none => .ok (none, s)
      | some c => do
        let s2 ← advance bad s1
        let (args, s3) ← parseTypeArgList bad ds s2
        if s3.head? = some .rbrack then
          if args.1.isEmpty && args.2.isEmpty then raiseAt s3 .someArgument
          else do
            let s4 ← advance bad s3
            let t ← liftPy (c args.1 args.2)
            .ok (some t, s4)
        else raiseAt s3 .argument
    else match sym.dtype name with
      | some d => .ok (some d, s1)
      | none => .ok (none, s)
  | .lbrace :: _ => parseStruct sym bad ds s
  | .lparen :: _ => parseParen sym bad ds s
  | _ => .ok (none, s)

/-- `parse_datashape_nooption` (parser.py:149-174). When a dim is not followed by `*`, the dtype is parsed
from the position after the dim. -/
def parseNoOption (s : List Tk) : Res (Option Ty) := do
  let (dim, s1) ← parseDim sym bad ds s
  let tail (s1 : List Tk) : Res (Option Ty) := do
    let (t, s2) ← parseDtype sym bad ds s1
    match t with
    | some t => if truthy t then do let r ← liftPy (mkDS [t]); .ok (some r, s2) else .ok (none, s2)
    | none => .ok (none, s2)
  match dim with
  | some d =>
    if s1.head? = some .star then
      let s2 ← advance bad s1
      let (t, _s3) ← ds s2
      match t with
      | none => raiseAt s2 .element
      | some t => do
        let r ← liftPy (mkDS (d :: t.params))
        .ok (some r, _s3)
    else tail s1
  | none => tail s1

/-- `parse_datashape` (parser.py:124-147), with the recursive calls in `ds` -/
def parseDatashapeF (s : List Tk) : Res (Option Ty) :=
  match s with
  | .qmark :: _ => do
    let s1 ← advance bad s
    let (t, s2) ← parseNoOption sym bad ds s1
    match t with
    | some t => do
      let c ← sugar sym.dtypeConstr (py"option") (py"option dtype construction") s
      let o ← liftPy (c [.ds t] [])
      let r ← liftPy (mkDS [o])
      .ok (some r, s2)
    | none => .ok (none, s2)
  | _ => parseNoOption sym bad ds s

end

/-- `parse_datashape` with recursion depth bounded by the fuel. -/
def parseDatashapeN (sym : Sym) (bad : Option PyErr) : Nat → List Tk → Res (Option Ty)
  | 0, _ => .error (.py .fuel)
  | fuel + 1, s => parseDatashapeF sym bad (parseDatashapeN sym bad fuel) s

/-- `parse_datashape`. A nested call always has fewer tokens left, so this fuel is always enough
(`parseDatashape_eq`, `parse_no_fuel` in Proofs/ParserFuel.lean). -/
def parseDatashape (sym : Sym) (bad : Option PyErr) (s : List Tk) : Res (Option Ty) :=
  parseDatashapeN sym bad (s.length + 1) s

/-- The offset reported by `raise_error` when `k` tokens remain: `self.tok.span[0]`; the EOF token's span
starts at the end of the last token, or at 0 (parser.py:44-50). -/
def errPos (toks : List Token) (k : Nat) : Nat :=
  match toks[toks.length - k]? with
  | some t => t.start
  | none => match toks.getLast? with
    | some t => t.stop
    | none => 0

/-- `parse` on a token list: the first `advance_tok` (parser.py:31) raises if there is no first token. -/
def parseToks (sym : Sym) (bad : Option PyErr) (toks : List Tk) : Except PFail Ty :=
  match toks, bad with
  | [], some e => .error (.py e)
  | _, _ => do
    let (t, s) ← parseDatashape sym bad toks
    match t with
    | none => raiseAt s .invalid
    | some t => if s.isEmpty then .ok t else raiseAt s .more

/-- `parse(ds_str, sym)`: parser.py:593-613 -/
def parse (sym : Sym) (text : Str) : Except PyErr Ty :=
  let (toks, bad) := lex text
  match parseToks sym bad (toks.map (·.tk)) with
  | .ok t => .ok t
  | .error (.py e) => .error e
  | .error (.tok k m) => .error (.syntax text (errPos toks k) m.text)

end DS
