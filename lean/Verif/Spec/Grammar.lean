import Verif.Model.Parser

/-
The datashape grammar, as in the docstrings of parser.py, written as a relation between token sequences and
values, independently of the parsing functions.

The flag `q` switches on productions that the docstrings do not mention but the code accepts: skipped tokens.
With `q = false` the relation is the documented grammar, plus two productions that the docstrings forget and the
printer relies on: the empty record `{}` and lists of booleans. With `q = true` it is exactly what the code accepts
(`C06.exact`).
-/
namespace DS

/-- The nonterminals that call each other. -/
inductive NT where
  | datashape | nooption | dtype | arg | kwarg | argList | field | dsList | kwList | fieldList
  deriving DecidableEq

/-- The kind of value a nonterminal denotes. -/
@[reducible] def NT.Val : NT → Type
  | .datashape | .nooption | .dtype => Ty
  | .arg => Arg
  | .kwarg => Str × Arg
  | .argList => List Arg × List (Str × Arg)
  | .field => Str × Ty
  | .dsList => List Ty
  | .kwList => List (Str × Arg)
  | .fieldList => List (Str × Ty)

/-- `dim` (parser.py:176-191): token sequences and the dimension they denote. (The documented `type_constr`
dimension raises `NotImplementedError` and denotes nothing.) -/
inductive DimG (sym : Sym) : List Tk → Ty → Prop where
  | typevar {v c d} : sym.dimConstr (py"typevar") = some c → c (.str v) = .ok d → DimG sym [.upper v] d
  | ellipsisTypevar {v c d} : sym.dimConstr (py"ellipsis") = some c → c (.str v) = .ok d →
      DimG sym [.upper v, .ellipsis] d
  | name {n d} : sym.dim n = some d → DimG sym [.lower n] d
  | int {v c d} : sym.dimConstr (py"fixed") = some c → c (.int v) = .ok d → DimG sym [.int v] d
  | ellipsis {d} : sym.dim (py"ellipsis") = some d → DimG sym [.ellipsis] d

/-- The dimensions that the code skips when no `*` follows: `...`, `A...` and named dimensions. -/
inductive LooseDim (sym : Sym) : List Tk → Prop where
  | ellipsisTypevar {v c d} : sym.dimConstr (py"ellipsis") = some c → c (.str v) = .ok d →
      LooseDim sym [.upper v, .ellipsis]
  | name {n d} : sym.dim n = some d → LooseDim sym [.lower n]
  | ellipsis {d} : sym.dim (py"ellipsis") = some d → LooseDim sym [.ellipsis]

/-- Tokens that the code skips where a datashape was tried and not found: an optional `?` and an optional
loose dimension. Only `q = true` allows any. -/
inductive Junk (sym : Sym) : (q : Bool) → List Tk → Prop where
  | none {q} : Junk sym q []
  | qmark : Junk sym true [.qmark]
  | dim {ts} : LooseDim sym ts → Junk sym true ts
  | qdim {ts} : LooseDim sym ts → Junk sym true (.qmark :: ts)

/-- Tokens that the code skips in front of `[`: not a named dimension, since a name in front of `[` is that of a
constructor. -/
inductive JunkB (sym : Sym) : (q : Bool) → List Tk → Prop where
  | none {q} : JunkB sym q []
  | junk {j} : Junk sym true j → (∀ n, j.getLast? ≠ some (.lower n)) → JunkB sym true j

/-- The tokens do not begin like a constructed dimension, `name[`, which raises `NotImplementedError` where a dimension
may stand. -/
def NotDimConstr (sym : Sym) (ts : List Tk) : Prop := ∀ n r, ts = .lower n :: .lbrack :: r → sym.dimConstr n = none

/-- the token of a literal -/
def Lit.tok : Lit → Tk
  | .int i => .int i
  | .str s => .str s
  | .bool b => .bool b

/-- tokens separated by commas -/
def commas : List Tk → List Tk
  | [] => []
  | [t] => [t]
  | t :: u :: r => t :: .comma :: commas (u :: r)

/-- A list of literals that are all integers, or all strings; lists of booleans are accepted by the code
although the docstring omits them. -/
def litList (l : List Lit) : Prop :=
  l ≠ [] ∧ ((∃ is : List Int, l = is.map .int) ∨ (∃ ss : List Str, l = ss.map .str) ∨
    (∃ bs : List Bool, l = bs.map .bool))

/-- the tokens that can be a field name, and the name (parser.py:525-531) -/
inductive FieldName : Tk → Str → Prop where
  | lower {n} : FieldName (.lower n) n
  | upper {n} : FieldName (.upper n) n
  | other {n} : FieldName (.other n) n
  | str {n} : FieldName (.str n) n

/-- `G sym q nt ts v`: the tokens `ts` derive from the nonterminal `nt`, with value `v`. -/
inductive G (sym : Sym) (q : Bool) : (n : NT) → List Tk → n.Val → Prop where
  -- datashape : datashape_nooption | QUESTIONMARK datashape_nooption          (parser.py:124-131)
  | plain {ts} {t : Ty} : G sym q .nooption ts t → G sym q .datashape ts t
  | option {ts} {t : Ty} {c} {o r : Ty} : G sym q .nooption ts t → sym.dtypeConstr (py"option") = some c →
      c [.ds t] [] = .ok o → mkDS [o] = .ok r → G sym q .datashape (.qmark :: ts) r
  -- datashape_nooption : dim ASTERISK datashape | dtype                       (parser.py:149-155)
  | dim {ds ts d} {t r : Ty} : DimG sym ds d → G sym q .datashape ts t → mkDS (d :: t.params) = .ok r →
      G sym q .nooption (ds ++ .star :: ts) r
  | dtype {ts} {t r : Ty} : G sym q .dtype ts t → mkDS [t] = .ok r →
      (hd : q = true → NotDimConstr sym ts := by nofun) → G sym q .nooption ts r
  -- undocumented: a loose dimension in front of a dtype is skipped
  | dropped {ds ts} {t r : Ty} : q = true → LooseDim sym ds → G sym q .dtype ts t → mkDS [t] = .ok r →
      G sym q .nooption (ds ++ ts) r
  -- dtype : typevar | type | type_constr | struct_type | funcproto_or_tuple_type (parser.py:262-276)
  | typevar {v c} {t : Ty} : sym.dtypeConstr (py"typevar") = some c → c [.lit (.str v)] [] = .ok t →
      G sym q .dtype [.upper v] t
  | name {n} {t : Ty} : sym.dtype n = some t → G sym q .dtype [.lower n] t
  -- (a name that is also a dimension constructor, such as `typevar`, raises NotImplementedError in the dimension
  -- rule, which is tried first, and so denotes nothing)
  | constr {n c ts args kw} {t : Ty} : sym.dtypeConstr n = some c → (q = false → sym.dimConstr n = none) →
      G sym q .argList ts (args, kw) → (args, kw) ≠ ([], []) → c args kw = .ok t →
      G sym q .dtype (.lower n :: .lbrack :: (ts ++ [.rbrack])) t
  -- struct_type : LBRACE struct_field_list RBRACE | LBRACE struct_field_list COMMA RBRACE (parser.py:499-506)
  | struct {ts} {fs : List (Str × Ty)} {comma c} {t : Ty} : G sym q .fieldList ts fs →
      (comma = [] ∨ comma = [.comma]) → sym.dtypeConstr (py"struct") = some c →
      c [.lits (fs.map fun f => .str f.1), .dss (fs.map (·.2))] [] = .ok t →
      G sym q .dtype (.lbrace :: (ts ++ comma ++ [.rbrace])) t
  -- undocumented: LBRACE RBRACE
  | emptyStruct {c} {t : Ty} : sym.dtypeConstr (py"struct") = some c →
      c [.lits [], .dss []] [] = .ok t → G sym q .dtype [.lbrace, .rbrace] t
  -- tuple_type : LPAREN tuple_item_list RPAREN | LPAREN tuple_item_list COMMA RPAREN | LPAREN RPAREN
  --                                                                            (parser.py:549-560)
  -- (undocumented: junk after the trailing comma)
  | tuple {ts} {l : List Ty} {comma c} {t : Ty} : G sym q .dsList ts l →
      (comma = [] ∨ ∃ j, Junk sym q j ∧ comma = .comma :: j) → sym.dtypeConstr (py"tuple") = some c →
      c [.dss l] [] = .ok t → G sym q .dtype (.lparen :: (ts ++ comma ++ [.rparen])) t
  | emptyTuple {c} {t : Ty} : sym.dtypeConstr (py"tuple") = some c → c [.dss []] [] = .ok t →
      G sym q .dtype [.lparen, .rparen] t
  -- funcproto : tuple_type RARROW datashape
  | func {ts} {l : List Ty} {comma us} {r : Ty} {c} {t : Ty} : G sym q .dsList ts l →
      (comma = [] ∨ ∃ j, Junk sym q j ∧ comma = .comma :: j) → G sym q .datashape us r →
      sym.dtypeConstr (py"funcproto") = some c →
      c [.dss l, .ds r] [] = .ok t →
      G sym q .dtype (.lparen :: (ts ++ comma ++ .rparen :: .rarrow :: us)) t
  | emptyFunc {us} {r : Ty} {c} {t : Ty} : G sym q .datashape us r →
      sym.dtypeConstr (py"funcproto") = some c → c [.dss [], .ds r] [] = .ok t →
      G sym q .dtype (.lparen :: .rparen :: .rarrow :: us) t
  -- struct_field : struct_field_name COLON datashape                           (parser.py:525-533)
  | field {k n ts} {t : Ty} : FieldName k n → G sym q .datashape ts t →
      G sym q .field (k :: .colon :: ts) (n, t)
  -- type_arg : datashape | INTEGER | STRING | BOOLEAN | list_type_arg          (parser.py:354-366)
  | argDs {ts} {t : Ty} : G sym q .datashape ts t → G sym q .arg ts (.ds t)
  | argLit {j l} : Junk sym q j → G sym q .arg (j ++ [Lit.tok l]) (.lit l)
  | argEmpty {j} : JunkB sym q j → G sym q .arg (j ++ [.lbrack, .rbrack]) (.lits [])
  | argLits {j l} : JunkB sym q j → litList l → G sym q .arg (j ++ .lbrack :: (commas (l.map Lit.tok) ++ [.rbrack])) (.lits l)
  | argDss {j ts} {l : List Ty} : JunkB sym q j → G sym q .dsList ts l →
      G sym q .arg (j ++ .lbrack :: (ts ++ [.rbrack])) (.dss l)
  -- type_kwarg : NAME_LOWER EQUAL type_arg                                     (parser.py:396-400)
  | kwarg {n ts} {a : Arg} : G sym q .arg ts a → G sym q .kwarg (.lower n :: .equal :: ts) (n, a)
  -- type_arg_list : type_arg COMMA type_arg_list | type_kwarg_list | type_arg  (parser.py:320-328)
  | argsOne {ts} {a : Arg} : G sym q .arg ts a → G sym q .argList ts ([a], [])
  | argsCons {ts us} {a : Arg} {args : List Arg} {kw : List (Str × Arg)} : G sym q .arg ts a →
      G sym q .argList us (args, kw) → G sym q .argList (ts ++ .comma :: us) (a :: args, kw)
  | argsKw {j ts} {kw : List (Str × Arg)} : Junk sym q j → G sym q .kwList ts kw → G sym q .argList (j ++ ts) ([], kw)
  -- undocumented: nothing after a comma, possibly after junk
  | argsEnd {j} : q = true → Junk sym q j → G sym q .argList j ([], [])
  -- <item>_list : <item> COMMA <item>_list | <item>                            (parser.py:60-65)
  | dsOne {ts} {t : Ty} : G sym q .datashape ts t → G sym q .dsList ts [t]
  | dsCons {ts us} {t : Ty} {l : List Ty} : G sym q .datashape ts t → G sym q .dsList us l →
      G sym q .dsList (ts ++ .comma :: us) (t :: l)
  | kwOne {ts} {p : Str × Arg} : G sym q .kwarg ts p → G sym q .kwList ts [p]
  | kwCons {ts us} {p : Str × Arg} {l : List (Str × Arg)} : G sym q .kwarg ts p → G sym q .kwList us l →
      G sym q .kwList (ts ++ .comma :: us) (p :: l)
  | fieldOne {ts} {p : Str × Ty} : G sym q .field ts p → G sym q .fieldList ts [p]
  | fieldCons {ts us} {p : Str × Ty} {l : List (Str × Ty)} : G sym q .field ts p → G sym q .fieldList us l →
      G sym q .fieldList (ts ++ .comma :: us) (p :: l)

/-- The symbol table contains no falsy type (an empty `TypeSet`, which the parser takes for a failure). -/
structure Sym.Truthy (sym : Sym) : Prop where
  dtype : ∀ n t, sym.dtype n = some t → truthy t = true
  constr : ∀ n c a k t, sym.dtypeConstr n = some c → c a k = .ok t → truthy t = true

/-- What the symbol table must satisfy for the grammar to be complete: names of types and dimensions are
disjoint, and no keyword accepted by a constructor is the name of a type or of a dimension. -/
structure Sym.Sep (sym : Sym) : Prop where
  disjoint : ∀ n t, sym.dtype n = some t → sym.dim n = none
  kw : ∀ n c args kw t, sym.dtypeConstr n = some c → c args kw = .ok t →
    ∀ p ∈ kw, sym.dtype p.1 = none ∧ sym.dim p.1 = none

end DS
