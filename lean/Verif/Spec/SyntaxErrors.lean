import Verif.Spec.Grammar
import Verif.Spec.Complaints

/-
Where a syntax error is: the first token that cannot continue what has been read. Complete parts are those of the documented
grammar, `G sym false`.
-/
namespace DS

/-- No datashape begins here. -/
inductive Nothing (sym : Sym) : List Tk → Prop where
  | finished : Nothing sym []
  | symbol {t s} : t ∈ [Tk.star, .comma, .equal, .colon, .lbrack, .rbrack, .rbrace, .rparen, .rarrow] → Nothing sym (t :: s)
  | str {v s} : Nothing sym (.str v :: s)
  | bool {b s} : Nothing sym (.bool b :: s)
  | other {n s} : Nothing sym (.other n :: s)
  | int {i s} : s.head? ≠ some .star → Nothing sym (.int i :: s)
  | name {n s} : sym.dtype n = none → sym.dim n = none → s.head? ≠ some .lbrack → Nothing sym (.lower n :: s)
  | call {n s} : sym.dtypeConstr n = none → sym.dimConstr n = none → Nothing sym (.lower n :: .lbrack :: s)

/-- The second token belongs to what the first one ends: `name[`, `Name...`, `Name *`, `3 *` and `) ->`. -/
inductive Fuses : Tk → Tk → Prop where
  | lower {n} : Fuses (.lower n) .lbrack
  | ellipsis {n} : Fuses (.upper n) .ellipsis
  | typevar {n} : Fuses (.upper n) .star
  | int {i} : Fuses (.int i) .star
  | func : Fuses .rparen .rarrow

/-- The next token does not belong to what the tokens `ts` end with. -/
def Apart (ts rest : List Tk) : Prop := ∀ a t, ts.getLast? = some a → rest.head? = some t → ¬ Fuses a t

/-- Complete items of a list, each followed by a comma. -/
inductive Items (sym : Sym) (nt : NT) : List Tk → Prop where
  | nil : Items sym nt []
  | cons {ts us : List Tk} {v : nt.Val} : G sym false nt ts v → Items sym nt us → Items sym nt (ts ++ .comma :: us)

/-- The parameters of a function type: types separated by commas, possibly with a comma after the last one. -/
inductive Parameters (sym : Sym) : List Tk → Prop where
  | items {ps} : Items sym .datashape ps → Parameters sym ps
  | last {ps ts : List Tk} {t : Ty} : Items sym .datashape ps → G sym false .datashape ts t → Parameters sym (ps ++ ts)

/-- `n` is the name of a type constructor, and of no dimension constructor. -/
def TypeConstr (sym : Sym) (n : Str) : Prop := (sym.dtypeConstr n).isSome ∧ sym.dimConstr n = none

/-- `n` is the name of a constructor; `c` is the complaint when its brackets are not closed. -/
inductive Called (sym : Sym) (n : Str) : Complaint → Prop where
  | type : TypeConstr sym n → Called sym n .badArgument
  | dim : (sym.dimConstr n).isSome → Called sym n .openDimension

/-- What comes next is no keyword argument `name = ...`. -/
def NoKeyword (s : List Tk) : Prop := ∀ k r, s ≠ .lower k :: .equal :: r

/-- If a keyword argument comes next, the keyword is not the name of a type or dimension. -/
def FreeKeyword (sym : Sym) (s : List Tk) : Prop :=
  ∀ k r, s = .lower k :: .equal :: r → sym.dtype k = none ∧ sym.dim k = none

/-- the next token is a literal -/
def LiteralNext (s : List Tk) : Prop := ∃ l : Lit, s.head? = some l.tok

/-- the kind of a literal -/
def literalKind : Lit → Str
  | .int _ => py"integer"
  | .str _ => py"string"
  | .bool _ => py"boolean"

/-- `Wrong sym nt s rest c`: the tokens `s` begin like an `nt`, but the first token of `rest` cannot come where it does, and
`c` says why. -/
inductive Wrong (sym : Sym) : NT → List Tk → List Tk → Complaint → Prop where
  -- inside a part
  | option {s rest : List Tk} {c : Complaint} : s.head? ≠ some .qmark → Wrong sym .datashape s rest c → Wrong sym .datashape (.qmark :: s) rest c
  | dim {ds s rest : List Tk} {c : Complaint} {d : Ty} : DimG sym ds d → Wrong sym .datashape s rest c →
      Wrong sym .datashape (ds ++ .star :: s) rest c
  | struct {pre s rest : List Tk} {c : Complaint} : Items sym .field pre → Wrong sym .field s rest c →
      Wrong sym .datashape (.lbrace :: (pre ++ s)) rest c
  | field {k : Tk} {n : Str} {s rest : List Tk} {c : Complaint} : FieldName k n → Wrong sym .datashape s rest c →
      Wrong sym .field (k :: .colon :: s) rest c
  | paren {pre s rest : List Tk} {c : Complaint} : Items sym .datashape pre → Wrong sym .datashape s rest c →
      Wrong sym .datashape (.lparen :: (pre ++ s)) rest c
  | result {ps s rest : List Tk} {c : Complaint} : Parameters sym ps → Wrong sym .datashape s rest c →
      Wrong sym .datashape (.lparen :: (ps ++ .rparen :: .rarrow :: s)) rest c
  | call {n : Str} {pre s rest : List Tk} {c k : Complaint} : Called sym n k → Items sym .arg pre → Wrong sym .arg s rest c →
      Wrong sym .datashape (.lower n :: .lbrack :: (pre ++ s)) rest c
  | callKeyword {n : Str} {pre kws s rest : List Tk} {c k : Complaint} : Called sym n k → Items sym .arg pre → Items sym .kwarg kws →
      FreeKeyword sym (kws ++ s) → Wrong sym .kwarg s rest c →
      Wrong sym .datashape (.lower n :: .lbrack :: (pre ++ (kws ++ s))) rest c
  | keyword {k : Str} {s rest : List Tk} {c : Complaint} : Wrong sym .arg s rest c → Wrong sym .kwarg (.lower k :: .equal :: s) rest c
  | arg {s rest : List Tk} {c : Complaint} : Wrong sym .datashape s rest c → Wrong sym .arg s rest c
  | list {pre s rest : List Tk} {c : Complaint} : Items sym .datashape pre → Wrong sym .datashape s rest c →
      Wrong sym .arg (.lbrack :: (pre ++ s)) rest c
  -- no datashape after `dim *`
  | noElement {ds rest : List Tk} {d : Ty} : DimG sym ds d → Nothing sym rest → Wrong sym .datashape (ds ++ .star :: rest) rest .noElement
  | noOptionElement {ds s : List Tk} {d : Ty} : DimG sym ds d → Nothing sym s →
      Wrong sym .datashape (ds ++ .star :: .qmark :: s) (.qmark :: s) .noElement
  -- no field name after `{` or `,`
  | noName {pre rest : List Tk} : Items sym .field pre → (∀ k n, rest.head? = some k → ¬ FieldName k n) →
      rest.head? ≠ some .rbrace → Wrong sym .datashape (.lbrace :: (pre ++ rest)) rest .badField
  -- no colon after a field name, and no type after the colon
  | noColon {k : Tk} {n : Str} {rest : List Tk} : FieldName k n → rest.head? ≠ some .colon → Wrong sym .field (k :: rest) rest .noColon
  | noType {k : Tk} {n : Str} {rest : List Tk} : FieldName k n → Nothing sym rest → Wrong sym .field (k :: .colon :: rest) rest .noFieldType
  | noOptionType {k : Tk} {n : Str} {rest : List Tk} : FieldName k n → Nothing sym rest →
      Wrong sym .field (k :: .colon :: .qmark :: rest) rest .noFieldType
  -- neither `,` nor `}` after a field
  | afterField {pre ts rest : List Tk} {f : Str × Ty} : Items sym .field pre → G sym false .field ts f → Apart ts rest →
      rest.head? ≠ some .comma → rest.head? ≠ some .rbrace → Wrong sym .datashape (.lbrace :: (pre ++ (ts ++ rest))) rest .badField
  -- neither a type nor `)` after `(` or `,`
  | noItem {pre rest : List Tk} : Items sym .datashape pre → Nothing sym rest → rest.head? ≠ some .rparen →
      Wrong sym .datashape (.lparen :: (pre ++ rest)) rest .badItem
  -- neither `,` nor `)` after an item
  | afterItem {pre ts rest : List Tk} {t : Ty} : Items sym .datashape pre → G sym false .datashape ts t → Apart ts rest →
      rest.head? ≠ some .comma → rest.head? ≠ some .rparen → Wrong sym .datashape (.lparen :: (pre ++ (ts ++ rest))) rest .badItem
  -- no type after `->`
  | noResult {ps rest : List Tk} : Parameters sym ps → Nothing sym rest →
      Wrong sym .datashape (.lparen :: (ps ++ .rparen :: .rarrow :: rest)) rest .noResult
  -- no argument between `[` and `]`
  | noArguments {n : Str} {s : List Tk} : TypeConstr sym n → Wrong sym .datashape (.lower n :: .lbrack :: .rbrack :: s) (.rbrack :: s) .noArguments
  -- neither an argument nor `]` after `[` or `,`
  | noArgument {n : Str} {pre rest : List Tk} {k : Complaint} : Called sym n k → Items sym .arg pre → Nothing sym rest → ¬ LiteralNext rest →
      NoKeyword rest → rest.head? ≠ some .lbrack → rest.head? ≠ some .rbrack →
      Wrong sym .datashape (.lower n :: .lbrack :: (pre ++ rest)) rest k
  -- neither `,` nor `]` after an argument
  | afterArgument {n : Str} {pre ts rest : List Tk} {a : Arg} {k : Complaint} : Called sym n k → Items sym .arg pre → G sym false .arg ts a →
      Apart ts rest → rest.head? ≠ some .comma → rest.head? ≠ some .rbrack →
      Wrong sym .datashape (.lower n :: .lbrack :: (pre ++ (ts ++ rest))) rest k
  -- no keyword argument after a keyword argument and a comma
  | noKeyword {n : Str} {pre kws rest : List Tk} {k : Complaint} : Called sym n k → Items sym .arg pre → Items sym .kwarg kws → kws ≠ [] →
      FreeKeyword sym kws → NoKeyword rest → Wrong sym .datashape (.lower n :: .lbrack :: (pre ++ (kws ++ rest))) rest .notKeyword
  -- neither `,` nor `]` after a keyword argument
  | afterKeyword {n : Str} {pre kws ts rest : List Tk} {p : Str × Arg} {k : Complaint} : Called sym n k → Items sym .arg pre →
      Items sym .kwarg kws → G sym false .kwarg ts p → FreeKeyword sym (kws ++ ts) → Apart ts rest →
      rest.head? ≠ some .comma → rest.head? ≠ some .rbrack →
      Wrong sym .datashape (.lower n :: .lbrack :: (pre ++ (kws ++ (ts ++ rest)))) rest k
  -- nothing after `keyword =`
  | noValue {k : Str} {rest : List Tk} : Nothing sym rest → ¬ LiteralNext rest → rest.head? ≠ some .lbrack →
      Wrong sym .kwarg (.lower k :: .equal :: rest) rest .noValue
  -- nothing that may be in a list after `[`
  | noElements {rest : List Tk} : Nothing sym rest → ¬ LiteralNext rest → rest.head? ≠ some .rbrack →
      Wrong sym .arg (.lbrack :: rest) rest .badList
  -- neither `,` nor `]` after the types of a list, or no type after the comma
  | afterListItem {pre ts rest : List Tk} {t : Ty} : Items sym .datashape pre → G sym false .datashape ts t → Apart ts rest →
      rest.head? ≠ some .comma → rest.head? ≠ some .rbrack → Wrong sym .arg (.lbrack :: (pre ++ (ts ++ rest))) rest .openList
  | noListItem {pre rest : List Tk} : Items sym .datashape pre → pre ≠ [] → Nothing sym rest →
      Wrong sym .arg (.lbrack :: (pre ++ rest)) rest (.mixedList (py"datashape"))
  -- neither `,` nor `]` after the literals of a list, or no literal of the same kind after the comma
  | afterLiterals {l : List Lit} {rest : List Tk} : litList l → Apart (l.map Lit.tok) rest → rest.head? ≠ some .comma →
      rest.head? ≠ some .rbrack → Wrong sym .arg (.lbrack :: (commas (l.map Lit.tok) ++ rest)) rest .openList
  | noLiteral {l : List Lit} {x : Lit} {rest : List Tk} : litList l → x ∈ l → (∀ y : Lit, rest.head? = some y.tok → ¬ litList (l ++ [y])) →
      Wrong sym .arg (.lbrack :: (commas (l.map Lit.tok) ++ .comma :: rest)) rest (.mixedList (literalKind x))

/-- `WrongText sym s rest c`: the tokens `s` are no datashape, since the first token of `rest` cannot come where it does; `c` says
why. -/
inductive WrongText (sym : Sym) : List Tk → List Tk → Complaint → Prop where
  | inside {s rest c} : Wrong sym .datashape s rest c → WrongText sym s rest c
  | nothing {s} : Nothing sym s → WrongText sym s s .noDatashape
  | option {s} : Nothing sym s → WrongText sym (.qmark :: s) s .noDatashape
  | more {ts rest : List Tk} {t : Ty} : G sym false .datashape ts t → Apart ts rest → rest ≠ [] → WrongText sym (ts ++ rest) rest .tooMuch

/-- The offset of what comes after the tokens `before`: the beginning of the next token; at the end of the text, the end of the
last token. -/
def offsetBetween (before after : List Token) : Nat :=
  match after.head?, before.getLast? with
  | some t, _ => t.start
  | none, some t => t.stop
  | none, none => 0

end DS
