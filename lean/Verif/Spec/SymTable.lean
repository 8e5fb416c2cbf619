import Verif.Spec.Grammar
import Verif.Spec.Complaints

/-
Symbol tables of the user's own: `parse(text, sym)`.
-/
namespace DS

/-- `TypeSymbolTable(bare=True)`: no entries (type_symbol_table.py:136-143) -/
def bareSym : Sym := ⟨fun _ => none, fun _ => none, fun _ => none, fun _ => none⟩

/-- Every entry of `sym` is in `sym'`, and what is a type constructor of `sym` but no dimension constructor is no dimension
constructor of `sym'` either. -/
structure Sym.Extends (sym sym' : Sym) : Prop where
  dtype : ∀ n t, sym.dtype n = some t → sym'.dtype n = some t
  dtypeConstr : ∀ n c, sym.dtypeConstr n = some c → sym'.dtypeConstr n = some c
  dim : ∀ n t, sym.dim n = some t → sym'.dim n = some t
  dimConstr : ∀ n c, sym.dimConstr n = some c → sym'.dimConstr n = some c
  apart : ∀ n c, sym.dtypeConstr n = some c → sym.dimConstr n = none → sym'.dimConstr n = none

/-- What may stand in front of a construct: dimensions, each followed by `*`, and an option sign in front of any of them or of
the construct. -/
inductive LeadIn (sym : Sym) : List Tk → Prop where
  | nil : LeadIn sym []
  | option : LeadIn sym [.qmark]
  | dim {ds d ts} : DimG sym ds d → LeadIn sym ts → LeadIn sym (ds ++ .star :: ts)
  | optionDim {ds d ts} : DimG sym ds d → LeadIn sym ts → LeadIn sym (.qmark :: (ds ++ .star :: ts))

/-- What may come after a datashape: the end, a comma or a closing bracket. -/
def After (rest : List Tk) : Prop := rest = [] ∨ ∃ t r, rest = t :: r ∧ t ∈ [Tk.comma, .rbrack, .rbrace, .rparen]

/-- `Lacks sym ts rest k c`: the tokens `ts`, followed by `rest`, are written with a piece of syntax for which the symbol table
has no entry; the error is at the token number `k` of `ts`, and `c` says which entry. -/
inductive Lacks (sym : Sym) : List Tk → List Tk → Nat → Complaint → Prop where
  /-- `{name: type, ...}` -/
  | struct {ts rest : List Tk} {fs : List (Str × Ty)} {comma : List Tk} : sym.dtypeConstr (py"struct") = none →
      G sym true .fieldList ts fs → (comma = [] ∨ comma = [.comma]) → Lacks sym (.lbrace :: (ts ++ comma ++ [.rbrace])) rest 0
      (.noEntry (py"struct") (py"{...} dtype constructor"))
  | emptyStruct {rest : List Tk} : sym.dtypeConstr (py"struct") = none → Lacks sym [.lbrace, .rbrace] rest 0
      (.noEntry (py"struct") (py"{...} dtype constructor"))
  /-- `(type, ...)` -/
  | tuple {ts rest : List Tk} {l : List Ty} {comma : List Tk} : sym.dtypeConstr (py"tuple") = none →
      G sym true .dsList ts l → (comma = [] ∨ comma = [.comma]) → rest.head? ≠ some .rarrow →
      Lacks sym (.lparen :: (ts ++ comma ++ [.rparen])) rest 0
      (.noEntry (py"tuple") (py"(...) dtype constructor"))
  | emptyTuple {rest : List Tk} : sym.dtypeConstr (py"tuple") = none → rest.head? ≠ some .rarrow →
      Lacks sym [.lparen, .rparen] rest 0
      (.noEntry (py"tuple") (py"(...) dtype constructor"))
  /-- `(type, ...) -> type` -/
  | func {ts us rest : List Tk} {l : List Ty} {comma : List Tk} {r : Ty} : sym.dtypeConstr (py"funcproto") = none →
      G sym true .dsList ts l → (comma = [] ∨ comma = [.comma]) → G sym true .datashape us r → After rest →
      Lacks sym (.lparen :: (ts ++ comma ++ .rparen :: .rarrow :: us)) rest 0
      (.noEntry (py"funcproto") (py"(...) -> ... dtype constructor"))
  | emptyFunc {us rest : List Tk} {r : Ty} : sym.dtypeConstr (py"funcproto") = none → G sym true .datashape us r →
      After rest → Lacks sym (.lparen :: .rparen :: .rarrow :: us) rest 0
      (.noEntry (py"funcproto") (py"(...) -> ... dtype constructor"))
  /-- `?type` -/
  | option {ts rest : List Tk} {t : Ty} : sym.dtypeConstr (py"option") = none → G sym true .nooption ts t → After rest →
      Lacks sym (.qmark :: ts) rest 0
      (.noEntry (py"option") (py"option dtype construction"))
  /-- `Name`, as a type -/
  | typevar {v : Str} {rest : List Tk} : sym.dtypeConstr (py"typevar") = none → rest.head? ≠ some .ellipsis →
      rest.head? ≠ some .star → Lacks sym [.upper v] rest 0
      (.noEntry (py"typevar") (py"TypeVar dtype constructor"))
  /-- `Name *` -/
  | typevarDim {v : Str} {rest : List Tk} : sym.dimConstr (py"typevar") = none → Lacks sym [.upper v, .star] rest 0
      (.noEntry (py"typevar") (py"TypeVar dim constructor"))
  /-- `Name...` -/
  | ellipsisTypevar {v : Str} {rest : List Tk} : sym.dimConstr (py"ellipsis") = none → Lacks sym [.upper v, .ellipsis] rest 0
      (.noEntry (py"ellipsis") (py"TypeVar... dim constructor"))
  /-- `...` -/
  | ellipsis {rest : List Tk} : sym.dim (py"ellipsis") = none → Lacks sym [.ellipsis] rest 0
      (.noEntry (py"ellipsis") (py"... dim"))
  /-- `3 *`: the error is at the star -/
  | fixed {v : Int} {rest : List Tk} : sym.dimConstr (py"fixed") = none → Lacks sym [.int v, .star] rest 1
      (.noEntry (py"fixed") (py"integer dimensions"))

end DS
