import Verif.Spec.CallErrors
import Verif.Spec.Lexical

/-
Specification for C64: which exceptions `dshape` raises on a text, and what in the text they come from.
-/
namespace DS

/-- `StrShape q body`: `body` is what the lexer accepts between two quotes `q`. -/
inductive StrShape (q : Nat) : Str → Prop where
  | nil : StrShape q []
  | raw {c r} : c ≠ q → c ≠ 10 → c ≠ 13 → c ≠ 92 → StrShape q r → StrShape q (c :: r)
  | hex {a b c d w x y z r} : HexDigit a w → HexDigit b x → HexDigit c y → HexDigit d z → StrShape q r →
      StrShape q (92 :: 117 :: a :: b :: c :: d :: r)
  | esc {e r} : e ∈ [q, 98, 102, 110, 114, 116] → StrShape q r → StrShape q (92 :: e :: r)

/-- A quoted text that Python cannot evaluate: it contains a NUL or a surrogate. -/
def BadString (w : Str) : Prop :=
  ∃ q body, (q = 34 ∨ q = 39) ∧ w = q :: (body ++ [q]) ∧ StrShape q body ∧ ∃ c ∈ body, c = 0 ∨ (0xd800 ≤ c ∧ c ≤ 0xdfff)

/-- `Broken n text toks e`: the text, starting at offset `n`, is a sequence of blanks and spellings of `toks` up to a place where
the exception `e` is raised: a `ValueError` at a string that Python cannot evaluate, and a syntax error at the offset (in
`whole`) of anything else that no token starts with. -/
inductive Broken (whole : Str) : Nat → Str → List Token → PyErr → Prop where
  | string {n g w rest} : Blank false g → BadString w → Broken whole n (g ++ (w ++ rest)) [] .valueError
  | stuck {n g rest} : Blank false g → rest ≠ [] → (∀ c, rest.head? = some c → isSpace c = false ∧ c ≠ 35) →
      (∀ w t r, rest = w ++ r → Munch t r → ¬ Spells w t) → (∀ w r, rest = w ++ r → ¬ BadString w) →
      Broken whole n (g ++ rest) [] (.syntax whole (n + g.length) (py"Invalid DataShape token"))
  | tok {n g w t rest ts e} : Blank false g → Spells w t → Munch t rest →
      Broken whole (n + g.length + w.length) rest ts e →
      Broken whole n (g ++ (w ++ rest)) (⟨t, n + g.length, n + g.length + w.length⟩ :: ts) e

/-- The text, up to its end or to a place where no token begins, consists of the tokens `toks` and possibly more. -/
def Begins (text : Str) (toks : List Token) : Prop :=
  ∃ more, Lexed 0 text (toks ++ more) ∨ ∃ e, Broken text 0 text (toks ++ more) e

/-- What an argument that is not a string raises as the name of a type variable. -/
inductive NotASymbol : Arg → PyErr → Prop where
  | int (i : Int) : NotASymbol (.lit (.int i)) .typeError
  | bool (b : Bool) : NotASymbol (.lit (.bool b)) .typeError
  | ds (ps : List Ty) : NotASymbol (.ds (.dshape ps)) .attributeError
  | lits {l r} : (∀ s, l ≠ .str s) → NotASymbol (.lits (l :: r)) .attributeError
  | dss (t : Ty) (r) : NotASymbol (.dss (t :: r)) .attributeError
  | noLits : NotASymbol (.lits []) .indexError
  | noDss : NotASymbol (.dss []) .indexError
  /-- outside of the model: a list that begins with a string -/
  | strings (s : Str) (r) : NotASymbol (.lits (.str s :: r)) .unmodelled

/-- `Cause env disc ts e`: the tokens `ts` are a complete construct that raises `e`, although it has the right form. -/
inductive Cause (env : Env) (disc : List Lit → Except PyErr Ty) : List Tk → PyErr → Prop where
  /-- `-3 *` -/
  | negative {v : Int} : v < 0 → Cause env disc [.int v, .star] .valueError
  /-- `fixed[...]`, `typevar[...]`, `ellipsis[...]` -/
  | dimension {n ts a} : n ∈ [py"fixed", py"typevar", py"ellipsis"] → G (theSym env disc) true .argList ts a →
      Cause env disc (.lower n :: .lbrack :: (ts ++ [.rbrack])) .notImplemented
  /-- a call of a type constructor that raises -/
  | call {n ts args kw e} : n ∈ callable → G (theSym env disc) true .argList ts (args, kw) → (args, kw) ≠ ([], []) →
      CallRaises env disc n args kw e → Cause env disc (.lower n :: .lbrack :: (ts ++ [.rbrack])) e
  /-- a record with a name that occurs twice -/
  | record {ts comma} {fs : List (Str × Ty)} : G (theSym env disc) true .fieldList ts fs → (comma = [] ∨ comma = [.comma]) →
      ¬ (fs.map (·.1)).Nodup → Cause env disc (.lbrace :: (ts ++ comma ++ [.rbrace])) .valueError
  /-- `typevar[...]` after a dimension without `*`, where it is read as a type -/
  | typevar {ts args kw} : G (theSym env disc) true .argList ts (args, kw) → (¬ ∃ a, Binds [py"name"] args kw [some a]) →
      Cause env disc (.lower (py"typevar") :: .lbrack :: (ts ++ [.rbrack])) .typeError
  | typevarName {ts args kw c r} : G (theSym env disc) true .argList ts (args, kw) → Binds [py"name"] args kw [some (.lit (.str (c :: r)))] →
      env.isUpper c = false → Cause env disc (.lower (py"typevar") :: .lbrack :: (ts ++ [.rbrack])) .valueError
  | typevarEmpty {ts args kw} : G (theSym env disc) true .argList ts (args, kw) → Binds [py"name"] args kw [some (.lit (.str []))] →
      Cause env disc (.lower (py"typevar") :: .lbrack :: (ts ++ [.rbrack])) .indexError
  | typevarOther {ts args kw a e} : G (theSym env disc) true .argList ts (args, kw) → Binds [py"name"] args kw [some a] →
      NotASymbol a e → Cause env disc (.lower (py"typevar") :: .lbrack :: (ts ++ [.rbrack])) e

/-- The tokens of a text, up to the place where the lexer raises, if it does. -/
def Tokens (s : Str) (ts : List Tk) : Prop :=
  ∃ toks, ts = toks.map (·.tk) ∧ (Lexed 0 s toks ∨ ∃ e, Broken s 0 s toks e)

/-- What may stand in front of a construct: dimensions, each followed by `*`, and an option sign in front of any of them or of
the construct. -/
inductive Lead (env : Env) (disc : List Lit → Except PyErr Ty) : List Tk → Prop where
  | nil : Lead env disc []
  | option : Lead env disc [.qmark]
  | dim {ds d ts} : DimG (theSym env disc) ds d → Lead env disc ts → Lead env disc (ds ++ .star :: ts)
  | optionDim {ds d ts} : DimG (theSym env disc) ds d → Lead env disc ts → Lead env disc (.qmark :: (ds ++ .star :: ts))

end DS
