import Verif.Model.Lexer

/-
Specification of the lexical grammar, written as relations between text and tokens, independently of
the scanner functions.
-/
namespace DS

/-- Text that means nothing: white space and comments. `last` tells whether the text ends the input, where
a comment need not be closed by a newline. -/
inductive Blank : (last : Bool) → Str → Prop where
  | nil {b} : Blank b []
  | space {b c r} : isSpace c = true → Blank b r → Blank b (c :: r)
  | comment {b body r} : 10 ∉ body → Blank b r → Blank b (35 :: (body ++ 10 :: r))
  | final {body} : 10 ∉ body → Blank true (35 :: body)

/-- the character `c` is the hexadecimal digit `n`, in lower or upper case -/
def HexDigit (c n : Nat) : Prop := (py"0123456789abcdef")[n]? = some c ∨ (py"0123456789ABCDEF")[n]? = some c

/-- `StrBody q body v`: the text `body` between quotes `q` denotes the Python string `v`. -/
inductive StrBody (q : Nat) : Str → Str → Prop where
  | nil : StrBody q [] []
  | raw {c r v} : c ≠ q → c ≠ 10 → c ≠ 13 → c ≠ 92 → c ≠ 0 → ¬ (0xd800 ≤ c ∧ c ≤ 0xdfff) →
      StrBody q r v → StrBody q (c :: r) (c :: v)
  | hex {a b c d w x y z r v} : HexDigit a w → HexDigit b x → HexDigit c y → HexDigit d z → StrBody q r v →
      StrBody q (92 :: 117 :: a :: b :: c :: d :: r) ((4096 * w + 256 * x + 16 * y + z) :: v)
  | esc {e x r v} : (e, x) ∈ [(q, q), (98, 8), (102, 12), (110, 10), (114, 13), (116, 9)] → StrBody q r v →
      StrBody q (92 :: e :: r) (x :: v)

/-- an identifier: a start character followed by letters, digits and underscores -/
def Word (start : Nat → Bool) (w : Str) : Prop := ∃ c r, w = c :: r ∧ start c = true ∧ ∀ x ∈ r, isWord x = true

/-- `Spells w t`: the text `w` is a spelling of the token `t`. -/
def Spells (w : Str) : Tk → Prop
  | .bool true => w = py"True"
  | .bool false => w = py"False"
  | .lower s => w = s ∧ Word isLower s
  | .upper s => w = s ∧ Word isUpperA s
  | .other s => w = s ∧ Word (· == 95) s
  | .star => w = py"*"
  | .comma => w = py","
  | .equal => w = py"="
  | .colon => w = py":"
  | .lbrack => w = py"["
  | .rbrack => w = py"]"
  | .lbrace => w = py"{"
  | .rbrace => w = py"}"
  | .lparen => w = py"("
  | .rparen => w = py")"
  | .ellipsis => w = py"..."
  | .rarrow => w = py"->"
  | .qmark => w = py"?"
  | .int i => w = intStr i
  | .str v => ∃ q body, (q = 34 ∨ q = 39) ∧ w = q :: (body ++ [q]) ∧ StrBody q body v

/-- Longest match: the text that follows a token cannot extend it. A name that starts with `True` or `False` is
not a name token (the BOOLEAN alternative comes first). -/
def Munch (t : Tk) (rest : Str) : Prop :=
  match t with
  | .lower _ | .other _ => ∀ c, rest.head? = some c → isWord c = false
  | .upper s => (∀ c, rest.head? = some c → isWord c = false) ∧
      ¬ (py"True") <+: s ∧ ¬ (py"False") <+: s
  | .int _ => ∀ c, rest.head? = some c → isDigit c = false
  | _ => True

/-- `Lexed n text toks`: `text`, starting at offset `n`, is a sequence of blanks and spellings of `toks`, and
every token carries the offsets of its spelling. -/
inductive Lexed : Nat → Str → List Token → Prop where
  | done {n g} : Blank true g → Lexed n g []
  | tok {n g w t rest ts} : Blank false g → Spells w t → Munch t rest →
      Lexed (n + g.length + w.length) rest ts →
      Lexed n (g ++ (w ++ rest)) (⟨t, n + g.length, n + g.length + w.length⟩ :: ts)

end DS
