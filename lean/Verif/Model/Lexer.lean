import Verif.Model.Basic

/-
datashape/lexer.py and datashape/error.py.

The regular expressions are unfolded into scanner functions on lists of code points.
-/
namespace DS

/-- The tokens of `_tokens` (lexer.py:23-45) with their values. -/
inductive Tk where
  | bool (b : Bool)
  | lower (s : Str)
  | upper (s : Str)
  | other (s : Str)
  | star | comma | equal | colon
  | lbrack | rbrack | lbrace | rbrace | lparen | rparen
  | ellipsis | rarrow | qmark
  | int (i : Int)
  | str (s : Str)
  deriving DecidableEq, Repr

/-- `s` starts with `p`; the rest of `s` -/
def dropPrefix? : Str → Str → Option Str
  | [], s => some s
  | _ :: _, [] => none
  | a :: p, b :: s => if a = b then dropPrefix? p s else none

/-- Value of a sequence of decimal digits, continuing from `acc` (Python `int()`).
Simplification: the limit of 4300 digits of newer Pythons is not modelled. -/
def digitsVal (acc : Nat) (s : Str) : Nat := s.foldl (fun a c => 10 * a + (c - 48)) acc

/-- value of a hexadecimal digit -/
def hexVal (c : Nat) : Nat := if isDigit c then c - 48 else if c ≥ 97 then c - 87 else c - 55

/-- value of a sequence of hexadecimal digits -/
def hexSeq (s : Str) : Nat := s.foldl (fun a c => 16 * a + hexVal c) 0

/-- Body of a STRING token delimited by `q` (lexer.py:42-43): `[^q\n\r\\] | \\uXXXX | \\[qbfnrt]`
up to the closing quote. Returns the value, whether a raw character that `ast.parse` rejects occurs
(NUL, lone surrogates), and the rest of the input. The alternatives start with different characters, so the
regular expression does not backtrack. The value is the one Python assigns to the literal (`_str_val`,
lexer.py:17-20). -/
def scanStr (q : Nat) : Str → Option (Str × Bool × Str)
  | [] => none
  | 92 :: 117 :: a :: b :: c :: d :: r =>
    if isHex a && isHex b && isHex c && isHex d then
      (scanStr q r).map fun (v, bad, rest) => (hexSeq [a, b, c, d] :: v, bad, rest)
    else none
  | 92 :: e :: r =>
    let put (x : Nat) := (scanStr q r).map fun (v, bad, rest) => (x :: v, bad, rest)
    if e = q then put q
    else if e = 98 then put 8        -- \b
    else if e = 102 then put 12      -- \f
    else if e = 110 then put 10      -- \n
    else if e = 114 then put 13      -- \r
    else if e = 116 then put 9       -- \t
    else none
  | c :: r =>
    if c = q then some ([], false, r)
    else if c = 10 ∨ c = 13 ∨ c = 92 then none
    else (scanStr q r).map fun (v, bad, rest) =>
      (c :: v, bad || c == 0 || (0xd800 ≤ c && c ≤ 0xdfff), rest)

/-- A STRING token: rest of the input and the value, or the `ValueError` of `ast.parse`. -/
def scanString (q : Nat) (s : Str) : Option (Except PyErr Tk × Str) :=
  (scanStr q s).map fun (v, bad, rest) => (if bad then .error .valueError else .ok (.str v), rest)

/-- The alternatives of `_tokens` (lexer.py:25-45) after BOOLEAN, for text starting with the character `c`. -/
def scanChar (c : Nat) (r : Str) : Option (Except PyErr Tk × Str) :=
  if isLower c then some (.ok (.lower (c :: r.takeWhile isWord)), r.dropWhile isWord)
  else if isUpperA c then some (.ok (.upper (c :: r.takeWhile isWord)), r.dropWhile isWord)
  else if c = 95 then some (.ok (.other (c :: r.takeWhile isWord)), r.dropWhile isWord)
  else if c = 42 then some (.ok .star, r)
  else if c = 44 then some (.ok .comma, r)
  else if c = 61 then some (.ok .equal, r)
  else if c = 58 then some (.ok .colon, r)
  else if c = 91 then some (.ok .lbrack, r)
  else if c = 93 then some (.ok .rbrack, r)
  else if c = 123 then some (.ok .lbrace, r)
  else if c = 125 then some (.ok .rbrace, r)
  else if c = 40 then some (.ok .lparen, r)
  else if c = 41 then some (.ok .rparen, r)
  else if c = 46 then (dropPrefix? (py"..") r).map fun r' => (.ok .ellipsis, r')
  else if c = 63 then some (.ok .qmark, r)
  else if c = 48 then
    (match r with
     | d :: _ => if isDigit d then none else some (.ok (.int 0), r)
     | [] => some (.ok (.int 0), r))
  else if isDigit c then
    some (.ok (.int (digitsVal 0 (c :: r.takeWhile isDigit))), r.dropWhile isDigit)
  else if c = 45 then
    (match r with
     | d :: r' =>
       if d = 62 then some (.ok .rarrow, r')
       else if isDigit d && d != 48 then
         some (.ok (.int (-(digitsVal 0 (d :: r'.takeWhile isDigit) : Nat))), r'.dropWhile isDigit)
       else none
     | [] => none)
  else if c = 34 then scanString 34 r
  else if c = 39 then scanString 39 r
  else none

/-- `_tokens_re.match` (lexer.py:23-56): the alternatives in order; the first that matches wins.
Returns the token (or the exception raised while computing its value) and the rest of the input. -/
def scanTok (s : Str) : Option (Except PyErr Tk × Str) :=
  match dropPrefix? (py"True") s with
  | some r => some (.ok (.bool true), r)
  | none =>
  match dropPrefix? (py"False") s with
  | some r => some (.ok (.bool false), r)
  | none =>
  match s with
  | [] => none
  | c :: r => scanChar c r

/-- `(?:\s|(?:#.*$))*` with `re.MULTILINE` (lexer.py:52, 57). The flag tells whether we are inside a
comment; `.` does not match a newline, and `$` matches there or at the end. -/
def skipWs : (inComment : Bool) → Str → Str
  | _, [] => []
  | true, c :: r => if c = 10 then skipWs false r else skipWs true r
  | false, c :: r => if isSpace c then skipWs false r else if c = 35 then skipWs true r else c :: r

/-- A token with the start and end offsets of its span. -/
structure Token where
  tk : Tk
  start : Nat
  stop : Nat
  deriving DecidableEq, Repr

/-- The main loop of `lex` (lexer.py:75-102) from offset `len - s.length`: the tokens produced and the
exception that ends the generator, if any. `text` is the whole input. -/
def lexLoop (text : Str) : Nat → Str → List Token × Option PyErr
  | 0, _ => ([], some .fuel)
  | fuel + 1, s =>
    if s.isEmpty then ([], none)
    else
      let pos := text.length - s.length
      match scanTok s with
      | none => ([], some (.syntax text pos (py"Invalid DataShape token")))
      | some (.error e, _) => ([], some e)
      | some (.ok t, rest) =>
        let (ts, e) := lexLoop text fuel (skipWs false rest)
        (⟨t, pos, text.length - rest.length⟩ :: ts, e)

/-- `lex(ds_str)` (lexer.py:61-102). The fuel is always enough (`lex_no_fuel`). -/
def lex (text : Str) : List Token × Option PyErr := lexLoop text (text.length + 1) (skipWs false text)

/-! ### `DataShapeSyntaxError` (error.py:12-32) -/

/-- the fields computed by `DataShapeSyntaxError.__init__` -/
structure SyntaxErr where
  lineno : Nat
  line : Str
  colOffset : Nat
  deriving DecidableEq, Repr

/-- `text.rfind('\n', 0, pos)`: last newline before `pos` -/
def rfindNL (text : Str) (pos : Nat) : Option Nat :=
  let pre := (text.take pos).reverse
  match pre.findIdx? (· == 10) with
  | none => none
  | some i => some (pre.length - 1 - i)

/-- `text.find('\n', pos)`: first newline at or after `pos` -/
def findNL (text : Str) (pos : Nat) : Option Nat :=
  (text.drop pos).findIdx? (· == 10) |>.map (· + pos)

/-- `DataShapeSyntaxError.__init__`: error.py:16-32 -/
def mkSyntaxErr (text : Str) (lexpos : Nat) : SyntaxErr :=
  let lineno := (text.take lexpos).count 10 + 1
  let linestart := match rfindNL text lexpos with | none => 0 | some i => i + 1
  let lineend := match findNL text lexpos with | none => text.length | some i => i
  { lineno, line := (text.take lineend).drop linestart, colOffset := lexpos - linestart }

end DS
