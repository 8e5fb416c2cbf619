import Verif.Proofs.DepthBound
import Verif.Proofs.Broken
import Verif.Props.Parsing

/-
C03: parsing takes a number of steps, and a depth of nested calls, that are linear in the length of the text.
-/
namespace DS

theorem lexed_length {k : Nat} {s : Str} {toks : List Token} (h : Lexed k s toks) : toks.length ≤ s.length := by
  induction h with
  | done _ => simp
  | tok _ hw _ _ ih =>
    have := List.length_pos_iff.2 (spells_ne hw)
    simp only [List.length_cons, List.length_append]
    omega

theorem broken_length {t s : Str} {k : Nat} {toks : List Token} {e : PyErr} (h : Broken t k s toks e) : toks.length ≤ s.length := by
  induction h with
  | string => simp
  | stuck => simp
  | tok _ hw _ _ ih =>
    have := List.length_pos_iff.2 (spells_ne hw)
    simp only [List.length_cons, List.length_append]
    omega

theorem lex_length (s : Str) : (lex s).1.length ≤ s.length := by
  generalize h : lex s = r
  obtain ⟨toks, b⟩ := r
  cases b with
  | none => exact lexed_length ((lex_iff s toks).1 h)
  | some e => exact broken_length ((lex_broken_iff s toks e).1 h)

/-- **C03.** Counting the steps of the parser does not change what it computes. -/
theorem C03.steps_result (sym : Sym) (bad : Option PyErr) (toks : List Tk) : (parseToksK sym bad toks).2 = parseToks sym bad toks :=
  parseToks_steps toks

/-- **C03.** The parser takes at most 40 steps (calls of its methods) for each token, and 17 more: whatever the tokens, whatever
comes out, and also when the lexer raises. -/
theorem C03.linear (sym : Sym) (hT : sym.Truthy) (bad : Option PyErr) (toks : List Tk) :
    (parseToksK sym bad toks).1.steps ≤ 40 * toks.length + 17 := parseToks_bound hT toks

/-- **C03.** In terms of the length of the text, with the default symbol table. -/
theorem C03.linear_text (env : Env) (nest : Str → Except PyErr Ty) (disc : List Lit → Except PyErr Ty) (text : Str) :
    (parseToksK (defaultSym env nest disc) (lex text).2 ((lex text).1.map (·.tk))).1.steps ≤ 40 * text.length + 17 := by
  have h := C03.linear (defaultSym env nest disc) (defaultSym_truthy env nest disc) (lex text).2 ((lex text).1.map (·.tk))
  have := lex_length text
  simp only [List.length_map] at h
  omega

/-- **C03.** The calls of the parser's methods are nested at most five deep for each token, and five more, so a text of fewer than
190 tokens does not come near Python's limit on recursion in the parser. -/
theorem C03.depth (sym : Sym) (bad : Option PyErr) (toks : List Tk) : (parseToksK sym bad toks).1.depth ≤ 5 * toks.length + 5 :=
  parseToks_deep toks

/-- `string[[3, 'A']` takes 28 steps: the list is tried as a list of types, then as a list of integers; the error is at `'A'`.
`3 * int32` takes 13. `(((((x`, where nothing is read, takes 42 with 30 calls nested: five for each parenthesis. -/
example (env : Env) (nest : Str → Except PyErr Ty) (disc : List Lit → Except PyErr Ty) :
    let sym := defaultSym env nest disc
    (parseToksK sym none [.lower (py"string"), .lbrack, .lbrack, .int 3, .comma, .str (py"A"), .rbrack]).1 = ⟨28, 12⟩ ∧
    (parseToksK sym none [.lower (py"string"), .lbrack, .lbrack, .int 3, .comma, .str (py"A"), .rbrack]).2 =
      .error (.tok 2 (.uniform (py"integer"))) ∧
    (parseToksK sym none [.int 3, .star, .lower (py"int32")]).1 = ⟨13, 7⟩ ∧
    (parseToksK sym none [.lparen, .lparen, .lparen, .lparen, .lparen, .lower (py"x")]).1 = ⟨42, 30⟩ := ⟨rfl, rfl, rfl, rfl⟩

end DS
