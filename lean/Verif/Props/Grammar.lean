import Verif.Props.Parsing

/-
C06: what the parser accepts, and C07: white space and comments.
-/
namespace DS

section
variable (env : Env) (disc : List Lit → Except PyErr Ty) (hd : ∀ l, Returns (disc l))

/-- the symbol table used by `dshape` -/
abbrev theSym : Sym := defaultSym env (dshape env disc) disc

include hd

/-- what `dshape` returns, in terms of the tokens of the text -/
theorem dshape_ok_iff (s : Str) (t : Ty) : dshape env disc s = .ok t ↔
    parse (theSym env disc) s = .ok t ∧ validOk t = true := by
  rw [C03.dshape_recursion env disc hd]
  cases parse (defaultSym env (dshape env disc) disc) s with
  | error e => simp
  | ok u =>
    simp only
    split
    · rename_i hv
      constructor
      · intro h; cases h; exact ⟨rfl, hv⟩
      · intro h; exact h.1
    · rename_i hv
      constructor
      · intro h; cases h
      · intro h; cases h.1; exact absurd h.2 hv

/-- Soundness: if `dshape(s)` returns `t`, all of `s` is read, and its tokens derive from the start symbol of the
grammar, with value `t`; `q = true` allows the undocumented productions listed in Spec/Grammar.lean. -/
theorem C06.sound (s : Str) (t : Ty) (h : dshape env disc s = .ok t) :
    ∃ toks, lex s = (toks, none) ∧ G (theSym env disc) true .datashape (toks.map (·.tk)) t ∧ validOk t = true := by
  obtain ⟨hp, hv⟩ := (dshape_ok_iff env disc hd s t).1 h
  obtain ⟨toks, hl, hg⟩ := parse_sound (defaultSym_truthy env _ disc) hp
  exact ⟨toks, hl, hg, hv⟩

/-- Completeness: if the tokens of `s` derive from the start symbol of the documented grammar with a valid value
`t`, then `dshape(s)` returns exactly `t`. -/
theorem C06.complete (s : Str) (toks : List Token) (t : Ty) (hl : lex s = (toks, none))
    (hg : G (theSym env disc) false .datashape (toks.map (·.tk)) t) (hv : validOk t = true) :
    dshape env disc s = .ok t :=
  (dshape_ok_iff env disc hd s t).2
    ⟨parse_complete (defaultSym_truthy env _ disc) (defaultSym_sep env _ disc) hl hg, hv⟩

/-- Exactly: `dshape(s)` returns `t` if and only if the tokens of `s` derive from the start symbol, with the valid
value `t`, in the documented grammar extended with the skipped tokens (`q = true`). -/
theorem C06.exact (s : Str) (t : Ty) : dshape env disc s = .ok t ↔
    ∃ toks, lex s = (toks, none) ∧ G (theSym env disc) true .datashape (toks.map (·.tk)) t ∧ validOk t = true :=
  ⟨C06.sound env disc hd s t, fun ⟨_, hl, hg, hv⟩ => (dshape_ok_iff env disc hd s t).2
    ⟨parse_complete (defaultSym_truthy env _ disc) (defaultSym_sep env _ disc) hl hg, hv⟩⟩

omit hd in
/-- What the documented grammar derives, the extended one derives, with the same value. -/
theorem C06.documented (toks : List Tk) (t : Ty) (h : G (theSym env disc) false .datashape toks t) :
    G (theSym env disc) true .datashape toks t :=
  parseToks_sound (defaultSym_truthy env _ disc)
    (parseToks_complete (defaultSym_truthy env _ disc) (defaultSym_sep env _ disc) h)

omit hd in
/-- The extended grammar is unambiguous too. -/
theorem C06.unambiguous_extended (toks : List Tk) (t u : Ty) (h : G (theSym env disc) true .datashape toks t)
    (h' : G (theSym env disc) true .datashape toks u) : t = u := by
  have h1 := parseToks_complete (defaultSym_truthy env _ disc) (defaultSym_sep env _ disc) h
  have h2 := parseToks_complete (defaultSym_truthy env _ disc) (defaultSym_sep env _ disc) h'
  rw [h1] at h2; cases h2; rfl

omit hd in
/-- The same for `parse(s, sym)` with any symbol table that has no empty type set, no name both as a dimension and as a
data type, and no constructor that takes a keyword of such a name. -/
theorem C06.any_table (sym : Sym) (hT : sym.Truthy) (hS : sym.Sep) (s : Str) (t : Ty) : parse sym s = .ok t ↔
    ∃ toks, lex s = (toks, none) ∧ G sym true .datashape (toks.map (·.tk)) t :=
  ⟨fun h => parse_sound hT h, fun ⟨_, hl, hg⟩ => parse_complete hT hS hl hg⟩

/-- The documented grammar is unambiguous: a token sequence has at most one value. -/
theorem C06.unambiguous (toks : List Tk) (t u : Ty) (h : G (theSym env disc) false .datashape toks t)
    (h' : G (theSym env disc) false .datashape toks u) : t = u := by
  have h1 := parseToks_complete (defaultSym_truthy env _ disc) (defaultSym_sep env _ disc) h
  have h2 := parseToks_complete (defaultSym_truthy env _ disc) (defaultSym_sep env _ disc) h'
  rw [h1] at h2; cases h2; rfl

/-- The parser's verdict depends only on the tokens. -/
theorem dshape_tokens {s s' : Str} {toks toks' : List Token} (h : lex s = (toks, none)) (h' : lex s' = (toks', none))
    (he : toks.map (·.tk) = toks'.map (·.tk)) (t : Ty) : dshape env disc s = .ok t ↔ dshape env disc s' = .ok t := by
  rw [dshape_ok_iff env disc hd, dshape_ok_iff env disc hd]
  have : parse (theSym env disc) s = .ok t ↔ parse (theSym env disc) s' = .ok t := by
    simp only [parse, h, h', he]
    cases parseToks (theSym env disc) none (toks'.map (·.tk)) with
    | ok u => simp
    | error f => cases f <;> simp
  rw [this]

omit hd in
theorem dshape_lexes {s : Str} {t : Ty} (hd : ∀ l, Returns (disc l)) (h : dshape env disc s = .ok t) :
    ∃ toks, lex s = (toks, none) := by
  obtain ⟨toks, hl, _⟩ := C06.sound env disc hd s t h
  exact ⟨toks, hl⟩

/-! ### C07 -/

/-- White space and comment lines in front of a datashape do not matter. -/
theorem C07.leading (g s : Str) (hg : Blank false g) (t : Ty) :
    dshape env disc (g ++ s) = .ok t ↔ dshape env disc s = .ok t := by
  constructor
  · intro h
    obtain ⟨toks, hl⟩ := dshape_lexes env disc hd h
    obtain ⟨ts', h', e'⟩ := ((lex_iff _ _).1 hl).unleading hg
    exact (dshape_tokens env disc hd hl ((lex_iff _ _).2 h') e'.symm t).1 h
  · intro h
    obtain ⟨toks, hl⟩ := dshape_lexes env disc hd h
    obtain ⟨ts', h', e'⟩ := ((lex_iff _ _).1 hl).shift (0 + g.length)
    exact (dshape_tokens env disc hd hl ((lex_iff _ _).2 (h'.leading hg rfl)) e'.symm t).1 h

/-- Trailing white space and a trailing comment do not matter. -/
theorem C07.trailing (s g : Str) (hg : Blank true g) (t : Ty) (h : dshape env disc s = .ok t) :
    dshape env disc (s ++ g) = .ok t := by
  obtain ⟨toks, hl⟩ := dshape_lexes env disc hd h
  exact (dshape_tokens env disc hd hl ((lex_iff _ _).2 (((lex_iff _ _).1 hl).trailing hg)) rfl t).1 h

/-- White space at the end does not matter, either way: `dshape(s + g)` returns what `dshape(s)` returns. (With a comment
in `g` only the direction above holds: `{'a` is no datashape, and `{'a#': int32}` is.) -/
theorem C07.trailing_space (s g : Str) (hg : ∀ c ∈ g, isSpace c = true) (t : Ty) :
    dshape env disc (s ++ g) = .ok t ↔ dshape env disc s = .ok t := by
  constructor
  · intro h
    obtain ⟨toks, hl⟩ := dshape_lexes env disc hd h
    have h' := Lexed.untrailing g s hg ((lex_iff _ _).1 hl)
    exact (dshape_tokens env disc hd hl ((lex_iff _ _).2 h') rfl t).1 h
  · refine C07.trailing env disc hd s g ?_ t
    clear hd t
    induction g with
    | nil => exact .nil
    | cons c g ih => exact .space (hg c (by simp)) (ih fun x hx => hg x (by simp [hx]))

/-- The white space and comments `g` between two tokens (the first ending where `a` ends, the second starting where
`b` starts) can be replaced by any other non-empty white space and comments. -/
theorem C07.between (a g b g' : Str) (l r : List Token) (x y : Token) (t : Ty)
    (hl : lex (a ++ (g ++ b)) = (l ++ x :: y :: r, none)) (hx : x.stop = a.length)
    (hy : y.start = a.length + g.length) (hg' : Blank false g') (hne : g' ≠ [])
    (h : dshape env disc (a ++ (g ++ b)) = .ok t) : dshape env disc (a ++ (g' ++ b)) = .ok t := by
  obtain ⟨pre, post, e, hs, hm, hpost, _, _, _, hrep⟩ := ((lex_iff _ _).1 hl).split l (y :: r) x rfl
  have hpre : pre = a ∧ post = g ++ b := by
    have : pre.length = a.length := by omega
    have := List.append_inj e this.symm
    exact ⟨this.1.symm, this.2.symm⟩
  obtain ⟨rfl, rfl⟩ := hpre
  obtain ⟨g0, rest, e0, hs0, hg0, hrest, _⟩ := hpost.first
  have hb : b = rest := by
    have : g.length = g0.length := by omega
    exact (List.append_inj e0 this).2
  subst hb
  obtain ⟨ts', h', e'⟩ := hrest.shift (x.stop + g'.length)
  have hnew := hrep (g' ++ b) ts' (hm.blank hg' hne) (h'.leading hg' rfl)
  exact (dshape_tokens env disc hd hl ((lex_iff _ _).2 hnew) (by simp [e']) t).1 h

/-- The white space and comments `g` between two tokens can be left out if what follows does not prolong the first token:
a name followed by no letter, digit or underscore, an integer followed by no digit, or any other token. -/
theorem C07.joined (a g b : Str) (l r : List Token) (x y : Token) (t : Ty)
    (hl : lex (a ++ (g ++ b)) = (l ++ x :: y :: r, none)) (hx : x.stop = a.length)
    (hy : y.start = a.length + g.length) (hb : Munch x.tk b) :
    dshape env disc (a ++ b) = .ok t ↔ dshape env disc (a ++ (g ++ b)) = .ok t := by
  obtain ⟨pre, post, e, hs, hm, hpost, _, _, _, hrep⟩ := ((lex_iff _ _).1 hl).split l (y :: r) x rfl
  have hpre : pre = a ∧ post = g ++ b := by
    have : pre.length = a.length := by omega
    have := List.append_inj e this.symm
    exact ⟨this.1.symm, this.2.symm⟩
  obtain ⟨rfl, rfl⟩ := hpre
  obtain ⟨g0, rest, e0, hs0, hg0, hrest, _⟩ := hpost.first
  have hb : b = rest := by
    have : g.length = g0.length := by omega
    exact (List.append_inj e0 this).2
  subst hb
  obtain ⟨ts', h', e'⟩ := hrest.shift x.stop
  have hnew := hrep b ts' hb h'
  exact (dshape_tokens env disc hd hl ((lex_iff _ _).2 hnew) (by simp [e']) t).symm

end

/-- the hypotheses of `C07.joined` are met: `3 *int32`, `3* int32` and `3*int32` -/
example : ∃ l r x y, lex (py"3 *" ++ ((py" ") ++ py"int32")) = (l ++ x :: y :: r, none) ∧ x.stop = (py"3 *").length ∧
    y.start = (py"3 *").length + (py" ").length ∧ Munch x.tk (py"int32") :=
  ⟨[⟨.int 3, 0, 1⟩], [], ⟨.star, 2, 3⟩, ⟨.lower (py"int32"), 4, 9⟩, rfl, rfl, rfl, trivial⟩

/-- the hypotheses of `C07.between` are met -/
example : ∃ l r x y, lex (py"3 *" ++ ((py" ") ++ py"int32")) = (l ++ x :: y :: r, none) ∧ x.stop = (py"3 *").length ∧
    y.start = (py"3 *").length + (py" ").length ∧ Blank false (py" # c\n ") := by
  refine ⟨[⟨.int 3, 0, 1⟩], [], ⟨.star, 2, 3⟩, ⟨.lower (py"int32"), 4, 9⟩, rfl, rfl, rfl, ?_⟩
  exact .space rfl (.comment (body := py" c") (by decide) (.space rfl .nil))

/-- a comment behind an open quote can close it: the converse of `C07.trailing` does not hold of comments -/
example (env : Env) (disc : List Lit → Except PyErr Ty) : Blank true (py"#': int32}") ∧
    dshape env disc (py"{'a" ++ py"#': int32}") = .ok (.dshape [.record [(py"a#", tInt32)]]) ∧
    dshape env disc (py"{'a") = .error (.syntax (py"{'a") 1 (py"Invalid DataShape token")) :=
  ⟨.final (by decide), rfl, rfl⟩

/-! ### Deviations from the documented grammar

Each input is accepted, but its tokens do not derive in the documented grammar. -/

theorem G.nooption_cases {sym : Sym} {ts : List Tk} {t : Ty} (h : G sym false .nooption ts t) (hs : .star ∉ ts) :
    ∃ u, G sym false .dtype ts u ∧ mkDS [u] = .ok t := by
  cases h with
  | dim => simp at hs
  | dtype h hm _ => exact ⟨_, h, hm⟩
  | dropped hq => cases hq

theorem G.datashape_cases {sym : Sym} {k : Tk} {ts : List Tk} {t : Ty} (h : G sym false .datashape (k :: ts) t)
    (hs : .star ∉ k :: ts) (hk : k ≠ .qmark) : ∃ u, G sym false .dtype (k :: ts) u ∧ mkDS [u] = .ok t := by
  generalize ha : k :: ts = all at h
  cases h with
  | plain h => subst ha; exact h.nooption_cases hs
  | option => cases ha; exact absurd rfl hk

/-- the documented grammar has no `dtype` that starts with a lower-case name followed by anything but `[` -/
theorem G.no_lower {sym : Sym} {n : Str} {k : Tk} {ts : List Tk} {u : Ty} (hk : k ≠ .lbrack) :
    ¬ G sym false .dtype (.lower n :: k :: ts) u := by
  intro h
  generalize ha : Tk.lower n :: k :: ts = all at h
  cases h with
  | name => cases ha
  | constr => cases ha; exact hk rfl
  | typevar => cases ha
  | struct => cases ha
  | emptyStruct => cases ha
  | tuple => cases ha
  | emptyTuple => cases ha
  | func => cases ha
  | emptyFunc => cases ha

/-- no `dtype` starts with `...` -/
theorem G.no_ellipsis {sym : Sym} {ts : List Tk} {u : Ty} : ¬ G sym false .dtype (.ellipsis :: ts) u := by
  intro h
  generalize ha : Tk.ellipsis :: ts = all at h
  cases h <;> cases ha

/-- `var int32`: a dimension without `*` is accepted and dropped. -/
theorem C06.dropped_var (env : Env) (disc : List Lit → Except PyErr Ty) :
    dshape env disc (py"var int32") = .ok (.dshape [tInt32]) ∧
    ∀ t, ¬ G (theSym env disc) false .datashape ((lex (py"var int32")).1.map (·.tk)) t := by
  refine ⟨rfl, fun t h => ?_⟩
  obtain ⟨u, hu, _⟩ := G.datashape_cases (k := .lower (py"var")) (ts := [.lower (py"int32")]) h (by decide) (by decide)
  exact G.no_lower (by decide) hu

/-- `... int32`: the same with an ellipsis. -/
theorem C06.dropped_ellipsis (env : Env) (disc : List Lit → Except PyErr Ty) :
    dshape env disc (py"... int32") = .ok (.dshape [tInt32]) ∧
    ∀ t, ¬ G (theSym env disc) false .datashape ((lex (py"... int32")).1.map (·.tk)) t := by
  refine ⟨rfl, fun t h => ?_⟩
  obtain ⟨u, hu, _⟩ := G.datashape_cases (k := .ellipsis) (ts := [.lower (py"int32")]) h (by decide) (by decide)
  exact G.no_ellipsis hu

/-- `string[?5]` is read as `string[5]`: a `?` in front of a non-datashape argument is dropped. -/
theorem C06.dropped_qmark (env : Env) (disc : List Lit → Except PyErr Ty) :
    dshape env disc (py"string[?5]") = dshape env disc (py"string[5]") ∧
    dshape env disc (py"string[5]") = .ok (.dshape [.string (some 5) (py"U8")]) := ⟨rfl, rfl⟩

/-- `(int32, ?)` and `string[5,]` are accepted. -/
theorem C06.dropped_tail (env : Env) (disc : List Lit → Except PyErr Ty) :
    dshape env disc (py"(int32, ?)") = .ok (.dshape [.tuple [.dshape [tInt32]]]) ∧
    dshape env disc (py"string[5,]") = .ok (.dshape [.string (some 5) (py"U8")]) := ⟨rfl, rfl⟩

/-- `typevar['T']`, the documented expansion of `T`, raises `NotImplementedError`, and so do the documented
dimension constructors `fixed[3]` and `ellipsis['T']`. -/
theorem C06.typevar_not_implemented (env : Env) (disc : List Lit → Except PyErr Ty) :
    dshape env disc (py"typevar['T']") = .error .notImplemented ∧
    dshape env disc (py"fixed[3] * int32") = .error .notImplemented ∧
    dshape env disc (py"ellipsis['T'] * int32") = .error .notImplemented := ⟨rfl, rfl, rfl⟩

/-- a non-trivial derivation in the documented grammar: `3 * var * {a: ?int32, b: string['ascii']}` -/
example (env : Env) (disc : List Lit → Except PyErr Ty) : ∃ toks t,
    lex (py"3 * var * {a: ?int32, b: string['ascii']}") = (toks, none) ∧
    G (theSym env disc) false .datashape (toks.map (·.tk)) t ∧ validOk t = true := by
  refine ⟨_, .dshape [.fixed 3, .var, .record [(py"a", .option tInt32), (py"b", .string none (py"A"))]], rfl, ?_, rfl⟩
  refine G.plain (G.dim (ds := [.int 3]) (.int (v := 3) rfl rfl) (t := .dshape [.var, .record [(py"a", .option tInt32), (py"b", .string none (py"A"))]]) (.plain (.dim (ds := [.lower (py"var")])
    (.name (d := .var) rfl) (.plain (.dtype (.struct (fs := [(py"a", .dshape [.option tInt32]), (py"b", .dshape [.string none (py"A")])]) (comma := [])
      (ts := [.lower (py"a"), .colon, .qmark, .lower (py"int32"), .comma, .lower (py"b"), .colon, .lower (py"string"), .lbrack, .str (py"ascii"), .rbrack])
      (.fieldCons (ts := [.lower (py"a"), .colon, .qmark, .lower (py"int32")])
        (.field .lower (.option (.dtype (.name rfl) rfl) rfl rfl rfl))
        (.fieldOne (.field .lower (.plain (.dtype (.constr (ts := [.str (py"ascii")]) (args := [.lit (.str (py"ascii"))]) (kw := []) rfl (fun _ => rfl) (.argsOne (.argLit (j := []) (l := .str _) .none)) (by simp) rfl) rfl)))))
      (.inl rfl) rfl rfl) rfl)) rfl)) rfl)

/-- a derivation with skipped tokens: `string[?5]` -/
example (env : Env) (disc : List Lit → Except PyErr Ty) : ∃ toks t, lex (py"string[?5]") = (toks, none) ∧
    G (theSym env disc) true .datashape (toks.map (·.tk)) t ∧ validOk t = true := by
  refine ⟨_, .dshape [.string (some 5) (py"U8")], rfl, .plain (.dtype
    (.constr (ts := [.qmark, .int 5]) (args := [.lit (.int 5)]) (kw := []) rfl (fun _ => rfl)
      (.argsOne (.argLit (j := [.qmark]) (l := .int 5) .qmark)) (by simp) rfl) rfl ?_), rfl⟩
  intro _ n r e
  cases e
  rfl

/-- `var typevar['T']` is accepted, although `typevar['T']` is not -/
example (env : Env) (disc : List Lit → Except PyErr Ty) :
    dshape env disc (py"var typevar['T']") = .ok (.dshape [.typevar (py"T")]) ∧
    dshape env disc (py"typevar['T']") = .error .notImplemented := ⟨rfl, rfl⟩

end DS
