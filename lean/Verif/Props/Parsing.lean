import Verif.Proofs.SymSep
import Verif.Proofs.Layout

/-
C03-C07: the lexer and the parser.

`disc` is `datashape.discover` on a tuple of literals (only called by `categorical[...]` without `type=`); the
theorems hold for every such function that itself returns or raises (`Returns`).
-/
namespace DS

/-- a call that returns or raises a Python exception: the model did not run out of fuel -/
def Returns {α : Type} (x : Except PyErr α) : Prop := x ≠ .error .fuel

theorem Returns.nfp {α : Type} {x : Except PyErr α} (h : Returns x) : NFP x := by
  intro e he hf; subst hf; exact h he

theorem NFE.returns {α : Type} {x : Except PyErr α} (h : NFE (· ≠ .fuel) x) : Returns x :=
  fun he => h _ he rfl

/-! ### C03: termination -/

/-- The lexer terminates on every string. -/
theorem C03.lexer (text : Str) : (lex text).2 ≠ some .fuel := lex_no_fuel text

/-- Constructors of a symbol table all return or raise. -/
structure Sym.Total (sym : Sym) : Prop where
  constr : ∀ n c args kw, sym.dtypeConstr n = some c → Returns (c args kw)
  dim : ∀ n c l, sym.dimConstr n = some c → Returns (c l)

theorem Sym.Total.noFuel {sym : Sym} (h : sym.Total) : sym.NoFuel (· ≠ .fuel) (fun _ => True) where
  constr n c args kw hc _ _ := (h.constr n c args kw hc).nfp
  dim n c l hc := (h.dim n c l hc).nfp
  typevar c v hc := (h.constr _ c _ _ hc).nfp
  struct c l ts hc := (h.constr _ c _ _ hc).nfp

/-- The parser terminates on every string, for every symbol table whose constructors terminate. -/
theorem C03.parser (sym : Sym) (hS : sym.Total) (hT : sym.Truthy) (text : Str) : Returns (parse sym text) :=
  parse_nf hS.noFuel hT text (fun t _ => by cases t.tk <;> trivial)

/-- The fuel is immaterial: `parse_datashape` satisfies the recursion equation of the Python method, in which the
recursive calls have no bound. -/
theorem C03.parse_datashape_eq (sym : Sym) (hS : sym.Total) (hT : sym.Truthy) (bad : Option PyErr)
    (hb : bad ≠ some .fuel) (s : List Tk) :
    parseDatashape sym bad s = parseDatashapeF sym bad (parseDatashape sym bad) s := by
  have hb' : ∀ e, bad = some e → e ≠ .fuel := fun e he h => hb (h ▸ he)
  have hn : ∀ n (s : List Tk), s.length < n → NF (· ≠ .fuel) (parseDatashapeN sym bad n s) := fun n s h =>
    parseDatashapeN_nf (B := fun _ => True) hS.noFuel hT errOk_fuel hb' n s h
      (fun t _ => by cases t <;> trivial)
  have hle : LeF (parseDatashapeN sym bad s.length) (parseDatashape sym bad) := by
    intro u
    by_cases hu : u.length < s.length
    · right
      rcases Nat.le_total (u.length + 1) s.length with h | h
      · exact (parseDatashapeN_mono h (hn _ u (by omega))).symm
      · exact parseDatashapeN_mono h (hn _ u hu)
    · obtain ⟨k, hk⟩ : ∃ k, u.length + 1 = s.length + k := ⟨u.length + 1 - s.length, by omega⟩
      rw [parseDatashape, hk]
      exact parseDatashapeN_le_add s.length k u
  have := parseDatashapeF_le (SymLe.refl sym) hle (bad := bad) s
  have h0 := hn (s.length + 1) s (by omega)
  rw [parseDatashapeN] at h0
  rcases this with h | h
  · exact absurd rfl (h0 _ h)
  · rw [parseDatashape, parseDatashapeN, h]

/-- `dshape(s)` terminates on every string. -/
theorem C03.dshape (env : Env) (disc : List Lit → Except PyErr Ty) (hd : ∀ l, Returns (disc l)) (s : Str) :
    Returns (dshape env disc s) := (dshape_nf env (fun l => (hd l).nfp) s).returns

/-- `dshape` satisfies the recursion equation of the Python function: parse with the default symbol table, whose
constructors call `dshape` again on strings, then validate. -/
theorem C03.dshape_recursion (env : Env) (disc : List Lit → Except PyErr Ty) (hd : ∀ l, Returns (disc l)) (s : Str) :
    DS.dshape env disc s = match parse (defaultSym env (DS.dshape env disc) disc) s with
      | .ok t => if validOk t then .ok t else .error .typeError
      | .error e => .error e := dshape_eq env (fun l => (hd l).nfp) s

/-- the hypotheses are met by the default symbol table -/
theorem C03.default (env : Env) (disc : List Lit → Except PyErr Ty) (hd : ∀ l, Returns (disc l)) :
    (defaultSym env (DS.dshape env disc) disc).Total ∧ (defaultSym env (DS.dshape env disc) disc).Truthy := by
  have hn := fun n => defaultSym_noFuel (n := n) ctorOk_fuel env (nest := DS.dshape env disc) (disc := disc)
    (fun s _ => (C03.dshape env disc hd s).nfp) (fun l => (hd l).nfp)
  refine ⟨⟨?_, fun n c l hc => NFE.returns ((hn 0).dim n c l hc)⟩, defaultSym_truthy _ _ _⟩
  intro n c args kw hc
  -- a bound on the lengths of the strings among the arguments
  obtain ⟨m, h1, h2⟩ : ∃ m, (∀ a ∈ args, ArgIn (fun s => s.length < m) a) ∧ (∀ p ∈ kw, ArgIn (fun s => s.length < m) p.2) := by
    have one : ∀ a : Arg, ∃ m, ∀ m' ≥ m, ArgIn (fun s => s.length < m') a := by
      intro a
      cases a with
      | lit l =>
        cases l with
        | str s => exact ⟨s.length + 1, fun m' h => by simp [ArgIn]; omega⟩
        | _ => exact ⟨0, fun m' h => by simp [ArgIn]⟩
      | ds t => exact ⟨0, fun m' h => by simp [ArgIn]⟩
      | dss t => exact ⟨0, fun m' h => by simp [ArgIn]⟩
      | lits l =>
        induction l with
        | nil => exact ⟨0, fun m' h => by simp [ArgIn]⟩
        | cons a l ih =>
          obtain ⟨m, hm⟩ := ih
          cases a with
          | str s =>
            refine ⟨max m (s.length + 1), fun m' h => ?_⟩
            have := hm m' (by omega)
            simp [ArgIn] at this ⊢
            exact ⟨by omega, this⟩
          | _ => exact ⟨m, fun m' h => by have := hm m' h; simp [ArgIn] at this ⊢; exact this⟩
    have many : ∀ l : List Arg, ∃ m, ∀ m' ≥ m, ∀ a ∈ l, ArgIn (fun s => s.length < m') a := by
      intro l
      induction l with
      | nil => exact ⟨0, by simp⟩
      | cons a l ih =>
        obtain ⟨m, hm⟩ := ih
        obtain ⟨k, hk⟩ := one a
        exact ⟨max m k, fun m' h => List.forall_mem_cons.2 ⟨hk m' (by omega), hm m' (by omega)⟩⟩
    obtain ⟨a, ha⟩ := many args
    obtain ⟨b, hb⟩ := many (kw.map (·.2))
    refine ⟨max a b, ha _ (by omega), fun p hp => hb _ (by omega) _ (List.mem_map.2 ⟨p, hp, rfl⟩)⟩
  exact ((hn m).constr n c args kw hc h1 h2).returns

/-! ### C04: the lexer is lossless -/

section
variable {text : Str} {toks : List Token}

/-- The spans are not empty, lie inside the text, and the slice of a span spells the token. -/
theorem C04.span (h : lex text = (toks, none)) (t : Token) (ht : t ∈ toks) :
    t.start < t.stop ∧ t.stop ≤ text.length ∧ Spells (slice text t.start t.stop) t.tk := by
  obtain ⟨l, r, rfl⟩ := List.append_of_mem ht
  obtain ⟨pre, post, e, hs, _, _, hsp, _, hlt, _⟩ := ((lex_iff _ _).1 h).split l r t rfl
  simp only [Nat.sub_zero] at hsp
  exact ⟨hlt, by rw [hs, e]; simp, hsp⟩

/-- The spans are in order and disjoint. -/
theorem C04.ordered (h : lex text = (toks, none)) : toks.Pairwise (fun a b => a.stop ≤ b.start) := by
  have := (lexLoop_spans text (text.length + 1) (skipWs false text) _ (skipWs_length _ _) rfl).2.1
  rw [lex] at h; rwa [h] at this

/-- Before the first token there is nothing but white space and comments. -/
theorem C04.before (t : Token) (r : List Token) (h : lex text = (t :: r, none)) :
    Blank false (slice text 0 t.start) := by
  obtain ⟨g, rest, e, hs, hg, _⟩ := ((lex_iff _ _).1 h).first
  have : slice text 0 t.start = g := by
    rw [e, hs]; simpa using slice_mid [] g rest 0 g.length rfl (by simp)
  rw [this]; exact hg

/-- Between two tokens there is nothing but white space and comments. -/
theorem C04.between (l r : List Token) (t u : Token) (h : lex text = (l ++ t :: u :: r, none)) :
    Blank false (slice text t.stop u.start) := by
  obtain ⟨pre, post, e, hs, _, hl, _⟩ := ((lex_iff _ _).1 h).split l (u :: r) t rfl
  obtain ⟨g, rest, e', hs', hg, _⟩ := hl.first
  have : slice text t.stop u.start = g := by
    rw [e, e']; exact slice_mid pre g rest _ _ (by omega) hs'
  rw [this]; exact hg

/-- After the last token there is nothing but white space and comments (the last comment may be unfinished). -/
theorem C04.after (l : List Token) (t : Token) (h : lex text = (l ++ [t], none)) :
    Blank true (slice text t.stop text.length) := by
  obtain ⟨pre, post, e, hs, _, hl, _⟩ := ((lex_iff _ _).1 h).split l [] t rfl
  have : slice text t.stop text.length = post := by
    rw [e]; simpa using slice_mid pre post [] _ _ (by omega) (by simp; omega)
  rw [this]
  generalize hn : ([] : List Token) = nl at hl
  cases hl with
  | done h => exact h
  | tok => cases hn

/-- A text without tokens is nothing but white space and comments. -/
theorem C04.empty (h : lex text = ([], none)) : Blank true text := by
  have hl := (lex_iff _ _).1 h
  generalize hn : ([] : List Token) = nl at hl
  cases hl with
  | done h => exact h
  | tok => cases hn

end

/-- Exactness: the lexer accepts a text with a list of tokens exactly when the text is a sequence of blanks and
longest spellings of these tokens. -/
theorem C04.exact (text : Str) (toks : List Token) : lex text = (toks, none) ↔ Lexed 0 text toks := lex_iff text toks

/-- a non-trivial text: `3 * {a: int32} # c` -/
example : ∃ toks, lex (py"3 * {a: int32} # c") = (toks, none) ∧ toks.length = 7 := ⟨_, rfl, rfl⟩

/-! ### C05: syntax errors point into the source -/

/-- A syntax error raised by `dshape(s)` carries a text and an offset inside that text; the text is `s` itself, or
(when a string nested in `s` is parsed, as in `option["..."]`) a shorter text. -/
theorem C05.offset (env : Env) (disc : List Lit → Except PyErr Ty) (hd : ∀ l, Returns (disc l))
    (hds : ∀ l tx p m, disc l ≠ .error (.syntax tx p m)) (s tx : Str) (p : Nat) (m : Str)
    (h : dshape env disc s = .error (.syntax tx p m)) :
    p ≤ tx.length ∧ (tx = s ∨ tx.length < s.length) := by
  generalize hn : s.length = n
  induction n using Nat.strongRecOn generalizing s tx p m with
  | ind n ih =>
    let E : PyErr → Prop := fun e => e ≠ .fuel ∧
      (∀ tx p m, e = .syntax tx p m → p ≤ tx.length ∧ (tx = s ∨ tx.length < s.length))
    have hE : CtorOk E := by refine ⟨⟨?_, ?_, ?_⟩, ?_, ?_, ?_, ?_, ?_⟩ <;> exact ⟨by simp, by simp⟩
    have hN := defaultSym_noFuel (n := s.length) hE env (nest := dshape env disc) (disc := disc)
      (fun u hu e he => by
        refine ⟨fun hf => C03.dshape env disc hd u (hf ▸ he), ?_⟩
        intro tx p m hsyn
        have := ih u.length (by omega) u tx p m (hsyn ▸ he) rfl
        refine ⟨this.1, .inr ?_⟩
        rcases this.2 with h | h
        · rw [h]; exact hu
        · omega)
      (fun l e he => ⟨fun hf => hd l (hf ▸ he), fun tx p m hsyn => absurd (hsyn ▸ he) (hds l tx p m)⟩)
    have hp := parse_err hE.toErrOk hN (defaultSym_truthy env (dshape env disc) disc) s
      (fun p _ hp => ⟨by simp, fun tx q _ he => by cases he; exact ⟨hp, .inl rfl⟩⟩)
      (fun t ht => by
        cases htk : t.tk with
        | str v => exact lex_str s t ht v htk
        | _ => trivial)
    rw [C03.dshape_recursion env disc hd] at h
    cases hps : parse (defaultSym env (dshape env disc) disc) s with
    | ok t => rw [hps] at h; simp only at h; split at h <;> cases h
    | error e =>
      rw [hps] at h
      cases h
      have := (hp _ hps).2 tx p m rfl
      rw [← hn]; exact this

theorem rfindNL_spec (text : Str) (pos : Nat) (hp : pos ≤ text.length) :
    match rfindNL text pos with
    | none => 10 ∉ text.take pos
    | some i => ∃ a b, text.take pos = a ++ 10 :: b ∧ a.length = i ∧ 10 ∉ b := by
  have key : ∀ l : Str, (match l.findIdx? (· == 10) with
      | none => 10 ∉ l
      | some i => ∃ a b, l = a ++ 10 :: b ∧ a.length = i ∧ 10 ∉ a) := by
    intro l
    induction l with
    | nil => simp
    | cons c l ih =>
      rw [List.findIdx?_cons]
      by_cases hc : c = 10
      · subst hc; simp; exact ⟨[], ⟨l, rfl⟩, by simp⟩
      · have : (c == 10) = false := by simpa using hc
        rw [this]
        simp only [Bool.false_eq_true, if_false]
        cases hl : l.findIdx? (· == 10) with
        | none => rw [hl] at ih; simp at ih ⊢; exact ⟨Ne.symm hc, ih⟩
        | some i =>
          rw [hl] at ih
          obtain ⟨a, b, rfl, rfl, ha⟩ := ih
          exact ⟨c :: a, b, rfl, rfl, by simp [ha, Ne.symm hc]⟩
  have := key (text.take pos).reverse
  simp only [rfindNL]
  cases hf : (text.take pos).reverse.findIdx? (· == 10) with
  | none => rw [hf] at this; simpa using this
  | some i =>
    rw [hf] at this
    obtain ⟨a, b, e, hl, ha⟩ := this
    have e' : text.take pos = b.reverse ++ 10 :: a.reverse := by
      have := congrArg List.reverse e
      simpa using this
    refine ⟨b.reverse, a.reverse, e', ?_, by simpa using ha⟩
    rw [e]; simp; omega

theorem findNL_spec (text : Str) (pos : Nat) :
    match findNL text pos with
    | none => 10 ∉ text.drop pos
    | some i => ∃ a b, text.drop pos = a ++ 10 :: b ∧ i = pos + a.length ∧ 10 ∉ a := by
  unfold findNL
  generalize text.drop pos = l
  induction l with
  | nil => simp
  | cons c l ih =>
    rw [List.findIdx?_cons]
    by_cases hc : c = 10
    · subst hc; simp; exact ⟨[], ⟨l, rfl⟩, by simp⟩
    · have : (c == 10) = false := by simpa using hc
      rw [this]
      simp only [Bool.false_eq_true, if_false]
      cases hl : l.findIdx? (· == 10) with
      | none => rw [hl] at ih; simp at ih ⊢; exact ⟨Ne.symm hc, ih⟩
      | some i =>
        rw [hl] at ih
        simp only [Option.map_some] at ih ⊢
        obtain ⟨a, b, rfl, hi, ha⟩ := ih
        exact ⟨c :: a, b, rfl, by simp; omega, by simp [ha, Ne.symm hc]⟩

/-- The reported line is a whole line of the text: it contains no newline, what precedes it is empty or ends in a
newline, what follows is empty or starts with one; `lineno` counts the newlines before it, starting with 1; and the
column is the distance of the offset from the start of the line. -/
theorem C05.line (text : Str) (lexpos : Nat) (hp : lexpos ≤ text.length) :
    ∃ pre post, text = pre ++ ((mkSyntaxErr text lexpos).line ++ post) ∧ 10 ∉ (mkSyntaxErr text lexpos).line ∧
      (pre = [] ∨ pre.getLast? = some 10) ∧ (post = [] ∨ post.head? = some 10) ∧
      (mkSyntaxErr text lexpos).lineno = pre.count 10 + 1 ∧
      pre.length + (mkSyntaxErr text lexpos).colOffset = lexpos ∧
      (mkSyntaxErr text lexpos).colOffset ≤ (mkSyntaxErr text lexpos).line.length := by
  have h1 := rfindNL_spec text lexpos hp
  have h2 := findNL_spec text lexpos
  -- split the text at the offset
  obtain ⟨pre, left, e1, hl, hpre, hls⟩ : ∃ pre left, text.take lexpos = pre ++ left ∧ 10 ∉ left ∧
      (pre = [] ∨ pre.getLast? = some 10) ∧
      (match rfindNL text lexpos with | none => 0 | some i => i + 1) = pre.length := by
    cases hf : rfindNL text lexpos with
    | none => rw [hf] at h1; exact ⟨[], _, rfl, h1, .inl rfl, rfl⟩
    | some i =>
      rw [hf] at h1
      obtain ⟨a, b, e, hi, hb⟩ := h1
      exact ⟨a ++ [10], b, by simp [e], hb, .inr (by simp), by simp [hi]⟩
  obtain ⟨right, post, e2, hr, hpost, hle⟩ : ∃ right post, text.drop lexpos = right ++ post ∧ 10 ∉ right ∧
      (post = [] ∨ post.head? = some 10) ∧
      (match findNL text lexpos with | none => text.length | some i => i) = lexpos + right.length := by
    cases hf : findNL text lexpos with
    | none =>
      rw [hf] at h2
      refine ⟨_, [], (List.append_nil _).symm, h2, .inl rfl, ?_⟩
      simp; omega
    | some i =>
      rw [hf] at h2
      obtain ⟨a, b, e, hi, ha⟩ := h2
      exact ⟨a, 10 :: b, e, ha, .inr rfl, hi⟩
  have hlen : lexpos = pre.length + left.length := by
    have := congrArg List.length e1; simp at this; omega
  have htext : text = pre ++ (left ++ (right ++ post)) := by
    rw [← List.append_assoc, ← e1, ← e2, List.take_append_drop]
  have hline : (mkSyntaxErr text lexpos).line = left ++ right := by
    have h : (mkSyntaxErr text lexpos).line = (text.take (lexpos + right.length)).drop pre.length := by
      rw [← hls, ← hle]; rfl
    rw [h, htext, hlen]
    have : pre ++ (left ++ (right ++ post)) = (pre ++ (left ++ right)) ++ post := by simp
    rw [this, List.take_left' (by simp; omega)]
    simp
  have hcol : (mkSyntaxErr text lexpos).colOffset = left.length := by
    have h : (mkSyntaxErr text lexpos).colOffset = lexpos - pre.length := by rw [← hls]; rfl
    omega
  have hno : (mkSyntaxErr text lexpos).lineno = pre.count 10 + 1 := by
    simp only [mkSyntaxErr, e1, List.count_append, List.count_eq_zero_of_not_mem hl]
  refine ⟨pre, post, ?_, ?_, hpre, hpost, hno, ?_, ?_⟩
  · rw [hline, htext]; simp
  · rw [hline]; simp [hl, hr]
  · rw [hcol, hlen]
  · rw [hcol, hline]; simp

/-- a concrete error: `dshape('{a: int32\n b}')` complains about the `b` in line 2, column 1 -/
example (env : Env) (disc : List Lit → Except PyErr Ty) :
    dshape env disc (py"{a: int32\n b}") = .error (.syntax (py"{a: int32\n b}") 11
      (py"Invalid field in struct")) ∧
    mkSyntaxErr (py"{a: int32\n b}") 11 = { lineno := 2, line := py" b}", colOffset := 1 } := ⟨rfl, rfl⟩

end DS
