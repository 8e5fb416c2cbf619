import Verif.Props.RoundTrip

/-
C01, the other direction: the conditions of the printable fragment on names and strings are exact, and what the
language cannot spell does not round-trip.
-/
namespace DS

/-! ### String literals -/

/-- a string body in front of more text -/
theorem scanStr_prefix {q : Nat} (hq : q = 34 ∨ q = 39) {body v : Str} (h : StrBody q body v) (rest : Str) :
    scanStr q (body ++ rest) = (scanStr q rest).map fun (w, bad, r) => (v ++ w, bad, r) := by
  induction h with
  | nil => simp
  | raw h1 h2 h3 h4 h5 h6 _ ih =>
    rw [List.cons_append, scanStr_raw h4, if_neg h1, if_neg (by omega), ih]
    cases scanStr q rest with
    | none => rfl
    | some x =>
      obtain ⟨w, b, r⟩ := x
      rename_i c _ _ _
      have e1 : (c == 0) = false := by simpa using h5
      have e2 : (decide (0xd800 ≤ c) && decide (c ≤ 0xdfff)) = false := by
        rw [Bool.and_eq_false_iff, decide_eq_false_iff_not, decide_eq_false_iff_not]; omega
      simp only [Option.map_some, e1, e2, Bool.or_false, List.cons_append]
  | hex ha hb hc hd _ ih =>
    obtain ⟨ga, rfl⟩ := hexDigit_iff.1 ha
    obtain ⟨gb, rfl⟩ := hexDigit_iff.1 hb
    obtain ⟨gc, rfl⟩ := hexDigit_iff.1 hc
    obtain ⟨gd, rfl⟩ := hexDigit_iff.1 hd
    simp only [List.cons_append, scanStr, ga, gb, gc, gd, Bool.and_self, if_true, ih, hexSeq_four]
    cases scanStr q rest <;> rfl
  | esc he _ ih =>
    simp only [List.cons_append]
    rw [scanStr_esc hq he, ih]
    cases scanStr q rest <;> rfl

/-- a character that is not spelled spoils the literal -/
theorem scanStr_unspelled {env : Env} {q c : Nat} (hq : q = 34 ∨ q = 39) (hc : spelledChar env c = false) (rest : Str) :
    ∀ x, scanStr q (reprChar env q c ++ rest) = some x → x.2.1 = true := by
  have bad : ∀ e r, e ≠ 117 → e ≠ q → e ≠ 98 → e ≠ 102 → e ≠ 110 → e ≠ 114 → e ≠ 116 → scanStr q (92 :: e :: r) = none := by
    intro e r h h1 h2 h3 h4 h5 h6
    rw [scanStr.eq_3 q e r (by intro a b c d r' h'; exact absurd h' h)]
    simp [h1, h2, h3, h4, h5, h6]
  intro x
  unfold spelledChar at hc
  unfold reprChar
  by_cases h127 : c < 127
  · simp only [h127, ite_true, Bool.or_eq_false_iff, Bool.and_eq_false_iff, decide_eq_false_iff_not, beq_eq_false_iff_ne, bne_eq_false_iff_eq] at hc
    by_cases h92 : c = 92
    · rw [if_pos (.inr h92), h92]
      rw [List.cons_append, List.cons_append, bad _ _ (by decide) (by omega) (by decide) (by decide) (by decide) (by decide) (by decide)]
      simp
    · rw [if_neg (by omega), if_neg (by omega), if_neg (by omega), if_neg (by omega), if_pos (by omega)]
      simp only [List.cons_append]
      rw [bad _ _ (by decide) (by omega) (by decide) (by decide) (by decide) (by decide) (by decide)]
      simp
  · simp only [h127, ite_false, Bool.and_eq_false_iff, bne_eq_false_iff_eq] at hc
    rw [if_neg (by omega), if_neg (by omega), if_neg (by omega), if_neg (by omega)]
    by_cases h7 : c = 127
    · rw [if_pos (.inr h7)]
      simp only [List.cons_append]
      rw [bad _ _ (by decide) (by omega) (by decide) (by decide) (by decide) (by decide) (by decide)]
      simp
    rw [if_neg (by omega), if_neg (by omega)]
    have hc := hc.resolve_left h7
    by_cases hp : env.printable c = true
    · simp only [hp, ite_true, Bool.not_eq_false', Bool.and_eq_true, decide_eq_true_eq] at hc ⊢
      rw [List.cons_append, List.nil_append, scanStr_raw (by omega), if_neg (by omega), if_neg (by omega)]
      cases scanStr q rest with
      | none => simp
      | some y => rintro h; simp only [Option.map_some, Option.some.injEq] at h; subst h; simp; omega
    · simp only [hp, Bool.false_eq_true, ite_false, Bool.and_eq_false_iff, decide_eq_false_iff_not] at hc ⊢
      by_cases hff : c ≤ 0xff
      · rw [if_pos hff]
        simp only [List.cons_append]
        rw [bad _ _ (by decide) (by omega) (by decide) (by decide) (by decide) (by decide) (by decide)]
        simp
      · rw [if_neg hff, if_neg (by omega)]
        simp only [List.cons_append]
        rw [bad _ _ (by decide) (by omega) (by decide) (by decide) (by decide) (by decide) (by decide)]
        simp

/-- `repr` of a string that is not spelled is not a string literal of the language -/
theorem scanStr_repr {env : Env} {q : Nat} (hq : q = 34 ∨ q = 39) (s rest : Str) (hs : spelledStr env s = false) :
    ∀ x, scanStr q (s.flatMap (reprChar env q) ++ q :: rest) = some x → x.2.1 = true := by
  induction s with
  | nil => cases hs
  | cons c s ih =>
    intro x
    rw [List.flatMap_cons, List.append_assoc]
    cases hc : spelledChar env c with
    | false => exact scanStr_unspelled hq hc _ x
    | true =>
      have hs' : spelledStr env s = false := by
        simp only [spelledStr, List.all_cons, hc, Bool.true_and] at hs; exact hs
      rw [scanStr_prefix hq (reprChar_body hq hc)]
      intro h
      obtain ⟨y, hy, rfl⟩ := Option.map_eq_some_iff.1 h
      exact ih hs' y hy

theorem scanTok_repr {env : Env} {s rest : Str} (hs : spelledStr env s = false) (t : Tk) (r : Str) :
    scanTok (pyRepr env s ++ rest) ≠ some (.ok t, r) := by
  intro h
  have hq := reprQuote_or s
  have : scanTok (pyRepr env s ++ rest) = scanString (reprQuote s) (s.flatMap (reprChar env (reprQuote s)) ++ reprQuote s :: rest) := by
    simp only [pyRepr, List.append_assoc, List.cons_append, List.nil_append]
    generalize hX : (s.flatMap (reprChar env (reprQuote s)) ++ reprQuote s :: rest) = X
    rcases hq with e | e <;> rw [e] <;> rfl
  rw [this, scanString] at h
  obtain ⟨x, hx, hx'⟩ := Option.map_eq_some_iff.1 h
  have hb := scanStr_repr hq s rest hs x hx
  obtain ⟨v, bad, r'⟩ := x
  simp only at hb
  subst hb
  cases hx'

/-- the first token of a text that does not start with blanks -/
theorem Lexed.head {n c : Nat} {X : Str} {ts : List Token} (h : Lexed n (c :: X) ts) (hc : isSpace c = false) (h35 : c ≠ 35) :
    ∃ t rest ts' a, scanTok (c :: X) = some (.ok t, rest) ∧ ts = a :: ts' ∧ a.tk = t ∧ ∃ m, Lexed m rest ts' := by
  have hs : skipWs false (c :: X) = c :: X := by simp [skipWs, hc, h35]
  generalize hX : c :: X = s at h hs ⊢
  cases h with
  | done hg =>
    have := skipWs_blank hg [] (fun _ => rfl)
    rw [List.append_nil, hs] at this
    subst hX; cases this
  | @tok _ g w t rest ts hg hw hm hr =>
    have := skipWs_blank hg (w ++ rest) (by simp)
    rw [hs, spells_head hw] at this
    rw [this]
    exact ⟨t, rest, ts, _, scanTok_complete hw hm, rfl, rfl, _, hr⟩

theorem Lexed.head_eq {n c : Nat} {X r : Str} {k : Tk} {ts : List Token} (h : Lexed n (c :: X) ts) (hc : isSpace c = false) (h35 : c ≠ 35)
    (hk : scanTok (c :: X) = some (.ok k, r)) : ∃ ts' a, ts = a :: ts' ∧ a.tk = k ∧ ∃ m, Lexed m r ts' := by
  obtain ⟨t, rest, ts', a, h1, h2, h3, h4⟩ := h.head hc h35
  rw [hk] at h1
  cases h1
  exact ⟨ts', a, h2, h3, h4⟩

/-- a text with such a literal in it after some tokens does not lex -/
theorem Lexed.no_repr {env : Env} {n : Nat} {s rest : Str} (hs : spelledStr env s = false) {ts : List Token}
    (h : Lexed n (pyRepr env s ++ rest) ts) : False := by
  have hq := reprQuote_or s
  have e : pyRepr env s ++ rest = reprQuote s :: (s.flatMap (reprChar env (reprQuote s)) ++ reprQuote s :: rest) := by
    simp [pyRepr]
  have hn := scanTok_repr (rest := rest) hs
  rw [e] at h hn
  obtain ⟨t, r, _, _, h1, _⟩ := h.head (by rcases hq with e | e <;> rw [e] <;> rfl) (by rcases hq with e | e <;> rw [e] <;> decide)
  exact hn t r h1

section
variable (env : Env) (disc : List Lit → Except PyErr Ty) (hd : ∀ l, Returns (disc l))

/-- `DataShape(Record([(n, int32)]))` -/
def oneField (n : Str) : Ty := .dshape [.record [(n, tInt32)]]

theorem oneField_str (n : Str) : pyStr env (oneField n) = layout 123 125 [] [fieldName env n ++ py": int32"] 80 := by
  simp [pyStr, oneField, render, renderF, renderL, join, tInt32]

theorem oneField_text (n : Str) (h : 10 ∉ fieldName env n) :
    ∃ W X, pyStr env (oneField n) = 123 :: (W ++ (fieldName env n ++ X)) ∧ Blank false W := by
  rw [oneField_str]
  simp only [layout]
  split
  · exact ⟨[], py": int32}", by simp [join], .nil⟩
  · refine ⟨[10, 32, 32], py": int32\n  }", ?_, .space rfl (.space rfl (.space rfl .nil))⟩
    simp only [join, List.append_assoc, List.nil_append]
    rw [replaceNL_append, replaceNL_append, replaceNL_id h]
    rfl

theorem nl_hexStr (k n : Nat) : 10 ∉ hexStr k n := by
  have hd : ∀ m, m < 16 → hexDigit m ≠ 10 := by
    intro m hm e
    have := (hexDigit_ok hm).1
    rw [e] at this; cases this
  induction k generalizing n with
  | zero => simp [hexStr]
  | succ k ih =>
    simp only [hexStr, List.mem_append, List.mem_singleton, not_or]
    exact ⟨ih _, fun e => hd _ (Nat.mod_lt _ (by decide)) e.symm⟩

theorem nl_repr (s : Str) : 10 ∉ pyRepr env s := by
  have hq := reprQuote_or s
  simp only [pyRepr, List.mem_append, List.mem_singleton, List.mem_flatMap, not_or, not_exists, not_and]
  refine ⟨⟨by omega, fun c _ => ?_⟩, by omega⟩
  generalize reprQuote s = q at hq
  unfold reprChar
  by_cases h1 : c = q ∨ c = 92
  · rw [if_pos h1]; simp; omega
  rw [if_neg h1]
  by_cases h2 : c = 9
  · rw [if_pos h2]; decide
  rw [if_neg h2]
  by_cases h3 : c = 10
  · rw [if_pos h3]; decide
  rw [if_neg h3]
  by_cases h4 : c = 13
  · rw [if_pos h4]; decide
  rw [if_neg h4]
  have hx := nl_hexStr 2 c
  have hu := nl_hexStr 4 c
  have hU := nl_hexStr 8 c
  repeat' split
  all_goals simp_all
  all_goals omega

theorem G_no_bool_list {b : Bool} {ks : List Tk}
    (field : ∀ {ts : List Tk} {f}, G (theSym env disc) true .field ts f → ∀ {r}, ts ++ r ≠ .bool b :: ks)
    {ts : List Tk} {fs : List (Str × Ty)} (h : G (theSym env disc) true .fieldList ts fs) {r r' : List Tk}
    (e : ts ++ r ++ r' = .bool b :: ks) : False := by
  cases h with
  | fieldOne h => exact field h (by rw [← e, List.append_assoc])
  | fieldCons h _ => exact field (r := .comma :: (_ ++ (r ++ r'))) h (by rw [← e]; simp only [List.append_assoc, List.cons_append]; rfl)

theorem G_no_bool {ks : List Tk} {b : Bool} {u : Ty} : ¬ G (theSym env disc) true .datashape (.lbrace :: .bool b :: ks) u := by
  intro h
  generalize ha : Tk.lbrace :: Tk.bool b :: ks = all at h
  cases h with
  | option => cases ha
  | plain h =>
    cases h with
    | dim h =>
      cases h <;> cases ha
    | dropped _ h =>
      cases h <;> cases ha
    | dtype h =>
      cases h with
      | @struct ts fs comma c t h hc =>
        simp only [List.cons.injEq, true_and] at ha
        have field : ∀ {ts : List Tk} {f}, G (theSym env disc) true .field ts f → ∀ {r}, ts ++ r ≠ .bool b :: ks := by
          intro ts f h r e
          cases h with
          | field hk => cases hk <;> cases e
        exact G_no_bool_list env disc field h ha.symm
      | emptyStruct => cases ha
      | _ => cases ha

include hd

/-- A name of which the lexer reads a boolean prefix is not read back at all. -/
theorem no_bool_field {n : Str} (W X : Str) (hW : Blank false W) (hn : startsBool n = true) (u : Ty) :
    DS.dshape env disc (123 :: (W ++ (n ++ X))) ≠ .ok u := by
  intro h
  obtain ⟨toks, hl, hg, _⟩ := C06.sound env disc hd _ _ h
  obtain ⟨ts1, a1, rfl, e1, m, h1⟩ := Lexed.head_eq ((lex_iff _ _).1 hl) rfl (by decide) (k := .lbrace) (r := W ++ (n ++ X)) rfl
  obtain ⟨ts1', h1, e1'⟩ := h1.unleading hW
  have hb : ∃ b r c n', n = c :: n' ∧ isSpace c = false ∧ c ≠ 35 ∧ scanTok (n ++ X) = some (.ok (.bool b), r) := by
    simp only [startsBool, Bool.or_eq_true, List.isPrefixOf_iff_prefix] at hn
    rcases hn with ⟨r, rfl⟩ | ⟨r, rfl⟩
    · exact ⟨true, r ++ X, 84, _, rfl, rfl, by decide, rfl⟩
    · exact ⟨false, r ++ X, 70, _, rfl, rfl, by decide, rfl⟩
  obtain ⟨b, r, c, n', rfl, hc, h35, hb⟩ := hb
  obtain ⟨ts2, a2, rfl, e2, _⟩ := h1.head_eq hc h35 hb
  simp only [List.map_cons, e1, ← e1', e2] at hg
  exact G_no_bool env disc hg

/-- A name written as a literal that the lexer does not read is not read back at all. -/
theorem no_repr_field {n : Str} (W X : Str) (hW : Blank false W) (hn : spelledStr env n = false) (u : Ty) :
    DS.dshape env disc (123 :: (W ++ (pyRepr env n ++ X))) ≠ .ok u := by
  intro h
  obtain ⟨toks, hl, hg, _⟩ := C06.sound env disc hd _ _ h
  obtain ⟨ts1, a1, rfl, e1, m, h1⟩ := Lexed.head_eq ((lex_iff _ _).1 hl) rfl (by decide) (k := .lbrace) (r := W ++ (pyRepr env n ++ X)) rfl
  obtain ⟨ts1', h1, e1'⟩ := h1.unleading hW
  exact h1.no_repr hn

omit hd in
theorem ident_nl {n : Str} (h : identName n = true) : 10 ∉ n := by
  cases n with
  | nil => cases h
  | cons c r =>
    simp only [identName, Bool.and_eq_true, List.all_eq_true] at h
    intro hm
    rcases List.mem_cons.1 hm with e | e
    · rw [← e] at h; simp [isLower, isUpperA] at h
    · have := h.2 _ e; simp [isWord, isLower, isUpperA, isDigit] at this

/-- An identifier followed by a newline is printed as it is and read back without the newline, or not at all. -/
theorem newline_field {n : Str} (hn : identName n = true) (u : Ty)
    (h : DS.dshape env disc (pyStr env (oneField (n ++ [10]))) = .ok u) : u = oneField n := by
  have hi : isIdentifier (n ++ [10]) = true := (isIdentifier_iff _).2 (.inr ⟨by simp, by simpa using hn⟩)
  cases hs : startsBool n with
  | true =>
    exfalso
    have : ∃ W X, pyStr env (oneField (n ++ [10])) = 123 :: (W ++ (n ++ X)) ∧ Blank false W := by
      rw [oneField_str, fieldName, if_pos hi]
      simp only [layout]
      split
      · exact ⟨[], py"\n: int32}", by simp [join], .nil⟩
      · refine ⟨[10, 32, 32], py"\n  : int32\n  }", ?_, .space rfl (.space rfl (.space rfl .nil))⟩
        simp only [join, List.append_assoc, List.nil_append]
        rw [replaceNL_append, replaceNL_append, replaceNL_id (ident_nl hn)]
        rfl
    obtain ⟨W, X, e, hW⟩ := this
    rw [e] at h
    exact no_bool_field env disc hd W X hW hs u h
  | false =>
    have hok : fieldNameOk env n = true := by simp [fieldNameOk, hn, hs]
    have hl : ∃ k, Lay (fieldName env (n ++ [10]) ++ py": int32") [k, .colon, .lower (py"int32")] ∧ FieldName k n := by
      have h1 : Lay (py"int32") [.lower (py"int32")] := .lower (w := py"int32") (r := []) (word_of rfl rfl) .nil .nil
      have h2 : Lay (10 :: (py": int32")) [.colon, .lower (py"int32")] := .newline (.colon (.space h1))
      have hsoft : Soft (10 :: (py": int32")) := .cons (by decide)
      rw [fieldName, if_pos hi, List.append_assoc]
      cases n with
      | nil => cases hn
      | cons c r =>
        have hn' := hn
        simp only [identName, Bool.and_eq_true, Bool.or_eq_true] at hn
        rcases hn with ⟨(hc | hc) | hc, hw⟩
        · exact ⟨_, .tok (k := .lower _) ⟨rfl, word_of hc hw⟩ hsoft h2, .lower⟩
        · have ht : typeVarName (c :: r) = true := by
            simp only [typeVarName, hc, hs, hw, Bool.not_false, Bool.and_self]
          exact ⟨_, .upper ht hsoft h2, .upper⟩
        · exact ⟨_, .tok (k := .other _) ⟨rfl, word_of (start := (· == 95)) hc hw⟩ hsoft h2, .other⟩
    obtain ⟨k, hl, hk⟩ := hl
    obtain ⟨X, e, hX⟩ := lay_layout (l := 123) (r := 125) (kl := .lbrace) (kr := .rbrace) rfl (fun _ => trivial) rfl
      (fun _ => trivial) (by decide) (.cons hl .nil) [] 80
    obtain ⟨toks, hlex, et⟩ := hX.lex
    rw [oneField_str, e, List.nil_append] at h
    have hg : G (theSym env disc) false .datashape (.lbrace :: (sepBy [[k, .colon, .lower (py"int32")]] ++ [] ++ [.rbrace])) (oneField n) := by
      refine .plain (.dtype (.struct (c := cStruct env (DS.dshape env disc)) (t := .record [(n, tInt32)]) (fs := [(n, .dshape [tInt32])]) (.fieldOne (.field (ts := [.lower (py"int32")]) hk (.plain (.dtype (.name rfl) rfl)))) (.inl rfl) rfl ?_) rfl)
      rfl
    have := C06.complete env disc hd _ toks (oneField n) hlex (by rw [et]; simpa using hg) rfl
    rw [this] at h; cases h; rfl

/-- **C01, exactness for field names.** `DataShape(Record([(n, int32)]))` is read back from its printed form if and
only if `n` satisfies the condition of the printable fragment. -/
theorem C01.field_name_exact (n : Str) :
    (∃ u, DS.dshape env disc (pyStr env (oneField n)) = .ok u ∧ pyEq u (oneField n) = true) ↔ fieldNameOk env n = true := by
  constructor
  · rintro ⟨u, h, he⟩
    cases hok : fieldNameOk env n with
    | true => rfl
    | false =>
      exfalso
      cases hi : identName n with
      | true =>
        simp only [fieldNameOk, hi, ite_true, Bool.not_eq_false'] at hok
        have hid : fieldName env n = n := if_pos ((isIdentifier_iff n).2 (.inl hi))
        obtain ⟨W, X, e, hW⟩ := oneField_text env n (by rw [hid]; exact ident_nl hi)
        rw [e, hid] at h
        exact no_bool_field env disc hd W X hW hok u h
      | false =>
        cases hid : isIdentifier n with
        | true =>
          rcases (isIdentifier_iff n).1 hid with h' | ⟨h1, h2⟩
          · rw [h'] at hi; cases hi
          · obtain ⟨p, rfl⟩ := List.getLast?_eq_some_iff.1 h1
            rw [List.dropLast_concat] at h2
            rw [newline_field env disc hd h2 u h] at he
            simp [oneField, pyEq, eqM, eqInit, eqLast, eqF, Ty.measure, Ty.shape, Ty.target] at he
        | false =>
          have hf : fieldName env n = pyRepr env n := if_neg (by simp [hid])
          have hs : spelledStr env n = false := by
            simp only [fieldNameOk, hi, Bool.false_eq_true, ite_false, Bool.and_eq_false_iff, Bool.not_eq_false', Bool.and_eq_true, beq_iff_eq] at hok
            rcases hok with h | ⟨h1, h2⟩
            · exact h
            · rw [(isIdentifier_iff n).2 (.inr ⟨h1, h2⟩)] at hid; cases hid
          obtain ⟨W, X, e, hW⟩ := oneField_text env n (by rw [hf]; exact nl_repr env n)
          rw [e, hf] at h
          exact no_repr_field env disc hd W X hW hs u h
  · intro h
    refine C01.roundtrip hd _ ⟨by rfl, ?_, rfl, rfl⟩ rfl
    simp [oneField, Ty.everywhere, everywhereL, everywhereF, spelledLocal, h, Ty.measureLike, tInt32, spelledCtypes]

/-- what follows a keyword argument's `=` must lex -/
theorem no_repr_kwarg {s : Str} {n k X : Str} (hn : Word isLower n) (hk : Word isLower k) (hs : spelledStr env s = false) (u : Ty) :
    DS.dshape env disc (n ++ (py"[" ++ (k ++ (py"=" ++ (pyRepr env s ++ X))))) ≠ .ok u := by
  intro h
  obtain ⟨toks, hl, hg, _⟩ := C06.sound env disc hd _ _ h
  have hl := (lex_iff _ _).1 hl
  have low : ∀ {n : Str} {c : Nat} {X : Str} {m : Nat} {ts : List Token}, Word isLower n → isWord c = false →
      Lexed m (n ++ c :: X) ts → ∃ m ts, Lexed m (c :: X) ts := by
    intro n c X m ts hn hc h
    have h1 := scanTok_complete (w := n) (t := .lower n) (rest := c :: X) ⟨rfl, hn⟩ (by intro x hx; cases hx; exact hc)
    obtain ⟨a, r, rfl, ha, _⟩ := hn
    have ha := isLower_range ha
    obtain ⟨ts', _, _, _, m', h'⟩ := Lexed.head_eq h (by simp [isSpace]; omega) (by omega) h1
    exact ⟨m', ts', h'⟩
  obtain ⟨m, ts, h1⟩ := low hn (by decide) hl
  obtain ⟨ts, _, _, _, m, h2⟩ := Lexed.head_eq h1 rfl (by decide) (k := .lbrack) rfl
  obtain ⟨m, ts, h3⟩ := low hk (by decide) h2
  obtain ⟨ts, _, _, _, m, h4⟩ := Lexed.head_eq h3 rfl (by decide) (k := .equal) rfl
  exact h4.no_repr hs

/-- **C01, exactness for strings.** `DataShape(DateTime(tz=z))` and `DataShape(Time(tz=z))` are read back from their
printed forms if and only if every character of `z` is spelled. -/
theorem C01.string_exact (z : Str) :
    ((∃ u, DS.dshape env disc (pyStr env (.dshape [.datetime (some z)])) = .ok u ∧ pyEq u (.dshape [.datetime (some z)]) = true) ↔
      spelledStr env z = true) ∧
    ((∃ u, DS.dshape env disc (pyStr env (.dshape [.time (some z)])) = .ok u ∧ pyEq u (.dshape [.time (some z)]) = true) ↔
      spelledStr env z = true) := by
  refine ⟨⟨?_, fun h => C01.roundtrip hd _ ⟨by rfl, ?_, rfl, rfl⟩ rfl⟩, ⟨?_, fun h => C01.roundtrip hd _ ⟨by rfl, ?_, rfl, rfl⟩ rfl⟩⟩
  · rintro ⟨u, h, _⟩
    cases hs : spelledStr env z with
    | true => rfl
    | false =>
      refine absurd (?_ : DS.dshape env disc (py"datetime" ++ (py"[" ++ (py"tz" ++ (py"=" ++ (pyRepr env z ++ py"]"))))) = .ok u)
        (no_repr_kwarg env disc hd (word_of rfl rfl) (word_of rfl rfl) hs u)
      rw [← h]
      simp [pyStr, render, renderL, join]
  · simpa [Ty.everywhere, everywhereL, spelledLocal, Ty.measureLike] using h
  · rintro ⟨u, h, _⟩
    cases hs : spelledStr env z with
    | true => rfl
    | false =>
      refine absurd (?_ : DS.dshape env disc (py"time" ++ (py"[" ++ (py"tz" ++ (py"=" ++ (pyRepr env z ++ py"]"))))) = .ok u)
        (no_repr_kwarg env disc hd (word_of rfl rfl) (word_of rfl rfl) hs u)
      rw [← h]
      simp [pyStr, render, renderL, join]
  · simpa [Ty.everywhere, everywhereL, spelledLocal, Ty.measureLike] using h

end

/-! ### Categories -/

theorem Lexed.spelled {n : Nat} {w r : Str} {k : Tk} {ts : List Token} (h : Lexed n (w ++ r) ts) (hw : Spells w k)
    (hm : Munch k r) : ∃ ts' a, ts = a :: ts' ∧ a.tk = k ∧ ∃ m, Lexed m r ts' := by
  have hs := spells_head hw r
  have hk := scanTok_complete hw hm
  have hne := spells_ne hw
  generalize hX : w ++ r = s at h hs hk
  cases h with
  | done hg =>
    have := skipWs_blank hg [] (fun _ => rfl)
    rw [List.append_nil, hs] at this
    rw [this] at hX
    exact absurd (List.append_eq_nil_iff.1 hX).1 hne
  | @tok _ g w' t rest ts hg hw' hm' hr =>
    have := skipWs_blank hg (w' ++ rest) (by simp)
    rw [hs, spells_head hw'] at this
    rw [this, scanTok_complete hw' hm'] at hk
    cases hk
    exact ⟨ts, _, rfl, rfl, _, hr⟩

theorem lit_lexed {env : Env} {n : Nat} {x : Lit} {r : Str} {ts : List Token} (h : Lexed n (litRepr env x ++ r) ts) (hs : Soft r) :
    (∀ s, x = .str s → spelledStr env s = true) ∧ ∃ ts' a, ts = a :: ts' ∧ a.tk = x.tok ∧ ∃ m, Lexed m r ts' := by
  cases x with
  | int i => exact ⟨by simp, h.spelled (k := .int i) rfl fun c hc => isDigit_isWord (hs c hc)⟩
  | bool b => exact ⟨by simp, h.spelled (k := .bool b) (by cases b <;> rfl) trivial⟩
  | str s =>
    cases hsp : spelledStr env s with
    | false => exact (Lexed.no_repr hsp h).elim
    | true => exact ⟨fun s' e => by cases e; exact hsp, h.spelled (k := .str s) (spells_repr hsp) trivial⟩

theorem lits_lexed {env : Env} (x : Lit) (l : List Lit) {n : Nat} {r : Str} {ts : List Token}
    (h : Lexed n (join (py", ") ((x :: l).map (litRepr env)) ++ r) ts) (hs : Soft r) :
    (∀ y ∈ x :: l, ∀ s, y = .str s → spelledStr env s = true) ∧
    ∃ ts', ts.map (·.tk) = commas ((x :: l).map Lit.tok) ++ ts'.map (·.tk) ∧ ∃ m, Lexed m r ts' := by
  induction l generalizing x n ts with
  | nil =>
    obtain ⟨h1, ts', a, rfl, e, m, h2⟩ := lit_lexed (x := x) h hs
    exact ⟨by simpa using h1, ts', by simp [e, commas], m, h2⟩
  | cons y l ih =>
    simp only [List.map_cons, join, List.append_assoc] at h
    obtain ⟨h1, ts', a, rfl, e, m, h2⟩ := lit_lexed (x := x) h (.cons (by decide))
    obtain ⟨ts2, b, rfl, e2, m2, h3⟩ := Lexed.head_eq h2 rfl (by decide) (k := .comma) rfl
    obtain ⟨ts3, h4, e3⟩ := Lexed.unleading (g := [32]) h3 (.space rfl .nil)
    obtain ⟨h5, ts4, e4, h6⟩ := ih y h4
    refine ⟨List.forall_mem_cons.2 ⟨h1, h5⟩, ts4, ?_, h6⟩
    simp only [List.map_cons, e, e2, commas, List.cons_append, List.cons.injEq, true_and]
    rw [← e3, e4]; simp

theorem lit_tok_cases (x : Lit) : (∃ i, x.tok = .int i) ∨ (∃ s, x.tok = .str s) ∨ (∃ b, x.tok = .bool b) := by
  cases x with
  | int i => exact .inl ⟨i, rfl⟩
  | str s => exact .inr (.inl ⟨s, rfl⟩)
  | bool b => exact .inr (.inr ⟨b, rfl⟩)

theorem lit_tok_inj {x y : Lit} (h : x.tok = y.tok) : x = y := by
  cases x <;> cases y <;> simp_all [Lit.tok]

/-- a list of literals and a closing bracket are read in one way only -/
theorem commas_inj {x : Lit} {l l' : List Lit} {r r' : List Tk} (hr : r.head? = some .rbrack ∨ ∃ s, r = .comma :: .ellipsis :: s)
    (h : commas (l'.map Lit.tok) ++ .rbrack :: r' = commas ((x :: l).map Lit.tok) ++ r) : l' = x :: l ∧ .rbrack :: r' = r := by
  induction l generalizing x l' with
  | nil =>
    match l' with
    | [] =>
      rcases lit_tok_cases x with ⟨_, e⟩ | ⟨_, e⟩ | ⟨_, e⟩ <;> simp [commas, e] at h
    | [y] =>
      simp [commas] at h
      exact ⟨by rw [lit_tok_inj h.1], h.2⟩
    | y :: z :: l' =>
      simp only [List.map_cons, List.map_nil, commas, List.cons_append, List.cons.injEq] at h
      have h2 := h.2
      rw [List.nil_append] at h2
      rw [← h2] at hr
      rcases hr with hr | ⟨s, hr⟩
      · simp at hr
      · have : (commas (z.tok :: l'.map Lit.tok) ++ Tk.rbrack :: r').head? = some z.tok := by cases l' <;> simp [commas]
        simp only [List.cons.injEq, true_and] at hr
        rw [hr] at this
        rcases lit_tok_cases z with ⟨_, e⟩ | ⟨_, e⟩ | ⟨_, e⟩ <;> simp [e] at this
  | cons w l ih =>
    match l' with
    | [] =>
      rcases lit_tok_cases x with ⟨_, e⟩ | ⟨_, e⟩ | ⟨_, e⟩ <;> simp [commas, e] at h
    | [y] =>
      simp [commas] at h
    | y :: z :: l' =>
      simp only [List.map_cons, commas, List.cons_append, List.cons.injEq, true_and] at h
      obtain ⟨h1, h2⟩ := ih (l' := z :: l') (x := w) h.2
      exact ⟨by rw [lit_tok_inj h.1, h1], h2⟩

section
variable (env : Env) (disc : List Lit → Except PyErr Ty)

theorem junk_head {q : Bool} {j : List Tk} {sym : Sym} (h : Junk sym q j) : j = [] ∨ ∃ t r, j = t :: r ∧ t ≠ .lbrack := by
  have ld : ∀ {ts}, LooseDim sym ts → ∃ t r, ts = t :: r ∧ t ≠ .lbrack := by
    intro ts h
    cases h <;> exact ⟨_, _, rfl, by simp⟩
  cases h with
  | none => exact .inl rfl
  | qmark => exact .inr ⟨_, _, rfl, by simp⟩
  | dim h => exact .inr (ld h)
  | qdim h => exact .inr ⟨_, _, rfl, by simp⟩

/-- no datashape starts with a bracket, or with a literal that is not a length followed by `*` -/
theorem G_head {k : Tk} {ks : List Tk} {u : Ty} (hk : k = .lbrack ∨ ((∃ x : Lit, k = x.tok) ∧ ks.head? ≠ some .star)) {ts r : List Tk}
    (h : G (theSym env disc) true .datashape ts u) (e : ts ++ r = k :: ks) : False := by
  have hk1 : k ≠ .qmark ∧ (∀ n, k ≠ .lower n) ∧ (∀ n, k ≠ .upper n) ∧ k ≠ .ellipsis ∧ k ≠ .lbrace ∧ k ≠ .lparen := by
    rcases hk with rfl | ⟨⟨x, rfl⟩, _⟩
    · simp
    · rcases lit_tok_cases x with ⟨_, e⟩ | ⟨_, e⟩ | ⟨_, e⟩ <;> simp [e]
  obtain ⟨k1, k2, k3, k4, k5, k6⟩ := hk1
  have dt : ∀ {ts : List Tk} {r : List Tk} {t : Ty}, G (theSym env disc) true .dtype ts t → ts ++ r ≠ k :: ks := by
    intro ts r t h e
    cases h <;> simp only [List.cons_append, List.cons.injEq] at e <;> first
      | exact k2 _ e.1.symm | exact k3 _ e.1.symm | exact k5 e.1.symm | exact k6 e.1.symm
  have ld : ∀ {ts r : List Tk}, LooseDim (theSym env disc) ts → ts ++ r ≠ k :: ks := by
    intro ts r h e
    cases h <;> simp only [List.cons_append, List.cons.injEq] at e <;> first
      | exact k2 _ e.1.symm | exact k3 _ e.1.symm | exact k4 e.1.symm
  cases h with
  | option => simp only [List.cons_append, List.cons.injEq] at e; exact k1 e.1.symm
  | plain h =>
    cases h with
    | dtype h => exact dt h e
    | dropped _ h => rw [List.append_assoc] at e; exact ld h e
    | dim h =>
      rw [List.append_assoc] at e
      cases h with
      | int =>
        simp only [List.cons_append, List.nil_append, List.cons.injEq] at e
        rcases hk with rfl | ⟨_, hs⟩
        · exact absurd e.1 (by simp)
        · rw [← e.2] at hs; simp at hs
      | _ =>
        simp only [List.cons_append, List.nil_append, List.cons.injEq] at e
        first | exact k2 _ e.1.symm | exact k3 _ e.1.symm | exact k4 e.1.symm

/-- what an argument that starts with a bracket and a literal is -/
theorem G_lits {x : Lit} {l : List Lit} {ts r r' : List Tk} {a : Arg} (hr : r'.head? = some .rbrack ∨ ∃ s, r' = .comma :: .ellipsis :: s)
    (h : G (theSym env disc) true .arg ts a) (e : ts ++ r = .lbrack :: (commas ((x :: l).map Lit.tok) ++ r')) :
    litList (x :: l) ∧ r'.head? = some .rbrack := by
  have hcom : (commas ((x :: l).map Lit.tok) ++ r').head? = some x.tok := by cases l <;> simp [commas]
  have hjunk : ∀ {j s : List Tk}, Junk (theSym env disc) true j → j ++ s = .lbrack :: (commas ((x :: l).map Lit.tok) ++ r') →
      s = .lbrack :: (commas ((x :: l).map Lit.tok) ++ r') := by
    intro j s hj e
    rcases junk_head hj with rfl | ⟨t, r, rfl, ht⟩
    · exact e
    · simp only [List.cons_append, List.cons.injEq] at e; exact absurd e.1 ht
  cases h with
  | argDs h => exact (G_head env disc (.inl rfl) h e).elim
  | @argLit j y hj =>
    rw [List.append_assoc] at e
    have := hjunk hj e
    simp only [List.cons_append, List.cons.injEq] at this
    rcases lit_tok_cases y with ⟨_, e⟩ | ⟨_, e⟩ | ⟨_, e⟩ <;> rw [e] at this <;> simp at this
  | argEmpty hj =>
    rw [List.append_assoc] at e
    have := hjunk hj.both.1 e
    simp only [List.cons_append, List.cons.injEq, true_and] at this
    rw [← this] at hcom
    simp at hcom
    rcases lit_tok_cases x with ⟨_, e⟩ | ⟨_, e⟩ | ⟨_, e⟩ <;> rw [e] at hcom <;> simp at hcom
  | argLits hj hl =>
    rw [List.append_assoc] at e
    have := hjunk hj.both.1 e
    simp only [List.cons_append, List.cons.injEq, true_and, List.append_assoc, List.nil_append] at this
    obtain ⟨rfl, h2⟩ := commas_inj hr this
    exact ⟨hl, by rw [← h2]; rfl⟩
  | argDss hj h =>
    rw [List.append_assoc] at e
    have := hjunk hj.both.1 e
    simp only [List.cons_append, List.cons.injEq, true_and, List.append_assoc, List.nil_append] at this
    exfalso
    have hx : ∃ rest, commas ((x :: l).map Lit.tok) ++ r' = x.tok :: rest ∧ rest.head? ≠ some .star := by
      cases l with
      | nil => exact ⟨r', rfl, by rcases hr with hr | ⟨s, rfl⟩ <;> simp_all⟩
      | cons y l => exact ⟨_, rfl, by simp⟩
    obtain ⟨rest, e1, e2⟩ := hx
    rw [e1] at this
    cases h with
    | dsOne h => exact G_head env disc (.inr ⟨⟨x, rfl⟩, e2⟩) h this
    | dsCons h _ =>
      rw [List.append_assoc] at this
      exact G_head env disc (.inr ⟨⟨x, rfl⟩, e2⟩) h this

/-- the first argument of a categorical is a list of literals of one kind -/
theorem G_categorical {x : Lit} {l : List Lit} {r' : List Tk} {u : Ty} (hr : r'.head? = some .rbrack ∨ ∃ s, r' = .comma :: .ellipsis :: s)
    (h : G (theSym env disc) true .datashape (.lower (py"categorical") :: .lbrack :: .lbrack :: (commas ((x :: l).map Lit.tok) ++ r')) u) :
    litList (x :: l) ∧ r'.head? = some .rbrack := by
  generalize hX : .lbrack :: (commas ((x :: l).map Lit.tok) ++ r') = X at h
  generalize hall : Tk.lower (py"categorical") :: .lbrack :: X = all at h
  cases h with
  | option => cases hall
  | plain h =>
    cases h with
    | dim h => cases h <;> cases hall
    | dropped _ h =>
      cases h with
      | ellipsisTypevar => cases hall
      | ellipsis => cases hall
      | name h =>
        simp only [List.cons_append, List.nil_append, List.cons.injEq, Tk.lower.injEq] at hall
        rw [← hall.1] at h; cases h
    | dtype h =>
      cases h with
      | @constr n c ts args kw t _ _ h _ _ =>
        simp only [List.cons.injEq, true_and] at hall
        obtain ⟨_, hall⟩ := hall
        rw [← hX] at hall
        cases h with
        | argsOne h => exact G_lits env disc hr h hall.symm
        | argsCons h _ => rw [List.append_assoc] at hall; exact G_lits env disc hr h hall.symm
        | argsKw hj h =>
          exfalso
          rcases junk_head hj with rfl | ⟨t, r, rfl, ht⟩
          · have kwl : ∀ {ts : List Tk} {p}, G (theSym env disc) true .kwarg ts p → ∃ n r, ts = .lower n :: r := by
              intro ts p h; cases h; exact ⟨_, _, rfl⟩
            cases h with
            | kwOne h => obtain ⟨n, r, rfl⟩ := kwl h; simp at hall
            | kwCons h _ => obtain ⟨n, r, rfl⟩ := kwl h; simp at hall
          · simp only [List.cons_append, List.cons.injEq] at hall; exact ht hall.1.symm
        | argsEnd _ hj =>
          exfalso
          rcases junk_head hj with rfl | ⟨t, r, rfl, ht⟩
          · simp at hall
          · simp only [List.cons_append, List.cons.injEq] at hall; exact ht hall.1.symm
      | _ => cases hall

variable (hd : ∀ l, Returns (disc l))
include hd

/-- **C01, exactness for categories.** `DataShape(Categorical(c, int32, o))` is read back from its printed form if and
only if there are at most ten categories, all of one kind, and strings are spelled. -/
theorem C01.categories_exact (c : List Lit) (o : Bool) :
    (∃ u, DS.dshape env disc (pyStr env (.dshape [.categorical c tInt32 o])) = .ok u ∧
      pyEq u (.dshape [.categorical c tInt32 o]) = true) ↔ categoriesOk env c = true := by
  constructor
  · rintro ⟨u, h, _⟩
    cases c with
    | nil => rfl
    | cons x l =>
      obtain ⟨toks, hl, hg, _⟩ := C06.sound env disc hd _ _ h
      have hl := (lex_iff _ _).1 hl
      have htext : ∃ X, pyStr env (.dshape [.categorical (x :: l) tInt32 o]) = py"categorical" ++ 91 :: 91 ::
          (join (py", ") ((x :: l.take 9).map (litRepr env)) ++ ((if l.length > 9 then py", ..." else []) ++ 93 :: X)) := by
        refine ⟨py", type=int32, ordered=" ++ boolStr o ++ py"]", ?_⟩
        simp [pyStr, render, renderL, join, formatCategories, tInt32, Nat.lt_succ_iff, Nat.lt_iff_add_one_le]
      obtain ⟨X, htext⟩ := htext
      rw [htext] at hl
      obtain ⟨ts1, a1, rfl, e1, m1, hl⟩ := hl.spelled (k := .lower (py"categorical")) ⟨rfl, word_of rfl rfl⟩ (by intro c hc; cases hc; decide)
      obtain ⟨ts2, a2, rfl, e2, m2, hl⟩ := Lexed.head_eq hl rfl (by decide) (k := .lbrack) rfl
      obtain ⟨ts3, a3, rfl, e3, m3, hl⟩ := Lexed.head_eq hl rfl (by decide) (k := .lbrack) rfl
      have hsoft : Soft ((if l.length > 9 then py", ..." else []) ++ 93 :: X) := by
        split <;> exact .cons (by decide)
      obtain ⟨hsp, ts4, e4, m4, hl⟩ := lits_lexed x (l.take 9) hl hsoft
      simp only [List.map_cons, e1, e2, e3, e4] at hg
      by_cases hlen : l.length > 9
      · exfalso
        rw [if_pos hlen] at hl
        obtain ⟨ts5, a5, rfl, e5, m5, hl⟩ := Lexed.head_eq hl rfl (by decide) (k := .comma) rfl
        obtain ⟨ts6, hl, e6⟩ := Lexed.unleading (g := [32]) hl (.space rfl .nil)
        obtain ⟨ts7, a7, rfl, e7, m7, hl⟩ := Lexed.head_eq hl rfl (by decide) (k := .ellipsis) rfl
        have := (G_categorical env disc (x := x) (l := l.take 9) (u := u)
          (r' := (a5 :: ts5).map (·.tk)) (.inr ⟨ts7.map (·.tk), by simp only [List.map_cons, e5, ← e6, e7]⟩) (by simpa using hg)).2
        simp [e5] at this
      · rw [if_neg hlen] at hl
        obtain ⟨ts5, a5, rfl, e5, m5, hl⟩ := Lexed.head_eq hl rfl (by decide) (k := .rbrack) rfl
        have htk : l.take 9 = l := List.take_of_length_le (by omega)
        rw [htk] at hg hsp
        obtain ⟨⟨_, hlit⟩, _⟩ := G_categorical env disc (x := x) (l := l) (u := u) (r' := (a5 :: ts5).map (·.tk)) (.inl (by simp [e5])) (by simpa using hg)
        have hlen' : (x :: l).length ≤ 10 := by simp; omega
        generalize x :: l = c at *
        simp only [categoriesOk, Bool.and_eq_true, decide_eq_true_eq, Bool.or_eq_true, List.all_eq_true]
        refine ⟨hlen', ?_⟩
        rcases hlit with ⟨is, rfl⟩ | ⟨ss, rfl⟩ | ⟨bs, rfl⟩
        · left; left; intro y hy; obtain ⟨i, _, rfl⟩ := List.mem_map.1 hy; rfl
        · right; intro y hy
          obtain ⟨s, _, rfl⟩ := List.mem_map.1 hy
          exact hsp _ hy s rfl
        · left; right; intro y hy; obtain ⟨i, _, rfl⟩ := List.mem_map.1 hy; rfl
  · intro h
    refine C01.roundtrip hd _ ⟨by rfl, ?_, rfl, rfl⟩ rfl
    simp [Ty.everywhere, everywhereL, spelledLocal, h, Ty.measureLike, tInt32, spelledCtypes, Ty.isDShape]

end

/-! ### What the language cannot spell -/

/-- `dshape(str(t))` succeeds and equals `t` -/
def RoundTrips (env : Env) (disc : List Lit → Except PyErr Ty) (t : Ty) : Prop :=
  ∃ u, dshape env disc (pyStr env t) = .ok u ∧ pyEq u t = true

theorem no_roundtrip {env : Env} {disc : List Lit → Except PyErr Ty} {t : Ty} {e : PyErr}
    (h : dshape env disc (pyStr env t) = .error e) : ¬ RoundTrips env disc t := by
  rintro ⟨u, hu, _⟩
  rw [h] at hu; cases hu

theorem no_roundtrip' {env : Env} {disc : List Lit → Except PyErr Ty} {t u : Ty}
    (h : dshape env disc (pyStr env t) = .ok u) (he : pyEq u t = false) : ¬ RoundTrips env disc t := by
  rintro ⟨v, hv, e⟩
  rw [h] at hv; cases hv
  rw [he] at e; cases e

section
variable (env : Env) (disc : List Lit → Except PyErr Ty)

/-- `char` and `bytes` have no spelling, `?` cannot be repeated, and a type variable whose name starts with `True` is
read as a boolean. -/
theorem C01.unspelled_types :
    ¬ RoundTrips env disc (.dshape [tChar]) ∧ ¬ RoundTrips env disc (.dshape [.bytes]) ∧
    ¬ RoundTrips env disc (.dshape [.option (.option tInt32)]) ∧ ¬ RoundTrips env disc (.dshape [.typevar (py"Truest")]) :=
  ⟨no_roundtrip (e := .syntax (py"char") 0 (py"Invalid datashape")) rfl, no_roundtrip (e := .syntax (py"bytes") 0 (py"Invalid datashape")) rfl, no_roundtrip (e := .syntax (py"??int32") 1 (py"Invalid datashape")) rfl,
   no_roundtrip (e := .syntax (py"Truest") 0 (py"Invalid datashape")) rfl⟩

/-- Bare dimensions as the type of a field, a component of a function or inside an option are printed, but not read. -/
theorem C01.unspelled_dimensions :
    ¬ RoundTrips env disc (.dshape [.record [(py"x", .fixed 3)]]) ∧ ¬ RoundTrips env disc (.dshape [.func [.fixed 3, tInt32]]) ∧
    ¬ RoundTrips env disc (.dshape [.option (.fixed 3)]) :=
  ⟨no_roundtrip (e := .syntax (py"{x: 3}") 4 (py"Expected the datashape of the field")) rfl, no_roundtrip (e := .syntax (py"(3) -> int32") 1 (py"Invalid datashape in tuple")) rfl,
   no_roundtrip (e := .syntax (py"?3") 1 (py"Invalid datashape")) rfl⟩

/-- A `DataShape` whose measure is an array `DataShape` is printed like the flat one, and the two are not equal; and so
is a bare option of an array, which is not equal to the `DataShape` that is read. -/
theorem C01.unspelled_nesting :
    ¬ RoundTrips env disc (.dshape [.fixed 3, .dshape [.fixed 4, tInt32]]) ∧
    ¬ RoundTrips env disc (.option (.dshape [.fixed 4, tInt32])) ∧
    ¬ RoundTrips env disc (.dshape [.func [.option (.dshape [.fixed 4, tInt32]), tInt32]]) :=
  ⟨no_roundtrip' (u := .dshape [.fixed 3, .fixed 4, tInt32]) rfl rfl,
   no_roundtrip' (u := .dshape [.option (.dshape [.fixed 4, tInt32])]) rfl rfl,
   no_roundtrip' (u := .dshape [.func [.dshape [.option (.dshape [.fixed 4, tInt32])], .dshape [tInt32]]]) rfl rfl⟩

/-- The type of the categories is cut down to its measure. -/
theorem C01.unspelled_categorical_type :
    ¬ RoundTrips env disc (.dshape [.categorical [.int 1] (.dshape [.fixed 3, tInt32]) false]) :=
  no_roundtrip' (u := .dshape [.categorical [.int 1] tInt32 false]) rfl rfl

end

/-- names that are not read back: starting with `True`, ending in a newline, with a backslash, with a control
character; and names that are -/
example (env : Env) : fieldNameOk env (py"Truest") = false ∧ fieldNameOk env (py"a\n") = false ∧
    fieldNameOk env (py"a\\b") = false ∧ fieldNameOk env [1] = false ∧
    fieldNameOk env (py"two words") = true ∧ fieldNameOk env (py"") = true ∧ fieldNameOk env (py"it's \"x\"\n") = true ∧
    fieldNameOk env (py"_True") = true := ⟨rfl, rfl, rfl, rfl, rfl, rfl, rfl, rfl⟩

end DS
