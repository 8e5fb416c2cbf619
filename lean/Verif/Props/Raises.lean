import Verif.Spec.Raises
import Verif.Proofs.Complaints
import Verif.Proofs.Broken
import Verif.Proofs.Causes
import Verif.Props.CallErrors
import Verif.Props.WellFormed

/-
C64: every exception of `dshape` comes from a place in the text.
-/
namespace DS

variable {msg : Msg}

theorem lexLoop_upper (text : Str) : ∀ (n : Nat) (s : Str) (t : Token), t ∈ (lexLoop text n s).1 →
    ∀ v, t.tk = .upper v → Word isUpperA v := by
  intro n
  induction n with
  | zero => intro s t h; simp [lexLoop] at h
  | succ n ih =>
    intro s t ht v hv
    cases h : scanTok s with
    | none => simp [lexLoop, h] at ht; split at ht <;> simp at ht
    | some q =>
      obtain ⟨tk, rest⟩ := q
      cases tk with
      | error e => simp [lexLoop, h] at ht; split at ht <;> simp at ht
      | ok tk =>
        rw [lexLoop_step text n s rest tk h] at ht
        simp only [List.mem_cons] at ht
        rcases ht with rfl | ht
        · obtain ⟨w, _, hw, hs, _⟩ := scanTok_sound h
          simp only at hv
          subst hv
          exact hs.2
        · exact ih _ t ht v hv

theorem upper_typevar {env : Env} {v : Str} (h : Word isUpperA v) : mkTypeVar env v = .ok (.typevar v) := by
  obtain ⟨c, r, rfl, hc, _⟩ := h
  have : env.isUpper c = true := by
    have : c < 128 := by simp [isUpperA] at hc; omega
    simp [Env.isUpper, this, hc]
  simp [mkTypeVar, this]

section
variable {env : Env} {disc : List Lit → Except PyErr Ty}

theorem dtype_plain {nest : Str → Except PyErr Ty} {ts : List Tk} {t : Ty} (h : G (defaultSym env nest disc) true .dtype ts t) :
    t.plain = true := by
  cases h with
  | typevar hc ht => exact constr_plain env nest disc _ _ hc _ _ _ ht
  | name hn => exact dtypeTable_plain _ (lookup_mem hn)
  | constr hc _ _ _ ht => exact constr_plain env nest disc _ _ hc _ _ _ ht
  | struct _ _ hc ht => exact constr_plain env nest disc _ _ hc _ _ _ ht
  | emptyStruct hc ht => exact constr_plain env nest disc _ _ hc _ _ _ ht
  | tuple _ _ hc ht => exact constr_plain env nest disc _ _ hc _ _ _ ht
  | emptyTuple hc ht => exact constr_plain env nest disc _ _ hc _ _ _ ht
  | func _ _ _ hc ht => exact constr_plain env nest disc _ _ hc _ _ _ ht
  | emptyFunc _ hc ht => exact constr_plain env nest disc _ _ hc _ _ _ ht

theorem NFE.of_ok {E : PyErr → Prop} {α : Type} {x : Except PyErr α} {a : α} (h : x = .ok a) : NFE E x := by
  intro e he; rw [h] at he; cases he

theorem constr_callable {n : Str} {c : Constr} (h : (theSym env disc).dtypeConstr n = some c) (hn : n ≠ py"typevar") : n ∈ callable := by
  have : n ∈ (constrTable env (DS.dshape env disc) disc).map (·.1) := List.mem_map.2 ⟨_, lookup_mem h, rfl⟩
  simp [constrTable] at this
  simp [callable, signatures]
  rcases this with h | h | h | h | h | h | h | h | h | h | h | h | h | h <;> simp_all

theorem default_causes (hd : ∀ l, Returns (disc l)) (hw : ∀ l t, disc l = .ok t → WF env t) (toks : List Tk) (bad : Option PyErr)
    (hu : ∀ v, Tk.upper v ∈ toks → Word isUpperA v) :
    Causes (fun e => (∃ pre ts post, toks = pre ++ ts ++ post ∧ Cause env disc ts e) ∨ bad = some e)
      (theSym env disc) (fun s => ∃ pre, toks = pre ++ s) := by
  have hns : ∀ s t, DS.dshape env disc s = .ok t → WF env t := fun s t h => (dshapeN_wf hw _ s t h).1.1
  have gw : ∀ {nt : NT} {ts : List Tk} {v : nt.Val}, G (theSym env disc) true nt ts v → ValOk env nt v :=
    fun h => G_wf hns hw h
  refine
    { tail := fun t s ⟨pre, h⟩ => ⟨pre ++ [t], by simp [h]⟩
      dimCall := ?_
      call := ?_
      struct := ?_
      emptyStruct := ?_
      tuple := ?_
      func := ?_
      option := ?_
      typevar := ?_
      dimTypevar := ?_
      fixed := ?_
      one := ?_
      times := ?_ }
  · rintro n c ts a post ⟨pre, h⟩ hc hg
    refine .inl ⟨pre, .lower n :: .lbrack :: (ts ++ [.rbrack]), post, ?_, .dimension ?_ hg⟩
    · rw [h]; simp
    · have : n ∈ (dimConstrTable env).map (·.1) := List.mem_map.2 ⟨_, lookup_mem hc, rfl⟩
      simpa [dimConstrTable] using this
  · rintro n c ts args kw post ⟨pre, h⟩ hc hg hne e he
    refine .inl ⟨pre, .lower n :: .lbrack :: (ts ++ [.rbrack]), post, ?_, ?_⟩
    · rw [h]; simp
    by_cases hn : n = py"typevar"
    · subst hn
      cases hc
      simp only [cTypeVar] at he
      rw [bound_error] at he
      rcases he with ⟨vals, hb, he⟩ | ⟨hno, rfl⟩
      · split at he
        · rename_i s
          cases s with
          | nil => cases he; exact .typevarEmpty hg hb
          | cons c r =>
            simp only [mkTypeVar] at he
            split at he
            · cases he
            · cases he
              rename_i hc
              exact .typevarName hg hb (by simpa using hc)
        · rename_i a hs
          refine .typevarOther hg hb ?_
          have ha : ArgOk env a := by
            obtain ⟨h1, h2⟩ := gw hg
            rcases hb.mem (a := a) (by simp) with h | ⟨p, h, rfl⟩
            · exact h1 a h
            · exact h2 p h
          cases he
          cases a with
          | lit l => cases l with
            | int i => exact .int i
            | bool b => exact .bool b
            | str s => exact (hs s rfl).elim
          | ds t =>
            cases t with
            | dshape ps => exact .ds ps
            | _ => cases ha.2
          | lits l => cases l with
            | nil => exact .noLits
            | cons l r => cases l with
              | str s => exact .strings s r
              | int i => exact .lits (by simp)
              | bool i => exact .lits (by simp)
          | dss l => cases l with
            | nil => exact .noDss
            | cons t r => exact .dss t r
        · cases he
          rename_i h1 h2
          refine .typevar hg ?_
          rintro ⟨a, hb'⟩
          have := (bindArgs_iff args kw _).2 hb
          rw [(bindArgs_iff args kw _).2 hb'] at this
          cases this
          exact h2 _ rfl
      · exact .typevar hg fun ⟨a, hb⟩ => hno ⟨_, hb⟩
    · obtain ⟨h1, h2⟩ := gw hg
      exact .call (constr_callable hc hn) hg hne ((constr_raises hw h1 h2 hne n c hc hn e).1 he)
  · rintro c ts fs comma post ⟨pre, h⟩ hg hcomma hc e he
    cases hc
    replace he : (structFields env (DS.dshape env disc) (((fs.map fun f => Lit.str f.1).map Arg.lit).zip ((fs.map (·.2)).map Arg.ds)) >>= fun l => mkRecord l) = .error e := he
    have h1 := structFields_ok' (env := env) (nest := DS.dshape env disc) fs
    simp only [List.map_map, Function.comp_def, h1, bind, Except.bind] at he
    simp only [mkRecord, List.map_map, Function.comp_def] at he
    split at he
    · cases he
    · cases he
      rename_i hn
      exact .inl ⟨pre, .lbrace :: (ts ++ comma ++ [.rbrace]), post, by rw [h]; simp, .record hg hcomma hn⟩
  · rintro c hc
    cases hc
    exact NFE.of_ok rfl
  · rintro c l hl hc
    cases hc
    refine NFE.of_ok (cTuple_ok ?_)
    rcases hl with rfl | ⟨ts, hg⟩
    · simp
    · exact fun t ht => (gw hg t ht).2
  · rintro c l r us hl hg hc
    cases hc
    exact NFE.of_ok cFunc_ok
  · rintro c t ts hg hc
    cases hc
    have : cOption (DS.dshape env disc) [.ds t] [] = .ok (.option (launderTy t)) := rfl
    refine ⟨NFE.of_ok this, ?_⟩
    rintro o ho
    rw [this] at ho
    cases ho
    exact NFE.of_ok (a := .dshape [.option (launderTy t)]) rfl
  · rintro c v s ⟨pre, h⟩ hc
    cases hc
    have : cTypeVar env [.lit (.str v)] [] = mkTypeVar env v := rfl
    rw [this]
    exact NFE.of_ok (upper_typevar (hu v (by rw [h]; simp)))
  · rintro c v s n ⟨pre, h⟩ hn hc
    have hv := upper_typevar (env := env) (hu v (by rw [h]; simp))
    simp only [List.mem_cons, List.not_mem_nil, or_false] at hn
    rcases hn with rfl | rfl
    · cases hc
      exact NFE.of_ok (a := .ellipsis (some v)) (by simp [mkEllipsis, hv])
    · cases hc
      exact NFE.of_ok hv
  · rintro c v s ⟨pre, h⟩ hc e he
    cases hc
    simp only [mkFixed] at he
    split at he
    · cases he
      rename_i hv
      exact .inl ⟨pre, [.int v, .star], s, by rw [h]; simp, .negative hv⟩
    · cases he
  · rintro t ts hg
    have hp := dtype_plain hg
    have hl : launderTy t = t := launderTy_id (gw hg).2
    refine NFE.of_ok (a := .dshape [t]) ?_
    have hc : t.cls ≠ some .dimension := by cases t <;> simp_all [Ty.plain, Ty.cls]
    simp [mkDS, checkDS, hl, hc]
  · rintro d ds t ts hdim hg
    obtain ⟨he, hD⟩ := dimG_wf hdim
    have hok := gw hg
    obtain ⟨hwf, hds⟩ := hok
    cases t <;> simp [Ty.isDShape] at hds
    rename_i ps
    have hloc := hwf.local
    simp only [localOk, Bool.and_eq_true, List.all_eq_true, Bool.not_eq_true', Option.all_eq_true] at hloc
    obtain ⟨⟨⟨h1, h2⟩, h3⟩, h4⟩ := hloc
    have hne : ps ≠ [] := by intro h; simp [h] at h1
    have dimcls : ∀ {p : Ty}, p.isDim = true → p.cls ≠ some .measure := by
      intro p hp; cases p <;> simp_all [Ty.isDim, Ty.cls]
    refine NFE.of_ok (mkDS_self.2 (.of ⟨d :: ps.dropLast, ps.getLast hne, ?_, ?_, ?_, ?_⟩))
    · simp [Ty.params, List.dropLast_concat_getLast]
    · intro x hx
      rcases List.mem_cons.1 hx with rfl | hx
      · exact dimcls hD
      · exact dimcls (h2 x hx)
    · have := h3 _ (List.getLast?_eq_some_getLast hne)
      simpa [endsOk_cls] using this
    · intro p hp
      have : p.isDShape = false := by
        rcases List.mem_cons.1 hp with rfl | hp
        · exact he.2
        · exact h4 p hp
      cases p <;> simp_all [Ty.isSingleton, Ty.isDShape]


theorem tokens_lex (s : Str) : Tokens s ((lex s).1.map (·.tk)) := by
  refine ⟨(lex s).1, rfl, ?_⟩
  cases h : (lex s).2 with
  | none => exact .inl ((lex_iff s _).1 (Prod.ext rfl h))
  | some e => exact .inr ⟨e, (lex_broken_iff s _ e).1 (Prod.ext rfl h)⟩

theorem tokens_eq {s : Str} {ts : List Tk} (h : Tokens s ts) : ts = (lex s).1.map (·.tk) := by
  obtain ⟨toks, rfl, h | ⟨e, h⟩⟩ := h
  · rw [(lex_iff s toks).2 h]
  · rw [(lex_broken_iff s toks e).2 h]

theorem lead_error {l : List Tk} (hl : Lead env disc l) {s : List Tk} (hs : s.head? ≠ some .qmark) {e : PyErr} {bad : Option PyErr} (hb : bad = none) :
    (∀ n, s.length ≤ n → parseNoOption (theSym env disc) bad (parseDatashapeN (theSym env disc) bad n) s = .error (.py e)) →
    ∀ n, (l ++ s).length ≤ n → parseDatashapeN (theSym env disc) bad (n + 1) (l ++ s) = .error (.py e) := by
  subst hb
  intro h
  induction hl with
  | nil =>
    intro n hn
    rw [parseDatashapeN, parseDatashapeF]
    · exact h n hn
    · intro r e; simp at e; simp [e] at hs
  | option =>
    intro n hn
    have := h n (by simp at hn; omega)
    simp [parseDatashapeN, parseDatashapeF, bind, Except.bind, this]
  | @dim ds d ts hd _ ih =>
    intro n hn
    obtain ⟨n, rfl⟩ : ∃ m, n = m + 1 := ⟨n - 1, by simp at hn; omega⟩
    have h1 := dimG_comp hd (parseDatashapeN (theSym env disc) none (n + 1)) (ts ++ s)
    have h2 := ih n (by simp at hn ⊢; omega)
    have e : parseDatashapeN (theSym env disc) none (n + 1 + 1) (ds ++ .star :: ts ++ s) =
        parseNoOption (theSym env disc) none (parseDatashapeN (theSym env disc) none (n + 1)) (ds ++ .star :: ts ++ s) := by
      rw [parseDatashapeN, parseDatashapeF]
      intro r e
      cases ds with
      | nil => simp at h1
      | cons a ds => simp at e; simp [e.1] at h1
    rw [e]
    simp [parseNoOption, bind, Except.bind, h1.2.2, h2]
  | @optionDim ds d ts hd _ ih =>
    intro n hn
    obtain ⟨n, rfl⟩ : ∃ m, n = m + 1 := ⟨n - 1, by simp at hn; omega⟩
    have h1 := dimG_comp hd (parseDatashapeN (theSym env disc) none (n + 1)) (ts ++ s)
    have h2 := ih n (by simp at hn ⊢; omega)
    rw [parseDatashapeN]
    generalize parseDatashapeN (theSym env disc) none (n + 1) = f at *
    simp [parseDatashapeF, parseNoOption, bind, Except.bind, h1.2.2, h2]

variable (hd : ∀ l, Returns (disc l))

include hd in
theorem lead_raises {l s : List Tk} (hl : Lead env disc l) (hs : s.head? ≠ some .qmark) {e : PyErr} {text : Str} {toks : List Token}
    (hx : Lexed 0 text toks) (ht : toks.map (·.tk) = l ++ s)
    (h : ∀ n, s.length ≤ n → parseNoOption (theSym env disc) none (parseDatashapeN (theSym env disc) none n) s = .error (.py e)) :
    DS.dshape env disc text = .error e := by
  rw [C03.dshape_recursion env disc hd]
  have : parse (defaultSym env (DS.dshape env disc) disc) text = .error e := by
    have hp : parseToks (theSym env disc) none (l ++ s) = .error (.py e) := by
      have h3 : parseDatashape (theSym env disc) none (l ++ s) = .error (.py e) :=
        lead_error hl hs rfl h (l ++ s).length (Nat.le_refl _)
      unfold parseToks
      split
      · rename_i h; cases h
      · rw [h3]; rfl
    simp only [parse, (lex_iff text toks).2 hx, ht]
    rw [show defaultSym env (DS.dshape env disc) disc = theSym env disc from rfl, hp]
  rw [this]


variable (hw : ∀ l t, disc l = .ok t → WF env t)
include hd hw

omit hd hw in
/-- **C64.** The lexer raises exactly on the texts described by `Broken`, with those tokens before and that exception. -/
theorem C64.lexer (s : Str) (toks : List Token) (e : PyErr) : lex s = (toks, some e) ↔ Broken s 0 s toks e := lex_broken_iff s toks e

/-- **C64.** Whatever exception `dshape` raises on a text, it is a syntax error of that text (at an offset in it), or the lexer raises
it, or it is raised by a construct that is spelled in the text, or the text is read as a datashape that is then rejected for its
ellipses. -/
theorem C64.raises (s : Str) (e : PyErr) (h : DS.dshape env disc s = .error e) :
    (∃ p, ∃ c : Complaint, p ≤ s.length ∧ e = .syntax s p c.text) ∨
    (∃ toks, Broken s 0 s toks e) ∨
    (∃ pre ts post, Tokens s (pre ++ ts ++ post) ∧ Cause env disc ts e) ∨
    (e = .typeError ∧ ∃ toks t ps, Lexed 0 s toks ∧ G (theSym env disc) true .datashape (toks.map (·.tk)) t ∧
      Visits (.dshape ps) t ∧ ¬ EllipsisOk ps) := by
  rw [C03.dshape_recursion env disc hd] at h
  cases hp : parse (defaultSym env (DS.dshape env disc) disc) s with
  | ok t =>
    rw [hp] at h
    simp only at h
    split at h
    · cases h
    · cases h
      rename_i hv
      obtain ⟨toks, hl, hg⟩ := parse_sound (defaultSym_truthy env _ disc) hp
      refine .inr (.inr (.inr ⟨rfl, toks, t, ?_⟩))
      have : ¬ ∀ ps, Visits (.dshape ps) t → EllipsisOk ps := fun h' => hv ((C11.validate_iff t).2 h')
      obtain ⟨ps, h1⟩ := Classical.not_forall.1 this
      obtain ⟨h1, h2⟩ := Classical.not_imp.1 h1
      exact ⟨ps, (lex_iff s toks).1 hl, hg, h1, h2⟩
  | error e' =>
    rw [hp] at h
    simp only [Except.error.injEq] at h
    subst h
    simp only [parse] at hp
    split at hp
    · cases hp
    · rename_i e hx
      cases hp
      have key := parseToks_cf
        (default_causes hd hw ((lex s).1.map (·.tk)) (lex s).2 (by
          intro v hv
          obtain ⟨t, ht, e⟩ := List.mem_map.1 hv
          exact lexLoop_upper s _ _ t ht v e))
        (defaultSym_truthy env _ disc) (bad := (lex s).2) (fun e he => .inr he) _ ⟨[], rfl⟩ e' hx
      rcases key with ⟨pre, ts, post, h1, h2⟩ | h1
      · exact .inr (.inr (.inl ⟨pre, ts, post, h1 ▸ tokens_lex s, h2⟩))
      · exact .inr (.inl ⟨_, (lex_broken_iff s _ e').1 (Prod.ext rfl h1)⟩)
    · rename_i m _
      cases hp
      obtain ⟨c, rfl⟩ := m.complaint
      exact .inl ⟨_, c, errPos_le s _, by rw [c.msg_text]⟩


/-! What the text does not contain cannot raise. -/

omit hd hw in
theorem token_spelled {s : Str} {toks : List Token} (h : Lexed n s toks ∨ ∃ e, Broken w n s toks e) {t : Token} (ht : t ∈ toks) :
    ∃ pre x post, s = pre ++ x ++ post ∧ Spells x t.tk := by
  rcases h with h | ⟨e, h⟩
  · induction h with
    | done => cases ht
    | @tok n g x k rest ts hb hs hm _ ih =>
      rcases List.mem_cons.1 ht with rfl | ht
      · exact ⟨g, x, rest, by simp, hs⟩
      · obtain ⟨pre, y, post, e, h⟩ := ih ht
        exact ⟨g ++ x ++ pre, y, post, by rw [e]; simp, h⟩
  · induction h with
    | string => cases ht
    | stuck => cases ht
    | @tok n g x k rest ts _ hb hs hm _ ih =>
      rcases List.mem_cons.1 ht with rfl | ht
      · exact ⟨g, x, rest, by simp, hs⟩
      · obtain ⟨pre, y, post, e, h⟩ := ih ht
        exact ⟨g ++ x ++ pre, y, post, by rw [e]; simp, h⟩

omit hd hw in
theorem tokens_spelled {s : Str} {ts : List Tk} (h : Tokens s ts) {t : Tk} (ht : t ∈ ts) :
    ∃ pre x post, s = pre ++ x ++ post ∧ Spells x t := by
  obtain ⟨toks, rfl, h⟩ := h
  obtain ⟨u, hu, rfl⟩ := List.mem_map.1 ht
  exact token_spelled h hu

omit hd hw in
theorem broken_error {w s : Str} {n : Nat} {toks : List Token} {e : PyErr} (h : Broken w n s toks e) :
    (∃ p, e = .syntax w p (py"Invalid DataShape token")) ∨ (e = .valueError ∧ ∃ pre x post, s = pre ++ x ++ post ∧ BadString x) := by
  induction h with
  | @string n g x rest hb hx => exact .inr ⟨rfl, g, x, rest, by simp, hx⟩
  | stuck => exact .inl ⟨_, rfl⟩
  | @tok n g x k rest ts _ hb hs hm _ ih =>
    rcases ih with h | ⟨h1, pre, y, post, e, h⟩
    · exact .inl h
    · exact .inr ⟨h1, g ++ x ++ pre, y, post, by rw [e]; simp, h⟩

/-- A text without brackets raises nothing but a syntax error of itself, a `ValueError` for a negative length, a field name that
occurs twice or a string that Python cannot evaluate, and a `TypeError` for its ellipses. -/
theorem C64.no_brackets (s : Str) (e : PyErr) (hb : 91 ∉ s) (h : DS.dshape env disc s = .error e) :
    (∃ p m, p ≤ s.length ∧ e = .syntax s p m) ∨
    (e = .valueError ∧ (45 ∈ s ∨ 123 ∈ s ∨ 34 ∈ s ∨ 39 ∈ s)) ∨
    (e = .typeError ∧ ∃ toks t ps, Lexed 0 s toks ∧ G (theSym env disc) true .datashape (toks.map (·.tk)) t ∧
      Visits (.dshape ps) t ∧ ¬ EllipsisOk ps) := by
  have lb : ∀ {ts : List Tk}, Tokens s ts → Tk.lbrack ∈ ts → False := by
    intro ts ht hm
    obtain ⟨pre, x, post, e, hx⟩ := tokens_spelled ht hm
    simp only [Spells] at hx
    subst hx
    exact hb (by rw [e]; simp)
  rcases C64.raises hd hw s e h with ⟨p, c, h⟩ | ⟨toks, h⟩ | ⟨pre, ts, post, ht, hc⟩ | h
  · exact .inl ⟨p, _, h⟩
  · rcases broken_error h with ⟨p, rfl⟩ | ⟨rfl, pre, x, post, e, hx⟩
    · left
      have := (lex_broken_iff s toks _).2 h
      rcases lex_err s _ (by rw [this]) with h | ⟨p', h1, h2⟩
      · cases h
      · exact ⟨p', _, h1, h2⟩
    · refine .inr (.inl ⟨rfl, ?_⟩)
      obtain ⟨q, body, hq, rfl, _⟩ := hx
      rw [e]
      rcases hq with rfl | rfl <;> simp
  · cases hc with
    | negative hv =>
      refine .inr (.inl ⟨rfl, .inl ?_⟩)
      rename_i v
      obtain ⟨a, x, b, e, hx⟩ := tokens_spelled ht (t := .int v) (by simp)
      simp only [Spells] at hx
      cases v with
      | ofNat n => exact absurd hv (by simp)
      | negSucc n => rw [e, hx]; simp [intStr]
    | record =>
      refine .inr (.inl ⟨rfl, .inr (.inl ?_)⟩)
      obtain ⟨a, x, b, e, hx⟩ := tokens_spelled ht (t := .lbrace) (by simp)
      simp only [Spells] at hx
      rw [e, hx]; simp
    | dimension => exact (lb ht (by simp)).elim
    | call => exact (lb ht (by simp)).elim
    | typevar => exact (lb ht (by simp)).elim
    | typevarName => exact (lb ht (by simp)).elim
    | typevarEmpty => exact (lb ht (by simp)).elim
    | typevarOther => exact (lb ht (by simp)).elim
  · exact .inr (.inr h)

/-- `NotImplementedError` means that a dimension constructor is called in the text, or comes from a call of a type constructor. -/
theorem C64.not_implemented (s : Str) (h : DS.dshape env disc s = .error .notImplemented) :
    ∃ pre n ts post a, Tokens s (pre ++ .lower n :: .lbrack :: (ts ++ .rbrack :: post)) ∧ G (theSym env disc) true .argList ts a ∧
      (n ∈ [py"fixed", py"typevar", py"ellipsis"] ∨ n ∈ callable ∧ CallRaises env disc n a.1 a.2 .notImplemented) := by
  rcases C64.raises hd hw s _ h with ⟨p, _, _, h⟩ | ⟨toks, h⟩ | ⟨pre, ts, post, ht, hc⟩ | ⟨h, _⟩
  · cases h
  · rcases broken_error h with ⟨p, h⟩ | ⟨h, _⟩ <;> cases h
  · generalize he : PyErr.notImplemented = e at hc
    cases hc with
    | @dimension n ts a hn hg => exact ⟨pre, n, ts, post, a, by simpa using ht, hg, .inl hn⟩
    | @call n ts args kw _ hn hg hne hc => subst he; exact ⟨pre, n, ts, post, (args, kw), by simpa using ht, hg, .inr ⟨hn, hc⟩⟩
    | typevarOther _ _ hx => subst he; cases hx
    | _ => cases he
  · cases h

/-- A syntax error that names another text comes from a call of a type constructor (one of its strings is that text, or contains it). -/
theorem C64.other_text (s s' : Str) (p : Nat) (m : Str) (hs : s' ≠ s) (h : DS.dshape env disc s = .error (.syntax s' p m)) :
    ∃ pre n ts post args kw, Tokens s (pre ++ .lower n :: .lbrack :: (ts ++ .rbrack :: post)) ∧ n ∈ callable ∧
      G (theSym env disc) true .argList ts (args, kw) ∧ CallRaises env disc n args kw (.syntax s' p m) := by
  rcases C64.raises hd hw s _ h with ⟨p, _, _, h⟩ | ⟨toks, h⟩ | ⟨pre, ts, post, ht, hc⟩ | ⟨h, _⟩
  · cases h; exact absurd rfl hs
  · rcases broken_error h with ⟨p, h⟩ | ⟨h, _⟩
    · cases h; exact absurd rfl hs
    · cases h
  · generalize he : PyErr.syntax s' p m = e at hc
    cases hc with
    | @call n ts args kw _ hn hg hne hc => subst he; exact ⟨pre, n, ts, post, args, kw, by simpa using ht, hn, hg, hc⟩
    | typevarOther _ _ hx => subst he; cases hx
    | _ => cases he
  · cases h

/-- A text is outside of the model only if it contains a call that stores something other than what the documentation allows
(`CallRaises` lists them), or `typevar` of a list of strings. -/
theorem C64.outside (s : Str) (h : DS.dshape env disc s = .error .unmodelled) :
    ∃ pre n ts post args kw, Tokens s (pre ++ .lower n :: .lbrack :: (ts ++ .rbrack :: post)) ∧
      G (theSym env disc) true .argList ts (args, kw) ∧
      (n ∈ callable ∧ CallRaises env disc n args kw .unmodelled ∨
        n = py"typevar" ∧ ∃ x r, Binds [py"name"] args kw [some (.lits (.str x :: r))]) := by
  rcases C64.raises hd hw s _ h with ⟨p, _, _, h⟩ | ⟨toks, h⟩ | ⟨pre, ts, post, ht, hc⟩ | ⟨h, _⟩
  · cases h
  · rcases broken_error h with ⟨p, h⟩ | ⟨h, _⟩ <;> cases h
  · generalize he : PyErr.unmodelled = e at hc
    cases hc with
    | @call n ts args kw _ hn hg hne hc => subst he; exact ⟨pre, n, ts, post, args, kw, by simpa using ht, hg, .inl ⟨hn, hc⟩⟩
    | @typevarOther ts args kw a _ hg hb hx =>
      subst he
      cases hx with
      | strings x r => exact ⟨pre, _, ts, post, args, kw, by simpa using ht, hg, .inr ⟨rfl, x, r, hb⟩⟩
    | _ => cases he
  · cases h

/-- `decimal[True]` is outside of the model. -/
example (env : Env) (disc : List Lit → Except PyErr Ty) : DS.dshape env disc (py"3 * decimal[True]") = .error .unmodelled := rfl

/-! Conversely, the first construct that raises is what `dshape` raises, whatever comes after it. -/

omit hw in
/-- A negative length raises `ValueError`. -/
theorem C64.negative (text : Str) (toks : List Token) (l post : List Tk) (v : Int) (hv : v < 0) (hl : Lead env disc l)
    (hx : Lexed 0 text toks) (ht : toks.map (·.tk) = l ++ .int v :: .star :: post) :
    DS.dshape env disc text = .error .valueError := by
  refine lead_raises hd hl (by simp) hx ht fun n _ => ?_
  have hc : (theSym env disc).dimConstr (py"fixed") =
      some (fun | .int i => mkFixed i | .bool b => .ok (.fixed (if b then 1 else 0)) | .str _ => .error .typeError) := rfl
  simp [parseNoOption, parseDim, bind, Except.bind, sugar, hc, liftPy, mkFixed, hv]

omit hw in
theorem args_comp {ts post : List Tk} {args : List Arg} {kw : List (Str × Arg)} (hg : G (theSym env disc) true .argList ts (args, kw))
    (hk : ∀ p ∈ kw, (∀ t, ¬ NamedType p.1 t) ∧ p.1 ≠ py"var" ∧ p.1 ≠ py"ellipsis") (n : Nat) (hn : ts.length < n) :
    parseTypeArgList none (parseDatashapeN (theSym env disc) none n) (ts ++ .rbrack :: post) = .ok ((args, kw), .rbrack :: post) := by
  have ha := (comp (defaultSym_truthy env _ disc) (defaultSym_sep env _ disc) hg).2 (by
    intro p hp
    have := hk p hp
    exact kw_names (k := ⟨p.1, [], p.2⟩) this) n ((ts ++ .rbrack :: post).length + 1) [] post hn (by simp; omega)
  simpa [parseTypeArgList] using ha

omit hw in
/-- A call of a dimension constructor raises `NotImplementedError`. -/
theorem C64.dimension (text : Str) (toks : List Token) (l ts post : List Tk) (n : Str) (args : List Arg) (kw : List (Str × Arg))
    (hn : n ∈ [py"fixed", py"typevar", py"ellipsis"]) (hg : G (theSym env disc) true .argList ts (args, kw))
    (hk : ∀ p ∈ kw, (∀ t, ¬ NamedType p.1 t) ∧ p.1 ≠ py"var" ∧ p.1 ≠ py"ellipsis") (hl : Lead env disc l)
    (hx : Lexed 0 text toks) (ht : toks.map (·.tk) = l ++ .lower n :: .lbrack :: (ts ++ .rbrack :: post)) :
    DS.dshape env disc text = .error .notImplemented := by
  refine lead_raises hd hl (by simp) hx ht fun m hm => ?_
  have h1 := args_comp hd hg hk m (by simp at hm; omega) (post := post)
  have hc : ∃ c, (theSym env disc).dimConstr n = some c := by
    simp only [List.mem_cons, List.not_mem_nil, or_false] at hn
    rcases hn with rfl | rfl | rfl <;> exact ⟨_, rfl⟩
  obtain ⟨c, hc⟩ := hc
  generalize parseDatashapeN (theSym env disc) none m = f at h1
  simp [parseNoOption, parseDim, bind, Except.bind, hc, h1]

/-- A call of a type constructor raises what the call raises. -/
theorem C64.call (text : Str) (toks : List Token) (l ts post : List Tk) (n : Str) (args : List Arg) (kw : List (Str × Arg)) (e : PyErr)
    (hn : n ∈ callable) (hg : G (theSym env disc) true .argList ts (args, kw)) (hne : (args, kw) ≠ ([], []))
    (hk : ∀ p ∈ kw, (∀ t, ¬ NamedType p.1 t) ∧ p.1 ≠ py"var" ∧ p.1 ≠ py"ellipsis") (hc : CallRaises env disc n args kw e)
    (hl : Lead env disc l)
    (hx : Lexed 0 text toks) (ht : toks.map (·.tk) = l ++ .lower n :: .lbrack :: (ts ++ .rbrack :: post)) :
    DS.dshape env disc text = .error e := by
  refine lead_raises hd hl (by simp) hx ht fun m hm => ?_
  have h1 := args_comp hd hg hk m (by simp at hm; omega) (post := post)
  obtain ⟨⟨c, hcon⟩, hdc, htv, _⟩ := callable_constr (env := env) (disc := disc) hn
  obtain ⟨a1, a2⟩ := G_wf (fun s t h => (dshapeN_wf hw _ s t h).1.1) hw hg
  have hr := (constr_raises hw a1 a2 hne n c hcon htv e).2 hc
  have hne' : (args.isEmpty && kw.isEmpty) = false := by
    cases args <;> cases kw <;> simp_all
  generalize parseDatashapeN (theSym env disc) none m = f at h1
  simp only [parseNoOption, parseDim, parseDtype, bind, Except.bind, advance_none, List.head?_cons, if_true, hdc, hcon, h1]
  simp [hne', liftPy, hr]

omit hw in
/-- A record with a field name that occurs twice raises `ValueError`. -/
theorem C64.record (text : Str) (toks : List Token) (l ts comma post : List Tk) (fs : List (Str × Ty))
    (hg : G (theSym env disc) true .fieldList ts fs) (hcomma : comma = [] ∨ comma = [.comma]) (hnd : ¬ (fs.map (·.1)).Nodup)
    (hl : Lead env disc l)
    (hx : Lexed 0 text toks) (ht : toks.map (·.tk) = l ++ .lbrace :: (ts ++ comma ++ .rbrace :: post)) :
    DS.dshape env disc text = .error .valueError := by
  refine lead_raises hd hl (by simp) hx ht fun m hm => ?_
  have hE : Ends (· = []) true (comma ++ .rbrace :: post) (.rbrace :: post) := by
    rcases hcomma with rfl | rfl
    · exact .close (.inr (.inl rfl))
    · exact .trail (j := []) rfl (.inr (.inl rfl))
  have ha := (comp (defaultSym_truthy env _ disc) (defaultSym_sep env _ disc) hg).2 (msg := .field) m
    ((ts ++ (comma ++ .rbrace :: post)).length + 1) true (ts ++ (comma ++ .rbrace :: post)) [] (comma ++ .rbrace :: post) (.rbrace :: post)
    (by simp at hm; omega) (by simp; omega) hE
  have h1 : parseList none (parseStructField none (parseDatashapeN (theSym env disc) none m)) .field true (ts ++ (comma ++ .rbrace :: post)) =
      .ok (some fs, .rbrace :: post) := by simpa [parseList] using ha
  have hs : (theSym env disc).dtypeConstr (py"struct") = some (cStruct env (DS.dshape env disc)) := rfl
  have hr : cStruct env (DS.dshape env disc) [.lits (fs.map fun f => .str f.1), .dss (fs.map (·.2))] [] = .error .valueError := by
    show (structFields env (DS.dshape env disc) (((fs.map fun f => Lit.str f.1).map Arg.lit).zip ((fs.map (·.2)).map Arg.ds)) >>= fun l => mkRecord l) = _
    have h1 := structFields_ok' (env := env) (nest := DS.dshape env disc) fs
    simp only [List.map_map, Function.comp_def, h1, bind, Except.bind]
    simp only [mkRecord, List.map_map, Function.comp_def, hnd, ite_false]
  generalize parseDatashapeN (theSym env disc) none m = f at h1
  simp only [List.append_assoc]
  simp [parseNoOption, parseDim, parseDtype, parseStruct, bind, Except.bind, h1, sugar, hs, liftPy]
  rw [hr]

end


/-! Examples -/

/-- a negative length behind a dimension, whatever follows -/
example (env : Env) : DS.dshape env (fun _ => .error .unmodelled) (py"3 * -1 * ] 5") = .error .valueError := rfl

/-- a text without brackets that is rejected for its ellipses -/
example (env : Env) : DS.dshape env (fun _ => .error .unmodelled) (py"... * ellipsis * int32") = .error .typeError := rfl

/-- a construct that raises behind an option sign and dimensions, and tokens that are no datashape after it -/
example (env : Env) : DS.dshape env (fun _ => .error .unmodelled) (py"?var * 2 * {a: int8, 'a': int8,} ] }") = .error .valueError := rfl

example (env : Env) (disc : List Lit → Except PyErr Ty) : Lead env disc [.qmark, .lower (py"var"), .star, .int 2, .star] :=
  .optionDim (ds := [.lower (py"var")]) (d := .var) (.name rfl) (.dim (ds := [.int 2]) (d := .fixed 2) (.int rfl rfl) .nil)

/-- a `NotImplementedError`, and a syntax error of a text inside the text -/
example (env : Env) : DS.dshape env (fun _ => .error .unmodelled) (py"fixed[3] * int32") = .error .notImplemented := rfl
example (env : Env) : DS.dshape env (fun _ => .error .unmodelled) (py"option['3 *']") = .error (.syntax (py"3 *") 3 (py"Expected a dim or a dtype")) := rfl

/-- a string that Python cannot evaluate -/
example : BadString [34, 97, 0, 34] :=
  ⟨34, [97, 0], .inl rfl, rfl, .raw (by decide) (by decide) (by decide) (by decide) (.raw (by decide) (by decide) (by decide) (by decide) .nil),
    0, by simp, .inl rfl⟩

end DS
