import Verif.Spec.SymTable
import Verif.Proofs.Complaints
import Verif.Proofs.Complete
import Verif.Proofs.AtEnd
import Verif.Proofs.SymTab
import Verif.Proofs.SymSep
import Verif.Spec.Lexical
import Verif.Proofs.Lexer

/-
C71: `parse(text, sym)` with a symbol table of the user's own.
-/
namespace DS

variable {msg : Msg}

variable {sym sym' : Sym}

/-! ### More entries -/

theorem DimG.mono (h : sym.Extends sym') {ts : List Tk} {d : Ty} (hd : DimG sym ts d) : DimG sym' ts d := by
  cases hd with
  | typevar h1 h2 => exact .typevar (h.dimConstr _ _ h1) h2
  | ellipsisTypevar h1 h2 => exact .ellipsisTypevar (h.dimConstr _ _ h1) h2
  | name h1 => exact .name (h.dim _ _ h1)
  | int h1 h2 => exact .int (h.dimConstr _ _ h1) h2
  | ellipsis h1 => exact .ellipsis (h.dim _ _ h1)

theorem LooseDim.mono (h : sym.Extends sym') {ts : List Tk} (hd : LooseDim sym ts) : LooseDim sym' ts := by
  cases hd with
  | ellipsisTypevar h1 h2 => exact .ellipsisTypevar (h.dimConstr _ _ h1) h2
  | name h1 => exact .name (h.dim _ _ h1)
  | ellipsis h1 => exact .ellipsis (h.dim _ _ h1)

theorem Junk.mono (h : sym.Extends sym') {q : Bool} {ts : List Tk} (hd : Junk sym q ts) : Junk sym' q ts := by
  cases hd with
  | none => exact .none
  | qmark => exact .qmark
  | dim h1 => exact .dim (h1.mono h)
  | qdim h1 => exact .qdim (h1.mono h)

theorem JunkB.mono (h : sym.Extends sym') {q : Bool} {ts : List Tk} (hd : JunkB sym q ts) : JunkB sym' q ts := by
  cases hd with
  | none => exact .none
  | junk h1 h2 => exact .junk (h1.mono h) h2

theorem comma_mono (h : sym.Extends sym') {q : Bool} {comma : List Tk}
    (hc : comma = [] ∨ ∃ j, Junk sym q j ∧ comma = .comma :: j) : comma = [] ∨ ∃ j, Junk sym' q j ∧ comma = .comma :: j := by
  rcases hc with hc | ⟨j, hj, hc⟩
  · exact .inl hc
  · exact .inr ⟨j, hj.mono h, hc⟩

/-- a type that begins like a constructed dimension is a call of a type constructor -/
theorem dtype_call {q : Bool} {ts : List Tk} {t : Ty} (h : G sym q .dtype ts t) {n : Str} {r : List Tk}
    (e : ts = .lower n :: .lbrack :: r) : ∃ c, sym.dtypeConstr n = some c := by
  cases h with
  | constr hc => injection e with e; injection e with e; subst e; exact ⟨_, hc⟩
  | name => cases e
  | typevar => cases e
  | struct => cases e
  | emptyStruct => cases e
  | tuple => cases e
  | emptyTuple => cases e
  | func => cases e
  | emptyFunc => cases e

theorem G.mono (h : sym.Extends sym') {nt : NT} {ts : List Tk} {v : nt.Val} (hg : G sym true nt ts v) : G sym' true nt ts v := by
  induction hg with
  | plain _ ih => exact .plain ih
  | option _ h1 h2 h3 ih => exact .option ih (h.dtypeConstr _ _ h1) h2 h3
  | dim hd _ hm ih => exact .dim (hd.mono h) ih hm
  | dtype hg hm hd ih =>
    refine .dtype ih hm fun hq n r e => ?_
    obtain ⟨c, hc⟩ := dtype_call hg e
    exact h.apart n c hc (hd hq n r e)
  | dropped hq hl _ hm ih => exact .dropped hq (hl.mono h) ih hm
  | typevar h1 h2 => exact .typevar (h.dtypeConstr _ _ h1) h2
  | name h1 => exact .name (h.dtype _ _ h1)
  | constr h1 _ _ h3 h4 ih => exact .constr (h.dtypeConstr _ _ h1) (by nofun) ih h3 h4
  | struct _ hc h1 h2 ih => exact .struct ih hc (h.dtypeConstr _ _ h1) h2
  | emptyStruct h1 h2 => exact .emptyStruct (h.dtypeConstr _ _ h1) h2
  | tuple _ hc h1 h2 ih => exact .tuple ih (comma_mono h hc) (h.dtypeConstr _ _ h1) h2
  | emptyTuple h1 h2 => exact .emptyTuple (h.dtypeConstr _ _ h1) h2
  | func _ hc _ h1 h2 ih ih' => exact .func ih (comma_mono h hc) ih' (h.dtypeConstr _ _ h1) h2
  | emptyFunc _ h1 h2 ih => exact .emptyFunc ih (h.dtypeConstr _ _ h1) h2
  | field hk _ ih => exact .field hk ih
  | argDs _ ih => exact .argDs ih
  | argLit hj => exact .argLit (hj.mono h)
  | argEmpty hj => exact .argEmpty (hj.mono h)
  | argLits hj hl => exact .argLits (hj.mono h) hl
  | argDss hj _ ih => exact .argDss (hj.mono h) ih
  | kwarg _ ih => exact .kwarg ih
  | argsOne _ ih => exact .argsOne ih
  | argsCons _ _ ih ih' => exact .argsCons ih ih'
  | argsKw hj _ ih => exact .argsKw (hj.mono h) ih
  | argsEnd hq hj => exact .argsEnd hq (hj.mono h)
  | dsOne _ ih => exact .dsOne ih
  | dsCons _ _ ih ih' => exact .dsCons ih ih'
  | kwOne _ ih => exact .kwOne ih
  | kwCons _ _ ih ih' => exact .kwCons ih ih'
  | fieldOne _ ih => exact .fieldOne ih
  | fieldCons _ _ ih ih' => exact .fieldCons ih ih'

/-- **C71.** More entries do not change what a text means: what `parse(text, sym)` returns, `parse(text, sym')` returns for
every extension of the table. -/
theorem C71.extend (h : sym.Extends sym') (hT : sym.Truthy) (hT' : sym'.Truthy) (hS' : sym'.Sep) (text : Str) (t : Ty)
    (hp : parse sym text = .ok t) : parse sym' text = .ok t := by
  obtain ⟨toks, hl, hg⟩ := parse_sound hT hp
  exact parse_complete hT' hS' hl (hg.mono h)

/-- **C71.** With the empty table nothing can be read. -/
theorem C71.bare (text : Str) (t : Ty) : parse bareSym text ≠ .ok t := by
  intro hp
  obtain ⟨toks, hl, hg⟩ := parse_sound ⟨by nofun, by nofun⟩ hp
  have hno : ∀ (nt : NT) (ts : List Tk) (v : nt.Val), G bareSym true nt ts v →
      nt ≠ .datashape ∧ nt ≠ .nooption ∧ nt ≠ .dtype := by
    intro nt ts v h
    induction h <;> simp_all [bareSym]
  exact (hno _ _ _ hg).1 rfl

/-! ### Missing entries -/

theorem After.follow {rest : List Tk} (h : After rest) : Follow rest := by
  rcases h with rfl | ⟨t, r, rfl, ht⟩
  · exact .nil
  · intro u e
    injection e with e
    subst e
    simp only [List.mem_cons, List.not_mem_nil, or_false] at ht
    rcases ht with rfl | rfl | rfl | rfl <;> simp

/-- an error behind leading dimensions -/
theorem leadIn_error {l : List Tk} (hl : LeadIn sym l) {s : List Tk} {e : PFail}
    (h1 : l.getLast? = some .qmark → ∀ n, s.length ≤ n → parseNoOption sym none (parseDatashapeN sym none n) s = .error e)
    (h2 : ∀ n, s.length ≤ n → parseDatashapeN sym none (n + 1) s = .error e) :
    ∀ n, (l ++ s).length ≤ n → parseDatashapeN sym none (n + 1) (l ++ s) = .error e := by
  have hlast : ∀ (ds ts : List Tk), ts.getLast? = some .qmark → (ds ++ .star :: ts).getLast? = some .qmark := by
    intro ds ts h
    rw [List.getLast?_append]
    cases ts with
    | nil => cases h
    | cons a ts => simp [List.getLast?_cons] at h ⊢; simp [h]
  induction hl with
  | nil => exact h2
  | option =>
    intro n hn
    have := h1 rfl n (by simp at hn; omega)
    simp [parseDatashapeN, parseDatashapeF, bind, Except.bind, this]
  | @dim ds d ts hd _ ih =>
    intro n hn
    obtain ⟨n, rfl⟩ : ∃ m, n = m + 1 := ⟨n - 1, by simp at hn; omega⟩
    have h3 := dimG_comp hd (parseDatashapeN sym none (n + 1)) (ts ++ s)
    have h4 := ih (fun h => h1 (hlast ds ts h)) n (by simp at hn ⊢; omega)
    have e : parseDatashapeN sym none (n + 1 + 1) (ds ++ .star :: ts ++ s) =
        parseNoOption sym none (parseDatashapeN sym none (n + 1)) (ds ++ .star :: ts ++ s) := by
      rw [parseDatashapeN, parseDatashapeF]
      intro r e
      cases ds with
      | nil => simp at h3
      | cons a ds => simp at e; simp [e.1] at h3
    rw [e]
    simp [parseNoOption, bind, Except.bind, h3.2.2, h4]
  | @optionDim ds d ts hd _ ih =>
    intro n hn
    obtain ⟨n, rfl⟩ : ∃ m, n = m + 1 := ⟨n - 1, by simp at hn; omega⟩
    have h3 := dimG_comp hd (parseDatashapeN sym none (n + 1)) (ts ++ s)
    have h4 := ih (fun h => h1 (hlast (.qmark :: ds) ts h)) n (by simp at hn ⊢; omega)
    rw [parseDatashapeN]
    generalize parseDatashapeN sym none (n + 1) = f at *
    simp [parseDatashapeF, parseNoOption, bind, Except.bind, h3.2.2, h4]

/-- what `Lacks` says, for the parser -/
theorem Lacks.fails (hT : sym.Truthy) (hS : sym.Sep) {ts rest : List Tk} {k : Nat} {c : Complaint} (h : Lacks sym ts rest k c) :
    k < ts.length ∧
    (ts.head? ≠ some .qmark → ∀ n, (ts ++ rest).length ≤ n →
      parseNoOption sym none (parseDatashapeN sym none n) (ts ++ rest) = .error (.tok ((ts ++ rest).length - k) c.msg)) ∧
    ∀ n, (ts ++ rest).length ≤ n → parseDatashapeN sym none (n + 1) (ts ++ rest) = .error (.tok ((ts ++ rest).length - k) c.msg) := by
  have up : ∀ {us : List Tk} {e : PFail}, us.head? ≠ some .qmark →
      (∀ n, us.length ≤ n → parseNoOption sym none (parseDatashapeN sym none n) us = .error e) →
      (us.head? ≠ some .qmark → ∀ n, us.length ≤ n → parseNoOption sym none (parseDatashapeN sym none n) us = .error e) ∧
      ∀ n, us.length ≤ n → parseDatashapeN sym none (n + 1) us = .error e := by
    intro us e hq hf
    refine ⟨fun _ => hf, fun n hn => ?_⟩
    rw [parseDatashapeN, parseDatashapeF]
    · exact hf n hn
    · intro r e'; simp [e'] at hq
  cases h with
  | @struct ts _ fs comma hc hg hcm =>
    refine ⟨by simp, ?_⟩
    have := @up (.lbrace :: (ts ++ comma ++ [.rbrace]) ++ rest) (.tok (Tk.lbrace :: (ts ++ comma ++ [Tk.rbrace]) ++ rest).length (.missing (py"struct") (py"{...} dtype constructor"))) (by simp) ?_
    · exact ⟨fun _ => this.1 (by simp), this.2⟩
    intro n hn
    have hE : Ends (· = []) true (comma ++ .rbrace :: rest) (.rbrace :: rest) := by
      rcases hcm with rfl | rfl
      · exact .close (.inr (.inl rfl))
      · exact .trail (j := []) rfl (.inr (.inl rfl))
    have h1 := (comp hT hS hg).2 (msg := .field) n ((ts ++ (comma ++ .rbrace :: rest)).length + 1) true (ts ++ (comma ++ .rbrace :: rest)) []
      (comma ++ .rbrace :: rest) _ (by simp at hn; omega) (by simp; omega) hE
    have e : (Tk.lbrace :: (ts ++ comma ++ [.rbrace])) ++ rest = .lbrace :: (ts ++ (comma ++ .rbrace :: rest)) := by simp
    rw [e]
    simp only [parseNoOption, parseDim, parseDtype, parseStruct, bind, Except.bind, parseList, advance_none, h1, sugar]
    simp [hc, raiseAt]
  | emptyStruct hc =>
    refine ⟨by simp, ?_⟩
    have := @up (.lbrace :: .rbrace :: rest) (.tok (.lbrace :: .rbrace :: rest : List Tk).length (.missing (py"struct") (py"{...} dtype constructor"))) (by simp) ?_
    · exact ⟨fun _ => this.1 (by simp), this.2⟩
    intro n hn
    simp [parseNoOption, parseDim, parseDtype, parseStruct, bind, Except.bind, parseList, hlist, parseStructField, sugar, hc, raiseAt]
  | @tuple ts _ l comma hc hg hcm hr =>
    refine ⟨by simp, ?_⟩
    have := @up (.lparen :: (ts ++ comma ++ [.rparen]) ++ rest) (.tok (Tk.lparen :: (ts ++ comma ++ [Tk.rparen]) ++ rest).length (.missing (py"tuple") (py"(...) dtype constructor"))) (by simp) ?_
    · exact ⟨fun _ => this.1 (by simp), this.2⟩
    intro n hn
    have hE : Ends (Junk sym true) true (comma ++ .rparen :: rest) (.rparen :: rest) := by
      rcases hcm with rfl | rfl
      · exact .close (.inr (.inr rfl))
      · exact .trail (j := []) .none (.inr (.inr rfl))
    have h1 := (comp hT hS hg).2 (msg := .tupleItem) n ((ts ++ (comma ++ .rparen :: rest)).length + 1) true (ts ++ (comma ++ .rparen :: rest)) []
      (comma ++ .rparen :: rest) _ (by simp at hn; omega) (by simp; omega) hE
    have e : (Tk.lparen :: (ts ++ comma ++ [.rparen])) ++ rest = .lparen :: (ts ++ (comma ++ .rparen :: rest)) := by simp
    rw [e]
    simp only [parseNoOption, parseDim, parseDtype, parseParen, bind, Except.bind, parseList, advance_none, h1, sugar]
    simp [hr, hc, raiseAt]
  | emptyTuple hc hr =>
    refine ⟨by simp, ?_⟩
    have := @up (.lparen :: .rparen :: rest) (.tok (.lparen :: .rparen :: rest : List Tk).length (.missing (py"tuple") (py"(...) dtype constructor"))) (by simp) ?_
    · exact ⟨fun _ => this.1 (by simp), this.2⟩
    intro n hn
    obtain ⟨n, rfl⟩ : ∃ m, n = m + 1 := ⟨n - 1, by simp at hn; omega⟩
    have h1 : ∀ msg, parseList none (parseDatashapeN sym none (n+1)) msg true (.rparen :: rest) = .ok (none, .rparen :: rest) :=
      fun _ => parseList_none (ds_closing (.inr (.inr rfl)) rest n)
    simp [parseNoOption, parseDim, parseDtype, parseParen, bind, Except.bind, h1, hr, sugar, hc, raiseAt]
  | @func ts us _ l comma r hc hg hcm hg' hr =>
    refine ⟨by simp, ?_⟩
    have := @up (.lparen :: (ts ++ comma ++ .rparen :: .rarrow :: us) ++ rest)
      (.tok (Tk.lparen :: (ts ++ comma ++ .rparen :: .rarrow :: us) ++ rest).length (.missing (py"funcproto") (py"(...) -> ... dtype constructor"))) (by simp) ?_
    · exact ⟨fun _ => this.1 (by simp), this.2⟩
    intro n hn
    have hE : Ends (Junk sym true) true (comma ++ .rparen :: .rarrow :: (us ++ rest)) (.rparen :: .rarrow :: (us ++ rest)) := by
      rcases hcm with rfl | rfl
      · exact .close (.inr (.inr rfl))
      · exact .trail (j := []) .none (.inr (.inr rfl))
    have h1 := (comp hT hS hg).2 (msg := .tupleItem) n ((ts ++ (comma ++ .rparen :: .rarrow :: (us ++ rest))).length + 1) true
      (ts ++ (comma ++ .rparen :: .rarrow :: (us ++ rest))) []
      (comma ++ .rparen :: .rarrow :: (us ++ rest)) _ (by simp at hn; omega) (by simp; omega) hE
    have h2 := (comp hT hS hg').2 n rest (by simp at hn; omega) hr.follow.apart
    have e : (Tk.lparen :: (ts ++ comma ++ .rparen :: .rarrow :: us)) ++ rest =
        .lparen :: (ts ++ (comma ++ .rparen :: .rarrow :: (us ++ rest))) := by simp
    rw [e]
    simp only [parseNoOption, parseDim, parseDtype, parseParen, bind, Except.bind, parseList, advance_none, h1, sugar]
    simp [h2, hc, raiseAt]
  | @emptyFunc us _ r hc hg' hr =>
    refine ⟨by simp, ?_⟩
    have := @up (.lparen :: .rparen :: .rarrow :: us ++ rest) (.tok (.lparen :: .rparen :: .rarrow :: us ++ rest : List Tk).length (.missing (py"funcproto") (py"(...) -> ... dtype constructor"))) (by simp) ?_
    · exact ⟨fun _ => this.1 (by simp), this.2⟩
    intro n hn
    obtain ⟨n, rfl⟩ : ∃ m, n = m + 1 := ⟨n - 1, by simp at hn; omega⟩
    have h1 : ∀ msg, parseList none (parseDatashapeN sym none (n+1)) msg true (.rparen :: .rarrow :: (us ++ rest)) =
        .ok (none, .rparen :: .rarrow :: (us ++ rest)) :=
      fun _ => parseList_none (ds_closing (.inr (.inr rfl)) _ n)
    have h2 := (comp hT hS hg').2 (n+1) rest (by simp at hn; omega) hr.follow.apart
    simp [parseNoOption, parseDim, parseDtype, parseParen, bind, Except.bind, h1, h2, sugar, hc, raiseAt]
  | @option ts _ t hc hg hr =>
    refine ⟨by simp, by simp, fun n hn => ?_⟩
    have h1 := (comp hT hS hg).2.2 n rest (by simp at hn; omega) hr.follow.apart
    simp [parseDatashapeN, parseDatashapeF, bind, Except.bind, h1, sugar, hc, raiseAt, Complaint.msg]
  | @typevar v _ hc h1 h2 =>
    refine ⟨by simp, ?_⟩
    have := @up (.upper v :: rest) (.tok (.upper v :: rest : List Tk).length (.missing (py"typevar") (py"TypeVar dtype constructor"))) (by simp) ?_
    · exact ⟨fun _ => this.1 (by simp), this.2⟩
    intro n hn
    simp [parseNoOption, parseDim, parseDtype, bind, Except.bind, h1, h2, sugar, hc, raiseAt]
  | @typevarDim v _ hc =>
    refine ⟨by simp, ?_⟩
    have := @up (.upper v :: .star :: rest) (.tok (.upper v :: .star :: rest : List Tk).length (.missing (py"typevar") (py"TypeVar dim constructor"))) (by simp) ?_
    · exact ⟨fun _ => this.1 (by simp), this.2⟩
    intro n hn
    simp [parseNoOption, parseDim, bind, Except.bind, sugar, hc, raiseAt]
  | @ellipsisTypevar v _ hc =>
    refine ⟨by simp, ?_⟩
    have := @up (.upper v :: .ellipsis :: rest) (.tok (.upper v :: .ellipsis :: rest : List Tk).length (.missing (py"ellipsis") (py"TypeVar... dim constructor"))) (by simp) ?_
    · exact ⟨fun _ => this.1 (by simp), this.2⟩
    intro n hn
    simp [parseNoOption, parseDim, bind, Except.bind, sugar, hc, raiseAt]
  | ellipsis hc =>
    refine ⟨by simp, ?_⟩
    have := @up (.ellipsis :: rest) (.tok (.ellipsis :: rest : List Tk).length (.missing (py"ellipsis") (py"... dim"))) (by simp) ?_
    · exact ⟨fun _ => this.1 (by simp), this.2⟩
    intro n hn
    simp [parseNoOption, parseDim, bind, Except.bind, sugar, hc, raiseAt]
  | @fixed v _ hc =>
    refine ⟨by simp, ?_⟩
    have := @up (.int v :: .star :: rest) (.tok (.star :: rest : List Tk).length (.missing (py"fixed") (py"integer dimensions"))) (by simp) ?_
    · exact ⟨fun _ => this.1 (by simp), this.2⟩
    intro n hn
    simp [parseNoOption, parseDim, bind, Except.bind, sugar, hc, raiseAt]

/-- **C71.** A piece of syntax for which the symbol table has no entry is a syntax error at that piece (for integer dimensions
at the star after the integer), behind any leading dimensions and option signs and whatever comes after it. -/
theorem C71.missing (hT : sym.Truthy) (hS : sym.Sep) (text : Str) (toks : List Token) (l ts rest : List Tk) (k : Nat)
    (tok : Token) (hx : Lexed 0 text toks) (ht : toks.map (·.tk) = l ++ ts ++ rest) (hl : LeadIn sym l)
    (hq : l.getLast? = some .qmark → ts.head? ≠ some .qmark) (c : Complaint) (hm : Lacks sym ts rest k c)
    (hk : toks[l.length + k]? = some tok) : parse sym text = .error (.syntax text tok.start c.text) := by
  obtain ⟨hlt, h1, h2⟩ := hm.fails hT hS
  have key := leadIn_error hl (fun h => h1 (hq h)) h2 (l ++ (ts ++ rest)).length (Nat.le_refl _)
  have hp : parseToks sym none (toks.map (·.tk)) = .error (.tok ((ts ++ rest).length - k) c.msg) := by
    rw [ht, List.append_assoc]
    unfold parseToks
    split
    · rename_i h; cases h
    · rw [show parseDatashape sym none (l ++ (ts ++ rest)) = _ from key]; rfl
  have hlen : toks.length = l.length + (ts ++ rest).length := by
    have := congrArg List.length ht
    simpa [Nat.add_assoc] using this
  simp only [parse, (lex_iff text toks).2 hx, hp]
  have e : toks.length - ((ts ++ rest).length - k) = l.length + k := by
    simp only [List.length_append] at hlen ⊢; omega
  simp only [errPos, e, hk, c.msg_text]

/-- The default table without its type constructors meets the hypotheses of `C71.missing`; the default table extends it, so
`C71.extend` applies. -/
theorem C71.example_table (env : Env) (nest : Str → Except PyErr Ty) (disc : List Lit → Except PyErr Ty) :
    let sym : Sym := { defaultSym env nest disc with dtypeConstr := fun _ => none }
    sym.Truthy ∧ sym.Sep ∧ sym.Extends (defaultSym env nest disc) := by
  have hT := defaultSym_truthy env nest disc
  have hS := defaultSym_sep env nest disc
  exact ⟨⟨hT.dtype, by nofun⟩, ⟨hS.disjoint, by nofun⟩, ⟨fun _ _ h => h, by nofun, fun _ _ h => h, fun _ _ h => h, by nofun⟩⟩

/-- There a tuple behind a dimension and an option sign is an error at its parenthesis, whatever follows; the array is
read. -/
theorem C71.example (env : Env) (nest : Str → Except PyErr Ty) (disc : List Lit → Except PyErr Ty) :
    let sym : Sym := { defaultSym env nest disc with dtypeConstr := fun _ => none }
    LeadIn sym [.lower (py"var"), .star, .qmark] ∧
    Lacks sym [.lparen, .lower (py"int8"), .comma, .lower (py"int8"), .rparen] [.rbrack] 0
      (.noEntry (py"tuple") (py"(...) dtype constructor")) ∧
    parse sym (py"var * ?(int8, int8) ]") = .error (.syntax (py"var * ?(int8, int8) ]") 7
      (py"Symbol table missing \"tuple\" entry for (...) dtype constructor")) ∧
    parse sym (py"3 * int32") = .ok (.dshape [.fixed 3, tInt32]) := by
  refine ⟨.dim (ds := [.lower (py"var")]) (d := .var) (.name rfl) .option, ?_, rfl, rfl⟩
  exact .tuple (ts := [.lower (py"int8"), .comma, .lower (py"int8")]) (comma := []) rfl
    (.dsCons (ts := [.lower (py"int8")]) (.plain (.dtype (.name rfl) rfl (by intro _ n r e; cases e)))
      (.dsOne (.plain (.dtype (.name rfl) rfl (by intro _ n r e; cases e))))) (.inl rfl) (by simp)

end DS
