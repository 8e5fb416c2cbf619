import Verif.Spec.Denotes
import Verif.Proofs.Print
import Verif.Props.RoundTrip

/-
C41: syntactic sugar means what the grammar document says.
-/
namespace DS

/-! ### Texts and their tokens -/

/-- the tokens of `s` are `ks` -/
def LexTo (s : Str) (ks : List Tk) : Prop := ∃ toks, lex s = (toks, none) ∧ toks.map (·.tk) = ks

theorem LexTo.lexed {s : Str} {ks : List Tk} (h : LexTo s ks) (n : Nat) : ∃ toks, Lexed n s toks ∧ toks.map (·.tk) = ks := by
  obtain ⟨toks, h, e⟩ := h
  obtain ⟨ts, h', e'⟩ := ((lex_iff _ _).1 h).shift n
  exact ⟨ts, h', by rw [← e, e']⟩

theorem lexTo_of {s : Str} {n : Nat} {toks : List Token} (h : Lexed n s toks) : LexTo s (toks.map (·.tk)) := by
  obtain ⟨ts, h', e'⟩ := h.shift 0
  exact ⟨ts, (lex_iff _ _).2 h', e'⟩

theorem LexTo.tok {w r : Str} {k : Tk} {ks : List Tk} (hw : Spells w k) (hm : Munch k r) (h : LexTo r ks) :
    LexTo (w ++ r) (k :: ks) := by
  obtain ⟨toks, h, e⟩ := h.lexed (0 + [].length + w.length)
  have := lexTo_of (Lexed.tok (g := []) .nil hw hm h)
  simpa [e] using this

theorem LexTo.nil : LexTo [] [] := ⟨[], rfl, rfl⟩

theorem LexTo.punct {c : Nat} {k : Tk} {r : Str} {ks : List Tk} (h : Spells [c] k) (hm : ∀ r, Munch k r) (hr : LexTo r ks) :
    LexTo (c :: r) (k :: ks) := LexTo.tok (w := [c]) h (hm r) hr

theorem Blank.closed {b : Bool} {g : Str} (h : Blank b g) (hc : 35 ∉ g ∨ g.getLast? = some 10) : Blank false g := by
  induction h with
  | nil => exact .nil
  | @space b c r hs h ih =>
    refine .space hs (ih ?_)
    rcases hc with hc | hc
    · exact .inl fun h => hc (by simp [h])
    · cases r with
      | nil => exact .inl (by simp)
      | cons x r => rw [List.getLast?_cons_cons] at hc; exact .inr hc
  | @comment b body r hb h ih =>
    refine .comment hb (ih ?_)
    rcases hc with hc | hc
    · simp at hc
    · cases r with
      | nil => exact .inl (by simp)
      | cons x r =>
        right
        rw [← hc, ← List.cons_append, List.getLast?_append, List.getLast?_cons_cons]
        simp [List.getLast?_cons]
  | @final body hb =>
    rcases hc with hc | hc
    · simp at hc
    · exfalso
      cases body with
      | nil => simp at hc
      | cons x r => rw [List.getLast?_cons_cons] at hc; exact hb (List.mem_of_getLast? hc)

theorem Lexed.textOf {n : Nat} {a : Str} {ts : List Token} (h : Lexed n a ts) (hc : 35 ∉ a ∨ a.getLast? = some 10) :
    TextOf a (ts.map (·.tk)) := by
  induction h with
  | @done n g hg => exact .done (hg.closed hc)
  | @tok n g w t rest ts hg hw hm hr ih =>
    refine .tok hg hw hm (ih ?_)
    rcases hc with hc | hc
    · exact .inl fun h => hc (by simp [h])
    · cases rest with
      | nil => exact .inl (by simp)
      | cons x r =>
        right
        rw [← hc, ← List.append_assoc, List.getLast?_append]
        simp [List.getLast?_cons]

theorem Lay.textOf {s : Str} {ks : List Tk} (h : Lay s ks) : TextOf s ks := by
  induction h with
  | nil => exact .done .nil
  | sp hc _ ih =>
    cases ih with
    | done hg => exact .done (.space hc hg)
    | tok hg hw hm hr =>
      rw [← List.cons_append]
      exact .tok (.space hc hg) hw hm hr
  | tok hw hm _ ih => exact .tok (g := []) .nil hw hm ih

theorem TextOf.append {a b : Str} {ks ls : List Tk} (h : TextOf a ks) (hb : LexTo b ls) (hs : Soft b) :
    LexTo (a ++ b) (ks ++ ls) := by
  induction h with
  | @done g hg =>
    obtain ⟨toks, h, e⟩ := hb.lexed (0 + g.length)
    have := lexTo_of (h.leading hg rfl)
    simpa [e] using this
  | @tok g w t rest ts hg hw hm hr ih =>
    obtain ⟨toks, h, e⟩ := ih.lexed (0 + g.length + w.length)
    have := lexTo_of (Lexed.tok hg hw (hm.append hs) h)
    simpa [e] using this

/-- a text that denotes a datashape, followed by more text -/
theorem Denotes.then {env : Env} {disc : List Lit → Except PyErr Ty} {s : Str} {t : Ty} (h : Denotes env disc s t) :
    ∃ ks, G (theSym env disc) true .datashape ks t ∧ LexTo s ks ∧
      ∀ {b ls}, LexTo b ls → Soft b → LexTo (s ++ b) (ks ++ ls) := by
  obtain ⟨ks, ht, hg⟩ := h
  exact ⟨_, hg, by simpa using ht.append .nil .nil, fun hb hs => ht.append hb hs⟩

/-- A text of the grammar that has no `#` in it or ends in a newline can be put inside other text. -/
theorem Denotes.of_lex {env : Env} {disc : List Lit → Except PyErr Ty} {s : Str} {t : Ty} {toks : List Token}
    (hl : lex s = (toks, none)) (hg : G (theSym env disc) true .datashape (toks.map (·.tk)) t)
    (hc : 35 ∉ s ∨ s.getLast? = some 10) : Denotes env disc s t :=
  ⟨_, ((lex_iff _ _).1 hl).textOf hc, hg⟩

/-- so can every text that `dshape` reads (C06) -/
theorem Denotes.of_dshape {env : Env} {disc : List Lit → Except PyErr Ty} (hd : ∀ l, Returns (disc l)) {s : Str} {t : Ty}
    (h : dshape env disc s = .ok t) (hc : 35 ∉ s ∨ s.getLast? = some 10) : Denotes env disc s t := by
  obtain ⟨toks, hl, hg, _⟩ := (C06.exact env disc hd s t).1 h
  exact .of_lex hl hg hc

/-- so can the printed form of any printable datashape, at any width -/
theorem Denotes.printed {env : Env} {disc : List Lit → Except PyErr Ty} {t : Ty} (h : Printable env t) (w : Option Int) :
    Denotes env disc (render env t w) t.canon.wrap := by
  obtain ⟨ks, hl, hg⟩ := (reads (nest := dshape env disc) (disc := disc) t h.wf h.spelled h.top).1 w
  exact ⟨ks, hl.textOf, C06.documented env disc _ _ hg.1⟩

/-- a comma between the texts -/
def joinComma : List Str → Str := join (py",")

theorem denotes_list {env : Env} {disc : List Lit → Except PyErr Ty} (l : List (Str × Ty)) (hne : l ≠ [])
    (h : ∀ p ∈ l, Denotes env disc p.1 p.2) :
    ∃ ks, G (theSym env disc) true .dsList ks (l.map (·.2)) ∧
      ∀ {b ls}, LexTo b ls → Soft b → LexTo (joinComma (l.map (·.1)) ++ b) (ks ++ ls) := by
  induction l with
  | nil => exact absurd rfl hne
  | cons p l ih =>
    obtain ⟨ks, hg, _, hl⟩ := (h p (by simp)).then
    cases l with
    | nil => exact ⟨ks, .dsOne hg, fun hb hs => hl hb hs⟩
    | cons p' l =>
      obtain ⟨ls, hg', hl'⟩ := ih (by simp) fun p hp => h p (List.mem_cons_of_mem _ hp)
      refine ⟨ks ++ .comma :: ls, .dsCons hg hg', fun hb hs => ?_⟩
      have := hl (LexTo.punct (c := 44) (k := .comma) rfl (fun _ => trivial) (hl' hb hs)) (.cons (by decide))
      simpa [joinComma, join] using this

/-- one field of a struct: the text of its name, a quoted text of its name, its name, the text of its type, its type -/
structure FieldText where
  label : Str
  quoted : Str
  name : Str
  text : Str
  ty : Ty

/-- the texts are what they are said to be -/
structure FieldText.Ok (env : Env) (disc : List Lit → Except PyErr Ty) (f : FieldText) : Prop where
  label : NameText f.label f.name
  quoted : Quoted f.quoted f.name
  text : Denotes env disc f.text f.ty

theorem denotes_fields {env : Env} {disc : List Lit → Except PyErr Ty} (l : List FieldText) (hne : l ≠ [])
    (h : ∀ f ∈ l, f.Ok env disc) :
    ∃ ks, G (theSym env disc) true .fieldList ks (l.map fun f => (f.name, f.ty)) ∧
      ∀ {b ls}, LexTo b ls → Soft b → LexTo (joinComma (l.map fun f => f.label ++ (py":" ++ f.text)) ++ b) (ks ++ ls) := by
  have one : ∀ f : FieldText, f.Ok env disc → ∃ ks, G (theSym env disc) true .field ks (f.name, f.ty) ∧
      ∀ {b ls}, LexTo b ls → Soft b → LexTo (f.label ++ (py":" ++ f.text) ++ b) (ks ++ ls) := by
    intro f hf
    obtain ⟨ks, hg, _, hl⟩ := hf.text.then
    obtain ⟨k, hw, hm, hn⟩ := hf.label
    refine ⟨k :: .colon :: ks, .field hn hg, fun {b ls} hb hs => ?_⟩
    have := LexTo.tok hw (munch_head (r' := 58 :: (f.text ++ b)) hm rfl)
      (LexTo.punct (c := 58) (k := .colon) rfl (fun _ => trivial) (hl hb hs))
    simpa using this
  induction l with
  | nil => exact absurd rfl hne
  | cons p l ih =>
    obtain ⟨ks, hg, hl⟩ := one p (h p (by simp))
    cases l with
    | nil => exact ⟨ks, .fieldOne hg, fun hb hs => hl hb hs⟩
    | cons p' l =>
      obtain ⟨ls, hg', hl'⟩ := ih (by simp) fun p hp => h p (List.mem_cons_of_mem _ hp)
      refine ⟨ks ++ .comma :: ls, .fieldCons hg hg', fun hb hs => ?_⟩
      have := hl (LexTo.punct (c := 44) (k := .comma) rfl (fun _ => trivial) (hl' hb hs)) (.cons (by decide))
      simpa [joinComma, join] using this

theorem quoted_list (l : List FieldText) (h : ∀ f ∈ l, Quoted f.quoted f.name) {b : Str} {ls : List Tk} (hb : LexTo b ls) :
    LexTo (joinComma (l.map fun f => f.quoted) ++ b) (commas (l.map fun f => .str f.name) ++ ls) := by
  induction l with
  | nil => exact hb
  | cons f l ih =>
    have h1 := h f (by simp)
    cases l with
    | nil => exact LexTo.tok h1 trivial hb
    | cons g l =>
      have := LexTo.tok h1 trivial (LexTo.punct (c := 44) (k := .comma) rfl (fun _ => trivial)
        (ih fun f hf => h f (List.mem_cons_of_mem _ hf)))
      simpa [joinComma, join, commas] using this

section
variable (env : Env) (disc : List Lit → Except PyErr Ty) (hd : ∀ l, Returns (disc l))

/-- what a text denotes is well formed -/
theorem Denotes.ok (hw : ∀ l t, disc l = .ok t → WF env t) {s : Str} {t : Ty} (h : Denotes env disc s t) : DSOk env t := by
  obtain ⟨ks, _, hg⟩ := h
  exact G_wf (fun s t h => (dshapeN_wf hw _ s t h).1.1) hw hg

theorem DSOk.launder {env : Env} {t : Ty} (h : DSOk env t) : (launderTy t).isSingleton = false := by
  obtain ⟨ps, rfl⟩ := isDShape_iff.1 h.2
  unfold launderTy
  split
  · exact not_singleton (h.params _ (by simp_all [Ty.params])).2
  · rename_i hne
    cases ps with
    | nil => rfl
    | cons a ps =>
      cases ps with
      | nil => exact absurd rfl (hne a)
      | cons b ps => rfl

theorem DSOk.prepend {env : Env} {t d : Ty} (h : DSOk env t) (hd : d.isDim = true) : mkDS (d :: t.params) = .ok (.dshape (d :: t.params)) := by
  have hp := h.params
  have hl := h.1.local
  obtain ⟨ps, rfl⟩ := isDShape_iff.1 h.2
  simp only [localOk, Bool.and_eq_true, Bool.not_eq_true', List.isEmpty_eq_false_iff] at hl
  obtain ⟨⟨⟨hne, hdim⟩, hlast⟩, _⟩ := hl
  simp only [Ty.params] at hp ⊢
  refine mkDS_self.2 <| .of ⟨d :: ps.dropLast, ps.getLast hne, by simp [List.dropLast_concat_getLast], ?_, ?_, ?_⟩
  · intro x hx
    rw [List.all_eq_true] at hdim
    have hx' : x.isDim = true := by
      rcases List.mem_cons.1 hx with rfl | hx
      · exact hd
      · exact hdim x hx
    cases x <;> simp_all [Ty.isDim, Ty.cls]
  · rw [List.getLast?_eq_some_getLast hne] at hlast
    simpa [endsOk_cls] using hlast
  · intro x hx
    rcases List.mem_cons.1 hx with rfl | hx
    · cases x <;> simp_all [Ty.isDim, Ty.isSingleton]
    · exact not_singleton (hp x hx).2

include hd

theorem dshape_of_G {s : Str} {ks : List Tk} {t : Ty} (hl : LexTo s ks) (hg : G (theSym env disc) true .datashape ks t) :
    DS.dshape env disc s = if validOk t then .ok t else .error .typeError := by
  obtain ⟨toks, hl, e⟩ := hl
  rw [C03.dshape_recursion env disc hd, parse_complete (defaultSym_truthy env _ disc) (defaultSym_sep env _ disc) hl (by rw [e]; exact hg)]

omit hd in
theorem lexTo_constr {n r : Str} {ks : List Tk} (hn : Word isLower n) (h : LexTo r ks) :
    LexTo (n ++ (py"[" ++ r)) (.lower n :: .lbrack :: ks) := by
  refine LexTo.tok ⟨rfl, hn⟩ ?_ (LexTo.punct (c := 91) rfl (fun _ => trivial) h)
  intro c hc; cases hc; decide

omit hd in
theorem lexTo_last {c : Nat} {k : Tk} (h : Spells [c] k) (hm : ∀ r, Munch k r) : LexTo [c] [k] := LexTo.punct h hm .nil

omit hd in
/-- a measure written alone -/
theorem G.measure {ks : List Tk} {t : Ty} (h : G (theSym env disc) true .dtype ks t) (hc : t.isDShape = false)
    (hc' : t.cls ≠ some .dimension)
    (hn : NotDimConstr (theSym env disc) ks := by intro n r e; first | (cases e; done) | (cases e; rfl)) :
    G (theSym env disc) true .datashape ks (.dshape [t]) :=
  .plain (.dtype h (mkDS_self.2 <| .of ⟨[], _, rfl, by simp, hc', by simpa using not_singleton hc⟩) fun _ => hn)

omit hd in
theorem validOk_launder {t : Ty} (h : validOk t = true) : validOk (launderTy t) = true := by
  unfold launderTy
  split
  · simp [validOk, validOkL] at h; exact h.1.1
  · exact h

/-- **C41.** `?s` is read like `option[s]`, for every text `s` that is read as a datashape and does not itself start
with `?`: as `DataShape(Option(t))` for the value `t` of `s`. -/
theorem C41.option (s : Str) (t : Ty) (h : Denotes env disc s t) (hq : NoQmark s) :
    DS.dshape env disc (py"?" ++ s) = DS.dshape env disc (py"option[" ++ s ++ py"]") ∧
    (validOk t = true → DS.dshape env disc (py"?" ++ s) = .ok (.dshape [mkOption t])) := by
  have hq' := hq
  obtain ⟨ks, hg, hl, hl'⟩ := h.then
  have h1 : LexTo (py"?" ++ s) (.qmark :: ks) := LexTo.punct rfl (fun _ => trivial) hl
  have h2 : LexTo (py"option[" ++ s ++ py"]") (.lower (py"option") :: .lbrack :: (ks ++ [.rbrack])) := by
    have := lexTo_constr (n := py"option") (word_of rfl rfl) (hl' (lexTo_last (c := 93) (k := .rbrack) rfl fun _ => trivial) (.cons (by decide)))
    simpa using this
  have hno : G (theSym env disc) true .nooption ks t := by
    cases hg with
    | plain h => exact h
    | option =>
      obtain ⟨toks, e, e'⟩ := hl
      cases toks with
      | nil => cases e'
      | cons x toks =>
        refine absurd ?_ (hq' x (by rw [e]; rfl))
        simp at e'; exact e'.1
  have hg1 : G (theSym env disc) true .datashape (.qmark :: ks) (.dshape [mkOption t]) :=
    .option (c := cOption (DS.dshape env disc)) hno rfl rfl rfl
  have hg2 : G (theSym env disc) true .datashape (.lower (py"option") :: .lbrack :: (ks ++ [.rbrack])) (.dshape [mkOption t]) :=
    G.measure env disc (.constr (c := cOption (DS.dshape env disc)) rfl (fun _ => rfl) (.argsOne (.argDs hg)) (by simp) rfl) rfl (by simp [mkOption, Ty.cls])
  rw [dshape_of_G env disc hd h1 hg1, dshape_of_G env disc hd h2 hg2]
  refine ⟨rfl, fun hv => ?_⟩
  rw [if_pos]
  simp [mkOption, validOk, validOkL, validOk_launder hv, Ty.isEllipsis]

/-- `(s1,…,sn)` is read like `tuple[[s1,…,sn]]`, for `n ≥ 0` texts that are read as datashapes. -/
theorem C41.tuple (l : List (Str × Ty)) (h : ∀ p ∈ l, Denotes env disc p.1 p.2)
    (hw : ∀ l t, disc l = .ok t → WF env t) :
    DS.dshape env disc (py"(" ++ joinComma (l.map (·.1)) ++ py")") = .ok (.dshape [.tuple (l.map (·.2))]) ∧
    DS.dshape env disc (py"tuple[[" ++ joinComma (l.map (·.1)) ++ py"]]") = .ok (.dshape [.tuple (l.map (·.2))]) := by
  by_cases hne : l = []
  · subst hne; exact ⟨rfl, rfl⟩
  obtain ⟨ks, hg, hl⟩ := denotes_list l hne h
  have h1 : LexTo (py"(" ++ joinComma (l.map (·.1)) ++ py")") (.lparen :: (ks ++ [] ++ [.rparen])) := by
    have := LexTo.punct (c := 40) (k := .lparen) rfl (fun _ => trivial)
      (hl (lexTo_last (c := 41) (k := .rparen) rfl fun _ => trivial) (.cons (by decide)))
    simpa using this
  have h2 : LexTo (py"tuple[[" ++ joinComma (l.map (·.1)) ++ py"]]")
      (.lower (py"tuple") :: .lbrack :: ([] ++ .lbrack :: (ks ++ [.rbrack]) ++ [.rbrack])) := by
    have := lexTo_constr (n := py"tuple") (word_of rfl rfl) (LexTo.punct (c := 91) (k := .lbrack) rfl (fun _ => trivial)
      (hl (LexTo.punct (c := 93) (k := .rbrack) rfl (fun _ => trivial)
        (lexTo_last (c := 93) (k := .rbrack) rfl fun _ => trivial)) (.cons (by decide))))
    simpa using this
  have hc : cTuple [.dss (l.map (·.2))] [] = .ok (.tuple (l.map (·.2))) := by
    apply cTuple_ok
    intro t ht
    obtain ⟨p, hp, rfl⟩ := List.mem_map.1 ht
    exact (Denotes.ok env disc hw (h p hp)).2
  have hg1 := G.measure env disc (.tuple (c := cTuple) hg (.inl rfl) rfl hc) rfl (by simp [Ty.cls])
  have hg2 := G.measure env disc (.constr (n := py"tuple") (c := cTuple) rfl (fun _ => rfl) (.argsOne (.argDss .none hg)) (by simp) hc) rfl (by simp [Ty.cls])
  rw [dshape_of_G env disc hd h1 hg1, dshape_of_G env disc hd h2 hg2]
  exact ⟨rfl, rfl⟩

/-- `(s1,…,sn)->r` is read like `funcproto[[s1,…,sn],r]`, for `n ≥ 0` texts that are read as datashapes. -/
theorem C41.function (l : List (Str × Ty)) (h : ∀ p ∈ l, Denotes env disc p.1 p.2)
    (r : Str) (u : Ty) (hr : Denotes env disc r u) :
    DS.dshape env disc (py"(" ++ joinComma (l.map (·.1)) ++ py")->" ++ r) =
      DS.dshape env disc (py"funcproto[[" ++ joinComma (l.map (·.1)) ++ py"]," ++ r ++ py"]") ∧
    ((∀ p ∈ l, validOk p.2 = true) → validOk u = true →
      DS.dshape env disc (py"(" ++ joinComma (l.map (·.1)) ++ py")->" ++ r) = .ok (.dshape [.func (l.map (·.2) ++ [u])])) := by
  obtain ⟨kr, hgr, hlr, hlr'⟩ := hr.then
  by_cases hne : l = []
  · subst hne
    have h1 : LexTo (py"()->" ++ r) (.lparen :: .rparen :: .rarrow :: kr) :=
      LexTo.punct (c := 40) (k := .lparen) rfl (fun _ => trivial) (LexTo.punct (c := 41) (k := .rparen) rfl (fun _ => trivial)
        (LexTo.tok (w := py"->") (k := .rarrow) rfl trivial hlr))
    have h2 : LexTo (py"funcproto[[]," ++ r ++ py"]")
        (.lower (py"funcproto") :: .lbrack :: (([] ++ [.lbrack, .rbrack]) ++ .comma :: kr ++ [.rbrack])) := by
      have := lexTo_constr (n := py"funcproto") (word_of rfl rfl) (LexTo.punct (c := 91) (k := .lbrack) rfl (fun _ => trivial)
        (LexTo.punct (c := 93) (k := .rbrack) rfl (fun _ => trivial) (LexTo.punct (c := 44) (k := .comma) rfl (fun _ => trivial)
          (hlr' (lexTo_last (c := 93) (k := .rbrack) rfl fun _ => trivial) (.cons (by decide))))))
      simpa using this
    have hg1 := G.measure env disc (.emptyFunc (c := cFunc) (t := .func [u]) hgr rfl rfl) rfl (by simp [Ty.cls])
    have hg2 := G.measure env disc (.constr (n := py"funcproto") (c := cFunc) (t := .func [u]) rfl (fun _ => rfl)
      (.argsCons (.argEmpty .none) (.argsOne (.argDs hgr))) (by simp) rfl) rfl (by simp [Ty.cls])
    have e1 := dshape_of_G env disc hd h1 hg1
    have e2 := dshape_of_G env disc hd h2 hg2
    simp only [List.map_nil, joinComma, join, List.nil_append, List.append_nil] at e1 e2 ⊢
    refine ⟨e1.trans e2.symm, fun _ hu => e1.trans ?_⟩
    rw [if_pos]
    simp [validOk, validOkL, Ty.isEllipsis, hu]
  obtain ⟨ks, hg, hl⟩ := denotes_list l hne h
  have h1 : LexTo (py"(" ++ joinComma (l.map (·.1)) ++ py")->" ++ r) (.lparen :: (ks ++ [] ++ .rparen :: .rarrow :: kr)) := by
    have := LexTo.punct (c := 40) (k := .lparen) rfl (fun _ => trivial)
      (hl (LexTo.punct (c := 41) (k := .rparen) rfl (fun _ => trivial) (LexTo.tok (w := py"->") (k := .rarrow) rfl trivial hlr)) (.cons (by decide)))
    simpa using this
  have h2 : LexTo (py"funcproto[[" ++ joinComma (l.map (·.1)) ++ py"]," ++ r ++ py"]")
      (.lower (py"funcproto") :: .lbrack :: (([] ++ .lbrack :: (ks ++ [.rbrack])) ++ .comma :: kr ++ [.rbrack])) := by
    have := lexTo_constr (n := py"funcproto") (word_of rfl rfl) (LexTo.punct (c := 91) (k := .lbrack) rfl (fun _ => trivial)
      (hl (LexTo.punct (c := 93) (k := .rbrack) rfl (fun _ => trivial) (LexTo.punct (c := 44) (k := .comma) rfl (fun _ => trivial)
        (hlr' (lexTo_last (c := 93) (k := .rbrack) rfl fun _ => trivial) (.cons (by decide))))) (.cons (by decide))))
    simpa using this
  have hc : cFunc [.dss (l.map (·.2)), .ds u] [] = .ok (.func (l.map (·.2) ++ [u])) := cFunc_ok
  have hg1 := G.measure env disc (.func (c := cFunc) hg (.inl rfl) hgr rfl hc) rfl (by simp [Ty.cls])
  have hg2 := G.measure env disc (.constr (n := py"funcproto") (c := cFunc) rfl (fun _ => rfl)
    (.argsCons (.argDss .none hg) (.argsOne (.argDs hgr))) (by simp) hc) rfl (by simp [Ty.cls])
  rw [dshape_of_G env disc hd h1 hg1, dshape_of_G env disc hd h2 hg2]
  refine ⟨rfl, fun hv hu => ?_⟩
  rw [if_pos]
  simpa [validOk, validOkL, Ty.isEllipsis, validOkL_eq, hu] using hv

/-- `{n1:s1,…,nk:sk}` is read like `struct[['n1',…,'nk'],[s1,…,sk]]`, for `k ≥ 0` different names, however the names
are written or quoted. -/
theorem C41.struct (l : List FieldText) (h : ∀ f ∈ l, f.Ok env disc) (hn : (l.map (·.name)).Nodup)
    (hw : ∀ l t, disc l = .ok t → WF env t) :
    DS.dshape env disc (py"{" ++ joinComma (l.map fun f => f.label ++ (py":" ++ f.text)) ++ py"}") =
      .ok (.dshape [.record (l.map fun f => (f.name, launderTy f.ty))]) ∧
    DS.dshape env disc (py"struct[[" ++ joinComma (l.map (·.quoted)) ++ py"],[" ++ joinComma (l.map (·.text)) ++ py"]]") =
      .ok (.dshape [.record (l.map fun f => (f.name, launderTy f.ty))]) := by
  by_cases hne : l = []
  · subst hne; exact ⟨rfl, rfl⟩
  obtain ⟨ks, hg, hl⟩ := denotes_fields l hne h
  obtain ⟨kt, hgt, hlt⟩ := denotes_list (l.map fun f => (f.text, f.ty)) (by simpa using hne) (by
    intro p hp
    obtain ⟨f, hf, rfl⟩ := List.mem_map.1 hp
    exact (h f hf).text)
  have h1 : LexTo (py"{" ++ joinComma (l.map fun f => f.label ++ (py":" ++ f.text)) ++ py"}") (.lbrace :: (ks ++ [] ++ [.rbrace])) := by
    have := LexTo.punct (c := 123) (k := .lbrace) rfl (fun _ => trivial)
      (hl (lexTo_last (c := 125) (k := .rbrace) rfl fun _ => trivial) (.cons (by decide)))
    simpa using this
  have h2 : LexTo (py"struct[[" ++ joinComma (l.map (·.quoted)) ++ py"],[" ++ joinComma (l.map (·.text)) ++ py"]]")
      (.lower (py"struct") :: .lbrack :: (([] ++ .lbrack :: (commas ((l.map fun f => Lit.str f.name).map Lit.tok) ++ [.rbrack])) ++
        .comma :: ([] ++ .lbrack :: (kt ++ [.rbrack])) ++ [.rbrack])) := by
    have := lexTo_constr (n := py"struct") (word_of rfl rfl) (LexTo.punct (c := 91) (k := .lbrack) rfl (fun _ => trivial)
      (quoted_list l (fun f hf => (h f hf).quoted) (LexTo.punct (c := 93) (k := .rbrack) rfl (fun _ => trivial)
        (LexTo.punct (c := 44) (k := .comma) rfl (fun _ => trivial) (LexTo.punct (c := 91) (k := .lbrack) rfl (fun _ => trivial)
          (hlt (LexTo.punct (c := 93) (k := .rbrack) rfl (fun _ => trivial)
            (lexTo_last (c := 93) (k := .rbrack) rfl fun _ => trivial)) (.cons (by decide))))))))
    simpa [Lit.tok, Function.comp_def] using this
  have hc := cStruct_ok (env := env) (nest := DS.dshape env disc) (fs := l.map fun f => (f.name, f.ty))
    (by simpa [Function.comp_def] using hn) (by
      intro f hf
      obtain ⟨g, hg, rfl⟩ := List.mem_map.1 hf
      exact (Denotes.ok env disc hw (h g hg).text).launder)
  have hg1 := G.measure env disc (.struct (c := cStruct env (DS.dshape env disc)) hg (.inl rfl) rfl hc) rfl (by simp [Ty.cls])
  have hc2 : cStruct env (DS.dshape env disc) [.lits (l.map fun f => Lit.str f.name), .dss ((l.map fun f => (f.text, f.ty)).map (·.2))] [] =
      .ok (.record (l.map fun f => (f.name, launderTy f.ty))) := by
    simpa [Function.comp_def] using hc
  have hg2 := G.measure env disc (.constr (n := py"struct") (c := cStruct env (DS.dshape env disc)) rfl (fun _ => rfl)
    (.argsCons (.argLits .none ⟨by simpa using hne, .inr (.inl ⟨l.map (·.name), by simp [Function.comp_def]⟩)⟩)
      (.argsOne (.argDss .none hgt))) (by simp) hc2) rfl (by simp [Ty.cls])
  rw [dshape_of_G env disc hd h1 hg1, dshape_of_G env disc hd h2 hg2]
  simp [validOk, validOkL, Ty.isEllipsis, Function.comp_def]

/-- `...*s` is read like `ellipsis*s`. -/
theorem C41.ellipsis (s : Str) (t : Ty) (h : Denotes env disc s t) (hw : ∀ l t, disc l = .ok t → WF env t) :
    DS.dshape env disc (py"...*" ++ s) = DS.dshape env disc (py"ellipsis*" ++ s) := by
  obtain ⟨ks, hg, hl, _⟩ := h.then
  have h1 : LexTo (py"...*" ++ s) ([.ellipsis] ++ .star :: ks) :=
    LexTo.tok (w := py"...") (k := .ellipsis) rfl trivial (LexTo.punct (c := 42) (k := .star) rfl (fun _ => trivial) hl)
  have h2 : LexTo (py"ellipsis*" ++ s) ([.lower (py"ellipsis")] ++ .star :: ks) :=
    LexTo.tok (w := py"ellipsis") (k := .lower (py"ellipsis")) ⟨rfl, word_of rfl rfl⟩ (by intro c hc; cases hc; decide)
      (LexTo.punct (c := 42) (k := .star) rfl (fun _ => trivial) hl)
  have hm := (Denotes.ok env disc hw h).prepend (d := .ellipsis none) rfl
  have hg1 : G (theSym env disc) true .datashape ([.ellipsis] ++ .star :: ks) (.dshape (.ellipsis none :: t.params)) :=
    .plain (.dim (.ellipsis rfl) hg hm)
  have hg2 : G (theSym env disc) true .datashape ([.lower (py"ellipsis")] ++ .star :: ks) (.dshape (.ellipsis none :: t.params)) :=
    .plain (.dim (.name rfl) hg hm)
  rw [dshape_of_G env disc hd h1 hg1, dshape_of_G env disc hd h2 hg2]

/-- In particular for printed datashapes: `?` and `option[…]` around the text of a printable measure or array that is
not itself an option. -/
theorem C41.option_printed (t : Ty) (h : Printable env t) (w : Option Int) (hq : NoQmark (render env t w)) :
    DS.dshape env disc (py"?" ++ render env t w) = DS.dshape env disc (py"option[" ++ render env t w ++ py"]") :=
  (C41.option env disc hd _ _ (Denotes.printed h w) hq).1

omit hd in
/-- The documented expansions of type variables and dimensions, `typevar['T']`, `fixed[3]`, `typevar['D'] *` and
`ellipsis['D'] *`, raise `NotImplementedError`, although `T`, `3 *`, `D *` and `D... *` are read. -/
theorem C41.not_implemented (env : Env) (disc : List Lit → Except PyErr Ty) :
    (DS.dshape env disc (py"typevar['T']") = .error .notImplemented ∧ DS.dshape env disc (py"T") = .ok (.dshape [.typevar (py"T")])) ∧
    (DS.dshape env disc (py"fixed[3] * int32") = .error .notImplemented ∧
      DS.dshape env disc (py"3 * int32") = .ok (.dshape [.fixed 3, tInt32])) ∧
    (DS.dshape env disc (py"typevar['D'] * int32") = .error .notImplemented ∧
      DS.dshape env disc (py"D * int32") = .ok (.dshape [.typevar (py"D"), tInt32])) ∧
    (DS.dshape env disc (py"ellipsis['D'] * int32") = .error .notImplemented ∧
      DS.dshape env disc (py"D... * int32") = .ok (.dshape [.ellipsis (some (py"D")), tInt32])) :=
  ⟨⟨rfl, rfl⟩, ⟨rfl, rfl⟩, ⟨rfl, rfl⟩, ⟨rfl, rfl⟩⟩

omit hd in
/-- The `?` sugar cannot be doubled, although `option[?int32]` is read. -/
theorem C41.double_option (env : Env) (disc : List Lit → Except PyErr Ty) :
    DS.dshape env disc (py"option[?int32]") = .ok (.dshape [.option (.option tInt32)]) ∧
    DS.dshape env disc (py"??int32") = .error (.syntax (py"??int32") 1 (py"Invalid datashape")) := ⟨rfl, rfl⟩

end

/-- the hypotheses are met: the printed form of a datashape with everything, a text with a comment, and field names
written and quoted in different ways -/
example (env : Env) (disc : List Lit → Except PyErr Ty) : Denotes env disc (pyStr env bigExample) bigExample.canon ∧
    Denotes env disc (py"# two rows\n 2 * int32") (.dshape [.fixed 2, tInt32]) ∧
    NoQmark (py"# two rows\n 2 * int32") ∧
    (⟨py"'a b'", py"\"a b\"", py"a b", py"2 * int32", .dshape [.fixed 2, tInt32]⟩ : FieldText).Ok env disc ∧
    (⟨py"x", py"'x'", py"x", py"2 * int32", .dshape [.fixed 2, tInt32]⟩ : FieldText).Ok env disc := by
  have h : ∀ s ks, TextOf s ks → ks = [.int 2, .star, .lower (py"int32")] → Denotes env disc s (.dshape [.fixed 2, tInt32]) := by
    rintro s ks hs rfl
    exact ⟨_, hs, .plain (.dim (ds := [.int 2]) (.int rfl rfl) (.plain (.dtype (.name rfl) rfl fun _ n r e => by cases e)) rfl)⟩
  have h1 : Denotes env disc (py"2 * int32") (.dshape [.fixed 2, tInt32]) := h _ _ (Lexed.textOf (n := 0) ((lex_iff _ _).1 rfl) (.inl (by decide))) rfl
  refine ⟨Denotes.printed (C01.example env) none, ?_, ?_, ⟨?_, ?_, h1⟩, ⟨?_, ?_, h1⟩⟩
  · refine h _ _ (.tok (g := py"# two rows\n ") (w := py"2") (t := .int 2) (rest := py" * int32")
      (.comment (body := py" two rows") (by decide) (.space rfl .nil)) rfl (by intro c hc; cases hc; decide)
      (.tok (g := [32]) (w := py"*") (t := .star) (rest := py" int32") (.space rfl .nil) rfl trivial
        (.tok (g := [32]) (w := py"int32") (t := .lower (py"int32")) (rest := []) (.space rfl .nil) ⟨rfl, word_of rfl rfl⟩
          (by intro c hc; cases hc) (.done .nil)))) rfl
  · intro t ht
    have : t = ⟨.int 2, 12, 13⟩ := by cases ht; rfl
    rw [this]; simp
  · refine ⟨.str (py"a b"), ⟨39, py"a b", .inr rfl, rfl, ?_⟩, trivial, .str⟩
    exact .raw (by decide) (by decide) (by decide) (by decide) (by decide) (by decide) (.raw (by decide) (by decide)
      (by decide) (by decide) (by decide) (by decide) (.raw (by decide) (by decide) (by decide) (by decide) (by decide) (by decide) .nil))
  · refine ⟨34, py"a b", .inl rfl, rfl, ?_⟩
    exact .raw (by decide) (by decide) (by decide) (by decide) (by decide) (by decide) (.raw (by decide) (by decide)
      (by decide) (by decide) (by decide) (by decide) (.raw (by decide) (by decide) (by decide) (by decide) (by decide) (by decide) .nil))
  · exact ⟨.lower (py"x"), ⟨rfl, word_of rfl rfl⟩, by intro c hc; cases hc; decide, .lower⟩
  · refine ⟨39, py"x", .inr rfl, rfl, ?_⟩
    exact .raw (by decide) (by decide) (by decide) (by decide) (by decide) (by decide) .nil

end DS
