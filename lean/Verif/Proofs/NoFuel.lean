import Verif.Proofs.Grammar
import Verif.Proofs.Lexer
import Verif.Model.SymTab

set_option linter.unusedSimpArgs false
namespace DS

variable {msg : Msg}

/-- A property of exceptions that covers those the parser raises itself. -/
structure ErrOk (E : PyErr → Prop) : Prop where
  typeError : E .typeError
  valueError : E .valueError
  notImplemented : E .notImplemented

/-- every exception that is not a syntax error of this parser satisfies `E`
(with `E e := e ≠ .fuel`: the model did not run out of fuel) -/
def NF (E : PyErr → Prop) {α : Type} (r : Except PFail α) : Prop := ∀ e, r = .error (.py e) → E e

variable {E : PyErr → Prop}

theorem NF.ok {α : Type} (a : α) : NF E (.ok a : Except PFail α) := by simp [NF]
theorem NF.raise {α : Type} (s : List Tk) : NF E (raiseAt s msg : Except PFail α) := by simp [NF, raiseAt]
theorem NF.bind {α β : Type} {x : Except PFail α} {f : α → Except PFail β} (h : NF E x)
    (hf : ∀ a, x = .ok a → NF E (f a)) : NF E (x >>= f) := by
  cases x with
  | ok a => exact hf a rfl
  | error e => intro e' h'; apply h; simpa [Bind.bind, Except.bind] using h'

/-- every exception satisfies `E` -/
def NFE (E : PyErr → Prop) {α : Type} (x : Except PyErr α) : Prop := ∀ e, x = .error e → E e

theorem NF.lift {α : Type} {x : Except PyErr α} (h : NFE E x) : NF E (liftPy x) := by
  cases x with
  | ok a => exact NF.ok a
  | error e => intro e' h'; apply h; simpa [liftPy] using h'

theorem NF.sugar {α : Type} (e : Str → Option α) (n w : Str) (s : List Tk) : NF E (DS.sugar e n w s) := by
  cases h : e n <;> simp [NF, DS.sugar, h, raiseAt]

theorem NF.advance {bad : Option PyErr} (hb : ∀ e, bad = some e → E e) (s : List Tk) : NF E (advance bad s) := by
  unfold DS.advance
  split
  · exact NF.ok _
  · split
    · exact NF.ok _
    · rename_i e
      intro e' h'
      simp at h'
      exact hb e' (by rw [h'])
  · exact NF.ok _

/-- strings inside an argument satisfy `B` -/
def ArgIn (B : Str → Prop) : Arg → Prop
  | .lit (.str s) => B s
  | .lits l => ∀ s, Lit.str s ∈ l → B s
  | _ => True

/-- the value of a STRING token satisfies `B` -/
def TkIn (B : Str → Prop) : Tk → Prop
  | .str s => B s
  | _ => True

/-- strings inside a value of a nonterminal satisfy `B` -/
def ValIn (B : Str → Prop) : (n : NT) → n.Val → Prop
  | .arg, a => ArgIn B a
  | .kwarg, p => ArgIn B p.2
  | .argList, r => (∀ a ∈ r.1, ArgIn B a) ∧ ∀ p ∈ r.2, ArgIn B p.2
  | .kwList, l => ∀ p ∈ l, ArgIn B p.2
  | _, _ => True

theorem mem_commas {t : Tk} : ∀ {l : List Tk}, t ∈ l → t ∈ commas l
  | [_], h => by simpa [commas] using h
  | a :: b :: r, h => by
    simp only [List.mem_cons] at h
    simp only [commas, List.mem_cons]
    rcases h with h | h
    · exact .inl h
    · exact .inr (.inr (mem_commas (by simpa using h)))

theorem G_valIn {sym : Sym} {q : Bool} {B : Str → Prop} {n : NT} {ts : List Tk} {v : n.Val} (h : G sym q n ts v) :
    (∀ t ∈ ts, TkIn B t) → ValIn B n v := by
  induction h with
  | @argLit j l _ =>
    intro h
    have := h (Lit.tok l) (by simp)
    cases l <;> simp_all [ValIn, ArgIn, TkIn, Lit.tok]
  | argEmpty _ => intro h; simp [ValIn, ArgIn]
  | @argLits j l _ hl =>
    intro h
    intro s hs
    exact h (.str s) (by
      simp only [List.mem_append, List.mem_cons]
      exact .inr (.inr (.inl (mem_commas (List.mem_map.2 ⟨_, hs, rfl⟩)))))
  | kwarg _ ih => intro h; exact ih fun t ht => h t (by simp [ht])
  | argsOne _ ih => intro h; simpa [ValIn] using ih h
  | argsCons _ _ ih1 ih2 =>
    intro h
    have h1 := ih1 fun t ht => h t (by simp [ht])
    have h2 := ih2 fun t ht => h t (by simp [ht])
    simp only [ValIn] at h1 h2 ⊢
    exact ⟨by simpa [h1] using h2.1, h2.2⟩
  | argsKw _ _ ih =>
    intro h
    have := ih fun t ht => h t (by simp [ht])
    simpa [ValIn] using this
  | argsEnd _ _ => intro h; simp [ValIn]
  | kwOne _ ih => intro h; simpa [ValIn] using ih h
  | kwCons _ _ ih1 ih2 =>
    intro h
    have h1 := ih1 fun t ht => h t (by simp [ht])
    have h2 := ih2 fun t ht => h t (by simp [ht])
    simp only [ValIn] at h1 h2 ⊢
    simpa [h1] using h2
  | _ => intro _; simp [ValIn, ArgIn]

/-- The constructors of the symbol table do not run out of fuel on arguments made of strings in `B`. -/
structure Sym.NoFuel (E : PyErr → Prop) (sym : Sym) (B : Str → Prop) : Prop where
  constr : ∀ n c args kw, sym.dtypeConstr n = some c → (∀ a ∈ args, ArgIn B a) →
    (∀ p ∈ kw, ArgIn B p.2) → NFE E (c args kw)
  dim : ∀ n c l, sym.dimConstr n = some c → NFE E (c l)
  typevar : ∀ c v, sym.dtypeConstr (py"typevar") = some c → NFE E (c [.lit (.str v)] [])
  struct : ∀ c l ts, sym.dtypeConstr (py"struct") = some c → NFE E (c [.lits l, .dss ts] [])

theorem mkDS_nf (hE : ErrOk E) (ps : List Ty) : NFE E (mkDS ps) := by
  unfold mkDS checkDS
  cases (ps.map launderTy).getLast? with
  | none => simp [NFE, hE.valueError]
  | some m =>
    simp only
    split
    · simp [NFE, hE.typeError]
    · split <;> simp [NFE, hE.typeError]

theorem hlist_nf {α : Type} {bad : Option PyErr} (hE : ErrOk E) (hb : ∀ e, bad = some e → E e) {item : List Tk → Res (Option α)}
    {P : List Tk → α → Prop} {J : List Tk → List Tk → Prop} (hi : Sound P J item) (B : Str → Prop) (n : Nat)
    (hn : ∀ s, s.length < n → (∀ t ∈ s, TkIn B t) → NF E (item s)) (trailing : Bool) (saved : List Tk) :
    ∀ (fuel : Nat) (acc : List α) (s : List Tk), s.length < n → (∀ t ∈ s, TkIn B t) → s.length < fuel →
      NF E (hlist bad item msg trailing saved fuel acc s) := by
  intro fuel
  induction fuel with
  | zero => intro acc s _ _ h; omega
  | succ fuel ih =>
    intro acc s h1 h2 h3
    simp only [hlist]
    refine NF.bind (hn s h1 h2) ?_
    rintro ⟨x, s1⟩ hx
    have hs := hi _ _ _ hx
    cases x with
    | none =>
      simp only
      split
      · exact NF.ok _
      · split
        · exact NF.ok _
        · exact NF.raise _
    | some v =>
      simp only
      obtain ⟨ts, e, _⟩ := hs
      split
      · rename_i hc
        refine NF.bind (NF.advance hb _) ?_
        intro s2 ha
        have e2 := advance_head hc ha
        have hl : s.length = ts.length + (s2.length + 1) := by rw [e, e2]; simp
        exact ih _ _ (by omega) (fun t ht => h2 t (by rw [e, e2]; simp [ht])) (by omega)
      · exact NF.ok _

section
variable {sym : Sym} {bad : Option PyErr} {ds : List Tk → Res (Option Ty)} {B : Str → Prop} {n : Nat}

/-- `ds` does not run out of fuel on short inputs -/
abbrev NFDs (E : PyErr → Prop) (B : Str → Prop) (n : Nat) {α : Type} (ds : List Tk → Res (Option α)) : Prop :=
  ∀ s, s.length < n → (∀ t ∈ s, TkIn B t) → NF E (ds s)

theorem parseList_nf {α : Type} (hE : ErrOk E) (hb : ∀ e, bad = some e → E e) {item : List Tk → Res (Option α)}
    {P : List Tk → α → Prop} {J : List Tk → List Tk → Prop} (hi : Sound P J item)
    (hn : NFDs E B n item) (trailing : Bool) : ∀ s, s.length < n → (∀ t ∈ s, TkIn B t) →
      NF E (parseList bad item msg trailing s) :=
  fun s h1 h2 => hlist_nf hE hb hi B n hn trailing s _ _ s h1 h2 (by omega)

theorem parseLit_nf (hE : ErrOk E) (hb : ∀ e, bad = some e → E e) (s : List Tk) :
    NF E (parseInteger bad s) ∧ NF E (parseString bad s) ∧ NF E (parseBoolean bad s) := by
  refine ⟨?_, ?_, ?_⟩
  · unfold parseInteger
    split
    · exact NF.bind (NF.advance hb _) fun _ _ => NF.ok _
    · exact NF.ok _
  · unfold parseString
    split
    · exact NF.bind (NF.advance hb _) fun _ _ => NF.ok _
    · exact NF.ok _
  · unfold parseBoolean
    split
    · exact NF.bind (NF.advance hb _) fun _ _ => NF.ok _
    · exact NF.ok _

theorem parseTypeArg_nf (hE : ErrOk E) (hb : ∀ e, bad = some e → E e) (hds : SoundDs sym ds) (hn : NFDs E B n ds) :
    NFDs E B n (parseTypeArg bad ds) := by
  intro s h1 h2
  simp only [parseTypeArg]
  refine NF.bind (hn s h1 h2) ?_
  rintro ⟨t, s1⟩ ht
  have hs := hds _ _ _ ht
  cases t with
  | some t => exact NF.ok _
  | none =>
    obtain ⟨j, e, _⟩ := hs
    simp only
    split
    · exact NF.bind (NF.advance hb _) fun _ _ => NF.ok _
    · exact NF.bind (NF.advance hb _) fun _ _ => NF.ok _
    · exact NF.bind (NF.advance hb _) fun _ _ => NF.ok _
    · rename_i r
      refine NF.bind (NF.advance hb _) ?_
      intro s2 ha
      have := advance_ok ha; subst this
      have hl : s.length = j.length + (s2.length + 1) := by rw [e]; simp
      have hm : ∀ t ∈ s2, TkIn B t := fun t ht => h2 t (by rw [e]; simp [ht])
      refine NF.bind (parseList_nf hE hb hds hn false s2 (by omega) hm) ?_
      rintro ⟨v, s3⟩ h3
      refine NF.bind ?_ ?_
      · have p3 := parseList_sound hds false h3
        cases v with
        | some l => exact NF.ok _
        | none =>
          simp only [out_none] at p3 ⊢
          subst p3
          refine NF.bind (parseList_nf hE hb parseInteger_sound (n := n) (fun s _ _ => (parseLit_nf hE hb s).1) false s3 (by omega) hm) ?_
          rintro ⟨v, s4⟩ h4
          have p4 := parseList_sound parseInteger_sound false h4
          cases v with
          | some l => exact NF.ok _
          | none =>
            simp only [out_none] at p4 ⊢
            subst p4
            refine NF.bind (parseList_nf hE hb parseString_sound (n := n) (fun s _ _ => (parseLit_nf hE hb s).2.1) false s4 (by omega) hm) ?_
            rintro ⟨v, s5⟩ h5
            have p5 := parseList_sound parseString_sound false h5
            cases v with
            | some l => exact NF.ok _
            | none =>
              simp only [out_none] at p5 ⊢
              subst p5
              refine NF.bind (parseList_nf hE hb parseBoolean_sound (n := n) (fun s _ _ => (parseLit_nf hE hb s).2.2) false s5 (by omega) hm) ?_
              rintro ⟨v, s6⟩ h6
              exact NF.ok _
      · rintro ⟨v, s4⟩ _
        simp only
        split
        · exact NF.bind (NF.advance hb _) fun _ _ => NF.ok _
        · exact NF.raise _
    · exact NF.ok _

theorem parseTypeKwarg_nf (hE : ErrOk E) (hb : ∀ e, bad = some e → E e) (hds : SoundDs sym ds) (hn : NFDs E B n ds) :
    NFDs E B n (parseTypeKwarg bad ds) := by
  intro s h1 h2
  unfold parseTypeKwarg
  split
  · rename_i name r
    refine NF.bind (NF.advance hb _) ?_
    intro s1 ha
    have := advance_ok ha; subst this
    split
    · rename_i hc
      refine NF.bind (NF.advance hb _) ?_
      intro s2 ha2
      have e2 := advance_head hc ha2
      simp at h1
      have hl : s1.length = s2.length + 1 := by rw [e2]; simp
      refine NF.bind (parseTypeArg_nf hE hb hds hn s2 (by omega) (fun t ht => h2 t (by rw [e2]; simp [ht]))) ?_
      rintro ⟨a, s3⟩ _
      cases a with
      | some a => exact NF.ok _
      | none => exact NF.raise _
    · exact NF.ok _
  · exact NF.ok _

theorem argLoop_nf (hE : ErrOk E) (hb : ∀ e, bad = some e → E e) (hds : SoundDs sym ds) (hn : NFDs E B n ds) : ∀ (fuel : Nat)
    (acc : List Arg) (s : List Tk), s.length < n → (∀ t ∈ s, TkIn B t) → s.length < fuel →
      NF E (argLoop bad ds fuel acc s) := by
  intro fuel
  induction fuel with
  | zero => intro acc s _ _ h; omega
  | succ fuel ih =>
    intro acc s h1 h2 h3
    simp only [argLoop]
    refine NF.bind (parseTypeArg_nf hE hb hds hn s h1 h2) ?_
    rintro ⟨x, s1⟩ hx
    have hs := parseTypeArg_sound hds _ _ _ hx
    cases x with
    | none =>
      obtain ⟨j, e, _⟩ := hs
      have hl : s.length = j.length + s1.length := by rw [e]; simp
      refine NF.bind (parseList_nf hE hb (parseTypeKwarg_sound hds) (parseTypeKwarg_nf hE hb hds hn) false s1 (by omega)
        (fun t ht => h2 t (by rw [e]; simp [ht]))) ?_
      rintro ⟨kw, s2⟩ _
      exact NF.ok _
    | some v =>
      obtain ⟨ts, e, _⟩ := hs
      simp only
      split
      · rename_i hc
        refine NF.bind (NF.advance hb _) ?_
        intro s2 ha
        have e2 := advance_head hc ha
        have hl : s.length = ts.length + (s2.length + 1) := by rw [e, e2]; simp
        exact ih _ _ (by omega) (fun t ht => h2 t (by rw [e, e2]; simp [ht])) (by omega)
      · exact NF.ok _

theorem parseTypeArgList_nf (hE : ErrOk E) (hb : ∀ e, bad = some e → E e) (hds : SoundDs sym ds) (hn : NFDs E B n ds) (s : List Tk)
    (h1 : s.length < n) (h2 : ∀ t ∈ s, TkIn B t) : NF E (parseTypeArgList bad ds s) :=
  argLoop_nf hE hb hds hn _ _ _ h1 h2 (by omega)

theorem parseStructField_nf (hE : ErrOk E) (hb : ∀ e, bad = some e → E e) (hn : NFDs E B n ds) :
    NFDs E B n (parseStructField bad ds) := by
  intro s h1 h2
  have go : ∀ k m r, s = k :: r →
      NF E ((do
        let s1 ← advance bad s
        if s1.head? = some .colon then
          let s2 ← advance bad s1
          let (t, s3) ← ds s2
          match t with
          | some t => .ok (some (m, t), s3)
          | none => raiseAt s3 .fieldType
        else raiseAt s1 .colon : Res (Option (Str × Ty)))) := by
    intro k m r e
    subst e
    refine NF.bind (NF.advance hb _) ?_
    intro s1 ha
    have := advance_ok ha; subst this
    split
    · rename_i hc
      refine NF.bind (NF.advance hb _) ?_
      intro s2 ha2
      have e2 := advance_head hc ha2
      simp at h1
      have hl : s1.length = s2.length + 1 := by rw [e2]; simp
      refine NF.bind (hn s2 (by omega) (fun t ht => h2 t (by rw [e2]; simp [ht]))) ?_
      rintro ⟨a, s3⟩ _
      cases a with
      | some a => exact NF.ok _
      | none => exact NF.raise _
    · exact NF.raise _
  unfold parseStructField
  simp only
  split
  · exact go _ _ _ rfl
  · exact go _ _ _ rfl
  · exact go _ _ _ rfl
  · exact go _ _ _ rfl
  · exact NF.ok _

variable (hS : sym.NoFuel E B)
include hS

theorem parseStruct_nf (hE : ErrOk E) (hb : ∀ e, bad = some e → E e) (hds : SoundDs sym ds) (hn : NFDs E B n ds) (r : List Tk)
    (h1 : r.length < n) (h2 : ∀ t ∈ r, TkIn B t) : NF E (parseStruct sym bad ds (.lbrace :: r)) := by
  simp only [parseStruct]
  refine NF.bind (NF.advance hb _) ?_
  intro s1 ha
  have := advance_ok ha; subst this
  refine NF.bind (parseList_nf hE hb (parseStructField_sound hds) (parseStructField_nf hE hb hn) true s1 h1 h2) ?_
  rintro ⟨fields, s2⟩ hf
  simp only
  split
  · refine NF.bind (NF.advance hb _) ?_
    intro s3 _
    refine NF.bind (NF.sugar _ _ _ _) ?_
    intro c hc
    rw [sugar_ok] at hc
    exact NF.bind (NF.lift (hS.struct c _ _ hc)) fun _ _ => NF.ok _
  · exact NF.raise _

theorem parseParen_nf (hE : ErrOk E) (hb : ∀ e, bad = some e → E e) (hds : SoundDs sym ds) (hn : NFDs E B n ds) (r : List Tk)
    (h1 : r.length < n) (h2 : ∀ t ∈ r, TkIn B t) : NF E (parseParen sym bad ds (.lparen :: r)) := by
  simp only [parseParen]
  refine NF.bind (NF.advance hb _) ?_
  intro s1 ha
  have := advance_ok ha; subst this
  refine NF.bind (parseList_nf hE hb hds hn true s1 h1 h2) ?_
  rintro ⟨l, s2⟩ hf
  have p := parseList_sound hds true hf
  have suf : ∃ p, s1 = p ++ s2 := by
    cases l with
    | none => exact ⟨[], by simpa using p.symm⟩
    | some l =>
      obtain ⟨ts, _, hcase⟩ := p
      rcases hcase with e | ⟨_, j, _, e⟩
      · exact ⟨_, e⟩
      · exact ⟨_, e⟩
  obtain ⟨pre, epre⟩ := suf
  simp only
  split
  · rename_i hc
    refine NF.bind (NF.advance hb _) ?_
    intro s3 ha3
    have e3 := advance_head hc ha3
    split
    · rename_i hc4
      refine NF.bind (NF.advance hb _) ?_
      intro s4 ha4
      have e4 := advance_head hc4 ha4
      have hl : s1.length = pre.length + (s4.length + 2) := by rw [epre, e3, e4]; simp
      refine NF.bind (hn s4 (by omega) (fun t ht => h2 t (by rw [epre, e3, e4]; simp [ht]))) ?_
      rintro ⟨ret, s5⟩ _
      cases ret with
      | none => exact NF.raise _
      | some ret =>
        refine NF.bind (NF.sugar _ _ _ _) ?_
        intro c hc
        rw [sugar_ok] at hc
        exact NF.bind (NF.lift (hS.constr _ c _ _ hc (by simp [ArgIn]) (by simp))) fun _ _ => NF.ok _
    · refine NF.bind (NF.sugar _ _ _ _) ?_
      intro c hc
      rw [sugar_ok] at hc
      exact NF.bind (NF.lift (hS.constr _ c _ _ hc (by simp [ArgIn]) (by simp))) fun _ _ => NF.ok _
  · exact NF.raise _

theorem parseDim_nf (hE : ErrOk E) (hb : ∀ e, bad = some e → E e) (hds : SoundDs sym ds) (hn : NFDs E B n ds) (s : List Tk)
    (h1 : s.length ≤ n) (h2 : ∀ t ∈ s, TkIn B t) : NF E (parseDim sym bad ds s) := by
  unfold parseDim
  split
  · refine NF.bind (NF.advance hb _) fun s1 _ => ?_
    split
    · refine NF.bind (NF.advance hb _) fun s2 _ => NF.bind (NF.sugar _ _ _ _) fun c hc => ?_
      rw [sugar_ok] at hc
      exact NF.bind (NF.lift (hS.dim _ c _ hc)) fun _ _ => NF.ok _
    · split
      · refine NF.bind (NF.sugar _ _ _ _) fun c hc => ?_
        rw [sugar_ok] at hc
        exact NF.bind (NF.lift (hS.dim _ c _ hc)) fun _ _ => NF.ok _
      · exact NF.ok _
  · refine NF.bind (NF.advance hb _) fun s1 ha => ?_
    have := advance_ok ha; subst this
    split
    · rename_i hc
      split
      · exact NF.ok _
      · refine NF.bind (NF.advance hb _) fun s2 ha2 => ?_
        have e2 := advance_head hc ha2
        simp at h1
        have hl : s1.length = s2.length + 1 := by rw [e2]; simp
        refine NF.bind (parseTypeArgList_nf hE hb hds hn s2 (by omega) (fun t ht => h2 t (by rw [e2]; simp [ht]))) ?_
        rintro ⟨_, s3⟩ _
        simp only
        split
        · exact NF.bind (NF.advance hb _) fun _ _ => by simp [NF, hE.notImplemented]
        · exact NF.raise _
    · split
      · exact NF.ok _
      · exact NF.ok _
  · refine NF.bind (NF.advance hb _) fun s1 _ => ?_
    split
    · refine NF.bind (NF.sugar _ _ _ _) fun c hc => ?_
      rw [sugar_ok] at hc
      exact NF.bind (NF.lift (hS.dim _ c _ hc)) fun _ _ => NF.ok _
    · exact NF.ok _
  · exact NF.bind (NF.advance hb _) fun s1 _ => NF.bind (NF.sugar _ _ _ _) fun _ _ => NF.ok _
  · exact NF.ok _

theorem parseDtype_nf (hE : ErrOk E) (hb : ∀ e, bad = some e → E e) (hds : SoundDs sym ds) (hn : NFDs E B n ds) (s : List Tk)
    (h1 : s.length ≤ n) (h2 : ∀ t ∈ s, TkIn B t) : NF E (parseDtype sym bad ds s) := by
  unfold parseDtype
  split
  · rename_i v r
    refine NF.bind (NF.advance hb _) fun s1 _ => NF.bind (NF.sugar _ _ _ _) fun c hc => ?_
    rw [sugar_ok] at hc
    exact NF.bind (NF.lift (hS.typevar c v hc)) fun _ _ => NF.ok _
  · refine NF.bind (NF.advance hb _) fun s1 ha => ?_
    have := advance_ok ha; subst this
    split
    · rename_i hc
      split
      · exact NF.ok _
      · rename_i c hcon
        refine NF.bind (NF.advance hb _) fun s2 ha2 => ?_
        have e2 := advance_head hc ha2
        simp at h1
        have hl : s1.length = s2.length + 1 := by rw [e2]; simp
        have hm : ∀ t ∈ s2, TkIn B t := fun t ht => h2 t (by rw [e2]; simp [ht])
        refine NF.bind (parseTypeArgList_nf hE hb hds hn s2 (by omega) hm) ?_
        rintro ⟨args, s3⟩ h3
        obtain ⟨ts, e, hg⟩ := parseTypeArgList_sound hds h3
        have hv := G_valIn (B := B) hg fun t ht => hm t (by rw [e]; simp [ht])
        simp only
        split
        · split
          · exact NF.raise _
          · exact NF.bind (NF.advance hb _) fun _ _ =>
              NF.bind (NF.lift (hS.constr _ c _ _ hcon hv.1 hv.2)) fun _ _ => NF.ok _
        · exact NF.raise _
    · split
      · exact NF.ok _
      · exact NF.ok _
  · simp at h1; exact parseStruct_nf hS hE hb hds hn _ (by omega) fun t ht => h2 t (by simp [ht])
  · simp at h1; exact parseParen_nf hS hE hb hds hn _ (by omega) fun t ht => h2 t (by simp [ht])
  · exact NF.ok _

theorem parseNoOption_nf (hE : ErrOk E) (hb : ∀ e, bad = some e → E e) (hds : SoundDs sym ds) (hn : NFDs E B n ds) (s : List Tk)
    (h1 : s.length ≤ n) (h2 : ∀ t ∈ s, TkIn B t) : NF E (parseNoOption sym bad ds s) := by
  have tail : ∀ s : List Tk, s.length ≤ n → (∀ t ∈ s, TkIn B t) → NF E ((do
      let (t, s2) ← parseDtype sym bad ds s
      match t with
      | some t => if truthy t then do let r ← liftPy (mkDS [t]); .ok (some r, s2) else .ok (none, s2)
      | none => .ok (none, s2) : Res (Option Ty))) := by
    intro s h1 h2
    refine NF.bind (parseDtype_nf hS hE hb hds hn s h1 h2) ?_
    rintro ⟨t, s2⟩ _
    cases t with
    | none => exact NF.ok _
    | some t =>
      simp only
      split
      · exact NF.bind (NF.lift (mkDS_nf hE _)) fun _ _ => NF.ok _
      · exact NF.ok _
  simp only [parseNoOption]
  refine NF.bind (parseDim_nf hS hE hb hds hn s h1 h2) ?_
  rintro ⟨dim, s1⟩ h3
  have p := parseDim_sound s h3
  cases dim with
  | none =>
    simp only [out_none] at p
    obtain ⟨p, _⟩ := p
    subst p
    exact tail s1 h1 h2
  | some d =>
    obtain ⟨ts, e, hd, _⟩ := p
    have hl : s.length = ts.length + s1.length := by rw [e]; simp
    simp only
    split
    · rename_i hc
      refine NF.bind (NF.advance hb _) fun s2 ha2 => ?_
      have e2 := advance_head hc ha2
      have hl2 : s1.length = s2.length + 1 := by rw [e2]; simp
      refine NF.bind (hn s2 (by omega) fun t ht => h2 t (by rw [e, e2]; simp [ht])) ?_
      rintro ⟨t, s3⟩ _
      cases t with
      | none => exact NF.raise _
      | some t => exact NF.bind (NF.lift (mkDS_nf hE _)) fun _ _ => NF.ok _
    · exact tail s1 (by omega) fun t ht => h2 t (by rw [e]; simp [ht])

theorem parseDatashapeF_nf (hE : ErrOk E) (hb : ∀ e, bad = some e → E e) (hds : SoundDs sym ds) (hn : NFDs E B n ds) (s : List Tk)
    (h1 : s.length ≤ n) (h2 : ∀ t ∈ s, TkIn B t) : NF E (parseDatashapeF sym bad ds s) := by
  unfold parseDatashapeF
  split
  · refine NF.bind (NF.advance hb _) fun s1 ha => ?_
    have := advance_ok ha; subst this
    simp at h1
    refine NF.bind (parseNoOption_nf hS hE hb hds hn s1 (by omega) fun t ht => h2 t (by simp [ht])) ?_
    rintro ⟨t, s2⟩ _
    cases t with
    | none => exact NF.ok _
    | some t =>
      refine NF.bind (NF.sugar _ _ _ _) fun c hc => ?_
      rw [sugar_ok] at hc
      exact NF.bind (NF.lift (hS.constr _ c _ _ hc (by simp [ArgIn]) (by simp))) fun _ _ =>
        NF.bind (NF.lift (mkDS_nf hE _)) fun _ _ => NF.ok _
  · exact parseNoOption_nf hS hE hb hds hn s h1 h2

theorem parseDatashapeN_nf (hT : sym.Truthy) (hE : ErrOk E) (hb : ∀ e, bad = some e → E e) (n : Nat) : NFDs E B n (parseDatashapeN sym bad n) := by
  induction n with
  | zero => intro s h; omega
  | succ n ih =>
    intro s h1 h2
    exact parseDatashapeF_nf hS hE hb (parseDatashapeN_sound hT bad n) ih s (by omega) h2

theorem parseToks_nf (hT : sym.Truthy) (hE : ErrOk E) (hb : ∀ e, bad = some e → E e) (toks : List Tk) (h : ∀ t ∈ toks, TkIn B t) :
    NF E (parseToks sym bad toks) := by
  unfold parseToks
  split
  · intro e h; simp at h; exact hb e (by rw [h])
  · refine NF.bind (parseDatashapeN_nf hS hT hE hb _ toks (by omega) h) ?_
    rintro ⟨t, s⟩ _
    cases t with
    | none => exact NF.raise _
    | some t => simp only; split; exact NF.ok _; exact NF.raise _

end

/-- The lexer raises only `ValueError` (characters that Python rejects in a string literal) or a syntax error at
an offset inside the text. -/
theorem lexLoop_err (text : Str) : ∀ (n : Nat) (s : Str), s.length < n → ∀ e,
    (lexLoop text n s).2 = some e → e = .valueError ∨ ∃ p, p ≤ text.length ∧ e = .syntax text p (py"Invalid DataShape token") := by
  intro n
  induction n with
  | zero => intro s h; omega
  | succ n ih =>
    intro s hn e he
    cases h : scanTok s with
    | none =>
      simp only [lexLoop, h] at he
      split at he
      · simp at he
      · simp at he; exact .inr ⟨_, Nat.sub_le _ _, he.symm⟩
    | some p =>
      obtain ⟨t, rest⟩ := p
      cases t with
      | error e' =>
        simp only [lexLoop, h] at he
        split at he
        · simp at he
        · simp at he; exact .inl (by rw [← he]; exact scanTok_error h)
      | ok t =>
        have h1 := scanTok_shrinks h
        have h2 := skipWs_length false rest
        rw [lexLoop_step text n s rest t h] at he
        exact ih _ (by omega) e he

theorem lex_err (text : Str) (e : PyErr) (h : (lex text).2 = some e) :
    e = .valueError ∨ ∃ p, p ≤ text.length ∧ e = .syntax text p (py"Invalid DataShape token") := by
  have := skipWs_length false text
  exact lexLoop_err text _ _ (by omega) e h

/-- The offset the parser reports lies inside the text. -/
theorem errPos_le (text : Str) (k : Nat) : errPos (lex text).1 k ≤ text.length := by
  have h := (lexLoop_spans text (text.length + 1) (skipWs false text) _ (skipWs_length false text) rfl).1
  have h' : ∀ t ∈ (lex text).1, t.start ≤ text.length ∧ t.stop ≤ text.length := fun t ht => by
    have := h t ht; omega
  unfold errPos
  split
  · rename_i t ht; exact (h' t (List.mem_of_getElem? ht)).1
  · split
    · rename_i t ht; exact (h' t (List.mem_of_getLast? ht)).2
    · omega

/-- Every exception of `parse` satisfies `E`, if syntax errors inside the text and the exceptions of the
constructors do. -/
theorem parse_err_at {sym : Sym} {B : Str → Prop} (hE : ErrOk E) (hS : sym.NoFuel E B) (hT : sym.Truthy) (text : Str)
    (hlex : ∀ e, (lex text).2 = some e → E e) (hpos : ∀ k (m : Msg), E (.syntax text (errPos (lex text).1 k) m.text))
    (h : ∀ t ∈ (lex text).1, TkIn B t.tk) : NFE E (parse sym text) := by
  have := parseToks_nf hS hT hE hlex ((lex text).1.map (·.tk)) (by simpa using h)
  simp only [parse]
  generalize hl : lex text = l at *
  obtain ⟨toks, bad⟩ := l
  simp only at this hpos ⊢
  split
  · simp [NFE]
  · rename_i e he; intro e' h'; simp at h'; subst h'; exact this e he
  · intro e' h'; simp at h'; subst h'; exact hpos _ _

theorem parse_err {sym : Sym} {B : Str → Prop} (hE : ErrOk E) (hS : sym.NoFuel E B) (hT : sym.Truthy) (text : Str)
    (hsyn : ∀ p m, p ≤ text.length → E (.syntax text p m)) (h : ∀ t ∈ (lex text).1, TkIn B t.tk) :
    NFE E (parse sym text) := by
  refine parse_err_at hE hS hT text ?_ (fun k m => hsyn _ m.text (errPos_le text k)) h
  intro e he
  rcases lex_err text e he with rfl | ⟨p, hp, rfl⟩
  · exact hE.valueError
  · exact hsyn p _ hp

theorem errOk_fuel : ErrOk (· ≠ .fuel) := ⟨by simp, by simp, by simp⟩

/-- `parse` never runs out of fuel. -/
theorem parse_nf {sym : Sym} {B : Str → Prop} (hS : sym.NoFuel (· ≠ .fuel) B) (hT : sym.Truthy) (text : Str)
    (h : ∀ t ∈ (lex text).1, TkIn B t.tk) : parse sym text ≠ .error .fuel := fun h' =>
  parse_err errOk_fuel hS hT text (by simp) h _ h' rfl

end DS
