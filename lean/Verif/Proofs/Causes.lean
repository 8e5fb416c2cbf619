import Verif.Proofs.WF
import Verif.Proofs.NoFuel
import Verif.Proofs.SymTab

/-
Where the exceptions of the parser come from: every exception other than a syntax error of this parser satisfies `E`, if
those of the constructs in the remaining tokens do.
-/
set_option linter.unusedSimpArgs false
namespace DS

variable {msg : Msg}

variable {E : PyErr → Prop} {K : List Tk → Prop}

theorem dropK (hK : ∀ t s, K (t :: s) → K s) {p s : List Tk} (h : K (p ++ s)) : K s := by
  induction p with
  | nil => exact h
  | cons a p ih => exact ih (hK a _ h)

theorem dropK1 (hK : ∀ t s, K (t :: s) → K s) {p s : List Tk} {a : Tk} (h : K (p ++ a :: s)) : K s := hK a s (dropK hK h)

/-- Every exception of a construct satisfies `E`; `K` holds of the tokens from the start of the construct on. -/
structure Causes (E : PyErr → Prop) (sym : Sym) (K : List Tk → Prop) : Prop where
  tail : ∀ t s, K (t :: s) → K s
  dimCall : ∀ n c ts a post, K (.lower n :: .lbrack :: (ts ++ .rbrack :: post)) → sym.dimConstr n = some c →
    G sym true .argList ts a → E .notImplemented
  call : ∀ n c ts (args : List Arg) kw post, K (.lower n :: .lbrack :: (ts ++ .rbrack :: post)) → sym.dtypeConstr n = some c →
    G sym true .argList ts (args, kw) → (args, kw) ≠ ([], []) → NFE E (c args kw)
  struct : ∀ c ts (fs : List (Str × Ty)) comma post, K (.lbrace :: (ts ++ comma ++ .rbrace :: post)) → G sym true .fieldList ts fs →
    (comma = [] ∨ comma = [.comma]) → sym.dtypeConstr (py"struct") = some c →
    NFE E (c [.lits (fs.map fun f => .str f.1), .dss (fs.map (·.2))] [])
  emptyStruct : ∀ c, sym.dtypeConstr (py"struct") = some c → NFE E (c [.lits [], .dss []] [])
  tuple : ∀ c l, (l = [] ∨ ∃ ts, G sym true .dsList ts l) → sym.dtypeConstr (py"tuple") = some c → NFE E (c [.dss l] [])
  func : ∀ c l r us, (l = [] ∨ ∃ ts, G sym true .dsList ts l) → G sym true .datashape us r →
    sym.dtypeConstr (py"funcproto") = some c → NFE E (c [.dss l, .ds r] [])
  option : ∀ c t ts, G sym true .nooption ts t → sym.dtypeConstr (py"option") = some c →
    NFE E (c [.ds t] []) ∧ ∀ o, c [.ds t] [] = .ok o → NFE E (mkDS [o])
  typevar : ∀ c v s, K (.upper v :: s) → sym.dtypeConstr (py"typevar") = some c → NFE E (c [.lit (.str v)] [])
  dimTypevar : ∀ c v s n, K (.upper v :: s) → n ∈ [py"ellipsis", py"typevar"] → sym.dimConstr n = some c → NFE E (c (.str v))
  fixed : ∀ c v s, K (.int v :: .star :: s) → sym.dimConstr (py"fixed") = some c → NFE E (c (.int v))
  one : ∀ t ts, G sym true .dtype ts t → NFE E (mkDS [t])
  times : ∀ d ds t ts, DimG sym ds d → G sym true .datashape ts t → NFE E (mkDS (d :: t.params))

theorem hlist_cf {α : Type} {bad : Option PyErr} (hK : ∀ t s, K (t :: s) → K s) (hb : ∀ e, bad = some e → E e) {item : List Tk → Res (Option α)}
    {P : List Tk → α → Prop} {J : List Tk → List Tk → Prop} (hi : Sound P J item) (n : Nat)
    (hn : ∀ s, s.length < n → K s → NF E (item s)) (trailing : Bool) (saved : List Tk) :
    ∀ (fuel : Nat) (acc : List α) (s : List Tk), s.length < n → K s → s.length < fuel →
      NF E (hlist bad item msg trailing saved fuel acc s) := by
  intro fuel
  induction fuel with
  | zero => intro acc s _ _ h; omega
  | succ fuel ih =>
    intro acc s h1 h2 h3
    simp only [hlist]
    refine NF.bind (hn s h1 h2) ?_
    rintro ⟨x, s1⟩ hx
    have hs := hi _ _ _ hx
    cases x with
    | none =>
      simp only
      split
      · exact NF.ok _
      · split
        · exact NF.ok _
        · exact NF.raise _
    | some v =>
      simp only
      obtain ⟨ts, e, _⟩ := hs
      split
      · rename_i hc
        refine NF.bind (NF.advance hb _) ?_
        intro s2 ha
        have e2 := advance_head hc ha
        have hl : s.length = ts.length + (s2.length + 1) := by rw [e, e2]; simp
        exact ih _ _ (by omega) (dropK1 hK (by rw [e, e2] at h2; exact h2)) (by omega)
      · exact NF.ok _

section
variable {sym : Sym} {bad : Option PyErr} {ds : List Tk → Res (Option Ty)} {n : Nat}

/-- `ds` does not run out of fuel on short inputs -/
abbrev CFDs (E : PyErr → Prop) (K : List Tk → Prop) (n : Nat) {α : Type} (ds : List Tk → Res (Option α)) : Prop :=
  ∀ s, s.length < n → K s → NF E (ds s)

theorem parseList_cf {α : Type} (hK : ∀ t s, K (t :: s) → K s) (hb : ∀ e, bad = some e → E e) {item : List Tk → Res (Option α)}
    {P : List Tk → α → Prop} {J : List Tk → List Tk → Prop} (hi : Sound P J item)
    (hn : CFDs E K n item) (trailing : Bool) : ∀ s, s.length < n → K s →
      NF E (parseList bad item msg trailing s) :=
  fun s h1 h2 => hlist_cf hK hb hi n hn trailing s _ _ s h1 h2 (by omega)

theorem parseLit_cf (hK : ∀ t s, K (t :: s) → K s) (hb : ∀ e, bad = some e → E e) (s : List Tk) :
    NF E (parseInteger bad s) ∧ NF E (parseString bad s) ∧ NF E (parseBoolean bad s) := by
  refine ⟨?_, ?_, ?_⟩
  · unfold parseInteger
    split
    · exact NF.bind (NF.advance hb _) fun _ _ => NF.ok _
    · exact NF.ok _
  · unfold parseString
    split
    · exact NF.bind (NF.advance hb _) fun _ _ => NF.ok _
    · exact NF.ok _
  · unfold parseBoolean
    split
    · exact NF.bind (NF.advance hb _) fun _ _ => NF.ok _
    · exact NF.ok _

theorem parseTypeArg_cf (hK : ∀ t s, K (t :: s) → K s) (hb : ∀ e, bad = some e → E e) (hds : SoundDs sym ds) (hn : CFDs E K n ds) :
    CFDs E K n (parseTypeArg bad ds) := by
  intro s h1 h2
  simp only [parseTypeArg]
  refine NF.bind (hn s h1 h2) ?_
  rintro ⟨t, s1⟩ ht
  have hs := hds _ _ _ ht
  cases t with
  | some t => exact NF.ok _
  | none =>
    obtain ⟨j, e, _⟩ := hs
    simp only
    split
    · exact NF.bind (NF.advance hb _) fun _ _ => NF.ok _
    · exact NF.bind (NF.advance hb _) fun _ _ => NF.ok _
    · exact NF.bind (NF.advance hb _) fun _ _ => NF.ok _
    · rename_i r
      refine NF.bind (NF.advance hb _) ?_
      intro s2 ha
      have := advance_ok ha; subst this
      have hl : s.length = j.length + (s2.length + 1) := by rw [e]; simp
      have hm : K s2 := dropK1 hK (by rw [e] at h2; exact h2)
      refine NF.bind (parseList_cf hK hb hds hn false s2 (by omega) hm) ?_
      rintro ⟨v, s3⟩ h3
      refine NF.bind ?_ ?_
      · have p3 := parseList_sound hds false h3
        cases v with
        | some l => exact NF.ok _
        | none =>
          simp only [out_none] at p3 ⊢
          subst p3
          refine NF.bind (parseList_cf hK hb parseInteger_sound (n := n) (fun s _ _ => (parseLit_cf hK hb s).1) false s3 (by omega) hm) ?_
          rintro ⟨v, s4⟩ h4
          have p4 := parseList_sound parseInteger_sound false h4
          cases v with
          | some l => exact NF.ok _
          | none =>
            simp only [out_none] at p4 ⊢
            subst p4
            refine NF.bind (parseList_cf hK hb parseString_sound (n := n) (fun s _ _ => (parseLit_cf hK hb s).2.1) false s4 (by omega) hm) ?_
            rintro ⟨v, s5⟩ h5
            have p5 := parseList_sound parseString_sound false h5
            cases v with
            | some l => exact NF.ok _
            | none =>
              simp only [out_none] at p5 ⊢
              subst p5
              refine NF.bind (parseList_cf hK hb parseBoolean_sound (n := n) (fun s _ _ => (parseLit_cf hK hb s).2.2) false s5 (by omega) hm) ?_
              rintro ⟨v, s6⟩ h6
              exact NF.ok _
      · rintro ⟨v, s4⟩ _
        simp only
        split
        · exact NF.bind (NF.advance hb _) fun _ _ => NF.ok _
        · exact NF.raise _
    · exact NF.ok _

theorem parseTypeKwarg_cf (hK : ∀ t s, K (t :: s) → K s) (hb : ∀ e, bad = some e → E e) (hds : SoundDs sym ds) (hn : CFDs E K n ds) :
    CFDs E K n (parseTypeKwarg bad ds) := by
  intro s h1 h2
  unfold parseTypeKwarg
  split
  · rename_i name r
    refine NF.bind (NF.advance hb _) ?_
    intro s1 ha
    have := advance_ok ha; subst this
    split
    · rename_i hc
      refine NF.bind (NF.advance hb _) ?_
      intro s2 ha2
      have e2 := advance_head hc ha2
      simp at h1
      have hl : s1.length = s2.length + 1 := by rw [e2]; simp
      refine NF.bind (parseTypeArg_cf hK hb hds hn s2 (by omega) (dropK1 (p := [_]) hK (by rw [e2] at h2; exact h2))) ?_
      rintro ⟨a, s3⟩ _
      cases a with
      | some a => exact NF.ok _
      | none => exact NF.raise _
    · exact NF.ok _
  · exact NF.ok _

theorem argLoop_cf (hK : ∀ t s, K (t :: s) → K s) (hb : ∀ e, bad = some e → E e) (hds : SoundDs sym ds) (hn : CFDs E K n ds) : ∀ (fuel : Nat)
    (acc : List Arg) (s : List Tk), s.length < n → K s → s.length < fuel →
      NF E (argLoop bad ds fuel acc s) := by
  intro fuel
  induction fuel with
  | zero => intro acc s _ _ h; omega
  | succ fuel ih =>
    intro acc s h1 h2 h3
    simp only [argLoop]
    refine NF.bind (parseTypeArg_cf hK hb hds hn s h1 h2) ?_
    rintro ⟨x, s1⟩ hx
    have hs := parseTypeArg_sound hds _ _ _ hx
    cases x with
    | none =>
      obtain ⟨j, e, _⟩ := hs
      have hl : s.length = j.length + s1.length := by rw [e]; simp
      refine NF.bind (parseList_cf hK hb (parseTypeKwarg_sound hds) (parseTypeKwarg_cf hK hb hds hn) false s1 (by omega)
        (dropK hK (by rw [e] at h2; exact h2))) ?_
      rintro ⟨kw, s2⟩ _
      exact NF.ok _
    | some v =>
      obtain ⟨ts, e, _⟩ := hs
      simp only
      split
      · rename_i hc
        refine NF.bind (NF.advance hb _) ?_
        intro s2 ha
        have e2 := advance_head hc ha
        have hl : s.length = ts.length + (s2.length + 1) := by rw [e, e2]; simp
        exact ih _ _ (by omega) (dropK1 hK (by rw [e, e2] at h2; exact h2)) (by omega)
      · exact NF.ok _

theorem parseTypeArgList_cf (hK : ∀ t s, K (t :: s) → K s) (hb : ∀ e, bad = some e → E e) (hds : SoundDs sym ds) (hn : CFDs E K n ds) (s : List Tk)
    (h1 : s.length < n) (h2 : K s) : NF E (parseTypeArgList bad ds s) :=
  argLoop_cf hK hb hds hn _ _ _ h1 h2 (by omega)

theorem parseStructField_cf (hK : ∀ t s, K (t :: s) → K s) (hb : ∀ e, bad = some e → E e) (hn : CFDs E K n ds) :
    CFDs E K n (parseStructField bad ds) := by
  intro s h1 h2
  have go : ∀ k m r, s = k :: r →
      NF E ((do
        let s1 ← advance bad s
        if s1.head? = some .colon then
          let s2 ← advance bad s1
          let (t, s3) ← ds s2
          match t with
          | some t => .ok (some (m, t), s3)
          | none => raiseAt s3 .fieldType
        else raiseAt s1 .colon : Res (Option (Str × Ty)))) := by
    intro k m r e
    subst e
    refine NF.bind (NF.advance hb _) ?_
    intro s1 ha
    have := advance_ok ha; subst this
    split
    · rename_i hc
      refine NF.bind (NF.advance hb _) ?_
      intro s2 ha2
      have e2 := advance_head hc ha2
      simp at h1
      have hl : s1.length = s2.length + 1 := by rw [e2]; simp
      refine NF.bind (hn s2 (by omega) (dropK1 (p := [_]) hK (by rw [e2] at h2; exact h2))) ?_
      rintro ⟨a, s3⟩ _
      cases a with
      | some a => exact NF.ok _
      | none => exact NF.raise _
    · exact NF.raise _
  unfold parseStructField
  simp only
  split
  · exact go _ _ _ rfl
  · exact go _ _ _ rfl
  · exact go _ _ _ rfl
  · exact go _ _ _ rfl
  · exact NF.ok _

variable (hS : Causes E sym K)
include hS

theorem parseStruct_cf (hb : ∀ e, bad = some e → E e) (hds : SoundDs sym ds) (hn : CFDs E K n ds) (r : List Tk)
    (h1 : r.length < n) (h0 : K (.lbrace :: r)) : NF E (parseStruct sym bad ds (.lbrace :: r)) := by
  simp only [parseStruct]
  refine NF.bind (NF.advance hb _) ?_
  intro s1 ha
  have := advance_ok ha; subst this
  refine NF.bind (parseList_cf hS.tail hb (parseStructField_sound hds) (parseStructField_cf hS.tail hb hn) true s1 h1 (hS.tail _ _ h0)) ?_
  rintro ⟨fields, s2⟩ hf
  have p2 := parseList_sound (parseStructField_sound hds) true hf
  simp only
  split
  · rename_i hc2
    refine NF.bind (NF.advance hb _) ?_
    intro s3 ha3
    have e3 := advance_head hc2 ha3
    refine NF.bind (NF.sugar _ _ _ _) ?_
    intro c hc
    rw [sugar_ok] at hc
    refine NF.bind (NF.lift ?_) fun _ _ => NF.ok _
    cases fields with
    | none => exact hS.emptyStruct c hc
    | some fs =>
      obtain ⟨ts, hsep, hcase⟩ := p2
      have hg := sepBy_fieldList hsep
      rcases hcase with e | ⟨_, j, rfl, e⟩
      · refine hS.struct c ts fs [] s3 ?_ hg (.inl rfl) hc
        rw [e, e3] at h0
        simpa using h0
      · refine hS.struct c ts fs [.comma] s3 ?_ hg (.inr rfl) hc
        rw [e, e3] at h0
        simpa using h0
  · exact NF.raise _

theorem parseParen_cf (hb : ∀ e, bad = some e → E e) (hds : SoundDs sym ds) (hn : CFDs E K n ds) (r : List Tk)
    (h1 : r.length < n) (h2 : K r) : NF E (parseParen sym bad ds (.lparen :: r)) := by
  simp only [parseParen]
  refine NF.bind (NF.advance hb _) ?_
  intro s1 ha
  have := advance_ok ha; subst this
  refine NF.bind (parseList_cf hS.tail hb hds hn true s1 h1 h2) ?_
  rintro ⟨l, s2⟩ hf
  have p := parseList_sound hds true hf
  have suf : ∃ p, s1 = p ++ s2 := by
    cases l with
    | none => exact ⟨[], by simpa using p.symm⟩
    | some l =>
      obtain ⟨ts, _, hcase⟩ := p
      rcases hcase with e | ⟨_, j, _, e⟩
      · exact ⟨_, e⟩
      · exact ⟨_, e⟩
  have hl' : l.getD [] = [] ∨ ∃ ts, G sym true .dsList ts (l.getD []) := by
    cases l with
    | none => exact .inl rfl
    | some l =>
      obtain ⟨ts, hsep, _⟩ := p
      exact .inr ⟨ts, sepBy_dsList hsep⟩
  obtain ⟨pre, epre⟩ := suf
  simp only
  split
  · rename_i hc
    refine NF.bind (NF.advance hb _) ?_
    intro s3 ha3
    have e3 := advance_head hc ha3
    split
    · rename_i hc4
      refine NF.bind (NF.advance hb _) ?_
      intro s4 ha4
      have e4 := advance_head hc4 ha4
      have hl : s1.length = pre.length + (s4.length + 2) := by rw [epre, e3, e4]; simp
      refine NF.bind (hn s4 (by omega) (dropK1 (p := pre ++ [.rparen]) hS.tail (by rw [epre, e3, e4] at h2; simpa using h2))) ?_
      rintro ⟨ret, s5⟩ hret
      cases ret with
      | none => exact NF.raise _
      | some ret =>
        refine NF.bind (NF.sugar _ _ _ _) ?_
        intro c hc
        rw [sugar_ok] at hc
        obtain ⟨us, _, hus⟩ := hds _ _ _ hret
        exact NF.bind (NF.lift (hS.func c _ _ us hl' hus hc)) fun _ _ => NF.ok _
    · refine NF.bind (NF.sugar _ _ _ _) ?_
      intro c hc
      rw [sugar_ok] at hc
      exact NF.bind (NF.lift (hS.tuple c _ hl' hc)) fun _ _ => NF.ok _
  · exact NF.raise _

theorem parseDim_cf (hb : ∀ e, bad = some e → E e) (hds : SoundDs sym ds) (hn : CFDs E K n ds) (s : List Tk)
    (h1 : s.length ≤ n) (h2 : K s) : NF E (parseDim sym bad ds s) := by
  unfold parseDim
  split
  · rename_i v r
    refine NF.bind (NF.advance hb _) fun s1 _ => ?_
    split
    · refine NF.bind (NF.advance hb _) fun s2 _ => NF.bind (NF.sugar _ _ _ _) fun c hc => ?_
      rw [sugar_ok] at hc
      exact NF.bind (NF.lift (hS.dimTypevar c v _ _ h2 (by simp) hc)) fun _ _ => NF.ok _
    · split
      · refine NF.bind (NF.sugar _ _ _ _) fun c hc => ?_
        rw [sugar_ok] at hc
        exact NF.bind (NF.lift (hS.dimTypevar c v _ _ h2 (by simp) hc)) fun _ _ => NF.ok _
      · exact NF.ok _
  · rename_i name r
    refine NF.bind (NF.advance hb _) fun s1 ha => ?_
    have := advance_ok ha; subst this
    split
    · rename_i hc
      split
      · exact NF.ok _
      · rename_i c hcon
        refine NF.bind (NF.advance hb _) fun s2 ha2 => ?_
        have e2 := advance_head hc ha2
        simp at h1
        have hl : s1.length = s2.length + 1 := by rw [e2]; simp
        refine NF.bind (parseTypeArgList_cf hS.tail hb hds hn s2 (by omega) (dropK1 (p := [_]) hS.tail (by rw [e2] at h2; exact h2))) ?_
        rintro ⟨a, s3⟩ h3
        obtain ⟨ts, e, hg⟩ := parseTypeArgList_sound hds h3
        simp only
        split
        · rename_i hc3
          refine NF.bind (NF.advance hb _) fun s4 ha4 => ?_
          have e4 := advance_head hc3 ha4
          have := hS.dimCall name c ts a s4 (by rw [e2, e, e4] at h2; exact h2) hcon hg
          intro e' h'
          simp at h'
          exact h' ▸ this
        · exact NF.raise _
    · split
      · exact NF.ok _
      · exact NF.ok _
  · rename_i v r
    refine NF.bind (NF.advance hb _) fun s1 ha => ?_
    have := advance_ok ha; subst this
    split
    · rename_i hst
      refine NF.bind (NF.sugar _ _ _ _) fun c hc => ?_
      rw [sugar_ok] at hc
      cases s1 with
      | nil => simp at hst
      | cons x r =>
        simp at hst
        subst hst
        exact NF.bind (NF.lift (hS.fixed c v _ h2 hc)) fun _ _ => NF.ok _
    · exact NF.ok _
  · exact NF.bind (NF.advance hb _) fun s1 _ => NF.bind (NF.sugar _ _ _ _) fun _ _ => NF.ok _
  · exact NF.ok _

theorem parseDtype_cf (hb : ∀ e, bad = some e → E e) (hds : SoundDs sym ds) (hn : CFDs E K n ds) (s : List Tk)
    (h1 : s.length ≤ n) (h2 : K s) : NF E (parseDtype sym bad ds s) := by
  unfold parseDtype
  split
  · rename_i v r
    refine NF.bind (NF.advance hb _) fun s1 _ => NF.bind (NF.sugar _ _ _ _) fun c hc => ?_
    rw [sugar_ok] at hc
    exact NF.bind (NF.lift (hS.typevar c v _ h2 hc)) fun _ _ => NF.ok _
  · rename_i name r
    refine NF.bind (NF.advance hb _) fun s1 ha => ?_
    have := advance_ok ha; subst this
    split
    · rename_i hc
      split
      · exact NF.ok _
      · rename_i c hcon
        refine NF.bind (NF.advance hb _) fun s2 ha2 => ?_
        have e2 := advance_head hc ha2
        simp at h1
        have hl : s1.length = s2.length + 1 := by rw [e2]; simp
        have hm : K s2 := dropK1 (p := [_]) hS.tail (by rw [e2] at h2; exact h2)
        refine NF.bind (parseTypeArgList_cf hS.tail hb hds hn s2 (by omega) hm) ?_
        rintro ⟨args, s3⟩ h3
        obtain ⟨ts, e, hg⟩ := parseTypeArgList_sound hds h3
        simp only
        split
        · split
          · exact NF.raise _
          · rename_i hc3 hne
            refine NF.bind (NF.advance hb _) fun s4 ha4 => ?_
            have e4 := advance_head hc3 ha4
            refine NF.bind (NF.lift (hS.call name c ts args.1 args.2 s4 (by rw [e2, e, e4] at h2; exact h2) hcon hg ?_))
              fun _ _ => NF.ok _
            intro h
            obtain ⟨a, b⟩ := args
            simp at h
            simp [h] at hne
        · exact NF.raise _
    · split
      · exact NF.ok _
      · exact NF.ok _
  · simp at h1; exact parseStruct_cf hS hb hds hn _ (by omega) h2
  · simp at h1; exact parseParen_cf hS hb hds hn _ (by omega) (hS.tail _ _ h2)
  · exact NF.ok _

theorem parseNoOption_cf (hb : ∀ e, bad = some e → E e) (hds : SoundDs sym ds) (hn : CFDs E K n ds) (s : List Tk)
    (h1 : s.length ≤ n) (h2 : K s) : NF E (parseNoOption sym bad ds s) := by
  have tail : ∀ s : List Tk, s.length ≤ n → K s → NF E ((do
      let (t, s2) ← parseDtype sym bad ds s
      match t with
      | some t => if truthy t then do let r ← liftPy (mkDS [t]); .ok (some r, s2) else .ok (none, s2)
      | none => .ok (none, s2) : Res (Option Ty))) := by
    intro s h1 h2
    refine NF.bind (parseDtype_cf hS hb hds hn s h1 h2) ?_
    rintro ⟨t, s2⟩ ht
    have pt := parseDtype_sound hds s _ _ ht
    cases t with
    | none => exact NF.ok _
    | some t =>
      simp only
      split
      · obtain ⟨ts, _, hg⟩ := pt
        exact NF.bind (NF.lift (hS.one _ ts hg)) fun _ _ => NF.ok _
      · exact NF.ok _
  simp only [parseNoOption]
  refine NF.bind (parseDim_cf hS hb hds hn s h1 h2) ?_
  rintro ⟨dim, s1⟩ h3
  have p := parseDim_sound s h3
  cases dim with
  | none =>
    simp only [out_none] at p
    obtain ⟨p, _⟩ := p
    subst p
    exact tail s1 h1 h2
  | some d =>
    obtain ⟨ts, e, hd, _⟩ := p
    have hl : s.length = ts.length + s1.length := by rw [e]; simp
    simp only
    split
    · rename_i hc
      refine NF.bind (NF.advance hb _) fun s2 ha2 => ?_
      have e2 := advance_head hc ha2
      have hl2 : s1.length = s2.length + 1 := by rw [e2]; simp
      refine NF.bind (hn s2 (by omega) (dropK1 hS.tail (by rw [e, e2] at h2; exact h2))) ?_
      rintro ⟨t, s3⟩ ht
      cases t with
      | none => exact NF.raise _
      | some t =>
        obtain ⟨us, _, hg⟩ := hds _ _ _ ht
        exact NF.bind (NF.lift (hS.times _ _ _ us hd hg)) fun _ _ => NF.ok _
    · exact tail s1 (by omega) (dropK hS.tail (by rw [e] at h2; exact h2))

theorem parseDatashapeF_cf (hT : sym.Truthy) (hb : ∀ e, bad = some e → E e) (hds : SoundDs sym ds) (hn : CFDs E K n ds) (s : List Tk)
    (h1 : s.length ≤ n) (h2 : K s) : NF E (parseDatashapeF sym bad ds s) := by
  unfold parseDatashapeF
  split
  · refine NF.bind (NF.advance hb _) fun s1 ha => ?_
    have := advance_ok ha; subst this
    simp at h1
    refine NF.bind (parseNoOption_cf hS hb hds hn s1 (by omega) (hS.tail _ _ h2)) ?_
    rintro ⟨t, s2⟩ ht
    have pt := parseNoOption_sound hT hds s1 ht
    cases t with
    | none => exact NF.ok _
    | some t =>
      refine NF.bind (NF.sugar _ _ _ _) fun c hc => ?_
      rw [sugar_ok] at hc
      obtain ⟨ts, _, hg⟩ := pt
      obtain ⟨k1, k2⟩ := hS.option c t ts hg hc
      refine NF.bind (NF.lift k1) fun o ho => ?_
      rw [liftPy_ok] at ho
      exact NF.bind (NF.lift (k2 o ho)) fun _ _ => NF.ok _
  · exact parseNoOption_cf hS hb hds hn s h1 h2

theorem parseDatashapeN_cf (hT : sym.Truthy) (hb : ∀ e, bad = some e → E e) (n : Nat) : CFDs E K n (parseDatashapeN sym bad n) := by
  induction n with
  | zero => intro s h; omega
  | succ n ih =>
    intro s h1 h2
    exact parseDatashapeF_cf hS hT hb (parseDatashapeN_sound hT bad n) ih s (by omega) h2

theorem parseToks_cf (hT : sym.Truthy) (hb : ∀ e, bad = some e → E e) (toks : List Tk) (h : K toks) :
    NF E (parseToks sym bad toks) := by
  unfold parseToks
  split
  · intro e h; simp at h; exact hb e (by rw [h])
  · refine NF.bind (parseDatashapeN_cf hS hT hb _ toks (by omega) h) ?_
    rintro ⟨t, s⟩ _
    cases t with
    | none => exact NF.raise _
    | some t => simp only; split; exact NF.ok _; exact NF.raise _

end

end DS
