import Verif.Proofs.Grammar

/-
The parser reaches the end of the token list only if the lexer ended without an exception.
-/
namespace DS

variable {msg : Msg}

section
variable (bad : Option PyErr)

/-- moving from state `s` to `s'` does not skip the lexer's exception -/
def R (s s' : List Tk) : Prop := s' = [] → s = [] ∨ bad = none

theorem R.refl (s : List Tk) : R bad s s := fun h => .inl h
variable {bad}
theorem R.trans {a b c : List Tk} (h : R bad a b) (h' : R bad b c) : R bad a c := by
  intro hc
  rcases h' hc with h' | h'
  · exact h h'
  · exact .inr h'

variable (bad)
/-- if the computation returns, its final state is related to `s` -/
def P1 (s : List Tk) (x : Except PFail (List Tk)) : Prop := ∀ s', x = .ok s' → R bad s s'
/-- the same for computations with a value -/
def P2 {α : Type} (s : List Tk) (x : Res α) : Prop := ∀ v s', x = .ok (v, s') → R bad s s'
variable {bad}

theorem P2.ok {α : Type} {s s' : List Tk} {v : α} (h : R bad s s') : P2 bad s (.ok (v, s')) := by
  intro v' s'' e; cases e; exact h
theorem P2.raise {α : Type} {s s' : List Tk} : P2 bad s (raiseAt s' msg : Res α) := by
  intro v' s'' e; cases e
theorem P2.error {α : Type} {s : List Tk} {e} : P2 bad s (.error e : Res α) := by
  intro v' s'' e; cases e
theorem P2.bind1 {α : Type} {s : List Tk} {x : Except PFail (List Tk)} {f : List Tk → Res α} (h : P1 bad s x)
    (hf : ∀ s', R bad s s' → P2 bad s (f s')) : P2 bad s (x >>= f) := by
  cases x with
  | error e => exact P2.error
  | ok s' => exact hf s' (h s' rfl)
theorem P2.bind2 {α β : Type} {s : List Tk} {x : Res α} {f : α × List Tk → Res β} (h : P2 bad s x)
    (hf : ∀ v s', R bad s s' → P2 bad s (f (v, s'))) : P2 bad s (x >>= f) := by
  cases x with
  | error e => exact P2.error
  | ok p => exact hf p.1 p.2 (h p.1 p.2 rfl)
theorem P2.bindE {α β : Type} {s : List Tk} {x : Except PFail α} {f : α → Res β}
    (hf : ∀ a, P2 bad s (f a)) : P2 bad s (x >>= f) := by
  cases x with
  | error e => exact P2.error
  | ok a => exact hf a
theorem P2.from {α : Type} {s s' : List Tk} {x : Res α} (h : P2 bad s' x) (r : R bad s s') : P2 bad s x :=
  fun v s'' e => r.trans (h v s'' e)

theorem P1.advance {s s' : List Tk} (r : R bad s s') : P1 bad s (advance bad s') := by
  intro s'' h
  unfold DS.advance at h
  split at h
  · cases h; exact r
  · split at h
    · exact fun _ => .inr rfl
    · cases h
  · cases h; rename_i hne; intro e; exact absurd e (by simpa using hne)

/-- pointwise -/
abbrev PF (bad : Option PyErr) {α : Type} (f : List Tk → Res α) : Prop := ∀ s, P2 bad s (f s)

variable {sym : Sym} {ds : List Tk → Res (Option Ty)}

theorem hlist_at {α : Type} {item : List Tk → Res (Option α)} (h : PF bad item) (tr : Bool) {s0 saved : List Tk}
    (hs : R bad s0 saved) : ∀ n acc s, R bad s0 s → P2 bad s0 (hlist bad item msg tr saved n acc s) := by
  intro n
  induction n with
  | zero => intro acc s r; exact P2.error
  | succ n ih =>
    intro acc s r
    simp only [hlist]
    refine P2.bind2 ((h s).from r) fun v s' r' => ?_
    cases v with
    | some x =>
      simp only
      split
      · exact P2.bind1 (P1.advance r') fun s'' r'' => ih _ _ r''
      · exact P2.ok r'
    | none =>
      simp only
      split
      · exact P2.ok hs
      · split
        · exact P2.ok r'
        · exact P2.raise

theorem parseList_at {α : Type} {item : List Tk → Res (Option α)} (h : PF bad item) (tr : Bool) :
    PF bad (parseList bad item msg tr) := fun s => hlist_at h tr (R.refl bad s) _ _ _ (R.refl bad s)

theorem parseLit_at : PF bad (parseInteger bad) ∧ PF bad (parseString bad) ∧ PF bad (parseBoolean bad) := by
  refine ⟨?_, ?_, ?_⟩
  all_goals
    intro s
    first | unfold parseInteger | unfold parseString | unfold parseBoolean
    split
    · exact P2.bind1 (P1.advance (R.refl bad _)) fun s r => P2.ok r
    · exact P2.ok (R.refl bad _)

theorem parseTypeArg_at (h : PF bad ds) : PF bad (parseTypeArg bad ds) := by
  intro s
  unfold parseTypeArg
  refine P2.bind2 (h s) fun v s1 r => ?_
  cases v with
  | some t => exact P2.ok r
  | none =>
    simp only
    split
    · exact P2.bind1 (P1.advance r) fun _ r => P2.ok r
    · exact P2.bind1 (P1.advance r) fun _ r => P2.ok r
    · exact P2.bind1 (P1.advance r) fun _ r => P2.ok r
    · refine P2.bind1 (P1.advance r) fun s2 r => ?_
      refine P2.bind2 ((parseList_at h false s2).from r) fun v s3 r => ?_
      refine P2.bind2 (α := Option Arg) ?_ fun v s4 r => ?_
      · cases v with
        | some l => exact P2.ok r
        | none =>
          simp only
          refine P2.bind2 ((parseList_at parseLit_at.1 false s3).from r) fun v s4 r => ?_
          cases v with
          | some l => exact P2.ok r
          | none =>
            simp only
            refine P2.bind2 ((parseList_at parseLit_at.2.1 false s4).from r) fun v s5 r => ?_
            cases v with
            | some l => exact P2.ok r
            | none => exact P2.bind2 ((parseList_at parseLit_at.2.2 false s5).from r) fun v s6 r => P2.ok r
      · simp only
        split
        · exact P2.bind1 (P1.advance r) fun s2 r => P2.ok r
        · exact P2.raise
    · exact P2.ok r

theorem parseTypeKwarg_at (h : PF bad ds) : PF bad (parseTypeKwarg bad ds) := by
  intro s
  unfold parseTypeKwarg
  split
  · refine P2.bind1 (P1.advance (R.refl bad _)) fun s1 r => ?_
    split
    · refine P2.bind1 (P1.advance r) fun s2 r => ?_
      refine P2.bind2 ((parseTypeArg_at h s2).from r) fun v s3 r => ?_
      cases v with
      | none => exact P2.raise
      | some a => exact P2.ok r
    · exact P2.ok (R.refl bad _)
  · exact P2.ok (R.refl bad _)

theorem argLoop_at (h : PF bad ds) {s0 : List Tk} : ∀ n acc s, R bad s0 s → P2 bad s0 (argLoop bad ds n acc s) := by
  intro n
  induction n with
  | zero => intro acc s r; exact P2.error
  | succ n ih =>
    intro acc s r
    simp only [argLoop]
    refine P2.bind2 ((parseTypeArg_at h s).from r) fun v s1 r => ?_
    cases v with
    | some a =>
      simp only
      split
      · exact P2.bind1 (P1.advance r) fun s2 r => ih _ _ r
      · exact P2.ok r
    | none =>
      exact P2.bind2 ((parseList_at (parseTypeKwarg_at h) false s1).from r) fun v s2 r => P2.ok r

theorem parseTypeArgList_at (h : PF bad ds) : PF bad (parseTypeArgList bad ds) :=
  fun s => argLoop_at h _ _ _ (R.refl bad s)

theorem parseStructField_at (h : PF bad ds) : PF bad (parseStructField bad ds) := by
  intro s
  unfold parseStructField
  simp only
  split
  all_goals first
    | exact P2.ok (R.refl bad _)
    | (refine P2.bind1 (P1.advance (R.refl bad _)) fun s1 r => ?_
       split
       · refine P2.bind1 (P1.advance r) fun s2 r => P2.bind2 ((h s2).from r) fun v s3 r => ?_
         cases v with
         | none => exact P2.raise
         | some a => exact P2.ok r
       · exact P2.raise)

theorem parseStruct_at (h : PF bad ds) : PF bad (parseStruct sym bad ds) := by
  intro s
  unfold parseStruct
  refine P2.bind1 (P1.advance (R.refl bad _)) fun s1 r => ?_
  refine P2.bind2 ((parseList_at (parseStructField_at h) true s1).from r) fun v s2 r => ?_
  simp only
  split
  · exact P2.bind1 (P1.advance r) fun s3 r => P2.bindE fun c => P2.bindE fun t => P2.ok r
  · exact P2.raise

theorem parseParen_at (h : PF bad ds) : PF bad (parseParen sym bad ds) := by
  intro s
  unfold parseParen
  refine P2.bind1 (P1.advance (R.refl bad _)) fun s1 r => ?_
  refine P2.bind2 ((parseList_at h true s1).from r) fun v s2 r => ?_
  simp only
  split
  · refine P2.bind1 (P1.advance r) fun s3 r => ?_
    split
    · refine P2.bind1 (P1.advance r) fun s4 r => P2.bind2 ((h s4).from r) fun v s5 r => ?_
      cases v with
      | none => exact P2.raise
      | some a => exact P2.bindE fun c => P2.bindE fun t => P2.ok r
    · exact P2.bindE fun c => P2.bindE fun t => P2.ok r
  · exact P2.raise

theorem parseDim_at (h : PF bad ds) : PF bad (parseDim sym bad ds) := by
  intro s
  unfold parseDim
  split
  · refine P2.bind1 (P1.advance (R.refl bad _)) fun s1 r => ?_
    split
    · exact P2.bind1 (P1.advance r) fun s2 r => P2.bindE fun c => P2.bindE fun t => P2.ok r
    · split
      · exact P2.bindE fun c => P2.bindE fun t => P2.ok r
      · exact P2.ok (R.refl bad _)
  · refine P2.bind1 (P1.advance (R.refl bad _)) fun s1 r => ?_
    split
    · split
      · exact P2.ok (R.refl bad _)
      · refine P2.bind1 (P1.advance r) fun s2 r => P2.bind2 ((parseTypeArgList_at h s2).from r) fun v s3 r => ?_
        simp only
        split
        · exact P2.bindE fun _ => P2.error
        · exact P2.raise
    · split
      · exact P2.ok r
      · exact P2.ok (R.refl bad _)
  · refine P2.bind1 (P1.advance (R.refl bad _)) fun s1 r => ?_
    split
    · exact P2.bindE fun c => P2.bindE fun t => P2.ok r
    · exact P2.ok (R.refl bad _)
  · exact P2.bind1 (P1.advance (R.refl bad _)) fun s1 r => P2.bindE fun c => P2.ok r
  · exact P2.ok (R.refl bad _)

theorem parseDtype_at (h : PF bad ds) : PF bad (parseDtype sym bad ds) := by
  intro s
  unfold parseDtype
  split
  · exact P2.bind1 (P1.advance (R.refl bad _)) fun s1 r => P2.bindE fun c => P2.bindE fun t => P2.ok r
  · refine P2.bind1 (P1.advance (R.refl bad _)) fun s1 r => ?_
    split
    · split
      · exact P2.ok (R.refl bad _)
      · refine P2.bind1 (P1.advance r) fun s2 r => P2.bind2 ((parseTypeArgList_at h s2).from r) fun v s3 r => ?_
        simp only
        split
        · split
          · exact P2.raise
          · exact P2.bind1 (P1.advance r) fun s4 r => P2.bindE fun t => P2.ok r
        · exact P2.raise
    · split
      · exact P2.ok r
      · exact P2.ok (R.refl bad _)
  · exact parseStruct_at h _
  · exact parseParen_at h _
  · exact P2.ok (R.refl bad _)

theorem parseNoOption_at (h : PF bad ds) : PF bad (parseNoOption sym bad ds) := by
  intro s
  unfold parseNoOption
  refine P2.bind2 (parseDim_at h s) fun d s1 r => ?_
  have tail : P2 bad s (do
      let (t, s2) ← parseDtype sym bad ds s1
      match t with
      | some t => if truthy t then do let r ← liftPy (mkDS [t]); .ok (some r, s2) else .ok (none, s2)
      | none => .ok (none, s2) : Res (Option Ty)) := by
    refine P2.bind2 ((parseDtype_at h s1).from r) fun v s2 r => ?_
    cases v with
    | none => exact P2.ok r
    | some t =>
      simp only
      split
      · exact P2.bindE fun _ => P2.ok r
      · exact P2.ok r
  cases d with
  | none => exact tail
  | some d =>
    simp only
    split
    · refine P2.bind1 (P1.advance r) fun s2 r => P2.bind2 ((h s2).from r) fun v s3 r => ?_
      cases v with
      | none => exact P2.raise
      | some t => exact P2.bindE fun _ => P2.ok r
    · exact tail

theorem parseDatashapeF_at (h : PF bad ds) : PF bad (parseDatashapeF sym bad ds) := by
  intro s
  unfold parseDatashapeF
  split
  · refine P2.bind1 (P1.advance (R.refl bad _)) fun s1 r => P2.bind2 ((parseNoOption_at h s1).from r) fun v s2 r => ?_
    cases v with
    | none => exact P2.ok r
    | some t => exact P2.bindE fun _ => P2.bindE fun _ => P2.bindE fun _ => P2.ok r
  · exact parseNoOption_at h _

theorem parseDatashapeN_at (n : Nat) : PF bad (parseDatashapeN sym bad n) := by
  induction n with
  | zero => intro s; exact P2.error
  | succ n ih => exact parseDatashapeF_at ih

theorem parseToks_bad {toks : List Tk} {t : Ty} (h : parseToks sym bad toks = .ok t) : bad = none := by
  unfold parseToks at h
  split at h
  · cases h
  · rename_i hne
    simp only [bind_ok] at h
    obtain ⟨⟨v, s⟩, h1, h2⟩ := h
    have r := parseDatashapeN_at _ toks _ _ h1
    cases v with
    | none => cases h2
    | some t' =>
      simp only at h2
      split at h2
      · rename_i he
        rcases r (by simpa using he) with r | r
        · subst r
          cases hb : bad with
          | none => rfl
          | some e => exact absurd hb (hne e rfl)
        · exact r
      · cases h2

end

/-- A parsed text was lexed to the end, and its token sequence is in the grammar. -/
theorem parse_sound {sym : Sym} (hT : sym.Truthy) {text : Str} {t : Ty} (h : parse sym text = .ok t) :
    ∃ toks, lex text = (toks, none) ∧ G sym true .datashape (toks.map (·.tk)) t := by
  simp only [parse] at h
  generalize hl : lex text = l at *
  obtain ⟨toks, bad⟩ := l
  simp only at h
  cases hp : parseToks sym bad (toks.map (·.tk)) with
  | error e => rw [hp] at h; cases e <;> cases h
  | ok t' =>
    rw [hp] at h
    cases h
    have := parseToks_bad hp
    subst this
    exact ⟨toks, rfl, parseToks_sound hT hp⟩

end DS
