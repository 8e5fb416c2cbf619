import Verif.Proofs.Grammar

/-
What the parser does when the lexer raises: the same as if the text ended there, until it needs the token that cannot be read.
-/
namespace DS

section
variable (e e' : PyErr)

/-- `x` and `x'` (with the exceptions `e` and `e'` of the lexer) raise those exceptions, or both are `y` (without an exception),
which does not come to the end -/
def S2 {α : Type} (x x' y : Res α) : Prop :=
  (x = .error (.py e) ∧ x' = .error (.py e')) ∨
  (x = y ∧ x' = y ∧ (∀ v s', y = .ok (v, s') → s' ≠ []) ∧ ∀ m, y ≠ .error (.tok 0 m))
/-- the same for computations without a value -/
def S1 (x x' y : Except PFail (List Tk)) : Prop :=
  (x = .error (.py e) ∧ x' = .error (.py e')) ∨
  (x = y ∧ x' = y ∧ (∀ s', y = .ok s' → s' ≠ []) ∧ ∀ m, y ≠ .error (.tok 0 m))
variable {e e'}

theorem S2.ok {α : Type} {s : List Tk} {v : α} (h : s ≠ []) : S2 e e' (.ok (v, s)) (.ok (v, s)) (.ok (v, s)) :=
  .inr ⟨rfl, rfl, by intro v s' h'; cases h'; exact h, by nofun⟩
theorem S2.raise {α : Type} {s : List Tk} {m : Msg} (h : s ≠ []) : S2 e e' (raiseAt s m : Res α) (raiseAt s m) (raiseAt s m) :=
  .inr ⟨rfl, rfl, by nofun, by intro m h'; simp [raiseAt, h] at h'⟩
theorem S2.other {α : Type} {p : PyErr} : S2 e e' (.error (.py p) : Res α) (.error (.py p)) (.error (.py p)) :=
  .inr ⟨rfl, rfl, by nofun, by nofun⟩
theorem S2.err {α β : Type} {y : Except PFail α} {p : PFail} (hy : y = .error p) (h : ∀ m, y ≠ .error (.tok 0 m)) :
    S2 e e' (.error p : Res β) (.error p) (.error p) :=
  .inr ⟨rfl, rfl, by nofun, fun m' h' => by cases h'; exact h _ hy⟩
theorem S2.bind1 {α : Type} {x x' y : Except PFail (List Tk)} {f f' g : List Tk → Res α} (h : S1 e e' x x' y)
    (hf : ∀ s, s ≠ [] → S2 e e' (f s) (f' s) (g s)) : S2 e e' (x >>= f) (x' >>= f') (y >>= g) := by
  rcases h with ⟨h, h'⟩ | ⟨h, h', h1, h2⟩
  · subst h h'; exact .inl ⟨rfl, rfl⟩
  · subst h h'
    cases x' with
    | error p => exact S2.err rfl h2
    | ok s => exact hf s (h1 s rfl)
theorem S2.bind2 {α β : Type} {x x' y : Res α} {f f' g : α × List Tk → Res β} (h : S2 e e' x x' y)
    (hf : ∀ v s, s ≠ [] → S2 e e' (f (v, s)) (f' (v, s)) (g (v, s))) : S2 e e' (x >>= f) (x' >>= f') (y >>= g) := by
  rcases h with ⟨h, h'⟩ | ⟨h, h', h1, h2⟩
  · subst h h'; exact .inl ⟨rfl, rfl⟩
  · subst h h'
    cases x' with
    | error p => exact S2.err rfl h2
    | ok p => exact hf p.1 p.2 (h1 p.1 p.2 rfl)
theorem S2.bindE {α β : Type} {x : Except PFail α} {f f' g : α → Res β} (hx : ∀ m, x ≠ .error (.tok 0 m))
    (hf : ∀ a, S2 e e' (f a) (f' a) (g a)) : S2 e e' (x >>= f) (x >>= f') (x >>= g) := by
  cases x with
  | error p => exact S2.err rfl hx
  | ok a => exact hf a

theorem lift_pos {α : Type} {x : Except PyErr α} (m : Msg) : liftPy x ≠ .error (.tok 0 m) := by cases x <;> nofun
theorem sugar_pos {α : Type} {t : Str → Option α} {n w : Str} {s : List Tk} (h : s ≠ []) (m : Msg) :
    sugar t n w s ≠ .error (.tok 0 m) := by
  unfold sugar
  split
  · nofun
  · intro h'; simp [raiseAt, h] at h'

theorem S1.advance {s : List Tk} (h : s ≠ []) : S1 e e' (advance (some e) s) (advance (some e') s) (advance none s) := by
  match s with
  | [] => exact absurd rfl h
  | [_] => exact .inl ⟨rfl, rfl⟩
  | _ :: a :: r => exact .inr ⟨rfl, rfl, by intro s' h'; cases h'; simp, by nofun⟩

/-- pointwise, on states that are not at the end -/
abbrev SF (e e' : PyErr) {α : Type} (f f' g : List Tk → Res α) : Prop := ∀ s, s ≠ [] → S2 e e' (f s) (f' s) (g s)

variable {sym : Sym} {ds ds' dn : List Tk → Res (Option Ty)} {msg : Msg}

theorem hlist_sim {α : Type} {f f' g : List Tk → Res (Option α)} (h : SF e e' f f' g) (tr : Bool) {saved : List Tk}
    (hs : saved ≠ []) : ∀ n acc s, s ≠ [] → S2 e e' (hlist (some e) f msg tr saved n acc s) (hlist (some e') f' msg tr saved n acc s)
      (hlist none g msg tr saved n acc s) := by
  intro n
  induction n with
  | zero => intro acc s r; exact S2.other
  | succ n ih =>
    intro acc s r
    simp only [hlist]
    refine S2.bind2 (h s r) fun v s' r' => ?_
    cases v with
    | some x =>
      by_cases hc : s'.head? = some .comma
      · simp only [hc, ite_true]
        exact S2.bind1 (S1.advance r') fun s'' r'' => ih _ _ r''
      · simp only [hc, ite_false]
        exact S2.ok r'
    | none =>
      cases acc.isEmpty
      · cases tr
        · exact S2.raise r'
        · exact S2.ok r'
      · exact S2.ok hs

theorem parseList_sim {α : Type} {f f' g : List Tk → Res (Option α)} (h : SF e e' f f' g) (tr : Bool) :
    SF e e' (parseList (some e) f msg tr) (parseList (some e') f' msg tr) (parseList none g msg tr) :=
  fun s hs => hlist_sim h tr hs _ _ _ hs

theorem parseLit_sim : SF e e' (parseInteger (some e)) (parseInteger (some e')) (parseInteger none) ∧
    SF e e' (parseString (some e)) (parseString (some e')) (parseString none) ∧
    SF e e' (parseBoolean (some e)) (parseBoolean (some e')) (parseBoolean none) := by
  refine ⟨?_, ?_, ?_⟩
  all_goals
    intro s hs
    match s with
    | [] => exact absurd rfl hs
    | t :: r =>
      cases t
      all_goals first
        | exact S2.ok hs
        | exact S2.bind1 (S1.advance hs) fun s r => S2.ok r

theorem parseTypeArg_sim (h : SF e e' ds ds' dn) :
    SF e e' (parseTypeArg (some e) ds) (parseTypeArg (some e') ds') (parseTypeArg none dn) := by
  intro s hs
  unfold parseTypeArg
  refine S2.bind2 (h s hs) fun v s1 r => ?_
  cases v with
  | some t => exact S2.ok r
  | none =>
    match s1, r with
    | t :: s1, r =>
    cases t
    case lbrack =>
      refine S2.bind1 (S1.advance r) fun s2 r => ?_
      refine S2.bind2 (parseList_sim h false s2 r) fun v s3 r => ?_
      refine S2.bind2 (α := Option Arg) ?_ fun v s4 r => ?_
      · cases v with
        | some l => exact S2.ok r
        | none =>
          refine S2.bind2 (parseList_sim parseLit_sim.1 false s3 r) fun v s4 r => ?_
          cases v with
          | some l => exact S2.ok r
          | none =>
            refine S2.bind2 (parseList_sim parseLit_sim.2.1 false s4 r) fun v s5 r => ?_
            cases v with
            | some l => exact S2.ok r
            | none => exact S2.bind2 (parseList_sim parseLit_sim.2.2 false s5 r) fun v s6 r => S2.ok r
      · by_cases hc : s4.head? = some .rbrack
        · simp only [hc, ite_true]
          exact S2.bind1 (S1.advance r) fun s2 r => S2.ok r
        · simp only [hc, ite_false]
          exact S2.raise r
    all_goals first
      | exact S2.ok r
      | exact S2.bind1 (S1.advance r) fun _ r => S2.ok r

theorem parseTypeKwarg_sim (h : SF e e' ds ds' dn) :
    SF e e' (parseTypeKwarg (some e) ds) (parseTypeKwarg (some e') ds') (parseTypeKwarg none dn) := by
  intro s hs
  match s, hs with
  | t :: s, hs =>
  cases t
  case lower n =>
    refine S2.bind1 (S1.advance hs) fun s1 r => ?_
    by_cases hc : s1.head? = some .equal
    · simp only [hc, ite_true]
      refine S2.bind1 (S1.advance r) fun s2 r => ?_
      refine S2.bind2 (parseTypeArg_sim h s2 r) fun v s3 r => ?_
      cases v with
      | none => exact S2.raise r
      | some a => exact S2.ok r
    · simp only [hc, ite_false]
      exact S2.ok hs
  all_goals exact S2.ok hs

theorem argLoop_sim (h : SF e e' ds ds' dn) : ∀ n acc s, s ≠ [] →
    S2 e e' (argLoop (some e) ds n acc s) (argLoop (some e') ds' n acc s) (argLoop none dn n acc s) := by
  intro n
  induction n with
  | zero => intro acc s r; exact S2.other
  | succ n ih =>
    intro acc s r
    simp only [argLoop]
    refine S2.bind2 (parseTypeArg_sim h s r) fun v s1 r => ?_
    cases v with
    | some a =>
      by_cases hc : s1.head? = some .comma
      · simp only [hc, ite_true]
        exact S2.bind1 (S1.advance r) fun s2 r => ih _ _ r
      · simp only [hc, ite_false]
        exact S2.ok r
    | none =>
      exact S2.bind2 (parseList_sim (parseTypeKwarg_sim h) false s1 r) fun v s2 r => S2.ok r

theorem parseTypeArgList_sim (h : SF e e' ds ds' dn) :
    SF e e' (parseTypeArgList (some e) ds) (parseTypeArgList (some e') ds') (parseTypeArgList none dn) :=
  fun s hs => argLoop_sim h _ _ _ hs

theorem parseStructField_sim (h : SF e e' ds ds' dn) :
    SF e e' (parseStructField (some e) ds) (parseStructField (some e') ds') (parseStructField none dn) := by
  intro s hs
  match s, hs with
  | t :: s, hs =>
  cases t
  all_goals first
    | exact S2.ok hs
    | (refine S2.bind1 (S1.advance hs) fun s1 r => ?_
       by_cases hc : s1.head? = some .colon
       · simp only [hc, ite_true]
         refine S2.bind1 (S1.advance r) fun s2 r => S2.bind2 (h s2 r) fun v s3 r => ?_
         cases v with
         | none => exact S2.raise r
         | some a => exact S2.ok r
       · simp only [hc, ite_false]
         exact S2.raise r)

theorem parseStruct_sim (h : SF e e' ds ds' dn) :
    SF e e' (parseStruct sym (some e) ds) (parseStruct sym (some e') ds') (parseStruct sym none dn) := by
  intro s hs
  unfold parseStruct
  refine S2.bind1 (S1.advance hs) fun s1 r => ?_
  refine S2.bind2 (parseList_sim (parseStructField_sim h) true s1 r) fun v s2 r => ?_
  by_cases hc : s2.head? = some .rbrace
  · simp only [hc, ite_true]
    exact S2.bind1 (S1.advance r) fun s3 r => S2.bindE (sugar_pos hs) fun c => S2.bindE lift_pos fun t => S2.ok r
  · simp only [hc, ite_false]
    exact S2.raise r

theorem parseParen_sim (h : SF e e' ds ds' dn) :
    SF e e' (parseParen sym (some e) ds) (parseParen sym (some e') ds') (parseParen sym none dn) := by
  intro s hs
  unfold parseParen
  refine S2.bind1 (S1.advance hs) fun s1 r => ?_
  refine S2.bind2 (parseList_sim h true s1 r) fun v s2 r => ?_
  by_cases hc : s2.head? = some .rparen
  · simp only [hc, ite_true]
    refine S2.bind1 (S1.advance r) fun s3 r => ?_
    by_cases hc : s3.head? = some .rarrow
    · simp only [hc, ite_true]
      refine S2.bind1 (S1.advance r) fun s4 r => S2.bind2 (h s4 r) fun v s5 r => ?_
      cases v with
      | none => exact S2.raise r
      | some a => exact S2.bindE (sugar_pos hs) fun c => S2.bindE lift_pos fun t => S2.ok r
    · simp only [hc, ite_false]
      exact S2.bindE (sugar_pos hs) fun c => S2.bindE lift_pos fun t => S2.ok r
  · simp only [hc, ite_false]
    exact S2.raise r

theorem parseDim_sim (h : SF e e' ds ds' dn) :
    SF e e' (parseDim sym (some e) ds) (parseDim sym (some e') ds') (parseDim sym none dn) := by
  intro s hs
  match s, hs with
  | t :: s, hs =>
  cases t
  case upper v =>
    refine S2.bind1 (S1.advance hs) fun s1 r => ?_
    by_cases hc : s1.head? = some .ellipsis
    · simp only [hc, ite_true]
      exact S2.bind1 (S1.advance r) fun s2 r => S2.bindE (sugar_pos hs) fun c => S2.bindE lift_pos fun t => S2.ok r
    · simp only [hc, ite_false]
      by_cases hc : s1.head? = some .star
      · simp only [hc, ite_true]
        exact S2.bindE (sugar_pos hs) fun c => S2.bindE lift_pos fun t => S2.ok r
      · simp only [hc, ite_false]
        exact S2.ok hs
  case lower v =>
    refine S2.bind1 (S1.advance hs) fun s1 r => ?_
    by_cases hc : s1.head? = some .lbrack
    · simp only [hc, ite_true]
      cases sym.dimConstr v with
      | none => exact S2.ok hs
      | some c =>
        refine S2.bind1 (S1.advance r) fun s2 r => S2.bind2 (parseTypeArgList_sim h s2 r) fun v s3 r => ?_
        by_cases hc : s3.head? = some .rbrack
        · simp only [hc, ite_true]
          exact S2.bind1 (S1.advance r) fun _ _ => S2.other
        · simp only [hc, ite_false]
          exact S2.raise r
    · simp only [hc, ite_false]
      cases sym.dim v with
      | none => exact S2.ok hs
      | some c => exact S2.ok r
  case int v =>
    refine S2.bind1 (S1.advance hs) fun s1 r => ?_
    by_cases hc : s1.head? = some .star
    · simp only [hc, ite_true]
      exact S2.bindE (sugar_pos r) fun c => S2.bindE lift_pos fun t => S2.ok r
    · simp only [hc, ite_false]
      exact S2.ok hs
  case ellipsis => exact S2.bind1 (S1.advance hs) fun s1 r => S2.bindE (sugar_pos hs) fun c => S2.ok r
  all_goals exact S2.ok hs

theorem parseDtype_sim (h : SF e e' ds ds' dn) :
    SF e e' (parseDtype sym (some e) ds) (parseDtype sym (some e') ds') (parseDtype sym none dn) := by
  intro s hs
  match s, hs with
  | t :: s, hs =>
  cases t
  case upper v =>
    exact S2.bind1 (S1.advance hs) fun s1 r => S2.bindE (sugar_pos hs) fun c => S2.bindE lift_pos fun t => S2.ok r
  case lower v =>
    refine S2.bind1 (S1.advance hs) fun s1 r => ?_
    by_cases hc : s1.head? = some .lbrack
    · simp only [hc, ite_true]
      cases sym.dtypeConstr v with
      | none => exact S2.ok hs
      | some c =>
        refine S2.bind1 (S1.advance r) fun s2 r => S2.bind2 (parseTypeArgList_sim h s2 r) fun v s3 r => ?_
        by_cases hc : s3.head? = some .rbrack
        · simp only [hc, ite_true]
          cases v.1.isEmpty && v.2.isEmpty
          · exact S2.bind1 (S1.advance r) fun s4 r => S2.bindE lift_pos fun t => S2.ok r
          · exact S2.raise r
        · simp only [hc, ite_false]
          exact S2.raise r
    · simp only [hc, ite_false]
      cases sym.dtype v with
      | none => exact S2.ok hs
      | some c => exact S2.ok r
  case lbrace => exact parseStruct_sim h _ hs
  case lparen => exact parseParen_sim h _ hs
  all_goals exact S2.ok hs

theorem parseNoOption_sim (h : SF e e' ds ds' dn) :
    SF e e' (parseNoOption sym (some e) ds) (parseNoOption sym (some e') ds') (parseNoOption sym none dn) := by
  intro s hs
  unfold parseNoOption
  refine S2.bind2 (parseDim_sim h s hs) fun d s1 r => ?_
  have tail : S2 e e' (do
      let (t, s2) ← parseDtype sym (some e) ds s1
      match t with
      | some t => if truthy t then do let r ← liftPy (mkDS [t]); .ok (some r, s2) else .ok (none, s2)
      | none => .ok (none, s2) : Res (Option Ty)) (do
      let (t, s2) ← parseDtype sym (some e') ds' s1
      match t with
      | some t => if truthy t then do let r ← liftPy (mkDS [t]); .ok (some r, s2) else .ok (none, s2)
      | none => .ok (none, s2) : Res (Option Ty)) (do
      let (t, s2) ← parseDtype sym none dn s1
      match t with
      | some t => if truthy t then do let r ← liftPy (mkDS [t]); .ok (some r, s2) else .ok (none, s2)
      | none => .ok (none, s2) : Res (Option Ty)) := by
    refine S2.bind2 (parseDtype_sim h s1 r) fun v s2 r => ?_
    cases v with
    | none => exact S2.ok r
    | some t =>
      by_cases hc : truthy t = true
      · simp only [hc, ite_true]
        exact S2.bindE lift_pos fun _ => S2.ok r
      · simp only [hc]
        exact S2.ok r
  cases d with
  | none => exact tail
  | some d =>
    by_cases hc : s1.head? = some .star
    · simp only [hc, ite_true]
      refine S2.bind1 (S1.advance r) fun s2 r => S2.bind2 (h s2 r) fun v s3 r' => ?_
      cases v with
      | none => exact S2.raise r
      | some t => exact S2.bindE lift_pos fun _ => S2.ok r'
    · simp only [hc, ite_false]
      exact tail

theorem parseDatashapeF_sim (h : SF e e' ds ds' dn) :
    SF e e' (parseDatashapeF sym (some e) ds) (parseDatashapeF sym (some e') ds') (parseDatashapeF sym none dn) := by
  intro s hs
  match s, hs with
  | t :: s, hs =>
  cases t
  case qmark =>
    refine S2.bind1 (S1.advance hs) fun s1 r => S2.bind2 (parseNoOption_sim h s1 r) fun v s2 r => ?_
    cases v with
    | none => exact S2.ok r
    | some t => exact S2.bindE (sugar_pos hs) fun _ => S2.bindE lift_pos fun _ => S2.bindE lift_pos fun _ => S2.ok r
  all_goals exact parseNoOption_sim h _ hs

theorem parseDatashapeN_sim (n : Nat) :
    SF e e' (parseDatashapeN sym (some e) n) (parseDatashapeN sym (some e') n) (parseDatashapeN sym none n) := by
  induction n with
  | zero => intro s hs; exact S2.other
  | succ n ih => exact parseDatashapeF_sim ih

/-- The parser raises the exception of the lexer, or the error before it that it raises if the text ends there. -/
theorem parseToks_sim (toks : List Tk) :
    (parseToks sym (some e) toks = .error (.py e) ∧ parseToks sym (some e') toks = .error (.py e')) ∨
    (toks ≠ [] ∧ parseToks sym (some e) toks = parseToks sym none toks ∧ parseToks sym (some e') toks = parseToks sym none toks ∧
      (∃ p, parseToks sym none toks = .error p) ∧ ∀ m, parseToks sym none toks ≠ .error (.tok 0 m)) := by
  match toks with
  | [] => exact .inl ⟨rfl, rfl⟩
  | a :: r =>
    rcases parseDatashapeN_sim (e := e) (e' := e') (sym := sym) ((a :: r).length + 1) (a :: r) (by simp) with ⟨h1, h2⟩ | ⟨h1, h2, h3, h4⟩
    · left
      constructor
      · rw [parseToks, show parseDatashape sym (some e) (a :: r) = _ from h1]; rfl; nofun
      · rw [parseToks, show parseDatashape sym (some e') (a :: r) = _ from h2]; rfl; nofun
    · right
      have e1 : parseToks sym none (a :: r) = (parseDatashape sym none (a :: r) >>= fun p => match p.1 with
          | none => raiseAt p.2 .invalid
          | some t => if p.2.isEmpty then .ok t else raiseAt p.2 .more) := rfl
      refine ⟨by simp, ?_, ?_, ?_, ?_⟩
      · rw [e1, ← show parseDatashape sym (some e) (a :: r) = parseDatashape sym none (a :: r) from h1]; rfl
      · rw [e1, ← show parseDatashape sym (some e') (a :: r) = parseDatashape sym none (a :: r) from h2]; rfl
      · rw [e1]
        cases hp : parseDatashape sym none (a :: r) with
        | error p => exact ⟨p, rfl⟩
        | ok p =>
          obtain ⟨v, s⟩ := p
          have := h3 v s hp
          cases v with
          | none => exact ⟨_, rfl⟩
          | some t =>
            cases s with
            | nil => exact absurd rfl this
            | cons => exact ⟨_, rfl⟩
      · intro m
        rw [e1]
        cases hp : parseDatashape sym none (a :: r) with
        | error p =>
          intro h
          cases h
          exact h4 m hp
        | ok p =>
          obtain ⟨v, s⟩ := p
          have := h3 v s hp
          cases s with
          | nil => exact absurd rfl this
          | cons => cases v <;> nofun

end

end DS
