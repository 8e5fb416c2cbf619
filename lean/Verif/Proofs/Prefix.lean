import Verif.Proofs.Sim

/-
What the parser does before it needs a token beyond the first ones is the same whatever comes after them.
-/
namespace DS

section
variable (more : List Tk)

/-- `x`, on the first tokens, runs out of them, or `y`, on all tokens, does the same, with `more` behind the state -/
def Q2 {α : Type} (x y : Res α) : Prop :=
  x = .error (.py .fuel) ∨ (∃ v s, s ≠ [] ∧ x = .ok (v, s) ∧ y = .ok (v, s ++ more)) ∨
  (∃ k m, x = .error (.tok k m) ∧ y = .error (.tok (k + more.length) m)) ∨ ∃ p, x = .error (.py p) ∧ y = .error (.py p)
/-- the same for computations without a value -/
def Q1 (x y : Except PFail (List Tk)) : Prop :=
  x = .error (.py .fuel) ∨ (∃ s, s ≠ [] ∧ x = .ok s ∧ y = .ok (s ++ more)) ∨
  (∃ k m, x = .error (.tok k m) ∧ y = .error (.tok (k + more.length) m)) ∨ ∃ p, x = .error (.py p) ∧ y = .error (.py p)
/-- the same for computations that do not read -/
def Q0 {α : Type} (x y : Except PFail α) : Prop :=
  (∃ v, x = .ok v ∧ y = .ok v) ∨
  (∃ k m, x = .error (.tok k m) ∧ y = .error (.tok (k + more.length) m)) ∨ ∃ p, x = .error (.py p) ∧ y = .error (.py p)
variable {more} {b : Option PyErr}

theorem Q2.ok {α : Type} {s : List Tk} {v : α} (h : s ≠ []) : Q2 more (.ok (v, s)) (.ok (v, s ++ more)) :=
  .inr (.inl ⟨v, s, h, rfl, rfl⟩)
theorem Q2.raise {α : Type} {s : List Tk} {m : Msg} : Q2 more (raiseAt s m : Res α) (raiseAt (s ++ more) m) :=
  .inr (.inr (.inl ⟨s.length, m, rfl, by simp [raiseAt]⟩))
theorem Q2.other {α : Type} {p : PyErr} : Q2 more (.error (.py p) : Res α) (.error (.py p)) :=
  .inr (.inr (.inr ⟨p, rfl, rfl⟩))
theorem Q2.fuel {α : Type} {y : Res α} : Q2 more (.error (.py .fuel)) y := .inl rfl
theorem Q2.bind1 {α : Type} {x y : Except PFail (List Tk)} {f g : List Tk → Res α} (h : Q1 more x y)
    (hf : ∀ s, s ≠ [] → Q2 more (f s) (g (s ++ more))) : Q2 more (x >>= f) (y >>= g) := by
  rcases h with h | ⟨s, hs, h, h'⟩ | ⟨k, m, h, h'⟩ | ⟨p, h, h'⟩
  · subst h; exact .inl rfl
  · subst h h'; exact hf s hs
  · subst h h'; exact .inr (.inr (.inl ⟨k, m, rfl, rfl⟩))
  · subst h h'; exact .inr (.inr (.inr ⟨p, rfl, rfl⟩))
theorem Q2.bind2 {α β : Type} {x y : Res α} {f g : α × List Tk → Res β} (h : Q2 more x y)
    (hf : ∀ v s, s ≠ [] → Q2 more (f (v, s)) (g (v, s ++ more))) : Q2 more (x >>= f) (y >>= g) := by
  rcases h with h | ⟨v, s, hs, h, h'⟩ | ⟨k, m, h, h'⟩ | ⟨p, h, h'⟩
  · subst h; exact .inl rfl
  · subst h h'; exact hf v s hs
  · subst h h'; exact .inr (.inr (.inl ⟨k, m, rfl, rfl⟩))
  · subst h h'; exact .inr (.inr (.inr ⟨p, rfl, rfl⟩))
theorem Q2.bindE {α β : Type} {x y : Except PFail α} {f g : α → Res β} (h : Q0 more x y)
    (hf : ∀ a, Q2 more (f a) (g a)) : Q2 more (x >>= f) (y >>= g) := by
  rcases h with ⟨v, h, h'⟩ | ⟨k, m, h, h'⟩ | ⟨p, h, h'⟩
  · subst h h'; exact hf v
  · subst h h'; exact .inr (.inr (.inl ⟨k, m, rfl, rfl⟩))
  · subst h h'; exact .inr (.inr (.inr ⟨p, rfl, rfl⟩))

theorem lift_any {α : Type} {x : Except PyErr α} : Q0 more (liftPy x) (liftPy x) := by
  cases x with
  | ok a => exact .inl ⟨a, rfl, rfl⟩
  | error e => exact .inr (.inr ⟨e, rfl, rfl⟩)
theorem sugar_any {α : Type} {t : Str → Option α} {n w : Str} {s : List Tk} : Q0 more (sugar t n w s) (sugar t n w (s ++ more)) := by
  unfold sugar
  cases t n with
  | some c => exact .inl ⟨c, rfl, rfl⟩
  | none => exact .inr (.inl ⟨s.length, _, rfl, by simp [raiseAt]⟩)

theorem head_more {s : List Tk} (h : s ≠ []) : (s ++ more).head? = s.head? := by
  cases s with
  | nil => exact absurd rfl h
  | cons => rfl

theorem Q1.advance {s : List Tk} (h : s ≠ []) : Q1 more (advance (some .fuel) s) (advance b (s ++ more)) := by
  match s with
  | [] => exact absurd rfl h
  | [_] => exact .inl rfl
  | _ :: a :: r => exact .inr (.inl ⟨a :: r, by simp, rfl, rfl⟩)

/-- pointwise, on states that are not at the end -/
abbrev QF (more : List Tk) {α : Type} (f g : List Tk → Res α) : Prop := ∀ s, s ≠ [] → Q2 more (f s) (g (s ++ more))

variable {sym : Sym} {ds dn : List Tk → Res (Option Ty)} {msg : Msg}

theorem hlist_prefix {α : Type} {f g : List Tk → Res (Option α)} (h : QF more f g) (tr : Bool) {saved : List Tk}
    (hs : saved ≠ []) : ∀ n n', n ≤ n' → ∀ acc s, s ≠ [] → Q2 more (hlist (some .fuel) f msg tr saved n acc s)
      (hlist b g msg tr (saved ++ more) n' acc (s ++ more)) := by
  intro n
  induction n with
  | zero => intro _ _ acc s r; exact Q2.fuel
  | succ n ih =>
    intro n' hn acc s r
    obtain ⟨n', rfl⟩ : ∃ m, n' = m + 1 := ⟨n' - 1, by omega⟩
    simp only [hlist]
    refine Q2.bind2 (h s r) fun v s' r' => ?_
    cases v with
    | some x =>
      by_cases hc : s'.head? = some .comma
      · simp only [head_more r', hc, ite_true]
        exact Q2.bind1 (Q1.advance r') fun s'' r'' => ih _ (by omega) _ _ r''
      · simp only [head_more r', hc, ite_false]
        exact Q2.ok r'
    | none =>
      cases acc.isEmpty
      · cases tr
        · exact Q2.raise
        · exact Q2.ok r'
      · exact Q2.ok hs

theorem parseList_prefix {α : Type} {f g : List Tk → Res (Option α)} (h : QF more f g) (tr : Bool) :
    QF more (parseList (some .fuel) f msg tr) (parseList b g msg tr) :=
  fun s hs => hlist_prefix h tr hs _ _ (by simp) _ _ hs

theorem parseLit_prefix : QF more (parseInteger (some .fuel)) (parseInteger b) ∧
    QF more (parseString (some .fuel)) (parseString b) ∧
    QF more (parseBoolean (some .fuel)) (parseBoolean b) := by
  refine ⟨?_, ?_, ?_⟩
  all_goals
    intro s hs
    match s with
    | [] => exact absurd rfl hs
    | t :: r =>
      cases t
      all_goals first
        | exact Q2.ok hs
        | exact Q2.bind1 (Q1.advance hs) fun s r => Q2.ok r

theorem parseTypeArg_prefix (h : QF more ds dn) :
    QF more (parseTypeArg (some .fuel) ds) (parseTypeArg b dn) := by
  intro s hs
  unfold parseTypeArg
  refine Q2.bind2 (h s hs) fun v s1 r => ?_
  cases v with
  | some t => exact Q2.ok r
  | none =>
    match s1, r with
    | t :: s1, r =>
    cases t
    case lbrack =>
      refine Q2.bind1 (Q1.advance r) fun s2 r => ?_
      refine Q2.bind2 (parseList_prefix h false s2 r) fun v s3 r => ?_
      refine Q2.bind2 (α := Option Arg) ?_ fun v s4 r => ?_
      · cases v with
        | some l => exact Q2.ok r
        | none =>
          refine Q2.bind2 (parseList_prefix parseLit_prefix.1 false s3 r) fun v s4 r => ?_
          cases v with
          | some l => exact Q2.ok r
          | none =>
            refine Q2.bind2 (parseList_prefix parseLit_prefix.2.1 false s4 r) fun v s5 r => ?_
            cases v with
            | some l => exact Q2.ok r
            | none => exact Q2.bind2 (parseList_prefix parseLit_prefix.2.2 false s5 r) fun v s6 r => Q2.ok r
      · by_cases hc : s4.head? = some .rbrack
        · simp only [head_more r, hc, ite_true]
          exact Q2.bind1 (Q1.advance r) fun s2 r => Q2.ok r
        · simp only [head_more r, hc, ite_false]
          exact Q2.raise
    all_goals first
      | exact Q2.ok r
      | exact Q2.bind1 (Q1.advance r) fun _ r => Q2.ok r

theorem parseTypeKwarg_prefix (h : QF more ds dn) :
    QF more (parseTypeKwarg (some .fuel) ds) (parseTypeKwarg b dn) := by
  intro s hs
  match s, hs with
  | t :: s, hs =>
  cases t
  case lower n =>
    refine Q2.bind1 (Q1.advance hs) fun s1 r => ?_
    by_cases hc : s1.head? = some .equal
    · simp only [head_more r, hc, ite_true]
      refine Q2.bind1 (Q1.advance r) fun s2 r => ?_
      refine Q2.bind2 (parseTypeArg_prefix h s2 r) fun v s3 r => ?_
      cases v with
      | none => exact Q2.raise
      | some a => exact Q2.ok r
    · simp only [head_more r, hc, ite_false]
      exact Q2.ok hs
  all_goals exact Q2.ok hs

theorem argLoop_prefix (h : QF more ds dn) : ∀ n n', n ≤ n' → ∀ acc s, s ≠ [] →
    Q2 more (argLoop (some .fuel) ds n acc s) (argLoop b dn n' acc (s ++ more)) := by
  intro n
  induction n with
  | zero => intro _ _ acc s r; exact Q2.fuel
  | succ n ih =>
    intro n' hn acc s r
    obtain ⟨n', rfl⟩ : ∃ m, n' = m + 1 := ⟨n' - 1, by omega⟩
    simp only [argLoop]
    refine Q2.bind2 (parseTypeArg_prefix h s r) fun v s1 r => ?_
    cases v with
    | some a =>
      by_cases hc : s1.head? = some .comma
      · simp only [head_more r, hc, ite_true]
        exact Q2.bind1 (Q1.advance r) fun s2 r => ih _ (by omega) _ _ r
      · simp only [head_more r, hc, ite_false]
        exact Q2.ok r
    | none =>
      exact Q2.bind2 (parseList_prefix (parseTypeKwarg_prefix h) false s1 r) fun v s2 r => Q2.ok r

theorem parseTypeArgList_prefix (h : QF more ds dn) :
    QF more (parseTypeArgList (some .fuel) ds) (parseTypeArgList b dn) :=
  fun s hs => argLoop_prefix h _ _ (by simp) _ _ hs

theorem parseStructField_prefix (h : QF more ds dn) :
    QF more (parseStructField (some .fuel) ds) (parseStructField b dn) := by
  intro s hs
  match s, hs with
  | t :: s, hs =>
  cases t
  all_goals first
    | exact Q2.ok hs
    | (refine Q2.bind1 (Q1.advance hs) fun s1 r => ?_
       by_cases hc : s1.head? = some .colon
       · simp only [head_more r, hc, ite_true]
         refine Q2.bind1 (Q1.advance r) fun s2 r => Q2.bind2 (h s2 r) fun v s3 r => ?_
         cases v with
         | none => exact Q2.raise
         | some a => exact Q2.ok r
       · simp only [head_more r, hc, ite_false]
         exact Q2.raise)

theorem parseStruct_prefix (h : QF more ds dn) :
    QF more (parseStruct sym (some .fuel) ds) (parseStruct sym b dn) := by
  intro s hs
  unfold parseStruct
  refine Q2.bind1 (Q1.advance hs) fun s1 r => ?_
  refine Q2.bind2 (parseList_prefix (parseStructField_prefix h) true s1 r) fun v s2 r => ?_
  by_cases hc : s2.head? = some .rbrace
  · simp only [head_more r, hc, ite_true]
    exact Q2.bind1 (Q1.advance r) fun s3 r => Q2.bindE sugar_any fun c => Q2.bindE lift_any fun t => Q2.ok r
  · simp only [head_more r, hc, ite_false]
    exact Q2.raise

theorem parseParen_prefix (h : QF more ds dn) :
    QF more (parseParen sym (some .fuel) ds) (parseParen sym b dn) := by
  intro s hs
  unfold parseParen
  refine Q2.bind1 (Q1.advance hs) fun s1 r => ?_
  refine Q2.bind2 (parseList_prefix h true s1 r) fun v s2 r => ?_
  by_cases hc : s2.head? = some .rparen
  · simp only [head_more r, hc, ite_true]
    refine Q2.bind1 (Q1.advance r) fun s3 r => ?_
    by_cases hc : s3.head? = some .rarrow
    · simp only [head_more r, hc, ite_true]
      refine Q2.bind1 (Q1.advance r) fun s4 r => Q2.bind2 (h s4 r) fun v s5 r => ?_
      cases v with
      | none => exact Q2.raise
      | some a => exact Q2.bindE sugar_any fun c => Q2.bindE lift_any fun t => Q2.ok r
    · simp only [head_more r, hc, ite_false]
      exact Q2.bindE sugar_any fun c => Q2.bindE lift_any fun t => Q2.ok r
  · simp only [head_more r, hc, ite_false]
    exact Q2.raise

theorem parseDim_prefix (h : QF more ds dn) :
    QF more (parseDim sym (some .fuel) ds) (parseDim sym b dn) := by
  intro s hs
  match s, hs with
  | t :: s, hs =>
  cases t
  case upper v =>
    refine Q2.bind1 (Q1.advance hs) fun s1 r => ?_
    by_cases hc : s1.head? = some .ellipsis
    · simp only [head_more r, hc, ite_true]
      exact Q2.bind1 (Q1.advance r) fun s2 r => Q2.bindE sugar_any fun c => Q2.bindE lift_any fun t => Q2.ok r
    · simp only [head_more r, hc, ite_false]
      by_cases hc : s1.head? = some .star
      · simp only [head_more r, hc, ite_true]
        exact Q2.bindE sugar_any fun c => Q2.bindE lift_any fun t => Q2.ok r
      · simp only [head_more r, hc, ite_false]
        exact Q2.ok hs
  case lower v =>
    refine Q2.bind1 (Q1.advance hs) fun s1 r => ?_
    by_cases hc : s1.head? = some .lbrack
    · simp only [head_more r, hc, ite_true]
      cases sym.dimConstr v with
      | none => exact Q2.ok hs
      | some c =>
        refine Q2.bind1 (Q1.advance r) fun s2 r => Q2.bind2 (parseTypeArgList_prefix h s2 r) fun v s3 r => ?_
        by_cases hc : s3.head? = some .rbrack
        · simp only [head_more r, hc, ite_true]
          exact Q2.bind1 (Q1.advance r) fun _ _ => Q2.other
        · simp only [head_more r, hc, ite_false]
          exact Q2.raise
    · simp only [head_more r, hc, ite_false]
      cases sym.dim v with
      | none => exact Q2.ok hs
      | some c => exact Q2.ok r
  case int v =>
    refine Q2.bind1 (Q1.advance hs) fun s1 r => ?_
    by_cases hc : s1.head? = some .star
    · simp only [head_more r, hc, ite_true]
      exact Q2.bindE sugar_any fun c => Q2.bindE lift_any fun t => Q2.ok r
    · simp only [head_more r, hc, ite_false]
      exact Q2.ok hs
  case ellipsis => exact Q2.bind1 (Q1.advance hs) fun s1 r => Q2.bindE sugar_any fun c => Q2.ok r
  all_goals exact Q2.ok hs

theorem parseDtype_prefix (h : QF more ds dn) :
    QF more (parseDtype sym (some .fuel) ds) (parseDtype sym b dn) := by
  intro s hs
  match s, hs with
  | t :: s, hs =>
  cases t
  case upper v =>
    exact Q2.bind1 (Q1.advance hs) fun s1 r => Q2.bindE sugar_any fun c => Q2.bindE lift_any fun t => Q2.ok r
  case lower v =>
    refine Q2.bind1 (Q1.advance hs) fun s1 r => ?_
    by_cases hc : s1.head? = some .lbrack
    · simp only [head_more r, hc, ite_true]
      cases sym.dtypeConstr v with
      | none => exact Q2.ok hs
      | some c =>
        refine Q2.bind1 (Q1.advance r) fun s2 r => Q2.bind2 (parseTypeArgList_prefix h s2 r) fun v s3 r => ?_
        by_cases hc : s3.head? = some .rbrack
        · simp only [head_more r, hc, ite_true]
          cases v.1.isEmpty && v.2.isEmpty
          · exact Q2.bind1 (Q1.advance r) fun s4 r => Q2.bindE lift_any fun t => Q2.ok r
          · exact Q2.raise
        · simp only [head_more r, hc, ite_false]
          exact Q2.raise
    · simp only [head_more r, hc, ite_false]
      cases sym.dtype v with
      | none => exact Q2.ok hs
      | some c => exact Q2.ok r
  case lbrace => exact parseStruct_prefix h _ hs
  case lparen => exact parseParen_prefix h _ hs
  all_goals exact Q2.ok hs

theorem parseNoOption_prefix (h : QF more ds dn) :
    QF more (parseNoOption sym (some .fuel) ds) (parseNoOption sym b dn) := by
  intro s hs
  unfold parseNoOption
  refine Q2.bind2 (parseDim_prefix h s hs) fun d s1 r => ?_
  have tail : Q2 more (do
      let (t, s2) ← parseDtype sym (some .fuel) ds s1
      match t with
      | some t => if truthy t then do let r ← liftPy (mkDS [t]); .ok (some r, s2) else .ok (none, s2)
      | none => .ok (none, s2) : Res (Option Ty)) (do
      let (t, s2) ← parseDtype sym b dn (s1 ++ more)
      match t with
      | some t => if truthy t then do let r ← liftPy (mkDS [t]); .ok (some r, s2) else .ok (none, s2)
      | none => .ok (none, s2) : Res (Option Ty)) := by
    refine Q2.bind2 (parseDtype_prefix h s1 r) fun v s2 r => ?_
    cases v with
    | none => exact Q2.ok r
    | some t =>
      by_cases hc : truthy t = true
      · simp only [hc, ite_true]
        exact Q2.bindE lift_any fun _ => Q2.ok r
      · simp only [hc]
        exact Q2.ok r
  cases d with
  | none => exact tail
  | some d =>
    by_cases hc : s1.head? = some .star
    · simp only [head_more r, hc, ite_true]
      refine Q2.bind1 (Q1.advance r) fun s2 r => Q2.bind2 (h s2 r) fun v s3 r' => ?_
      cases v with
      | none => exact Q2.raise
      | some t => exact Q2.bindE lift_any fun _ => Q2.ok r'
    · simp only [head_more r, hc, ite_false]
      exact tail

theorem parseDatashapeF_prefix (h : QF more ds dn) :
    QF more (parseDatashapeF sym (some .fuel) ds) (parseDatashapeF sym b dn) := by
  intro s hs
  match s, hs with
  | t :: s, hs =>
  cases t
  case qmark =>
    refine Q2.bind1 (Q1.advance hs) fun s1 r => Q2.bind2 (parseNoOption_prefix h s1 r) fun v s2 r => ?_
    cases v with
    | none => exact Q2.ok r
    | some t => exact Q2.bindE sugar_any fun _ => Q2.bindE lift_any fun _ => Q2.bindE lift_any fun _ => Q2.ok r
  all_goals exact parseNoOption_prefix h _ hs

theorem parseDatashapeN_prefix : ∀ n n', n ≤ n' →
    QF more (parseDatashapeN sym (some .fuel) n) (parseDatashapeN sym b n') := by
  intro n
  induction n with
  | zero => intro _ _ s hs; exact Q2.fuel
  | succ n ih =>
    intro n' hn
    obtain ⟨n', rfl⟩ : ∃ m, n' = m + 1 := ⟨n' - 1, by omega⟩
    exact parseDatashapeF_prefix (ih n' (by omega))

/-- Either the parser needs a token beyond the first ones, or it fails, at the same token whatever comes after them. -/
theorem parseToks_prefix (toks more : List Tk) (b : Option PyErr) :
    parseToks sym (some .fuel) toks = .error (.py .fuel) ∨
    (∃ k m, parseToks sym (some .fuel) toks = .error (.tok k m) ∧ parseToks sym b (toks ++ more) = .error (.tok (k + more.length) m)) ∨
    ∃ p, parseToks sym (some .fuel) toks = .error (.py p) ∧ parseToks sym b (toks ++ more) = .error (.py p) := by
  match toks with
  | [] => exact .inl rfl
  | a :: r =>
    have e1 : ∀ b t s, parseToks sym b (t :: s) = (parseDatashape sym b (t :: s) >>= fun p => match p.1 with
        | none => raiseAt p.2 .invalid
        | some t => if p.2.isEmpty then .ok t else raiseAt p.2 .more) := fun _ _ _ => rfl
    have h := parseDatashapeN_prefix (more := more) (b := b) (sym := sym) ((a :: r).length + 1) ((a :: r ++ more).length + 1)
      (by simp) (a :: r) (by simp)
    rw [List.cons_append, e1, e1]
    rcases h with h | ⟨v, s, hs, h, h'⟩ | ⟨k, m, h, h'⟩ | ⟨p, h, h'⟩ <;>
      rw [show parseDatashape sym (some .fuel) (a :: r) = _ from h]
    · exact .inl rfl
    all_goals rw [show parseDatashape sym b (a :: (r ++ more)) = _ from h']
    · right; left
      obtain ⟨x, y, rfl⟩ := List.exists_cons_of_ne_nil hs
      cases v with
      | none => exact ⟨_, _, rfl, by simp [raiseAt, bind, Except.bind]; omega⟩
      | some t => exact ⟨_, _, rfl, by simp [raiseAt, bind, Except.bind]; omega⟩
    · exact .inr (.inl ⟨k, m, rfl, rfl⟩)
    · exact .inr (.inr ⟨p, rfl, rfl⟩)

end

end DS
