import Verif.Model.ParserSteps
import Verif.Proofs.Grammar

/-
The parser that counts its steps computes what the parser computes, in a number of steps that is linear in the number of tokens.
-/
namespace DS

/-- the result without the count -/
def E2 {α : Type} (x : K α) (y : Except PFail α) : Prop := x.2 = y

theorem E2.bindE {α β : Type} {x : K α} {y : Except PFail α} {f : α → K β} {g : α → Except PFail β} (h : E2 x y)
    (hf : ∀ a, E2 (f a) (g a)) : E2 (x >>= f) (y >>= g) := by
  obtain ⟨n, r⟩ := x
  cases h
  cases r with
  | error e => rfl
  | ok a => exact hf a
theorem E2.bind1 {α : Type} {x : K (List Tk)} {y : Except PFail (List Tk)} {f : List Tk → K α} {g : List Tk → Except PFail α} (h : E2 x y)
    (hf : ∀ s, True → E2 (f s) (g s)) : E2 (x >>= f) (y >>= g) := E2.bindE h fun s => hf s trivial
theorem E2.bind2 {α β : Type} {x : ResK α} {y : Res α} {f : α × List Tk → K β} {g : α × List Tk → Except PFail β} (h : E2 x y)
    (hf : ∀ v s, True → E2 (f (v, s)) (g (v, s))) : E2 (x >>= f) (y >>= g) := E2.bindE h fun p => hf p.1 p.2 trivial
theorem E2.ok {α : Type} {v : α} (_ : True) : E2 (.ok v) (.ok v) := rfl
theorem E2.raise {α : Type} {s : List Tk} {m : Msg} : E2 (raiseAtK s m : K α) (raiseAt s m) := rfl
theorem E2.other {α : Type} {p : PyErr} : E2 (K.error (.py p) : K α) (.error (.py p)) := rfl
theorem E2.tick {α : Type} {x : K α} {y : Except PFail α} (h : E2 x y) : E2 (DS.tick x) y := h
theorem E2.adv {b : Option PyErr} {s : List Tk} : E2 (advanceK b s) (advance b s) := rfl
theorem E2.lift {α : Type} {x : Except PyErr α} : E2 (liftPyK x) (liftPy x) := rfl
theorem E2.sug {α : Type} {t : Str → Option α} {n w : Str} {s : List Tk} : E2 (sugarK t n w s) (sugar t n w s) := by
  unfold sugarK sugar
  cases t n <;> rfl

/-- pointwise -/
abbrev EF {α : Type} (f : List Tk → ResK α) (g : List Tk → Res α) : Prop := ∀ s, True → E2 (f s) (g s)

section
variable {b : Option PyErr} {sym : Sym} {ds : List Tk → ResK (Option Ty)} {dn : List Tk → Res (Option Ty)} {msg : Msg}

theorem hlist_steps {α : Type} {f : List Tk → ResK (Option α)} {g : List Tk → Res (Option α)} (h : EF f g) (tr : Bool) {saved : List Tk}
    (hs : True) : ∀ n acc s, True → E2 (hlistK b f msg tr saved n acc s)
      (hlist b g msg tr saved n acc s) := by
  intro n
  induction n with
  | zero => intro acc s r; exact E2.other
  | succ n ih =>
    intro acc s r
    simp only [hlist, hlistK]
    refine E2.bind2 (h s r) fun v s' r' => ?_
    cases v with
    | some x =>
      by_cases hc : s'.head? = some .comma
      · simp only [hc, ite_true]
        exact E2.bind1 (E2.adv) fun s'' r'' => ih _ _ r''
      · simp only [hc, ite_false]
        exact E2.ok r'
    | none =>
      cases acc.isEmpty
      · cases tr
        · exact E2.raise
        · exact E2.ok r'
      · exact E2.ok hs

theorem parseList_steps {α : Type} {f : List Tk → ResK (Option α)} {g : List Tk → Res (Option α)} (h : EF f g) (tr : Bool) :
    EF (parseListK b f msg tr) (parseList b g msg tr) :=
  fun s hs => E2.tick (hlist_steps h tr hs _ _ _ hs)

theorem parseLit_steps : EF (parseIntegerK b) (parseInteger b) ∧
    EF (parseStringK b) (parseString b) ∧
    EF (parseBooleanK b) (parseBoolean b) := by
  refine ⟨?_, ?_, ?_⟩
  all_goals
    intro s hs
    match s with
    | [] => rfl
    | t :: r =>
      cases t
      all_goals first
        | exact E2.ok hs
        | exact E2.bind1 (E2.adv) fun s r => E2.ok r

theorem parseTypeArg_steps (h : EF ds dn) :
    EF (parseTypeArgK b ds) (parseTypeArg b dn) := by
  intro s hs
  unfold parseTypeArg parseTypeArgK
  refine E2.tick ?_
  refine E2.bind2 (h s hs) fun v s1 r => ?_
  cases v with
  | some t => exact E2.ok r
  | none =>
    cases s1 with
    | nil => exact E2.ok r
    | cons t s1 =>
    cases t
    case lbrack =>
      refine E2.bind1 (E2.adv) fun s2 r => ?_
      refine E2.bind2 (E2.tick (parseList_steps h false s2 r)) fun v s3 r => ?_
      refine E2.bind2 (α := Option Arg) ?_ fun v s4 r => ?_
      · cases v with
        | some l => exact E2.ok r
        | none =>
          refine E2.bind2 (E2.tick (parseList_steps parseLit_steps.1 false s3 r)) fun v s4 r => ?_
          cases v with
          | some l => exact E2.ok r
          | none =>
            refine E2.bind2 (E2.tick (parseList_steps parseLit_steps.2.1 false s4 r)) fun v s5 r => ?_
            cases v with
            | some l => exact E2.ok r
            | none => exact E2.bind2 (E2.tick (parseList_steps parseLit_steps.2.2 false s5 r)) fun v s6 r => E2.ok r
      · by_cases hc : s4.head? = some .rbrack
        · simp only [hc, ite_true]
          exact E2.bind1 (E2.adv) fun s2 r => E2.ok r
        · simp only [hc, ite_false]
          exact E2.raise
    all_goals first
      | exact E2.ok r
      | exact E2.bind1 (E2.adv) fun _ r => E2.ok r

theorem parseTypeKwarg_steps (h : EF ds dn) :
    EF (parseTypeKwargK b ds) (parseTypeKwarg b dn) := by
  intro s hs
  cases s with
  | nil => exact E2.ok hs
  | cons t s =>
  cases t
  case lower n =>
    refine E2.bind1 (E2.adv) fun s1 r => ?_
    by_cases hc : s1.head? = some .equal
    · simp only [hc, ite_true]
      refine E2.bind1 (E2.adv) fun s2 r => ?_
      refine E2.bind2 (parseTypeArg_steps h s2 r) fun v s3 r => ?_
      cases v with
      | none => exact E2.raise
      | some a => exact E2.ok r
    · simp only [hc, ite_false]
      exact E2.ok hs
  all_goals exact E2.ok hs

theorem argLoop_steps (h : EF ds dn) : ∀ n acc s, True →
    E2 (argLoopK b ds n acc s) (argLoop b dn n acc s) := by
  intro n
  induction n with
  | zero => intro acc s r; exact E2.other
  | succ n ih =>
    intro acc s r
    simp only [argLoop, argLoopK]
    refine E2.bind2 (parseTypeArg_steps h s r) fun v s1 r => ?_
    cases v with
    | some a =>
      by_cases hc : s1.head? = some .comma
      · simp only [hc, ite_true]
        exact E2.bind1 (E2.adv) fun s2 r => ih _ _ r
      · simp only [hc, ite_false]
        exact E2.ok r
    | none =>
      exact E2.bind2 (parseList_steps (parseTypeKwarg_steps h) false s1 r) fun v s2 r => E2.ok r

theorem parseTypeArgList_steps (h : EF ds dn) :
    EF (parseTypeArgListK b ds) (parseTypeArgList b dn) :=
  fun s hs => E2.tick (argLoop_steps h _ _ _ hs)

theorem parseStructField_steps (h : EF ds dn) :
    EF (parseStructFieldK b ds) (parseStructField b dn) := by
  intro s hs
  cases s with
  | nil => exact E2.ok hs
  | cons t s =>
  cases t
  all_goals first
    | exact E2.ok hs
    | (refine E2.bind1 (E2.adv) fun s1 r => ?_
       by_cases hc : s1.head? = some .colon
       · simp only [hc, ite_true]
         refine E2.bind1 (E2.adv) fun s2 r => E2.bind2 (h s2 r) fun v s3 r => ?_
         cases v with
         | none => exact E2.raise
         | some a => exact E2.ok r
       · simp only [hc, ite_false]
         exact E2.raise)

theorem parseStruct_steps (h : EF ds dn) :
    EF (parseStructK sym b ds) (parseStruct sym b dn) := by
  intro s hs
  unfold parseStruct parseStructK
  refine E2.tick ?_
  refine E2.bind1 (E2.adv) fun s1 r => ?_
  refine E2.bind2 (parseList_steps (parseStructField_steps h) true s1 r) fun v s2 r => ?_
  by_cases hc : s2.head? = some .rbrace
  · simp only [hc, ite_true]
    exact E2.bind1 (E2.adv) fun s3 r => E2.bindE E2.sug fun c => E2.bindE E2.lift fun t => E2.ok r
  · simp only [hc, ite_false]
    exact E2.raise

theorem parseParen_steps (h : EF ds dn) :
    EF (parseParenK sym b ds) (parseParen sym b dn) := by
  intro s hs
  unfold parseParen parseParenK
  refine E2.tick ?_
  refine E2.bind1 (E2.adv) fun s1 r => ?_
  refine E2.bind2 (parseList_steps h true s1 r) fun v s2 r => ?_
  by_cases hc : s2.head? = some .rparen
  · simp only [hc, ite_true]
    refine E2.bind1 (E2.adv) fun s3 r => ?_
    by_cases hc : s3.head? = some .rarrow
    · simp only [hc, ite_true]
      refine E2.bind1 (E2.adv) fun s4 r => E2.bind2 (h s4 r) fun v s5 r => ?_
      cases v with
      | none => exact E2.raise
      | some a => exact E2.bindE E2.sug fun c => E2.bindE E2.lift fun t => E2.ok r
    · simp only [hc, ite_false]
      exact E2.bindE E2.sug fun c => E2.bindE E2.lift fun t => E2.ok r
  · simp only [hc, ite_false]
    exact E2.raise

theorem parseDim_steps (h : EF ds dn) :
    EF (parseDimK sym b ds) (parseDim sym b dn) := by
  intro s hs
  cases s with
  | nil => exact E2.ok hs
  | cons t s =>
  cases t
  case upper v =>
    refine E2.bind1 (E2.adv) fun s1 r => ?_
    by_cases hc : s1.head? = some .ellipsis
    · simp only [hc, ite_true]
      exact E2.bind1 (E2.adv) fun s2 r => E2.bindE E2.sug fun c => E2.bindE E2.lift fun t => E2.ok r
    · simp only [hc, ite_false]
      by_cases hc : s1.head? = some .star
      · simp only [hc, ite_true]
        exact E2.bindE E2.sug fun c => E2.bindE E2.lift fun t => E2.ok r
      · simp only [hc, ite_false]
        exact E2.ok hs
  case lower v =>
    refine E2.bind1 (E2.adv) fun s1 r => ?_
    by_cases hc : s1.head? = some .lbrack
    · simp only [hc, ite_true]
      cases sym.dimConstr v with
      | none => exact E2.ok hs
      | some c =>
        refine E2.bind1 (E2.adv) fun s2 r => E2.bind2 (parseTypeArgList_steps h s2 r) fun v s3 r => ?_
        by_cases hc : s3.head? = some .rbrack
        · simp only [hc, ite_true]
          exact E2.bind1 (E2.adv) fun _ _ => E2.other
        · simp only [hc, ite_false]
          exact E2.raise
    · simp only [hc, ite_false]
      cases sym.dim v with
      | none => exact E2.ok hs
      | some c => exact E2.ok r
  case int v =>
    refine E2.bind1 (E2.adv) fun s1 r => ?_
    by_cases hc : s1.head? = some .star
    · simp only [hc, ite_true]
      exact E2.bindE E2.sug fun c => E2.bindE E2.lift fun t => E2.ok r
    · simp only [hc, ite_false]
      exact E2.ok hs
  case ellipsis => exact E2.bind1 (E2.adv) fun s1 r => E2.bindE E2.sug fun c => E2.ok r
  all_goals exact E2.ok hs

theorem parseDtype_steps (h : EF ds dn) :
    EF (parseDtypeK sym b ds) (parseDtype sym b dn) := by
  intro s hs
  cases s with
  | nil => exact E2.ok hs
  | cons t s =>
  cases t
  case upper v =>
    exact E2.bind1 (E2.adv) fun s1 r => E2.bindE E2.sug fun c => E2.bindE E2.lift fun t => E2.ok r
  case lower v =>
    refine E2.bind1 (E2.adv) fun s1 r => ?_
    by_cases hc : s1.head? = some .lbrack
    · simp only [hc, ite_true]
      cases sym.dtypeConstr v with
      | none => exact E2.ok hs
      | some c =>
        refine E2.bind1 (E2.adv) fun s2 r => E2.bind2 (parseTypeArgList_steps h s2 r) fun v s3 r => ?_
        by_cases hc : s3.head? = some .rbrack
        · simp only [hc, ite_true]
          cases v.1.isEmpty && v.2.isEmpty
          · exact E2.bind1 (E2.adv) fun s4 r => E2.bindE E2.lift fun t => E2.ok r
          · exact E2.raise
        · simp only [hc, ite_false]
          exact E2.raise
    · simp only [hc, ite_false]
      cases sym.dtype v with
      | none => exact E2.ok hs
      | some c => exact E2.ok r
  case lbrace => exact parseStruct_steps h _ hs
  case lparen => exact parseParen_steps h _ hs
  all_goals exact E2.ok hs

theorem parseNoOption_steps (h : EF ds dn) :
    EF (parseNoOptionK sym b ds) (parseNoOption sym b dn) := by
  intro s hs
  unfold parseNoOption parseNoOptionK
  refine E2.tick ?_
  refine E2.bind2 (parseDim_steps h s hs) fun d s1 r => ?_
  have tail : E2 (do
      let (t, s2) ← parseDtypeK sym b ds s1
      match t with
      | some t => if truthy t then do let r ← liftPyK (mkDS [t]); .ok (some r, s2) else .ok (none, s2)
      | none => .ok (none, s2) : ResK (Option Ty)) (do
      let (t, s2) ← parseDtype sym b dn s1
      match t with
      | some t => if truthy t then do let r ← liftPy (mkDS [t]); .ok (some r, s2) else .ok (none, s2)
      | none => .ok (none, s2) : Res (Option Ty)) := by
    refine E2.bind2 (parseDtype_steps h s1 r) fun v s2 r => ?_
    cases v with
    | none => exact E2.ok r
    | some t =>
      by_cases hc : truthy t = true
      · simp only [hc, ite_true]
        exact E2.bindE E2.lift fun _ => E2.ok r
      · simp only [hc]
        exact E2.ok r
  cases d with
  | none => exact tail
  | some d =>
    by_cases hc : s1.head? = some .star
    · simp only [hc, ite_true]
      refine E2.bind1 (E2.adv) fun s2 r => E2.bind2 (h s2 r) fun v s3 r' => ?_
      cases v with
      | none => exact E2.raise
      | some t => exact E2.bindE E2.lift fun _ => E2.ok r'
    · simp only [hc, ite_false]
      exact tail

theorem parseDatashapeF_steps (h : EF ds dn) :
    EF (parseDatashapeFK sym b ds) (parseDatashapeF sym b dn) := by
  intro s hs
  cases s with
  | nil => exact E2.ok hs
  | cons t s =>
  cases t
  case qmark =>
    refine E2.bind1 (E2.adv) fun s1 r => E2.bind2 (parseNoOption_steps h s1 r) fun v s2 r => ?_
    cases v with
    | none => exact E2.ok r
    | some t => exact E2.bindE E2.sug fun _ => E2.bindE E2.lift fun _ => E2.bindE E2.lift fun _ => E2.ok r
  all_goals exact parseNoOption_steps h _ hs

theorem parseDatashapeN_steps : ∀ n, EF (parseDatashapeNK sym b n) (parseDatashapeN sym b n) := by
  intro n
  induction n with
  | zero => intro s hs; exact E2.other
  | succ n ih => exact parseDatashapeF_steps ih

theorem parseToks_steps (toks : List Tk) : (parseToksK sym b toks).2 = parseToks sym b toks := by
  have h : E2 (parseDatashapeK sym b toks >>= fun p => match p.1 with
        | none => raiseAtK p.2 .invalid
        | some t => if p.2.isEmpty then .ok t else raiseAtK p.2 .more) (parseDatashape sym b toks >>= fun p => match p.1 with
        | none => raiseAt p.2 .invalid
        | some t => if p.2.isEmpty then .ok t else raiseAt p.2 .more) := by
    refine E2.bind2 (parseDatashapeN_steps _ _ trivial) fun v s r => ?_
    cases v with
    | none => exact E2.raise
    | some t => cases s <;> rfl
  cases toks with
  | nil => cases b with
    | none => exact h
    | some e => rfl
  | cons a r => exact h

end

end DS
