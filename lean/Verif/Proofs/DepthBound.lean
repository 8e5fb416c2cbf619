import Verif.Proofs.StepBound

/-
The calls of the parser's methods are nested at most five deep for each token, and five more.
-/
namespace DS

/-- at most `c` calls are open at the same time, and the value satisfies `Q` -/
def Deep {α : Type} (c : Nat) (x : K α) (Q : α → Prop) : Prop := x.1.depth ≤ c ∧ ∀ a, x.2 = .ok a → Q a

section
variable {α β : Type} {c d : Nat} {Q : α → Prop}

theorem Deep.ok {a : α} (h : Q a) : Deep c (.ok a) Q := ⟨Nat.zero_le _, fun _ e => by cases e; exact h⟩
theorem Deep.error {e : PFail} : Deep c (.error e : K α) Q := ⟨Nat.zero_le _, fun _ e => by cases e⟩
theorem Deep.raise {s : List Tk} {m : Msg} : Deep c (raiseAtK s m : K α) Q := ⟨Nat.zero_le _, fun _ e => by cases e⟩
theorem Deep.tick {x : K α} (hc : 1 ≤ c) (h : Deep (c - 1) x Q) : Deep c (DS.tick x) Q :=
  ⟨by have := h.1; simp only [DS.tick]; omega, h.2⟩
theorem Deep.bind {Q' : β → Prop} {x : K β} {f : β → K α} (h : Deep c x Q') (hf : ∀ a, Q' a → Deep c (f a) Q) :
    Deep c (x >>= f) Q := by
  obtain ⟨n, r⟩ := x
  cases r with
  | error e => exact ⟨h.1, fun _ e => by cases e⟩
  | ok a =>
    have h2 := hf a (h.2 a rfl)
    exact ⟨Nat.max_le.2 ⟨h.1, h2.1⟩, h2.2⟩
theorem Deep.mono {x : K α} {Q' : α → Prop} (h : Deep c x Q') (hc : c ≤ d) (hq : ∀ a, Q' a → Q a) : Deep d x Q :=
  ⟨Nat.le_trans h.1 hc, fun a e => hq a (h.2 a e)⟩
theorem Deep.adv {b : Option PyErr} {s : List Tk} {f : List Tk → K α} (hc : 1 ≤ c)
    (hf : ∀ s', s'.length = s.length - 1 → Deep c (f s') Q) : Deep c (advanceK b s >>= f) Q := by
  refine Deep.bind (Q' := fun s' => s'.length = s.length - 1) ⟨hc, fun s' hr => ?_⟩ hf
  simp only [advanceK] at hr
  unfold advance at hr
  split at hr
  · cases hr; rfl
  · split at hr <;> cases hr; rfl
  · cases hr; rfl
theorem Deep.lift {x : Except PyErr β} {f : β → K α} (hf : ∀ a, Deep c (f a) Q) : Deep c (liftPyK x >>= f) Q :=
  Deep.bind (Q' := fun _ => True) ⟨Nat.zero_le _, fun _ _ => trivial⟩ fun a _ => hf a
theorem Deep.sugar {t : Str → Option β} {n w : Str} {s : List Tk} {f : β → K α} (hc : 1 ≤ c) (hf : ∀ a, Deep c (f a) Q) :
    Deep c (sugarK t n w s >>= f) Q := by
  refine Deep.bind (Q' := fun _ => True) ⟨?_, fun _ _ => trivial⟩ fun a _ => hf a
  unfold sugarK
  cases t n <;> exact hc

end

/-- A method that does not read backwards, with at most five calls for each token and `k` more open at the same time. -/
def Nested {β : Type} (f : List Tk → ResK β) (k : Nat) : Prop :=
  ∀ s, Deep (5 * s.length + k) (f s) (fun p => p.2.length ≤ s.length)

section
variable {β α : Type} {c k : Nat} {Q : α → Prop}

theorem Deep.call {f : List Tk → ResK β} (h : Nested f k) {s : List Tk} {g : β × List Tk → K α} (hc : 5 * s.length + k ≤ c)
    (hf : ∀ v s', s'.length ≤ s.length → Deep c (g (v, s')) Q) : Deep c (f s >>= g) Q :=
  Deep.bind ((h s).mono hc (fun _ h => h)) fun p hp => hf p.1 p.2 hp
theorem Deep.call' {x : ResK β} {n : Nat} {g : β × List Tk → K α} (h : Deep c x (fun p => p.2.length ≤ n))
    (hf : ∀ v s', s'.length ≤ n → Deep c (g (v, s')) Q) : Deep c (x >>= g) Q :=
  Deep.bind h fun p hp => hf p.1 p.2 hp

end

section
variable {b : Option PyErr} {sym : Sym} {ds : List Tk → ResK (Option Ty)} {msg : Msg} {k : Nat}

theorem hlist_deep {α : Type} {f : List Tk → ResK (Option α)} (h : Nested f k) (hk : 1 ≤ k) (tr : Bool) (saved : List Tk) :
    ∀ n acc s, s.length ≤ saved.length → Deep (5 * saved.length + k) (hlistK b f msg tr saved n acc s)
      (fun p => p.2.length ≤ saved.length) := by
  intro n
  induction n with
  | zero => intro acc s r; exact Deep.error
  | succ n ih =>
    intro acc s r
    simp only [hlistK]
    refine Deep.call h (by omega) fun v s' h' => ?_
    cases v with
    | some x =>
      by_cases hc : s'.head? = some .comma
      · simp only [hc, ite_true]
        exact Deep.adv (by omega) fun s2 h2 => ih _ _ (by omega)
      · simp only [hc, ite_false]
        exact Deep.ok (by dsimp only; omega)
    | none =>
      cases acc with
      | nil => exact Deep.ok (Nat.le_refl _)
      | cons a l =>
        cases tr
        · exact Deep.raise
        · exact Deep.ok (by dsimp only; omega)

theorem parseList_deep {α : Type} {f : List Tk → ResK (Option α)} (h : Nested f k) (hk : 1 ≤ k) (tr : Bool) :
    Nested (parseListK b f msg tr) (k + 1) :=
  fun s => Deep.tick (by omega) ((hlist_deep h hk tr s _ [] s (Nat.le_refl _)).mono (by omega) (fun _ h => h))
theorem listOf_deep {α : Type} {f : List Tk → ResK (Option α)} (h : Nested f k) (hk : 1 ≤ k) (tr : Bool) :
    Nested (fun s => tick (parseListK b f msg tr s)) (k + 2) :=
  fun s => Deep.tick (by omega) ((parseList_deep h hk tr s).mono (by omega) (fun _ h => h))

theorem parseLit_deep : Nested (parseIntegerK b) 2 ∧ Nested (parseStringK b) 2 ∧ Nested (parseBooleanK b) 2 := by
  refine ⟨?_, ?_, ?_⟩
  all_goals
    intro s
    refine Deep.tick (by omega) ?_
    split
    · exact Deep.adv (by omega) fun s' h' => Deep.ok (by dsimp only; omega)
    · exact Deep.ok (Nat.le_refl _)

theorem parseTypeArg_deep (h : Nested ds 4) : Nested (parseTypeArgK b ds) 5 := by
  intro s
  refine Deep.tick (by omega) (Deep.call h (by omega) fun v s1 h1 => ?_)
  cases v with
  | some t => exact Deep.ok h1
  | none =>
    cases s1 with
    | nil => exact Deep.ok h1
    | cons t s1 =>
    simp only [List.length_cons] at h1
    cases t
    case lbrack =>
      refine Deep.adv (by omega) fun s2 h2 => ?_
      simp only [List.length_cons] at h2
      refine Deep.call (listOf_deep h (by omega) false) (by omega) fun v s3 h3 => ?_
      refine Deep.call' (n := s3.length) ?_ fun v s4 h4 => ?_
      · cases v with
        | some l => exact Deep.ok (Nat.le_refl _)
        | none =>
          refine Deep.call (listOf_deep parseLit_deep.1 (by omega) false) (by omega) fun v s4 h4 => ?_
          cases v with
          | some l => exact Deep.ok h4
          | none =>
            refine Deep.call (listOf_deep parseLit_deep.2.1 (by omega) false) (by omega) fun v s5 h5 => ?_
            cases v with
            | some l => exact Deep.ok (by dsimp only; omega)
            | none =>
              exact Deep.call (listOf_deep parseLit_deep.2.2 (by omega) false) (by omega) fun v s6 h6 =>
                Deep.ok (by dsimp only; omega)
      · by_cases hc : s4.head? = some .rbrack
        · simp only [hc, ite_true]
          exact Deep.adv (by omega) fun s5 h5 => Deep.ok (by dsimp only; omega)
        · simp only [hc, ite_false]
          exact Deep.raise
    all_goals first
      | exact Deep.ok (by simp only [List.length_cons]; omega)
      | exact Deep.adv (by omega) fun _ h2 => Deep.ok (by simp only [List.length_cons] at h2 ⊢; omega)

theorem parseTypeKwarg_deep (h : Nested ds 4) : Nested (parseTypeKwargK b ds) 2 := by
  intro s
  refine Deep.tick (by omega) ?_
  cases s with
  | nil => exact Deep.ok (Nat.le_refl _)
  | cons t s =>
  cases t
  case lower n =>
    refine Deep.adv (by omega) fun s1 h1 => ?_
    simp only [List.length_cons] at h1
    by_cases hc : s1.head? = some .equal
    · have hp := head_pos hc
      simp only [hc, ite_true]
      refine Deep.adv (by omega) fun s2 h2 => Deep.call (parseTypeArg_deep h) (by simp only [List.length_cons]; omega) fun v s3 h3 => ?_
      cases v with
      | none => exact Deep.raise
      | some a => exact Deep.ok (by simp only [List.length_cons]; omega)
    · simp only [hc, ite_false]
      exact Deep.ok (Nat.le_refl _)
  all_goals exact Deep.ok (Nat.le_refl _)

theorem argLoop_deep (h : Nested ds 4) : ∀ n acc (s0 s : List Tk), s.length ≤ s0.length →
    Deep (5 * s0.length + 5) (argLoopK b ds n acc s) (fun p => p.2.length ≤ s0.length) := by
  intro n
  induction n with
  | zero => intro acc s0 s r; exact Deep.error
  | succ n ih =>
    intro acc s0 s r
    simp only [argLoopK]
    refine Deep.call (parseTypeArg_deep h) (by omega) fun v s1 h1 => ?_
    cases v with
    | some a =>
      by_cases hc : s1.head? = some .comma
      · simp only [hc, ite_true]
        exact Deep.adv (by omega) fun s2 h2 => ih _ _ _ (by omega)
      · simp only [hc, ite_false]
        exact Deep.ok (by dsimp only; omega)
    | none =>
      exact Deep.call (parseList_deep (parseTypeKwarg_deep h) (by omega) false) (by dsimp only; omega) fun v s2 h2 =>
        Deep.ok (by dsimp only at *; omega)

theorem parseTypeArgList_deep (h : Nested ds 4) : Nested (parseTypeArgListK b ds) 6 :=
  fun s => Deep.tick (by omega) ((argLoop_deep h _ _ s s (Nat.le_refl _)).mono (by omega) (fun _ h => h))

theorem parseStructField_deep (h : Nested ds 4) : Nested (parseStructFieldK b ds) 1 := by
  intro s
  refine Deep.tick (by omega) ?_
  cases s with
  | nil => exact Deep.ok (Nat.le_refl _)
  | cons t s =>
  cases t
  all_goals first
    | exact Deep.ok (Nat.le_refl _)
    | (refine Deep.adv (by simp only [List.length_cons]; omega) fun s1 h1 => ?_
       simp only [List.length_cons] at h1
       by_cases hc : s1.head? = some .colon
       · have hp := head_pos hc
         simp only [hc, ite_true]
         refine Deep.adv (by simp only [List.length_cons]; omega) fun s2 h2 => Deep.call h (by simp only [List.length_cons]; omega) fun v s3 h3 => ?_
         cases v with
         | none => exact Deep.raise
         | some a => exact Deep.ok (by simp only [List.length_cons]; omega)
       · simp only [hc, ite_false]
         exact Deep.raise)

theorem parseStruct_deep (h : Nested ds 4) (s : List Tk) (hs : 0 < s.length) :
    Deep (5 * s.length + 1) (parseStructK sym b ds s) (fun p => p.2.length ≤ s.length) := by
  unfold parseStructK
  refine Deep.tick (by omega) (Deep.adv (by omega) fun s1 h1 => ?_)
  refine Deep.call (parseList_deep (parseStructField_deep h) (by omega) true) (by omega) fun v s2 h2 => ?_
  by_cases hc : s2.head? = some .rbrace
  · simp only [hc, ite_true]
    exact Deep.adv (by omega) fun s3 h3 => Deep.sugar (by omega) fun c => Deep.lift fun t => Deep.ok (by dsimp only; omega)
  · simp only [hc, ite_false]
    exact Deep.raise

theorem parseParen_deep (h : Nested ds 4) (s : List Tk) (hs : 0 < s.length) :
    Deep (5 * s.length + 1) (parseParenK sym b ds s) (fun p => p.2.length ≤ s.length) := by
  unfold parseParenK
  refine Deep.tick (by omega) (Deep.adv (by omega) fun s1 h1 => ?_)
  refine Deep.call (parseList_deep h (by omega) true) (by omega) fun v s2 h2 => ?_
  by_cases hc : s2.head? = some .rparen
  · simp only [hc, ite_true]
    refine Deep.adv (by omega) fun s3 h3 => ?_
    by_cases hc : s3.head? = some .rarrow
    · simp only [hc, ite_true]
      refine Deep.adv (by omega) fun s4 h4 => Deep.call h (by omega) fun v s5 h5 => ?_
      cases v with
      | none => exact Deep.raise
      | some a => exact Deep.sugar (by omega) fun c => Deep.lift fun t => Deep.ok (by dsimp only; omega)
    · simp only [hc, ite_false]
      exact Deep.sugar (by omega) fun c => Deep.lift fun t => Deep.ok (by dsimp only; omega)
  · simp only [hc, ite_false]
    exact Deep.raise

theorem parseDim_deep (h : Nested ds 4) : Nested (parseDimK sym b ds) 2 := by
  intro s
  refine Deep.tick (by omega) ?_
  cases s with
  | nil => exact Deep.ok (Nat.le_refl _)
  | cons t s =>
  cases t
  case upper v =>
    refine Deep.adv (by omega) fun s1 h1 => ?_
    simp only [List.length_cons] at h1
    by_cases hc : s1.head? = some .ellipsis
    · simp only [hc, ite_true]
      exact Deep.adv (by omega) fun s2 h2 => Deep.sugar (by omega) fun c => Deep.lift fun t =>
        Deep.ok (by simp only [List.length_cons]; omega)
    · simp only [hc, ite_false]
      by_cases hc : s1.head? = some .star
      · simp only [hc, ite_true]
        exact Deep.sugar (by omega) fun c => Deep.lift fun t => Deep.ok (by simp only [List.length_cons]; omega)
      · simp only [hc, ite_false]
        exact Deep.ok (Nat.le_refl _)
  case lower v =>
    refine Deep.adv (by omega) fun s1 h1 => ?_
    simp only [List.length_cons] at h1
    by_cases hc : s1.head? = some .lbrack
    · have hp := head_pos hc
      simp only [hc, ite_true]
      cases sym.dimConstr v with
      | none => exact Deep.ok (Nat.le_refl _)
      | some c =>
        refine Deep.adv (by omega) fun s2 h2 => Deep.call (parseTypeArgList_deep h) (by simp only [List.length_cons]; omega)
          fun v s3 h3 => ?_
        by_cases hc : s3.head? = some .rbrack
        · simp only [hc, ite_true]
          exact Deep.adv (by simp only [List.length_cons]; omega) fun s4 h4 => Deep.error
        · simp only [hc, ite_false]
          exact Deep.raise
    · simp only [hc, ite_false]
      cases sym.dim v with
      | none => exact Deep.ok (Nat.le_refl _)
      | some c => exact Deep.ok (by simp only [List.length_cons]; omega)
  case int v =>
    refine Deep.adv (by omega) fun s1 h1 => ?_
    simp only [List.length_cons] at h1
    by_cases hc : s1.head? = some .star
    · simp only [hc, ite_true]
      exact Deep.sugar (by omega) fun c => Deep.lift fun t => Deep.ok (by simp only [List.length_cons]; omega)
    · simp only [hc, ite_false]
      exact Deep.ok (Nat.le_refl _)
  case ellipsis =>
    exact Deep.adv (by omega) fun s1 h1 => Deep.sugar (by omega) fun c => Deep.ok (by simp only [List.length_cons] at h1 ⊢; omega)
  all_goals exact Deep.ok (Nat.le_refl _)

theorem parseDtype_deep (h : Nested ds 4) : Nested (parseDtypeK sym b ds) 2 := by
  intro s
  refine Deep.tick (by omega) ?_
  cases s with
  | nil => exact Deep.ok (Nat.le_refl _)
  | cons t s =>
  cases t
  case upper v =>
    exact Deep.adv (by omega) fun s1 h1 => Deep.sugar (by omega) fun c => Deep.lift fun t =>
      Deep.ok (by simp only [List.length_cons] at h1 ⊢; omega)
  case lower v =>
    refine Deep.adv (by omega) fun s1 h1 => ?_
    simp only [List.length_cons] at h1
    by_cases hc : s1.head? = some .lbrack
    · have hp := head_pos hc
      simp only [hc, ite_true]
      cases sym.dtypeConstr v with
      | none => exact Deep.ok (Nat.le_refl _)
      | some c =>
        refine Deep.adv (by omega) fun s2 h2 => Deep.call (parseTypeArgList_deep h) (by simp only [List.length_cons]; omega)
          fun v s3 h3 => ?_
        by_cases hc : s3.head? = some .rbrack
        · simp only [hc, ite_true]
          cases v.1.isEmpty && v.2.isEmpty
          · exact Deep.adv (by simp only [List.length_cons]; omega) fun s4 h4 => Deep.lift fun t =>
              Deep.ok (by simp only [List.length_cons]; omega)
          · exact Deep.raise
        · simp only [hc, ite_false]
          exact Deep.raise
    · simp only [hc, ite_false]
      cases sym.dtype v with
      | none => exact Deep.ok (Nat.le_refl _)
      | some c => exact Deep.ok (by simp only [List.length_cons]; omega)
  case lbrace => exact (parseStruct_deep h _ (by simp)).mono (by omega) (fun _ h => h)
  case lparen => exact (parseParen_deep h _ (by simp)).mono (by omega) (fun _ h => h)
  all_goals exact Deep.ok (Nat.le_refl _)

theorem parseNoOption_deep (h : Nested ds 4) : Nested (parseNoOptionK sym b ds) 3 := by
  intro s
  unfold parseNoOptionK
  refine Deep.tick (by omega) (Deep.call (parseDim_deep h) (by omega) fun d s1 h1 => ?_)
  have tail : Deep (5 * s.length + 3 - 1) (do
      let (t, s2) ← parseDtypeK sym b ds s1
      match t with
      | some t => if truthy t then do let r ← liftPyK (mkDS [t]); .ok (some r, s2) else .ok (none, s2)
      | none => .ok (none, s2) : ResK (Option Ty)) (fun p => p.2.length ≤ s.length) := by
    refine Deep.call (parseDtype_deep h) (by omega) fun v s2 h2 => ?_
    cases v with
    | none => exact Deep.ok (by dsimp only; omega)
    | some t =>
      by_cases hc : truthy t = true
      · simp only [hc, ite_true]
        exact Deep.lift fun r => Deep.ok (by dsimp only; omega)
      · simp only [hc]
        exact Deep.ok (by dsimp only; omega)
  cases d with
  | none => exact tail
  | some d =>
    by_cases hc : s1.head? = some .star
    · have hp := head_pos hc
      simp only [hc, ite_true]
      refine Deep.adv (by omega) fun s2 h2 => Deep.call h (by omega) fun v s3 h3 => ?_
      cases v with
      | none => exact Deep.raise
      | some t => exact Deep.lift fun r => Deep.ok (by dsimp only; omega)
    · simp only [hc, ite_false]
      exact tail

theorem parseDatashapeF_deep (h : Nested ds 4) : Nested (parseDatashapeFK sym b ds) 4 := by
  intro s
  refine Deep.tick (by omega) ?_
  have other : Deep (5 * s.length + 4 - 1) (parseNoOptionK sym b ds s) (fun p => p.2.length ≤ s.length) := parseNoOption_deep h s
  cases s with
  | nil => exact other
  | cons t s =>
  cases t
  case qmark =>
    refine Deep.adv (by omega) fun s1 h1 => Deep.call (parseNoOption_deep h) (by omega) fun v s2 h2 => ?_
    simp only [List.length_cons] at h1
    cases v with
    | none => exact Deep.ok (by simp only [List.length_cons]; omega)
    | some t =>
      exact Deep.sugar (by omega) fun _ => Deep.lift fun _ => Deep.lift fun _ => Deep.ok (by simp only [List.length_cons]; omega)
  all_goals exact other

theorem parseDatashapeN_deep : ∀ n, Nested (parseDatashapeNK sym b n) 4 := by
  intro n
  induction n with
  | zero => intro s; exact Deep.error
  | succ n ih => exact parseDatashapeF_deep ih

theorem parseToks_deep (toks : List Tk) : (parseToksK sym b toks).1.depth ≤ 5 * toks.length + 5 := by
  have h : Deep (5 * toks.length + 4) (parseDatashapeK sym b toks >>= fun p => match p.1 with
      | none => raiseAtK p.2 .invalid
      | some t => if p.2.isEmpty then .ok t else raiseAtK p.2 .more : K Ty) (fun _ => True) := by
    refine Deep.call (f := parseDatashapeK sym b) (fun s => parseDatashapeN_deep (s.length + 1) s) (Nat.le_refl _) fun v s h => ?_
    cases v with
    | none => exact Deep.raise
    | some t => cases s with
      | nil => exact Deep.ok trivial
      | cons => exact Deep.raise
  refine (Deep.tick (Q := fun _ => True) (by omega) ?_).1
  cases toks with
  | nil => cases b with
    | none => exact h
    | some e => exact Deep.error
  | cons a r => exact h

end

end DS
