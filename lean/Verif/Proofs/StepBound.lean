import Verif.Proofs.Steps

/-
The parser takes at most 40 steps for each token, and 20 more.
-/
namespace DS

/-- `x`, started after `c` steps, ends with a value and a number of steps that satisfy `Q`, or raises after a number of steps that
satisfies `E` -/
def Run {α : Type} (c : Nat) (x : K α) (Q : Nat → α → Prop) (E : Nat → Prop) : Prop :=
  match x.2 with
  | .ok a => Q (c + x.1.steps) a
  | .error _ => E (c + x.1.steps)

section
variable {α β : Type} {c : Nat} {Q : Nat → α → Prop} {E : Nat → Prop}

theorem Run.ok {a : α} (h : Q c a) : Run c (.ok a) Q E := h
theorem Run.error {e : PFail} (h : E c) : Run c (.error e : K α) Q E := h
theorem Run.raise {s : List Tk} {m : Msg} (h : E c) : Run c (raiseAtK s m : K α) Q E := h
theorem Run.tick {x : K α} (h : Run (c + 1) x Q E) : Run c (DS.tick x) Q E := by
  obtain ⟨⟨n, k⟩, r⟩ := x
  have e : c + (n + 1) = c + 1 + n := by omega
  cases r <;> simp only [Run, DS.tick, e] at h ⊢ <;> exact h
theorem Run.adv {b : Option PyErr} {s : List Tk} {f : List Tk → K α} (hf : ∀ s', s'.length = s.length - 1 → Run (c + 1) (f s') Q E)
    (hE : E (c + 1)) : Run c (advanceK b s >>= f) Q E := by
  have e : ∀ n, c + (1 + n) = c + 1 + n := by omega
  have : ∀ r, advance b s = r → Run c (((⟨1, 1⟩, r) : K (List Tk)) >>= f) Q E := by
    intro r hr
    cases r with
    | error p => exact hE
    | ok s' =>
      have hs : s'.length = s.length - 1 := by
        unfold advance at hr
        split at hr
        · cases hr; rfl
        · split at hr <;> cases hr; rfl
        · cases hr; rfl
      have := hf s' hs
      simp only [Run, bind, K.bind, e] at this ⊢
      exact this
  exact this _ rfl
theorem Run.lift {x : Except PyErr β} {f : β → K α} (hf : ∀ a, x = .ok a → Run c (f a) Q E) (hE : E c) :
    Run c (liftPyK x >>= f) Q E := by
  cases x with
  | error e => exact hE
  | ok a =>
    have := hf a rfl
    simp only [Run, liftPyK, liftPy, bind, K.bind, Nat.zero_add] at this ⊢
    exact this
theorem Run.sugar {t : Str → Option β} {n w : Str} {s : List Tk} {f : β → K α} (hf : ∀ a, t n = some a → Run (c + 1) (f a) Q E)
    (hE : E (c + 1)) : Run c (sugarK t n w s >>= f) Q E := by
  have e : ∀ n, c + (0 + 1 + n) = c + 1 + n := by omega
  unfold sugarK
  cases h : t n with
  | none => exact hE
  | some a =>
    have := hf a h
    simp only [Run, DS.tick, K.ok, bind, K.bind, e] at this ⊢
    exact this

/-- A method: how its results are related to its start, and how many steps it takes if it raises. -/
def Spec (f : List Tk → ResK β) (P : List Tk → Nat → β → List Tk → Prop) (B : Nat) : Prop :=
  ∀ s, Run 0 (f s) (fun n p => P s n p.1 p.2) (fun n => n ≤ 40 * s.length + B)

theorem Run.call' {x : ResK β} {Q' : Nat → β × List Tk → Prop} {E' : Nat → Prop} {g : β × List Tk → K α}
    (h : Run 0 x Q' E') (hf : ∀ n v s', Q' n (v, s') → Run (c + n) (g (v, s')) Q E)
    (hE : ∀ n, E' n → E (c + n)) : Run c (x >>= g) Q E := by
  obtain ⟨⟨n, k⟩, r⟩ := x
  cases r with
  | error e =>
    have := hE _ h
    simpa [Run, bind, K.bind] using this
  | ok p =>
    have := hf _ p.1 p.2 h
    simp only [Run, bind, K.bind, Nat.zero_add, Nat.add_assoc] at this ⊢
    exact this
theorem Run.call {f : List Tk → ResK β} {P : List Tk → Nat → β → List Tk → Prop} {B : Nat} {s : List Tk} {g : β × List Tk → K α}
    (h : Spec f P B) (hf : ∀ n v s', P s n v s' → Run (c + n) (g (v, s')) Q E)
    (hE : ∀ n, n ≤ 40 * s.length + B → E (c + n)) : Run c (f s >>= g) Q E := Run.call' (h s) hf hE
/-- a call in tail position -/
theorem Run.last {x : K α} {Q' : Nat → α → Prop} {E' : Nat → Prop} (h : Run 0 x Q' E')
    (hf : ∀ n v, Q' n v → Q (c + n) v) (hE : ∀ n, E' n → E (c + n)) : Run c x Q E := by
  obtain ⟨⟨n, k⟩, r⟩ := x
  cases r with
  | error e => simpa [Run] using hE _ h
  | ok p => simpa [Run] using hf _ _ h

end

/-- An item is found, in at most 40 steps for each of its tokens less `k`, or after at most `B` steps none. -/
def ItemP (B k : Nat) {α : Type} (s : List Tk) (n : Nat) (v : Option α) (s' : List Tk) : Prop :=
  match v with
  | some _ => s'.length < s.length ∧ n + k + 40 * s'.length ≤ 40 * s.length
  | none => s'.length ≤ s.length ∧ n ≤ B
/-- a dimension is found or none, after at most four steps -/
def DimP (s : List Tk) (n : Nat) (v : Option Ty) (s' : List Tk) : Prop :=
  match v with
  | some _ => s'.length < s.length ∧ n ≤ 4
  | none => s'.length ≤ s.length ∧ n ≤ 4
/-- as many steps as 40 for each token that is read and `B` more -/
def ReadP (B : Nat) {α : Type} (s : List Tk) (n : Nat) (_ : α) (s' : List Tk) : Prop :=
  s'.length ≤ s.length ∧ n + 40 * s'.length ≤ 40 * s.length + B
/-- a datashape is found, which is true -/
def TypeP (B k : Nat) (s : List Tk) (n : Nat) (v : Option Ty) (s' : List Tk) : Prop :=
  ItemP B k s n v s' ∧ ∀ t, v = some t → truthy t = true

theorem head_pos {s : List Tk} {t : Tk} (h : s.head? = some t) : 0 < s.length := by
  cases s <;> simp_all

section
variable {b : Option PyErr} {sym : Sym} {ds : List Tk → ResK (Option Ty)} {msg : Msg} {B k : Nat}

theorem hlist_bound {α : Type} {f : List Tk → ResK (Option α)} (h : Spec f (ItemP B k) B) (tr : Bool) (saved : List Tk) :
    ∀ n acc s, (acc = [] → saved.length ≤ s.length) →
    Run 0 (hlistK b f msg tr saved n acc s) (fun n p => ReadP B s n p.1 p.2) (fun n => n ≤ 40 * s.length + B) := by
  intro n
  induction n with
  | zero => intro acc s r; exact Run.error (by omega)
  | succ n ih =>
    intro acc s r
    simp only [hlistK]
    refine Run.call h (fun n v s' hv => ?_) (by intros; (try dsimp only at *); omega)
    cases v with
    | some x =>
      simp only [ItemP] at hv
      by_cases hc : s'.head? = some .comma
      · have := head_pos hc
        simp only [hc, ite_true]
        refine Run.adv (fun s2 h2 => Run.last (ih _ _ (by simp)) ?_ ?_) (by omega)
        · intro n v hv; simp only [ReadP] at hv ⊢; omega
        · intro n hn; omega
      · simp only [hc, ite_false]
        exact Run.ok (by simp only [ReadP]; omega)
    | none =>
      simp only [ItemP] at hv
      cases acc with
      | nil => exact Run.ok (by have := r rfl; simp only [ReadP]; omega)
      | cons a l =>
        cases tr
        · exact Run.raise (by omega)
        · exact Run.ok (by simp only [ReadP]; omega)

theorem parseList_bound {α : Type} {f : List Tk → ResK (Option α)} (h : Spec f (ItemP B k) B) (tr : Bool) :
    Spec (parseListK b f msg tr) (ReadP (B + 1)) (B + 1) := by
  intro s
  refine Run.tick (Run.last (hlist_bound h tr s _ [] s (fun _ => Nat.le_refl _)) ?_ ?_)
  · intro n v hv; simp only [ReadP] at hv ⊢; omega
  · intro n hn; omega

/-- a list behind the method for its kind of items -/
theorem listOf_bound {α : Type} {f : List Tk → ResK (Option α)} (h : Spec f (ItemP B k) B) (tr : Bool) :
    Spec (fun s => tick (parseListK b f msg tr s)) (ReadP (B + 2)) (B + 2) := by
  intro s
  refine Run.tick (Run.last (parseList_bound h tr s) ?_ ?_)
  · intro n v hv; simp only [ReadP] at hv ⊢; omega
  · intro n hn; omega

theorem parseLit_bound : Spec (parseIntegerK b) (ItemP 2 4) 2 ∧ Spec (parseStringK b) (ItemP 2 4) 2 ∧ Spec (parseBooleanK b) (ItemP 2 4) 2 := by
  refine ⟨?_, ?_, ?_⟩
  all_goals
    intro s
    refine Run.tick ?_
    split
    · refine Run.adv (fun s' h' => Run.ok ?_) (by simp only [List.length_cons]; omega)
      simp only [ItemP, List.length_cons] at h' ⊢; omega
    · exact Run.ok (by simp only [ItemP]; omega)

theorem parseTypeArg_bound (h : Spec ds (ItemP 16 5) 16) : Spec (parseTypeArgK b ds) (ItemP 18 4) 18 := by
  intro s
  refine Run.tick (Run.call h (fun n v s1 hv => ?_) (by intros; (try dsimp only at *); omega))
  cases v with
  | some t => exact Run.ok (by simp only [ItemP] at hv ⊢; omega)
  | none =>
    simp only [ItemP] at hv
    cases s1 with
    | nil => exact Run.ok (by simp only [ItemP]; omega)
    | cons t s1 =>
    simp only [List.length_cons] at hv
    cases t
    case lbrack =>
      refine Run.adv (fun s2 h2 => ?_) (by omega)
      simp only [List.length_cons] at h2
      refine Run.call (listOf_bound h false) (fun n2 v s3 h3 => ?_) (by intros; (try dsimp only at *); omega)
      simp only [ReadP] at h3
      refine Run.call' (Q' := fun n p => p.2.length ≤ s3.length ∧ n + 40 * p.2.length ≤ 40 * s3.length + 12)
        (E' := fun n => n ≤ 40 * s3.length + 12) ?_ (fun n v s4 h4 => ?_) (by intros; (try dsimp only at *); omega)
      rotate_left
      dsimp only at h4
      rotate_right
      · cases v with
        | some l => exact Run.ok (by simp only; omega)
        | none =>
          refine Run.call (listOf_bound parseLit_bound.1 false) (fun n3 v s4 h4 => ?_) (by intros; (try dsimp only at *); omega)
          simp only [ReadP] at h4
          cases v with
          | some l => exact Run.ok (by simp only; omega)
          | none =>
            refine Run.call (listOf_bound parseLit_bound.2.1 false) (fun n4 v s5 h5 => ?_) (by intros; (try dsimp only at *); omega)
            simp only [ReadP] at h5
            cases v with
            | some l => exact Run.ok (by simp only; omega)
            | none =>
              refine Run.call (listOf_bound parseLit_bound.2.2 false) (fun n5 v s6 h6 => ?_) (by intros; (try dsimp only at *); omega)
              simp only [ReadP] at h6
              exact Run.ok (by simp only; omega)
      · by_cases hc : s4.head? = some .rbrack
        · have := head_pos hc
          simp only [hc, ite_true]
          exact Run.adv (fun s5 h5 => Run.ok (by simp only [ItemP]; omega)) (by omega)
        · simp only [hc, ite_false]
          exact Run.raise (by omega)
    all_goals first
      | exact Run.ok (by simp only [ItemP, List.length_cons]; omega)
      | exact Run.adv (fun _ h2 => Run.ok (by simp only [ItemP, List.length_cons] at h2 ⊢; omega)) (by omega)

theorem parseTypeKwarg_bound (h : Spec ds (ItemP 16 5) 16) : Spec (parseTypeKwargK b ds) (ItemP 2 4) 2 := by
  intro s
  refine Run.tick ?_
  cases s with
  | nil => exact Run.ok (by simp only [ItemP, List.length_nil]; omega)
  | cons t s =>
  cases t
  case lower n =>
    refine Run.adv (fun s1 h1 => ?_) (by simp only [List.length_cons]; omega)
    simp only [List.length_cons] at h1
    by_cases hc : s1.head? = some .equal
    · have := head_pos hc
      simp only [hc, ite_true]
      refine Run.adv (fun s2 h2 => ?_) (by simp only [List.length_cons]; omega)
      refine Run.call (parseTypeArg_bound h) (fun n v s3 h3 => ?_) (by intros; simp only [List.length_cons]; omega)
      cases v with
      | none => exact Run.raise (by simp only [ItemP, List.length_cons] at h3 ⊢; omega)
      | some a => exact Run.ok (by simp only [ItemP, List.length_cons] at h3 ⊢; omega)
    · simp only [hc, ite_false]
      exact Run.ok (by simp only [ItemP]; omega)
  all_goals exact Run.ok (by simp only [ItemP]; omega)

theorem argLoop_bound (h : Spec ds (ItemP 16 5) 16) : ∀ n acc s,
    Run 0 (argLoopK b ds n acc s) (fun n p => ReadP 21 s n p.1 p.2) (fun n => n ≤ 40 * s.length + 21) := by
  intro n
  induction n with
  | zero => intro acc s; exact Run.error (by omega)
  | succ n ih =>
    intro acc s
    simp only [argLoopK]
    refine Run.call (parseTypeArg_bound h) (fun n v s1 hv => ?_) (by intros; (try dsimp only at *); omega)
    cases v with
    | some a =>
      simp only [ItemP] at hv
      by_cases hc : s1.head? = some .comma
      · have := head_pos hc
        simp only [hc, ite_true]
        refine Run.adv (fun s2 h2 => Run.last (ih _ _) ?_ ?_) (by omega)
        · intro n v hv; simp only [ReadP] at hv ⊢; omega
        · intro n hn; omega
      · simp only [hc, ite_false]
        exact Run.ok (by simp only [ReadP]; omega)
    | none =>
      simp only [ItemP] at hv
      refine Run.call (parseList_bound (parseTypeKwarg_bound h) false) (fun n v s2 h2 => ?_) (by intros; (try dsimp only at *); omega)
      exact Run.ok (by simp only [ReadP] at h2 ⊢; omega)

theorem parseTypeArgList_bound (h : Spec ds (ItemP 16 5) 16) : Spec (parseTypeArgListK b ds) (ReadP 22) 22 := by
  intro s
  refine Run.tick (Run.last (argLoop_bound h _ _ s) ?_ ?_)
  · intro n v hv; simp only [ReadP] at hv ⊢; omega
  · intro n hn; omega

theorem parseStructField_bound (h : Spec ds (ItemP 16 5) 16) : Spec (parseStructFieldK b ds) (ItemP 1 4) 1 := by
  intro s
  refine Run.tick ?_
  cases s with
  | nil => exact Run.ok (by simp only [ItemP, List.length_nil]; omega)
  | cons t s =>
  cases t
  all_goals first
    | exact Run.ok (by simp only [ItemP]; omega)
    | (refine Run.adv (fun s1 h1 => ?_) (by simp only [List.length_cons]; omega)
       simp only [List.length_cons] at h1
       by_cases hc : s1.head? = some .colon
       · have := head_pos hc
         simp only [hc, ite_true]
         refine Run.adv (fun s2 h2 => Run.call h (fun n v s3 h3 => ?_) (by intros; simp only [List.length_cons]; omega))
           (by simp only [List.length_cons]; omega)
         cases v with
         | none => exact Run.raise (by simp only [ItemP, List.length_cons] at h3 ⊢; omega)
         | some a => exact Run.ok (by simp only [ItemP, List.length_cons] at h3 ⊢; omega)
       · simp only [hc, ite_false]
         exact Run.raise (by simp only [List.length_cons]; omega))

variable (hT : sym.Truthy)
include hT

theorem parseStruct_bound (h : Spec ds (ItemP 16 5) 16) (s : List Tk) (hs : 0 < s.length) :
    Run 0 (parseStructK sym b ds s) (fun n p => (TypeP 0 12 s (n + 1) p.1 p.2)) (fun n => n + 10 ≤ 40 * s.length) := by
  unfold parseStructK
  refine Run.tick (Run.adv (fun s1 h1 => ?_) (by omega))
  refine Run.call (parseList_bound (parseStructField_bound h) true) (fun n v s2 h2 => ?_) (by intros; (try dsimp only at *); omega)
  simp only [ReadP] at h2
  by_cases hc : s2.head? = some .rbrace
  · have := head_pos hc
    simp only [hc, ite_true]
    refine Run.adv (fun s3 h3 => Run.sugar (fun c hc => Run.lift (fun t ht => Run.ok ?_) (by omega)) (by omega)) (by omega)
    refine ⟨?_, fun t' e => ?_⟩
    · simp only [ItemP]; omega
    · cases e; exact hT.constr _ _ _ _ _ hc ht
  · simp only [hc, ite_false]
    exact Run.raise (by omega)

theorem parseParen_bound (h : Spec ds (ItemP 16 5) 16) (s : List Tk) (hs : 0 < s.length) :
    Run 0 (parseParenK sym b ds s) (fun n p => (TypeP 0 12 s (n + 1) p.1 p.2)) (fun n => n + 10 ≤ 40 * s.length) := by
  unfold parseParenK
  refine Run.tick (Run.adv (fun s1 h1 => ?_) (by omega))
  refine Run.call (parseList_bound h true) (fun n v s2 h2 => ?_) (by intros; (try dsimp only at *); omega)
  simp only [ReadP] at h2
  by_cases hc : s2.head? = some .rparen
  · have := head_pos hc
    simp only [hc, ite_true]
    refine Run.adv (fun s3 h3 => ?_) (by omega)
    by_cases hc : s3.head? = some .rarrow
    · have := head_pos hc
      simp only [hc, ite_true]
      refine Run.adv (fun s4 h4 => Run.call h (fun n v s5 h5 => ?_) (by intros; (try dsimp only at *); omega)) (by omega)
      cases v with
      | none => exact Run.raise (by simp only [ItemP] at h5; omega)
      | some a =>
        simp only [ItemP] at h5
        refine Run.sugar (fun c hc => Run.lift (fun t ht => Run.ok ?_) (by omega)) (by omega)
        refine ⟨?_, fun t' e => ?_⟩
        · simp only [ItemP]; omega
        · cases e; exact hT.constr _ _ _ _ _ hc ht
    · simp only [hc, ite_false]
      refine Run.sugar (fun c hc => Run.lift (fun t ht => Run.ok ?_) (by omega)) (by omega)
      refine ⟨?_, fun t' e => ?_⟩
      · simp only [ItemP]; omega
      · cases e; exact hT.constr _ _ _ _ _ hc ht
  · simp only [hc, ite_false]
    exact Run.raise (by omega)

omit hT in
theorem parseDim_bound (h : Spec ds (ItemP 16 5) 16) : Spec (parseDimK sym b ds) DimP 4 := by
  intro s
  refine Run.tick ?_
  cases s with
  | nil => exact Run.ok (by simp only [DimP, List.length_nil]; omega)
  | cons t s =>
  cases t
  case upper v =>
    refine Run.adv (fun s1 h1 => ?_) (by omega)
    simp only [List.length_cons] at h1
    by_cases hc : s1.head? = some .ellipsis
    · simp only [hc, ite_true]
      refine Run.adv (fun s2 h2 => Run.sugar (fun c _ => Run.lift (fun t _ => Run.ok ?_) (by omega)) (by omega)) (by omega)
      simp only [DimP, List.length_cons]; omega
    · simp only [hc, ite_false]
      by_cases hc : s1.head? = some .star
      · simp only [hc, ite_true]
        refine Run.sugar (fun c _ => Run.lift (fun t _ => Run.ok ?_) (by omega)) (by omega)
        simp only [DimP, List.length_cons]; omega
      · simp only [hc, ite_false]
        exact Run.ok (by simp only [DimP]; omega)
  case lower v =>
    refine Run.adv (fun s1 h1 => ?_) (by omega)
    simp only [List.length_cons] at h1
    by_cases hc : s1.head? = some .lbrack
    · have := head_pos hc
      simp only [hc, ite_true]
      cases sym.dimConstr v with
      | none => exact Run.ok (by simp only [DimP]; omega)
      | some c =>
        refine Run.adv (fun s2 h2 => Run.call (parseTypeArgList_bound h) (fun n v s3 h3 => ?_)
          (by intros; simp only [List.length_cons]; omega)) (by omega)
        simp only [ReadP] at h3
        by_cases hc : s3.head? = some .rbrack
        · simp only [hc, ite_true]
          exact Run.adv (fun s4 h4 => Run.error (by simp only [List.length_cons]; omega)) (by simp only [List.length_cons]; omega)
        · simp only [hc, ite_false]
          exact Run.raise (by simp only [List.length_cons]; omega)
    · simp only [hc, ite_false]
      cases sym.dim v with
      | none => exact Run.ok (by simp only [DimP]; omega)
      | some c => exact Run.ok (by simp only [DimP, List.length_cons]; omega)
  case int v =>
    refine Run.adv (fun s1 h1 => ?_) (by omega)
    simp only [List.length_cons] at h1
    by_cases hc : s1.head? = some .star
    · simp only [hc, ite_true]
      refine Run.sugar (fun c _ => Run.lift (fun t _ => Run.ok ?_) (by omega)) (by omega)
      simp only [DimP, List.length_cons]; omega
    · simp only [hc, ite_false]
      exact Run.ok (by simp only [DimP]; omega)
  case ellipsis =>
    refine Run.adv (fun s1 h1 => Run.sugar (fun c _ => Run.ok ?_) (by omega)) (by omega)
    simp only [DimP, List.length_cons] at h1 ⊢; omega
  all_goals exact Run.ok (by simp only [DimP]; omega)

theorem parseDtype_bound (h : Spec ds (ItemP 16 5) 16) : Spec (parseDtypeK sym b ds) (TypeP 2 12) 3 := by
  intro s
  refine Run.tick ?_
  have no : ∀ {c : Nat} {s' : List Tk}, s'.length ≤ s.length → c ≤ 2 → TypeP 2 12 s c none s' := fun h1 h2 => ⟨⟨h1, h2⟩, nofun⟩
  cases s with
  | nil => exact Run.ok (no (Nat.le_refl _) (by omega))
  | cons t s =>
  cases t
  case upper v =>
    refine Run.adv (fun s1 h1 => Run.sugar (fun c hc => Run.lift (fun t ht => Run.ok ?_) (by omega)) (by omega)) (by omega)
    refine ⟨?_, fun t' e => ?_⟩
    · simp only [ItemP, List.length_cons] at h1 ⊢; omega
    · cases e; exact hT.constr _ _ _ _ _ hc ht
  case lower v =>
    refine Run.adv (fun s1 h1 => ?_) (by omega)
    simp only [List.length_cons] at h1
    by_cases hc : s1.head? = some .lbrack
    · have := head_pos hc
      simp only [hc, ite_true]
      cases hcc : sym.dtypeConstr v with
      | none => exact Run.ok (no (Nat.le_refl _) (by omega))
      | some c =>
        refine Run.adv (fun s2 h2 => Run.call (parseTypeArgList_bound h) (fun n v s3 h3 => ?_)
          (by intros; simp only [List.length_cons]; omega)) (by omega)
        simp only [ReadP] at h3
        by_cases hc : s3.head? = some .rbrack
        · have := head_pos hc
          simp only [hc, ite_true]
          cases v.1.isEmpty && v.2.isEmpty
          · refine Run.adv (fun s4 h4 => Run.lift (fun t ht => Run.ok ?_) (by simp only [List.length_cons]; omega))
              (by simp only [List.length_cons]; omega)
            refine ⟨?_, fun t' e => ?_⟩
            · simp only [ItemP, List.length_cons]; omega
            · cases e; exact hT.constr _ _ _ _ _ hcc ht
          · exact Run.raise (by simp only [List.length_cons]; omega)
        · simp only [hc, ite_false]
          exact Run.raise (by simp only [List.length_cons]; omega)
    · simp only [hc, ite_false]
      cases hd : sym.dtype v with
      | none => exact Run.ok (no (Nat.le_refl _) (by omega))
      | some c =>
        refine Run.ok ⟨?_, fun t' e => ?_⟩
        · simp only [ItemP, List.length_cons]; omega
        · cases e; exact hT.dtype _ _ hd
  case lbrace =>
    refine Run.last (parseStruct_bound hT h _ (by simp)) (fun n v hv => ?_) (by intros; (try dsimp only at *); omega)
    rw [Nat.add_comm]
    exact ⟨by have := hv.1; revert this; cases v.1 <;> simp only [ItemP] <;> omega, hv.2⟩
  case lparen =>
    refine Run.last (parseParen_bound hT h _ (by simp)) (fun n v hv => ?_) (by intros; (try dsimp only at *); omega)
    rw [Nat.add_comm]
    exact ⟨by have := hv.1; revert this; cases v.1 <;> simp only [ItemP] <;> omega, hv.2⟩
  all_goals exact Run.ok (no (Nat.le_refl _) (by omega))

theorem parseNoOption_bound (h : Spec ds (ItemP 16 5) 16) : Spec (parseNoOptionK sym b ds) (ItemP 7 6) 8 := by
  intro s
  unfold parseNoOptionK
  refine Run.tick (Run.call (parseDim_bound h) (fun n d s1 h1 => ?_) (by intros; (try dsimp only at *); omega))
  have h1' : s1.length ≤ s.length ∧ n ≤ 4 := by
    cases d <;> simp only [DimP] at h1 <;> omega
  have tail : Run (0 + 1 + n) (do
      let (t, s2) ← parseDtypeK sym b ds s1
      match t with
      | some t => if truthy t then do let r ← liftPyK (mkDS [t]); .ok (some r, s2) else .ok (none, s2)
      | none => .ok (none, s2) : ResK (Option Ty)) (fun n p => ItemP 7 6 s n p.1 p.2) (fun n => n ≤ 40 * s.length + 8) := by
    refine Run.call (parseDtype_bound hT h) (fun n2 v s2 h2 => ?_) (by intros; (try dsimp only at *); omega)
    obtain ⟨h2, h3⟩ := h2
    cases v with
    | none => exact Run.ok (by simp only [ItemP] at h2 ⊢; omega)
    | some t =>
      simp only [ItemP] at h2
      simp only [h3 t rfl, ite_true]
      refine Run.lift (fun r _ => Run.ok ?_) (by omega)
      simp only [ItemP]
      have : n ≤ 4 := h1'.2
      omega
  cases d with
  | none => exact tail
  | some d =>
    simp only [DimP] at h1
    by_cases hc : s1.head? = some .star
    · have := head_pos hc
      simp only [hc, ite_true]
      refine Run.adv (fun s2 h2 => Run.call h (fun n v s3 h3 => ?_) (by intros; (try dsimp only at *); omega)) (by omega)
      cases v with
      | none => exact Run.raise (by simp only [ItemP] at h3; omega)
      | some t =>
        simp only [ItemP] at h3
        exact Run.lift (fun r _ => Run.ok (by simp only [ItemP]; omega)) (by omega)
    · simp only [hc, ite_false]
      exact tail

theorem parseDatashapeF_bound (h : Spec ds (ItemP 16 5) 16) : Spec (parseDatashapeFK sym b ds) (ItemP 16 5) 16 := by
  intro s
  refine Run.tick ?_
  have other : Run (0 + 1) (parseNoOptionK sym b ds s) (fun n p => ItemP 16 5 s n p.1 p.2) (fun n => n ≤ 40 * s.length + 16) := by
    refine Run.last (parseNoOption_bound hT h s) (fun n v hv => ?_) (by intros; (try dsimp only at *); omega)
    revert hv
    cases v.1 <;> simp only [ItemP] <;> omega
  cases s with
  | nil => exact other
  | cons t s =>
  cases t
  case qmark =>
    refine Run.adv (fun s1 h1 => Run.call (parseNoOption_bound hT h) (fun n v s2 h2 => ?_)
      (by intros; simp only [List.length_cons] at *; omega)) (by omega)
    simp only [List.length_cons] at h1
    cases v with
    | none => exact Run.ok (by simp only [ItemP, List.length_cons] at h2 ⊢; omega)
    | some t =>
      simp only [ItemP] at h2
      refine Run.sugar (fun _ _ => Run.lift (fun _ _ => Run.lift (fun _ _ => Run.ok ?_) ?_) ?_) ?_ <;>
        simp only [ItemP, List.length_cons] <;> omega
  all_goals exact other

theorem parseDatashapeN_bound : ∀ n, Spec (parseDatashapeNK sym b n) (ItemP 16 5) 16 := by
  intro n
  induction n with
  | zero => intro s; exact Run.error (by omega)
  | succ n ih => exact parseDatashapeF_bound hT ih

theorem parseToks_bound (toks : List Tk) : (parseToksK sym b toks).1.steps ≤ 40 * toks.length + 17 := by
  have h : Run 0 (parseToksK sym b toks) (fun n _ => n ≤ 40 * toks.length + 17) (fun n => n ≤ 40 * toks.length + 17) := by
    have h : Run (0 + 1) (parseDatashapeK sym b toks >>= fun p => match p.1 with
        | none => raiseAtK p.2 .invalid
        | some t => if p.2.isEmpty then .ok t else raiseAtK p.2 .more : K Ty)
        (fun n _ => n ≤ 40 * toks.length + 17) (fun n => n ≤ 40 * toks.length + 17) := by
      refine Run.call (f := parseDatashapeK sym b) (fun s => parseDatashapeN_bound hT (s.length + 1) s) (fun n v s h => ?_) (by intros; (try dsimp only at *); omega)
      cases v with
      | none => exact Run.raise (by simp only [ItemP] at h; omega)
      | some t =>
        simp only [ItemP] at h
        cases s with
        | nil => exact Run.ok (by simp only [List.length_nil] at h; omega)
        | cons => exact Run.raise (by omega)
    refine Run.tick ?_
    cases toks with
    | nil => cases b with
      | none => exact h
      | some e => exact Run.error (by omega)
    | cons a r => exact h
  unfold Run at h
  split at h <;> simpa using h

end

end DS
