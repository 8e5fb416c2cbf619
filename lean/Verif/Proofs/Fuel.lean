import Verif.Proofs.NoFuel

/-
More fuel never changes a result of the parser, so the parser satisfies the (fuel-free) recursion
equations of the code.
-/
namespace DS

variable {msg : Msg}

/-- `x` ran out of fuel, or is `y` -/
def Le {α : Type} (x y : Except PFail α) : Prop := x = .error (.py .fuel) ∨ x = y

theorem Le.refl {α : Type} (x : Except PFail α) : Le x x := .inr rfl

theorem Le.bind {α β : Type} {x y : Except PFail α} {f g : α → Except PFail β} (h : Le x y)
    (hf : ∀ a, Le (f a) (g a)) : Le (x >>= f) (y >>= g) := by
  rcases h with rfl | rfl
  · exact .inl rfl
  · cases x with
    | error e => exact .inr rfl
    | ok a => exact hf a

/-- pointwise -/
def LeF {α : Type} (f g : List Tk → Res α) : Prop := ∀ s, Le (f s) (g s)

variable {sym sym' : Sym} {bad : Option PyErr} {ds ds' : List Tk → Res (Option Ty)}

theorem hlist_le {α : Type} {f g : List Tk → Res (Option α)} (h : LeF f g) (tr : Bool) (saved : List Tk) :
    ∀ n acc s, Le (hlist bad f msg tr saved n acc s) (hlist bad g msg tr saved n acc s) := by
  intro n
  induction n with
  | zero => intro acc s; exact Le.refl _
  | succ n ih =>
    intro acc s
    simp only [hlist]
    refine Le.bind (h s) ?_
    rintro ⟨x, s⟩
    cases x with
    | none => exact Le.refl _
    | some x =>
      simp only
      split
      · exact Le.bind (Le.refl _) fun s => ih _ _
      · exact Le.refl _

theorem parseList_le {α : Type} {f g : List Tk → Res (Option α)} (h : LeF f g) (tr : Bool) :
    LeF (parseList bad f msg tr) (parseList bad g msg tr) := fun s => hlist_le h tr s _ _ _

theorem parseTypeArg_le (h : LeF ds ds') : LeF (parseTypeArg bad ds) (parseTypeArg bad ds') := by
  intro s
  unfold parseTypeArg
  refine Le.bind (h s) ?_
  rintro ⟨t, s⟩
  cases t with
  | some t => exact Le.refl _
  | none =>
    simp only
    split
    · exact Le.refl _
    · exact Le.refl _
    · exact Le.refl _
    · refine Le.bind (Le.refl _) fun s => ?_
      refine Le.bind (parseList_le h false s) ?_
      rintro ⟨v, s⟩
      exact Le.refl _
    · exact Le.refl _

theorem parseTypeKwarg_le (h : LeF ds ds') : LeF (parseTypeKwarg bad ds) (parseTypeKwarg bad ds') := by
  intro s
  unfold parseTypeKwarg
  split
  · refine Le.bind (Le.refl _) fun s1 => ?_
    split
    · refine Le.bind (Le.refl _) fun s2 => ?_
      exact Le.bind (parseTypeArg_le h s2) fun _ => Le.refl _
    · exact Le.refl _
  · exact Le.refl _

theorem argLoop_le (h : LeF ds ds') : ∀ n acc s, Le (argLoop bad ds n acc s) (argLoop bad ds' n acc s) := by
  intro n
  induction n with
  | zero => intro acc s; exact Le.refl _
  | succ n ih =>
    intro acc s
    simp only [argLoop]
    refine Le.bind (parseTypeArg_le h s) ?_
    rintro ⟨x, s⟩
    cases x with
    | none =>
      simp only
      exact Le.bind (parseList_le (parseTypeKwarg_le h) false s) fun _ => Le.refl _
    | some x =>
      simp only
      split
      · exact Le.bind (Le.refl _) fun s => ih _ _
      · exact Le.refl _

theorem parseTypeArgList_le (h : LeF ds ds') : LeF (parseTypeArgList bad ds) (parseTypeArgList bad ds') :=
  fun s => argLoop_le h _ _ _

theorem parseStructField_le (h : LeF ds ds') : LeF (parseStructField bad ds) (parseStructField bad ds') := by
  intro s
  unfold parseStructField
  simp only
  split
  all_goals first
    | exact Le.refl _
    | (refine Le.bind (Le.refl _) fun s1 => ?_
       split
       · exact Le.bind (Le.refl _) fun s2 => Le.bind (h s2) fun _ => Le.refl _
       · exact Le.refl _)

/-- `x` ran out of fuel, or is `y` -/
def LeP {α : Type} (x y : Except PyErr α) : Prop := x = .error .fuel ∨ x = y

theorem LeP.refl {α : Type} (x : Except PyErr α) : LeP x x := .inr rfl

theorem LeP.bind {α β : Type} {x y : Except PyErr α} {f g : α → Except PyErr β} (h : LeP x y)
    (hf : ∀ a, LeP (f a) (g a)) : LeP (x >>= f) (y >>= g) := by
  rcases h with rfl | rfl
  · exact .inl rfl
  · cases x with
    | error e => exact .inr rfl
    | ok a => exact hf a

theorem Le.lift {α : Type} {x y : Except PyErr α} (h : LeP x y) : Le (liftPy x) (liftPy y) := by
  rcases h with rfl | rfl
  · exact .inl rfl
  · exact .inr rfl

/-- two optional constructors: both absent, or pointwise related -/
inductive LeC : Option Constr → Option Constr → Prop where
  | none : LeC none none
  | some {c c' : Constr} : (∀ a k, LeP (c a k) (c' a k)) → LeC (some c) (some c')

/-- two symbol tables that differ only in constructors that may run out of fuel -/
structure SymLe (sym sym' : Sym) : Prop where
  dtype : sym.dtype = sym'.dtype
  dim : sym.dim = sym'.dim
  dimConstr : sym.dimConstr = sym'.dimConstr
  constr : ∀ n, LeC (sym.dtypeConstr n) (sym'.dtypeConstr n)

theorem SymLe.refl (sym : Sym) : SymLe sym sym where
  dtype := rfl
  dim := rfl
  dimConstr := rfl
  constr n := by
    cases sym.dtypeConstr n with
    | none => exact .none
    | some c => exact .some fun a k => LeP.refl _

/-- calling a constructor through `syntactic_sugar` -/
theorem sugar_le {β : Type} (hS : SymLe sym sym') (n w : Str) (s : List Tk) (a : List Arg) (k : List (Str × Arg))
    (f : Ty → Except PFail β) :
    Le (do let c ← sugar sym.dtypeConstr n w s; let t ← liftPy (c a k); f t)
       (do let c ← sugar sym'.dtypeConstr n w s; let t ← liftPy (c a k); f t) := by
  have := hS.constr n
  simp only [sugar]
  generalize sym.dtypeConstr n = x at *
  generalize sym'.dtypeConstr n = y at *
  cases this with
  | none => exact Le.refl _
  | some h =>
    simp only [Bind.bind, Except.bind]
    exact Le.bind (Le.lift (h a k)) fun _ => Le.refl _

variable (hS : SymLe sym sym')
include hS

theorem parseStruct_le (h : LeF ds ds') : LeF (parseStruct sym bad ds) (parseStruct sym' bad ds') := by
  intro s
  unfold parseStruct
  refine Le.bind (Le.refl _) fun s1 => Le.bind (parseList_le (parseStructField_le h) true s1) ?_
  rintro ⟨l, s2⟩
  simp only
  split
  · exact Le.bind (Le.refl _) fun s3 => sugar_le hS _ _ _ _ _ _
  · exact Le.refl _

theorem parseParen_le (h : LeF ds ds') : LeF (parseParen sym bad ds) (parseParen sym' bad ds') := by
  intro s
  unfold parseParen
  refine Le.bind (Le.refl _) fun s1 => Le.bind (parseList_le h true s1) ?_
  rintro ⟨l, s2⟩
  simp only
  split
  · refine Le.bind (Le.refl _) fun s3 => ?_
    split
    · refine Le.bind (Le.refl _) fun s4 => Le.bind (h s4) ?_
      rintro ⟨r, s5⟩
      cases r with
      | none => exact Le.refl _
      | some r => exact sugar_le hS _ _ _ _ _ _
    · exact sugar_le hS _ _ _ _ _ _
  · exact Le.refl _

theorem parseDim_le (h : LeF ds ds') : LeF (parseDim sym bad ds) (parseDim sym' bad ds') := by
  intro s
  unfold parseDim
  rw [hS.dimConstr, hS.dim]
  split
  · exact Le.refl _
  · refine Le.bind (Le.refl _) fun s1 => ?_
    split
    · split
      · exact Le.refl _
      · exact Le.bind (Le.refl _) fun s2 => Le.bind (parseTypeArgList_le h s2) fun _ => Le.refl _
    · exact Le.refl _
  · exact Le.refl _
  · exact Le.refl _
  · exact Le.refl _

theorem parseDtype_le (h : LeF ds ds') : LeF (parseDtype sym bad ds) (parseDtype sym' bad ds') := by
  intro s
  unfold parseDtype
  rw [hS.dtype]
  split
  · exact Le.bind (Le.refl _) fun s1 => sugar_le hS _ _ _ _ _ _
  · refine Le.bind (Le.refl _) fun s1 => ?_
    rename_i nm _
    split
    · have := hS.constr nm
      generalize sym.dtypeConstr nm = x at *
      generalize sym'.dtypeConstr nm = y at *
      cases this with
      | none => exact Le.refl _
      | some hc =>
        refine Le.bind (Le.refl _) fun s2 => Le.bind (parseTypeArgList_le h s2) ?_
        rintro ⟨args, s3⟩
        simp only
        split
        · split
          · exact Le.refl _
          · exact Le.bind (Le.refl _) fun s4 => Le.bind (Le.lift (hc _ _)) fun _ => Le.refl _
        · exact Le.refl _
    · exact Le.refl _
  · exact parseStruct_le hS h _
  · exact parseParen_le hS h _
  · exact Le.refl _

theorem parseNoOption_le (h : LeF ds ds') : LeF (parseNoOption sym bad ds) (parseNoOption sym' bad ds') := by
  intro s
  unfold parseNoOption
  refine Le.bind (parseDim_le hS h s) ?_
  rintro ⟨d, s1⟩
  cases d with
  | none => exact Le.bind (parseDtype_le hS h s1) fun _ => Le.refl _
  | some d =>
    simp only
    split
    · exact Le.bind (Le.refl _) fun s2 => Le.bind (h s2) fun _ => Le.refl _
    · exact Le.bind (parseDtype_le hS h s1) fun _ => Le.refl _

theorem parseDatashapeF_le (h : LeF ds ds') : LeF (parseDatashapeF sym bad ds) (parseDatashapeF sym' bad ds') := by
  intro s
  unfold parseDatashapeF
  split
  · refine Le.bind (Le.refl _) fun s1 => Le.bind (parseNoOption_le hS h s1) ?_
    rintro ⟨t, s2⟩
    cases t with
    | none => exact Le.refl _
    | some t => exact sugar_le hS _ _ _ _ _ _
  · exact parseNoOption_le hS h s

theorem parseDatashapeN_symle (n : Nat) : LeF (parseDatashapeN sym bad n) (parseDatashapeN sym' bad n) := by
  induction n with
  | zero => intro s; exact Le.refl _
  | succ n ih => exact parseDatashapeF_le hS ih

theorem parseToks_symle (toks : List Tk) : Le (parseToks sym bad toks) (parseToks sym' bad toks) := by
  unfold parseToks
  split
  · exact Le.refl _
  · exact Le.bind (parseDatashapeN_symle hS _ _) fun _ => Le.refl _

theorem parse_symle (text : Str) : LeP (parse sym text) (parse sym' text) := by
  simp only [parse]
  rcases parseToks_symle (bad := (lex text).2) hS ((lex text).1.map (·.tk)) with h | h
  · left; rw [h]
  · right; rw [h]

omit hS

theorem parseDatashapeN_le (n : Nat) : LeF (parseDatashapeN sym bad n) (parseDatashapeN sym bad (n + 1)) := by
  induction n with
  | zero => intro s; exact .inl rfl
  | succ n ih => exact parseDatashapeF_le (SymLe.refl sym) ih

theorem parseDatashapeN_le_add (n k : Nat) (s : List Tk) :
    Le (parseDatashapeN sym bad n s) (parseDatashapeN sym bad (n + k) s) := by
  induction k with
  | zero => exact Le.refl _
  | succ k ih =>
    rcases ih with h | h
    · exact .inl h
    · rw [h]; exact parseDatashapeN_le (n + k) s

/-- enough fuel is as good as any other enough fuel -/
theorem parseDatashapeN_mono {n m : Nat} (h : n ≤ m) {s : List Tk} (hn : NF (· ≠ .fuel) (parseDatashapeN sym bad n s)) :
    parseDatashapeN sym bad n s = parseDatashapeN sym bad m s := by
  obtain ⟨k, rfl⟩ : ∃ k, m = n + k := ⟨m - n, by omega⟩
  rcases parseDatashapeN_le_add n k s with h | h
  · exact absurd rfl (hn _ h)
  · exact h

end DS
