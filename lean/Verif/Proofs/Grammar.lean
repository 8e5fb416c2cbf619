import Verif.Spec.Grammar

set_option linter.unusedSimpArgs false
namespace DS

variable {msg : Msg}

theorem bind_ok {ε α β : Type} {x : Except ε α} {f : α → Except ε β} {y : β} :
    (x >>= f) = .ok y ↔ ∃ a, x = .ok a ∧ f a = .ok y := by
  cases x <;> simp [bind, Except.bind]

theorem raiseAt_ok {α : Type} {s : List Tk} {x : α} : raiseAt s msg = .ok x ↔ False := by simp [raiseAt]

theorem liftPy_ok {α : Type} {x : Except PyErr α} {y : α} : liftPy x = .ok y ↔ x = .ok y := by
  cases x <;> simp [liftPy]

theorem sugar_ok {α : Type} {e : Str → Option α} {n w : Str} {s : List Tk} {y : α} : sugar e n w s = .ok y ↔ e n = some y := by
  cases h : e n <;> simp [sugar, h, raiseAt]

theorem advance_ok {bad : Option PyErr} {x : Tk} {s s' : List Tk} (h : advance bad (x :: s) = .ok s') : s' = s := by
  cases s with
  | nil => cases bad <;> simp [advance] at h; exact h
  | cons => simp [advance] at h; exact h.symm

theorem advance_head {bad : Option PyErr} {x : Tk} {s s' : List Tk} (hd : s.head? = some x)
    (h : advance bad s = .ok s') : s = x :: s' := by
  cases s with
  | nil => simp at hd
  | cons y s => simp at hd; subst hd; rw [advance_ok h]

/-- items separated by commas -/
inductive SepBy {α : Type} (P : List Tk → α → Prop) : List Tk → List α → Prop where
  | one {ts x} : P ts x → SepBy P ts [x]
  | cons {ts x us l} : P ts x → SepBy P us l → SepBy P (ts ++ .comma :: us) (x :: l)

/-- `P v` if the result is `some v`, `Q` if it is `none`. -/
def Out {α : Type} (x : Option α) (P : α → Prop) (Q : Prop) : Prop :=
  match x with
  | some v => P v
  | none => Q

@[simp] theorem out_some {α : Type} {v : α} {P : α → Prop} {Q : Prop} : Out (some v) P Q = P v := rfl
@[simp] theorem out_none {α : Type} {P : α → Prop} {Q : Prop} : Out none P Q = Q := rfl

/-- What a parsing function returns: a value derived from the consumed tokens, or nothing after skipped tokens. -/
def Sound {α : Type} (P : List Tk → α → Prop) (J : List Tk → List Tk → Prop) (item : List Tk → Res (Option α)) : Prop :=
  ∀ s x s', item s = .ok (x, s') →
    Out x (fun v => ∃ ts, s = ts ++ s' ∧ P ts v) (∃ j, s = j ++ s' ∧ J j s')

theorem hlist_sound {α : Type} {P : List Tk → α → Prop} {J : List Tk → List Tk → Prop} {bad : Option PyErr}
    {item : List Tk → Res (Option α)} (hi : Sound P J item) (trailing : Bool) (saved : List Tk) :
    ∀ (fuel : Nat) (acc : List α) (s : List Tk) (r : Option (List α)) (s' : List Tk),
      hlist bad item msg trailing saved fuel acc s = .ok (r, s') →
      Out r (fun l => ∃ ys, l = acc ++ ys ∧ ((∃ ts, SepBy P ts ys ∧
            (s = ts ++ s' ∨ (trailing = true ∧ ∃ j, J j s' ∧ s = ts ++ .comma :: j ++ s'))) ∨
          (ys = [] ∧ trailing = true ∧ acc ≠ [] ∧ ∃ j, J j s' ∧ s = j ++ s'))) (acc = [] ∧ s' = saved) := by
  intro fuel
  induction fuel with
  | zero => intro acc s r s' h; simp [hlist] at h
  | succ fuel ih =>
    intro acc s r s' h
    simp only [hlist, bind_ok] at h
    obtain ⟨⟨x, s1⟩, h1, h2⟩ := h
    have hs := hi s x s1 h1
    cases x with
    | none =>
      simp only [out_some, out_none] at h2 hs
      split at h2
      · rename_i he
        simp at h2 he
        obtain ⟨rfl, rfl⟩ := h2
        exact ⟨he, rfl⟩
      · rename_i he
        split at h2
        · rename_i ht
          simp at h2 he
          obtain ⟨rfl, rfl⟩ := h2
          exact ⟨[], by simp, .inr ⟨rfl, ht, he, hs.imp fun j hj => ⟨hj.2, hj.1⟩⟩⟩
        · simp [raiseAt] at h2
    | some v =>
      simp only [out_some, out_none] at h2 hs
      obtain ⟨ts, e, hp⟩ := hs
      split at h2
      · rename_i hc
        simp only [bind_ok] at h2
        obtain ⟨s2, ha, h2⟩ := h2
        have e2 := advance_head hc ha
        have := ih (acc ++ [v]) s2 r s' h2
        cases r with
        | none => simp at this
        | some l =>
          simp only [out_some, out_none] at this ⊢
          obtain ⟨ys, el, hcase⟩ := this
          refine ⟨v :: ys, by simp [el], .inl ?_⟩
          rcases hcase with ⟨us, hu, hcase⟩ | ⟨rfl, ht, _, j, hj, ej⟩
          · refine ⟨ts ++ .comma :: us, .cons hp hu, ?_⟩
            rcases hcase with e3 | ⟨ht, j, hj, e3⟩
            · left; rw [e, e2, e3]; simp
            · right; exact ⟨ht, j, hj, by rw [e, e2, e3]; simp⟩
          · exact ⟨ts, .one hp, .inr ⟨ht, j, hj, by rw [e, e2, ej]; simp⟩⟩
      · simp at h2
        obtain ⟨rfl, rfl⟩ := h2
        exact ⟨[v], rfl, .inl ⟨ts, .one hp, .inl e⟩⟩

theorem parseList_sound {α : Type} {P : List Tk → α → Prop} {J : List Tk → List Tk → Prop} {bad : Option PyErr}
    {item : List Tk → Res (Option α)} (hi : Sound P J item) (trailing : Bool)
    {s : List Tk} {r : Option (List α)} {s' : List Tk} (h : parseList bad item msg trailing s = .ok (r, s')) :
    Out r (fun l => ∃ ts, SepBy P ts l ∧
        (s = ts ++ s' ∨ (trailing = true ∧ ∃ j, J j s' ∧ s = ts ++ .comma :: j ++ s'))) (s' = s) := by
  have := hlist_sound hi trailing s _ _ _ _ _ h
  cases r with
  | none => exact this.2
  | some l =>
    simp only [out_some, out_none] at this ⊢
    obtain ⟨ys, e, h⟩ := this
    simp at e; subst e
    rcases h with h | h
    · exact h
    · exact absurd rfl h.2.2.1

section
variable {sym : Sym} {bad : Option PyErr}

/-- `parse_datashape` is sound -/
abbrev SoundDs (sym : Sym) (ds : List Tk → Res (Option Ty)) : Prop :=
  Sound (fun ts t => G sym true .datashape ts t)
    (fun j s' => Junk sym true j ∧ (s'.head? = some .lbrack → ∀ n, j.getLast? ≠ some (.lower n))) ds

theorem parseLit_sound {k : Lit → Prop} {f : List Tk → Res (Option Lit)}
    (h : ∀ s x s', f s = .ok (x, s') → (∃ l, x = some l ∧ k l ∧ s = l.tok :: s') ∨ (x = none ∧ s' = s)) :
    Sound (fun ts l => ts = [Lit.tok l] ∧ k l) (fun j _ => j = []) f := by
  intro s x s' hx
  rcases h s x s' hx with ⟨l, rfl, hk, e⟩ | ⟨rfl, e⟩
  · exact ⟨[l.tok], by simp [e], rfl, hk⟩
  · exact ⟨[], by simp [e], rfl⟩

theorem parseInteger_sound :
    Sound (fun ts l => ts = [Lit.tok l] ∧ ∃ i, l = .int i) (fun j _ => j = []) (parseInteger bad) := by
  apply parseLit_sound
  intro s x s' h
  unfold parseInteger at h
  split at h
  · rename_i i r
    simp only [bind_ok] at h
    obtain ⟨s1, ha, h⟩ := h
    have := advance_ok ha; subst this
    simp at h; obtain ⟨rfl, rfl⟩ := h
    exact .inl ⟨_, rfl, ⟨_, rfl⟩, rfl⟩
  · simp at h; obtain ⟨rfl, rfl⟩ := h; exact .inr ⟨rfl, rfl⟩

theorem parseString_sound :
    Sound (fun ts l => ts = [Lit.tok l] ∧ ∃ i, l = .str i) (fun j _ => j = []) (parseString bad) := by
  apply parseLit_sound
  intro s x s' h
  unfold parseString at h
  split at h
  · rename_i i r
    simp only [bind_ok] at h
    obtain ⟨s1, ha, h⟩ := h
    have := advance_ok ha; subst this
    simp at h; obtain ⟨rfl, rfl⟩ := h
    exact .inl ⟨_, rfl, ⟨_, rfl⟩, rfl⟩
  · simp at h; obtain ⟨rfl, rfl⟩ := h; exact .inr ⟨rfl, rfl⟩

theorem parseBoolean_sound :
    Sound (fun ts l => ts = [Lit.tok l] ∧ ∃ i, l = .bool i) (fun j _ => j = []) (parseBoolean bad) := by
  apply parseLit_sound
  intro s x s' h
  unfold parseBoolean at h
  split at h
  · rename_i i r
    simp only [bind_ok] at h
    obtain ⟨s1, ha, h⟩ := h
    have := advance_ok ha; subst this
    simp at h; obtain ⟨rfl, rfl⟩ := h
    exact .inl ⟨_, rfl, ⟨_, rfl⟩, rfl⟩
  · simp at h; obtain ⟨rfl, rfl⟩ := h; exact .inr ⟨rfl, rfl⟩

theorem sepBy_ne {α : Type} {P : List Tk → α → Prop} {ts : List Tk} {l : List α} (h : SepBy P ts l) : l ≠ [] := by
  cases h <;> simp

theorem sepBy_lits {β : Type} {k : β → Lit} {ts : List Tk} {l : List Lit}
    (h : SepBy (fun ts l => ts = [Lit.tok l] ∧ ∃ i, l = k i) ts l) :
    ts = commas (l.map Lit.tok) ∧ ∃ is : List β, l = is.map k := by
  induction h with
  | one h => obtain ⟨rfl, i, rfl⟩ := h; exact ⟨rfl, [i], rfl⟩
  | @cons ts x us l h hs ih =>
    obtain ⟨rfl, i, rfl⟩ := h
    obtain ⟨rfl, is, rfl⟩ := ih
    refine ⟨?_, i :: is, rfl⟩
    have := sepBy_ne hs
    cases is with
    | nil => simp at this
    | cons a is => simp [commas]

theorem sepBy_dsList {ts : List Tk} {l : List Ty} (h : SepBy (fun ts t => G sym true .datashape ts t) ts l) :
    G sym true .dsList ts l := by
  induction h with
  | one h => exact .dsOne h
  | cons h _ ih => exact .dsCons h ih

theorem sepBy_fieldList {ts : List Tk} {l : List (Str × Ty)}
    (h : SepBy (fun ts (t : Str × Ty) => G sym true .field ts t) ts l) : G sym true .fieldList ts l := by
  induction h with
  | one h => exact .fieldOne h
  | cons h _ ih => exact .fieldCons h ih

theorem sepBy_kwList {ts : List Tk} {l : List (Str × Arg)}
    (h : SepBy (fun ts (t : Str × Arg) => G sym true .kwarg ts t) ts l) : G sym true .kwList ts l := by
  induction h with
  | one h => exact .kwOne h
  | cons h _ ih => exact .kwCons h ih

variable {ds : List Tk → Res (Option Ty)}

theorem parseTypeArg_sound (hds : SoundDs sym ds) :
    Sound (fun ts (a : Arg) => G sym true .arg ts a) (fun j _ => Junk sym true j) (parseTypeArg bad ds) := by
  intro s x s' h
  simp only [parseTypeArg, bind_ok] at h
  obtain ⟨⟨t, s1⟩, h1, h⟩ := h
  have hs := hds s t s1 h1
  cases t with
  | some t =>
    simp at h hs
    obtain ⟨rfl, rfl⟩ := h
    obtain ⟨ts, e, hg⟩ := hs
    exact ⟨ts, e, .argDs hg⟩
  | none =>
    simp only [out_some, out_none] at h hs
    obtain ⟨j, e, hj, hjb⟩ := hs
    split at h
    · simp only [bind_ok] at h
      obtain ⟨s2, ha, h⟩ := h
      have := advance_ok ha; subst this
      simp at h; obtain ⟨rfl, rfl⟩ := h
      exact ⟨j ++ [Lit.tok (.int _)], by rw [e]; simp [Lit.tok], .argLit hj⟩
    · simp only [bind_ok] at h
      obtain ⟨s2, ha, h⟩ := h
      have := advance_ok ha; subst this
      simp at h; obtain ⟨rfl, rfl⟩ := h
      exact ⟨j ++ [Lit.tok (.str _)], by rw [e]; simp [Lit.tok], .argLit hj⟩
    · simp only [bind_ok] at h
      obtain ⟨s2, ha, h⟩ := h
      have := advance_ok ha; subst this
      simp at h; obtain ⟨rfl, rfl⟩ := h
      exact ⟨j ++ [Lit.tok (.bool _)], by rw [e]; simp [Lit.tok], .argLit hj⟩
    · rename_i r
      simp only [bind_ok] at h
      obtain ⟨s2, ha, ⟨v, s3⟩, h3, ⟨a, s4⟩, h4, h⟩ := h
      have := advance_ok ha; subst this
      simp only [out_some, out_none] at h4 h
      split at h
      · rename_i hb
        simp only [bind_ok] at h
        obtain ⟨s5, ha5, h⟩ := h
        have e5 := advance_head hb ha5
        simp at h; obtain ⟨rfl, rfl⟩ := h
        replace hj : JunkB sym true j := .junk hj (hjb rfl)
        have fin : ∀ ts, s2 = ts ++ s4 → ∀ a', (G sym true .arg (j ++ .lbrack :: (ts ++ [.rbrack])) a') →
            ∃ ts', s = ts' ++ s5 ∧ G sym true .arg ts' a' := by
          intro ts et a' hg
          exact ⟨_, by rw [e, et, e5]; simp, hg⟩
        have p3 := parseList_sound hds false h3
        cases v with
        | some l =>
          simp at p3 h4
          obtain ⟨rfl, rfl⟩ := h4
          obtain ⟨ts, hsep, et⟩ := p3
          exact fin ts et _ (.argDss hj (sepBy_dsList hsep))
        | none =>
          simp only [out_some, out_none] at p3 h4
          subst p3
          simp only [bind_ok] at h4
          obtain ⟨⟨v, s6⟩, h6, h4⟩ := h4
          have p6 := parseList_sound parseInteger_sound false h6
          cases v with
          | some l =>
            simp at p6 h4
            obtain ⟨rfl, rfl⟩ := h4
            obtain ⟨ts, hsep, et⟩ := p6
            have hne := sepBy_ne hsep
            obtain ⟨rfl, is, rfl⟩ := sepBy_lits (k := Lit.int) hsep
            exact fin _ et _ (.argLits hj ⟨hne, .inl ⟨is, rfl⟩⟩)
          | none =>
            simp only [out_some, out_none] at p6 h4
            subst p6
            simp only [bind_ok] at h4
            obtain ⟨⟨v, s7⟩, h7, h4⟩ := h4
            have p7 := parseList_sound parseString_sound false h7
            cases v with
            | some l =>
              simp at p7 h4
              obtain ⟨rfl, rfl⟩ := h4
              obtain ⟨ts, hsep, et⟩ := p7
              have hne := sepBy_ne hsep
              obtain ⟨rfl, is, rfl⟩ := sepBy_lits (k := Lit.str) hsep
              exact fin _ et _ (.argLits hj ⟨hne, .inr (.inl ⟨is, rfl⟩)⟩)
            | none =>
              simp only [out_some, out_none] at p7 h4
              subst p7
              simp only [bind_ok] at h4
              obtain ⟨⟨v, s8⟩, h8, h4⟩ := h4
              have p8 := parseList_sound parseBoolean_sound false h8
              cases v with
              | some l =>
                simp only [Bool.false_eq_true, false_and, or_false] at p8
                simp at h4
                obtain ⟨rfl, rfl⟩ := h4
                obtain ⟨ts, hsep, et⟩ := p8
                have hne := sepBy_ne hsep
                obtain ⟨rfl, is, rfl⟩ := sepBy_lits (k := Lit.bool) hsep
                exact fin _ et _ (.argLits hj ⟨hne, .inr (.inr ⟨is, rfl⟩)⟩)
              | none =>
                simp only [out_some, out_none] at p8 h4
                subst p8
                simp at h4
                obtain ⟨rfl, rfl⟩ := h4
                exact fin [] (by simp) _ (by simpa using G.argEmpty hj)
      · simp [raiseAt] at h
    · simp at h; obtain ⟨rfl, rfl⟩ := h
      exact ⟨j, e, hj⟩

theorem parseTypeKwarg_sound (hds : SoundDs sym ds) :
    Sound (fun ts (a : Str × Arg) => G sym true .kwarg ts a) (fun j _ => j = []) (parseTypeKwarg bad ds) := by
  intro s x s' h
  unfold parseTypeKwarg at h
  split at h
  · rename_i name r
    simp only [bind_ok] at h
    obtain ⟨s1, ha, h⟩ := h
    have := advance_ok ha; subst this
    split at h
    · rename_i he
      simp only [bind_ok] at h
      obtain ⟨s2, ha2, ⟨a, s3⟩, h3, h⟩ := h
      have e2 := advance_head he ha2
      have p3 := parseTypeArg_sound hds _ _ _ h3
      cases a with
      | none => simp [raiseAt] at h
      | some a =>
        simp at h p3; obtain ⟨rfl, rfl⟩ := h
        obtain ⟨ts, e, hg⟩ := p3
        exact ⟨.lower name :: .equal :: ts, by rw [e2, e]; simp, .kwarg hg⟩
    · simp at h; obtain ⟨rfl, rfl⟩ := h
      exact ⟨[], rfl, rfl⟩
  · simp at h; obtain ⟨rfl, rfl⟩ := h
    exact ⟨[], rfl, rfl⟩

theorem argLoop_sound (hds : SoundDs sym ds) : ∀ (fuel : Nat) (acc : List Arg) (s : List Tk)
    (r : List Arg × List (Str × Arg)) (s' : List Tk), argLoop bad ds fuel acc s = .ok (r, s') →
    ∃ args ts, r.1 = acc ++ args ∧ s = ts ++ s' ∧ G sym true .argList ts (args, r.2) := by
  intro fuel
  induction fuel with
  | zero => intro acc s r s' h; simp [argLoop] at h
  | succ fuel ih =>
    intro acc s r s' h
    simp only [argLoop, bind_ok] at h
    obtain ⟨⟨a, s1⟩, h1, h⟩ := h
    have p1 := parseTypeArg_sound hds _ _ _ h1
    cases a with
    | some a =>
      simp only [out_some, out_none] at h p1
      obtain ⟨ts, e, hg⟩ := p1
      split at h
      · rename_i hc
        simp only [bind_ok] at h
        obtain ⟨s2, ha, h⟩ := h
        have e2 := advance_head hc ha
        obtain ⟨args, us, er, es, hg'⟩ := ih _ _ _ _ h
        exact ⟨a :: args, ts ++ .comma :: us, by simp [er], by rw [e, e2, es]; simp, .argsCons hg hg'⟩
      · simp at h; obtain ⟨rfl, rfl⟩ := h
        exact ⟨[a], ts, rfl, e, .argsOne hg⟩
    | none =>
      simp only [out_some, out_none] at h p1
      obtain ⟨j, e, hj⟩ := p1
      simp only [bind_ok] at h
      obtain ⟨⟨kw, s2⟩, h2, h⟩ := h
      have p2 := parseList_sound (parseTypeKwarg_sound hds) false h2
      simp at h; obtain ⟨rfl, rfl⟩ := h
      cases kw with
      | none =>
        simp only [out_some, out_none] at p2
        subst p2
        exact ⟨[], j, by simp, e, by simpa using G.argsEnd rfl hj⟩
      | some kw =>
        simp at p2
        obtain ⟨ts, hsep, et⟩ := p2
        exact ⟨[], j ++ ts, by simp, by rw [e, et]; simp, .argsKw hj (sepBy_kwList hsep)⟩

theorem parseTypeArgList_sound (hds : SoundDs sym ds) {s : List Tk}
    {r : List Arg × List (Str × Arg)} {s' : List Tk} (h : parseTypeArgList bad ds s = .ok (r, s')) :
    ∃ ts, s = ts ++ s' ∧ G sym true .argList ts r := by
  obtain ⟨args, ts, e1, e2, hg⟩ := argLoop_sound hds _ _ _ _ _ h
  simp at e1; subst e1
  exact ⟨ts, e2, hg⟩

theorem parseStructField_sound (hds : SoundDs sym ds) :
    Sound (fun ts (a : Str × Ty) => G sym true .field ts a) (fun j _ => j = []) (parseStructField bad ds) := by
  intro s x s'
  have go : ∀ k n r, s = k :: r → FieldName k n →
      ((do
        let s1 ← advance bad s
        if s1.head? = some .colon then
          let s2 ← advance bad s1
          let (t, s3) ← ds s2
          match t with
          | some t => .ok (some (n, t), s3)
          | none => raiseAt s3 .fieldType
        else raiseAt s1 .colon : Res (Option (Str × Ty))) = .ok (x, s')) →
      Out x (fun v => ∃ ts, s = ts ++ s' ∧ G sym true .field ts v) (∃ j, s = j ++ s' ∧ j = []) := by
    intro k n r e hk h
    simp only [bind_ok] at h
    obtain ⟨s1, ha, h⟩ := h
    subst e
    have := advance_ok ha; subst this
    split at h
    · rename_i hc
      simp only [bind_ok] at h
      obtain ⟨s2, ha2, ⟨t, s3⟩, h3, h⟩ := h
      have e2 := advance_head hc ha2
      have p3 := hds _ _ _ h3
      cases t with
      | none => simp [raiseAt] at h
      | some t =>
        simp at h p3; obtain ⟨rfl, rfl⟩ := h
        obtain ⟨ts, e, hg⟩ := p3
        exact ⟨k :: .colon :: ts, by rw [e2, e]; simp, .field hk hg⟩
    · simp [raiseAt] at h
  intro h
  unfold parseStructField at h
  simp only [out_some, out_none] at h
  split at h
  · exact go _ _ _ rfl .lower h
  · exact go _ _ _ rfl .upper h
  · exact go _ _ _ rfl .other h
  · exact go _ _ _ rfl .str h
  · simp at h; obtain ⟨rfl, rfl⟩ := h
    exact ⟨[], rfl, rfl⟩

/-- value of `parse_dtype`-like functions that never skip tokens -/
abbrev SoundTy (sym : Sym) (f : List Tk → Res (Option Ty)) (s : List Tk) : Prop :=
  ∀ x s', f s = .ok (x, s') → Out x (fun v => ∃ ts, s = ts ++ s' ∧ G sym true .dtype ts v) (s' = s)

theorem parseStruct_sound (hds : SoundDs sym ds) (r : List Tk) :
    SoundTy sym (parseStruct sym bad ds) (.lbrace :: r) := by
  intro x s' h
  simp only [parseStruct, bind_ok] at h
  obtain ⟨s1, ha, ⟨fields, s2⟩, h2, h⟩ := h
  have := advance_ok ha; subst this
  have p2 := parseList_sound (parseStructField_sound hds) true h2
  simp only [out_some, out_none] at h
  split at h
  · rename_i hb
    simp only [bind_ok, sugar_ok, liftPy_ok] at h
    obtain ⟨s3, ha3, c, hc, t, ht, h⟩ := h
    have e3 := advance_head hb ha3
    simp at h; obtain ⟨rfl, rfl⟩ := h
    cases fields with
    | none =>
      simp only [out_some, out_none] at p2
      subst p2
      exact ⟨[.lbrace, .rbrace], by rw [e3]; simp, .emptyStruct hc (by simpa using ht)⟩
    | some l =>
      simp only [out_some, out_none] at p2 ht
      obtain ⟨ts, hsep, hcase⟩ := p2
      have hg := sepBy_fieldList hsep
      rcases hcase with e | ⟨_, j, rfl, e⟩
      · exact ⟨_, by rw [e, e3]; simp, .struct (comma := []) hg (.inl rfl) hc (by simpa using ht)⟩
      · exact ⟨_, by rw [e, e3]; simp, .struct (comma := [.comma]) hg (.inr rfl) hc (by simpa using ht)⟩
  · simp [raiseAt] at h

theorem parseParen_sound (hds : SoundDs sym ds) (r : List Tk) :
    SoundTy sym (parseParen sym bad ds) (.lparen :: r) := by
  intro x s' h
  simp only [parseParen, bind_ok] at h
  obtain ⟨s1, ha, ⟨l, s2⟩, h2, h⟩ := h
  have := advance_ok ha; subst this
  have p2 := parseList_sound hds true h2
  simp only [out_some, out_none] at h
  split at h
  · rename_i hb
    simp only [bind_ok] at h
    obtain ⟨s3, ha3, h⟩ := h
    have e3 := advance_head hb ha3
    -- the tokens of the items
    have items : (l = none ∧ s1 = s2) ∨ ∃ l', l = some l' ∧ ∃ ts comma, G sym true .dsList ts l' ∧
        (comma = [] ∨ ∃ j, Junk sym true j ∧ comma = .comma :: j) ∧ s1 = ts ++ comma ++ s2 := by
      cases l with
      | none => left; exact ⟨rfl, p2.symm⟩
      | some l' =>
        right
        obtain ⟨ts, hsep, hcase⟩ := p2
        refine ⟨l', rfl, ts, ?_⟩
        rcases hcase with e | ⟨_, j, hj, e⟩
        · exact ⟨[], sepBy_dsList hsep, .inl rfl, by simp [e]⟩
        · exact ⟨.comma :: j, sepBy_dsList hsep, .inr ⟨j, hj.1, rfl⟩, by simp [e]⟩
    split at h
    · rename_i hr
      simp only [bind_ok] at h
      obtain ⟨s4, ha4, ⟨ret, s5⟩, h5, h⟩ := h
      have e4 := advance_head hr ha4
      have p5 := hds _ _ _ h5
      cases ret with
      | none => simp [raiseAt] at h
      | some ret =>
        simp only [out_some, out_none] at h p5
        obtain ⟨us, eu, hu⟩ := p5
        simp only [bind_ok, sugar_ok, liftPy_ok] at h
        obtain ⟨c, hc, t, ht, h⟩ := h
        simp at h; obtain ⟨rfl, rfl⟩ := h
        rcases items with ⟨rfl, e⟩ | ⟨l', rfl, ts, comma, hg, hcm, e⟩
        · exact ⟨.lparen :: .rparen :: .rarrow :: us, by rw [e, e3, e4, eu]; simp,
            .emptyFunc hu hc (by simpa using ht)⟩
        · exact ⟨_, by rw [e, e3, e4, eu]; simp, .func hg hcm hu hc (by simpa using ht)⟩
    · simp only [bind_ok, sugar_ok, liftPy_ok] at h
      obtain ⟨c, hc, t, ht, h⟩ := h
      simp at h; obtain ⟨rfl, rfl⟩ := h
      rcases items with ⟨rfl, e⟩ | ⟨l', rfl, ts, comma, hg, hcm, e⟩
      · exact ⟨[.lparen, .rparen], by rw [e, e3]; simp, .emptyTuple hc (by simpa using ht)⟩
      · exact ⟨_, by rw [e, e3]; simp, .tuple hg hcm hc (by simpa using ht)⟩
  · simp [raiseAt] at h

theorem parseDtype_sound (hds : SoundDs sym ds) (s : List Tk) : SoundTy sym (parseDtype sym bad ds) s := by
  intro x s' h
  unfold parseDtype at h
  split at h
  · rename_i v r
    simp only [bind_ok, sugar_ok, liftPy_ok] at h
    obtain ⟨s1, ha, c, hc, t, ht, h⟩ := h
    have := advance_ok ha; subst this
    simp at h; obtain ⟨rfl, rfl⟩ := h
    exact ⟨[.upper v], rfl, .typevar hc ht⟩
  · rename_i name r
    simp only [bind_ok] at h
    obtain ⟨s1, ha, h⟩ := h
    have := advance_ok ha; subst this
    split at h
    · rename_i hb
      split at h
      · simp at h; obtain ⟨rfl, rfl⟩ := h; rfl
      · rename_i c hc
        simp only [bind_ok] at h
        obtain ⟨s2, ha2, ⟨args, s3⟩, h3, h⟩ := h
        have e2 := advance_head hb ha2
        obtain ⟨ts, e, hg⟩ := parseTypeArgList_sound hds h3
        simp only [out_some, out_none] at h
        split at h
        · rename_i hrb
          split at h
          · simp [raiseAt] at h
          · rename_i hne
            simp only [bind_ok, liftPy_ok] at h
            obtain ⟨s4, ha4, t, ht, h⟩ := h
            have e4 := advance_head hrb ha4
            simp at h; obtain ⟨rfl, rfl⟩ := h
            refine ⟨_, by rw [e2, e, e4]; simp, .constr hc (by simp) hg ?_ ht⟩
            intro he
            simp only [Prod.mk.injEq] at he
            simp [he.1, he.2] at hne
        · simp [raiseAt] at h
    · split at h
      · rename_i t ht
        simp at h; obtain ⟨rfl, rfl⟩ := h
        exact ⟨[.lower name], rfl, .name ht⟩
      · simp at h; obtain ⟨rfl, rfl⟩ := h; rfl
  · exact parseStruct_sound hds _ x s' h
  · exact parseParen_sound hds _ x s' h
  · simp at h; obtain ⟨rfl, rfl⟩ := h; rfl

theorem parseDim_sound (s : List Tk) {x : Option Ty} {s' : List Tk} (h : parseDim sym bad ds s = .ok (x, s')) :
    Out x (fun d => ∃ ts, s = ts ++ s' ∧ DimG sym ts d ∧ (s'.head? ≠ some .star → LooseDim sym ts) ∧
        (s'.head? = some .lbrack → ∀ n, ts.getLast? ≠ some (.lower n))) (s' = s ∧ NotDimConstr sym s) := by
  unfold parseDim at h
  split at h
  · rename_i v r
    simp only [bind_ok] at h
    obtain ⟨s1, ha, h⟩ := h
    have := advance_ok ha; subst this
    split at h
    · rename_i he
      simp only [bind_ok, sugar_ok, liftPy_ok] at h
      obtain ⟨s2, ha2, c, hc, t, ht, h⟩ := h
      have e2 := advance_head he ha2
      simp at h; obtain ⟨rfl, rfl⟩ := h
      exact ⟨[.upper v, .ellipsis], by rw [e2]; rfl, .ellipsisTypevar hc ht, fun _ => .ellipsisTypevar hc ht, fun _ n => by simp⟩
    · split at h
      · rename_i hs
        simp only [bind_ok, sugar_ok, liftPy_ok] at h
        obtain ⟨c, hc, t, ht, h⟩ := h
        simp at h; obtain ⟨rfl, rfl⟩ := h
        exact ⟨[.upper v], rfl, .typevar hc ht, fun hn => absurd hs hn, fun _ n => by simp⟩
      · simp at h; obtain ⟨rfl, rfl⟩ := h; exact ⟨rfl, fun n r e => by first | (cases e; done) | (cases e; exact absurd rfl hlb) | simp_all⟩
  · rename_i name r
    simp only [bind_ok] at h
    obtain ⟨s1, ha, h⟩ := h
    have := advance_ok ha; subst this
    split at h
    · split at h
      · rename_i hn
        simp at h; obtain ⟨rfl, rfl⟩ := h
        exact ⟨rfl, fun n r e => by cases e; exact hn⟩
      · simp only [bind_ok] at h
        obtain ⟨s2, ha2, ⟨args, s3⟩, h3, h⟩ := h
        simp only [out_some, out_none] at h
        split at h
        · simp only [bind_ok] at h
          obtain ⟨_, _, h⟩ := h
          simp at h
        · simp [raiseAt] at h
    · rename_i hlb
      split at h
      · rename_i d hd
        simp at h; obtain ⟨rfl, rfl⟩ := h
        exact ⟨[.lower name], rfl, .name hd, fun _ => .name hd, fun hn => absurd hn hlb⟩
      · simp at h; obtain ⟨rfl, rfl⟩ := h; exact ⟨rfl, fun n r e => by first | (cases e; done) | (cases e; exact absurd rfl hlb) | simp_all⟩
  · rename_i v r
    simp only [bind_ok] at h
    obtain ⟨s1, ha, h⟩ := h
    have := advance_ok ha; subst this
    split at h
    · rename_i hs
      simp only [bind_ok, sugar_ok, liftPy_ok] at h
      obtain ⟨c, hc, t, ht, h⟩ := h
      simp at h; obtain ⟨rfl, rfl⟩ := h
      exact ⟨[.int v], rfl, .int hc ht, fun hn => absurd hs hn, fun _ n => by simp⟩
    · simp at h; obtain ⟨rfl, rfl⟩ := h; exact ⟨rfl, fun n r e => by first | (cases e; done) | (cases e; exact absurd rfl hlb) | simp_all⟩
  · rename_i r
    simp only [bind_ok, sugar_ok] at h
    obtain ⟨s1, ha, d, hd, h⟩ := h
    have := advance_ok ha; subst this
    simp at h; obtain ⟨rfl, rfl⟩ := h
    exact ⟨[.ellipsis], rfl, .ellipsis hd, fun _ => .ellipsis hd, fun _ n => by simp⟩
  · simp at h; obtain ⟨rfl, rfl⟩ := h; exact ⟨rfl, fun n r e => by first | (cases e; done) | (cases e; exact absurd rfl hlb) | simp_all⟩

theorem dtype_truthy (hT : sym.Truthy) {q : Bool} {ts : List Tk} {t : Ty} (h : G sym q .dtype ts t) : truthy t = true := by
  cases h with
  | typevar hc ht => exact hT.constr _ _ _ _ _ hc ht
  | name h => exact hT.dtype _ _ h
  | constr hc _ _ _ ht => exact hT.constr _ _ _ _ _ hc ht
  | struct _ _ hc ht => exact hT.constr _ _ _ _ _ hc ht
  | emptyStruct hc ht => exact hT.constr _ _ _ _ _ hc ht
  | tuple _ _ hc ht => exact hT.constr _ _ _ _ _ hc ht
  | emptyTuple hc ht => exact hT.constr _ _ _ _ _ hc ht
  | func _ _ _ hc ht => exact hT.constr _ _ _ _ _ hc ht
  | emptyFunc _ hc ht => exact hT.constr _ _ _ _ _ hc ht

/-- the tail of `parse_datashape_nooption`: `parse_dtype` and wrapping -/
theorem tail_sound (hT : sym.Truthy) (hds : SoundDs sym ds) (s : List Tk) {x : Option Ty} {s' : List Tk}
    (h : ((do
      let (t, s2) ← parseDtype sym bad ds s
      match t with
      | some t => if truthy t then do let r ← liftPy (mkDS [t]); .ok (some r, s2) else .ok (none, s2)
      | none => .ok (none, s2) : Res (Option Ty)) = .ok (x, s'))) :
    Out x (fun r => ∃ ts t, s = ts ++ s' ∧ G sym true .dtype ts t ∧ mkDS [t] = .ok r) (s' = s) := by
  simp only [bind_ok] at h
  obtain ⟨⟨t, s2⟩, h2, h⟩ := h
  have p2 := parseDtype_sound hds _ _ _ h2
  cases t with
  | none => simp at h p2; obtain ⟨rfl, rfl⟩ := h; exact p2
  | some t =>
    simp only [out_some, out_none] at h p2
    obtain ⟨ts, e, hg⟩ := p2
    rw [dtype_truthy hT hg] at h
    simp only [if_true, bind_ok, liftPy_ok] at h
    obtain ⟨r, hr, h⟩ := h
    simp at h; obtain ⟨rfl, rfl⟩ := h
    exact ⟨ts, t, e, hg, hr⟩

theorem parseNoOption_sound (hT : sym.Truthy) (hds : SoundDs sym ds) (s : List Tk) {x : Option Ty} {s' : List Tk}
    (h : parseNoOption sym bad ds s = .ok (x, s')) :
    Out x (fun t => ∃ ts, s = ts ++ s' ∧ G sym true .nooption ts t)
      (∃ j, s = j ++ s' ∧ (j = [] ∨ LooseDim sym j) ∧ (s'.head? = some .lbrack → ∀ n, j.getLast? ≠ some (.lower n))) := by
  simp only [parseNoOption] at h
  rw [bind_ok] at h
  obtain ⟨⟨dim, s1⟩, h1, h⟩ := h
  have p1 := parseDim_sound s h1
  cases dim with
  | none =>
    simp only [out_some, out_none] at h p1
    obtain ⟨p1, hnd⟩ := p1
    subst p1
    have := tail_sound hT hds _ h
    cases x with
    | none => exact ⟨[], by simpa using this.symm, .inl rfl, fun _ n => by simp⟩
    | some r =>
      obtain ⟨ts, t, e, hg, hr⟩ := this
      exact ⟨ts, e, .dtype hg hr fun _ n r' hr' => hnd n (r' ++ s') (by rw [e, hr']; rfl)⟩
  | some d =>
    simp only [out_some, out_none] at h p1
    obtain ⟨ts, e, hd, hl, hb⟩ := p1
    split at h
    · rename_i hs
      simp only [bind_ok] at h
      obtain ⟨s2, ha, ⟨t, s3⟩, h3, h⟩ := h
      have e2 := advance_head hs ha
      have p3 := hds _ _ _ h3
      cases t with
      | none => simp [raiseAt] at h
      | some t =>
        simp only [bind_ok, liftPy_ok] at h p3
        obtain ⟨us, eu, hu⟩ := p3
        obtain ⟨r, hr, h⟩ := h
        simp at h; obtain ⟨rfl, rfl⟩ := h
        exact ⟨ts ++ .star :: us, by rw [e, e2, eu]; simp, .dim hd hu hr⟩
    · rename_i hs
      have hl' := hl hs
      have := tail_sound hT hds _ h
      cases x with
      | none => simp only [out_some, out_none] at this; subst this; exact ⟨ts, e, .inr hl', hb⟩
      | some r =>
        obtain ⟨us, t, eu, hg, hr⟩ := this
        exact ⟨ts ++ us, by rw [e, eu]; simp, .dropped rfl hl' hg hr⟩

theorem parseDatashapeF_sound (hT : sym.Truthy) (hds : SoundDs sym ds) : SoundDs sym (parseDatashapeF sym bad ds) := by
  intro s x s' h
  unfold parseDatashapeF at h
  split at h
  · rename_i r
    simp only [bind_ok] at h
    obtain ⟨s1, ha, ⟨t, s2⟩, h2, h⟩ := h
    have := advance_ok ha; subst this
    have p2 := parseNoOption_sound hT hds _ h2
    cases t with
    | none =>
      simp at h p2; obtain ⟨rfl, rfl⟩ := h
      obtain ⟨j, e, hj, hb⟩ := p2
      refine ⟨.qmark :: j, by rw [e]; simp, ?_, fun hx n => by
        have := hb hx n
        cases j with
        | nil => simp
        | cons a j => simpa [List.getLast?_cons] using this⟩
      rcases hj with rfl | hj
      · exact .qmark
      · exact .qdim hj
    | some t =>
      simp only [bind_ok, sugar_ok, liftPy_ok] at h p2
      obtain ⟨ts, e, hg⟩ := p2
      obtain ⟨c, hc, o, ho, r, hr, h⟩ := h
      simp at h; obtain ⟨rfl, rfl⟩ := h
      exact ⟨.qmark :: ts, by rw [e]; simp, .option hg hc ho hr⟩
  · have p := parseNoOption_sound hT hds _ h
    cases x with
    | none =>
      simp only [out_some, out_none] at p
      obtain ⟨j, e, hj, hb⟩ := p
      refine ⟨j, e, ?_, hb⟩
      rcases hj with rfl | hj
      · exact .none
      · exact .dim hj
    | some t =>
      simp only [out_some, out_none] at p
      obtain ⟨ts, e, hg⟩ := p
      exact ⟨ts, e, .plain hg⟩

end

theorem parseDatashapeN_sound {sym : Sym} (hT : sym.Truthy) (bad : Option PyErr) (n : Nat) :
    SoundDs sym (parseDatashapeN sym bad n) := by
  induction n with
  | zero => intro s x s' h; simp [parseDatashapeN] at h
  | succ n ih => exact parseDatashapeF_sound hT ih

/-- Everything the parser accepts is derivable in the extended grammar, all tokens included. -/
theorem parseToks_sound {sym : Sym} (hT : sym.Truthy) {bad : Option PyErr} {toks : List Tk} {t : Ty}
    (h : parseToks sym bad toks = .ok t) : G sym true .datashape toks t := by
  unfold parseToks at h
  split at h
  · simp at h
  · simp only [bind_ok] at h
    obtain ⟨⟨r, s⟩, h1, h⟩ := h
    have p := parseDatashapeN_sound hT bad _ _ _ _ h1
    cases r with
    | none => simp [raiseAt] at h
    | some r =>
      simp only [out_some, out_none] at h p
      split at h
      · rename_i he
        simp at h he
        subst h; subst he
        obtain ⟨ts, e, hg⟩ := p
        simp at e; subst e; exact hg
      · simp [raiseAt] at h

end DS
