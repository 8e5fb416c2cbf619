import Verif.Proofs.StrDiscovery
import Verif.Props.Strings
import Verif.Props.DiscoverDicts

/-
C46: what `discover` makes of a string.
-/
namespace DS

theorem fits64_iff (n : Int) : (-(2 ^ 63) ≤ n ∧ n < 2 ^ 63) ↔ Fits64 n := by
  have : (2 : Int) ^ 63 = 9223372036854775808 := by decide
  rw [this]; unfold Fits64; omega

theorem td_of_unit {u w : Str} (h : normalizeTimeUnit w = .ok u) : fromNumpy (.timedelta u) [] = .ok (.timedelta u) := by
  simp [fromNumpy, fromDtype, mkTimeDelta, C12.idempotent w u h, withShape, bind, Except.bind]

theorem viaDelta_count {E : StrEnv} {s : Str} {n : Int} {w : Str} (h : CountText E s n w) : viaDelta E s = (do
    let u ← normalizeTimeUnit w
    if -(2 ^ 63) ≤ n ∧ n < 2 ^ 63 then fromNumpy (.timedelta u) [] else .error .overflow) := by
  obtain ⟨v, h1, h2⟩ := h
  simp only [viaDelta, (split_two s v w).2 h1, h2]

theorem viaDelta_cases (E : StrEnv) (s : Str) :
    (∃ n w, CountText E s n w) ∨ viaDelta E s = .error .valueError := by
  unfold viaDelta
  split
  · rename_i v w hs
    split
    · exact .inr rfl
    · exact .inr rfl
    · rename_i n hf
      exact .inl ⟨n, w, v, (split_two s v w).1 hs, hf⟩
  · exact .inr rfl

theorem CountText.unique {E : StrEnv} {s : Str} {n n' : Int} {w w' : Str} (h : CountText E s n w)
    (h' : CountText E s n' w') : n = n' ∧ w = w' := by
  obtain ⟨v, h1, h2⟩ := h
  obtain ⟨v', h1', h2'⟩ := h'
  obtain ⟨rfl, rfl⟩ := h1.unique h1'
  rw [h2] at h2'
  simp only [Option.some.injEq] at h2'
  exact ⟨h2', rfl⟩

theorem CountText.word {E : StrEnv} {s : Str} {n : Int} {w : Str} (h : CountText E s n w) : IsWord w := by
  obtain ⟨v, h1, _⟩ := h; exact h1.2.1

theorem viaDelta_ok (E : StrEnv) (s : Str) (t : Ty) :
    viaDelta E s = .ok t ↔ ∃ u, t = .timedelta u ∧ DeltaText E s u := by
  constructor
  · intro h
    rcases viaDelta_cases E s with ⟨n, w, hc⟩ | hc
    · rw [viaDelta_count hc] at h
      simp only [bind_ok] at h
      obtain ⟨u, hu, h⟩ := h
      split at h
      · rename_i hf
        rw [td_of_unit hu] at h
        injection h with h
        exact ⟨u, h.symm, n, w, hc, (C12.exact w u).1 hu, (fits64_iff n).1 hf⟩
      · cases h
    · rw [hc] at h; cases h
  · rintro ⟨u, rfl, n, w, hc, hu, hf⟩
    have hu' := (C12.exact w u).2 hu
    rw [viaDelta_count hc, hu']
    show (if _ then _ else _) = _
    rw [if_pos ((fits64_iff n).2 hf), td_of_unit hu']

theorem viaDelta_error (E : StrEnv) (s : Str) (e : PyErr) :
    viaDelta E s = .error e ↔ DeltaFault E s e ∨ (e = .valueError ∧ (∀ u, ¬ DeltaText E s u) ∧ ∀ e', ¬ DeltaFault E s e') := by
  have faultv : ∀ e, DeltaFault E s e → viaDelta E s = .error e := by
    intro e h
    cases h with
    | @overflow n w u hc hu hf =>
      rw [viaDelta_count hc, (C12.exact w u).2 hu]
      show (if _ then _ else _) = _
      rw [if_neg (fun h => hf ((fits64_iff n).1 h))]
    | @index n k hc =>
      rw [viaDelta_count hc, (normalize_index hc.word).2 ⟨k, rfl⟩]
      rfl
  constructor
  · intro h
    rcases viaDelta_cases E s with ⟨n, w, hc⟩ | hc
    · have h0 := h
      rw [viaDelta_count hc] at h
      cases hu : normalizeTimeUnit w with
      | error e' =>
        rw [hu] at h
        injection h with h
        subst h
        rcases C12.errors w _ hu with rfl | rfl
        · refine .inr ⟨rfl, ?_, ?_⟩
          · intro u hd
            rw [(viaDelta_ok E s _).2 ⟨u, rfl, hd⟩] at h0; cases h0
          · intro e' hd
            have h1 := faultv e' hd
            rw [h0] at h1
            injection h1 with h1
            subst h1
            cases hd
        · obtain ⟨k, rfl⟩ := (normalize_index hc.word).1 hu
          exact .inl (.index hc)
      | ok u =>
        rw [hu] at h
        change (if _ then _ else _) = _ at h
        split at h
        · rw [td_of_unit hu] at h; cases h
        · rename_i hf
          injection h with h
          subst h
          exact .inl (.overflow hc ((C12.exact w u).1 hu) fun hh => hf ((fits64_iff n).2 hh))
    · rw [hc] at h
      injection h with h
      subst h
      refine .inr ⟨rfl, ?_, ?_⟩
      · intro u hd
        rw [(viaDelta_ok E s _).2 ⟨u, rfl, hd⟩] at hc; cases hc
      · intro e' hd
        have h1 := faultv e' hd
        rw [hc] at h1
        injection h1 with h1
        subst h1
        cases hd
  · rintro (h | ⟨rfl, h1, h2⟩)
    · exact faultv e h
    · cases hv : viaDelta E s with
      | ok t =>
        obtain ⟨u, _, hd⟩ := (viaDelta_ok E s t).1 hv
        exact absurd hd (h1 u)
      | error e =>
        rcases viaDelta_cases E s with ⟨n, w, hc⟩ | hc
        · rw [viaDelta_count hc] at hv
          cases hu : normalizeTimeUnit w with
          | error e' =>
            rw [hu] at hv
            injection hv with hv
            subst hv
            rcases C12.errors w _ hu with rfl | rfl
            · rfl
            · obtain ⟨k, rfl⟩ := (normalize_index hc.word).1 hu
              exact absurd (.index hc) (h2 _)
          | ok u =>
            rw [hu] at hv
            change (if _ then _ else _) = _ at hv
            split at hv
            · rw [td_of_unit hu] at hv; cases hv
            · rename_i hf
              exact absurd (.overflow hc ((C12.exact w u).1 hu) fun hh => hf ((fits64_iff n).2 hh)) (h2 .overflow)
        · rw [hc] at hv; exact hv.symm

theorem boolText_iff (s : Str) : s ∈ boolWords ↔ BoolText s := by
  simp only [boolWords, BoolText, List.mem_cons, List.not_mem_nil, or_false]
  constructor <;> rintro (h | h | h | h) <;> simp [h]

theorem timeText_iff (E : StrEnv) (s : Str) : [py"%H:%M:%S", py"%H:%M:%S.%f"].any (E.strptime s) = true ↔ TimeText E s := by
  simp [TimeText]

theorem neverDate_iff (E : StrEnv) (s : Str) :
    ((!s.isEmpty && s.all E.isAlpha) || (!s.isEmpty && s.all isSpace)) = true ↔ NeverDate E s := by
  simp only [Bool.or_eq_true, Bool.and_eq_true, Bool.not_eq_true', List.isEmpty_eq_false_iff, List.all_eq_true, NeverDate, AllSpace]
  constructor
  · rintro (⟨h1, h2⟩ | ⟨h1, h2⟩)
    · exact ⟨h1, .inl h2⟩
    · exact ⟨h1, .inr h2⟩
  · rintro ⟨h1, h2 | h2⟩
    · exact .inl ⟨h1, h2⟩
    · exact .inr ⟨h1, h2⟩

/-- the value of the loop over the coercions -/
theorem firstOf_eq (E : StrEnv) (s : Str) :
    (IntText E s ∧ firstOf (stringCoercions E) s = .ok (some tInt64)) ∨
    (¬ IntText E s ∧ FloatText E s ∧ firstOf (stringCoercions E) s = .ok (some tFloat64)) ∨
    (¬ IntText E s ∧ ¬ FloatText E s ∧ BoolText s ∧ firstOf (stringCoercions E) s = .ok (some tBool)) ∨
    (¬ IntText E s ∧ ¬ FloatText E s ∧ ¬ BoolText s ∧ ∃ u, DeltaText E s u ∧ (∀ e, ¬ DeltaFault E s e) ∧
      firstOf (stringCoercions E) s = .ok (some (.timedelta u))) ∨
    (¬ IntText E s ∧ ¬ FloatText E s ∧ ¬ BoolText s ∧ (∀ u, ¬ DeltaText E s u) ∧ ∃ e, DeltaFault E s e ∧
      firstOf (stringCoercions E) s = .error e) ∨
    (¬ IntText E s ∧ ¬ FloatText E s ∧ ¬ BoolText s ∧ (∀ u, ¬ DeltaText E s u) ∧ (∀ e, ¬ DeltaFault E s e) ∧
      TimeText E s ∧ firstOf (stringCoercions E) s = .ok (some (.time none))) ∨
    (¬ Recognised E s ∧ (∀ e, ¬ DeltaFault E s e) ∧ firstOf (stringCoercions E) s = .ok none) := by
  simp only [stringCoercions]
  by_cases h1 : IntText E s
  · left
    refine ⟨h1, ?_⟩
    simp only [firstOf, viaInt, show E.int s = true from h1, if_true]
  right
  have e1 : viaInt E s = .error .valueError := by
    unfold viaInt; exact if_neg h1
  by_cases h2 : FloatText E s
  · left
    refine ⟨h1, h2, ?_⟩
    cases hf : E.float s with
    | none => exact absurd hf h2
    | some x => simp only [firstOf, e1, viaFloat, hf]
  right
  have e2 : viaFloat E s = .error .valueError := by
    cases hf : E.float s with
    | none => simp [viaFloat, hf]
    | some x => exact absurd (by simp [FloatText, hf]) h2
  by_cases h3 : BoolText s
  · left
    refine ⟨h1, h2, h3, ?_⟩
    simp only [firstOf, e1, e2, viaBool]
    rw [if_pos ((boolText_iff s).2 h3)]
  right
  have e3 : viaBool s = .error .keyError := by
    unfold viaBool; rw [if_neg (fun h => h3 ((boolText_iff s).1 h))]
  by_cases h4 : ∃ u, DeltaText E s u
  · left
    obtain ⟨u, h4⟩ := h4
    have e4 := (viaDelta_ok E s _).2 ⟨u, rfl, h4⟩
    refine ⟨h1, h2, h3, u, h4, ?_, ?_⟩
    · intro e h
      rw [(viaDelta_error E s e).2 (.inl h)] at e4; cases e4
    · simp only [firstOf, e1, e2, e3, e4]
  right
  have h4' : ∀ u, ¬ DeltaText E s u := fun u h => h4 ⟨u, h⟩
  by_cases h5 : ∃ e, DeltaFault E s e
  · left
    obtain ⟨e, h5⟩ := h5
    refine ⟨h1, h2, h3, h4', e, h5, ?_⟩
    have e4 := (viaDelta_error E s e).2 (.inl h5)
    cases h5 <;> simp only [firstOf, e1, e2, e3, e4]
  right
  have h5' : ∀ e, ¬ DeltaFault E s e := fun e h => h5 ⟨e, h⟩
  have e4 := (viaDelta_error E s _).2 (.inr ⟨rfl, h4', h5'⟩)
  by_cases h6 : TimeText E s
  · left
    refine ⟨h1, h2, h3, h4', h5', h6, ?_⟩
    simp only [firstOf, e1, e2, e3, e4, viaTime]
    rw [if_pos ((timeText_iff E s).2 h6)]
  · right
    refine ⟨?_, h5', ?_⟩
    · rintro (h | h | h | h | h)
      · exact h1 h
      · exact h2 h
      · exact h3 h
      · exact h4 h
      · exact h6 h
    · simp only [firstOf, e1, e2, e3, e4, viaTime]
      rw [if_neg (fun h => h6 ((timeText_iff E s).1 h))]

theorem DeltaText.unique {E : StrEnv} {s u u' : Str} (h : DeltaText E s u) (h' : DeltaText E s u') : u = u' := by
  have e := (viaDelta_ok E s _).2 ⟨u, rfl, h⟩
  rw [(viaDelta_ok E s _).2 ⟨u', rfl, h'⟩] at e
  injection e with e
  injection e with e
  exact e.symm

theorem DeltaFault.unique {E : StrEnv} {s : Str} {e e' : PyErr} (h : DeltaFault E s e) (h' : DeltaFault E s e') : e = e' := by
  have h1 := (viaDelta_error E s e).2 (.inl h)
  rw [(viaDelta_error E s e').2 (.inl h')] at h1
  injection h1 with h1
  exact h1.symm

/-- what `discover` does, is described by exactly one of the two relations -/
theorem discoverStr_cases (E : StrEnv) (s : Str) :
    (∃ t, discoverStr E s = .ok t ∧ Understood E s t) ∨ (∃ e, discoverStr E s = .error e ∧ NotUnderstood E s e) := by
  rcases firstOf_eq E s with ⟨h1, he⟩ | ⟨h1, h2, he⟩ | ⟨h1, h2, h3, he⟩ | ⟨h1, h2, h3, u, h4, h5, he⟩ |
    ⟨h1, h2, h3, h4, e, h5, he⟩ | ⟨h1, h2, h3, h4, h5, h6, he⟩ | ⟨h1, h5, he⟩
  · exact .inl ⟨_, by simp only [discoverStr, he, bind, Except.bind], .int h1⟩
  · exact .inl ⟨_, by simp only [discoverStr, he, bind, Except.bind], .float h1 h2⟩
  · exact .inl ⟨_, by simp only [discoverStr, he, bind, Except.bind], .bool h1 h2 h3⟩
  · exact .inl ⟨_, by simp only [discoverStr, he, bind, Except.bind], .delta h1 h2 h3 h4⟩
  · exact .inr ⟨_, by simp only [discoverStr, he, bind, Except.bind], .delta h1 h2 h3 h5⟩
  · exact .inl ⟨_, by simp only [discoverStr, he, bind, Except.bind], .time h1 h2 h3 h4 h5 h6⟩
  · by_cases hn : NeverDate E s
    · refine .inl ⟨_, ?_, .text h1 h5 hn⟩
      simp only [discoverStr, he, bind, Except.bind]
      rw [if_pos ((neverDate_iff E s).2 hn)]
    · have ha : AsksDateutil E s := ⟨h1, h5, hn⟩
      have hd : discoverStr E s = (match E.dateparse s with
          | .ok midnight => .ok (if midnight then .date else .datetime none)
          | .error .valueError => .ok tString
          | .error .overflow => .ok tString
          | .error e => .error e) := by
        simp only [discoverStr, he, bind, Except.bind]
        rw [if_neg (fun h => hn ((neverDate_iff E s).1 h))]
        rfl
      rw [hd]
      cases hp : E.dateparse s with
      | ok b =>
        cases b
        · exact .inl ⟨_, rfl, .datetime ha hp⟩
        · exact .inl ⟨_, rfl, .date ha hp⟩
      | error e =>
        by_cases hv : e = .valueError
        · subst hv; exact .inl ⟨_, rfl, .other ha hp (.inl rfl)⟩
        by_cases ho : e = .overflow
        · subst ho; exact .inl ⟨_, rfl, .other ha hp (.inr rfl)⟩
        refine .inr ⟨e, ?_, .dateutil ha hp hv ho⟩
        cases e <;> first | rfl | exact absurd rfl hv | exact absurd rfl ho

/-- the relations describe one result -/
theorem understood_unique {E : StrEnv} {s : Str} {t t' : Ty} (h : Understood E s t) (h' : Understood E s t') : t = t' := by
  cases h <;> cases h' <;> first
    | rfl
    | (rename_i h1 _ _ _ _ h2; rw [h1.unique h2])
    | (rename_i h1 _ _ _ _ _ h2; rw [h1.unique h2])
    | (exfalso; simp_all [Recognised, AsksDateutil]; done)

theorem understood_exclusive {E : StrEnv} {s : Str} {t : Ty} {e : PyErr} (h : Understood E s t)
    (h' : NotUnderstood E s e) : False := by
  cases h <;> cases h' <;> first
    | (rename_i hd _ _ _ hf
       have := (viaDelta_ok E s _).2 ⟨_, rfl, hd⟩
       rw [(viaDelta_error E s _).2 (.inl hf)] at this
       cases this)
    | (simp_all [Recognised, AsksDateutil]; done)

theorem notUnderstood_unique {E : StrEnv} {s : Str} {e e' : PyErr} (h : NotUnderstood E s e)
    (h' : NotUnderstood E s e') : e = e' := by
  cases h <;> cases h'
  · rename_i h1 _ _ _ h2; exact h1.unique h2
  · rename_i hf h1 _ _ _; exact absurd hf (h1.2.1 _)
  · rename_i h1 _ _ _ _ _ _ hf; exact absurd hf (h1.2.1 _)
  · rename_i h1 _ _ _ h2 _ _; rw [h1] at h2; injection h2

/-! ### The theorems -/

/-- `discover('')` is null, and no other string is. -/
theorem C46.null (E : StrEnv) (topo : List Node) (s : Str) :
    discover (discoverStr E) topo (.str s) = .ok .null ↔ s = [] := by
  constructor
  · intro h
    cases s with
    | nil => rfl
    | cons c r =>
      simp only [discover, discoverItem] at h
      rw [if_neg (by simp)] at h
      rcases discoverStr_cases E (c :: r) with ⟨t, h1, h2⟩ | ⟨e, h1, _⟩
      · rw [h1] at h
        injection h with h
        subst h
        cases h2
      · rw [h1] at h; cases h
  · rintro rfl; rfl

/-- `discover(s)` returns `t` exactly when `t` is the datashape that the text is understood as. -/
theorem C46.exact (E : StrEnv) (topo : List Node) (s : Str) (hs : s ≠ []) (t : Ty) :
    discover (discoverStr E) topo (.str s) = .ok t ↔ Understood E s t := by
  have e : discover (discoverStr E) topo (.str s) = discoverStr E s := by
    simp only [discover, discoverItem]; rw [if_neg (by simpa using hs)]
  rw [e]
  constructor
  · intro h
    rcases discoverStr_cases E s with ⟨t', h1, h2⟩ | ⟨e, h1, _⟩
    · rw [h1] at h; injection h with h; exact h ▸ h2
    · rw [h1] at h; cases h
  · intro h
    rcases discoverStr_cases E s with ⟨t', h1, h2⟩ | ⟨e, h1, h2⟩
    · rw [h1, understood_unique h h2]
    · exact (understood_exclusive h h2).elim

/-- `discover(s)` raises `e` exactly on the faulty durations and when dateutil raises something unexpected. -/
theorem C46.raises (E : StrEnv) (topo : List Node) (s : Str) (hs : s ≠ []) (e : PyErr) :
    discover (discoverStr E) topo (.str s) = .error e ↔ NotUnderstood E s e := by
  have e : discover (discoverStr E) topo (.str s) = discoverStr E s := by
    simp only [discover, discoverItem]; rw [if_neg (by simpa using hs)]
  rw [e]
  constructor
  · intro h
    rcases discoverStr_cases E s with ⟨t', h1, h2⟩ | ⟨e, h1, h2⟩
    · rw [h1] at h; cases h
    · rw [h1] at h; injection h with h; exact h ▸ h2
  · intro h
    rcases discoverStr_cases E s with ⟨t', h1, h2⟩ | ⟨e, h1, h2⟩
    · exact (understood_exclusive h2 h).elim
    · rw [h1, notUnderstood_unique h h2]

/-- Every string is discovered as one of eight scalar types. -/
theorem C46.kinds (E : StrEnv) (topo : List Node) (s : Str) (t : Ty)
    (h : discover (discoverStr E) topo (.str s) = .ok t) :
    t = .null ∨ t = tInt64 ∨ t = tFloat64 ∨ t = tBool ∨ (∃ u ∈ canonicalUnits, t = .timedelta u) ∨ t = .time none ∨
      t = .date ∨ t = .datetime none ∨ t = tString := by
  by_cases hs : s = []
  · subst hs; cases h; simp
  · rw [C46.exact E topo s hs t] at h
    cases h <;> simp
    rename_i hd
    obtain ⟨n, w, _, hw, _⟩ := hd
    exact .inr (.inr (.inr (.inl (C12.canonical w _ ((C12.exact w _).2 hw)))))

/-- The result satisfies what the theorems about lists of dicts (C25) ask of the external function. -/
theorem C46.scalar (E : StrEnv) : StrScalar (discoverStr E) := by
  intro s t h
  rcases discoverStr_cases E s with ⟨t', h1, h2⟩ | ⟨e, h1, _⟩
  · rw [h1] at h
    injection h with h
    subst h
    cases h2 <;> exact ⟨rfl, rfl, rfl⟩
  · rw [h1] at h; cases h

/-- If dateutil only raises `ValueError` and `OverflowError`, then `discover` of a string returns unless the text is a
faulty duration. -/
theorem C46.total (E : StrEnv) (hE : ∀ s e, E.dateparse s = .error e → e = .valueError ∨ e = .overflow)
    (topo : List Node) (s : Str) (hs : ∀ e, ¬ DeltaFault E s e) :
    ∃ t, discover (discoverStr E) topo (.str s) = .ok t := by
  by_cases h0 : s = []
  · subst h0; exact ⟨_, rfl⟩
  cases h : discover (discoverStr E) topo (.str s) with
  | ok t => exact ⟨t, rfl⟩
  | error e =>
    rw [C46.raises E topo s h0] at h
    cases h with
    | delta _ _ _ hf => exact absurd hf (hs _)
    | dateutil _ hp hv ho => rcases hE s _ hp with rfl | rfl <;> contradiction

/-- a small environment: ASCII numerals are integers and numbers; nothing is a time or a date -/
def asciiEnv : StrEnv where
  int s := !s.isEmpty && s.all isDigit
  float s := if !s.isEmpty && s.all isDigit then some (some (digitsVal 0 s)) else none
  strptime _ _ := false
  isAlpha c := isLower c || isUpperA c
  dateparse _ := .error .valueError

/-- `discover('1 sss')` raises `IndexError`, and `discover('9223372036854775808 days')` raises `OverflowError`;
`'12 days'` is a `timedelta` in days, `'true'` a bool and `'today'` a string. -/
theorem C46.examples (topo : List Node) :
    discover (discoverStr asciiEnv) topo (.str (py"1 sss")) = .error .indexError ∧
    discover (discoverStr asciiEnv) topo (.str (py"9223372036854775808 days")) = .error .overflow ∧
    discover (discoverStr asciiEnv) topo (.str (py" 12  days ")) = .ok (.timedelta (py"D")) ∧
    discover (discoverStr asciiEnv) topo (.str (py"12")) = .ok tInt64 ∧
    discover (discoverStr asciiEnv) topo (.str (py"true")) = .ok tBool ∧
    discover (discoverStr asciiEnv) topo (.str (py"today")) = .ok tString :=
  ⟨rfl, rfl, rfl, rfl, rfl, rfl⟩

end DS
