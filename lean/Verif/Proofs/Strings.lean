import Verif.Spec.TimeUnits

namespace DS

theorem dropWhile_eq_self {p : Nat → Bool} {s : Str} (h : ∀ c, s.head? = some c → p c = false) :
    s.dropWhile p = s := by
  cases s with
  | nil => rfl
  | cons c r => simp [List.dropWhile, h c rfl]

theorem dropWhile_append_all {p : Nat → Bool} {a s : Str} (ha : ∀ c ∈ a, p c = true) :
    (a ++ s).dropWhile p = s.dropWhile p := by
  induction a with
  | nil => rfl
  | cons c r ih =>
    simp only [List.cons_append, List.dropWhile, ha c (by simp)]
    exact ih fun c hc => ha c (by simp [hc])

theorem dropWhile_head_false {p : Nat → Bool} (s : Str) : ∀ c, (s.dropWhile p).head? = some c → p c = false := by
  induction s with
  | nil => simp
  | cons a r ih =>
    intro c
    simp only [List.dropWhile]
    split
    · exact ih c
    · simp; rintro rfl; assumption

/-- splitting off the maximal prefix -/
theorem split_while (p : Nat → Bool) (s : Str) : s = s.takeWhile p ++ s.dropWhile p ∧ ∀ c ∈ s.takeWhile p, p c = true := by
  refine ⟨(List.takeWhile_append_dropWhile).symm, ?_⟩
  induction s with
  | nil => simp
  | cons a r ih =>
    simp only [List.takeWhile]
    split
    · rename_i h; intro c hc; simp at hc; rcases hc with rfl | hc; exact h; exact ih c hc
    · simp

/-- `strip` removes exactly the surrounding white space -/
theorem strip_spec (s : Str) : ∃ a b, s = a ++ strip s ++ b ∧ AllSpace a ∧ AllSpace b ∧ Trimmed (strip s) := by
  obtain ⟨h1, h2⟩ := split_while isSpace s
  generalize hm : s.dropWhile isSpace = m at *
  obtain ⟨h3, h4⟩ := split_while isSpace m.reverse
  have hst : strip s = (m.reverse.dropWhile isSpace).reverse := by simp [strip, hm]
  refine ⟨s.takeWhile isSpace, (m.reverse.takeWhile isSpace).reverse, ?_, h2, ?_, ?_⟩
  · have : m = (m.reverse.dropWhile isSpace).reverse ++ (m.reverse.takeWhile isSpace).reverse := by
      rw [← List.reverse_append, ← h3, List.reverse_reverse]
    rw [hst, List.append_assoc, ← this]; exact h1
  · intro c hc; exact h4 c (by simpa using hc)
  · rw [hst]
    constructor
    · intro c hc
      -- the head of the stripped string is the head of `m`
      by_cases hd : m.reverse.dropWhile isSpace = []
      · simp [hd] at hc
      · have : m = (m.reverse.dropWhile isSpace).reverse ++ (m.reverse.takeWhile isSpace).reverse := by
          rw [← List.reverse_append, ← h3, List.reverse_reverse]
        have hh : m.head? = some c := by
          rw [this]
          generalize (m.reverse.dropWhile isSpace).reverse = x at *
          cases x with
          | nil => simp at hc
          | cons y ys => simpa using hc
        rw [← hm] at hh
        exact dropWhile_head_false s c hh
    · intro c hc
      rw [List.getLast?_reverse] at hc
      exact dropWhile_head_false _ c hc

theorem strip_trim {a s b : Str} (ha : AllSpace a) (hb : AllSpace b) (hs : Trimmed s) : strip (a ++ s ++ b) = s := by
  unfold strip
  rw [List.append_assoc, dropWhile_append_all ha]
  cases s with
  | nil =>
    have : (([] : Str) ++ b).dropWhile isSpace = [] := by
      have := dropWhile_append_all (p := isSpace) (a := b) (s := []) hb
      simpa using this
    rw [this]; rfl
  | cons c r =>
    have : ((c :: r) ++ b).dropWhile isSpace = (c :: r) ++ b := by
      apply dropWhile_eq_self; intro d hd; exact hs.1 d (by simpa using hd)
    rw [this, List.reverse_append, dropWhile_append_all (by intro x hx; exact hb x (by simpa using hx)),
      dropWhile_eq_self (by intro d hd; exact hs.2 d (by rw [← List.head?_reverse]; exact hd)), List.reverse_reverse]

theorem strip_self {s : Str} (hs : Trimmed s) : strip s = s := by
  simpa using strip_trim (a := []) (b := []) (by simp [AllSpace]) (by simp [AllSpace]) hs

theorem strip_strip (s : Str) : strip (strip s) = strip s := by
  obtain ⟨_, _, _, _, _, h⟩ := strip_spec s
  exact strip_self h

theorem strip_length (s : Str) : (strip s).length ≤ s.length := by
  obtain ⟨a, b, h, _⟩ := strip_spec s
  rw [congrArg List.length h]; simp; omega

/-- `rstrip('s')` removes exactly the trailing `s`s -/
theorem rstripS_spec (s : Str) : ∃ k, s = rstripS s ++ List.replicate k 115 ∧ (rstripS s).getLast? ≠ some 115 := by
  obtain ⟨h1, h2⟩ := split_while (· == 115) s.reverse
  refine ⟨(s.reverse.takeWhile (· == 115)).length, ?_, ?_⟩
  · have h3 : s.reverse.takeWhile (· == 115) = List.replicate (s.reverse.takeWhile (· == 115)).length 115 := by
      rw [List.eq_replicate_iff]
      refine ⟨rfl, fun c hc => by simpa using h2 c hc⟩
    have : s = (s.reverse.dropWhile (· == 115)).reverse ++ (s.reverse.takeWhile (· == 115)).reverse := by
      rw [← List.reverse_append, ← h1, List.reverse_reverse]
    rw [h3] at this
    simpa [rstripS] using this
  · intro h
    rw [rstripS, List.getLast?_reverse] at h
    simpa using dropWhile_head_false _ _ h

theorem rstripS_append {s : Str} (k : Nat) (h : s.getLast? ≠ some 115) : rstripS (s ++ List.replicate k 115) = s := by
  unfold rstripS
  rw [List.reverse_append, dropWhile_append_all (by simp), dropWhile_eq_self, List.reverse_reverse]
  intro c hc
  simp only [beq_eq_false_iff_ne]
  rintro rfl
  exact h (by simpa [List.head?_reverse] using hc)

theorem normalizeAux_fuel : ∀ (n m : Nat) (s : Str), s.length < n → s.length < m → normalizeAux n s = normalizeAux m s := by
  intro n
  induction n with
  | zero => intro m s h; omega
  | succ n ih =>
    intro m s hn hm
    obtain ⟨m, rfl⟩ : ∃ k, m = k + 1 := ⟨m - 1, by omega⟩
    simp only [normalizeAux]
    split
    · rfl
    · split
      · rfl
      · split
        · rfl
        · split
          · rename_i c hc hcs
            have h1 := strip_length s
            obtain ⟨k, h2, h3⟩ := rstripS_spec (strip s)
            have hk : k ≠ 0 := by
              rintro rfl
              simp at h2
              rw [← h2] at h3
              exact h3 (by rw [hc, hcs.1])
            have h4 := congrArg List.length h2
            simp at h4
            exact ih m _ (by omega) (by omega)
          · rfl

/-- the recursion equation of the code, without fuel -/
theorem normalize_eq (s : Str) : normalizeTimeUnit s =
    if strip s ∈ timeUnits then .ok (strip s)
    else match unitAliases.lookup (strip s) with
      | some u => .ok u
      | none => match (strip s).getLast? with
        | none => .error .indexError
        | some c => if c = 115 ∧ (strip s).length > 2 then normalizeTimeUnit (rstripS (strip s)) else .error .valueError := by
  rw [normalizeTimeUnit, normalizeAux]
  by_cases hu : strip s ∈ timeUnits
  · simp only [if_pos hu]
  · simp only [if_neg hu]
    cases hl : unitAliases.lookup (strip s) with
    | some u => rfl
    | none =>
      simp only
      cases hc : (strip s).getLast? with
      | none => rfl
      | some c =>
        simp only
        split
        · rename_i hcs
          have h1 := strip_length s
          obtain ⟨k, h2, h3⟩ := rstripS_spec (strip s)
          have hk : k ≠ 0 := by
            rintro rfl
            simp at h2
            rw [← h2] at h3
            exact h3 (by rw [hc, hcs.1])
          have h4 := congrArg List.length h2
          simp at h4
          exact normalizeAux_fuel _ _ _ (by omega) (by omega)
        · rfl

theorem timeUnits_eq : timeUnits = canonicalUnits := rfl
theorem unitAliases_eq : unitAliases = unitWords := rfl

theorem lookup_mem {α : Type} [BEq α] [LawfulBEq α] {β : Type} {l : List (α × β)} {a : α} {b : β} (h : l.lookup a = some b) : (a, b) ∈ l := by
  induction l with
  | nil => simp at h
  | cons p l ih =>
    obtain ⟨x, y⟩ := p
    simp only [List.lookup] at h
    split at h
    · rename_i e; simp at e h; simp [e, h]
    · simp [ih h]

theorem lookup_none {α : Type} [BEq α] [LawfulBEq α] {β : Type} {l : List (α × β)} {a : α} (h : l.lookup a = none) (b : β) : (a, b) ∉ l := by
  induction l with
  | nil => simp
  | cons p l ih =>
    obtain ⟨x, y⟩ := p
    simp only [List.lookup] at h
    split at h
    · simp at h
    · rename_i e; simp at e; simp [e, ih h]

theorem alias_lookup : ∀ p ∈ unitWords, unitAliases.lookup p.1 = some p.2 := by decide
theorem words_not_units : ∀ p ∈ unitWords, p.1 ∉ timeUnits := by decide
theorem words_trimmed : ∀ p ∈ unitWords, strip p.1 = p.1 := by decide
theorem units_trimmed : ∀ u ∈ canonicalUnits, strip u = u := by decide

theorem normalize_strip {s t : Str} (h : strip s = strip t) : normalizeTimeUnit s = normalizeTimeUnit t := by
  rw [normalize_eq s, normalize_eq t, h]

theorem normalize_sound : ∀ (n : Nat) (s u : Str), s.length < n → normalizeTimeUnit s = .ok u → SpellsUnit s u := by
  intro n
  induction n with
  | zero => intro s u h; omega
  | succ n ih =>
    intro s u hn h
    obtain ⟨a, b, h1, h2, h3, h4⟩ := strip_spec s
    have key : SpellsUnit (strip s) u := by
      rw [normalize_eq] at h
      split at h
      · rename_i hm; simp at h; subst h; exact .unit hm
      · rename_i hu
        split at h
        · rename_i v hv; simp at h; subst h; exact .word (lookup_mem hv)
        · rename_i hw
          split at h
          · simp at h
          · rename_i c hc
            split at h
            · rename_i hcs
              obtain ⟨k, e, hk⟩ := rstripS_spec (strip s)
              have hk0 : k ≠ 0 := by
                rintro rfl
                simp at e
                rw [← e] at hk
                exact hk (by rw [hc, hcs.1])
              obtain ⟨j, rfl⟩ : ∃ j, k = j + 1 := ⟨k - 1, by omega⟩
              have hlen := congrArg List.length e
              simp at hlen
              have hsl := strip_length s
              have hr := ih (rstripS (strip s)) u (by omega) h
              have hlen2 : (rstripS (strip s)).length + (j + 1) > 2 := by omega
              rw [e]
              refine .plural hk ?_ hlen2 ?_ ?_ hr
              · rw [← e]; exact h4
              · rw [← e]; exact hu
              · rw [← e]; exact fun v => lookup_none hw v
            · simp at h
    rw [h1]
    exact .space h2 h3 h4 key

theorem normalize_complete {s u : Str} (h : SpellsUnit s u) : normalizeTimeUnit s = .ok u := by
  induction h with
  | unit hu => rw [normalize_eq, units_trimmed _ hu, if_pos (by simpa [timeUnits_eq] using hu)]
  | word hw =>
    rw [normalize_eq, words_trimmed _ hw, if_neg (words_not_units _ hw), alias_lookup _ hw]
  | space ha hb hs _ ih =>
    rw [← ih]
    apply normalize_strip
    rw [strip_trim ha hb hs, strip_self hs]
  | @plural s k u hl ht hlen hu hw _ ih =>
    rw [normalize_eq, strip_self ht, if_neg (by simpa [timeUnits_eq] using hu)]
    have : unitAliases.lookup (s ++ List.replicate (k + 1) 115) = none := by
      cases h : unitAliases.lookup (s ++ List.replicate (k + 1) 115) with
      | none => rfl
      | some v => exact absurd (lookup_mem h) (hw v)
    rw [this]
    have hlast : (s ++ List.replicate (k + 1) 115).getLast? = some 115 := by
      rw [List.replicate_succ', ← List.append_assoc]; simp
    simp only [hlast]
    rw [if_pos (by simp; omega), rstripS_append _ hl, ih]

theorem normalize_error : ∀ (n : Nat) (s : Str) (e : PyErr), s.length < n → normalizeTimeUnit s = .error e →
    e = .valueError ∨ e = .indexError := by
  intro n
  induction n with
  | zero => intro s u h; omega
  | succ n ih =>
    intro s e hn h
    rw [normalize_eq] at h
    split at h
    · simp at h
    · split at h
      · simp at h
      · split at h
        · simp at h; simp [← h]
        · rename_i c hc
          split at h
          · rename_i hcs
            obtain ⟨k, e', hk⟩ := rstripS_spec (strip s)
            have hk0 : k ≠ 0 := by
              rintro rfl
              simp at e'
              rw [← e'] at hk
              exact hk (by rw [hc, hcs.1])
            have hlen := congrArg List.length e'
            simp at hlen
            have hsl := strip_length s
            exact ih _ _ (by omega) h
          · simp at h; simp [← h]

theorem normalize_no_fuel (s : Str) : normalizeTimeUnit s ≠ .error .fuel := by
  intro h
  have := normalize_error _ s _ (Nat.lt_succ_self _) h
  simp at this

end DS
