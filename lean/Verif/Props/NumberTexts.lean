import Verif.Proofs.NumberTexts
import Verif.Props.StrDiscovery
import Verif.Proofs.Numeral

set_option exponentiation.threshold 3000

/-
C68: which texts `discover` takes for numbers, truth values, durations and times of day, with Python's own `int`, `float` and `strptime`.
-/
namespace DS

/-- the kinds of text in terms of the grammars -/
theorem env_int (P : PyText) (s : Str) : IntText P.env s ↔ WholeText P s := int_iff P s

theorem env_floatTo (P : PyText) (s : Str) (v : Option Int) : P.env.float s = some v ↔ FloatReads P s v := float_iff P s v

theorem env_float (P : PyText) (s : Str) : FloatText P.env s ↔ ∃ v, FloatReads P s v := by
  unfold FloatText
  rw [Option.ne_none_iff_exists']
  simp only [env_floatTo]

theorem env_time (P : PyText) (s : Str) : TimeText P.env s ↔ ClockText P s := clock_iff P s

theorem env_count (P : PyText) (s : Str) (n : Int) (w : Str) :
    CountText P.env s n w ↔ ∃ v, TwoWords s v w ∧ FloatReads P v (some n) := by
  unfold CountText
  simp only [env_floatTo]

theorem ascii_space (P : PyText) (c : Nat) : isSpace (P.ascii c) = isSpace c := by
  unfold PyText.ascii
  split
  · rfl
  · split
    · rename_i h; rw [h]; decide
    · rename_i h
      rw [Bool.not_eq_true] at h
      rw [h]
      split
      · rename_i d _
        have h10 : ∀ d : Fin 10, isSpace (48 + d.val) = false := by decide
        exact h10 d
      · decide

theorem blank_space {c : Nat} (h : (9 ≤ c ∧ c ≤ 13) ∨ c = 32) : isSpace c = true := by
  unfold isSpace
  rcases h with h | rfl
  · simp [h]
  · decide

theorem plain_space {c : Nat} (h1 : 33 ≤ c) (h2 : c < 128) : isSpace c = false := by
  have : ∀ c : Fin 128, 33 ≤ c.1 → isSpace c.1 = false := by decide
  exact this ⟨c, h2⟩ h1

/-- a number is one word, and has no colon in it -/
theorem number_word {P : PyText} {s : Str} (h : WholeText P s ∨ ∃ v, FloatReads P s v) :
    ∃ a t b, s.map P.ascii = a ++ t ++ b ∧ (∀ c ∈ a, isSpace c = true) ∧ (∀ c ∈ b, isSpace c = true) ∧
      ∀ c ∈ t, isSpace c = false ∧ c ≠ 58 := by
  have wrap : ∀ {neg : Bool} {body : Str}, Wraps P s neg body → (∀ c ∈ body, (33 ≤ c ∧ c < 128) ∧ c ≠ 58) →
      ∃ a t b, s.map P.ascii = a ++ t ++ b ∧ (∀ c ∈ a, isSpace c = true) ∧ (∀ c ∈ b, isSpace c = true) ∧
        ∀ c ∈ t, isSpace c = false ∧ c ≠ 58 := by
    rintro neg body ⟨a, t, b, e, ha, hb, hs⟩ hc
    refine ⟨a, t, b, (readAs_iff.1 e).symm, fun c h => blank_space (ha c h), fun c h => blank_space (hb c h), fun c h => ?_⟩
    rcases signed_mem hs c h with rfl | rfl | h
    · decide
    · decide
    · exact ⟨plain_space (hc c h).1.1 (hc c h).1.2, (hc c h).2⟩
  have decimal : ∀ {body : Str} {m : Nat} {x : Int}, DecimalText body m x → ∀ c ∈ body, (33 ≤ c ∧ c < 128) ∧ c ≠ 58 := by
    intro body m x hd c hc
    rcases (decimal_chars hd).2.1 c hc with h | h
    · have := isDigit_iff.1 h; omega
    · omega
  rcases h with ⟨neg, body, ds, hw, hr, -⟩ | ⟨v, h⟩
  · refine wrap hw fun c hc => ?_
    rcases run_chars hr c hc with h | h
    · have := isDigit_iff.1 h; omega
    · omega
  · cases h with
    | special hw hs =>
      refine wrap hw fun c hc => ?_
      have := (special_chars ((specials_iff _).2 hs)).2 c hc
      omega
    | whole hw hd _ => exact wrap hw (decimal hd)
    | fraction hw hd _ => exact wrap hw (decimal hd)

theorem twoWords_not_number {P : PyText} {s v w : Str} (h : TwoWords s v w) : ¬ (WholeText P s ∨ ∃ v, FloatReads P s v) := by
  intro hn
  obtain ⟨a, t, b, e, ha, hb, ht⟩ := number_word hn
  obtain ⟨⟨hv, hv'⟩, ⟨hw, hw'⟩, a', b', c', ha', hb', hc', hne, rfl⟩ := h
  have hs := ascii_space P
  -- the flags of white space
  have e2 := congrArg (List.map isSpace) e
  rw [List.map_map, show isSpace ∘ P.ascii = isSpace from funext hs] at e2
  obtain ⟨v0, vs, rfl⟩ : ∃ x r, v = x :: r := by
    cases v with
    | nil => exact absurd rfl hv
    | cons x r => exact ⟨x, r, rfl⟩
  obtain ⟨w0, ws, rfl⟩ : ∃ x r, w = x :: r := by
    cases w with
    | nil => exact absurd rfl hw
    | cons x r => exact ⟨x, r, rfl⟩
  obtain ⟨b0, bs, rfl⟩ : ∃ x r, b' = x :: r := by
    cases b' with
    | nil => exact absurd rfl hne
    | cons x r => exact ⟨x, r, rfl⟩
  -- the first characters of the two words are in the number, and so is the white space between them
  have pos : ∀ (i : Nat) (f : Bool), (List.map isSpace (a' ++ v0 :: vs ++ b0 :: bs ++ w0 :: ws ++ c'))[i]? = some f →
      (f = false → a.length ≤ i ∧ i < a.length + t.length) ∧ (f = true → i < a.length ∨ a.length + t.length ≤ i) := by
    intro i f hf
    rw [e2] at hf
    simp only [List.map_append] at hf
    rw [List.append_assoc] at hf
    by_cases h1 : i < a.length
    · rw [List.getElem?_append_left (by simpa using h1), List.getElem?_map, List.getElem?_eq_getElem h1] at hf
      simp only [Option.map_some, Option.some.injEq] at hf
      rw [ha _ (List.getElem_mem h1)] at hf
      subst hf
      exact ⟨(fun h => by cases h), fun _ => .inl h1⟩
    · rw [List.getElem?_append_right (by simpa using h1), List.length_map] at hf
      by_cases h2 : i - a.length < t.length
      · rw [List.getElem?_append_left (by simpa using h2), List.getElem?_map, List.getElem?_eq_getElem h2] at hf
        simp only [Option.map_some, Option.some.injEq] at hf
        rw [(ht _ (List.getElem_mem h2)).1] at hf
        subst hf
        exact ⟨fun _ => by omega, (fun h => by cases h)⟩
      · rw [List.getElem?_append_right (by simpa using h2), List.getElem?_map, List.length_map] at hf
        obtain ⟨x, hx, rfl⟩ := Option.map_eq_some_iff.1 hf
        rw [hb _ (List.mem_of_getElem? hx)]
        exact ⟨(fun h => by cases h), fun _ => .inr (by omega)⟩
  have p1 := pos a'.length (isSpace v0) (by simp)
  have p2 := pos (a'.length + (vs.length + 1)) (isSpace b0) (by
    simp only [List.map_append, List.append_assoc, List.map_cons]
    rw [List.getElem?_append_right (by simp), List.getElem?_append_right (by simp)]
    simp)
  have p3 := pos (a'.length + (vs.length + 1) + (bs.length + 1)) (isSpace w0) (by
    simp only [List.map_append, List.append_assoc, List.map_cons]
    rw [List.getElem?_append_right (by simp; omega), List.getElem?_append_right (by simp; omega),
      List.getElem?_append_right (by simp; omega)]
    simp
    rw [show a'.length + (vs.length + 1) + (bs.length + 1) - a'.length - (vs.length + 1) - (bs.length + 1) = 0 by omega]
    rfl)
  have q1 := p1.1 (hv' v0 List.mem_cons_self)
  have q2 := p2.2 (hb' b0 List.mem_cons_self)
  have q3 := p3.1 (hw' w0 List.mem_cons_self)
  omega

theorem bool_not_number {P : PyText} {s : Str} (h : BoolText s) : ¬ IntText P.env s ∧ ¬ FloatText P.env s := by
  have h1 : P.env.int s = false ∧ P.env.float s = none := by
    rcases h with rfl | rfl | rfl | rfl <;> exact ⟨rfl, rfl⟩
  unfold IntText FloatText
  rw [h1.1, h1.2]
  exact ⟨(fun h => by cases h), fun h => h rfl⟩

theorem bool_one_word {s v w : Str} (h : TwoWords s v w) : ¬ BoolText s := by
  intro hb
  obtain ⟨-, -, a, b, c, -, h2, -, hne, e⟩ := h
  cases b with
  | nil => exact hne rfl
  | cons x r =>
    have h3 : x ∈ s := by rw [e]; simp
    have h4 := h2 x List.mem_cons_self
    have h5 : ∀ y ∈ s, isSpace y = false := by
      rcases hb with rfl | rfl | rfl | rfl <;> decide
    rw [h5 x h3] at h4; cases h4

theorem decimal_space {P : PyText} {c : Nat} (h : P.isDecimal c = true) : isSpace c = false := by
  unfold PyText.isDecimal at h
  rw [Bool.or_eq_true] at h
  rcases h with h | h
  · have := isDigit_iff.1 h
    exact plain_space (by omega) (by omega)
  · rw [Bool.and_eq_true] at h
    cases hs : isSpace c with
    | false => rfl
    | true => rw [P.digit_space c hs] at h; cases h.2

theorem clock_chars {P : PyText} {s : Str} (h : ClockText P s) : 58 ∈ s ∧ ∀ c ∈ s, isSpace c = false := by
  obtain ⟨h, m, c, f, rfl, hh, hm, hc, hf⟩ := h
  have h1 : ∀ x ∈ h, isSpace x = false := by
    intro x hx
    cases hh with
    | one hc => rw [List.mem_singleton.1 hx]; exact decimal_space (decimalChar_iff.1 hc)
    | two ht hc =>
      rcases List.mem_cons.1 hx with rfl | hx
      · exact plain_space (by omega) (by omega)
      · rw [List.mem_singleton.1 hx]; exact decimal_space (decimalChar_iff.1 hc)
    | late h1 h2 =>
      rcases List.mem_cons.1 hx with rfl | hx
      · decide
      · rw [List.mem_singleton.1 hx]; exact plain_space (by omega) (by omega)
  have h2 : ∀ {m : Str}, SixtyText P m → ∀ x ∈ m, isSpace x = false := by
    intro m hm x hx
    cases hm with
    | one hc => rw [List.mem_singleton.1 hx]; exact decimal_space (decimalChar_iff.1 hc)
    | two h1 h2 hc =>
      rcases List.mem_cons.1 hx with rfl | hx
      · exact plain_space (by omega) (by omega)
      · rw [List.mem_singleton.1 hx]; exact decimal_space (decimalChar_iff.1 hc)
  refine ⟨by simp, ?_⟩
  intro x hx
  simp only [List.mem_append, List.mem_cons] at hx
  rcases hx with hx | rfl | hx | rfl | hx | hx
  · exact h1 x hx
  · decide
  · exact h2 hm x hx
  · decide
  · exact h2 hc x hx
  · rcases hf with rfl | ⟨ds, rfl, -, -, hd⟩
    · simp at hx
    · rcases List.mem_cons.1 hx with rfl | hx
      · decide
      · have := isDigit_iff.1 (hd x hx)
        exact plain_space (by omega) (by omega)

theorem clock_not_number {P : PyText} {s : Str} (h : ClockText P s) : ¬ (WholeText P s ∨ ∃ v, FloatReads P s v) := by
  intro hn
  obtain ⟨a, t, b, e, ha, hb, ht⟩ := number_word hn
  have h58 : 58 ∈ s.map P.ascii := List.mem_map.2 ⟨58, (clock_chars h).1, rfl⟩
  rw [e] at h58
  rcases List.mem_append.1 h58 with h | h
  · rcases List.mem_append.1 h with h | h
    · exact absurd (ha _ h) (by decide)
    · exact (ht _ h).2 rfl
  · exact absurd (hb _ h) (by decide)

theorem clock_one_word {P : PyText} {s v w : Str} (h : ClockText P s) : ¬ TwoWords s v w := by
  rintro ⟨-, -, a, b, c, -, h2, -, hne, e⟩
  cases b with
  | nil => exact hne rfl
  | cons x r =>
    have h3 : x ∈ s := by rw [e]; simp
    have h4 := h2 x List.mem_cons_self
    rw [(clock_chars h).2 x h3] at h4; cases h4

theorem clock_not_bool {P : PyText} {s : Str} (h : ClockText P s) : ¬ BoolText s := by
  intro hb
  have h1 := (clock_chars h).1
  have h2 : 58 ∉ s := by rcases hb with rfl | rfl | rfl | rfl <;> decide
  exact h2 h1

/-! the properties -/

/-- `discover(s)` is `int64` exactly when `s` is a whole number, with a sign and blanks around, and the interpreter allows as many digits. -/
theorem C68.is_int (P : PyText) (topo : List Node) (s : Str) :
    discover (discoverStr P.env) topo (.str s) = .ok tInt64 ↔ WholeText P s := by
  by_cases hs : s = []
  · subst hs
    rw [← int_iff, (C46.null _ topo []).2 rfl]
    exact ⟨(fun h => by injection h with h; cases h), (fun h => by cases h)⟩
  · rw [C46.exact _ topo s hs, ← env_int]
    constructor
    · intro h; cases h; assumption
    · exact .int

/-- `discover(s)` is `float64` exactly when `s` is a number but not a whole number within the limit. -/
theorem C68.is_float (P : PyText) (topo : List Node) (s : Str) :
    discover (discoverStr P.env) topo (.str s) = .ok tFloat64 ↔ ¬ WholeText P s ∧ ∃ v, FloatReads P s v := by
  by_cases hs : s = []
  · subst hs
    rw [(C46.null _ topo []).2 rfl]
    refine ⟨(fun h => by injection h with h; cases h), ?_⟩
    rintro ⟨-, v, h⟩
    rw [← float_iff] at h
    cases h
  · rw [C46.exact _ topo s hs, ← env_int, ← env_float]
    constructor
    · intro h; cases h; exact ⟨by assumption, by assumption⟩
    · exact fun h => .float h.1 h.2

/-- `discover(s)` is `bool` exactly for the four words. -/
theorem C68.is_bool (P : PyText) (topo : List Node) (s : Str) :
    discover (discoverStr P.env) topo (.str s) = .ok tBool ↔
      s = py"True" ∨ s = py"true" ∨ s = py"False" ∨ s = py"false" := by
  by_cases hs : s = []
  · subst hs
    rw [(C46.null _ topo []).2 rfl]
    refine ⟨(fun h => by injection h with h; cases h), ?_⟩
    rintro (h | h | h | h) <;> cases h
  · rw [C46.exact _ topo s hs]
    constructor
    · intro h; cases h; assumption
    · exact fun h => .bool (bool_not_number h).1 (bool_not_number h).2 h

/-- `discover(s)` is a `timedelta` in the unit `u` exactly when `s` is two words, the first a number whose double is a whole number of 64 bits
and the second a spelling of `u`. -/
theorem C68.is_delta (P : PyText) (topo : List Node) (s u : Str) :
    discover (discoverStr P.env) topo (.str s) = .ok (.timedelta u) ↔
      ∃ v w n, TwoWords s v w ∧ FloatReads P v (some n) ∧ SpellsUnit w u ∧ Fits64 n := by
  by_cases hs : s = []
  · subst hs
    rw [(C46.null _ topo []).2 rfl]
    refine ⟨(fun h => by injection h with h; cases h), ?_⟩
    rintro ⟨v, w, n, ⟨⟨h, -⟩, -, a, b, c, -, -, -, -, e⟩, -⟩
    simp only [List.nil_eq, List.append_eq_nil_iff] at e
    exact absurd e.1.1.1.2 h
  · rw [C46.exact _ topo s hs]
    constructor
    · intro h
      cases h with
      | delta _ _ _ h =>
        obtain ⟨n, w, ⟨v, h1, h2⟩, h3, h4⟩ := h
        exact ⟨v, w, n, h1, (env_floatTo ..).1 h2, h3, h4⟩
    · rintro ⟨v, w, n, h1, h2, h3, h4⟩
      have hn := twoWords_not_number (P := P) h1
      exact .delta (fun h => hn (.inl ((env_int ..).1 h))) (fun h => hn (.inr ((env_float ..).1 h))) (bool_one_word h1)
        ⟨n, w, ⟨v, h1, (env_floatTo ..).2 h2⟩, h3, h4⟩

/-- `discover(s)` is `time` exactly when `s` is a time of day. -/
theorem C68.is_time (P : PyText) (topo : List Node) (s : Str) :
    discover (discoverStr P.env) topo (.str s) = .ok (.time none) ↔ ClockText P s := by
  by_cases hs : s = []
  · subst hs
    rw [(C46.null _ topo []).2 rfl]
    refine ⟨(fun h => by injection h with h; cases h), ?_⟩
    rintro ⟨h, m, c, f, e, -⟩
    simp at e
  · rw [C46.exact _ topo s hs]
    constructor
    · intro h
      cases h with
      | time _ _ _ _ _ h => exact (env_time ..).1 h
    · intro h
      have hn := clock_not_number h
      refine .time (fun h => hn (.inl ((env_int ..).1 h))) (fun h => hn (.inr ((env_float ..).1 h))) (clock_not_bool h) ?_ ?_
        ((env_time ..).2 h)
      · rintro u ⟨n, w, ⟨v, h1, -⟩, -⟩
        exact clock_one_word h h1
      · intro e he
        cases he with
        | overflow hc _ _ => obtain ⟨v, h1, -⟩ := hc; exact clock_one_word h h1
        | index hc => obtain ⟨v, h1, -⟩ := hc; exact clock_one_word h h1

/-- `discover(s)` raises `OverflowError` exactly when `s` is a number and a unit, and the double of the number is whole but does not fit
64 bits. -/
theorem C68.overflow (P : PyText) (topo : List Node) (s : Str) :
    discover (discoverStr P.env) topo (.str s) = .error .overflow ↔
      ∃ v w u n, TwoWords s v w ∧ FloatReads P v (some n) ∧ SpellsUnit w u ∧ ¬ Fits64 n := by
  by_cases hs : s = []
  · subst hs
    rw [(C46.null _ topo []).2 rfl]
    refine ⟨(fun h => by cases h), ?_⟩
    rintro ⟨v, w, u, n, ⟨⟨h, -⟩, -, a, b, c, -, -, -, -, e⟩, -⟩
    simp only [List.nil_eq, List.append_eq_nil_iff] at e
    exact absurd e.1.1.1.2 h
  · rw [C46.raises _ topo s hs]
    constructor
    · intro h
      cases h with
      | delta _ _ _ h =>
        cases h with
        | @overflow n w u h1 h2 h3 =>
          obtain ⟨v, h4, h5⟩ := h1
          exact ⟨v, w, u, n, h4, (env_floatTo ..).1 h5, h2, h3⟩
      | dateutil _ _ _ h => exact absurd rfl h
    · rintro ⟨v, w, u, n, h1, h2, h3, h4⟩
      have hn := twoWords_not_number (P := P) h1
      exact .delta (fun h => hn (.inl ((env_int ..).1 h))) (fun h => hn (.inr ((env_float ..).1 h))) (bool_one_word h1)
        (.overflow ⟨v, h1, (env_floatTo ..).2 h2⟩ h3 h4)

/-! numbers as Python prints them -/

theorem run_of_digits {s : Str} (hne : s ≠ []) (h : ∀ c ∈ s, isDigit c = true) : DigitRun s s := by
  induction s with
  | nil => exact absurd rfl hne
  | cons c r ih =>
    cases r with
    | nil => exact .one (h c List.mem_cons_self)
    | cons d q =>
      exact .next (h c List.mem_cons_self) (ih (List.cons_ne_nil _ _) fun x hx => h x (List.mem_cons_of_mem _ hx))

theorem run_natStr (n : Nat) : DigitRun (natStr n) (natStr n) := by
  obtain ⟨c, r, e, -⟩ := natStr_cons n
  exact run_of_digits (by rw [e]; exact List.cons_ne_nil _ _) (natStr_digits n)

theorem ascii_id {P : PyText} {s : Str} (h : ∀ c ∈ s, c < 128) : s.map P.ascii = s := by
  induction s with
  | nil => rfl
  | cons c r ih =>
    rw [List.map_cons, ih fun x hx => h x (List.mem_cons_of_mem _ hx)]
    unfold PyText.ascii
    rw [if_pos (h c List.mem_cons_self)]

theorem natStr_ascii (n : Nat) : ∀ c ∈ natStr n, c < 128 := by
  intro c hc
  have := isDigit_iff.1 (natStr_digits n c hc)
  omega

theorem wraps_nat (P : PyText) (n : Nat) : Wraps P (natStr n) false (natStr n) :=
  ⟨[], natStr n, [], readAs_iff.2 (by rw [ascii_id (natStr_ascii n)]; simp), (fun c h => by simp at h), (fun c h => by simp at h), .plain⟩

theorem wraps_neg (P : PyText) (n : Nat) : Wraps P (45 :: natStr n) true (natStr n) := by
  refine ⟨[], 45 :: natStr n, [], ?_, (fun c h => by simp at h), (fun c h => by simp at h), .minus⟩
  rw [readAs_iff, ascii_id]
  · simp
  · intro c hc
    rcases List.mem_cons.1 hc with rfl | hc
    · decide
    · exact natStr_ascii n c hc

/-- `discover(str(i))` is `int64` for every integer `i` that is not too long for the interpreter, however large, -/
theorem C68.integers (P : PyText) (topo : List Node) (i : Int) (h : ∀ n, P.maxDigits = some n → (natStr i.natAbs).length ≤ n) :
    discover (discoverStr P.env) topo (.str (intStr i)) = .ok tInt64 := by
  rw [C68.is_int]
  cases i with
  | ofNat n => exact ⟨false, _, _, wraps_nat P n, run_natStr n, h⟩
  | negSucc n => exact ⟨true, _, _, wraps_neg P (n + 1), run_natStr (n + 1), h⟩

theorem natStr_decimalText (n : Nat) : DecimalText (natStr n) n 0 := by
  have := DecimalText.whole (run_natStr n) ExponentText.none
  rw [List.append_nil, digitsNumber_eq, digitsVal_natStr] at this
  exact this

theorem reads_total {P : PyText} {s body : Str} {neg : Bool} {m : Nat} {x : Int} (hw : Wraps P s neg body)
    (hd : DecimalText body m x) : ∃ v, FloatReads P s v := by
  by_cases h : ∃ n, WholeDouble m x n
  · obtain ⟨n, h⟩ := h
    exact ⟨_, .whole hw hd h⟩
  · exact ⟨_, .fraction hw hd fun n hn => h ⟨n, hn⟩⟩

theorem wraps_unique {P : PyText} {s body body' : Str} {neg neg' : Bool} (h : Wraps P s neg body) (h' : Wraps P s neg' body')
    (hb : body ≠ [] ∧ (∀ c ∈ body, cSpace c = false) ∧ ∀ c q, body = c :: q → c ≠ 45 ∧ c ≠ 43)
    (hb' : body' ≠ [] ∧ (∀ c ∈ body', cSpace c = false) ∧ ∀ c q, body' = c :: q → c ≠ 45 ∧ c ≠ 43) :
    neg = neg' ∧ body = body' := by
  have h1 := takeSign_signed (wraps_strip h hb.1 hb.2.1) hb.2.2
  have h2 := takeSign_signed (wraps_strip h' hb'.1 hb'.2.1) hb'.2.2
  rw [h1] at h2
  injection h2 with h3 h4
  exact ⟨h3, h4⟩

/-- and `float64` if it is too long. -/
theorem C68.long_integers (P : PyText) (topo : List Node) (i : Int) (n : Nat) (hn : P.maxDigits = some n)
    (h : n < (natStr i.natAbs).length) : discover (discoverStr P.env) topo (.str (intStr i)) = .ok tFloat64 := by
  rw [C68.is_float]
  have key : ∀ {s : Str} {neg : Bool} {m : Nat}, n < (natStr m).length → Wraps P s neg (natStr m) →
      ¬ WholeText P s ∧ ∃ v, FloatReads P s v := by
    intro s neg m hl hw
    refine ⟨?_, reads_total hw (natStr_decimalText m)⟩
    rintro ⟨neg', body, ds, hw', hr, hlim⟩
    have h1 := run_natStr m
    have h2 := wraps_unique hw hw' ⟨run_ne h1, run_blankless h1, run_noSign h1⟩ ⟨run_ne hr, run_blankless hr, run_noSign hr⟩
    obtain ⟨-, rfl⟩ := h2
    have h3 : ds = natStr m := by rw [← run_drop hr, run_drop h1]
    subst h3
    have := hlim n hn
    omega
  cases i with
  | ofNat m => exact key h (wraps_nat P m)
  | negSucc m => exact key h (wraps_neg P (m + 1))

/-! counts of a unit -/

theorem double_pow (k e : Nat) (h : k < 2 ^ 53) : Double (k * 2 ^ e) := ⟨k, e, h, rfl⟩

/-- the double nearest to a natural number is a natural number -/
theorem nearest_whole {n D : Nat} (h : NearestDouble n 1 D) : ∃ N, D = N * 2 ^ 1074 := by
  obtain ⟨⟨m, e, hm, rfl⟩, hD⟩ := h
  simp only [Nat.mul_one] at hD
  by_cases he : 1074 ≤ e
  · exact ⟨m * 2 ^ (e - 1074), by rw [Nat.mul_assoc, ← Nat.pow_add, Nat.sub_add_cancel he]⟩
  have hlt : m * 2 ^ e < 2 ^ 52 * 2 ^ 1074 := by
    have h2 : m * 2 ^ e < 2 ^ 53 * 2 ^ e := Nat.mul_lt_mul_of_pos_right hm (Nat.pow_pos (by decide))
    have h3 : 2 ^ 53 * 2 ^ e ≤ 2 ^ 52 * 2 ^ 1074 := by
      rw [← Nat.pow_add, ← Nat.pow_add]
      exact Nat.pow_le_pow_right (by decide) (by omega)
    exact Nat.lt_of_lt_of_le h2 h3
  by_cases hn : n < 2 ^ 53
  · by_cases heq : n * 2 ^ 1074 = m * 2 ^ e
    · exact ⟨n, heq.symm⟩
    · exfalso
      have := hD _ (double_pow n 1074 hn) heq
      unfold dist at this
      omega
  · exfalso
    have h1 : 2 ^ 52 * 2 ^ 1074 ≤ n * 2 ^ 1074 := Nat.mul_le_mul_right _ (by omega)
    have := hD _ (double_pow (2 ^ 52) 1074 (by decide)) (by omega)
    unfold dist at this
    omega

theorem nearest_exists (n : Nat) : ∃ N, NearestDouble n 1 (N * 2 ^ 1074) := by
  obtain ⟨D, hD, -⟩ := trueDiv_nearest (a := n) (b := 1) (by decide)
  obtain ⟨N, rfl⟩ := nearest_whole hD
  exact ⟨N, hD⟩

theorem dist_scale (x y : Nat) : dist (x * 2 ^ 1074 * 1) (y * 2 ^ 1074) = dist x y * 2 ^ 1074 := by
  rw [Nat.mul_one, dist_mul]

/-- rounding is monotone: it does not pass a natural number that is a double -/
theorem nearest_compare {n N M : Nat} (h : NearestDouble n 1 (N * 2 ^ 1074)) (hM : Double (M * 2 ^ 1074)) :
    (M ≤ n → M ≤ N) ∧ (n ≤ M → N ≤ M) := by
  have hp : 0 < 2 ^ 1074 := Nat.pow_pos (by decide)
  have key : M ≠ N → dist N n ≤ dist M n := by
    intro hne
    have := h.2 _ hM (fun e => hne (Nat.eq_of_mul_eq_mul_right hp e))
    rw [dist_scale, dist_scale] at this
    refine Nat.le_of_mul_le_mul_right ?_ hp
    omega
  unfold dist at key
  refine ⟨fun h1 => Nat.le_of_not_lt fun h2 => ?_, fun h1 => Nat.le_of_not_lt fun h2 => ?_⟩
  · have := key (by omega); omega
  · have := key (by omega); omega

theorem double_nat {m e : Nat} (h : m < 2 ^ 53) : Double (m * 2 ^ e * 2 ^ 1074) :=
  ⟨m, e + 1074, h, by rw [Nat.pow_add, Nat.mul_assoc]⟩

/-- below half a step from `2^(j+54)`, the double is below it -/
theorem nearest_below {n N j : Nat} (h : NearestDouble n 1 (N * 2 ^ 1074)) (hn : n + 2 ^ j < 2 ^ 53 * 2 ^ (j + 1)) :
    N < 2 ^ 53 * 2 ^ (j + 1) := by
  refine Nat.lt_of_not_le fun hge => ?_
  have hX : Double ((2 ^ 53 - 1) * 2 ^ (j + 1) * 2 ^ 1074) := double_nat (by decide)
  have hp : 0 < 2 ^ 1074 := Nat.pow_pos (by decide)
  have hj : 0 < 2 ^ j := Nat.pow_pos (by decide)
  have hU : 2 ^ (j + 1) = 2 ^ j * 2 := Nat.pow_succ ..
  rw [hU] at hX hge hn
  clear hU
  generalize 2 ^ j = H at *
  have := h.2 _ hX (fun e => by have := Nat.eq_of_mul_eq_mul_right hp e; omega)
  rw [dist_scale, dist_scale] at this
  have : dist N n ≤ dist ((2 ^ 53 - 1) * (H * 2)) n := by
    refine Nat.le_of_mul_le_mul_right ?_ hp
    omega
  unfold dist at this
  omega

theorem nearest_above {n N j : Nat} (h : NearestDouble n 1 (N * 2 ^ 1074)) (hn : 2 ^ 53 * 2 ^ (j + 1) ≤ n + 2 ^ j) :
    2 ^ 53 * 2 ^ (j + 1) ≤ N := by
  refine Nat.le_of_not_lt fun hlt => ?_
  have hp : 0 < 2 ^ 1074 := Nat.pow_pos (by decide)
  have hj : 0 < 2 ^ j := Nat.pow_pos (by decide)
  have hX : N ≤ (2 ^ 53 - 1) * 2 ^ (j + 1) := by
    obtain ⟨m, e, hm, hN⟩ := h.1
    by_cases he : j + 1 + 1074 ≤ e
    · have e1 : N = m * 2 ^ (e - (j + 1 + 1074)) * 2 ^ (j + 1) := by
        refine Nat.eq_of_mul_eq_mul_right hp ?_
        rw [hN, Nat.mul_assoc m, ← Nat.pow_add, Nat.mul_assoc m, ← Nat.pow_add]
        congr 2; omega
      rw [e1] at hlt ⊢
      have := Nat.lt_of_mul_lt_mul_right hlt
      exact Nat.mul_le_mul_right _ (by omega)
    · refine Nat.le_of_mul_le_mul_right ?_ hp
      rw [hN, Nat.mul_assoc, ← Nat.pow_add]
      exact Nat.mul_le_mul (by omega) (Nat.pow_le_pow_right (by decide) (by omega))
  have hY : Double (2 ^ 53 * 2 ^ (j + 1) * 2 ^ 1074) := by
    have := double_nat (m := 1) (e := 53 + (j + 1)) (by decide)
    rwa [Nat.one_mul, Nat.pow_add] at this
  have h1 := h.2 _ hY (fun e => by have := Nat.eq_of_mul_eq_mul_right hp e; omega)
  rw [dist_scale, dist_scale] at h1
  have hU : 2 ^ (j + 1) = 2 ^ j * 2 := Nat.pow_succ ..
  rcases h1 with h1 | ⟨h1, m, e, hm, he⟩
  · have := Nat.lt_of_mul_lt_mul_right h1
    rw [hU] at this hX hn hlt
    generalize 2 ^ j = H at *
    unfold dist at this
    omega
  · have h2 := Nat.eq_of_mul_eq_mul_right hp h1
    have hNX : N = (2 ^ 53 - 1) * 2 ^ (j + 1) := by
      rw [hU] at h2 hX hn hlt ⊢
      generalize 2 ^ j = H at *
      unfold dist at h2
      omega
    rw [hNX, Nat.mul_assoc, ← Nat.pow_add] at he
    generalize j + 1 + 1074 = K at he
    by_cases hle : e + 1 ≤ K
    · rw [show K = (K - (e + 1)) + (e + 1) by omega, Nat.pow_add, ← Nat.mul_assoc] at he
      have h3 := Nat.eq_of_mul_eq_mul_right (Nat.pow_pos (by decide)) he
      have h4 : (2 ^ 53 - 1) * 1 ≤ (2 ^ 53 - 1) * 2 ^ (K - (e + 1)) :=
        Nat.mul_le_mul_left _ (Nat.pow_pos (by decide))
      omega
    · rw [show e + 1 = (e - K) + 1 + K by omega, Nat.pow_add, ← Nat.mul_assoc] at he
      have h3 := Nat.eq_of_mul_eq_mul_right (Nat.pow_pos (by decide)) he
      rw [Nat.pow_succ (n := 2) (m := e - K), ← Nat.mul_assoc] at h3
      generalize m * 2 ^ (e - K) = q at h3
      omega

theorem natStr_word (n : Nat) : IsWord (natStr n) := by
  obtain ⟨c, r, e, -⟩ := natStr_cons n
  refine ⟨by rw [e]; exact List.cons_ne_nil _ _, fun c hc => ?_⟩
  have := isDigit_iff.1 (natStr_digits n c hc)
  exact plain_space (by omega) (by omega)

theorem count_words (n : Nat) {w : Str} (hw : IsWord w) : TwoWords (natStr n ++ 32 :: w) (natStr n) w :=
  ⟨natStr_word n, hw, [], [32], [], (fun c h => by simp at h), (fun c h => by rw [List.mem_singleton.1 h]; decide),
    (fun c h => by simp at h), by simp, by simp⟩

theorem wholeDouble_nat {n N : Nat} : WholeDouble n 0 N ↔ NearestDouble n 1 (N * 2 ^ 1074) ∧ N < 2 ^ 1024 := by
  unfold WholeDouble
  simp

/-- The text `n unit`, for a natural number `n`: a duration up to `2^63 - 513`; `OverflowError` from `2^63 - 512` on, although the next 512
numbers fit 64 bits; and neither from `2^1024 - 2^970` on, which is where a number is too large for a double. -/
theorem C68.counts (P : PyText) (topo : List Node) (n : Nat) (w u : Str) (hw : IsWord w) (hu : SpellsUnit w u) :
    (n ≤ 9223372036854775295 → discover (discoverStr P.env) topo (.str (natStr n ++ 32 :: w)) = .ok (.timedelta u)) ∧
    (9223372036854775296 ≤ n → n < 2 ^ 1024 - 2 ^ 970 →
      discover (discoverStr P.env) topo (.str (natStr n ++ 32 :: w)) = .error .overflow) ∧
    (2 ^ 1024 - 2 ^ 970 ≤ n → discover (discoverStr P.env) topo (.str (natStr n ++ 32 :: w)) ≠ .error .overflow ∧
      ∀ u', discover (discoverStr P.env) topo (.str (natStr n ++ 32 :: w)) ≠ .ok (.timedelta u')) := by
  obtain ⟨N, hN⟩ := nearest_exists n
  have h2 := count_words n hw
  have hdec := natStr_decimalText n
  have small : N < 2 ^ 1024 → FloatReads P (natStr n) (some (N : Int)) := by
    intro h
    have := FloatReads.whole (wraps_nat P n) hdec (wholeDouble_nat.2 ⟨hN, h⟩)
    simpa using this
  have e63 : 2 ^ 53 * 2 ^ (9 + 1) = 9223372036854775808 := by decide
  have e1024 : 2 ^ 53 * 2 ^ (970 + 1) = 2 ^ 1024 := by rw [← Nat.pow_add]
  have hlt : 2 ^ 970 < 2 ^ 1024 := Nat.pow_lt_pow_right (by decide) (by decide)
  refine ⟨fun h => ?_, fun h h' => ?_, fun h => ?_⟩
  · rw [C68.is_delta]
    have h3 := nearest_below (j := 9) hN (by omega)
    rw [e63] at h3
    have h4 : (2 : Nat) ^ 63 ≤ 2 ^ 1024 := Nat.pow_le_pow_right (by decide) (by decide)
    exact ⟨_, w, N, h2, small (by omega), hu, by unfold Fits64; omega⟩
  · rw [C68.overflow]
    have h3 := nearest_above (j := 9) hN (by omega)
    rw [e63] at h3
    have h4 := nearest_below (j := 970) hN (by rw [e1024]; omega)
    rw [e1024] at h4
    exact ⟨_, w, u, N, h2, small h4, hu, by unfold Fits64; omega⟩
  · have h4 := nearest_above (j := 970) hN (by rw [e1024]; omega)
    rw [e1024] at h4
    have none : P.env.float (natStr n) = some none := by
      rw [env_floatTo]
      refine .fraction (wraps_nat P n) hdec fun N' hN' => ?_
      rw [wholeDouble_nat] at hN'
      have := nearest_unique (by decide) hN hN'.1
      have := Nat.eq_of_mul_eq_mul_right (Nat.pow_pos (by decide)) this
      omega
    have no : ∀ v w' x, TwoWords (natStr n ++ 32 :: w) v w' → ¬ FloatReads P v (some x) := by
      intro v w' x h1 h5
      obtain ⟨rfl, -⟩ := h1.unique h2
      rw [← env_floatTo, none] at h5
      cases h5
    refine ⟨fun h => ?_, fun u' h => ?_⟩
    · obtain ⟨v, w', u', x, h1, h5, -⟩ := (C68.overflow ..).1 h
      exact no v w' x h1 h5
    · obtain ⟨v, w', x, h1, h5, -⟩ := (C68.is_delta ..).1 h
      exact no v w' x h1 h5

/-- a Python that knows the digits of Arabic, without dates -/
def samplePython : PyText where
  digit c := if 0x660 ≤ c then if h : c - 0x660 < 10 then some ⟨c - 0x660, h⟩ else none else none
  digit_space c h := by
    split
    · split
      · exfalso
        have : ∀ d : Fin 10, isSpace (0x660 + d.val) = false := by decide
        have h2 := this ⟨c - 0x660, by assumption⟩
        rw [show 0x660 + (c - 0x660) = c by omega, h] at h2
        cases h2
      · rfl
    · rfl
  maxDigits := some 4300
  isAlpha c := isLower c || isUpperA c
  dateparse _ := .error .valueError

/-- `' +1_000 '`, `'-٣'` and `'00'` are `int64`; `'1e3'`, `'.5'`, `'-Infinity'` and `'nan'` are `float64`; `'1__0'`, `'1_'`, `'1 000'` and `'0x10'` are
strings (as far as dateutil does not read dates in them). -/
theorem C68.examples_numbers (topo : List Node) :
    (∀ s ∈ [py" +1_000 ", [45, 0x663], py"00"], discover (discoverStr samplePython.env) topo (.str s) = .ok tInt64) ∧
    (∀ s ∈ [py"1e3", py".5", py"-Infinity", py"nan"], discover (discoverStr samplePython.env) topo (.str s) = .ok tFloat64) ∧
    (∀ s ∈ [py"1__0", py"1_", py"1 000", py"0x10"], discover (discoverStr samplePython.env) topo (.str s) = .ok tString) := by
  refine ⟨fun s hs => ?_, fun s hs => ?_, fun s hs => ?_⟩ <;> simp only [List.mem_cons, List.not_mem_nil, or_false] at hs
  · rcases hs with rfl | rfl | rfl <;> rfl
  · rcases hs with rfl | rfl | rfl | rfl <;> rfl
  · rcases hs with rfl | rfl | rfl | rfl <;> rfl

/-- `'1.5e1 hours'` and `'-0 D'` are durations and `'0.5 hours'` is not; `'9223372036854775807 hours'` raises `OverflowError`. `'7:05:59.25'` is a time of
day and `'7:05:60'` is not. -/
theorem C68.examples (topo : List Node) :
    discover (discoverStr samplePython.env) topo (.str (py"1.5e1 hours")) = .ok (.timedelta (py"h")) ∧
    discover (discoverStr samplePython.env) topo (.str (py"-0 D")) = .ok (.timedelta (py"D")) ∧
    discover (discoverStr samplePython.env) topo (.str (py"0.5 hours")) = .ok tString ∧
    discover (discoverStr samplePython.env) topo (.str (py"9223372036854775807 hours")) = .error .overflow ∧
    discover (discoverStr samplePython.env) topo (.str (py"7:05:59.25")) = .ok (.time none) ∧
    discover (discoverStr samplePython.env) topo (.str (py"7:05:60")) = .ok tString :=
  ⟨rfl, rfl, rfl, rfl, rfl, rfl⟩

end DS
