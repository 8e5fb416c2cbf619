import Verif.Proofs.Doubles
import Verif.Spec.NumberTexts

set_option exponentiation.threshold 3000

/-! `int`, `float` and `strptime` accept exactly the texts of the grammars. -/
namespace DS

theorem cSpace_iff {c : Nat} : cSpace c = true ↔ (9 ≤ c ∧ c ≤ 13) ∨ c = 32 := by
  unfold cSpace
  simp

theorem blanks_iff {s : Str} : Blanks s ↔ ∀ c ∈ s, cSpace c = true := by
  unfold Blanks
  simp only [cSpace_iff]

theorem dropWhile_front {p : Nat → Bool} {a s : Str} (h : ∀ c ∈ a, p c = true) :
    (a ++ s).dropWhile p = s.dropWhile p := by
  induction a with
  | nil => rfl
  | cons c r ih =>
    rw [List.cons_append, List.dropWhile_cons, if_pos (h c List.mem_cons_self)]
    exact ih fun x hx => h x (List.mem_cons_of_mem _ hx)

theorem dropWhile_id {p : Nat → Bool} {s : Str} (h : ∀ c ∈ s, p c = false) : s.dropWhile p = s := by
  cases s with
  | nil => rfl
  | cons c r => rw [List.dropWhile_cons, if_neg (by rw [h c List.mem_cons_self]; decide)]

/-- text without blanks is what is left of it between blanks -/
theorem cStrip_of {a t b : Str} (ha : Blanks a) (hb : Blanks b) (ht : ∀ c ∈ t, cSpace c = false) (hne : t ≠ []) :
    cStrip (a ++ t ++ b) = t := by
  unfold cStrip
  rw [List.append_assoc, dropWhile_front (blanks_iff.1 ha)]
  obtain ⟨c, r, rfl⟩ : ∃ c r, t = c :: r := by
    cases t with
    | nil => exact absurd rfl hne
    | cons c r => exact ⟨c, r, rfl⟩
  rw [List.cons_append, List.dropWhile_cons, if_neg (by rw [ht c List.mem_cons_self]; decide), ← List.cons_append,
    List.reverse_append, dropWhile_front (fun x hx => blanks_iff.1 hb x (List.mem_reverse.1 hx)),
    dropWhile_id (fun x hx => ht x (List.mem_reverse.1 hx)), List.reverse_reverse]

theorem dropWhile_split {p : Nat → Bool} (s : Str) : ∃ a, s = a ++ s.dropWhile p ∧ ∀ c ∈ a, p c = true :=
  ⟨s.takeWhile p, (List.takeWhile_append_dropWhile).symm, fun c hc => by
    induction s with
    | nil => simp at hc
    | cons d r ih =>
      rw [List.takeWhile_cons] at hc
      split at hc
      · rename_i hd
        rcases List.mem_cons.1 hc with rfl | h
        · exact hd
        · exact ih h
      · simp at hc⟩

theorem cStrip_split (s : Str) : ∃ a b, s = a ++ cStrip s ++ b ∧ Blanks a ∧ Blanks b := by
  obtain ⟨a, h1, h2⟩ := dropWhile_split (p := cSpace) s
  obtain ⟨b, h3, h4⟩ := dropWhile_split (p := cSpace) (s.dropWhile cSpace).reverse
  refine ⟨a, b.reverse, ?_, blanks_iff.2 h2, blanks_iff.2 fun c hc => h4 c (List.mem_reverse.1 hc)⟩
  have h5 := congrArg List.reverse h3
  rw [List.reverse_reverse, List.reverse_append] at h5
  unfold cStrip
  rw [List.append_assoc, ← h5]
  exact h1

theorem isDigit_iff {c : Nat} : isDigit c = true ↔ 48 ≤ c ∧ c ≤ 57 := by
  unfold isDigit
  simp

theorem under_other {c : Nat} (p : Bool) (r : Str) (h : c ≠ 95) : underscoresOk p (c :: r) = underscoresOk (isDigit c) r := by
  conv => lhs; unfold underscoresOk
  split
  · rename_i e; exact absurd e (by simp)
  · rename_i e; injection e with e1 e2; exact absurd e1 h
  · rename_i e; injection e with e1 e2; subst e1; subst e2; rfl

theorem under_under (p : Bool) (r : Str) :
    underscoresOk p (95 :: r) = (p && startsDigit r && underscoresOk false r) := rfl

theorem digit_ne_under {c : Nat} (h : isDigit c = true) : c ≠ 95 := by
  have := isDigit_iff.1 h
  omega

theorem run_head {s ds : Str} (h : DigitRun s ds) : ∃ c r, s = c :: r ∧ isDigit c = true ∧ ∃ q, ds = c :: q := by
  cases h with
  | one h => exact ⟨_, _, rfl, h, _, rfl⟩
  | next h _ => exact ⟨_, _, rfl, h, _, rfl⟩
  | under h _ => exact ⟨_, _, rfl, h, _, rfl⟩

theorem run_under {s ds : Str} (h : DigitRun s ds) (r : Str) : ∀ p, underscoresOk p (s ++ r) = underscoresOk true r := by
  induction h with
  | one h => intro p; rw [List.singleton_append, under_other _ _ (digit_ne_under h), h]
  | next h _ ih => intro p; rw [List.cons_append, under_other _ _ (digit_ne_under h)]; exact ih _
  | under h h2 ih =>
    intro p
    obtain ⟨c, q, rfl, hc, -⟩ := run_head h2
    rw [List.cons_append, under_other _ _ (digit_ne_under h), h, List.cons_append, under_under, ih]
    simp [hc, startsDigit]

theorem drop_append (s t : Str) : dropUnderscores (s ++ t) = dropUnderscores s ++ dropUnderscores t := List.filter_append ..

theorem drop_cons {c : Nat} (t : Str) (h : c ≠ 95) : dropUnderscores (c :: t) = c :: dropUnderscores t :=
  List.filter_cons_of_pos (by simp [h])

theorem drop_under (t : Str) : dropUnderscores (95 :: t) = dropUnderscores t := List.filter_cons_of_neg (by simp)

theorem run_drop {s ds : Str} (h : DigitRun s ds) : dropUnderscores s = ds := by
  induction h with
  | one h => rw [drop_cons _ (digit_ne_under h)]; rfl
  | next h _ ih => rw [drop_cons _ (digit_ne_under h), ih]
  | under h _ ih => rw [drop_cons _ (digit_ne_under h), drop_under, ih]

theorem run_digits {s ds : Str} (h : DigitRun s ds) : ∀ c ∈ ds, isDigit c = true := by
  induction h with
  | one h => intro c hc; rw [List.mem_singleton.1 hc]; exact h
  | next h _ ih =>
    intro c hc
    rcases List.mem_cons.1 hc with rfl | hc
    · exact h
    · exact ih c hc
  | under h _ ih =>
    intro c hc
    rcases List.mem_cons.1 hc with rfl | hc
    · exact h
    · exact ih c hc

/-- nothing, or a character that is no digit and no underscore -/
def Stops (r : Str) : Prop := ∀ c q, r = c :: q → isDigit c = false ∧ c ≠ 95

theorem stops_under {r : Str} (h : Stops r) (p q : Bool) : underscoresOk p r = underscoresOk q r := by
  cases r with
  | nil => rfl
  | cons c r => rw [under_other _ _ (h c r rfl).2, under_other _ _ (h c r rfl).2]

theorem stops_drop {r : Str} (h : Stops r) : Stops (dropUnderscores r) ∧ (dropUnderscores r = [] ↔ r = []) := by
  cases r with
  | nil => exact ⟨h, Iff.rfl⟩
  | cons c r =>
    rw [drop_cons _ (h c r rfl).2]
    refine ⟨?_, by simp⟩
    intro d q e
    injection e with e1 e2
    exact e1 ▸ h c r rfl

theorem split_run (n : Nat) : ∀ s : Str, s.length ≤ n → underscoresOk false s = true →
    ∃ i ds r, s = i ++ r ∧ Digits i ds ∧ Stops r ∧ underscoresOk false r = true := by
  induction n with
  | zero =>
    intro s h _
    rw [List.length_eq_zero_iff.1 (Nat.le_zero.1 h)]
    exact ⟨[], [], [], rfl, .none, (fun c q e => by cases e), rfl⟩
  | succ n ih =>
    intro s hl h
    cases s with
    | nil => exact ⟨[], [], [], rfl, .none, (fun c q e => by cases e), rfl⟩
    | cons c s' =>
      have hc : c ≠ 95 := by
        rintro rfl
        rw [under_under] at h
        simp at h
      rw [under_other _ _ hc] at h
      cases hd : isDigit c with
      | false =>
        rw [hd] at h
        refine ⟨[], [], c :: s', rfl, .none, ?_, ?_⟩
        · intro d q e
          injection e with e1 e2
          exact e1 ▸ ⟨hd, hc⟩
        · rw [under_other _ _ hc, hd]; exact h
      | true =>
        rw [hd] at h
        cases s' with
        | nil => exact ⟨[c], [c], [], rfl, .run (.one hd), (fun c q e => by cases e), rfl⟩
        | cons d s'' =>
          by_cases hu : d = 95
          · subst hu
            rw [under_under] at h
            simp only [Bool.and_eq_true] at h
            obtain ⟨i, ds, r, rfl, hi, hr, ho⟩ := ih s'' (by simp only [List.length_cons] at hl; omega) h.2
            cases hi with
            | none =>
              exfalso
              have h2 := h.1.2
              rw [List.nil_append] at h2
              cases r with
              | nil => cases h2
              | cons e q =>
                have := (hr e q rfl).1
                simp only [startsDigit] at h2
                rw [h2] at this; cases this
            | run hi => exact ⟨c :: 95 :: i, c :: ds, r, rfl, .run (.under hd hi), hr, ho⟩
          · rw [under_other _ _ hu, ← under_other false _ hu] at h
            obtain ⟨i, ds, r, e, hi, hr, ho⟩ := ih (d :: s'') (by simp only [List.length_cons] at hl ⊢; omega) h
            rw [e]
            cases hi with
            | none => exact ⟨[c], [c], r, rfl, .run (.one hd), hr, ho⟩
            | run hi => exact ⟨c :: i, c :: ds, r, rfl, .run (.next hd hi), hr, ho⟩

theorem digits_drop {s ds : Str} (h : Digits s ds) : dropUnderscores s = ds := by
  cases h with
  | none => rfl
  | run h => exact run_drop h

theorem digits_digits {s ds : Str} (h : Digits s ds) : ∀ c ∈ ds, isDigit c = true := by
  cases h with
  | none => intro c hc; simp at hc
  | run h => exact run_digits h

theorem digits_under {s ds : Str} (h : Digits s ds) {r : Str} (hr : Stops r) (p : Bool) :
    underscoresOk p (s ++ r) = underscoresOk false r := by
  cases h with
  | none => exact stops_under hr _ _
  | run h => rw [run_under h]; exact stops_under hr _ _

theorem stops_nil : Stops [] := fun c q e => by cases e

theorem run_iff {s ds : Str} : DigitRun s ds ↔
    underscoresOk false s = true ∧ dropUnderscores s = ds ∧ ds ≠ [] ∧ ∀ c ∈ ds, isDigit c = true := by
  constructor
  · intro h
    obtain ⟨c, r, -, -, q, hq⟩ := run_head h
    refine ⟨?_, run_drop h, by rw [hq]; exact List.cons_ne_nil _ _, run_digits h⟩
    have := run_under h [] false
    rw [List.append_nil] at this
    rw [this]; rfl
  · rintro ⟨h1, h2, h3, h4⟩
    obtain ⟨i, ds', r, rfl, hi, hr, -⟩ := split_run _ s (Nat.le_refl _) h1
    rw [drop_append, digits_drop hi] at h2
    have hr0 : r = [] := by
      cases r with
      | nil => rfl
      | cons c q =>
        exfalso
        rw [drop_cons _ (hr c q rfl).2] at h2
        have := h4 c (by rw [← h2]; simp)
        rw [(hr c q rfl).1] at this; cases this
    subst hr0
    rw [show dropUnderscores [] = [] from rfl, List.append_nil] at h2
    subst h2
    rw [List.append_nil]
    cases hi with
    | none => exact absurd rfl h3
    | run hi => exact hi

/-! signs -/

theorem takeSign_other {s : Str} (h : ∀ c q, s = c :: q → c ≠ 45 ∧ c ≠ 43) : takeSign s = (false, s) := by
  unfold takeSign
  split
  · exact absurd rfl (h _ _ rfl).1
  · exact absurd rfl (h _ _ rfl).2
  · rfl

theorem signed_takeSign (t : Str) : Signed t (takeSign t).1 (takeSign t).2 := by
  unfold takeSign
  split
  · exact .minus
  · exact .plus
  · exact .plain

theorem takeSign_signed {t body : Str} {neg : Bool} (h : Signed t neg body) (hb : ∀ c q, body = c :: q → c ≠ 45 ∧ c ≠ 43) :
    takeSign t = (neg, body) := by
  cases h with
  | plain => exact takeSign_other hb
  | plus => rfl
  | minus => rfl

theorem signed_mem {t body : Str} {neg : Bool} (h : Signed t neg body) : ∀ c ∈ t, c = 43 ∨ c = 45 ∨ c ∈ body := by
  cases h with
  | plain => intro c hc; exact .inr (.inr hc)
  | plus => intro c hc; rcases List.mem_cons.1 hc with h | h; exact .inl h; exact .inr (.inr h)
  | minus => intro c hc; rcases List.mem_cons.1 hc with h | h; exact .inr (.inl h); exact .inr (.inr h)

theorem signed_under {t body : Str} {neg : Bool} (h : Signed t neg body) :
    underscoresOk false t = underscoresOk false body := by
  cases h with
  | plain => rfl
  | plus => rw [under_other _ _ (by decide)]; rfl
  | minus => rw [under_other _ _ (by decide)]; rfl

theorem signed_drop {t body : Str} {neg : Bool} (h : Signed t neg body) : Signed (dropUnderscores t) neg (dropUnderscores body) := by
  cases h with
  | plain => exact .plain
  | plus => rw [drop_cons _ (by decide)]; exact .plus
  | minus => rw [drop_cons _ (by decide)]; exact .minus

/-- without underscore in front, dropping underscores does not touch the sign -/
theorem takeSign_drop {t : Str} (h : underscoresOk false t = true) :
    takeSign (dropUnderscores t) = ((takeSign t).1, dropUnderscores (takeSign t).2) := by
  cases t with
  | nil => rfl
  | cons c r =>
    have hc : c ≠ 95 := by
      rintro rfl
      rw [under_under] at h
      simp at h
    rw [drop_cons _ hc]
    by_cases h1 : c = 45
    · subst h1; rfl
    by_cases h2 : c = 43
    · subst h2; rfl
    have e1 : takeSign (c :: dropUnderscores r) = (false, c :: dropUnderscores r) :=
      takeSign_other fun d q e => by injection e with e1 e2; subst e1; exact ⟨h1, h2⟩
    have e2 : takeSign (c :: r) = (false, c :: r) :=
      takeSign_other fun d q e => by injection e with e1 e2; subst e1; exact ⟨h1, h2⟩
    rw [e1, e2, drop_cons _ hc]

theorem run_noSign {s ds : Str} (h : DigitRun s ds) : ∀ c q, s = c :: q → c ≠ 45 ∧ c ≠ 43 := by
  intro c q e
  obtain ⟨d, r, rfl, hd, -⟩ := run_head h
  injection e with e1 e2
  subst e1
  have := isDigit_iff.1 hd
  omega

theorem run_chars {s ds : Str} (h : DigitRun s ds) : ∀ c ∈ s, isDigit c = true ∨ c = 95 := by
  induction h with
  | one h => intro c hc; rw [List.mem_singleton.1 hc]; exact .inl h
  | next h _ ih =>
    intro c hc
    rcases List.mem_cons.1 hc with rfl | hc
    · exact .inl h
    · exact ih c hc
  | under h _ ih =>
    intro c hc
    rcases List.mem_cons.1 hc with rfl | hc
    · exact .inl h
    · rcases List.mem_cons.1 hc with rfl | hc
      · exact .inr rfl
      · exact ih c hc

theorem readAs_iff {P : PyText} {s r : Str} : ReadAs P s r ↔ r = s.map P.ascii := by
  have one : ∀ {c : Nat}, c < 128 → P.ascii c = c := by
    intro c h; unfold PyText.ascii; rw [if_pos h]
  constructor
  · intro h
    induction h with
    | nil => rfl
    | ascii h _ ih => rw [List.map_cons, ← ih, one h]
    | @space c s r h1 h2 _ ih =>
      have : P.ascii c = 32 := by unfold PyText.ascii; rw [if_neg (by omega), if_pos h2]
      rw [List.map_cons, ← ih, this]
    | @digit c d s r h1 h2 _ ih =>
      have hs : ¬ isSpace c = true := by
        intro hs; rw [P.digit_space c hs] at h2; cases h2
      have : P.ascii c = 48 + d.val := by unfold PyText.ascii; rw [if_neg (by omega), if_neg hs, h2]
      rw [List.map_cons, ← ih, this]
    | @other c s r h1 h2 h3 _ ih =>
      have : P.ascii c = 63 := by
        unfold PyText.ascii; rw [if_neg (by omega), if_neg (by rw [h2]; decide), h3]
      rw [List.map_cons, ← ih, this]
  · rintro rfl
    induction s with
    | nil => exact .nil
    | cons c s ih =>
      rw [List.map_cons]
      by_cases h : c < 128
      · rw [one h]; exact .ascii h ih
      · cases hs : isSpace c with
        | true =>
          have : P.ascii c = 32 := by unfold PyText.ascii; rw [if_neg h, if_pos hs]
          rw [this]; exact .space (by omega) hs ih
        | false =>
          cases hd : P.digit c with
          | none =>
            have : P.ascii c = 63 := by
              unfold PyText.ascii; rw [if_neg h, if_neg (by rw [hs]; decide), hd]
            rw [this]; exact .other (by omega) hs hd ih
          | some d =>
            have : P.ascii c = 48 + d.val := by
              unfold PyText.ascii; rw [if_neg h, if_neg (by rw [hs]; decide), hd]
            rw [this]; exact .digit (by omega) hd ih

/-- what stands between the blanks -/
theorem wraps_strip {P : PyText} {s body : Str} {neg : Bool} (h : Wraps P s neg body) (hne : body ≠ [])
    (hb : ∀ c ∈ body, cSpace c = false) : Signed (cStrip (s.map P.ascii)) neg body := by
  obtain ⟨a, t, b, e, ha, hb', hs⟩ := h
  have e := (readAs_iff.1 e).symm
  have ht : ∀ c ∈ t, cSpace c = false := by
    intro c hc
    rcases signed_mem hs c hc with rfl | rfl | h
    · decide
    · decide
    · exact hb c h
  have htne : t ≠ [] := by
    cases hs with
    | plain => exact hne
    | plus => exact List.cons_ne_nil _ _
    | minus => exact List.cons_ne_nil _ _
  rw [e, cStrip_of ha hb' ht htne]
  exact hs

theorem wraps_takeSign (P : PyText) (s : Str) :
    Wraps P s (takeSign (cStrip (s.map P.ascii))).1 (takeSign (cStrip (s.map P.ascii))).2 := by
  obtain ⟨a, b, e, ha, hb⟩ := cStrip_split (s.map P.ascii)
  exact ⟨a, _, b, readAs_iff.2 e.symm, ha, hb, signed_takeSign _⟩

theorem run_blankless {s ds : Str} (h : DigitRun s ds) : ∀ c ∈ s, cSpace c = false := by
  intro c hc
  cases he : cSpace c with
  | false => rfl
  | true =>
    rcases run_chars h c hc with h1 | rfl
    · have h1 := isDigit_iff.1 h1
      have h2 := cSpace_iff.1 he
      omega
    · cases he

theorem run_ne {s ds : Str} (h : DigitRun s ds) : s ≠ [] := by
  obtain ⟨c, r, rfl, -⟩ := run_head h
  exact List.cons_ne_nil _ _

theorem int_iff (P : PyText) (s : Str) : P.int s = true ↔ WholeText P s := by
  unfold PyText.int WholeText
  have limit : ∀ ds : Str, P.fewDigits ds = true ↔
      ∀ n, P.maxDigits = some n → ds.length ≤ n := by
    intro ds
    unfold PyText.fewDigits
    cases P.maxDigits with
    | none => simp
    | some n => simp
  simp only [Bool.and_eq_true, limit]
  constructor
  · rintro ⟨⟨⟨h1, h2⟩, h3⟩, h4⟩
    refine ⟨_, _, _, wraps_takeSign P s, run_iff.2 ⟨h1, rfl, ?_, ?_⟩, h4⟩
    · intro e; rw [e] at h2; cases h2
    · exact List.all_eq_true.1 h3
  · rintro ⟨neg, body, ds, hw, hr, hl⟩
    have hs := takeSign_signed (wraps_strip hw (run_ne hr) (run_blankless hr)) (run_noSign hr)
    rw [hs]
    obtain ⟨h1, h2, h3, h4⟩ := run_iff.1 hr
    rw [h2]
    refine ⟨⟨⟨h1, ?_⟩, List.all_eq_true.2 h4⟩, hl⟩
    cases ds with
    | nil => exact absurd rfl h3
    | cons c q => rfl

/-! exponents and decimal numbers -/

theorem digitsNumber_eq (ds : Str) : digitsNumber ds = digitsVal 0 ds := rfl

theorem takeWhile_digits {ds r : Str} (h : ∀ c ∈ ds, isDigit c = true) (hr : Stops r) :
    (ds ++ r).takeWhile isDigit = ds ∧ (ds ++ r).dropWhile isDigit = r := by
  induction ds with
  | nil =>
    cases r with
    | nil => exact ⟨rfl, rfl⟩
    | cons c q => simp [(hr c q rfl).1]
  | cons c q ih =>
    have := ih fun x hx => h x (List.mem_cons_of_mem _ hx)
    rw [List.cons_append, List.takeWhile_cons, List.dropWhile_cons, if_pos (h c List.mem_cons_self),
      if_pos (h c List.mem_cons_self), this.1, this.2]
    exact ⟨rfl, rfl⟩

theorem exponent_stops {e : Str} {x : Int} (h : ExponentText e x) : Stops e := by
  cases h with
  | none => exact stops_nil
  | some hc _ _ =>
    intro d q e
    injection e with e1 e2
    subst e1
    rcases hc with rfl | rfl <;> decide

theorem exponent_iff {e : Str} (hs : Stops e) {x : Int} :
    ExponentText e x ↔ underscoresOk false e = true ∧ readExponent (dropUnderscores e) = some x := by
  constructor
  · intro h
    cases h with
    | none => exact ⟨rfl, rfl⟩
    | @some c t body ds neg hc ht hr =>
      have hu : c ≠ 95 := by rcases hc with rfl | rfl <;> decide
      have hd : isDigit c = false := by rcases hc with rfl | rfl <;> decide
      obtain ⟨h1, h2, h3, h4⟩ := run_iff.1 hr
      rw [under_other _ _ hu, hd, signed_under ht, drop_cons _ hu]
      refine ⟨h1, ?_⟩
      unfold readExponent
      simp only [hc, if_true]
      have hsg := takeSign_signed (signed_drop ht) (by
        rw [h2]
        intro d q e
        have := isDigit_iff.1 (h4 d (by rw [e]; exact List.mem_cons_self))
        omega)
      rw [hsg, h2]
      have h5 : ds.isEmpty = false := by
        cases ds with
        | nil => exact absurd rfl h3
        | cons c q => rfl
      have h6 : ds.all isDigit = true := List.all_eq_true.2 h4
      simp only [h5, h6]
      rfl
  · rintro ⟨h1, h2⟩
    cases e with
    | nil =>
      simp only [dropUnderscores, List.filter_nil, readExponent, Option.some.injEq] at h2
      subst h2; exact .none
    | cons c t =>
      have hu := (hs c t rfl).2
      have hd := (hs c t rfl).1
      rw [under_other _ _ hu, hd] at h1
      rw [drop_cons _ hu] at h2
      simp only [readExponent] at h2
      split at h2
      · rename_i hc
        rw [takeSign_drop h1] at h2
        dsimp only at h2
        split at h2
        · cases h2
        · rename_i h3
          rw [Bool.or_eq_true, not_or] at h3
          injection h2 with h2
          have hr : DigitRun (takeSign t).2 (dropUnderscores (takeSign t).2) := by
            refine run_iff.2 ⟨?_, rfl, ?_, ?_⟩
            · rw [← signed_under (signed_takeSign t)]; exact h1
            · intro e; rw [e] at h3; exact h3.1 rfl
            · have := h3.2
              rw [Bool.not_eq_true, Bool.not_eq_false'] at this
              exact List.all_eq_true.1 this
          rw [← h2]
          exact .some hc (signed_takeSign t) hr
      · cases h2

theorem decimal_text_iff {s : Str} {m : Nat} {x : Int} :
    DecimalText s m x ↔ underscoresOk false s = true ∧ readDecimal (dropUnderscores s) = some (m, x) := by
  have point : ∀ {i ds f fs e : Str}, Digits i ds → Digits f fs → Stops e →
      readDecimal (dropUnderscores (i ++ 46 :: (f ++ e))) =
        if ds.isEmpty && fs.isEmpty then none
        else (readExponent (dropUnderscores e)).map fun x : Int => (digitsVal 0 (ds ++ fs), x - fs.length) := by
    intro i ds f fs e hi hf he
    rw [drop_append, drop_cons _ (by decide), drop_append, digits_drop hi, digits_drop hf]
    unfold readDecimal
    have h1 := takeWhile_digits (digits_digits hi) (r := 46 :: (fs ++ dropUnderscores e)) (by
      intro c q h; injection h with h1 h2; subst h1; decide)
    have h2 := takeWhile_digits (digits_digits hf) (stops_drop he).1
    simp only [h1, h2]
  have whole : ∀ {i ds e : Str}, Digits i ds → Stops e → (∀ q, e ≠ 46 :: q) →
      readDecimal (dropUnderscores (i ++ e)) =
        if ds.isEmpty then none else (readExponent (dropUnderscores e)).map fun x => (digitsVal 0 ds, x) := by
    intro i ds e hi he hp
    rw [drop_append, digits_drop hi]
    unfold readDecimal
    have h1 := takeWhile_digits (digits_digits hi) (stops_drop he).1
    simp only [h1]
    split
    · rename_i q heq
      exfalso
      cases e with
      | nil => cases heq
      | cons c r =>
        rw [drop_cons _ (he c r rfl).2] at heq
        injection heq with h2 h3
        exact hp r (by rw [h2])
    · simp
  constructor
  · intro h
    cases h with
    | @whole i ds e x hr he =>
      have hs := exponent_stops he
      obtain ⟨h1, h2⟩ := (exponent_iff hs).1 he
      rw [digits_under (.run hr) hs, whole (.run hr) hs, h2]
      · obtain ⟨c, r, -, -, q, rfl⟩ := run_head hr
        exact ⟨h1, rfl⟩
      · rintro q rfl
        cases he with
        | some hc _ _ => omega
    | @point i ds f fs e x hi hf hne he =>
      have hs := exponent_stops he
      obtain ⟨h1, h2⟩ := (exponent_iff hs).1 he
      rw [digits_under hi, under_other _ _ (by decide), show isDigit 46 = false from rfl, digits_under hf hs, point hi hf hs,
        h2]
      · refine ⟨h1, ?_⟩
        rw [if_neg]
        · rfl
        · intro h
          rw [Bool.and_eq_true, List.isEmpty_iff, List.isEmpty_iff] at h
          exact hne (by rw [h.1, h.2]; rfl)
      · intro c q h; injection h with h1 h2; subst h1; decide
  · rintro ⟨h1, h2⟩
    obtain ⟨i, ds, r, rfl, hi, hr, ho⟩ := split_run _ s (Nat.le_refl _) h1
    by_cases hp : ∃ q, r = 46 :: q
    · obtain ⟨q, rfl⟩ := hp
      rw [under_other _ _ (by decide), show isDigit 46 = false from rfl] at ho
      obtain ⟨f, fs, e, rfl, hf, he, ho'⟩ := split_run _ q (Nat.le_refl _) ho
      rw [point hi hf he] at h2
      split at h2
      · cases h2
      · rename_i hne
        obtain ⟨x', hx, h3⟩ := Option.map_eq_some_iff.1 h2
        injection h3 with h3 h4
        rw [← h3, ← h4]
        refine .point hi hf ?_ ((exponent_iff he).2 ⟨ho', hx⟩)
        intro e
        rw [List.append_eq_nil_iff] at e
        rw [e.1, e.2] at hne
        exact hne rfl
    · rw [whole hi hr (fun q e => hp ⟨q, e⟩)] at h2
      split at h2
      · cases h2
      · rename_i hne
        obtain ⟨x', hx, h3⟩ := Option.map_eq_some_iff.1 h2
        injection h3 with h3 h4
        rw [← h3, ← h4]
        cases hi with
        | none => exact absurd rfl hne
        | run hi => exact .whole hi ((exponent_iff hr).2 ⟨ho, hx⟩)

/-! the double nearest to a decimal number -/

theorem wholeDouble_iff {m n : Nat} {x : Int} : wholeDouble m x = some n ↔ WholeDouble m x n := by
  unfold wholeDouble WholeDouble
  generalize m * 10 ^ x.toNat = a
  have hb : 0 < 10 ^ (-x).toNat := Nat.pow_pos (by decide)
  generalize 10 ^ (-x).toNat = b at hb
  obtain ⟨D, hD, h | h⟩ := trueDiv_nearest (a := a) hb
  · obtain ⟨N, s, hs, h1, h2, h3⟩ := h
    rw [h1]
    have hp : 0 < 2 ^ s := Nat.pow_pos (by decide)
    have hq : 0 < 2 ^ (1074 - s) := Nat.pow_pos (by decide)
    have e : (2 : Nat) ^ 1074 = 2 ^ s * 2 ^ (1074 - s) := by rw [← Nat.pow_add, show s + (1074 - s) = 1074 by omega]
    dsimp only
    constructor
    · intro h
      split at h
      · rename_i h0
        injection h with h
        have h4 : N = n * 2 ^ s := by
          rw [← h]; exact (Nat.div_mul_cancel (Nat.dvd_of_mod_eq_zero h0)).symm
        have h5 : D = n * 2 ^ 1074 := by rw [h2, h4, e, Nat.mul_assoc]
        rw [h5] at hD h3
        exact ⟨hD, Nat.lt_of_mul_lt_mul_right h3⟩
      · cases h
    · rintro ⟨h4, h5⟩
      have h6 := nearest_unique hb hD h4
      rw [h2, e, ← Nat.mul_assoc] at h6
      have h7 := Nat.eq_of_mul_eq_mul_right hq h6
      rw [if_pos (by rw [h7, Nat.mul_mod_left]), h7, Nat.mul_div_cancel _ hp]
  · rw [h.1]
    constructor
    · intro h; cases h
    · rintro ⟨h4, h5⟩
      rw [nearest_unique hb hD h4] at h
      exact absurd (Nat.mul_lt_mul_of_pos_right h5 (Nat.pow_pos (by decide))) h.2

/-! numbers -/

theorem decimal_chars {s : Str} {m : Nat} {x : Int} (h : DecimalText s m x) :
    s ≠ [] ∧ (∀ c ∈ s, isDigit c = true ∨ c = 95 ∨ c = 46 ∨ c = 101 ∨ c = 69 ∨ c = 43 ∨ c = 45) ∧
      ∀ c q, s = c :: q → isDigit c = true ∨ c = 46 := by
  have hd : ∀ {i ds : Str}, Digits i ds → ∀ c ∈ i, isDigit c = true ∨ c = 95 := by
    intro i ds h
    cases h with
    | none => intro c hc; simp at hc
    | run h => exact run_chars h
  have he : ∀ {e : Str} {x : Int}, ExponentText e x →
      ∀ c ∈ e, isDigit c = true ∨ c = 95 ∨ c = 101 ∨ c = 69 ∨ c = 43 ∨ c = 45 := by
    intro e x h
    cases h with
    | none => intro c hc; simp at hc
    | some hc ht hr =>
      intro d hd
      rcases List.mem_cons.1 hd with rfl | hd
      · omega
      · rcases signed_mem ht d hd with h | h | h
        · omega
        · omega
        · rcases run_chars hr d h with h | h
          · exact .inl h
          · exact .inr (.inl h)
  cases h with
  | whole hr hx =>
    refine ⟨?_, ?_, ?_⟩
    · obtain ⟨c, r, rfl, -⟩ := run_head hr; simp
    · intro c hc
      rcases List.mem_append.1 hc with h | h
      · rcases run_chars hr c h with h | h
        · exact .inl h
        · exact .inr (.inl h)
      · rcases he hx c h with h | h
        · exact .inl h
        · omega
    · intro c q e
      obtain ⟨d, r, rfl, hd, -⟩ := run_head hr
      injection e with e1 e2
      exact .inl (e1 ▸ hd)
  | point hi hf hne hx =>
    refine ⟨by simp, ?_, ?_⟩
    · intro c hc
      rcases List.mem_append.1 hc with h | h
      · rcases hd hi c h with h | h
        · exact .inl h
        · exact .inr (.inl h)
      · rcases List.mem_cons.1 h with h | h
        · omega
        · rcases List.mem_append.1 h with h | h
          · rcases hd hf c h with h | h
            · exact .inl h
            · exact .inr (.inl h)
          · rcases he hx c h with h | h
            · exact .inl h
            · omega
    · intro c q e
      cases hi with
      | none => injection e with e1 e2; exact .inr e1.symm
      | run hi =>
        obtain ⟨d, r, rfl, hd, -⟩ := run_head hi
        injection e with e1 e2
        exact .inl (e1 ▸ hd)

/-- letters only: no digit, so no underscore -/
theorem drop_letters (n : Nat) : ∀ s : Str, s.length ≤ n → underscoresOk false s = true →
    (∀ c ∈ dropUnderscores s, isDigit c = false) → dropUnderscores s = s := by
  induction n with
  | zero => intro s hl _ _; rw [List.length_eq_zero_iff.1 (Nat.le_zero.1 hl)]; rfl
  | succ n ih =>
    intro s hl h hd
    cases s with
    | nil => rfl
    | cons c r =>
      have hc : c ≠ 95 := by
        rintro rfl
        rw [under_under] at h
        simp at h
      rw [drop_cons _ hc] at hd ⊢
      rw [under_other _ _ hc, hd c List.mem_cons_self] at h
      rw [ih r (by simp only [List.length_cons] at hl; omega) h fun d hd' => hd d (List.mem_cons_of_mem _ hd')]

def specials : List Str := [py"inf", py"infinity", py"nan"]

theorem lowerA_letter {c : Nat} (h : 97 ≤ lowerA c ∧ lowerA c ≤ 122) : (65 ≤ c ∧ c ≤ 90) ∨ (97 ≤ c ∧ c ≤ 122) := by
  unfold lowerA at h
  split at h
  · rename_i h1
    unfold isUpperA at h1
    simp at h1
    omega
  · omega

theorem special_chars {s : Str} (h : s.map lowerA ∈ specials) : s ≠ [] ∧ ∀ c ∈ s, (65 ≤ c ∧ c ≤ 90) ∨ (97 ≤ c ∧ c ≤ 122) := by
  refine ⟨?_, ?_⟩
  · rintro rfl; revert h; decide
  · intro c hc
    refine lowerA_letter ?_
    have h1 : ∀ w ∈ specials, ∀ d ∈ w, 97 ≤ d ∧ d ≤ 122 := by decide
    exact h1 _ h _ (List.mem_map_of_mem hc)

theorem anyCase_iff {w s : Str} (hw : ∀ d ∈ w, 97 ≤ d ∧ d ≤ 122) : AnyCase w s ↔ s.map lowerA = w := by
  have char : ∀ {c d : Nat}, 97 ≤ d ∧ d ≤ 122 → ((c = d ∨ c + 32 = d) ↔ lowerA c = d) := by
    intro c d hd
    unfold lowerA isUpperA
    by_cases h : 65 ≤ c ∧ c ≤ 90
    · simp [h]; omega
    · simp [h]; omega
  unfold AnyCase
  induction w generalizing s with
  | nil =>
    constructor
    · rintro ⟨h, -⟩; rw [List.length_eq_zero_iff.1 h]; rfl
    · intro h
      rw [List.map_eq_nil_iff] at h
      subst h
      exact ⟨rfl, fun i c d h => by simp at h⟩
  | cons d w ih =>
    cases s with
    | nil => constructor <;> intro h <;> simp at h
    | cons c s =>
      have ih := @ih s (fun d hd => hw d (List.mem_cons_of_mem _ hd))
      rw [List.map_cons, List.cons.injEq, ← char (hw d List.mem_cons_self)]
      refine Iff.trans ?_ (and_congr_right fun _ => ih)
      constructor
      · rintro ⟨h1, h2⟩
        refine ⟨h2 0 c d rfl rfl, by simpa using h1, fun i x y hx hy => h2 (i + 1) x y ?_ ?_⟩
        · simpa using hx
        · simpa using hy
      · rintro ⟨h1, h2, h3⟩
        refine ⟨by simpa using h2, fun i x y hx hy => ?_⟩
        cases i with
        | zero =>
          simp at hx hy
          rw [← hx, ← hy]; exact h1
        | succ i => exact h3 i x y (by simpa using hx) (by simpa using hy)

theorem specials_iff (body : Str) : body.map lowerA ∈ specials ↔
    AnyCase (py"inf") body ∨ AnyCase (py"infinity") body ∨ AnyCase (py"nan") body := by
  rw [anyCase_iff (by decide), anyCase_iff (by decide), anyCase_iff (by decide)]
  unfold specials
  simp

theorem letter_under {s : Str} (h : ∀ c ∈ s, (65 ≤ c ∧ c ≤ 90) ∨ (97 ≤ c ∧ c ≤ 122)) : ∀ p, underscoresOk p s = true := by
  induction s with
  | nil => intro p; rfl
  | cons c r ih =>
    intro p
    have := h c List.mem_cons_self
    rw [under_other _ _ (by omega)]
    exact ih (fun d hd => h d (List.mem_cons_of_mem _ hd)) _

theorem letter_drop {s : Str} (h : ∀ c ∈ s, (65 ≤ c ∧ c ≤ 90) ∨ (97 ≤ c ∧ c ≤ 122)) : dropUnderscores s = s := by
  refine List.filter_eq_self.2 fun c hc => ?_
  have := h c hc
  simp; omega

theorem float_iff (P : PyText) (s : Str) (v : Option Int) : P.float s = some v ↔ FloatReads P s v := by
  have special : ∀ body : Str, ([py"inf", py"infinity", py"nan"].contains (body.map lowerA) = true) ↔ body.map lowerA ∈ specials := by
    intro body; exact List.contains_iff_mem
  have specials_iff := specials_iff
  constructor
  · intro h
    unfold PyText.float at h
    dsimp only at h
    split at h
    · cases h
    rename_i hu
    rw [Bool.not_eq_true, Bool.not_eq_false'] at hu
    rw [takeSign_drop hu] at h
    dsimp only at h
    have hw := wraps_takeSign P s
    have hu2 : underscoresOk false (takeSign (cStrip (s.map P.ascii))).2 = true := by
      rw [← signed_under (signed_takeSign _)]; exact hu
    generalize (takeSign (cStrip (s.map P.ascii))).1 = neg at *
    generalize (takeSign (cStrip (s.map P.ascii))).2 = body at *
    split at h
    · rename_i hs
      rw [special] at hs
      injection h with h
      subst h
      have hc := special_chars hs
      rw [drop_letters _ body (Nat.le_refl _) hu2 (fun c hc' => by
        have := hc.2 c hc'
        cases hd : isDigit c with
        | false => rfl
        | true => have := isDigit_iff.1 hd; omega)] at hs
      exact .special hw ((specials_iff _).1 hs)
    · obtain ⟨⟨m, x⟩, h1, h2⟩ := Option.map_eq_some_iff.1 h
      dsimp only at h2
      have hd : DecimalText body m x := decimal_text_iff.2 ⟨hu2, h1⟩
      cases hn : wholeDouble m x with
      | none =>
        rw [hn] at h2
        subst h2
        refine .fraction hw hd fun n hn' => ?_
        rw [wholeDouble_iff.2 hn'] at hn; cases hn
      | some n =>
        rw [hn] at h2
        subst h2
        exact .whole hw hd (wholeDouble_iff.1 hn)
  · have number : ∀ {neg : Bool} {body : Str} {m : Nat} {x : Int}, Wraps P s neg body → DecimalText body m x →
        P.float s = some ((wholeDouble m x).map fun n => if neg then -(n : Int) else n) := by
      intro neg body m x hw hd
      obtain ⟨h1, h2, h3⟩ := decimal_chars hd
      obtain ⟨h4, h5⟩ := decimal_text_iff.1 hd
      have hblank : ∀ c ∈ body, cSpace c = false := by
        intro c hc
        cases he : cSpace c with
        | false => rfl
        | true =>
          have h6 := cSpace_iff.1 he
          rcases h2 c hc with h | h
          · have := isDigit_iff.1 h; omega
          · omega
      have hs := wraps_strip hw h1 hblank
      have hsign : ∀ c q, body = c :: q → c ≠ 45 ∧ c ≠ 43 := by
        intro c q e
        rcases h3 c q e with h | h
        · have := isDigit_iff.1 h; omega
        · omega
      have ht := takeSign_signed hs hsign
      have hu : underscoresOk false (cStrip (s.map P.ascii)) = true := by rw [signed_under hs]; exact h4
      unfold PyText.float
      dsimp only
      rw [hu, takeSign_drop hu, ht]
      dsimp only
      have hno : ([py"inf", py"infinity", py"nan"].contains ((dropUnderscores body).map lowerA)) ≠ true := by
        rw [Ne, special]
        intro h
        have h6 := special_chars h
        obtain ⟨c, q, rfl⟩ : ∃ c q, body = c :: q := by
          cases body with
          | nil => exact absurd rfl h1
          | cons c q => exact ⟨c, q, rfl⟩
        have h7 := h3 c q rfl
        have h8 : c ∈ dropUnderscores (c :: q) := by
          rw [drop_cons]
          · exact List.mem_cons_self
          · rcases h7 with h | h
            · exact digit_ne_under h
            · omega
        have h9 := h6.2 c h8
        rcases h7 with h | h
        · have := isDigit_iff.1 h; omega
        · omega
      rw [if_neg (by decide), if_neg hno, h5]
      rfl
    intro h
    cases h with
    | @special neg body hw hs =>
      rw [← specials_iff] at hs
      have hc := special_chars hs
      have hblank : ∀ c ∈ body, cSpace c = false := by
        intro c hc'
        cases he : cSpace c with
        | false => rfl
        | true => have := cSpace_iff.1 he; have := hc.2 c hc'; omega
      have hsg := wraps_strip hw hc.1 hblank
      have ht := takeSign_signed hsg (by
        rintro c q rfl
        have := hc.2 c List.mem_cons_self
        omega)
      have hu : underscoresOk false (cStrip (s.map P.ascii)) = true := by rw [signed_under hsg]; exact letter_under hc.2 _
      unfold PyText.float
      dsimp only
      rw [hu, takeSign_drop hu, ht]
      dsimp only
      rw [letter_drop hc.2, if_neg (by decide), if_pos ((special body).2 hs)]
    | whole hw hd hn => rw [number hw hd, wholeDouble_iff.2 hn]; rfl
    | @fraction neg body m x hw hd hn =>
      rw [number hw hd]
      cases hn' : wholeDouble m x with
      | none => rfl
      | some n => exact absurd (wholeDouble_iff.1 hn') (hn n)

/-! times of day -/

theorem decimalChar_iff {P : PyText} {c : Nat} : DecimalChar P c ↔ P.isDecimal c = true := by
  unfold DecimalChar PyText.isDecimal
  rw [Bool.or_eq_true, isDigit_iff, Bool.and_eq_true, Option.isSome_iff_exists]
  simp

theorem colon_not_decimal (P : PyText) : P.isDecimal 58 = false := by
  unfold PyText.isDecimal
  simp [isDigit]

theorem point_not_decimal (P : PyText) : P.isDecimal 46 = false := by
  unfold PyText.isDecimal
  simp [isDigit]

theorem digit_decimal (P : PyText) {c : Nat} (h1 : 48 ≤ c) (h2 : c ≤ 57) : P.isDecimal c = true := by
  unfold PyText.isDecimal
  rw [isDigit_iff.2 ⟨h1, h2⟩]; rfl

theorem mem_rxChar {c : Nat} {s x : Str} : x ∈ rxChar c s ↔ s = c :: x := by
  unfold rxChar
  split
  · split
    · rename_i h; subst h; simp [eq_comm]
    · rename_i h; simp; intro e; exact absurd e h
  · simp

theorem mem_rxHour {P : PyText} {s x : Str} : x ∈ P.rxHour s ↔ ∃ h, HourText P h ∧ s = h ++ x := by
  unfold PyText.rxHour
  rw [List.mem_append, List.mem_append]
  constructor
  · rintro ((h | h) | h)
    · split at h
      · split at h
        · rename_i hc
          rw [List.mem_singleton] at h; subst h
          obtain ⟨rfl, h1, h2⟩ := hc
          exact ⟨[50, _], .late h1 h2, rfl⟩
        · simp at h
      · simp at h
    · split at h
      · split at h
        · rename_i hc
          rw [List.mem_singleton] at h; subst h
          exact ⟨[_, _], .two (by omega) (decimalChar_iff.2 hc.2), rfl⟩
        · simp at h
      · simp at h
    · split at h
      · split at h
        · rename_i hc
          rw [List.mem_singleton] at h; subst h
          exact ⟨[_], .one (decimalChar_iff.2 hc), rfl⟩
        · simp at h
      · simp at h
  · rintro ⟨h, hh, rfl⟩
    cases hh with
    | one hc =>
    have hc := decimalChar_iff.1 hc
    exact .inr (by simp [hc])
    | @two t c ht hc =>
    have hc := decimalChar_iff.1 hc
    exact .inl (.inr (by
        have h1 : (48 ≤ t ∧ t ≤ 49) ∧ P.isDecimal c = true := ⟨by omega, hc⟩
        simp only [List.cons_append, List.nil_append]
        rw [if_pos h1]; simp))
    | late h1 h2 => exact .inl (.inl (by simp [h1, h2]))

theorem mem_rxMinute {P : PyText} {s x : Str} : x ∈ P.rxMinute s ↔ ∃ h, SixtyText P h ∧ s = h ++ x := by
  unfold PyText.rxMinute
  rw [List.mem_append]
  constructor
  · rintro (h | h)
    · split at h
      · split at h
        · rename_i hc
          rw [List.mem_singleton] at h; subst h
          exact ⟨[_, _], .two hc.1.1 hc.1.2 (decimalChar_iff.2 hc.2), rfl⟩
        · simp at h
      · simp at h
    · split at h
      · split at h
        · rename_i hc
          rw [List.mem_singleton] at h; subst h
          exact ⟨[_], .one (decimalChar_iff.2 hc), rfl⟩
        · simp at h
      · simp at h
  · rintro ⟨h, hh, rfl⟩
    cases hh with
    | one hc =>
    have hc := decimalChar_iff.1 hc
    exact .inr (by simp [hc])
    | @two t c h1 h2 hc =>
    have hc := decimalChar_iff.1 hc
    exact .inl (by
        have h1 : (48 ≤ t ∧ t ≤ 53) ∧ P.isDecimal c = true := ⟨⟨h1, h2⟩, hc⟩
        simp only [List.cons_append, List.nil_append]
        rw [if_pos h1]; simp)

theorem hour_step {P : PyText} {h : Str} (hh : HourText P h) (r : Str) {α : Type} (f : Str → List α) :
    ((P.rxHour (h ++ 58 :: r)).flatMap fun s => (rxChar 58 s).flatMap f) = f r := by
  have h58 := colon_not_decimal P
  unfold PyText.rxHour rxChar
  cases hh with
  | @one c hc =>
    have hc := decimalChar_iff.1 hc
    simp [h58, hc]
  | @two t c ht hc =>
    have hc := decimalChar_iff.1 hc
    have hne : c ≠ 58 := by rintro rfl; rw [h58] at hc; cases hc
    rcases ht with rfl | rfl <;> simp [hc, hne] <;> (intro _; decide)
  | @late c h1 h2 =>
    have hne : c ≠ 58 := by omega
    simp [h1, h2, hne]

theorem minute_step {P : PyText} {m : Str} (hm : SixtyText P m) {k : Nat} (hk : P.isDecimal k = false) (r : Str) {α : Type}
    (f : Str → List α) : ((P.rxMinute (m ++ k :: r)).flatMap fun s => (rxChar k s).flatMap f) = f r := by
  unfold PyText.rxMinute rxChar
  cases hm with
  | @one c hc =>
    have hc := decimalChar_iff.1 hc
    simp [hk, hc]
  | @two t c h1 h2 hc =>
    have hc := decimalChar_iff.1 hc
    have hne : c ≠ k := by rintro rfl; rw [hk] at hc; cases hc
    simp [h1, h2, hc, hne]

theorem second_end {P : PyText} {c : Str} (hc : SixtyText P c) : (P.rxSecond c).head? = some (false, []) := by
  unfold PyText.rxSecond PyText.rxMinute
  cases hc with
  | one hc =>
    have hc := decimalChar_iff.1 hc
    simp [hc]
  | @two t c h1 h2 hc =>
    have hc := decimalChar_iff.1 hc
    have : t ≠ 54 := by omega
    simp [h1, h2, hc, this]

theorem second_step {P : PyText} {c : Str} (hc : SixtyText P c) (r : Str) {α : Type} (g : Bool → Str → List α) :
    ((P.rxSecond (c ++ 46 :: r)).flatMap fun p => (rxChar 46 p.2).flatMap (g p.1)) = g false r := by
  have h46 := point_not_decimal P
  unfold PyText.rxSecond
  rw [List.flatMap_append, List.flatMap_map]
  dsimp only
  rw [minute_step hc h46]
  cases hc with
  | one hc =>
    have hc := decimalChar_iff.1 hc
    simp
  | @two t c h1 h2 hc =>
    have hc := decimalChar_iff.1 hc
    have : t ≠ 54 := by omega
    simp [this]

theorem digits_end {ds : Str} (hd : ∀ c ∈ ds, isDigit c = true) (hne : ds ≠ []) : ∀ k, ds.length ≤ k →
    (rxDigits k ds).head? = some [] := by
  induction ds with
  | nil => exact absurd rfl hne
  | cons c r ih =>
    intro k hk
    cases k with
    | zero => simp at hk
    | succ k =>
      simp only [rxDigits]
      rw [if_pos (hd c List.mem_cons_self)]
      cases r with
      | nil =>
        cases k with
        | zero => rfl
        | succ k => rfl
      | cons d q =>
        have := ih (fun x hx => hd x (List.mem_cons_of_mem _ hx)) (List.cons_ne_nil _ _) k
          (by simp only [List.length_cons] at hk ⊢; omega)
        rw [List.head?_append, this]; rfl

theorem mem_rxDigits {k : Nat} : ∀ {s x : Str}, x ∈ rxDigits k s →
    ∃ ds, s = ds ++ x ∧ 1 ≤ ds.length ∧ ds.length ≤ k ∧ ∀ c ∈ ds, isDigit c = true := by
  induction k with
  | zero => intro s x h; simp [rxDigits] at h
  | succ k ih =>
    intro s x h
    simp only [rxDigits] at h
    split at h
    · rename_i c r
      split at h
      · rename_i hc
        rcases List.mem_append.1 h with h | h
        · obtain ⟨ds, rfl, h1, h2, h3⟩ := ih h
          refine ⟨c :: ds, rfl, by simp, by simp only [List.length_cons]; omega, ?_⟩
          intro d hd
          rcases List.mem_cons.1 hd with rfl | hd
          · exact hc
          · exact h3 d hd
        · rw [List.mem_singleton] at h; subst h
          refine ⟨[c], rfl, by simp, by simp, ?_⟩
          intro d hd
          rw [List.mem_singleton.1 hd]; exact hc
      · simp at h
    · simp at h

theorem mem_rxSecond {P : PyText} {s x : Str} (h : (false, x) ∈ P.rxSecond s) : ∃ c, SixtyText P c ∧ s = c ++ x := by
  unfold PyText.rxSecond at h
  rcases List.mem_append.1 h with h | h
  · split at h
    · split at h <;> simp at h
    · simp at h
  · obtain ⟨r, h1, h2⟩ := List.mem_map.1 h
    injection h2 with _ h2
    subst h2
    exact mem_rxMinute.1 h1

theorem mem_rxClock {P : PyText} {s x : Str} (h0 : (false, x) ∈ P.rxClock s) :
    ∃ h m c, s = h ++ 58 :: (m ++ 58 :: (c ++ x)) ∧ HourText P h ∧ SixtyText P m ∧ SixtyText P c := by
  unfold PyText.rxClock at h0
  obtain ⟨s1, h1, g1⟩ := List.mem_flatMap.1 h0
  obtain ⟨s2, h2, g2⟩ := List.mem_flatMap.1 g1
  obtain ⟨s3, h3, g3⟩ := List.mem_flatMap.1 g2
  obtain ⟨s4, h4, h5⟩ := List.mem_flatMap.1 g3
  obtain ⟨hr, h6, e1⟩ := mem_rxHour.1 h1
  rw [mem_rxChar] at h2 h4
  obtain ⟨m, h7, e2⟩ := mem_rxMinute.1 h3
  obtain ⟨c, h8, e3⟩ := mem_rxSecond h5
  exact ⟨hr, m, c, by rw [e1, h2, e2, h4, e3], h6, h7, h8⟩

theorem rxClock_of {P : PyText} {h m : Str} (hh : HourText P h) (hm : SixtyText P m) (s : Str) :
    P.rxClock (h ++ 58 :: (m ++ 58 :: s)) = P.rxSecond s := by
  unfold PyText.rxClock
  rw [hour_step hh, minute_step hm (colon_not_decimal P)]

theorem clock_iff (P : PyText) (s : Str) :
    (P.strptime s (py"%H:%M:%S") = true ∨ P.strptime s (py"%H:%M:%S.%f") = true) ↔ ClockText P s := by
  constructor
  · rintro (h | h)
    · unfold PyText.strptime at h
      dsimp only at h
      rw [if_pos rfl] at h
      split at h
      · rename_i leap rest he
        rw [Bool.and_eq_true, Bool.not_eq_true', List.isEmpty_iff] at h
        obtain ⟨rfl, rfl⟩ := h
        obtain ⟨hr, m, c, e, h1, h2, h3⟩ := mem_rxClock (List.mem_of_head? he)
        exact ⟨hr, m, c, [], e, h1, h2, h3, .inl rfl⟩
      · cases h
    · unfold PyText.strptime at h
      dsimp only at h
      rw [if_neg (by decide), if_pos rfl] at h
      split at h
      · rename_i leap rest he
        rw [Bool.and_eq_true, Bool.not_eq_true', List.isEmpty_iff] at h
        obtain ⟨rfl, rfl⟩ := h
        obtain ⟨p, hp, h1⟩ := List.mem_flatMap.1 (List.mem_of_head? he)
        obtain ⟨q, h2, h3⟩ := List.mem_flatMap.1 h1
        obtain ⟨r, h4, h5⟩ := List.mem_map.1 h3
        injection h5 with h5 h6
        subst h6
        obtain ⟨leap, rest⟩ := p
        dsimp only at h5 h2
        subst h5
        rw [mem_rxChar] at h2
        subst h2
        obtain ⟨ds, e, h7⟩ := mem_rxDigits h4
        rw [List.append_nil] at e
        subst e
        obtain ⟨hr, m, c, e, h1, h2, h3⟩ := mem_rxClock hp
        exact ⟨hr, m, c, _, e, h1, h2, h3, .inr ⟨q, rfl, h7⟩⟩
      · cases h
  · rintro ⟨h, m, c, f, rfl, hh, hm, hc, hf⟩
    rcases hf with rfl | ⟨ds, rfl, h1, h2, h3⟩
    · left
      unfold PyText.strptime
      dsimp only
      rw [if_pos rfl, rxClock_of hh hm, List.append_nil, second_end hc]
      rfl
    · right
      unfold PyText.strptime
      dsimp only
      rw [if_neg (by decide), if_pos rfl, rxClock_of hh hm,
        second_step hc ds (fun b s => (rxDigits 6 s).map fun r => (b, r)), List.head?_map, digits_end h3 (by rintro rfl; simp at h1) 6 h2]
      rfl

end DS
