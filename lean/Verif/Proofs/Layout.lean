import Verif.Proofs.Lexer

/-
Splitting and editing lexed text.
-/
namespace DS

/-- the part of `text` between two offsets (`text[a:b]` for `0 ≤ a ≤ b`) -/
def slice (text : Str) (a b : Nat) : Str := (text.drop a).take (b - a)

theorem slice_mid (p w r : Str) (a b : Nat) (ha : p.length = a) (hb : b = a + w.length) :
    slice (p ++ (w ++ r)) a b = w := by
  subst ha hb; simp [slice]

/-- the same text at another offset has the same tokens -/
theorem Lexed.shift {n : Nat} {s : Str} {ts : List Token} (h : Lexed n s ts) (m : Nat) :
    ∃ ts', Lexed m s ts' ∧ ts'.map (·.tk) = ts.map (·.tk) := by
  induction h generalizing m with
  | done hg => exact ⟨[], .done hg, rfl⟩
  | tok hg hw hm _ ih =>
    rename_i g w t rest ts _
    obtain ⟨ts', h', e⟩ := ih (m + g.length + w.length)
    exact ⟨_, .tok hg hw hm h', by simp [e]⟩

/-- Text before the end of a token can be kept while the text after it is replaced. -/
theorem Lexed.split {n : Nat} {s : Str} {all : List Token} (h : Lexed n s all) :
    ∀ (l r : List Token) (t : Token), all = l ++ t :: r → ∃ pre post, s = pre ++ post ∧ t.stop = n + pre.length ∧
      Munch t.tk post ∧ Lexed t.stop post r ∧ Spells (slice s (t.start - n) (t.stop - n)) t.tk ∧
      n ≤ t.start ∧ t.start < t.stop ∧
      (∀ post' r', Munch t.tk post' → Lexed t.stop post' r' → Lexed n (pre ++ post') (l ++ t :: r')) := by
  induction h with
  | done => intro l r t e; cases l <;> cases e
  | tok hg hw hm hr ih =>
    rename_i n g w k rest ts
    intro l r t e
    cases l with
    | nil =>
      simp only [List.nil_append, List.cons.injEq] at e
      obtain ⟨rfl, rfl⟩ := e
      have hwl := List.length_pos_iff.2 (spells_ne hw)
      refine ⟨g ++ w, rest, by simp, by simp; omega, hm, hr, ?_, by simp, by simp; omega, ?_⟩
      · rw [slice_mid _ _ _ _ _ (by simp <;> omega) (by simp; omega)]; exact hw
      · intro post' r' hm' hr'
        rw [List.append_assoc]
        exact .tok hg hw hm' hr'
    | cons a l =>
      simp only [List.cons_append, List.cons.injEq] at e
      obtain ⟨rfl, rfl⟩ := e
      obtain ⟨pre, post, rfl, hs, hm2, hl2, hsp, hle, hlt, hrep⟩ := ih l r t rfl
      refine ⟨g ++ (w ++ pre), post, by simp, by simp; omega, hm2, hl2, ?_, by omega, hlt, ?_⟩
      · have e1 : t.start - n = g.length + w.length + (t.start - (n + g.length + w.length)) := by omega
        have e2 : t.stop - n - (t.start - n) = t.stop - (n + g.length + w.length) - (t.start - (n + g.length + w.length)) := by omega
        have : slice (g ++ (w ++ (pre ++ post))) (t.start - n) (t.stop - n) =
            slice (pre ++ post) (t.start - (n + g.length + w.length)) (t.stop - (n + g.length + w.length)) := by
          simp only [slice, e2]
          rw [e1, ← List.append_assoc, ← List.drop_drop]
          congr 1
          simp
        rw [this]; exact hsp
      · intro post' r' hm' hr'
        have := hrep post' r' hm' hr'
        simp only [List.append_assoc]
        refine .tok hg hw ?_ this
        -- the head of what follows does not change
        have hne : pre ≠ [] := by
          intro e; subst e; simp at hs; omega
        cases pre with
        | nil => exact absurd rfl hne
        | cons c pre => cases k <;> simpa [Munch] using hm

/-- the gap in front of the first token -/
theorem Lexed.first {n : Nat} {s : Str} {t : Token} {r : List Token} (h : Lexed n s (t :: r)) :
    ∃ g rest, s = g ++ rest ∧ t.start = n + g.length ∧ Blank false g ∧ Lexed t.start rest (t :: r) ∧
      (∀ g', Blank false g' → Lexed (t.start - g'.length) (g' ++ rest) (t :: r) ∨ t.start < g'.length) := by
  generalize ha : t :: r = all at h
  cases h with
  | done => cases ha
  | tok hg hw hm hr =>
    rename_i g w k rest ts
    simp only [List.cons.injEq] at ha
    obtain ⟨rfl, rfl⟩ := ha
    refine ⟨g, w ++ rest, rfl, rfl, hg, ?_, ?_⟩
    · have := Lexed.tok (n := n + g.length) (g := []) .nil hw hm (by simpa using hr)
      simpa using this
    · intro g' hg'
      by_cases hlt : n + g.length < g'.length
      · exact .inr hlt
      · left
        have := Lexed.tok (n := n + g.length - g'.length) hg' hw hm (ts := r)
          (by rwa [show n + g.length - g'.length + g'.length = n + g.length by omega])
        rw [show n + g.length - g'.length + g'.length = n + g.length by omega] at this
        exact this

theorem Blank.append {g h : Str} {b : Bool} (hg : Blank false g) (hh : Blank b h) : Blank b (g ++ h) := by
  generalize hf : false = f at hg
  induction hg with
  | nil => exact hh
  | space hc _ ih => exact .space hc (ih hf)
  | comment hb _ ih => rw [List.cons_append, List.append_assoc]; exact .comment hb (ih hf)
  | final => cases hf

theorem Blank.relax {g : Str} {b : Bool} (h : Blank b g) : Blank true g := by
  induction h with
  | nil => exact .nil
  | space hc _ ih => exact .space hc ih
  | comment hb _ ih => exact .comment hb ih
  | final hb => exact .final hb

/-- what comes after a newline in a blank text is blank -/
theorem Blank.after_nl {b : Bool} {g : Str} (h : Blank b g) : ∀ a r, g = a ++ 10 :: r → Blank b r := by
  induction h with
  | nil => intro a r e; cases a <;> cases e
  | space hc hr ih =>
    intro a r e
    cases a with
    | nil => cases e; exact hr
    | cons x a => cases e; exact ih a r rfl
  | comment hb hr ih =>
    rename_i b body r0
    intro a r e
    cases a with
    | nil => cases e
    | cons x a =>
      simp only [List.cons_append, List.cons.injEq] at e
      obtain ⟨rfl, e⟩ := e
      rw [List.append_eq_append_iff] at e
      rcases e with ⟨a', rfl, e⟩ | ⟨c, rfl, e⟩
      · cases a' with
        | nil => cases e; exact hr
        | cons y a' => cases e; exact ih a' r rfl
      · cases c with
        | nil => cases e; exact hr
        | cons y c => cases e; simp at hb
  | final hb =>
    intro a r e
    cases a with
    | nil => cases e
    | cons x a => cases e; simp at hb

theorem split_nl (s : Str) : 10 ∉ s ∨ ∃ a r, s = a ++ 10 :: r ∧ 10 ∉ a := by
  induction s with
  | nil => simp
  | cons c s ih =>
    by_cases hc : c = 10
    · subst hc; exact .inr ⟨[], s, rfl, by simp⟩
    · rcases ih with h | ⟨a, r, rfl, ha⟩
      · exact .inl (by simp [h]; omega)
      · exact .inr ⟨c :: a, r, rfl, by simp [ha]; omega⟩

/-- appending blank text to blank text at the end of the input -/
theorem Blank.append_end {g h : Str} {b : Bool} (hg : Blank b g) (hh : Blank true h) : Blank true (g ++ h) := by
  induction hg with
  | nil => exact hh
  | space hc _ ih => exact .space hc ih
  | comment hb _ ih => rw [List.cons_append, List.append_assoc]; exact .comment hb ih
  | final hb =>
    rename_i body
    rcases split_nl h with hn | ⟨a, r, rfl, ha⟩
    · rw [List.cons_append]; exact .final (by simp [hb, hn])
    · have := hh.after_nl a r rfl
      rw [List.cons_append, ← List.append_assoc]
      exact .comment (by simp [hb, ha]) this

theorem space_not_word {c : Nat} (h : isSpace c = true) : isWord c = false ∧ isDigit c = false := by
  simp only [isSpace, Bool.or_eq_true, Bool.and_eq_true, decide_eq_true_eq, beq_iff_eq] at h
  simp only [isWord, isLower, isUpperA, isDigit, Bool.or_eq_false_iff, Bool.and_eq_false_iff, decide_eq_false_iff_not,
    beq_eq_false_iff_ne]
  omega

theorem Blank.head {g : Str} {b : Bool} (h : Blank b g) (c : Nat) (hc : g.head? = some c) :
    isWord c = false ∧ isDigit c = false := by
  cases h with
  | nil => cases hc
  | space hs _ => cases hc; exact space_not_word hs
  | comment => cases hc; decide
  | final => cases hc; decide

/-- blank text that is not empty separates tokens -/
theorem Munch.blank {t : Tk} {r r' g : Str} {b : Bool} (h : Munch t r) (hg : Blank b g) (hne : g ≠ []) :
    Munch t (g ++ r') := by
  have hh : ∀ c, (g ++ r').head? = some c → isWord c = false ∧ isDigit c = false := by
    intro c hc
    cases g with
    | nil => exact absurd rfl hne
    | cons x g => simp at hc; exact hg.head c (by simp [hc])
  cases t <;> simp only [Munch] at h ⊢
  · exact fun c hc => (hh c hc).1
  · exact ⟨fun c hc => (hh c hc).1, h.2⟩
  · exact fun c hc => (hh c hc).1
  · exact fun c hc => (hh c hc).2

theorem Munch.nil {t : Tk} {r : Str} (h : Munch t r) : Munch t [] := by
  cases t <;> simp only [Munch] at h ⊢
  · simp
  · exact ⟨by simp, h.2⟩
  · simp
  · simp

/-- appending blank text at the end of the input changes no token -/
theorem Lexed.trailing {n : Nat} {s : Str} {ts : List Token} (h : Lexed n s ts) {g : Str} (hg : Blank true g) :
    Lexed n (s ++ g) ts := by
  induction h with
  | done h => exact .done (h.append_end hg)
  | tok h1 hw hm hr ih =>
    rename_i n g0 w t rest ts
    simp only [List.append_assoc]
    refine .tok h1 hw ?_ ih
    cases hr' : rest with
    | nil =>
      cases hg' : g with
      | nil => simpa [hr'] using hm
      | cons x g1 =>
        have := Munch.blank (r' := []) hm hg (by simp [hg'])
        simpa [hg'] using this
    | cons c rest' =>
      rw [hr'] at hm
      cases t <;> simpa [Munch] using hm

/-- prepending blank text -/
theorem Lexed.leading {n : Nat} {s : Str} {ts : List Token} (h : Lexed (n + k) s ts) {g : Str} (hg : Blank false g)
    (hk : k = g.length) : Lexed n (g ++ s) ts := by
  generalize hm : n + k = m at h
  cases h with
  | done h => exact .done (hg.append h)
  | tok h1 hw hm' hr =>
    rename_i g0 w t rest ts
    rw [← List.append_assoc]
    have e : n + (g ++ g0).length = m + g0.length := by simp; omega
    have := Lexed.tok (n := n) (hg.append h1) hw hm' (ts := ts) (by rw [e]; exact hr)
    rw [e] at this
    exact this

/-- removing leading blank text -/
theorem Lexed.unleading {n : Nat} {g s : Str} {ts : List Token} (h : Lexed n (g ++ s) ts) (hg : Blank false g) :
    ∃ ts', Lexed n s ts' ∧ ts'.map (·.tk) = ts.map (·.tk) := by
  obtain ⟨g1, e1, hb, _⟩ := skipWs_sound s
  have e2 := skipWs_blank hg s (by simp)
  generalize hs : g ++ s = all at h e2
  cases h with
  | done h =>
    have := skipWs_blank h [] (by simp)
    simp only [List.append_nil] at this
    rw [this] at e2
    simp [skipWs] at e2
    refine ⟨[], ?_, rfl⟩
    rw [e2] at e1 hb
    simp at e1 hb
    rw [e1]; exact .done hb
  | tok h1 hw hm hr =>
    rename_i g0 w t rest ts
    rw [skipWs_blank h1 _ (by simp), spells_head hw] at e2
    rw [← e2] at e1 hb
    have hne := spells_ne hw
    have hb' : Blank false g1 := by
      have : (w ++ rest).isEmpty = false := by
        cases w with
        | nil => exact absurd rfl hne
        | cons => rfl
      rwa [this] at hb
    obtain ⟨ts', h', e'⟩ := hr.shift (n + g1.length + w.length)
    rw [e1]
    exact ⟨_, .tok hb' hw hm h', by simp [e']⟩

theorem Word.last {f : Nat → Bool} {w : Str} (h : Word f w) (hf : ∀ c, f c = true → isWord c = true) :
    ∀ x ∈ w, isWord x = true := by
  obtain ⟨c, r, rfl, hc, hr⟩ := h
  intro x hx
  rcases List.mem_cons.1 hx with rfl | hx
  · exact hf _ hc
  · exact hr x hx

/-- no spelling of a token ends in white space -/
theorem Spells.last {w p : Str} {t : Tk} {c : Nat} (h : Spells w t) (hc : isSpace c = true) : w ≠ p ++ [c] := by
  rintro rfl
  have hm : c ∈ p ++ [c] := by simp
  have hw := (space_not_word hc).1
  have lit : ∀ l : Str, p ++ [c] = l → (∀ x ∈ l, isSpace x = false) → False := by
    intro l e hl
    have := hl c (by rw [← e]; simp)
    rw [this] at hc; cases hc
  have word : ∀ f, Word f (p ++ [c]) → (∀ c, f c = true → isWord c = true) → False := by
    intro f h hf
    have := h.last hf c hm
    rw [hw] at this; cases this
  cases t with
  | bool b => cases b <;> exact lit _ h (by decide)
  | lower s => exact word _ (by rw [h.1]; exact h.2) (fun c hc => by simp [isWord, hc])
  | upper s => exact word _ (by rw [h.1]; exact h.2) (fun c hc => by simp [isWord, hc])
  | other s => exact word _ (by rw [h.1]; exact h.2) (fun c hc => by
      have : c = 95 := by simpa using hc
      subst this; decide)
  | int i =>
    refine lit _ h fun x hx => ?_
    have hd : isDigit x = true ∨ x = 45 := by
      unfold intStr at hx
      split at hx
      · exact .inl (natStr_digits _ _ hx)
      · rcases List.mem_cons.1 hx with rfl | hx
        · exact .inr rfl
        · exact .inl (natStr_digits _ _ hx)
    cases hs : isSpace x with
    | false => rfl
    | true =>
      rcases hd with hd | rfl
      · rw [(space_not_word hs).2] at hd; cases hd
      · revert hs; decide
  | str v =>
    obtain ⟨q, body, hq, e, _⟩ := h
    have : c = q := by
      have := congrArg List.getLast? e
      rw [← List.cons_append, List.getLast?_concat, List.getLast?_concat] at this
      simpa using this
    subst this
    rcases hq with rfl | rfl <;> revert hc <;> decide
  | _ => exact lit _ h (by decide)

theorem Blank.init {b : Bool} {g : Str} (h : Blank b g) : ∀ p c, g = p ++ [c] → Blank true p := by
  induction h with
  | nil => intro p c e; cases p <;> cases e
  | @space b x r hx hr ih =>
    intro p c e
    cases p with
    | nil => exact .nil
    | cons y p => cases e; exact .space hx (ih p c rfl)
  | @comment b body r hb hr ih =>
    intro p c e
    cases p with
    | nil => exact .nil
    | cons y p =>
      simp only [List.cons_append, List.cons.injEq] at e
      obtain ⟨rfl, e⟩ := e
      rcases List.eq_nil_or_concat r with rfl | ⟨r', d, rfl⟩
      · have := List.append_inj' e rfl
        rw [← this.1]
        exact .final hb
      · have e2 : (body ++ 10 :: r') ++ [d] = p ++ [c] := by simpa using e
        have := List.append_inj' e2 rfl
        rw [← this.1]
        exact .comment hb (ih r' d (by simp))
  | @final body hb =>
    intro p c e
    cases p with
    | nil => exact .nil
    | cons y p =>
      simp only [List.cons_append, List.cons.injEq] at e
      obtain ⟨rfl, rfl⟩ := e
      exact .final fun h => hb (by simp [h])

theorem Munch.init {t : Tk} {r : Str} {c : Nat} (h : Munch t (r ++ [c])) : Munch t r := by
  cases r with
  | nil => exact h.nil
  | cons x r => cases t <;> simpa only [Munch, List.cons_append, List.head?_cons] using h

/-- white space at the end of the input belongs to no token -/
theorem Lexed.untrailing1 {n : Nat} {all : Str} {ts : List Token} (h : Lexed n all ts) :
    ∀ s c, isSpace c = true → all = s ++ [c] → Lexed n s ts := by
  induction h with
  | done hg => intro s c _ e; exact .done (hg.init s c e)
  | @tok n g w t rest ts hg hw hm hr ih =>
    intro s c hc e
    rcases List.eq_nil_or_concat rest with rfl | ⟨r, d, rfl⟩
    · exfalso
      rcases List.eq_nil_or_concat w with rfl | ⟨w', d, rfl⟩
      · have : Spells ([] : Str) t := hw
        cases t with
        | bool b => cases b <;> simp [Spells] at this
        | lower s => obtain ⟨rfl, c, r, e, _⟩ := this; cases e
        | upper s => obtain ⟨rfl, c, r, e, _⟩ := this; cases e
        | other s => obtain ⟨rfl, c, r, e, _⟩ := this; cases e
        | int i =>
          simp only [Spells, intStr] at this
          split at this
          · rename_i k
            obtain ⟨c, r, e, _⟩ := natStr_cons k
            rw [e] at this; cases this
          · cases this
        | str v => obtain ⟨q, b, _, e, _⟩ := this; cases e
        | _ => simp [Spells] at this
      · have e2 : (g ++ w') ++ [d] = s ++ [c] := by simpa using e
        have := List.append_inj' e2 rfl
        have hd : d = c := by simpa using this.2
        subst hd
        exact hw.last (p := w') hc (by simp)
    · have e2 : (g ++ (w ++ r)) ++ [d] = s ++ [c] := by simpa using e
      have := List.append_inj' e2 rfl
      have hd : d = c := by simpa using this.2
      subst hd
      rw [← this.1]
      simp only [List.concat_eq_append] at hm
      exact .tok hg hw hm.init (ih r d hc (by simp))

theorem Lexed.untrailing {n : Nat} {ts : List Token} (g : Str) : ∀ s, (∀ c ∈ g, isSpace c = true) →
    Lexed n (s ++ g) ts → Lexed n s ts := by
  induction g with
  | nil => intro s _ h; simpa using h
  | cons c g ih =>
    intro s hg h
    have := ih (s ++ [c]) (fun x hx => hg x (by simp [hx])) (by simpa using h)
    exact this.untrailing1 s c (hg c (by simp)) rfl

end DS
