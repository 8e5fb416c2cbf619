import Verif.Spec.Lexical
import Verif.Proofs.Numeral

set_option linter.unusedSimpArgs false
namespace DS

/-! ### White space and comments -/

theorem skipWs_true (s : Str) :
    (10 ∉ s ∧ skipWs true s = []) ∨
    ∃ body s', s = body ++ 10 :: s' ∧ 10 ∉ body ∧ skipWs true s = skipWs false s' := by
  induction s with
  | nil => left; simp [skipWs]
  | cons c r ih =>
    by_cases hc : c = 10
    · subst hc; right; exact ⟨[], r, by simp [skipWs]⟩
    · simp only [skipWs, hc, if_false]
      rcases ih with ⟨h1, h2⟩ | ⟨body, s', h1, h2, h3⟩
      · left; exact ⟨by simp [h1]; omega, h2⟩
      · right; exact ⟨c :: body, s', by simp [h1], by simp [h2]; omega, h3⟩

/-- The skipped text is blank, and what follows starts with neither a blank nor a comment. -/
theorem skipWs_sound (s : Str) : ∃ g, s = g ++ skipWs false s ∧ Blank (skipWs false s).isEmpty g ∧
    ∀ c, (skipWs false s).head? = some c → isSpace c = false ∧ c ≠ 35 := by
  generalize hn : s.length = n
  induction n using Nat.strongRecOn generalizing s with
  | ind n ih =>
    cases s with
    | nil => exact ⟨[], by simp [skipWs], .nil, by simp [skipWs]⟩
    | cons c r =>
      by_cases hs : isSpace c = true
      · obtain ⟨g, h1, h2, h3⟩ := ih r.length (by simp at hn; omega) r rfl
        have e : skipWs false (c :: r) = skipWs false r := by simp [skipWs, hs]
        rw [e]
        exact ⟨c :: g, by simp [← h1], .space hs h2, h3⟩
      · by_cases hc : c = 35
        · subst hc
          have e : skipWs false (35 :: r) = skipWs true r := by simp [skipWs, hs]
          rw [e]
          rcases skipWs_true r with ⟨h1, h2⟩ | ⟨body, s', h1, h2, h3⟩
          · rw [h2]; exact ⟨35 :: r, by simp, .final h1, by simp⟩
          · rw [h3]
            obtain ⟨g, k1, k2, k3⟩ := ih s'.length (by simp [h1] at hn; omega) s' rfl
            refine ⟨35 :: (body ++ 10 :: g), ?_, .comment h2 k2, k3⟩
            rw [h1]; simp [← k1]
        · have e : skipWs false (c :: r) = c :: r := by simp [skipWs, hs, hc]
          rw [e]
          refine ⟨[], by simp, .nil, ?_⟩
          intro c' h; simp at h; subst h; exact ⟨by simpa using hs, hc⟩

theorem skipWs_true_body {body : Str} (h : 10 ∉ body) (r : Str) :
    skipWs true (body ++ 10 :: r) = skipWs false r := by
  induction body with
  | nil => simp [skipWs]
  | cons c b ih =>
    simp at h
    have : ¬ c = 10 := by omega
    simp only [List.cons_append, skipWs, this, if_false]
    exact ih h.2

theorem skipWs_true_end {body : Str} (h : 10 ∉ body) : skipWs true body = [] := by
  induction body with
  | nil => simp [skipWs]
  | cons c b ih =>
    simp at h
    have : ¬ c = 10 := by omega
    simp only [skipWs, this, if_false]
    exact ih h.2

theorem isSpace_35 : isSpace 35 = false := by decide

theorem skipWs_blank {b : Bool} {g : Str} (h : Blank b g) (s : Str) (hb : b = true → s = []) :
    skipWs false (g ++ s) = skipWs false s := by
  induction h with
  | nil => rfl
  | space hc _ ih => simp only [List.cons_append, skipWs, hc, if_true]; exact ih hb
  | comment hb' _ ih =>
    simp only [List.cons_append, List.append_assoc, skipWs, isSpace_35, if_true, if_false,
      Bool.false_eq_true]
    rw [skipWs_true_body hb']
    exact ih hb
  | final h =>
    have := hb rfl
    subst this
    simp only [List.append_nil, skipWs, isSpace_35, if_true, if_false, Bool.false_eq_true]
    exact skipWs_true_end h

theorem skipWs_length (b : Bool) (s : Str) : (skipWs b s).length ≤ s.length := by
  induction s generalizing b with
  | nil => cases b <;> simp [skipWs]
  | cons c r ih =>
    cases b
    · have h1 := ih false; have h2 := ih true
      simp only [skipWs]; split
      · simp; omega
      · split <;> simp <;> omega
    · have h1 := ih false; have h2 := ih true
      simp only [skipWs]; split <;> simp <;> omega

/-! ### String literals -/

theorem hexDigit_lt {c n : Nat} (h : HexDigit c n) : n < 16 := by
  rcases h with h | h <;> exact (List.getElem?_eq_some_iff.1 h).1

theorem hexDigit_of {c : Nat} (h : isHex c = true) : HexDigit c (hexVal c) := by
  have hc : c < 103 := by
    simp only [isHex, isDigit, Bool.or_eq_true, Bool.and_eq_true, decide_eq_true_eq] at h; omega
  have : ∀ c : Fin 103, isHex c.1 = true →
      ((py"0123456789abcdef")[hexVal c.1]? = some c.1 ∨ (py"0123456789ABCDEF")[hexVal c.1]? = some c.1) := by decide
  exact this ⟨c, hc⟩ h

theorem hexDigit_iff {c n : Nat} : HexDigit c n ↔ isHex c = true ∧ hexVal c = n := by
  constructor
  · intro h
    have hn := hexDigit_lt h
    have : ∀ m : Fin 16, ∀ a ∈ [py"0123456789abcdef", py"0123456789ABCDEF"], ∀ x, a[m.1]? = some x →
        isHex x = true ∧ hexVal x = m.1 := by
      have key : ∀ m : Fin 16, ∀ a ∈ [py"0123456789abcdef", py"0123456789ABCDEF"],
        (match a[m.1]? with | some x => isHex x && hexVal x == m.1 | none => true) = true := by decide
      intro m a ha x hx
      have := key m a ha
      rw [hx] at this
      simpa using this
    rcases h with h | h
    · exact this ⟨n, hn⟩ _ (by simp) _ h
    · exact this ⟨n, hn⟩ _ (by simp) _ h
  · rintro ⟨h, rfl⟩; exact hexDigit_of h

theorem hexSeq_four (a b c d : Nat) :
    hexSeq [a, b, c, d] = 4096 * hexVal a + 256 * hexVal b + 16 * hexVal c + hexVal d := by
  simp only [hexSeq, List.foldl]; omega

theorem put_sound {q e x : Nat} {r : Str}
    (ih : ∀ {v bad rest}, scanStr q r = some (v, bad, rest) →
      ∃ body, r = body ++ q :: rest ∧ (bad = false → StrBody q body v))
    (he : (e, x) ∈ [(q, q), (98, 8), (102, 12), (110, 10), (114, 13), (116, 9)])
    {v : Str} {bad : Bool} {rest : Str}
    (h : (scanStr q r).map (fun (v, bad, rest) => (x :: v, bad, rest)) = some (v, bad, rest)) :
    ∃ body, 92 :: e :: r = body ++ q :: rest ∧ (bad = false → StrBody q body v) := by
  simp only [Option.map_eq_some_iff] at h
  obtain ⟨⟨v', bad', rest'⟩, h1, h2⟩ := h
  simp only [Prod.mk.injEq] at h2
  obtain ⟨rfl, rfl, rfl⟩ := h2
  obtain ⟨body, e', hb⟩ := ih h1
  exact ⟨92 :: e :: body, by simp [e'], fun h => .esc he (hb h)⟩

theorem scanStr_sound {q : Nat} (s : Str) : ∀ {v bad rest},
    scanStr q s = some (v, bad, rest) →
    ∃ body, s = body ++ q :: rest ∧ (bad = false → StrBody q body v) := by
  fun_induction scanStr q s with
  | case1 => intro v bad rest h; simp at h
  | case2 a b c d r hh ih =>
    intro v bad rest h
    simp only [Option.map_eq_some_iff] at h
    obtain ⟨⟨v', bad', rest'⟩, h1, h2⟩ := h
    simp only [Prod.mk.injEq] at h2
    obtain ⟨rfl, rfl, rfl⟩ := h2
    obtain ⟨body, e, hb⟩ := ih h1
    simp only [Bool.and_eq_true] at hh
    refine ⟨92 :: 117 :: a :: b :: c :: d :: body, by simp [e], fun h => ?_⟩
    rw [hexSeq_four]
    exact .hex (hexDigit_of hh.1.1.1) (hexDigit_of hh.1.1.2) (hexDigit_of hh.1.2) (hexDigit_of hh.2) (hb h)
  | case3 => intro v bad rest h; simp at h
  | case4 | case5 | case6 | case7 | case8 | case9 =>
    rename_i ih
    intro v bad rest h
    exact put_sound ih (by simp) h
  | case10 => intro v bad rest h; simp at h
  | case11 =>
    intro v bad rest h
    simp only [Option.some.injEq, Prod.mk.injEq] at h
    obtain ⟨rfl, rfl, rfl⟩ := h
    exact ⟨[], by simp, fun _ => .nil⟩
  | case12 => intro v bad rest h; simp at h
  | case13 c r _ _ hq hc ih =>
    intro v bad rest h
    simp only [Option.map_eq_some_iff] at h
    obtain ⟨⟨v', bad', rest'⟩, h1, h2⟩ := h
    simp only [Prod.mk.injEq] at h2
    obtain ⟨rfl, rfl, rfl⟩ := h2
    obtain ⟨body, e', hb⟩ := ih h1
    refine ⟨c :: body, by simp [e'], fun h => ?_⟩
    simp at h
    exact .raw (by omega) (by omega) (by omega) (by omega) (by omega) (by omega) (hb h.1.1)

theorem scanStr_esc {q e x : Nat} (hq : q = 34 ∨ q = 39) {r : Str}
    (he : (e, x) ∈ [(q, q), (98, 8), (102, 12), (110, 10), (114, 13), (116, 9)]) :
    scanStr q (92 :: e :: r) = (scanStr q r).map fun (v, bad, rest) => (x :: v, bad, rest) := by
  simp only [List.mem_cons, List.not_mem_nil, or_false, Prod.mk.injEq] at he
  have h117 : e ≠ 117 := by omega
  rw [scanStr.eq_3 q e r (by intro a b c d r' h; exact absurd h h117)]
  rcases he with ⟨rfl, rfl⟩ | ⟨rfl, rfl⟩ | ⟨rfl, rfl⟩ | ⟨rfl, rfl⟩ | ⟨rfl, rfl⟩ | ⟨rfl, rfl⟩ <;>
    rcases hq with rfl | rfl <;> simp

theorem scanStr_raw {q c : Nat} {r : Str} (h92 : c ≠ 92) :
    scanStr q (c :: r) = if c = q then some ([], false, r)
    else if c = 10 ∨ c = 13 ∨ c = 92 then none
    else (scanStr q r).map fun (v, bad, rest) =>
      (c :: v, bad || c == 0 || (0xd800 ≤ c && c ≤ 0xdfff), rest) := by
  rw [scanStr.eq_4 q c r (by intro a b _ _ _ h; exact absurd h h92) (by intro _ _ h; exact absurd h h92)]

theorem scanStr_complete {q : Nat} (hq : q = 34 ∨ q = 39) {body v : Str} (h : StrBody q body v) (rest : Str) :
    scanStr q (body ++ q :: rest) = some (v, false, rest) := by
  induction h with
  | nil => rw [List.nil_append, scanStr_raw (by omega)]; simp
  | raw h1 h2 h3 h4 h5 h6 _ ih =>
    rw [List.cons_append, scanStr_raw h4, if_neg h1, if_neg (by omega), ih]
    simp; omega
  | hex ha hb hc hd _ ih =>
    obtain ⟨ga, rfl⟩ := hexDigit_iff.1 ha
    obtain ⟨gb, rfl⟩ := hexDigit_iff.1 hb
    obtain ⟨gc, rfl⟩ := hexDigit_iff.1 hc
    obtain ⟨gd, rfl⟩ := hexDigit_iff.1 hd
    simp only [List.cons_append, scanStr, ga, gb, gc, gd, Bool.and_self, if_true, ih, Option.map_some, hexSeq_four]
  | esc he _ ih =>
    simp only [List.cons_append]
    rw [scanStr_esc hq he, ih]; rfl

/-! ### Tokens -/

theorem dropPrefix?_some {p s r : Str} : dropPrefix? p s = some r ↔ s = p ++ r := by
  induction p generalizing s with
  | nil => simp [dropPrefix?]
  | cons a p ih =>
    cases s with
    | nil => simp [dropPrefix?]
    | cons b s =>
      simp only [dropPrefix?, List.cons_append, List.cons.injEq]
      by_cases h : a = b
      · simp [h, ih]
      · simp [h]; intro h'; exact absurd h'.symm h

theorem dropPrefix?_none {p s : Str} : dropPrefix? p s = none ↔ ¬ p <+: s := by
  constructor
  · rintro h ⟨r, e⟩
    rw [dropPrefix?_some.2 e.symm] at h; cases h
  · intro h
    cases e : dropPrefix? p s with
    | none => rfl
    | some r => exact absurd ⟨r, (dropPrefix?_some.1 e).symm⟩ h

theorem dropWhile_head {p : Nat → Bool} (r : Str) : ∀ c, (r.dropWhile p).head? = some c → p c = false := by
  induction r with
  | nil => simp
  | cons a r ih =>
    intro c
    by_cases h : p a = true
    · simpa [List.dropWhile_cons, h] using ih c
    · simp only [List.dropWhile_cons, h]
      simp; rintro rfl; simpa using h

theorem takeWhile_prefix {p : Nat → Bool} (r : Str) : r.takeWhile p <+: r :=
  ⟨r.dropWhile p, by simp⟩

theorem takeWhile_all {p : Nat → Bool} (r : Str) : ∀ x ∈ r.takeWhile p, p x = true := by
  induction r with
  | nil => simp
  | cons a r ih =>
    intro x hx
    by_cases h : p a = true
    · simp [List.takeWhile_cons, h] at hx
      rcases hx with rfl | hx
      · exact h
      · exact ih x hx
    · simp [List.takeWhile_cons, h] at hx

theorem scanString_sound {q : Nat} (hq : q = 34 ∨ q = 39) {r rest : Str} {t : Tk}
    (h : scanString q r = some (.ok t, rest)) : ∃ w, w ≠ [] ∧ q :: r = w ++ rest ∧ Spells w t ∧ Munch t rest := by
  simp only [scanString, Option.map_eq_some_iff] at h
  obtain ⟨⟨v, bad, rest'⟩, h1, h2⟩ := h
  cases bad
  · simp only [Bool.false_eq_true, if_false, Prod.mk.injEq, Except.ok.injEq] at h2
    obtain ⟨rfl, rfl⟩ := h2
    obtain ⟨body, e, hb⟩ := scanStr_sound r h1
    exact ⟨q :: (body ++ [q]), by simp, by simp [e], ⟨q, body, hq, rfl, hb rfl⟩, trivial⟩
  · simp at h2

theorem ite_cases {α : Type} {c : Prop} [Decidable c] {a b x : α} (h : (if c then a else b) = x) :
    (c ∧ a = x) ∨ (¬c ∧ b = x) := by
  by_cases hc : c
  · left; rw [if_pos hc] at h; exact ⟨hc, h⟩
  · right; rw [if_neg hc] at h; exact ⟨hc, h⟩

/-- Every token is a non-empty prefix of the text, and the prefix is a spelling of the token. -/
theorem scanTok_sound {s rest : Str} {t : Tk} (h : scanTok s = some (.ok t, rest)) :
    ∃ w, w ≠ [] ∧ s = w ++ rest ∧ Spells w t ∧ Munch t rest := by
  unfold scanTok at h
  split at h
  · rename_i r hr
    simp only [Option.some.injEq, Prod.mk.injEq, Except.ok.injEq] at h
    obtain ⟨rfl, rfl⟩ := h
    exact ⟨_, by simp, dropPrefix?_some.1 hr, rfl, trivial⟩
  split at h
  · rename_i r hr
    simp only [Option.some.injEq, Prod.mk.injEq, Except.ok.injEq] at h
    obtain ⟨rfl, rfl⟩ := h
    exact ⟨_, by simp, dropPrefix?_some.1 hr, rfl, trivial⟩
  rename_i _ hT _ hF
  cases s with
  | nil => simp at h
  | cons c r =>
    replace h : scanChar c r = some (.ok t, rest) := h
    unfold scanChar at h
    rcases ite_cases h with ⟨hc, h⟩ | ⟨hn, h⟩
    · skip
      simp only [Option.some.injEq, Prod.mk.injEq, Except.ok.injEq] at h
      obtain ⟨rfl, rfl⟩ := h
      exact ⟨c :: r.takeWhile isWord, by simp, by simp, ⟨rfl, c, _, rfl, hc, takeWhile_all r⟩, dropWhile_head r⟩
    rcases ite_cases h with ⟨hc, h⟩ | ⟨hn, h⟩
    · skip
      simp only [Option.some.injEq, Prod.mk.injEq, Except.ok.injEq] at h
      obtain ⟨rfl, rfl⟩ := h
      refine ⟨c :: r.takeWhile isWord, by simp, by simp, ⟨rfl, c, _, rfl, hc, takeWhile_all r⟩, dropWhile_head r, ?_, ?_⟩
      · exact fun h => dropPrefix?_none.1 hT (h.trans (List.cons_prefix_cons.2 ⟨rfl, takeWhile_prefix r⟩))
      · exact fun h => dropPrefix?_none.1 hF (h.trans (List.cons_prefix_cons.2 ⟨rfl, takeWhile_prefix r⟩))
    rcases ite_cases h with ⟨hc, h⟩ | ⟨hn, h⟩
    · skip
      simp only [Option.some.injEq, Prod.mk.injEq, Except.ok.injEq] at h
      obtain ⟨rfl, rfl⟩ := h
      exact ⟨c :: r.takeWhile isWord, by simp, by simp, ⟨rfl, c, _, rfl, by simp [hc], takeWhile_all r⟩, dropWhile_head r⟩
    iterate 10
      rcases ite_cases h with ⟨hc, h⟩ | ⟨hn, h⟩
      · skip
        simp only [Option.some.injEq, Prod.mk.injEq, Except.ok.injEq] at h
        obtain ⟨rfl, rfl⟩ := h
        exact ⟨[c], by simp, by simp, by simp [Spells, hc], trivial⟩
    rcases ite_cases h with ⟨hc, h⟩ | ⟨hn, h⟩
    · skip
      simp only [Option.map_eq_some_iff, Prod.mk.injEq, Except.ok.injEq] at h
      obtain ⟨r', h1, rfl, rfl⟩ := h
      exact ⟨py"...", by simp, by rw [dropPrefix?_some.1 h1]; simp [hc], rfl, trivial⟩
    rcases ite_cases h with ⟨hc, h⟩ | ⟨hn, h⟩
    · skip
      simp only [Option.some.injEq, Prod.mk.injEq, Except.ok.injEq] at h
      obtain ⟨rfl, rfl⟩ := h
      exact ⟨[c], by simp, by simp, by simp [Spells, hc], trivial⟩
    rcases ite_cases h with ⟨hc, h⟩ | ⟨hn, h⟩
    · skip
      have : t = .int 0 ∧ rest = r ∧ ∀ c, r.head? = some c → isDigit c = false := by
        cases r with
        | nil => simp at h; exact ⟨h.1.symm, h.2, by simp⟩
        | cons d r' =>
          simp only at h
          split at h
          · simp at h
          · rename_i hd; simp at h hd; exact ⟨h.1.symm, h.2.symm, by simpa using hd⟩
      obtain ⟨rfl, rfl, hd⟩ := this
      exact ⟨[c], by simp, by simp, by simp [Spells, hc]; rfl, hd⟩
    have h0 := hn
    rcases ite_cases h with ⟨hc, h⟩ | ⟨hn, h⟩
    · skip
      simp only [Option.some.injEq, Prod.mk.injEq, Except.ok.injEq] at h
      obtain ⟨rfl, rfl⟩ := h
      refine ⟨c :: r.takeWhile isDigit, by simp, by simp, ?_, dropWhile_head r⟩
      exact (natStr_digitsVal hc h0 (takeWhile_all r)).1.symm
    rcases ite_cases h with ⟨hc, h⟩ | ⟨hn, h⟩
    · skip
      cases r with
      | nil => simp at h
      | cons d r' =>
        simp only at h
        rcases ite_cases h with ⟨hd, h⟩ | ⟨hn, h⟩
        · skip
          simp only [Option.some.injEq, Prod.mk.injEq, Except.ok.injEq] at h
          obtain ⟨rfl, rfl⟩ := h
          exact ⟨[c, d], by simp, by simp, by simp [Spells, hc, hd], trivial⟩
        rcases ite_cases h with ⟨hd, h⟩ | ⟨hn, h⟩
        · skip
          simp only [Option.some.injEq, Prod.mk.injEq, Except.ok.injEq] at h
          obtain ⟨rfl, rfl⟩ := h
          simp only [Bool.and_eq_true, bne_iff_ne] at hd
          have := natStr_digitsVal hd.1 hd.2 (takeWhile_all r')
          refine ⟨c :: d :: r'.takeWhile isDigit, by simp, by simp, ?_, dropWhile_head r'⟩
          obtain ⟨n, hn⟩ : ∃ n, digitsVal 0 (d :: r'.takeWhile isDigit) = n + 1 :=
            ⟨_, (Nat.succ_pred_eq_of_pos this.2).symm⟩
          rw [hn] at this ⊢
          show _ = 45 :: natStr (n + 1)
          rw [this.1, hc]
        · simp at h
    rcases ite_cases h with ⟨hc, h⟩ | ⟨hn, h⟩
    · subst hc; exact scanString_sound (.inl rfl) h
    rcases ite_cases h with ⟨hc, h⟩ | ⟨hn, h⟩
    · subst hc; exact scanString_sound (.inr rfl) h
    · simp at h

theorem takeWhile_append_stop {p : Nat → Bool} {r rest : Str} (h : ∀ x ∈ r, p x = true)
    (hr : ∀ c, rest.head? = some c → p c = false) :
    (r ++ rest).takeWhile p = r ∧ (r ++ rest).dropWhile p = rest := by
  induction r with
  | nil =>
    cases rest with
    | nil => simp
    | cons c r => have := hr c rfl; simp [List.takeWhile_cons, List.dropWhile_cons, this]
  | cons a r ih =>
    have ha := h a (by simp)
    have := ih fun x hx => h x (by simp [hx])
    simp [List.takeWhile_cons, List.dropWhile_cons, ha, this]

theorem dropPrefix?_head {a : Nat} {p s : Str} (h : s.head? ≠ some a) : dropPrefix? (a :: p) s = none := by
  cases s with
  | nil => rfl
  | cons b s => simp at h; simp [dropPrefix?]; intro h'; exact absurd h'.symm h

theorem isLower_range {c : Nat} (h : isLower c = true) : 97 ≤ c ∧ c ≤ 122 := by simpa [isLower] using h
theorem isDigit_range {c : Nat} (h : isDigit c = true) : 48 ≤ c ∧ c ≤ 57 := by simpa [isDigit] using h

theorem dropPrefix?_append_none {p s rest : Str} (h : dropPrefix? p s = none)
    (hp : ∀ c ∈ p, isWord c = true) (hr : ∀ c, rest.head? = some c → isWord c = false) :
    dropPrefix? p (s ++ rest) = none := by
  induction p generalizing s with
  | nil => simp [dropPrefix?] at h
  | cons a p ih =>
    cases s with
    | nil =>
      apply dropPrefix?_head
      intro h'
      have := hr a (by simpa using h')
      rw [hp a (by simp)] at this; cases this
    | cons b s =>
      simp only [List.cons_append, dropPrefix?] at h ⊢
      split
      · rename_i e
        simp only [e, if_true] at h
        exact ih h fun c hc => hp c (by simp [hc])
      · rfl

theorem scanTok_cons {c : Nat} {r : Str} (h1 : c ≠ 84) (h2 : c ≠ 70) : scanTok (c :: r) = scanChar c r := by
  have e1 : dropPrefix? (py"True") (c :: r) = none := dropPrefix?_head (by simpa using h1)
  have e2 : dropPrefix? (py"False") (c :: r) = none := dropPrefix?_head (by simpa using h2)
  simp only [scanTok, e1, e2]

theorem scanChar_digit {c : Nat} {r rest : Str} (hc : isDigit c = true) (h0 : c ≠ 48)
    (hr : ∀ x ∈ r, isDigit x = true) (hrest : ∀ x, rest.head? = some x → isDigit x = false) :
    scanChar c (r ++ rest) = some (.ok (.int (digitsVal 0 (c :: r))), rest) := by
  have h := isDigit_range hc
  have tw := takeWhile_append_stop hr hrest
  have l : isLower c = false := by simp [isLower]; omega
  have u : isUpperA c = false := by simp [isUpperA]; omega
  unfold scanChar
  simp only [l, u, Bool.false_eq_true, if_false, hc, if_true, tw]
  iterate 14 rw [if_neg (by omega)]

/-- A spelling of a token, followed by something that cannot extend it, is scanned as that token. -/
theorem scanTok_complete {w rest : Str} {t : Tk} (h : Spells w t) (hm : Munch t rest) :
    scanTok (w ++ rest) = some (.ok t, rest) := by
  cases t with
  | bool b =>
    cases b
    · simp only [Spells] at h; subst h; simp [scanTok, dropPrefix?]
    · simp only [Spells] at h; subst h; simp [scanTok, dropPrefix?]
  | lower s =>
    obtain ⟨rfl, c, r, rfl, hc, hr⟩ := h
    have := isLower_range hc
    have tw := takeWhile_append_stop hr hm
    rw [List.cons_append, scanTok_cons (by omega) (by omega)]
    simp [scanChar, hc, tw]
  | upper s =>
    obtain ⟨rfl, c, r, rfl, hc, hr⟩ := h
    obtain ⟨hm, h1, h2⟩ := hm
    have tw := takeWhile_append_stop hr hm
    have l : isLower c = false := by simp [isUpperA] at hc; simp [isLower]; omega
    have e1 := dropPrefix?_append_none (dropPrefix?_none.2 h1) (by decide) hm
    have e2 := dropPrefix?_append_none (dropPrefix?_none.2 h2) (by decide) hm
    rw [List.cons_append] at e1 e2 ⊢
    simp only [scanTok, e1, e2]
    simp [scanChar, hc, tw, l]
  | other s =>
    obtain ⟨rfl, c, r, rfl, hc, hr⟩ := h
    simp at hc; subst hc
    have tw := takeWhile_append_stop hr hm
    rw [List.cons_append, scanTok_cons (by omega) (by omega)]
    simp [scanChar, isLower, isUpperA, tw]
  | int i =>
    cases i with
    | ofNat n =>
      simp only [Spells, intStr] at h
      subst h
      by_cases hn : n = 0
      · subst hn
        have e : natStr 0 = [48] := rfl
        rw [e, List.cons_append, List.nil_append, scanTok_cons (by omega) (by omega)]
        cases rest with
        | nil => rfl
        | cons d rest =>
          have := hm d rfl
          simp [scanChar, isLower, isUpperA, this]
      · obtain ⟨c, r, e, hc, h0, hr⟩ := natStr_cons n
        have hv := digitsVal_natStr n
        rw [e] at hv ⊢
        have := isDigit_range hc
        rw [List.cons_append, scanTok_cons (by omega) (by omega),
          scanChar_digit hc (h0 (by omega)) hr hm, hv]; rfl
    | negSucc n =>
      simp only [Spells, intStr] at h
      subst h
      obtain ⟨c, r, e, hc, h0, hr⟩ := natStr_cons (n + 1)
      have hv := digitsVal_natStr (n + 1)
      rw [e] at hv ⊢
      have := isDigit_range hc
      have h0 := h0 (by omega)
      have tw := takeWhile_append_stop hr hm
      rw [List.cons_append, scanTok_cons (by omega) (by omega)]
      have l : isLower 45 = false := by decide
      have u : isUpperA 45 = false := by decide
      have d : isDigit 45 = false := by decide
      unfold scanChar
      simp only [l, u, d, Bool.false_eq_true, if_false]
      iterate 14 rw [if_neg (by omega)]
      simp only [List.cons_append, if_true, hc, Bool.true_and, tw, hv]
      rw [if_neg (by omega)]
      simp [h0]; omega
  | str v =>
    obtain ⟨q, body, hq, rfl, hb⟩ := h
    have hs := scanStr_complete hq hb rest
    rw [List.cons_append, scanTok_cons (by omega) (by omega)]
    rw [List.append_assoc, List.singleton_append]
    have hss : scanString q (body ++ q :: rest) = some (.ok (.str v), rest) := by
      simp [scanString, hs]
    rcases hq with rfl | rfl <;> simp [scanChar, isLower, isUpperA, isDigit, hss]
  | _ =>
    simp only [Spells] at h
    subst h
    simp [scanTok, scanChar, dropPrefix?, isLower, isUpperA, isDigit]

/-! ### The lexer loop -/

theorem scanTok_shrinks {s rest : Str} {t : Tk} (h : scanTok s = some (.ok t, rest)) :
    rest.length < s.length := by
  obtain ⟨w, hw, e, _, _⟩ := scanTok_sound h
  have : 0 < w.length := List.length_pos_iff.2 hw
  simp [e]; omega

/-- The only exception raised while computing the value of a token is `ValueError`. -/
theorem scanTok_error {s rest : Str} {e : PyErr} (h : scanTok s = some (.error e, rest)) : e = .valueError := by
  unfold scanTok at h
  split at h
  · simp at h
  split at h
  · simp at h
  cases s with
  | nil => simp at h
  | cons c r =>
    replace h : scanChar c r = some (.error e, rest) := h
    have str : ∀ q, scanString q r = some (.error e, rest) → e = .valueError := by
      intro q hq
      simp only [scanString, Option.map_eq_some_iff] at hq
      obtain ⟨⟨v, bad, rest'⟩, h1, h2⟩ := hq
      cases bad <;> simp at h2
      exact h2.1.symm
    unfold scanChar at h
    iterate 13
      rcases ite_cases h with ⟨hc, h⟩ | ⟨hc, h⟩
      · simp at h
    rcases ite_cases h with ⟨hc, h⟩ | ⟨hc, h⟩
    · simp at h
    rcases ite_cases h with ⟨hc, h⟩ | ⟨hc, h⟩
    · simp at h
    rcases ite_cases h with ⟨hc, h⟩ | ⟨hc, h⟩
    · cases r with
      | nil => simp at h
      | cons d r =>
        simp only at h
        rcases ite_cases h with ⟨hc, h⟩ | ⟨hc, h⟩ <;> simp at h
    rcases ite_cases h with ⟨hc, h⟩ | ⟨hc, h⟩
    · simp at h
    rcases ite_cases h with ⟨hc, h⟩ | ⟨hc, h⟩
    · cases r with
      | nil => simp at h
      | cons d r =>
        simp only at h
        rcases ite_cases h with ⟨hc, h⟩ | ⟨hc, h⟩
        · simp at h
        rcases ite_cases h with ⟨hc, h⟩ | ⟨hc, h⟩ <;> simp at h
    rcases ite_cases h with ⟨hc, h⟩ | ⟨hc, h⟩
    · exact str _ h
    rcases ite_cases h with ⟨hc, h⟩ | ⟨hc, h⟩
    · exact str _ h
    · simp at h

/-- The loop gives the same result for every sufficient fuel. -/
theorem lexLoop_fuel (text : Str) : ∀ (n m : Nat) (s : Str), s.length < n → s.length < m →
    lexLoop text n s = lexLoop text m s := by
  intro n
  induction n with
  | zero => intro m s h; omega
  | succ n ih =>
    intro m s hn hm
    cases m with
    | zero => omega
    | succ m =>
      simp only [lexLoop]
      split
      · rfl
      · cases h : scanTok s with
        | none => rfl
        | some p =>
          obtain ⟨t, rest⟩ := p
          cases t with
          | error e => rfl
          | ok t =>
            have h1 := scanTok_shrinks h
            have h2 := skipWs_length false rest
            simp only
            rw [ih m (skipWs false rest) (by omega) (by omega)]

/-- The generator never runs out of fuel. -/
theorem lexLoop_no_fuel (text : Str) : ∀ (n : Nat) (s : Str), s.length < n →
    (lexLoop text n s).2 ≠ some .fuel := by
  intro n
  induction n with
  | zero => intro s h; omega
  | succ n ih =>
    intro s hn
    simp only [lexLoop]
    split
    · simp
    · cases h : scanTok s with
      | none => simp
      | some p =>
        obtain ⟨t, rest⟩ := p
        cases t with
        | error e =>
          simp only
          have : e = .valueError := by
            exact scanTok_error h
          simp [this]
        | ok t =>
          have h1 := scanTok_shrinks h
          have h2 := skipWs_length false rest
          exact ih _ (by omega)

theorem lex_no_fuel (text : Str) : (lex text).2 ≠ some .fuel := by
  have := skipWs_length false text
  exact lexLoop_no_fuel text _ _ (by omega)

/-- Unfolding of the lexer loop at a token. -/
theorem lexLoop_step (text : Str) (n : Nat) (s rest : Str) (t : Tk) (h : scanTok s = some (.ok t, rest)) :
    lexLoop text (n + 1) s =
      (⟨t, text.length - s.length, text.length - rest.length⟩ :: (lexLoop text n (skipWs false rest)).1,
        (lexLoop text n (skipWs false rest)).2) := by
  have : s.isEmpty = false := by
    cases s with
    | nil => simp [scanTok, dropPrefix?] at h
    | cons => rfl
  simp only [lexLoop, this, Bool.false_eq_true, if_false, h]

theorem lexLoop_sound (text : Str) : ∀ (n : Nat) (pre s : Str) (ts : List Token), s.length < n →
    text = pre ++ s → lexLoop text n (skipWs false s) = (ts, none) → Lexed pre.length s ts := by
  intro n
  induction n with
  | zero => intro _ s _ h; omega
  | succ n ih =>
    intro pre s ts hn ht h
    obtain ⟨g, e, hb, _⟩ := skipWs_sound s
    have hl := skipWs_length false s
    generalize skipWs false s = s' at *
    cases hs : scanTok s' with
    | none =>
      simp only [lexLoop, hs] at h
      split at h
      · rename_i he
        simp at h he
        subst h; subst he
        simp at e hb
        rw [e]; exact .done hb
      · simp at h
    | some p =>
      obtain ⟨t, rest⟩ := p
      cases t with
      | error err =>
        simp only [lexLoop, hs] at h
        split at h
        · rename_i he
          simp at he; subst he
          simp [scanTok, dropPrefix?] at hs
        · simp at h
      | ok t =>
        rw [lexLoop_step text n s' rest t hs] at h
        obtain ⟨w, hw, e', hsp, hm⟩ := scanTok_sound hs
        have hwl : 0 < w.length := List.length_pos_iff.2 hw
        have hne : s'.isEmpty = false := by rw [e']; cases w <;> simp_all
        rw [hne] at hb
        simp only [Prod.mk.injEq] at h
        obtain ⟨h1, h2⟩ := h
        have hrl : s'.length = w.length + rest.length := by rw [e']; simp
        have hsl : s.length = g.length + s'.length := by rw [e]; simp
        have htl : text.length = pre.length + s.length := by rw [ht]; simp
        have := ih (pre ++ g ++ w) rest _ (by omega) (by rw [ht, e, e']; simp)
          (Prod.ext rfl h2)
        rw [← h1]
        have e1 : text.length - s'.length = pre.length + g.length := by omega
        have e2 : text.length - rest.length = pre.length + g.length + w.length := by omega
        rw [e1, e2, e, e']
        exact .tok hb hsp hm (by simpa [Nat.add_assoc] using this)

theorem spells_ne {w : Str} {t : Tk} (h : Spells w t) : w ≠ [] := by
  rintro rfl
  cases t with
  | bool b => cases b <;> simp [Spells] at h
  | lower s => obtain ⟨rfl, c, r, h, _⟩ := h; simp at h
  | upper s => obtain ⟨rfl, c, r, h, _⟩ := h; simp at h
  | other s => obtain ⟨rfl, c, r, h, _⟩ := h; simp at h
  | int i =>
    cases i with
    | ofNat n =>
      obtain ⟨c, r, e, _⟩ := natStr_cons n
      simp [Spells, intStr, e] at h
    | negSucc n => simp [Spells, intStr] at h
  | str v => obtain ⟨q, b, _, h, _⟩ := h; simp at h
  | _ => simp [Spells] at h

/-- The first character of a token is neither white space nor `#`. -/
theorem spells_head {w : Str} {t : Tk} (h : Spells w t) (rest : Str) : skipWs false (w ++ rest) = w ++ rest := by
  have key : ∀ c r, w = c :: r → isSpace c = false → c ≠ 35 → skipWs false (w ++ rest) = w ++ rest := by
    intro c r e h1 h2; subst e
    simp [skipWs, h1, h2]
  have big : ∀ c, (33 ≤ c ∧ c ≤ 126) → isSpace c = false := by
    intro c hc; simp [isSpace]; omega
  cases t with
  | bool b => cases b <;> (simp only [Spells] at h; subst h; simp [skipWs, isSpace])
  | lower s =>
    obtain ⟨rfl, c, r, e, hc, _⟩ := h
    simp [isLower] at hc
    exact key c r e (big c (by omega)) (by omega)
  | upper s =>
    obtain ⟨rfl, c, r, e, hc, _⟩ := h
    simp [isUpperA] at hc
    exact key c r e (big c (by omega)) (by omega)
  | other s =>
    obtain ⟨rfl, c, r, e, hc, _⟩ := h
    simp at hc
    exact key c r e (big c (by omega)) (by omega)
  | int i =>
    cases i with
    | ofNat n =>
      obtain ⟨c, r, e, hc, _⟩ := natStr_cons n
      simp only [Spells, intStr] at h
      have := isDigit_range hc
      exact key c r (by rw [h, e]) (big c (by omega)) (by omega)
    | negSucc n =>
      simp only [Spells, intStr] at h
      exact key 45 _ h (by decide) (by decide)
  | str v =>
    obtain ⟨q, b, hq, h, _⟩ := h
    exact key q _ h (big q (by omega)) (by omega)
  | _ => simp only [Spells] at h; subst h; simp [skipWs, isSpace]

theorem lexLoop_complete {k : Nat} {s : Str} {ts : List Token} (h : Lexed k s ts) :
    ∀ (text pre : Str) (n : Nat), s.length < n → text = pre ++ s → pre.length = k →
      lexLoop text n (skipWs false s) = (ts, none) := by
  induction h with
  | done hb =>
    intro text pre n hn _ _
    have := skipWs_blank hb [] (by simp)
    simp at this
    rw [this]
    cases n with
    | zero => omega
    | succ n => simp [lexLoop, skipWs]
  | @tok k g w t rest ts hb hsp hm _ ih =>
    intro text pre n hn ht hk
    rw [skipWs_blank hb _ (by simp), spells_head hsp]
    cases n with
    | zero => omega
    | succ n =>
      have hw : 0 < w.length := List.length_pos_iff.2 (spells_ne hsp)
      rw [lexLoop_step text n _ rest t (scanTok_complete hsp hm)]
      have htl : text.length = pre.length + (g.length + (w.length + rest.length)) := by rw [ht]; simp
      simp at hn
      have := ih text (pre ++ g ++ w) n (by omega) (by rw [ht]; simp) (by simp; omega)
      rw [this]
      have e1 : text.length - (w ++ rest).length = k + g.length := by simp; omega
      have e2 : text.length - rest.length = k + g.length + w.length := by omega
      rw [e1, e2]

/-- The lexer accepts exactly the texts described by the lexical grammar, with exactly those tokens. -/
theorem lex_iff (text : Str) (toks : List Token) : lex text = (toks, none) ↔ Lexed 0 text toks := by
  constructor
  · intro h
    exact lexLoop_sound text (text.length + 1) [] text toks (by omega) rfl h
  · intro h
    exact lexLoop_complete h text [] _ (by omega) rfl rfl

/-- Offsets of the tokens produced before a lexical error (or all tokens). -/
theorem lexLoop_spans (text : Str) : ∀ (n : Nat) (s : Str) (k : Nat), s.length ≤ text.length →
    k = text.length - s.length →
    (∀ t ∈ (lexLoop text n s).1, k ≤ t.start ∧ t.start < t.stop ∧ t.stop ≤ text.length) ∧
    (lexLoop text n s).1.Pairwise (fun a b => a.stop ≤ b.start) ∧
    (∀ tx p m, (lexLoop text n s).2 = some (.syntax tx p m) → tx = text ∧ p ≤ text.length) := by
  intro n
  induction n with
  | zero => intro s k _ _; simp [lexLoop]
  | succ n ih =>
    intro s k hs hk
    cases h : scanTok s with
    | none =>
      simp only [lexLoop, h]
      split
      · simp
      · simp
    | some q =>
      obtain ⟨t, rest⟩ := q
      cases t with
      | error e =>
        simp only [lexLoop, h]
        split
        · simp
        · refine ⟨by simp, by simp, ?_⟩
          rename_i hne
          intro tx p m he
          simp at he
          rw [scanTok_error h] at he; cases he
      | ok t =>
        have h1 := scanTok_shrinks h
        have h2 := skipWs_length false rest
        have h3 := skipWs_sound rest
        rw [lexLoop_step text n s rest t h]
        obtain ⟨i1, i2, i3⟩ := ih (skipWs false rest) (text.length - (skipWs false rest).length) (by omega) rfl
        refine ⟨?_, ?_, i3⟩
        · intro t' ht'
          simp at ht'
          rcases ht' with rfl | ht'
          · simp; omega
          · have := i1 t' ht'; omega
        · simp only [List.pairwise_cons]
          refine ⟨?_, i2⟩
          intro t' ht'
          have := i1 t' ht'
          show text.length - rest.length ≤ t'.start
          omega

end DS
