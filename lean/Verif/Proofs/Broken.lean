import Verif.Proofs.Lexer
import Verif.Spec.Raises

/-
The lexer raises exactly where the specification `Broken` says.
-/
set_option linter.unusedSimpArgs false
namespace DS

theorem put_shape {q e x : Nat} {r : Str}
    (ih : ∀ {v bad rest}, scanStr q r = some (v, bad, rest) →
      ∃ body, r = body ++ q :: rest ∧ StrShape q body ∧ (bad = true → ∃ c ∈ body, c = 0 ∨ (0xd800 ≤ c ∧ c ≤ 0xdfff)))
    (he : e ∈ [q, 98, 102, 110, 114, 116]) {v : Str} {bad : Bool} {rest : Str}
    (h : (scanStr q r).map (fun (v, bad, rest) => (x :: v, bad, rest)) = some (v, bad, rest)) :
    ∃ body, 92 :: e :: r = body ++ q :: rest ∧ StrShape q body ∧
      (bad = true → ∃ c ∈ body, c = 0 ∨ (0xd800 ≤ c ∧ c ≤ 0xdfff)) := by
  simp only [Option.map_eq_some_iff] at h
  obtain ⟨⟨v', bad', rest'⟩, h1, h2⟩ := h
  simp only [Prod.mk.injEq] at h2
  obtain ⟨rfl, rfl, rfl⟩ := h2
  obtain ⟨body, e', hb, hc⟩ := ih h1
  refine ⟨92 :: e :: body, by simp [e'], .esc he hb, fun h => ?_⟩
  obtain ⟨c, h1, h2⟩ := hc h
  exact ⟨c, by simp [h1], h2⟩

theorem scanStr_shape {q : Nat} (s : Str) : ∀ {v bad rest},
    scanStr q s = some (v, bad, rest) →
    ∃ body, s = body ++ q :: rest ∧ StrShape q body ∧ (bad = true → ∃ c ∈ body, c = 0 ∨ (0xd800 ≤ c ∧ c ≤ 0xdfff)) := by
  fun_induction scanStr q s with
  | case1 => intro v bad rest h; simp at h
  | case2 a b c d r hh ih =>
    intro v bad rest h
    simp only [Option.map_eq_some_iff] at h
    obtain ⟨⟨v', bad', rest'⟩, h1, h2⟩ := h
    simp only [Prod.mk.injEq] at h2
    obtain ⟨rfl, rfl, rfl⟩ := h2
    obtain ⟨body, e, hb, hc⟩ := ih h1
    simp only [Bool.and_eq_true] at hh
    refine ⟨92 :: 117 :: a :: b :: c :: d :: body, by simp [e],
      .hex (hexDigit_of hh.1.1.1) (hexDigit_of hh.1.1.2) (hexDigit_of hh.1.2) (hexDigit_of hh.2) hb, fun h => ?_⟩
    obtain ⟨c, h1, h2⟩ := hc h
    exact ⟨c, by simp [h1], h2⟩
  | case3 => intro v bad rest h; simp at h
  | case4 | case5 | case6 | case7 | case8 | case9 =>
    rename_i ih
    intro v bad rest h
    exact put_shape ih (by simp) h
  | case10 => intro v bad rest h; simp at h
  | case11 =>
    intro v bad rest h
    simp only [Option.some.injEq, Prod.mk.injEq] at h
    obtain ⟨rfl, rfl, rfl⟩ := h
    exact ⟨[], by simp, .nil, fun h => by cases h⟩
  | case12 => intro v bad rest h; simp at h
  | case13 c r _ _ hq hc ih =>
    intro v bad rest h
    simp only [Option.map_eq_some_iff] at h
    obtain ⟨⟨v', bad', rest'⟩, h1, h2⟩ := h
    simp only [Prod.mk.injEq] at h2
    obtain ⟨rfl, rfl, rfl⟩ := h2
    obtain ⟨body, e', hb, hd⟩ := ih h1
    refine ⟨c :: body, by simp [e'], .raw (by omega) (by omega) (by omega) (by omega) hb, fun h => ?_⟩
    simp at h
    by_cases h0 : bad' = true
    · obtain ⟨c, h1, h2⟩ := hd h0
      exact ⟨c, by simp [h1], h2⟩
    · exact ⟨c, by simp, by simp_all⟩

theorem scanStr_shape_complete {q : Nat} (hq : q = 34 ∨ q = 39) {body : Str} (h : StrShape q body) (rest : Str) :
    ∃ v, scanStr q (body ++ q :: rest) = some (v, body.any (fun c => c == 0 || (0xd800 ≤ c && c ≤ 0xdfff)), rest) := by
  induction h with
  | nil => exact ⟨[], by rw [List.nil_append, scanStr_raw (by omega)]; simp⟩
  | @raw c r h1 h2 h3 h4 _ ih =>
    obtain ⟨v, ih⟩ := ih
    refine ⟨c :: v, ?_⟩
    rw [List.cons_append, scanStr_raw h4, if_neg h1, if_neg (by omega), ih]
    simp only [Option.map_some, List.any_cons, Option.some.injEq, Prod.mk.injEq, true_and, and_true]
    rw [Bool.or_assoc, Bool.or_comm]
  | @hex a b c d w x y z r ha hb hc hd _ ih =>
    obtain ⟨v, ih⟩ := ih
    obtain ⟨ga, rfl⟩ := hexDigit_iff.1 ha
    obtain ⟨gb, rfl⟩ := hexDigit_iff.1 hb
    obtain ⟨gc, rfl⟩ := hexDigit_iff.1 hc
    obtain ⟨gd, rfl⟩ := hexDigit_iff.1 hd
    have nb : ∀ c, isHex c = true → (c == 0 || (decide (0xd800 ≤ c) && decide (c ≤ 0xdfff))) = false := by
      intro c hc
      simp [isHex, isDigit] at hc
      simp
      omega
    refine ⟨hexSeq [a, b, c, d] :: v, ?_⟩
    simp only [List.cons_append, scanStr, ga, gb, gc, gd, Bool.and_self, if_true, ih, Option.map_some, List.any_cons,
      nb _ ga, nb _ gb, nb _ gc, nb _ gd, Bool.false_or]
    simp
  | @esc e r he _ ih =>
    obtain ⟨v, ih⟩ := ih
    simp only [List.cons_append]
    have : ∃ x, (e, x) ∈ [(q, q), (98, 8), (102, 12), (110, 10), (114, 13), (116, 9)] := by
      simp at he ⊢
      rcases he with rfl | rfl | rfl | rfl | rfl | rfl
      · exact ⟨_, .inl ⟨rfl, rfl⟩⟩
      all_goals exact ⟨_, by simp; right; rfl⟩
    obtain ⟨x, hx⟩ := this
    refine ⟨x :: v, ?_⟩
    rw [scanStr_esc hq hx, ih]
    have ne : (e == 0 || (decide (0xd800 ≤ e) && decide (e ≤ 0xdfff))) = false := by
      simp at he
      simp
      omega
    simp only [Option.map_some, List.any_cons, ne, Bool.false_or]
    simp

/-- The exception of a token value: at a string that Python cannot evaluate. -/
theorem scanTok_bad {s : Str} : (∃ e rest, scanTok s = some (.error e, rest)) ↔ ∃ w rest, s = w ++ rest ∧ BadString w := by
  have str : ∀ (q : Nat) (r : Str), (q = 34 ∨ q = 39) → scanTok (q :: r) = scanString q r := by
    rintro q r (rfl | rfl) <;>
      (rw [scanTok_cons (by decide) (by decide)]; simp [scanChar, isLower, isUpperA, isDigit])
  have bad : ∀ q r, (q = 34 ∨ q = 39) → ((∃ e rest, scanString q r = some (.error e, rest)) ↔
      ∃ body rest, r = body ++ q :: rest ∧ StrShape q body ∧ ∃ c ∈ body, c = 0 ∨ (0xd800 ≤ c ∧ c ≤ 0xdfff)) := by
    intro q r hq
    constructor
    · rintro ⟨e, rest, h⟩
      simp only [scanString, Option.map_eq_some_iff] at h
      obtain ⟨⟨v, b, rest'⟩, h1, h2⟩ := h
      cases b <;> simp at h2
      obtain ⟨body, e1, e2, e3⟩ := scanStr_shape r h1
      exact ⟨body, _, e1, e2, e3 rfl⟩
    · rintro ⟨body, rest, rfl, h1, c, hc, h2⟩
      obtain ⟨v, h3⟩ := scanStr_shape_complete hq h1 rest
      have : body.any (fun c => c == 0 || (decide (0xd800 ≤ c) && decide (c ≤ 0xdfff))) = true := by
        rw [List.any_eq_true]
        exact ⟨c, hc, by simp; exact h2⟩
      rw [this] at h3
      exact ⟨_, _, by simp [scanString, h3]; exact ⟨rfl, rfl⟩⟩
  constructor
  · rintro ⟨e, rest, h⟩
    have key : ∃ q r, (q = 34 ∨ q = 39) ∧ s = q :: r := by
      unfold scanTok at h
      split at h
      · simp at h
      split at h
      · simp at h
      cases s with
      | nil => simp at h
      | cons c r =>
        replace h : scanChar c r = some (.error e, rest) := h
        refine ⟨c, r, ?_, rfl⟩
        unfold scanChar at h
        iterate 13
          rcases ite_cases h with ⟨hc, h⟩ | ⟨hc, h⟩
          · simp at h
        rcases ite_cases h with ⟨hc, h⟩ | ⟨hc, h⟩
        · simp at h
        rcases ite_cases h with ⟨hc, h⟩ | ⟨hc, h⟩
        · simp at h
        rcases ite_cases h with ⟨hc, h⟩ | ⟨hc, h⟩
        · cases r with
          | nil => simp at h
          | cons d r =>
            simp only at h
            rcases ite_cases h with ⟨hc, h⟩ | ⟨hc, h⟩ <;> simp at h
        rcases ite_cases h with ⟨hc, h⟩ | ⟨hc, h⟩
        · simp at h
        rcases ite_cases h with ⟨hc, h⟩ | ⟨hc, h⟩
        · cases r with
          | nil => simp at h
          | cons d r =>
            simp only at h
            rcases ite_cases h with ⟨hc, h⟩ | ⟨hc, h⟩
            · simp at h
            rcases ite_cases h with ⟨hc, h⟩ | ⟨hc, h⟩ <;> simp at h
        rcases ite_cases h with ⟨hc, h⟩ | ⟨hc, h⟩
        · exact .inl hc
        rcases ite_cases h with ⟨hc, h⟩ | ⟨hc, h⟩
        · exact .inr hc
        · simp at h
    obtain ⟨q, r, hq, rfl⟩ := key
    rw [str q r hq] at h
    obtain ⟨body, rest', e1, e2, e3⟩ := (bad q r hq).1 ⟨e, rest, h⟩
    exact ⟨q :: (body ++ [q]), rest', by rw [e1]; simp, q, body, hq, rfl, e2, e3⟩
  · rintro ⟨w, rest, rfl, q, body, hq, rfl, h1, h2⟩
    rw [List.cons_append, str q _ hq]
    exact (bad q _ hq).2 ⟨body, rest, by simp, h1, h2⟩

theorem scanTok_none {s : Str} : scanTok s = none ↔
    (∀ w t r, s = w ++ r → Munch t r → ¬ Spells w t) ∧ ∀ w r, s = w ++ r → ¬ BadString w := by
  constructor
  · intro h
    refine ⟨?_, ?_⟩
    · rintro w t r rfl hm hs
      rw [scanTok_complete hs hm] at h
      cases h
    · rintro w r rfl hb
      obtain ⟨e, rest, h'⟩ := scanTok_bad.2 ⟨w, r, rfl, hb⟩
      rw [h] at h'
      cases h'
  · rintro ⟨h1, h2⟩
    cases h : scanTok s with
    | none => rfl
    | some p =>
      obtain ⟨t, rest⟩ := p
      cases t with
      | error e =>
        obtain ⟨w, r, e, hb⟩ := scanTok_bad.1 ⟨_, _, h⟩
        exact absurd hb (h2 w r e)
      | ok t =>
        obtain ⟨w, _, e, hs, hm⟩ := scanTok_sound h
        exact absurd hs (h1 w t rest e hm)

theorem lexLoop_broken (text : Str) : ∀ (n : Nat) (pre s : Str) (ts : List Token) (e : PyErr), s.length < n →
    text = pre ++ s → lexLoop text n (skipWs false s) = (ts, some e) → Broken text pre.length s ts e := by
  intro n
  induction n with
  | zero => intro _ s _ _ h; omega
  | succ n ih =>
    intro pre s ts err hn ht h
    obtain ⟨g, e, hb, hhead⟩ := skipWs_sound s
    have hl := skipWs_length false s
    generalize skipWs false s = s' at *
    have hne : s'.isEmpty = false := by
      cases s' with
      | nil => simp [lexLoop] at h
      | cons => rfl
    rw [hne] at hb
    cases hs : scanTok s' with
    | none =>
      simp only [lexLoop, hs, hne] at h
      simp at h
      obtain ⟨rfl, rfl⟩ := h
      obtain ⟨h1, h2⟩ := scanTok_none.1 hs
      have hpos : text.length - s'.length = pre.length + g.length := by rw [ht, e]; simp; omega
      rw [hpos, e]
      exact .stuck hb (by rintro rfl; simp at hne) (by simpa using hhead) h1 h2
    | some p =>
      obtain ⟨t, rest⟩ := p
      cases t with
      | error err' =>
        have := scanTok_error hs
        subst this
        simp only [lexLoop, hs, hne] at h
        simp at h
        obtain ⟨rfl, rfl⟩ := h
        obtain ⟨w, r, e', hw⟩ := scanTok_bad.1 ⟨_, _, hs⟩
        rw [e, e']
        exact .string hb hw
      | ok t =>
        rw [lexLoop_step text n s' rest t hs] at h
        obtain ⟨w, hw, e', hsp, hm⟩ := scanTok_sound hs
        have hwl : 0 < w.length := List.length_pos_iff.2 hw
        simp only [Prod.mk.injEq] at h
        obtain ⟨h1, h2⟩ := h
        have hrl : s'.length = w.length + rest.length := by rw [e']; simp
        have hsl : s.length = g.length + s'.length := by rw [e]; simp
        have htl : text.length = pre.length + s.length := by rw [ht]; simp
        have := ih (pre ++ g ++ w) rest _ err (by omega) (by rw [ht, e, e']; simp)
          (Prod.ext rfl h2)
        rw [← h1]
        have e1 : text.length - s'.length = pre.length + g.length := by omega
        have e2 : text.length - rest.length = pre.length + g.length + w.length := by omega
        rw [e1, e2, e, e']
        exact .tok hb hsp hm (by simpa [Nat.add_assoc] using this)

theorem lexLoop_broken_complete {text : Str} {k : Nat} {s : Str} {ts : List Token} {e : PyErr} (h : Broken text k s ts e) :
    ∀ (pre : Str) (n : Nat), s.length < n → text = pre ++ s → pre.length = k →
      lexLoop text n (skipWs false s) = (ts, some e) := by
  induction h with
  | @string k g w rest hb hw =>
    intro pre n hn ht hk
    have hw' := hw
    obtain ⟨q, body, hq, rfl, _, _⟩ := hw'
    rw [skipWs_blank hb _ (by simp)]
    have hsk : skipWs false (q :: (body ++ [q]) ++ rest) = q :: (body ++ [q]) ++ rest := by
      rcases hq with rfl | rfl <;> simp [skipWs, isSpace]
    rw [hsk]
    obtain ⟨e, r, hs⟩ := scanTok_bad.2 ⟨_, rest, rfl, hw⟩
    have := scanTok_error hs
    subst this
    cases n with
    | zero => omega
    | succ n => simp only [lexLoop, hs]; simp
  | @stuck k g rest hb hne hh h1 h2 =>
    intro pre n hn ht hk
    rw [skipWs_blank hb _ (by simp)]
    have hsk : skipWs false rest = rest := by
      cases rest with
      | nil => exact absurd rfl hne
      | cons c r =>
        obtain ⟨a, b⟩ := hh c rfl
        simp [skipWs, a, b]
    rw [hsk]
    cases n with
    | zero => omega
    | succ n =>
      have hpos : text.length - rest.length = k + g.length := by rw [ht]; simp; omega
      simp only [lexLoop, scanTok_none.2 ⟨h1, h2⟩, hpos]
      simp [hne]
  | @tok k g w t rest ts e hb hsp hm _ ih =>
    intro pre n hn ht hk
    rw [skipWs_blank hb _ (by simp), spells_head hsp]
    cases n with
    | zero => omega
    | succ n =>
      have hw : 0 < w.length := List.length_pos_iff.2 (spells_ne hsp)
      rw [lexLoop_step text n _ rest t (scanTok_complete hsp hm)]
      have htl : text.length = pre.length + (g.length + (w.length + rest.length)) := by rw [ht]; simp
      simp at hn
      have := ih (pre ++ g ++ w) n (by omega) (by rw [ht]; simp) (by simp; omega)
      rw [this]
      have e1 : text.length - (w ++ rest).length = k + g.length := by simp; omega
      have e2 : text.length - rest.length = k + g.length + w.length := by omega
      rw [e1, e2]

/-- The lexer raises exactly on the texts described by `Broken`. -/
theorem lex_broken_iff (text : Str) (toks : List Token) (e : PyErr) :
    lex text = (toks, some e) ↔ Broken text 0 text toks e := by
  constructor
  · intro h
    exact lexLoop_broken text (text.length + 1) [] text toks e (by omega) rfl h
  · intro h
    exact lexLoop_broken_complete h [] _ (by omega) rfl rfl

end DS
