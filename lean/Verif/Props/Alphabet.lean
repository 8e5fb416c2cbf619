import Verif.Proofs.Lexer

/-
C07: the character classes and numerals that the lexical specification mentions are the documented ones.
-/
namespace DS

theorem below {P : Nat → Prop} {n : Nat} (h : ∀ c : Fin n, P c.1) (c : Nat) (hc : c < n) : P c := h ⟨c, hc⟩

/-- The letters and digits of names and numbers are the ASCII ones, the name characters are these and `_`. -/
theorem C07.alphabet (c : Nat) :
    (isLower c = true ↔ c ∈ py"abcdefghijklmnopqrstuvwxyz") ∧
    (isUpperA c = true ↔ c ∈ py"ABCDEFGHIJKLMNOPQRSTUVWXYZ") ∧
    (isDigit c = true ↔ c ∈ py"0123456789") ∧
    (isWord c = true ↔ c ∈ py"abcdefghijklmnopqrstuvwxyz" ∨ c ∈ py"ABCDEFGHIJKLMNOPQRSTUVWXYZ" ∨
      c ∈ py"0123456789" ∨ c ∈ py"_") := by
  by_cases hc : c < 128
  · revert c
    intro c hc
    have : ∀ c : Fin 128,
        (isLower c.1 = true ↔ c.1 ∈ py"abcdefghijklmnopqrstuvwxyz") ∧
        (isUpperA c.1 = true ↔ c.1 ∈ py"ABCDEFGHIJKLMNOPQRSTUVWXYZ") ∧
        (isDigit c.1 = true ↔ c.1 ∈ py"0123456789") ∧
        (isWord c.1 = true ↔ c.1 ∈ py"abcdefghijklmnopqrstuvwxyz" ∨ c.1 ∈ py"ABCDEFGHIJKLMNOPQRSTUVWXYZ" ∨
          c.1 ∈ py"0123456789" ∨ c.1 ∈ py"_") := by decide
    exact this ⟨c, hc⟩
  · have lt : ∀ s ∈ [py"abcdefghijklmnopqrstuvwxyz", py"ABCDEFGHIJKLMNOPQRSTUVWXYZ", py"0123456789", py"_"],
        ∀ x ∈ s, x < 128 := by decide
    have no : ∀ s ∈ [py"abcdefghijklmnopqrstuvwxyz", py"ABCDEFGHIJKLMNOPQRSTUVWXYZ", py"0123456789", py"_"], c ∉ s :=
      fun s hs h => hc (lt s hs c h)
    have n1 := no _ (List.mem_cons_self ..)
    have n2 := no _ (List.mem_cons_of_mem _ (List.mem_cons_self ..))
    have n3 := no _ (List.mem_cons_of_mem _ (List.mem_cons_of_mem _ (List.mem_cons_self ..)))
    have n4 := no _ (List.mem_cons_of_mem _ (List.mem_cons_of_mem _ (List.mem_cons_of_mem _ (List.mem_cons_self ..))))
    simp only [n1, n2, n3, n4, iff_false, or_false, isWord, isLower, isUpperA, isDigit, Bool.or_eq_true, Bool.and_eq_true,
      decide_eq_true_eq, beq_iff_eq]
    omega

/-- White space: the ASCII blanks and separators `\t\n\v\f\r`, FS–US and the space, and the Unicode spaces NEL, NBSP,
OGHAM SPACE MARK, EN QUAD to HAIR SPACE, LINE and PARAGRAPH SEPARATOR, NARROW NBSP, MEDIUM MATHEMATICAL SPACE and
IDEOGRAPHIC SPACE. -/
theorem C07.whitespace (c : Nat) : isSpace c = true ↔
    c ∈ [9, 10, 11, 12, 13, 28, 29, 30, 31, 32, 0x85, 0xa0, 0x1680, 0x2000, 0x2001, 0x2002, 0x2003, 0x2004, 0x2005,
      0x2006, 0x2007, 0x2008, 0x2009, 0x200a, 0x2028, 0x2029, 0x202f, 0x205f, 0x3000] := by
  simp only [isSpace, Bool.or_eq_true, Bool.and_eq_true, decide_eq_true_eq, beq_iff_eq, List.mem_cons, List.not_mem_nil,
    or_false]
  omega

/-- the number that a sequence of digits spells, most significant first -/
inductive Numeral : Str → Nat → Prop where
  | digit {c n : Nat} : (py"0123456789")[n]? = some c → Numeral [c] n
  | more {s : Str} {m c n : Nat} : Numeral s m → (py"0123456789")[n]? = some c → Numeral (s ++ [c]) (10 * m + n)

theorem digit_at {n : Nat} (h : n < 10) : (py"0123456789")[n]? = some (48 + n) := by
  have : ∀ n : Fin 10, (py"0123456789")[n.1]? = some (48 + n.1) := by decide
  exact this ⟨n, h⟩

theorem digit_inv {c n : Nat} (h : (py"0123456789")[n]? = some c) : n < 10 ∧ c = 48 + n := by
  have hn : n < 10 := (List.getElem?_eq_some_iff.1 h).1
  rw [digit_at hn] at h
  injection h with h
  exact ⟨hn, h.symm⟩

theorem numeral_ne_nil {s : Str} {m : Nat} (h : Numeral s m) : s ≠ [] := by
  cases h <;> simp

theorem numeral_zero {s : Str} {m : Nat} (h : Numeral s m) (hs : s = py"0") : m = 0 := by
  cases h with
  | digit hd =>
    have e := (digit_inv hd).2
    have : [_] = [48] := hs
    injection this with e' _
    omega
  | more h hd =>
    have := congrArg List.length hs
    have hn := List.length_pos_iff.2 (numeral_ne_nil h)
    rw [List.length_append] at this
    simp only [List.length_cons, List.length_nil] at this
    have e1 : (py"0").length = 1 := rfl
    omega

theorem natStrAux_acc (fuel n : Nat) (acc : Str) : natStrAux fuel n acc = natStrAux fuel n [] ++ acc := by
  induction fuel generalizing n acc with
  | zero => rfl
  | succ f ih =>
    unfold natStrAux
    split
    · rfl
    · rw [ih, ih _ [_]]; simp

theorem numeral_natStr (n : Nat) : Numeral (natStr n) n ∧ (natStr n = py"0" ∨ ∃ c r, natStr n = c :: r ∧ c ≠ 48) := by
  unfold natStr
  have key : ∀ fuel n, n < fuel → Numeral (natStrAux fuel n []) n ∧
      (natStrAux fuel n [] = py"0" ∨ ∃ c r, natStrAux fuel n [] = c :: r ∧ c ≠ 48) := by
    intro fuel
    induction fuel with
    | zero => intro n h; omega
    | succ f ih =>
      intro n hn
      unfold natStrAux
      by_cases h : n < 10
      · rw [if_pos h]
        refine ⟨.digit (digit_at h), ?_⟩
        by_cases h0 : n = 0
        · subst h0; exact .inl rfl
        · exact .inr ⟨_, _, rfl, by omega⟩
      · rw [if_neg h, natStrAux_acc]
        obtain ⟨h1, h2⟩ := ih (n / 10) (by omega)
        constructor
        · have := Numeral.more h1 (digit_at (n := n % 10) (by omega))
          rwa [show 10 * (n / 10) + n % 10 = n by omega] at this
        · right
          rcases h2 with h2 | ⟨c, r, h2, hc⟩
          · rw [h2] at h1
            exfalso
            have := numeral_zero h1 rfl
            omega
          · exact ⟨c, r ++ [48 + n % 10], by rw [h2]; rfl, hc⟩
  exact key (n + 1) n (by omega)

/-- Integers are written in decimal, without leading zeros and with `-` in front if they are negative. -/
theorem C07.numerals (i : Int) :
    (∀ n : Nat, i = n → Numeral (intStr i) n ∧ (intStr i = py"0" ∨ ∃ c r, intStr i = c :: r ∧ c ≠ 48)) ∧
    (∀ n : Nat, i = -((n : Int) + 1) → ∃ s, intStr i = py"-" ++ s ∧ Numeral s (n + 1) ∧ ∃ c r, s = c :: r ∧ c ≠ 48) := by
  constructor
  · rintro n rfl
    exact numeral_natStr n
  · rintro n rfl
    have e : intStr (-((n : Int) + 1)) = 45 :: natStr (n + 1) := by
      rw [show (-((n : Int) + 1)) = Int.negSucc n from rfl]; rfl
    obtain ⟨h1, h2⟩ := numeral_natStr (n + 1)
    refine ⟨natStr (n + 1), e, h1, ?_⟩
    rcases h2 with h2 | h2
    · exfalso
      rw [h2] at h1
      have := numeral_zero h1 rfl
      omega
    · exact h2

example : Numeral (py"407") 407 := .more (.more (.digit (n := 4) rfl) (n := 0) rfl) (n := 7) rfl

end DS
