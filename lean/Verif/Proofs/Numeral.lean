import Verif.Model.Lexer

namespace DS

theorem natStrAux_fuel (n : Nat) : ∀ (f : Nat) (acc : Str), n < f → natStrAux f n acc = natStrAux (n + 1) n [] ++ acc := by
  induction n using Nat.strongRecOn with
  | ind n ih =>
    intro f acc hf
    cases f with
    | zero => omega
    | succ f =>
      simp only [natStrAux]
      by_cases h : n < 10
      · simp [h]
      · simp only [h, if_false]
        rw [ih (n / 10) (by omega) f _ (by omega), ih (n / 10) (by omega) n _ (by omega)]
        simp

theorem natStr_lt {n : Nat} (h : n < 10) : natStr n = [48 + n] := by
  simp [natStr, natStrAux, h]

theorem natStr_ge {n : Nat} (h : 10 ≤ n) : natStr n = natStr (n / 10) ++ [48 + n % 10] := by
  have : ¬ n < 10 := by omega
  simp only [natStr, natStrAux, this, if_false]
  rw [natStrAux_fuel (n / 10) n _ (by omega)]
  rfl

theorem natStr_digits (n : Nat) : ∀ c ∈ natStr n, isDigit c = true := by
  induction n using Nat.strongRecOn with
  | ind n ih =>
    by_cases h : n < 10
    · rw [natStr_lt h]; simp [isDigit]; omega
    · rw [natStr_ge (by omega)]
      intro c hc
      simp only [List.mem_append, List.mem_singleton] at hc
      rcases hc with hc | hc
      · exact ih _ (by omega) c hc
      · subst hc; simp [isDigit]; omega

theorem natStr_cons (n : Nat) : ∃ c r, natStr n = c :: r ∧ isDigit c = true ∧ (0 < n → c ≠ 48) ∧
    ∀ x ∈ r, isDigit x = true := by
  induction n using Nat.strongRecOn with
  | ind n ih =>
    by_cases h : n < 10
    · rw [natStr_lt h]; exact ⟨_, _, rfl, by simp [isDigit]; omega, by omega, by simp⟩
    · rw [natStr_ge (by omega)]
      obtain ⟨c, r, h1, h2, h3, h4⟩ := ih (n / 10) (by omega)
      refine ⟨c, r ++ [48 + n % 10], by simp [h1], h2, fun _ => h3 (by omega), ?_⟩
      intro x hx
      simp only [List.mem_append, List.mem_singleton] at hx
      rcases hx with hx | hx
      · exact h4 x hx
      · subst hx; simp [isDigit]; omega

theorem digitsVal_append (a : Nat) (s t : Str) : digitsVal a (s ++ t) = digitsVal (digitsVal a s) t := by
  simp [digitsVal]

theorem digitsVal_natStr (n : Nat) : digitsVal 0 (natStr n) = n := by
  induction n using Nat.strongRecOn with
  | ind n ih =>
    by_cases h : n < 10
    · rw [natStr_lt h]; simp [digitsVal]
    · rw [natStr_ge (by omega), digitsVal_append, ih _ (by omega)]
      simp [digitsVal]; omega

theorem natStr_snoc {m d : Nat} (hm : 0 < m) (hd : isDigit d = true) :
    natStr (10 * m + (d - 48)) = natStr m ++ [d] := by
  simp only [isDigit, Bool.and_eq_true, decide_eq_true_eq] at hd
  rw [natStr_ge (by omega)]
  have h1 : (10 * m + (d - 48)) / 10 = m := by omega
  have h2 : 48 + (10 * m + (d - 48)) % 10 = d := by omega
  rw [h1, h2]

theorem natStr_digitsVal_aux (r : Str) : ∀ m, 0 < m → (∀ x ∈ r, isDigit x = true) →
    natStr (digitsVal m r) = natStr m ++ r := by
  induction r with
  | nil => intro m _ _; simp [digitsVal]
  | cons d r ih =>
    intro m hm h
    have hd := h d (by simp)
    have := ih (10 * m + (d - 48)) (by omega) (fun x hx => h x (by simp [hx]))
    rw [natStr_snoc hm hd] at this
    simp only [digitsVal, List.foldl_cons] at this ⊢
    rw [this]; simp

/-- A digit sequence that does not start with `0` is the numeral of its value. -/
theorem natStr_digitsVal {c : Nat} {r : Str} (hc : isDigit c = true) (h0 : c ≠ 48)
    (hr : ∀ x ∈ r, isDigit x = true) : natStr (digitsVal 0 (c :: r)) = c :: r ∧ 0 < digitsVal 0 (c :: r) := by
  have hc' := hc
  simp only [isDigit, Bool.and_eq_true, decide_eq_true_eq] at hc'
  have key : digitsVal 0 (c :: r) = digitsVal (c - 48) r := by simp [digitsVal]
  constructor
  · rw [key, natStr_digitsVal_aux r (c - 48) (by omega) hr, natStr_lt (by omega)]
    simp; omega
  · rw [key]
    have : ∀ (r : Str) m, 0 < m → 0 < digitsVal m r := by
      intro r
      induction r with
      | nil => intro m h; simpa [digitsVal]
      | cons d r ih => intro m h; simpa [digitsVal] using ih (10 * m + (d - 48)) (by omega)
    exact this r _ (by omega)

end DS
