import Verif.Proofs.TrueDiv
import Verif.Spec.Doubles

set_option exponentiation.threshold 3000

/-! The quotient of ints is the double nearest to it. -/
namespace DS

theorem round_scale {n d c : Nat} (hc : 0 < c) : roundHalfEven (n * c) (d * c) = roundHalfEven n d := by
  unfold roundHalfEven
  simp only [Nat.mul_div_mul_right _ _ hc, Nat.mul_mod_mul_right]
  have h1 : (2 * (n % d * c) < d * c) = (2 * (n % d) < d) := by
    rw [← Nat.mul_assoc]; exact propext (Nat.mul_lt_mul_right hc)
  have h2 : (d * c < 2 * (n % d * c)) = (d < 2 * (n % d)) := by
    rw [← Nat.mul_assoc]; exact propext (Nat.mul_lt_mul_right hc)
  simp only [h1, h2]

theorem round_tie {n d : Nat} (hd : 0 < d)
    (h : 2 * (d * roundHalfEven n d) = 2 * n + d ∨ 2 * n = 2 * (d * roundHalfEven n d) + d) :
    roundHalfEven n d % 2 = 0 := by
  have h1 := Nat.div_add_mod n d
  have h2 := Nat.mod_lt n hd
  revert h
  unfold roundHalfEven
  simp only
  split
  · intro h; omega
  · split
    · intro h; rw [Nat.mul_add, Nat.mul_one] at h; omega
    · intro h; omega

/-- the exponent is not too small -/
theorem lt_quotientLog {a b : Nat} (hb : 0 < b) :
    a * 2 ^ (-(quotientLog a b + 1)).toNat < b * 2 ^ (quotientLog a b + 1).toNat := by
  unfold quotientLog
  simp only
  split
  · have h1 : a < 2 ^ (a.log2 + 1) := Nat.lt_log2_self
    have h2 : 2 ^ b.log2 ≤ b := Nat.log2_self_le (by omega)
    generalize a.log2 = x at *
    generalize b.log2 = y at *
    by_cases h : y ≤ x + 1
    · have e1 : ((x : Int) - y + 1).toNat = x + 1 - y := by omega
      have e2 : (-((x : Int) - y + 1)).toNat = 0 := by omega
      rw [e1, e2, Nat.pow_zero, Nat.mul_one]
      have h3 : 2 ^ y * 2 ^ (x + 1 - y) ≤ b * 2 ^ (x + 1 - y) := Nat.mul_le_mul_right _ h2
      rw [← Nat.pow_add, Nat.add_sub_cancel' h] at h3
      omega
    · have e1 : ((x : Int) - y + 1).toNat = 0 := by omega
      have e2 : (-((x : Int) - y + 1)).toNat = y - (x + 1) := by omega
      rw [e1, e2, Nat.pow_zero, Nat.mul_one]
      have h3 : a * 2 ^ (y - (x + 1)) < 2 ^ (x + 1) * 2 ^ (y - (x + 1)) :=
        Nat.mul_lt_mul_of_pos_right h1 (Nat.pow_pos (by decide))
      rw [← Nat.pow_add, Nat.add_sub_cancel' (by omega)] at h3
      omega
  · rename_i h
    rw [Int.sub_add_cancel]
    omega

theorem double_even {q j : Nat} (h : q ≤ 2 ^ 53) (hq : q % 2 = 0) : EvenDouble (q * 2 ^ j) := by
  rcases Nat.lt_or_ge q (2 ^ 53) with hlt | hge
  · refine ⟨q / 2, j, by omega, ?_⟩
    rw [Nat.pow_succ, Nat.mul_comm (2 ^ j) 2, ← Nat.mul_assoc]
    congr 1; omega
  · have : q = 2 ^ 53 := by omega
    subst this
    refine ⟨2 ^ 51, j + 1, by decide, ?_⟩
    rw [← Nat.pow_add, ← Nat.pow_add]
    congr 1; omega

theorem double_unit {q j : Nat} (h : q ≤ 2 ^ 53) : Double (q * 2 ^ j) := by
  rcases Nat.lt_or_ge q (2 ^ 53) with hlt | hge
  · exact ⟨q, j, hlt, rfl⟩
  · have : q = 2 ^ 53 := by omega
    subst this
    refine ⟨2 ^ 52, j + 1, by decide, ?_⟩
    rw [← Nat.pow_add, ← Nat.pow_add]
    congr 1; omega

theorem dist_mul (x y c : Nat) : dist (x * c) (y * c) = dist x y * c := by
  unfold dist
  rw [Nat.add_mul, Nat.sub_mul, Nat.sub_mul]

/-- the nearest multiple is no farther than any other, and even if it is as far -/
theorem round_nearest {n d q : Nat} (hd : 0 < d) (hne : q ≠ roundHalfEven n d) :
    dist (roundHalfEven n d * d) n < dist (q * d) n ∨
      (dist (roundHalfEven n d * d) n = dist (q * d) n ∧ roundHalfEven n d % 2 = 0) := by
  have hb := round_bounds (n := n) hd
  have ht := round_tie (n := n) hd
  generalize roundHalfEven n d = r at *
  rw [Nat.mul_comm d r] at hb ht
  rcases Nat.lt_or_ge q r with h | h
  · have h1 : (q + 1) * d ≤ r * d := Nat.mul_le_mul_right _ h
    rw [Nat.add_mul, Nat.one_mul] at h1
    unfold dist
    by_cases e : 2 * (r * d) = 2 * n + d
    · have := ht (.inl e)
      by_cases e2 : (q + 1) * d = r * d
      · rw [Nat.add_mul, Nat.one_mul] at e2
        right; omega
      · rw [Nat.add_mul, Nat.one_mul] at e2
        left; omega
    · left; omega
  · have h1 : (r + 1) * d ≤ q * d := Nat.mul_le_mul_right _ (by omega)
    rw [Nat.add_mul, Nat.one_mul] at h1
    unfold dist
    by_cases e : 2 * n = 2 * (r * d) + d
    · have := ht (.inr e)
      by_cases e2 : (r + 1) * d = q * d
      · rw [Nat.add_mul, Nat.one_mul] at e2
        right; omega
      · rw [Nat.add_mul, Nat.one_mul] at e2
        left; omega
    · left; omega

/-- rounding to the unit `2^j` of the last of 53 binary digits -/
theorem nearest_unit {a b j : Nat} (hb : 0 < b) (hlt : a * 2 ^ 1074 < 2 ^ 53 * (b * 2 ^ j))
    (hge : j = 0 ∨ 2 ^ 52 * (b * 2 ^ j) ≤ a * 2 ^ 1074) :
    NearestDouble a b (roundHalfEven (a * 2 ^ 1074) (b * 2 ^ j) * 2 ^ j) := by
  unfold NearestDouble
  generalize a * 2 ^ 1074 = A at *
  have hd : 0 < b * 2 ^ j := Nat.mul_pos hb (Nat.pow_pos (by decide))
  have hq : roundHalfEven A (b * 2 ^ j) ≤ 2 ^ 53 := round_le hd (Nat.le_of_lt hlt)
  refine ⟨double_unit hq, ?_⟩
  rintro D' ⟨m, e, hm, rfl⟩ hne
  have swap : ∀ q : Nat, q * 2 ^ j * b = q * (b * 2 ^ j) := by
    intro q; rw [Nat.mul_assoc, Nat.mul_comm (2 ^ j) b]
  rw [swap]
  by_cases hej : j ≤ e
  · have e1 : m * 2 ^ e = (m * 2 ^ (e - j)) * 2 ^ j := by
      rw [Nat.mul_assoc, ← Nat.pow_add, Nat.sub_add_cancel hej]
    rw [e1] at hne ⊢
    rw [swap]
    generalize m * 2 ^ (e - j) = q at *
    have hne' : q ≠ roundHalfEven A (b * 2 ^ j) := fun h => hne (by rw [h])
    rcases round_nearest hd hne' with h | ⟨h1, h2⟩
    · exact .inl h
    · exact .inr ⟨h1, double_even hq h2⟩
  · rcases hge with h0 | hge
    · omega
    have h1 : m * 2 ^ e < 2 ^ 52 * 2 ^ j := by
      have h2 : m * 2 ^ e < 2 ^ 53 * 2 ^ e := Nat.mul_lt_mul_of_pos_right hm (Nat.pow_pos (by decide))
      have h3 : 2 ^ 53 * 2 ^ e ≤ 2 ^ 52 * 2 ^ j := by
        rw [← Nat.pow_add, ← Nat.pow_add]
        exact Nat.pow_le_pow_right (by decide) (by omega)
      omega
    have h2 : m * 2 ^ e * b < 2 ^ 52 * (b * 2 ^ j) := by
      rw [← swap]; exact Nat.mul_lt_mul_of_pos_right h1 hb
    left
    have h3 : dist (2 ^ 52 * (b * 2 ^ j)) A < dist (m * 2 ^ e * b) A := by
      unfold dist
      generalize 2 ^ 52 * (b * 2 ^ j) = X at *
      generalize m * 2 ^ e * b = Y at *
      omega
    refine Nat.lt_of_le_of_lt ?_ h3
    by_cases h4 : 2 ^ 52 = roundHalfEven A (b * 2 ^ j)
    · rw [← h4]; exact Nat.le_refl _
    · rcases round_nearest hd h4 with h | ⟨h, -⟩
      · exact Nat.le_of_lt h
      · exact Nat.le_of_eq h

/-- there is only one nearest double -/
theorem nearest_unique {a b D D' : Nat} (hb : 0 < b) (h : NearestDouble a b D) (h' : NearestDouble a b D') : D = D' := by
  refine Classical.byContradiction fun hne => ?_
  have key : ∀ {D D' : Nat}, D < D' → NearestDouble a b D → NearestDouble a b D' → False := by
    intro D D' hlt h h'
    rcases h.2 D' h'.1 (by omega) with h1 | ⟨h1, m, e, hm, hD⟩
    · rcases h'.2 D h.1 (by omega) with h2 | ⟨h2, -⟩ <;> omega
    rcases h'.2 D h.1 (by omega) with h2 | ⟨h2, m', e', hm', hD'⟩
    · omega
    -- a double strictly between would be nearer
    have between : ∀ x, Double x → D < x → x < D' → False := by
      intro x hx h3 h4
      have h5 : D * b < x * b := Nat.mul_lt_mul_of_pos_right h3 hb
      have h6 : x * b < D' * b := Nat.mul_lt_mul_of_pos_right h4 hb
      have := h.2 x hx (by omega)
      unfold dist at *
      omega
    have g1 : D' ≤ D + 2 ^ e := by
      refine Nat.le_of_not_lt fun hlt' => between (D + 2 ^ e) ⟨2 * m + 1, e, by omega, ?_⟩ ?_ hlt'
      · rw [hD, Nat.pow_succ, Nat.add_mul, Nat.one_mul, Nat.mul_comm (2 ^ e) 2, ← Nat.mul_assoc, Nat.mul_comm m 2]
      · have : 0 < 2 ^ e := Nat.pow_pos (by decide)
        omega
    have g2 : D' ≤ D + 2 ^ e' := by
      have hm0 : 0 < m' := by
        rcases Nat.eq_zero_or_pos m' with h0 | h0
        · rw [h0, Nat.zero_mul] at hD'; omega
        · exact h0
      have e1 : D' = (2 * m' - 1) * 2 ^ e' + 2 ^ e' := by
        have : (2 * m' - 1) * 2 ^ e' + 2 ^ e' = (2 * m' - 1 + 1) * 2 ^ e' := by rw [Nat.add_mul, Nat.one_mul]
        rw [this, hD', Nat.pow_succ, Nat.mul_comm (2 ^ e') 2, ← Nat.mul_assoc, Nat.mul_comm m' 2]
        congr 1; omega
      refine Nat.le_of_not_lt fun hlt' => between ((2 * m' - 1) * 2 ^ e') ⟨2 * m' - 1, e', by omega, rfl⟩ ?_ ?_
      · omega
      · have : 0 < 2 ^ e' := Nat.pow_pos (by decide)
        omega
    have dvd : ∀ {f x y : Nat}, f ≤ e → f ≤ e' → D' ≤ D + 2 ^ f → False := by
      intro f x y h3 h4 h5
      have d1 : 2 ^ (f + 1) ∣ D := by
        rw [hD]; exact Nat.dvd_trans (Nat.pow_dvd_pow 2 (by omega)) (Nat.dvd_mul_left _ _)
      have d2 : 2 ^ (f + 1) ∣ D' := by
        rw [hD']; exact Nat.dvd_trans (Nat.pow_dvd_pow 2 (by omega)) (Nat.dvd_mul_left _ _)
      have d3 := Nat.le_of_dvd (by omega) (Nat.dvd_sub d2 d1)
      rw [Nat.pow_succ] at d3
      have : 0 < 2 ^ f := Nat.pow_pos (by decide)
      omega
    rcases Nat.le_total e e' with hle | hle
    · exact dvd (x := 0) (y := 0) (Nat.le_refl _) hle g1
    · exact dvd (x := 0) (y := 0) hle (Nat.le_refl _) g2
  rcases Nat.lt_or_ge D D' with hlt | hge
  · exact key hlt h h'
  · exact key (by omega) h' h

theorem log_upper {a b : Nat} {k : Int} (h : a * 2 ^ (-(k + 1)).toNat < b * 2 ^ (k + 1).toNat) (j : Nat)
    (hj : k - 52 + 1074 ≤ j) : a * 2 ^ 1074 < 2 ^ 53 * (b * 2 ^ j) := by
  have e : 2 ^ 53 * (b * 2 ^ j) = b * 2 ^ (j + 53) := by
    rw [Nat.pow_add, Nat.mul_comm (2 ^ 53), Nat.mul_assoc]
  rw [e]
  by_cases hk : 0 ≤ k + 1
  · have e1 : (-(k + 1)).toNat = 0 := by omega
    rw [e1, Nat.pow_zero, Nat.mul_one] at h
    have h2 := Nat.mul_lt_mul_of_pos_right h (Nat.pow_pos (n := 1074) (show 0 < 2 by decide))
    rw [Nat.mul_assoc, ← Nat.pow_add] at h2
    exact Nat.lt_of_lt_of_le h2 (Nat.mul_le_mul_left _ (Nat.pow_le_pow_right (by decide) (by omega)))
  · have e1 : (k + 1).toNat = 0 := by omega
    rw [e1, Nat.pow_zero, Nat.mul_one] at h
    have h2 : a * 2 ^ (-(k + 1)).toNat * 2 ^ (j + 53) < b * 2 ^ (j + 53) :=
      Nat.mul_lt_mul_of_pos_right h (Nat.pow_pos (by decide))
    rw [Nat.mul_assoc, ← Nat.pow_add] at h2
    exact Nat.lt_of_le_of_lt (Nat.mul_le_mul_left _ (Nat.pow_le_pow_right (by decide) (by omega))) h2

theorem log_lower {a b : Nat} {k : Int} (h : b * 2 ^ k.toNat ≤ a * 2 ^ (-k).toNat) (j : Nat)
    (hj : (j : Int) = k - 52 + 1074) : 2 ^ 52 * (b * 2 ^ j) ≤ a * 2 ^ 1074 := by
  have e : 2 ^ 52 * (b * 2 ^ j) = b * 2 ^ (j + 52) := by
    rw [Nat.pow_add, Nat.mul_comm (2 ^ 52), Nat.mul_assoc]
  rw [e]
  by_cases hk : 0 ≤ k
  · have e1 : (-k).toNat = 0 := by omega
    rw [e1, Nat.pow_zero, Nat.mul_one] at h
    have h2 := Nat.mul_le_mul_right (2 ^ 1074) h
    rw [Nat.mul_assoc, ← Nat.pow_add] at h2
    rwa [show j + 52 = k.toNat + 1074 by omega]
  · have e1 : k.toNat = 0 := by omega
    rw [e1, Nat.pow_zero, Nat.mul_one] at h
    have h2 := Nat.mul_le_mul_right (2 ^ (j + 52)) h
    rw [Nat.mul_assoc, ← Nat.pow_add] at h2
    rwa [show 1074 = (-k).toNat + (j + 52) by omega]

theorem nearest_zero {b : Nat} (hb : 0 < b) : NearestDouble 0 b 0 := by
  refine ⟨⟨0, 0, by decide, by decide⟩, fun D' _ hne => .inl ?_⟩
  have : 0 < D' * b := Nat.mul_pos (by omega) hb
  unfold dist
  rw [Nat.zero_mul, Nat.zero_mul]
  omega

/-- `trueDiv` computes the nearest double, and raises `OverflowError` if it is not below `2^1024` -/
theorem trueDiv_nearest {a b : Nat} (hb : 0 < b) : ∃ D, NearestDouble a b D ∧
    ((∃ n s, s ≤ 1074 ∧ trueDiv a b = .ok (n, 2 ^ s) ∧ D = n * 2 ^ (1074 - s) ∧ FiniteDouble D) ∨
     (trueDiv a b = .error .overflow ∧ ¬ FiniteDouble D)) := by
  have hup := lt_quotientLog (a := a) hb
  unfold trueDiv
  simp only
  by_cases hk : 52 ≤ quotientLog a b
  · rw [if_pos hk]
    have ha : 0 < a := by
      refine Nat.pos_of_ne_zero fun h0 => ?_
      subst h0
      rw [Nat.zero_mul] at hup
      unfold quotientLog at hk
      simp only [Nat.zero_mul] at hk
      have : Nat.log2 0 = 0 := by decide
      rw [this] at hk
      split at hk <;> omega
    have hlo := quotientLog_le (a := a) (b := b) ha
    generalize quotientLog a b = k at *
    obtain ⟨i, hi⟩ : ∃ i : Nat, (k - 52).toNat = i := ⟨_, rfl⟩
    rw [hi]
    have hn := nearest_unit hb (log_upper hup (i + 1074) (by omega)) (.inr (log_lower hlo (i + 1074) (by omega)))
    have hs : roundHalfEven (a * 2 ^ 1074) (b * 2 ^ (i + 1074)) = roundHalfEven a (b * 2 ^ i) := by
      rw [Nat.pow_add, ← Nat.mul_assoc]; exact round_scale (Nat.pow_pos (by decide))
    rw [hs, Nat.pow_add, ← Nat.mul_assoc] at hn
    refine ⟨_, hn, ?_⟩
    unfold FiniteDouble
    split
    · rename_i h
      refine .inr ⟨rfl, Nat.not_lt.2 (Nat.mul_le_mul_right _ h)⟩
    · rename_i h
      refine .inl ⟨_, 0, by decide, rfl, rfl, ?_⟩
      exact Nat.mul_lt_mul_of_pos_right (Nat.lt_of_not_le h) (Nat.pow_pos (by decide))
  · rw [if_neg hk]
    by_cases ha : a = 0
    · subst ha
      refine ⟨0, nearest_zero hb, .inl ⟨_, _, ?_, rfl, ?_, ?_⟩⟩
      · omega
      · rw [Nat.zero_mul]
        have : roundHalfEven 0 b = 0 := Nat.le_zero.1 (round_le hb (by omega))
        rw [this, Nat.zero_mul]
      · unfold FiniteDouble; exact Nat.mul_pos (Nat.pow_pos (by decide)) (Nat.pow_pos (by decide))
    have hlo := quotientLog_le (a := a) (b := b) (by omega)
    generalize quotientLog a b = k at *
    obtain ⟨s, hs⟩ : ∃ s : Nat, (min (52 - k) 1074).toNat = s := ⟨_, rfl⟩
    rw [hs]
    have hs1 : s ≤ 1074 := by omega
    have hlt := log_upper hup (1074 - s) (by omega)
    have hn := nearest_unit hb hlt (by
      rcases Nat.eq_zero_or_pos (1074 - s) with h0 | h0
      · exact .inl h0
      · exact .inr (log_lower hlo (1074 - s) (by omega)))
    have hsc : roundHalfEven (a * 2 ^ 1074) (b * 2 ^ (1074 - s)) = roundHalfEven (a * 2 ^ s) b := by
      rw [← round_scale (n := a * 2 ^ s) (d := b) (c := 2 ^ (1074 - s)) (Nat.pow_pos (by decide)), Nat.mul_assoc a,
        ← Nat.pow_add, show s + (1074 - s) = 1074 by omega]
    have hq : roundHalfEven (a * 2 ^ 1074) (b * 2 ^ (1074 - s)) ≤ 2 ^ 53 :=
      round_le (Nat.mul_pos hb (Nat.pow_pos (by decide))) (Nat.le_of_lt hlt)
    rw [hsc] at hn hq
    refine ⟨_, hn, .inl ⟨_, s, hs1, rfl, rfl, ?_⟩⟩
    unfold FiniteDouble
    have h1 : 2 ^ (1074 - s) ≤ 2 ^ 1074 := Nat.pow_le_pow_right (by decide) (by omega)
    have h2 := Nat.mul_le_mul hq h1
    have h3 : (2 : Nat) ^ 53 * 2 ^ 1074 < 2 ^ 1024 * 2 ^ 1074 :=
      Nat.mul_lt_mul_of_pos_right (Nat.pow_lt_pow_right (by decide) (by decide)) (Nat.pow_pos (by decide))
    exact Nat.lt_of_le_of_lt h2 h3

end DS
