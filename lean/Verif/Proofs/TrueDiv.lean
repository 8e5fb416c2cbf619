import Verif.Model.TrueDiv

set_option exponentiation.threshold 2000

/-! The double nearest to a quotient of ints has the same floor and ceiling as the quotient, as long as the numerator is
at most `2^53` and the denominator below `2^1075`. -/
namespace DS

theorem round_bounds {n d : Nat} (hd : 0 < d) :
    2 * (d * roundHalfEven n d) ≤ 2 * n + d ∧ 2 * n ≤ 2 * (d * roundHalfEven n d) + d := by
  have h1 := Nat.div_add_mod n d
  have h2 := Nat.mod_lt n hd
  unfold roundHalfEven
  simp only
  split
  · omega
  · split
    · rw [Nat.mul_add, Nat.mul_one]; omega
    · rcases Nat.mod_two_eq_zero_or_one (n / d) with h | h <;> rw [h]
      · rw [Nat.add_zero]; omega
      · rw [Nat.mul_add, Nat.mul_one]; omega

theorem round_le {n d N : Nat} (hd : 0 < d) (h : n ≤ N * d) : roundHalfEven n d ≤ N := by
  have h1 := (round_bounds (n := n) hd).1
  refine Nat.le_of_not_lt fun hlt => ?_
  have h2 : d * (N + 1) ≤ d * roundHalfEven n d := Nat.mul_le_mul_left _ hlt
  rw [Nat.mul_add, Nat.mul_one, Nat.mul_comm d N] at h2
  omega

theorem le_round {n d N : Nat} (hd : 0 < d) (h : N * d ≤ n) : N ≤ roundHalfEven n d := by
  have h1 := (round_bounds (n := n) hd).2
  refine Nat.le_of_not_lt fun hlt => ?_
  have h2 : d * (roundHalfEven n d + 1) ≤ d * N := Nat.mul_le_mul_left _ hlt
  rw [Nat.mul_add, Nat.mul_one, Nat.mul_comm d N] at h2
  omega

theorem round_exact {d N : Nat} (hd : 0 < d) : roundHalfEven (N * d) d = N :=
  Nat.le_antisymm (round_le hd (Nat.le_refl _)) (le_round hd (Nat.le_refl _))

/-- the exponent is not too large -/
theorem quotientLog_le {a b : Nat} (ha : 0 < a) :
    b * 2 ^ (quotientLog a b).toNat ≤ a * 2 ^ (-quotientLog a b).toNat := by
  unfold quotientLog
  simp only
  split
  · assumption
  · have h1 : 2 ^ a.log2 ≤ a := Nat.log2_self_le (by omega)
    have h2 : b < 2 ^ (b.log2 + 1) := Nat.lt_log2_self
    generalize a.log2 = x at *
    generalize b.log2 = y at *
    by_cases h : y + 1 ≤ x
    · have e1 : ((x : Int) - y - 1).toNat = x - (y + 1) := by omega
      have e2 : (-((x : Int) - y - 1)).toNat = 0 := by omega
      rw [e1, e2, Nat.pow_zero, Nat.mul_one]
      have h3 : b * 2 ^ (x - (y + 1)) ≤ 2 ^ (y + 1) * 2 ^ (x - (y + 1)) := Nat.mul_le_mul_right _ (Nat.le_of_lt h2)
      rw [← Nat.pow_add, Nat.add_sub_cancel' h] at h3
      omega
    · have e1 : ((x : Int) - y - 1).toNat = 0 := by omega
      have e2 : (-((x : Int) - y - 1)).toNat = y + 1 - x := by omega
      rw [e1, e2, Nat.pow_zero, Nat.mul_one]
      have h3 : 2 ^ x * 2 ^ (y + 1 - x) ≤ a * 2 ^ (y + 1 - x) := Nat.mul_le_mul_right _ h1
      rw [← Nat.pow_add, Nat.add_sub_cancel' (by omega)] at h3
      omega

/-- rounding to `s` binary places keeps floor and ceiling if the places are fine enough -/
theorem places_keep {a b D : Nat} (hb : 0 < b) (hD : 0 < D) (h : b < 2 * D ∨ b ∣ a * D) :
    roundHalfEven (a * D) b / D = a / b ∧ (roundHalfEven (a * D) b + D - 1) / D = (a + b - 1) / b := by
  have hr := round_bounds (n := a * D) hb
  rcases h with h | ⟨N, h⟩
  · refine ⟨?_, ?_⟩
    · refine (Nat.div_eq_iff hD).2 ?_
      have h1 := Nat.div_add_mod a b
      have h2 := Nat.mod_lt a hb
      have h3 : a / b * D ≤ roundHalfEven (a * D) b := by
        refine le_round hb ?_
        rw [Nat.mul_right_comm]
        refine Nat.mul_le_mul_right _ ?_
        rw [Nat.mul_comm]; omega
      refine ⟨h3, ?_⟩
      refine Nat.le_of_not_lt fun hlt => ?_
      have h4 : b * (a / b * D + D) ≤ b * roundHalfEven (a * D) b := Nat.mul_le_mul_left _ (by omega)
      have h5 : a + 1 ≤ b * (a / b + 1) := by rw [Nat.mul_add, Nat.mul_one]; omega
      have h6 := Nat.mul_le_mul_right D h5
      rw [Nat.add_mul, Nat.one_mul, Nat.mul_assoc, Nat.add_mul, Nat.one_mul] at h6
      omega
    · generalize hN : (a + b - 1) / b = N
      have h1 := Nat.div_add_mod (a + b - 1) b
      have h2 := Nat.mod_lt (a + b - 1) hb
      rw [hN] at h1
      have hup : roundHalfEven (a * D) b ≤ N * D := by
        refine round_le hb ?_
        rw [Nat.mul_right_comm]
        refine Nat.mul_le_mul_right _ ?_
        rw [Nat.mul_comm]; omega
      have hlo : N = 0 ∨ (N - 1) * D < roundHalfEven (a * D) b := by
        rcases Nat.eq_zero_or_pos N with h0 | h0
        · exact .inl h0
        · refine .inr (Nat.lt_of_not_le fun hle => ?_)
          have h4 : b * roundHalfEven (a * D) b ≤ b * ((N - 1) * D) := Nat.mul_le_mul_left _ hle
          have h5 : b * (N - 1) + 1 ≤ a := by
            have : b * (N - 1) + b = b * N := by
              rw [← Nat.mul_succ, Nat.succ_eq_add_one, Nat.sub_add_cancel h0]
            omega
          have h6 := Nat.mul_le_mul_right D h5
          rw [Nat.add_mul, Nat.one_mul, Nat.mul_assoc] at h6
          omega
      refine (Nat.div_eq_iff hD).2 ?_
      rcases hlo with rfl | hlo
      · rw [Nat.zero_mul] at hup; omega
      · rcases Nat.eq_zero_or_pos N with rfl | h0
        · rw [Nat.zero_mul] at hup; omega
        · have : (N - 1) * D + D = N * D := by
            rw [← Nat.succ_mul, Nat.succ_eq_add_one, Nat.sub_add_cancel h0]
          omega
  · rw [h, Nat.mul_comm b N, round_exact hb]
    have e : ∀ x y : Nat, a * D = N * b → x * b ≤ a → a < (x + 1) * b → N / D = x := by
      intro x y h h1 h2
      refine (Nat.div_eq_iff hD).2 ?_
      have h3 := Nat.mul_le_mul_right D h1
      have h4 := Nat.mul_lt_mul_of_pos_right h2 hD
      rw [h, Nat.mul_right_comm] at h3 h4
      have h5 := Nat.le_of_mul_le_mul_right h3 hb
      have h6 := Nat.lt_of_mul_lt_mul_right h4
      rw [Nat.add_mul, Nat.one_mul] at h6
      omega
    rw [Nat.mul_comm b N] at h
    refine ⟨e (a / b) 0 h ?_ ?_, ?_⟩
    · exact Nat.div_mul_le_self a b
    · exact Nat.lt_mul_of_div_lt (Nat.lt_succ_self _) hb
    · generalize hM : (a + b - 1) / b = M
      have h1 := (Nat.div_eq_iff hb).1 hM
      refine (Nat.div_eq_iff hD).2 ?_
      have h2 : a ≤ M * b := by omega
      have h3 := Nat.mul_le_mul_right D h2
      rw [h, Nat.mul_right_comm] at h3
      have h4 := Nat.le_of_mul_le_mul_right h3 hb
      rcases Nat.eq_zero_or_pos M with rfl | h0
      · rw [Nat.zero_mul] at h4; omega
      · have h5 : (M - 1) * b < a := by
          have : (M - 1) * b + b = M * b := by rw [← Nat.succ_mul, Nat.succ_eq_add_one, Nat.sub_add_cancel h0]
          omega
        have h6 := Nat.mul_lt_mul_of_pos_right h5 hD
        rw [h, Nat.mul_right_comm] at h6
        have h7 := Nat.lt_of_mul_lt_mul_right h6
        have : (M - 1) * D + D = M * D := by rw [← Nat.succ_mul, Nat.succ_eq_add_one, Nat.sub_add_cancel h0]
        omega

/-- floor and ceiling of the double nearest to `a / b` -/
theorem trueDiv_exact {a b : Nat} (ha : a ≤ 2 ^ 53) (hb : 0 < b) (hb' : b < 2 ^ 1075) :
    ∃ n d, trueDiv a b = .ok (n, d) ∧ n / d = a / b ∧ (n + d - 1) / d = (a + b - 1) / b := by
  rcases Nat.eq_zero_or_pos a with rfl | ha0
  · have hk : quotientLog 0 b < 52 := by
      unfold quotientLog
      simp only [Nat.log2_zero, Nat.zero_mul]
      rw [if_neg]
      · omega
      · have := Nat.mul_pos hb (Nat.two_pow_pos (((0 : Nat) : Int) - b.log2).toNat)
        omega
    refine ⟨_, _, by simp only [trueDiv]; rw [if_neg (by omega)], ?_⟩
    exact places_keep hb (Nat.two_pow_pos _) (.inr ⟨0, by simp⟩)
  · have hle := quotientLog_le (b := b) ha0
    unfold trueDiv
    simp only
    generalize quotientLog a b = k at *
    by_cases hk : 52 ≤ k
    · rw [if_pos hk]
      obtain ⟨j, rfl⟩ : ∃ j : Nat, k = 52 + j := ⟨(k - 52).toNat, by omega⟩
      have e1 : ((52 : Int) + j).toNat = 52 + j := by omega
      have e2 : (-((52 : Int) + j)).toNat = 0 := by omega
      have e3 : ((52 : Int) + j - 52).toNat = j := by omega
      rw [e1, e2, Nat.pow_zero, Nat.mul_one, Nat.pow_add] at hle
      rw [e3]
      have hu := Nat.two_pow_pos j
      have hbu : b * 2 ^ j * 2 ^ 52 ≤ 2 * 2 ^ 52 := by
        rw [Nat.mul_assoc, Nat.mul_comm (2 ^ j)]
        exact Nat.le_trans hle ha
      have hbu := Nat.le_of_mul_le_mul_right hbu (by decide)
      have hbp := Nat.mul_pos hb hu
      have hdvd : b * 2 ^ j ∣ a := by
        have h12 : b * 2 ^ j = 1 ∨ b * 2 ^ j = 2 := by omega
        rcases h12 with h | h
        · rw [h]; exact Nat.one_dvd _
        · have : b * (2 ^ 52 * 2 ^ j) = 2 * 2 ^ 52 := by
            rw [Nat.mul_comm (2 ^ 52), ← Nat.mul_assoc, h]
          have : a = 2 ^ 53 := by omega
          rw [h, this]
          exact ⟨2 ^ 52, by decide⟩
      obtain ⟨N, hN⟩ := hdvd
      have hr : roundHalfEven a (b * 2 ^ j) = N := by rw [hN, Nat.mul_comm (b * 2 ^ j)]; exact round_exact hbp
      rw [hr]
      have hv : a = b * (N * 2 ^ j) := by rw [hN, Nat.mul_assoc, Nat.mul_comm (2 ^ j)]
      generalize N * 2 ^ j = v at *
      have hva : v ≤ 2 ^ 53 := by
        have : v ≤ b * v := Nat.le_mul_of_pos_left _ hb
        omega
      rw [if_neg]
      · refine ⟨_, _, rfl, ?_, ?_⟩
        · rw [Nat.div_one, hv, Nat.mul_div_cancel_left _ hb]
        · rw [Nat.div_one]
          refine ((Nat.div_eq_iff hb).2 ?_).symm
          rw [hv, Nat.mul_comm b v]
          rw [Nat.add_sub_cancel]
          exact ⟨by omega, by omega⟩
      · exact Nat.not_le.2 (Nat.lt_of_le_of_lt hva (Nat.pow_lt_pow_right (by decide) (by decide)))
    · rw [if_neg hk]
      refine ⟨_, _, rfl, places_keep hb (Nat.two_pow_pos _) ?_⟩
      by_cases hs : 52 - k ≤ 1074
      · have e : (min (52 - k) 1074).toNat = (52 - k).toNat := by omega
        rw [e]
        have h1 : b * 2 ^ 52 ≤ a * 2 ^ (52 - k).toNat := by
          by_cases h0 : 0 ≤ k
          · have e2 : (-k).toNat = 0 := by omega
            rw [e2, Nat.pow_zero, Nat.mul_one] at hle
            have h3 := Nat.mul_le_mul_right (2 ^ (52 - k).toNat) hle
            rw [Nat.mul_assoc, ← Nat.pow_add] at h3
            have e4 : k.toNat + (52 - k).toNat = 52 := by omega
            rwa [e4] at h3
          · have e2 : k.toNat = 0 := by omega
            rw [e2, Nat.pow_zero, Nat.mul_one] at hle
            have h3 := Nat.mul_le_mul_right (2 ^ 52) hle
            rw [Nat.mul_assoc, ← Nat.pow_add] at h3
            have e4 : (-k).toNat + 52 = (52 - k).toNat := by omega
            rwa [e4] at h3
        generalize 2 ^ (52 - k).toNat = D at *
        by_cases hlt : b < 2 * D
        · exact .inl hlt
        · right
          have h4 : a * D ≤ 2 ^ 53 * D := Nat.mul_le_mul_right _ ha
          have h5 : b * 2 ^ 52 = a * D := by omega
          rw [← h5]
          exact Nat.dvd_mul_right _ _
      · left
        have e : (min (52 - k) 1074).toNat = 1074 := by omega
        rw [e]
        exact Nat.lt_of_lt_of_eq hb' (by rw [show (1075 : Nat) = 1074 + 1 from rfl, Nat.pow_succ, Nat.mul_comm])

/-- `int(ceil(a / b))` is the exact ceiling -/
theorem ceilDiv_exact {a b : Int} (ha : a.natAbs ≤ 2 ^ 53) (hb : b ≠ 0) (hb' : b.natAbs < 2 ^ 1075) :
    ceilDiv a b = .ok (-((-a).fdiv b)) := by
  obtain ⟨n, d, h, h1, h2⟩ := trueDiv_exact ha (b := b.natAbs) (by omega) hb'
  unfold ceilDiv
  rw [if_neg hb, h]
  simp only [Except.map, h1, h2]
  congr 1
  have key : ∀ x y : Nat, 0 < y → (-(x : Int)).fdiv y = -((x + y - 1) / y : Nat) := by
    intro x y hy
    rw [Int.fdiv_eq_ediv_of_nonneg _ (by omega)]
    generalize hq : (x + y - 1) / y = q
    have h1 := (Nat.div_eq_iff hy).1 hq
    refine (Int.ediv_eq_iff_of_pos (by omega)).2 ?_
    have : (q : Int) * y = ((q * y : Nat) : Int) := by simp
    rw [Int.neg_mul, this]
    omega
  have key2 : ∀ x y : Nat, 0 < y → (x : Int).fdiv y = (x / y : Nat) := by
    intro x y _
    rw [Int.fdiv_eq_ediv_of_nonneg _ (by omega), Int.natCast_ediv]
  obtain ⟨x, hx⟩ : ∃ x : Nat, a.natAbs = x := ⟨_, rfl⟩
  obtain ⟨y, hy⟩ : ∃ y : Nat, b.natAbs = y := ⟨_, rfl⟩
  rw [hx, hy]
  have hy0 : 0 < y := by omega
  by_cases h0 : 0 ≤ a <;> by_cases h3 : 0 ≤ b
  · obtain rfl : a = x := by omega
    obtain rfl : b = y := by omega
    rw [if_pos (by simp only [h0, h3]), key _ _ hy0, Int.neg_neg]
  · obtain rfl : a = x := by omega
    obtain rfl : b = -y := by omega
    rw [if_neg (by simp only [h0, h3]; simp), Int.neg_fdiv_neg, key2 _ _ hy0]
  · obtain rfl : a = -x := by omega
    obtain rfl : b = y := by omega
    rw [if_neg (by simp only [h0, h3]; simp), Int.neg_neg, key2 _ _ hy0]
  · obtain rfl : a = -x := by omega
    obtain rfl : b = -y := by omega
    rw [if_pos (by simp only [h0, h3]), Int.neg_fdiv_neg, key _ _ hy0, Int.neg_neg]
end DS
