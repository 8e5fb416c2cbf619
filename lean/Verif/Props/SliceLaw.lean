import Verif.Spec.SliceLaw
import Verif.Proofs.Doubles
import Verif.Props.Subshape

/-
C18: what every slice of a dimension gives.
-/
namespace DS

theorem SliceBegins.unique {n a p q} (h : SliceBegins n a p) (h' : SliceBegins n a q) : p = q := by
  cases h <;> cases h' <;> first | rfl | omega

theorem SliceEnds.unique {n a p q} (h : SliceEnds n a p) (h' : SliceEnds n a q) : p = q := by
  cases h <;> cases h' <;> first | rfl | omega

theorem CeilQuotient.unique {x c r s} (h : CeilQuotient x c r) (h' : CeilQuotient x c s) : r = s := by
  cases h with
  | zero h0 => cases h' with
    | zero => rfl
    | infinite h1 => exact absurd h0 h1
    | least h1 => exact absurd h0 h1
  | infinite h0 h1 h2 => cases h' with
    | zero h3 => exact absurd h3 h0
    | infinite => rfl
    | least h3 h4 h5 => rw [nearest_unique (by omega) h1 h4] at h2; exact absurd h5 h2
  | @least D k h0 h1 h2 h3 h4 => cases h' with
    | zero h5 => exact absurd h5 h0
    | infinite h5 h6 h7 => rw [nearest_unique (by omega) h1 h6] at h2; exact absurd h2 h7
    | @least D' k' h5 h6 h7 h8 h9 =>
      obtain rfl := nearest_unique (by omega) h1 h6
      have e1 := h4 _ h8
      have e2 := h9 _ h3
      rw [show k = k' by omega]

theorem SliceLength.unique {x c r s} (h : SliceLength x c r) (h' : SliceLength x c s) : r = s := by
  cases h with
  | whole => cases h'; rfl
  | stepped h => cases h' with | stepped h' => exact h.unique h'

theorem WithLength.unique {rest k r s} (h : WithLength rest k r) (h' : WithLength rest k s) : r = s := by
  cases h <;> cases h' <;> first | rfl | omega

theorem KnownBounds.unique {a b p q p' q'} (h : KnownBounds a b p q) (h' : KnownBounds a b p' q') : p = p' ∧ q = q' := by
  cases h <;> cases h' <;> exact ⟨rfl, rfl⟩

theorem SliceOfFixed.unique {n rest a b c r s} (h : SliceOfFixed n rest a b c r) (h' : SliceOfFixed n rest a b c s) :
    r = s := by
  obtain ⟨h1, h2, h3, h4⟩ := h
  obtain ⟨g1, g2, g3, g4⟩ := h'
  obtain rfl := h1.unique g1
  obtain rfl := h2.unique g2
  obtain rfl := h3.unique g3
  exact h4.unique g4

theorem SliceOfDim.unique {rest a b c r s} (h : SliceOfDim rest a b c r) (h' : SliceOfDim rest a b c s) :
    r = s := by
  cases h with
  | known h1 h3 h4 => cases h' with
    | known g1 g3 g4 =>
      obtain ⟨rfl, rfl⟩ := h1.unique g1
      obtain rfl := h3.unique g3
      exact h4.unique g4
    | unknown g => exact absurd h1 (g _ _)
  | unknown h => cases h' with
    | known g1 => exact absurd g1 (h _ _)
    | unknown => rfl

theorem nearest_of_zero {b D : Nat} (hb : 0 < b) (h : NearestDouble 0 b D) : D = 0 := by
  by_cases hD : D = 0
  · exact hD
  · have h0 : Double 0 := ⟨0, 0, by decide, by simp⟩
    have hp : 0 < D * b := Nat.mul_pos (by omega) hb
    rcases h.2 0 h0 (Ne.symm hD) with h | h
    · simp [dist] at h
    · have := h.1
      simp [dist] at this
      omega

theorem sign_mul {x c : Int} {n : Nat} (hn : x = 0 → n = 0) (h : 0 ≤ x ↔ 0 ≤ c) (hc : c ≠ 0) :
    x.sign * c.sign * n = n := by
  by_cases hx : x = 0
  · rw [hn hx]; simp
  · by_cases h0 : 0 ≤ x
    · rw [Int.sign_eq_one_of_pos (by omega), Int.sign_eq_one_of_pos (a := c) (by omega)]; simp
    · rw [Int.sign_eq_neg_one_of_neg (by omega), Int.sign_eq_neg_one_of_neg (a := c) (by omega)]; simp

theorem sign_mul_neg {x c : Int} {n : Nat} (hn : x = 0 → n = 0) (h : ¬ (0 ≤ x ↔ 0 ≤ c)) (hc : c ≠ 0) :
    x.sign * c.sign * n = -n := by
  by_cases hx : x = 0
  · rw [hn hx]; simp
  · by_cases h0 : 0 ≤ x
    · rw [Int.sign_eq_one_of_pos (by omega), Int.sign_eq_neg_one_of_neg (a := c) (by omega)]; simp
    · rw [Int.sign_eq_neg_one_of_neg (by omega), Int.sign_eq_one_of_pos (a := c) (by omega)]; simp

theorem ceilDiv_spec (x c : Int) : CeilQuotient x c (ceilDiv x c) := by
  unfold ceilDiv
  by_cases hc : c = 0
  · rw [if_pos hc]; exact .zero hc
  · rw [if_neg hc]
    obtain ⟨D, hD, h | h⟩ := trueDiv_nearest (a := x.natAbs) (b := c.natAbs) (by omega)
    · obtain ⟨n, s, hs, ht, hDn, hf⟩ := h
      rw [ht]
      have hp : 2 ^ s * 2 ^ (1074 - s) = 2 ^ 1074 := by
        rw [← Nat.pow_add, Nat.add_sub_cancel' hs]
      have hpos : 0 < 2 ^ (1074 - s) := Nat.pow_pos (by decide)
      have hpos' : 0 < 2 ^ s := Nat.pow_pos (by decide)
      simp only [Except.map]
      generalize 2 ^ s = S at *
      generalize 2 ^ (1074 - s) = U at *
      have hsc : ∀ (e k : Int), (e * ((n * U : Nat) : Int) ≤ k * 2 ^ 1074 ↔ e * n ≤ k * S) := by
        intro e k
        have : (2 ^ 1074 : Int) = (S : Int) * U := by exact_mod_cast hp.symm
        rw [this, Int.natCast_mul, ← Int.mul_assoc, ← Int.mul_assoc]
        exact Int.mul_le_mul_right (by omega) 
      have hn : x = 0 → n = 0 := by
        rintro rfl
        have := nearest_of_zero (b := c.natAbs) (by omega) hD
        rw [hDn] at this
        rcases Nat.mul_eq_zero.1 this with h | h
        · exact h
        · omega
      subst hDn
      by_cases hsg : 0 ≤ x ↔ 0 ≤ c
      · rw [if_pos hsg]
        have hS := sign_mul (x := x) (c := c) (n := n) hn hsg hc
        have hdiv : ∀ k : Int, ((n : Int) ≤ k * S ↔ (((n + S - 1) / S : Nat) : Int) ≤ k) := by
          intro k
          by_cases hk : 0 ≤ k
          · obtain ⟨k, rfl⟩ := Int.eq_ofNat_of_zero_le hk
            rw [Int.ofNat_le, Nat.div_le_iff_le_mul_add_pred hpos']
            have : ((k : Int) * S) = ((S * k : Nat) : Int) := by rw [Int.natCast_mul, Int.mul_comm]
            rw [this, Int.ofNat_le]
            omega
          · constructor
            · intro h
              have : k * (S : Int) < 0 := Int.mul_neg_of_neg_of_pos (by omega) (by omega)
              omega
            · intro h
              have := Int.natCast_nonneg ((n + S - 1) / S)
              omega
        refine .least hc hD hf ((hsc _ _).2 ?_) fun j hj => ?_
        · rw [hS, hdiv]; exact Int.le_refl _
        · have := (hsc _ _).1 hj
          rw [hS, hdiv] at this
          exact this
      · rw [if_neg hsg]
        have hS := sign_mul_neg (x := x) (c := c) (n := n) hn hsg hc
        have hdiv : ∀ k : Int, (-(n : Int) ≤ k * S ↔ -((n / S : Nat) : Int) ≤ k) := by
          intro k
          by_cases hk : 0 ≤ k
          · have := Int.mul_nonneg hk (Int.natCast_nonneg S)
            have h2 := Int.natCast_nonneg (n / S)
            constructor <;> intro _ <;> omega
          · obtain ⟨m, hm⟩ := Int.eq_ofNat_of_zero_le (a := -k) (by omega)
            obtain rfl : k = -(m : Int) := by omega
            rw [Int.neg_mul, Int.neg_le_neg_iff, Int.neg_le_neg_iff, ← Int.natCast_mul, Int.ofNat_le, Int.ofNat_le,
              Nat.le_div_iff_mul_le hpos']
        refine .least hc hD hf ((hsc _ _).2 ?_) fun j hj => ?_
        · rw [hS, hdiv]; exact Int.le_refl _
        · have := (hsc _ _).1 hj
          rw [hS, hdiv] at this
          exact this
    · rw [h.1]; exact .infinite hc hD h.2

theorem sliceLength_spec (x : Int) (c : Option Int) :
    ∃ k, SliceLength x c k ∧ stepCount (.int x) c = k.map Operand.int := by
  cases c with
  | none => exact ⟨_, .whole, rfl⟩
  | some c =>
    refine ⟨_, .stepped (ceilDiv_spec x c), ?_⟩
    simp only [stepCount]
    cases ceilDiv x c <;> rfl

theorem withLength_spec (rest : List Ty) (hrest : Constructible rest) (k : Except PyErr Int) :
    WithLength rest k (k.map Operand.int >>= fun k => mul k (.ty (.dshape rest))) := by
  cases k with
  | error e => exact .failed e
  | ok k =>
    simp only [Except.map, bind, Except.bind]
    rw [C17.int_mul _ _ hrest]
    by_cases hk : k < 0
    · rw [if_pos hk]; exact .negative hk
    · rw [if_neg hk]
      obtain ⟨n, rfl⟩ := Int.eq_ofNat_of_zero_le (Int.not_lt.1 hk)
      exact .made n

theorem fixedBounds (n : Nat) (a b : Option Int) :
    ∃ p q, SliceBegins n a p ∧ SliceEnds n b q ∧ sliceCount (.fixed n) a b = .int (q - p) := by
  have h1 : ∃ p, SliceBegins n a p ∧ (if a.getD 0 < 0 then (n : Int) + a.getD 0 else a.getD 0) = p := by
    cases a with
    | none => exact ⟨_, .missing, by simp⟩
    | some a =>
      simp only [Option.getD_some]
      by_cases h : a < 0
      · exact ⟨_, .back h, by rw [if_pos h]⟩
      · exact ⟨_, .front (by omega), by rw [if_neg h]⟩
  obtain ⟨p, hp, e⟩ := h1
  cases b with
  | none =>
    refine ⟨p, _, hp, .missing, ?_⟩
    simp only [sliceCount, e]
    rw [if_neg (by omega)]
  | some b =>
    by_cases h0 : b = 0
    · subst h0
      refine ⟨p, _, hp, .zero, ?_⟩
      simp only [sliceCount, e, if_true]
      rw [if_neg (by omega)]
    · by_cases h : b < 0
      · exact ⟨p, _, hp, .back h, by simp only [sliceCount, e, if_neg h0]; rw [if_pos h]⟩
      · exact ⟨p, _, hp, .front (by omega), by simp only [sliceCount, e, if_neg h0]; rw [if_neg h]⟩

/-- What `ds.subshape[a:b:c]` gives for a fixed dimension, for any bounds and any step: the datashape with the length given
by the specification, or the error. -/
theorem C18.every_slice (n : Nat) (rest : List Ty) (hcon : Constructible (.fixed n :: rest)) (a b c : Option Int)
    (r : Except PyErr Ty) :
    subshape (.slice a b c) (.dshape (.fixed n :: rest)) = r ↔ SliceOfFixed n rest a b c r := by
  have hne := fixed_rest hcon
  have hrest := Constructible.suffix (a := [.fixed n]) hcon hne
  obtain ⟨p, q, hp, hq, hk⟩ := fixedBounds n a b
  obtain ⟨k, h1, h2⟩ := sliceLength_spec (q - p) c
  have h3 := withLength_spec rest hrest k
  have h4 : SliceOfFixed n rest a b c (subshape (.slice a b c) (.dshape (.fixed n :: rest))) := by
    refine .of hp hq h1 ?_
    simp only [subshape, head_dshape, Ty.fields?, bind, Except.bind, hk, h2, subarray_one hcon hne]
    exact h3
  exact ⟨fun h => h ▸ h4, fun h => h4.unique h⟩

theorem dimBounds (d : Ty) (hd : ∀ n, d ≠ .fixed n) (a b : Option Int) :
    (∃ p q, KnownBounds a b p q ∧ sliceCount d a b = .int (q - p)) ∨
    ((∀ p q, ¬ KnownBounds a b p q) ∧ sliceCount d a b = .var) := by
  have hs : sliceCount d a b = match b with
      | none => .var
      | some stop => if 0 ≤ stop ∧ 0 ≤ a.getD 0 then .int (stop - a.getD 0) else .var := by
    unfold sliceCount
    cases d <;> first | rfl | exact absurd rfl (hd _)
  cases b with
  | none => exact .inr ⟨(fun p q h => by cases h), hs⟩
  | some b =>
    simp only at hs
    cases a with
    | none =>
      by_cases hb : 0 ≤ b
      · exact .inl ⟨_, _, .missing hb, by rw [hs, if_pos ⟨hb, by simp⟩]; rfl⟩
      · exact .inr ⟨(fun p q h => by cases h; omega), by rw [hs, if_neg (fun h => hb h.1)]⟩
    | some a =>
      simp only [Option.getD_some] at hs
      by_cases hb : 0 ≤ b ∧ 0 ≤ a
      · exact .inl ⟨_, _, .both hb.2 hb.1, by rw [hs, if_pos hb]⟩
      · exact .inr ⟨(fun p q h => by cases h; omega), by rw [hs, if_neg hb]⟩

theorem no_fields {d : Ty} {rest : List Ty} (hcon : Constructible (d :: rest)) (hne : rest ≠ []) : d.fields? = none := by
  cases d with
  | record fs =>
    obtain ⟨a, m, e, h1, _⟩ := hcon.cls
    cases a with
    | nil => simp at e; exact absurd e.2 hne
    | cons x a =>
      simp at e
      have := h1 x (by simp)
      rw [← e.1] at this
      simp [Ty.cls] at this
  | _ => rfl

/-- What it gives for everything else that other components follow: `var`, an ellipsis, a type variable. -/
theorem C18.every_dim_slice (d : Ty) (hd : ∀ n, d ≠ .fixed n) (rest : List Ty) (hne : rest ≠ [])
    (hcon : Constructible (d :: rest)) (a b c : Option Int) (r : Except PyErr Ty) :
    subshape (.slice a b c) (.dshape (d :: rest)) = r ↔ SliceOfDim rest a b c r := by
  have hrest := Constructible.suffix (a := [d]) hcon hne
  have hfs := no_fields hcon hne
  have h4 : SliceOfDim rest a b c (subshape (.slice a b c) (.dshape (d :: rest))) := by
    rcases dimBounds d hd a b with ⟨p, q, hb, hk⟩ | ⟨hb, hk⟩
    · obtain ⟨k, h1, h2⟩ := sliceLength_spec (q - p) c
      refine .known hb h1 ?_
      simp only [subshape, head_dshape, hfs, bind, Except.bind, hk, h2, subarray_one hcon hne]
      exact withLength_spec rest hrest k
    · simp only [subshape, head_dshape, hfs, bind, Except.bind, hk, stepCount, subarray_one hcon hne]
      rw [dim_mul_cls .var rest hrest rfl]
      simp only [Ty.cls]
      exact .unknown hb
  exact ⟨fun h => h ▸ h4, fun h => h4.unique h⟩

/-- A datashape without dimensions, if it is not a record, has nothing to slice: the step is still looked at. -/
theorem C18.scalar_slice (d : Ty) (hfs : ∀ fs, d ≠ .record fs) (hd : ∀ n, d ≠ .fixed n) (a b c : Option Int)
    (r : Except PyErr Ty) :
    subshape (.slice a b c) (.dshape [d]) = r ↔
      (∃ p q e, KnownBounds a b p q ∧ SliceLength (q - p) c (.error e) ∧ r = .error e) ∨
      ((∀ p q e, KnownBounds a b p q → ¬ SliceLength (q - p) c (.error e)) ∧ r = .error .indexError) := by
  have hf : d.fields? = none := by cases d <;> first | rfl | exact absurd rfl (hfs _)
  have hsub : subarray (.dshape [d]) 1 = .error .indexError := by simp [subarray]
  rcases dimBounds d hd a b with ⟨p, q, hb, hk⟩ | ⟨hb, hk⟩
  · obtain ⟨k, h1, h2⟩ := sliceLength_spec (q - p) c
    simp only [subshape, head_dshape, hf, bind, Except.bind, hk, h2, hsub]
    cases k with
    | error e =>
      simp only [Except.map]
      constructor
      · intro h; exact .inl ⟨p, q, e, hb, h1, h.symm⟩
      · rintro (⟨p', q', e', g1, g2, rfl⟩ | ⟨g, _⟩)
        · obtain ⟨rfl, rfl⟩ := hb.unique g1
          cases h1.unique g2; rfl
        · exact absurd h1 (g p q e hb)
    | ok k =>
      simp only [Except.map]
      constructor
      · intro h
        refine .inr ⟨?_, h.symm⟩
        intro p' q' e' g1 g2
        obtain ⟨rfl, rfl⟩ := hb.unique g1
        exact absurd (h1.unique g2) (by intro h; cases h)
      · rintro (⟨p', q', e', g1, g2, rfl⟩ | ⟨_, rfl⟩)
        · obtain ⟨rfl, rfl⟩ := hb.unique g1
          exact absurd (h1.unique g2) (by intro h; cases h)
        · rfl
  · simp only [subshape, head_dshape, hf, bind, Except.bind, hk, stepCount, hsub]
    constructor
    · intro h; exact .inr ⟨(fun p q e g => absurd g (hb p q)), h.symm⟩
    · rintro (⟨p', q', e', g1, g2, rfl⟩ | ⟨_, rfl⟩)
      · exact absurd g1 (hb _ _)
      · rfl

theorem constructible_pair (d : Ty) (hd : d.cls ≠ some .measure) (hs : d.isSingleton = false) : Constructible [d, tInt32] :=
  .of ⟨[d], tInt32, rfl, by simpa using hd, by simp [tInt32, Ty.cls], by simpa [tInt32, Ty.isSingleton] using hs⟩

/-- A slice from before the beginning to an end of 0: `(10 * int32).subshape[-15:0:4]` is `4 * int32`; a negative step that
makes a length of a negative count: `(5 * int32).subshape[4:1:-2]` is `2 * int32` (of 2 elements 4 and 2: here rightly); a
slice of `...` becomes `var`; a step of 0 raises `ZeroDivisionError`, also for a scalar, but not where the count is `var`. -/
example : SliceOfFixed 10 [tInt32] (some (-15)) (some 0) (some 4) (.ok (.dshape [.fixed 4, tInt32])) ∧
    SliceOfFixed 5 [tInt32] (some 4) (some 1) (some (-2)) (.ok (.dshape [.fixed 2, tInt32])) ∧
    SliceOfFixed 5 [tInt32] (some 1) none (some 0) (.error .zeroDivision) ∧
    SliceOfDim [tInt32] (some 1) none (some 0) (.ok (.dshape [.var, tInt32])) ∧
    SliceOfDim [tInt32] (some 1) (some 6) (some 2) (.ok (.dshape [.fixed 3, tInt32])) ∧
    subshape (.slice none (some 1) (some 0)) (.dshape [tInt32]) = .error .zeroDivision ∧
    subshape (.slice none none (some 0)) (.dshape [tInt32]) = .error .indexError := by
  have hf (n : Nat) := constructible_pair (.fixed n) (by simp [Ty.cls]) rfl
  have hv := constructible_pair .var (by simp [Ty.cls]) rfl
  exact ⟨(C18.every_slice 10 _ (hf 10) _ _ _ _).1 rfl, (C18.every_slice 5 _ (hf 5) _ _ _ _).1 rfl,
    (C18.every_slice 5 _ (hf 5) _ _ _ _).1 rfl,
    (C18.every_dim_slice .var (by simp) _ (by simp) hv _ _ _ _).1 rfl,
    (C18.every_dim_slice .var (by simp) _ (by simp) hv _ _ _ _).1 rfl, rfl, rfl⟩

theorem down_count (n p q k : Nat) (hp : p < n) (hq : q ≤ p) (hk : 0 < k) :
    ((List.range n).reverse.filter fun i => decide (q < i ∧ i ≤ p ∧ (p - i) % k = 0)).length = (p - q + k - 1) / k := by
  have hrev : (List.range n).reverse = (List.range n).map (n - 1 - ·) := by
    apply List.ext_getElem
    · simp
    · intro i h1 h2
      simp
  rw [hrev, List.filter_map, List.length_map]
  have hc := filter_count n (n - 1 - p) (n - 1 - q) k hk
  rw [show min n (n - 1 - q) - (n - 1 - p) = p - q by omega] at hc
  rw [← hc]
  congr 1
  apply List.filter_congr
  intro i hi
  have hi := List.mem_range.1 hi
  simp only [Function.comp, decide_eq_decide]
  constructor
  · rintro ⟨h1, h2, h3⟩
    rw [show i - (n - 1 - p) = p - (n - 1 - i) by omega]
    exact ⟨by omega, by omega, h3⟩
  · rintro ⟨h1, h2, h3⟩
    rw [show i - (n - 1 - p) = p - (n - 1 - i) by omega] at h3
    exact ⟨by omega, by omega, h3⟩

/-- A slice with a negative step has the right length too if both bounds are given, lie inside the dimension, the end is not 0
and not after the beginning (and the numbers fit into doubles). -/
theorem C18.in_range_down (n : Nat) (rest : List Ty) (hcon : Constructible (.fixed n :: rest)) (a b : Int) (k : Nat)
    (ha : -(n : Int) ≤ a ∧ a < n) (hb : -(n : Int) ≤ b ∧ b < n ∧ b ≠ 0)
    (hab : boundDown n (-1) (some b) ≤ boundDown n (n - 1) (some a))
    (hk : 0 < k) (hn : n ≤ 2 ^ 53) (hk' : k < 2 ^ 1075) :
    subshape (.slice (some a) (some b) (some (-(k : Int)))) (.dshape (.fixed n :: rest)) =
      .ok (.dshape (.fixed (selectedDown n (some a) (some b) k).length :: rest)) := by
  obtain ⟨p, hp⟩ : ∃ p : Nat, (p : Int) = if a < 0 then a + n else a := by
    split
    · exact ⟨(a + n).toNat, by omega⟩
    · exact ⟨a.toNat, by omega⟩
  obtain ⟨q, hq⟩ : ∃ q : Nat, (q : Int) = if b < 0 then b + n else b := by
    split
    · exact ⟨(b + n).toNat, by omega⟩
    · exact ⟨b.toNat, by omega⟩
  have hpn : p < n := by split at hp <;> omega
  have hqn : q < n := by split at hq <;> omega
  have ep : boundDown n (n - 1) (some a) = p := by simp only [boundDown, ← hp]; omega
  have eq : boundDown n (-1) (some b) = q := by simp only [boundDown, ← hq]; omega
  have hqp : q ≤ p := by omega
  have hlen : (selectedDown n (some a) (some b) k).length = (p - q + k - 1) / k := by
    rw [← down_count n p q k hpn hqp hk]
    unfold selectedDown
    rw [ep, eq]
    congr 1
    apply List.filter_congr
    intro i _
    rw [Bool.eq_iff_iff]
    simp only [Bool.and_eq_true, decide_eq_true_eq, beq_iff_eq, and_assoc]
    constructor
    · rintro ⟨h1, h2, h3⟩
      refine ⟨by omega, by omega, ?_⟩
      rw [show (p : Int) - i = ((p - i : Nat) : Int) by omega] at h3
      exact_mod_cast h3
    · rintro ⟨h1, h2, h3⟩
      refine ⟨by omega, by omega, ?_⟩
      rw [show (p : Int) - i = ((p - i : Nat) : Int) by omega]
      exact_mod_cast h3
  have hb1 : SliceBegins n (some a) p := by
    by_cases h : a < 0
    · rw [if_pos h] at hp
      rw [show (p : Int) = n + a by omega]
      exact .back h
    · rw [if_neg h] at hp
      rw [hp]
      exact .front (by omega)
  have hb2 : SliceEnds n (some b) q := by
    by_cases h : b < 0
    · rw [if_pos h] at hq
      rw [show (q : Int) = n + b by omega]
      exact .back h
    · rw [if_neg h] at hq
      rw [hq]
      exact .front (by omega)
  refine (C18.every_slice n rest hcon _ _ _ _).2 (.of hb1 hb2 (.stepped (ceilDiv_spec _ _)) ?_)
  rw [ceilDiv_exact (by omega) (by omega) (by omega), hlen, show -((q : Int) - p) = ((p - q : Nat) : Int) by omega]
  have : -(((p - q : Nat) : Int).fdiv (-(k : Int))) = ((p - q + k - 1) / k : Nat) := by
    generalize p - q = m
    have h := Int.neg_fdiv_neg (-(m : Int)) (k : Int)
    rw [Int.neg_neg] at h
    rw [h, Int.fdiv_eq_ediv_of_nonneg _ (by omega)]
    generalize hq : (m + k - 1) / k = z
    have h1 := (Nat.div_eq_iff hk).1 hq
    have h2 : (-(m : Int)) / (k : Int) = -(z : Int) := by
      refine (Int.ediv_eq_iff_of_pos (by omega)).2 ?_
      have : (z : Int) * k = ((z * k : Nat) : Int) := by simp
      rw [Int.neg_mul, this]
      omega
    rw [h2, Int.neg_neg]
  rw [this]
  exact .made _

/-- For instance `(10 * int32).subshape[-2:1:-3]`, which is `3 * int32`. -/
example : subshape (.slice (some (-2)) (some 1) (some (-(3 : Nat) : Int))) (.dshape [.fixed 10, tInt32]) =
      .ok (.dshape [.fixed 3, tInt32]) :=
  C18.in_range_down 10 [tInt32] (constructible_pair (.fixed 10) (by simp [Ty.cls]) rfl) (-2) 1 3 (by omega) (by omega)
    (by decide) (by omega) (by omega) (Nat.lt_of_lt_of_le (by decide : 3 < 2 ^ 2) (Nat.pow_le_pow_right (by decide) (by decide)))

end DS
