import Verif.Model.Predicates
import Verif.Props.Util

/-
C32 type sets, C31 maxtype, C33 registries, C30 promotion.
-/
namespace DS

/-! ### C32 -/

/-- `x in (a | b)` iff `x in a` or `x in b`. -/
theorem C32.or_contains (a b x : Ty) : tsContains (tsOr a b) x = (tsContains a x || tsContains b x) := by
  simp [tsContains, tsOr, tsTypes, pyIn]

/-- Iterating over `a | b` yields the types of `a` in their order, then those of `b`. -/
theorem C32.or_types (a b : Ty) : tsTypes (tsOr a b) = tsTypes a ++ tsTypes b := rfl

/-- Grouping of unions does not matter. -/
theorem C32.or_assoc (a b c : Ty) : tsOr (tsOr a b) c = tsOr a (tsOr b c) := by simp [tsOr, tsTypes]

/-- All members are ordinary datashapes without `TypeSet`s. -/
def TsOk (ts : Ty) : Prop := ∀ x ∈ tsTypes ts, x.everywhere eqLocal = true

theorem pyIn_iff {x : Ty} {l : List Ty} : pyIn x l = true ↔ ∃ y ∈ l, pyEq x y = true := by simp [pyIn]

/-- `x in ts` iff one of the types of `ts` is the same type as `x`. -/
theorem C32.contains_iff (ts x : Ty) (ht : TsOk ts) (hx : x.everywhere eqLocal = true) :
    tsContains ts x = true ↔ ∃ y ∈ tsTypes ts, Same x y := by
  simp only [tsContains, pyIn_iff]
  exact exists_congr fun y => and_congr_right fun hy => pyEq_same hx (ht y hy)

/-- Membership respects `==`. -/
theorem C32.contains_congr (ts x y : Ty) (ht : TsOk ts) (hx : x.everywhere eqLocal = true)
    (hy : y.everywhere eqLocal = true) (h : pyEq x y = true) : tsContains ts x = tsContains ts y := by
  rw [Bool.eq_iff_iff]
  simp only [tsContains, pyIn_iff]
  constructor
  · rintro ⟨z, hz, e⟩; exact ⟨z, hz, pyEq_trans hy hx (ht z hz) (pyEq_symm hx hy h) e⟩
  · rintro ⟨z, hz, e⟩; exact ⟨z, hz, pyEq_trans hx hy (ht z hz) h e⟩

theorem pyDistinct_sub (l : List Ty) : ∀ x ∈ pyDistinct l, x ∈ l := by
  induction l with
  | nil => intro x h; exact h
  | cons a l ih =>
    intro x h
    rw [pyDistinct] at h
    split at h
    · exact List.mem_cons_of_mem _ (ih x h)
    · rcases List.mem_cons.1 h with rfl | h
      · simp
      · exact List.mem_cons_of_mem _ (ih x h)

theorem pyDistinct_cover (l : List Ty) (hl : ∀ x ∈ l, x.everywhere eqLocal = true) :
    ∀ x ∈ l, ∃ y ∈ pyDistinct l, pyEq x y = true := by
  induction l with
  | nil => intro x h; cases h
  | cons a l ih =>
    intro x h
    rw [pyDistinct]
    rcases List.mem_cons.1 h with rfl | h
    · split
      · rename_i hin; exact pyIn_iff.1 hin
      · exact ⟨x, by simp, pyEq_refl (hl x (by simp))⟩
    · obtain ⟨y, hy, e⟩ := ih (fun z hz => hl z (by simp [hz])) x h
      split
      · exact ⟨y, hy, e⟩
      · exact ⟨y, by simp [hy], e⟩

theorem pyDistinct_pairwise (l : List Ty) : (pyDistinct l).Pairwise fun x y => pyEq x y = false := by
  induction l with
  | nil => exact .nil
  | cons a l ih =>
    rw [pyDistinct]
    split
    · exact ih
    · rename_i hin
      refine .cons (fun y hy => ?_) ih
      cases e : pyEq a y with
      | false => rfl
      | true => exact absurd (pyIn_iff.2 ⟨y, hy, e⟩) hin

/-- pairwise different elements, each equal to an element of `l'`: there are at most as many as in `l'` -/
theorem distinct_le (l l' : List Ty) (hl : ∀ x ∈ l, x.everywhere eqLocal = true) (hl' : ∀ x ∈ l', x.everywhere eqLocal = true)
    (hp : l.Pairwise fun x y => pyEq x y = false) (hc : ∀ x ∈ l, ∃ y ∈ l', pyEq x y = true) : l.length ≤ l'.length := by
  induction l generalizing l' with
  | nil => simp
  | cons a l ih =>
    obtain ⟨y, hy, e⟩ := hc a (by simp)
    obtain ⟨s, t, rfl⟩ := List.append_of_mem hy
    have := ih (s ++ t) (fun x hx => hl x (by simp [hx])) (fun x hx => hl' x (by simp at hx ⊢; rcases hx with h | h <;> simp [h]))
      (List.pairwise_cons.1 hp).2 (by
        intro x hx
        obtain ⟨z, hz, ez⟩ := hc x (by simp [hx])
        simp only [List.mem_append, List.mem_cons] at hz
        rcases hz with hz | rfl | hz
        · exact ⟨z, by simp [hz], ez⟩
        · have h1 := (List.pairwise_cons.1 hp).1 x hx
          have ha := hl a (by simp)
          have hx' := hl x (by simp [hx])
          have hz' := hl' z (by simp)
          rw [pyEq_trans ha hz' hx' e (pyEq_symm hx' hz' ez)] at h1
          cases h1
        · exact ⟨z, by simp [hz], ez⟩)
    simp at this ⊢; omega

/-- `len(ts)` is the number of distinct members: it is `k` iff there is a list of `k` pairwise different members such that
every member equals one of them. -/
theorem C32.len (ts : Ty) (ht : TsOk ts) (k : Nat) : tsLen ts = k ↔
    ∃ l : List Ty, l.length = k ∧ (∀ x ∈ l, x ∈ tsTypes ts) ∧ (l.Pairwise fun x y => pyEq x y = false) ∧
      ∀ x ∈ tsTypes ts, ∃ y ∈ l, pyEq x y = true := by
  have h1 := pyDistinct_sub (tsTypes ts)
  have h2 := pyDistinct_cover (tsTypes ts) ht
  have h3 := pyDistinct_pairwise (tsTypes ts)
  constructor
  · rintro rfl; exact ⟨_, rfl, h1, h3, h2⟩
  · rintro ⟨l, rfl, hs, hp, hc⟩
    apply Nat.le_antisymm
    · exact distinct_le _ _ (fun x hx => ht x (h1 x hx)) (fun x hx => ht x (hs x hx)) h3 fun x hx => hc x (h1 x hx)
    · exact distinct_le _ _ (fun x hx => ht x (hs x hx)) (fun x hx => ht x (h1 x hx)) hp fun x hx => h2 x (hs x hx)

/-- Two type sets with the same members have the same length, whatever the order and repetitions. -/
theorem C32.len_members (a b : Ty) (ha : TsOk a) (hb : TsOk b)
    (h : ∀ x, x.everywhere eqLocal = true → tsContains a x = tsContains b x) : tsLen a = tsLen b := by
  have key : ∀ a b : Ty, TsOk a → TsOk b → (∀ x, x.everywhere eqLocal = true → tsContains a x = tsContains b x) →
      tsLen a ≤ tsLen b := by
    intro a b ha hb h
    apply distinct_le _ _ (fun x hx => ha x (pyDistinct_sub _ x hx)) (fun x hx => hb x (pyDistinct_sub _ x hx))
      (pyDistinct_pairwise _)
    intro x hx
    have hxa := pyDistinct_sub _ x hx
    have hx' := ha x hxa
    have : tsContains b x = true := by
      rw [← h x hx']; exact pyIn_iff.2 ⟨x, hxa, pyEq_refl hx'⟩
    obtain ⟨y, hy, e⟩ := pyIn_iff.1 this
    obtain ⟨z, hz, ez⟩ := pyDistinct_cover _ hb y hy
    exact ⟨z, hz, pyEq_trans hx' (hb y hy) (hb z (pyDistinct_sub _ z hz)) e ez⟩
  exact Nat.le_antisymm (key a b ha hb h) (key b a hb ha fun x hx => (h x hx).symm)

/-- `matches_typeset(t, ts)` is membership for every single type `t` and non-empty signature `ts`. -/
theorem C32.matches (t : Ty) (b : Ty) (bs : List Ty) (n : Option Str) (h1 : t.isDShape = false) (h2 : t.isRecord = false)
    (h3 : ∀ o m, t ≠ .typeset o m) (hb : ∀ o m, b ≠ .typeset o m) :
    matchesTypeset t (.typeset (b :: bs) n) = .ok (tsContains (.typeset (b :: bs) n) t) := by
  unfold matchesTypeset
  split
  · rename_i h; rw [h]
  · rename_i h
    have hi : pyIter t = .ok [t] := by
      cases t <;> first | rfl | (simp [Ty.isDShape] at h1; done) | (simp [Ty.isRecord] at h2; done) | exact absurd rfl (h3 _ _)
    have he : pyEq t b = false := by
      cases e : pyEq t b with
      | false => rfl
      | true => exact absurd (by simp [tsContains, tsTypes, pyIn, e]) h
    have hm : matchLoop [t] (b :: bs) = false := by
      rw [matchLoop]
      · simp [he]
      · exact hb
    simp only [hi, bind, Except.bind, tsTypes, hm]
    simpa using h

/-- `Accepts b a`: the parameter type `b` of a signature accepts the argument type `a` -/
inductive Accepts : Ty → Ty → Prop where
  /-- a type set accepts what equals one of its members -/
  | member {o : List Ty} {n : Option Str} {m a : Ty} : m ∈ o → pyEq a m = true → Accepts (.typeset o n) a
  /-- any other type accepts what equals it -/
  | same {a b : Ty} : (∀ o n, b ≠ .typeset o n) → pyEq a b = true → Accepts b a

/-- `matches_typeset` of a tuple of types and a tuple of parameter types: every type is accepted by the parameter at its
position; positions beyond the shorter of the two are not looked at. -/
theorem C32.signature (types sig : List Ty) : matchesSeq types sig = true ↔
    ∀ (i : Nat) (a b : Ty), types[i]? = some a → sig[i]? = some b → Accepts b a := by
  unfold matchesSeq
  induction types generalizing sig with
  | nil => simp [matchLoop]
  | cons a as ih =>
    cases sig with
    | nil => simp [matchLoop]
    | cons b bs =>
      have hsplit : (∀ (i : Nat) (x y : Ty), (a :: as)[i]? = some x → (b :: bs)[i]? = some y → Accepts y x) ↔
          Accepts b a ∧ ∀ (i : Nat) (x y : Ty), as[i]? = some x → bs[i]? = some y → Accepts y x := by
        constructor
        · exact fun h => ⟨h 0 a b rfl rfl, fun i x y h1 h2 => h (i + 1) x y h1 h2⟩
        · rintro ⟨h0, h⟩ i x y h1 h2
          cases i with
          | zero => cases h1; cases h2; exact h0
          | succ i => exact h i x y h1 h2
      rw [hsplit, ← ih bs]
      by_cases hts : ∃ o n, b = .typeset o n
      · obtain ⟨o, n, rfl⟩ := hts
        have hacc : Accepts (.typeset o n) a ↔ pyIn a o = true := by
          rw [pyIn_iff]
          constructor
          · intro h
            cases h with
            | member hm he => exact ⟨_, hm, he⟩
            | same h => exact absurd rfl (h _ _)
          · rintro ⟨m, hm, he⟩; exact .member hm he
        rw [hacc, matchLoop]
        cases pyIn a o <;> simp
      · have hn : ∀ o n, b ≠ .typeset o n := fun o n e => hts ⟨o, n, e⟩
        have hacc : Accepts b a ↔ pyEq a b = true := by
          constructor
          · intro h
            cases h with
            | member => exact absurd rfl (hn _ _)
            | same _ h => exact h
          · exact .same hn
        rw [hacc, matchLoop]
        · cases pyEq a b <;> simp
        · exact hn

/-- `matches_typeset(x, ts)` in general: `x` is a member, or all that `x` yields when it is iterated over is accepted by
the member at its position. -/
theorem C32.matches_iff (x ts : Ty) : matchesTypeset x ts = .ok true ↔
    tsContains ts x = true ∨ ∃ l, pyIter x = .ok l ∧
      ∀ (i : Nat) (a b : Ty), l[i]? = some a → (tsTypes ts)[i]? = some b → Accepts b a := by
  unfold matchesTypeset
  cases hc : tsContains ts x with
  | true => simp
  | false =>
    simp only [Bool.false_eq_true, if_false, false_or, bind_ok]
    constructor
    · rintro ⟨l, hl, h⟩
      exact ⟨l, hl, (C32.signature l _).1 (Except.ok.inj h)⟩
    · rintro ⟨l, hl, h⟩
      exact ⟨l, hl, congrArg Except.ok ((C32.signature l _).2 h)⟩

/-- `matches_typeset((int32, float32), (integral, floating))`, and twice a wrong second type. -/
theorem C32.signature_examples :
    matchesSeq [tInt32, tFloat32] [tsIntegral, tsFloating] = true ∧
    matchesSeq [tInt32, tInt32] [tsIntegral, tsFloating] = false ∧
    matchesSeq [tInt32, tInt64] [tInt32, tInt32] = false ∧ matchesSeq [tInt32] [tsIntegral, tsFloating] = true := by
  decide

/-- A `TypeSet` in the place of a single type is compared member by member from the front, not as a subset:
`signed` does not match `integral`, although all its members do, while `integral` matches `real`; and an empty set
matches everything. -/
theorem C32.matches_prefix :
    matchesTypeset tsSigned tsIntegral = .ok false ∧ (tsTypes tsSigned).all (tsContains tsIntegral) = true ∧
    matchesTypeset tsIntegral tsReal = .ok true ∧ matchesTypeset (.typeset [] none) tsReal = .ok true ∧
    matchesTypeset tString (.typeset [] none) = .ok true ∧
    matchesTypeset (.record [(py"a", tInt32)]) tsReal = .error .keyError := by
  refine ⟨by decide, by decide, by decide, by decide, by decide, by decide⟩

/-- The named sets of the module. -/
theorem C32.named : tsTypes tsIntegral = [tInt8, tUint8, tInt16, tUint16, tInt32, tUint32, tInt64, tUint64] ∧
    tsLen tsIntegral = 8 ∧ tsLen tsReal = 10 ∧ tsLen tsNumeric = 12 ∧ tsLen tsScalar = 13 ∧
    tsLen (tsOr tsSigned tsIntegral) = 8 := by
  refine ⟨rfl, by decide, by decide, by decide, by decide, by decide⟩

/-- The predefined type sets: their names and their members in order. -/
theorem C32.predefined :
    [tsSigned, tsUnsigned, tsIntegral, tsFloating, tsComplexes, tsBoolean, tsReal, tsNumeric, tsScalar] =
    [.typeset [tInt8, tInt16, tInt32, tInt64] (some (py"signed")),
     .typeset [tUint8, tUint16, tUint32, tUint64] (some (py"unsigned")),
     .typeset [tInt8, tUint8, tInt16, tUint16, tInt32, tUint32, tInt64, tUint64] (some (py"integral")),
     .typeset [tFloat32, tFloat64] (some (py"floating")),
     .typeset [tComplex64, tComplex128] (some (py"complexes")),
     .typeset [tBool] (some (py"boolean")),
     .typeset [tInt8, tUint8, tInt16, tUint16, tInt32, tUint32, tInt64, tUint64, tFloat32, tFloat64] (some (py"real")),
     .typeset [tInt8, tUint8, tInt16, tUint16, tInt32, tUint32, tInt64, tUint64, tFloat32, tFloat64, tComplex64, tComplex128]
       (some (py"numeric")),
     .typeset [tBool, tInt8, tUint8, tInt16, tUint16, tInt32, tUint32, tInt64, tUint64, tFloat32, tFloat64, tComplex64,
       tComplex128] (some (py"scalar"))] := rfl

example : TsOk tsScalar := by
  intro x hx
  simp only [tsScalar, tsNumeric, tsOr, tsTypes, tsBoolean, tsIntegral, tsSigned, tsUnsigned, tsFloating, tsComplexes,
    List.zip, List.zipWith, List.flatMap_cons, List.flatMap_nil, List.cons_append, List.nil_append, List.append_nil,
    List.mem_cons, List.not_mem_nil, or_false] at hx
  rcases hx with rfl | rfl | rfl | rfl | rfl | rfl | rfl | rfl | rfl | rfl | rfl | rfl | rfl <;> decide

end DS
