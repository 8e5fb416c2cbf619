import Verif.Props.Maxtype

/-
C30: promotion.
-/
namespace DS

theorem promotePrim_symm (a b : Prim) : promotePrim a b = promotePrim b a := by
  cases a <;> cases b <;> rfl

theorem resultType_symm {ext : DType → DType → Except PyErr DType} (he : ∀ a b, ext a b = ext b a) (a b : DType) :
    resultType ext a b = resultType ext b a := by
  cases a <;> cases b <;> simp only [resultType, he] <;> try rfl
  rename_i p q
  rw [promotePrim_symm p q]

/-- NumPy dtypes never become options. -/
theorem fromDtype_not_option {d : DType} {t : Ty} (h : fromDtype d = .ok t) :
    t.isOption = false ∧ t.isDShape = false ∧ t.measure = t := by
  unfold fromDtype at h
  split at h
  · rename_i p; cases h; cases p <;> exact ⟨rfl, rfl, rfl⟩
  · split at h <;> cases h <;> exact ⟨rfl, rfl, rfl⟩
  · unfold mkTimeDelta at h; split at h <;> cases h; exact ⟨rfl, rfl, rfl⟩
  · unfold mkString at h; simp only at h; split at h <;> cases h; exact ⟨rfl, rfl, rfl⟩
  · split at h
    · cases h; exact ⟨rfl, rfl, rfl⟩
    · unfold mkString at h; simp only at h; split at h <;> cases h; exact ⟨rfl, rfl, rfl⟩
  · cases h; exact ⟨rfl, rfl, rfl⟩
  · split at h <;> cases h
    exact ⟨rfl, rfl, rfl⟩

theorem fromDtype_leaf {d : DType} {t : Ty} (hf : fromDtype d = .ok t) : t.children = [] ∧ eqLocal t = true := by
  unfold fromDtype at hf
  split at hf
  · rename_i p; cases hf; cases p <;> exact ⟨rfl, rfl⟩
  · split at hf <;> cases hf <;> exact ⟨rfl, rfl⟩
  · unfold mkTimeDelta at hf; split at hf <;> cases hf; exact ⟨rfl, rfl⟩
  · unfold mkString at hf; simp only at hf; split at hf <;> cases hf; exact ⟨rfl, rfl⟩
  · split at hf
    · cases hf; exact ⟨rfl, rfl⟩
    · unfold mkString at hf; simp only at hf; split at hf <;> cases hf; exact ⟨rfl, rfl⟩
  · cases hf; exact ⟨rfl, rfl⟩
  · split at hf <;> cases hf
    exact ⟨rfl, rfl⟩

/-- the unoptioned result for unequal operands -/
def promoteCore (ext : DType → DType → Except PyErr DType) (lhs rhs : Ty) : Except PyErr Ty :=
  if pyEq lhs.unOption rhs.unOption && pyEq rhs.unOption tString then .ok tString
  else do
    let a ← toNumpyDtype lhs.unOption
    let b ← toNumpyDtype rhs.unOption
    let r ← resultType ext a b
    fromDtype r

theorem promote_eq (ext : DType → DType → Except PyErr DType) (l r : Ty) (o : Bool) : promote ext l r o =
    if pyEq l r then .ok l else (promoteCore ext l r).map fun d => if o then optionify l r d else d := by
  unfold promote promoteCore
  split
  · rfl
  · simp only [bind, Except.bind]
    split
    · rename_i h; rw [h]; rfl
    · rename_i v h; rw [h]; rfl

theorem promoteCore_plain {ext : DType → DType → Except PyErr DType} {l r d : Ty} (h : promoteCore ext l r = .ok d) :
    d.isOption = false ∧ d.isDShape = false ∧ d.measure = d := by
  unfold promoteCore at h
  split at h
  · cases h; exact ⟨rfl, rfl, rfl⟩
  · simp only [bind_ok] at h
    obtain ⟨_, _, _, _, _, _, h⟩ := h
    exact fromDtype_not_option h

theorem unOption_ok {t : Ty} (h : t.everywhere eqLocal = true) : t.unOption.everywhere eqLocal = true := by
  cases t <;> first | exact h | exact everywhere_child h (by simp [Ty.children, Ty.unOption])

/-- Whatever NumPy's promotion of non-numeric dtypes is, as long as it is symmetric: `promote` is symmetric. Both
orders succeed or both fail, and the results are equal. -/
theorem C30.symmetric (ext : DType → DType → Except PyErr DType) (he : ∀ a b, ext a b = ext b a) (l r : Ty) (o : Bool)
    (hl : l.everywhere eqLocal = true) (hr : r.everywhere eqLocal = true) (x : Ty) (hx : promote ext l r o = .ok x) :
    ∃ y, promote ext r l o = .ok y ∧ pyEq x y = true := by
  have hs : pyEq r l = pyEq l r := by
    rw [Bool.eq_iff_iff]; exact ⟨pyEq_symm hr hl, pyEq_symm hl hr⟩
  have hsy : tString.everywhere eqLocal = true := rfl
  rw [promote_eq] at hx ⊢
  rw [hs]
  by_cases h : pyEq l r = true
  · rw [if_pos h] at hx ⊢
    cases hx
    exact ⟨r, rfl, h⟩
  · rw [if_neg h] at hx ⊢
    have hcore : promoteCore ext l r = .ok x ∨ ∃ d, promoteCore ext l r = .ok d := by
      cases hc : promoteCore ext l r with
      | error e => rw [hc] at hx; cases hx
      | ok d => exact .inr ⟨d, rfl⟩
    obtain ⟨d, hd⟩ : ∃ d, promoteCore ext l r = .ok d := by
      rcases hcore with h | h
      · exact ⟨_, h⟩
      · exact h
    have hd' : promoteCore ext r l = .ok d := by
      unfold promoteCore at hd ⊢
      have hlu := unOption_ok hl
      have hru := unOption_ok hr
      have hcond : (pyEq r.unOption l.unOption && pyEq l.unOption tString) =
          (pyEq l.unOption r.unOption && pyEq r.unOption tString) := by
        rw [Bool.eq_iff_iff]; simp only [Bool.and_eq_true]
        constructor
        · rintro ⟨a, b⟩; exact ⟨pyEq_symm hru hlu a, pyEq_trans hru hlu hsy a b⟩
        · rintro ⟨a, b⟩; exact ⟨pyEq_symm hlu hru a, pyEq_trans hlu hru hsy a b⟩
      rw [hcond]
      split
      · rename_i hc; rw [if_pos hc] at hd; exact hd
      · rename_i hc
        rw [if_neg hc] at hd
        simp only [bind_ok] at hd ⊢
        obtain ⟨a, ha, b, hb, w, hw, hf⟩ := hd
        exact ⟨b, hb, a, ha, w, by rw [resultType_symm he]; exact hw, hf⟩
    rw [hd] at hx
    rw [hd']
    have ho : optionify r l d = optionify l r d := by simp [optionify, Bool.or_comm]
    simp only [Except.map, ho] at hx ⊢
    refine ⟨x, hx, ?_⟩
    cases hx
    have hp := promoteCore_plain hd
    have hde : d.everywhere eqLocal = true := by
      rw [everywhere_iff]
      intro s hs
      have : s = d ∧ eqLocal d = true := by
        unfold promoteCore at hd
        split at hd
        · cases hd; cases hs with | refl => exact ⟨rfl, rfl⟩ | step hc _ => simp [tString, Ty.children] at hc
        · simp only [bind_ok] at hd
          obtain ⟨_, _, _, _, w, _, hf⟩ := hd
          have hleaf := fromDtype_leaf hf
          cases hs with
          | refl => exact ⟨rfl, hleaf.2⟩
          | step hc _ => rw [hleaf.1] at hc; cases hc
      rw [this.1]; exact this.2
    split
    · unfold optionify
      split
      · exact pyEq_refl hde
      · split
        · apply pyEq_refl
          have : launderTy d = d := by cases d <;> first | rfl | simp [Ty.isDShape] at hp
          rw [mkOption, this, everywhere_children]
          simp [Ty.children, eqLocal, hde]
        · exact pyEq_refl hde
    · exact pyEq_refl hde

/-- `promote(a, a)` is `a`, with either setting. -/
theorem C30.idempotent (ext : DType → DType → Except PyErr DType) (a : Ty) (o : Bool) (ha : a.everywhere eqLocal = true) :
    promote ext a a o = .ok a := by
  rw [promote_eq, if_pos (pyEq_refl ha)]

/-- For unequal operands the result is optional exactly when options are promoted and one operand is optional. -/
theorem C30.option_iff (ext : DType → DType → Except PyErr DType) (l r x : Ty) (o : Bool) (hne : pyEq l r = false)
    (h : promote ext l r o = .ok x) : x.isOption = (o && (l.isOption || r.isOption)) := by
  rw [promote_eq, hne] at h
  cases hc : promoteCore ext l r with
  | error e => rw [hc] at h; cases h
  | ok d =>
    rw [hc] at h
    obtain ⟨h1, h2, h3⟩ := promoteCore_plain hc
    simp only [Bool.false_eq_true, if_false, Except.map, Except.ok.injEq] at h
    subst h
    cases o with
    | false => simpa using h1
    | true =>
      simp only [if_true, Bool.true_and, optionify, h3, h1, Bool.false_eq_true, if_false]
      split
      · rename_i h; rw [h]; rfl
      · rename_i h; rw [h1]; simpa using h

/-- With equal optional operands the result is optional even when options are not to be promoted. -/
theorem C30.equal_options (ext : DType → DType → Except PyErr DType) :
    promote ext (.option tInt32) (.option tInt32) false = .ok (.option tInt32) ∧
    promote ext (.option tInt32) tInt32 false = .ok tInt32 := by
  refine ⟨?_, ?_⟩
  · exact C30.idempotent ext _ _ (by decide)
  · rfl

/-! The result is wide enough. -/

/-- The integers a numeric dtype represents exactly without gaps: the range of an integer type; up to `2^mantissa` in
absolute value for the floating types (11, 24 and 53 bits). -/
def Prim.ints : Prim → Int × Int
  | .bool => (0, 1)
  | .int8 => (-2 ^ 7, 2 ^ 7 - 1) | .int16 => (-2 ^ 15, 2 ^ 15 - 1)
  | .int32 => (-2 ^ 31, 2 ^ 31 - 1) | .int64 => (-2 ^ 63, 2 ^ 63 - 1)
  | .uint8 => (0, 2 ^ 8 - 1) | .uint16 => (0, 2 ^ 16 - 1)
  | .uint32 => (0, 2 ^ 32 - 1) | .uint64 => (0, 2 ^ 64 - 1)
  | .float16 => (-2 ^ 11, 2 ^ 11) | .float32 | .complex64 => (-2 ^ 24, 2 ^ 24)
  | .float64 | .complex128 => (-2 ^ 53, 2 ^ 53)
  | .object | .void => (0, 0)

/-- mantissa and exponent bits of the floating (component) format; zero for the others -/
def Prim.floatFormat : Prim → Nat × Nat
  | .float16 => (11, 5) | .float32 | .complex64 => (24, 8) | .float64 | .complex128 => (53, 11)
  | _ => (0, 0)

/-- the dtype has an imaginary part -/
def Prim.isComplex : Prim → Bool
  | .complex64 | .complex128 => true
  | _ => false

/-- the dtype is an integer type of 64 bits -/
def Prim.is64 : Prim → Bool
  | .int64 | .uint64 => true
  | _ => false

/-- Every value of `a` is a value of `b`. -/
def Prim.Fits (a b : Prim) : Prop :=
  b.ints.1 ≤ a.ints.1 ∧ a.ints.2 ≤ b.ints.2 ∧ a.floatFormat.1 ≤ b.floatFormat.1 ∧ a.floatFormat.2 ≤ b.floatFormat.2 ∧
  (a.isComplex = true → b.isComplex = true)

instance (a b : Prim) : Decidable (a.Fits b) := inferInstanceAs (Decidable (_ ∧ _))

theorem promotePrim_fits (a b r : Prim) (h : promotePrim a b = some r) (hc : a.is64 = false ∨ r.floatFormat.1 = 0) :
    a.Fits r := by
  cases a <;> cases b <;> first | (cases h; done) | (cases h; revert hc; decide)

theorem toNumpyDtype_prim (p : Prim) : toNumpyDtype p.toTy = .ok (.prim p) := by cases p <;> rfl

theorem promote_prim (ext : DType → DType → Except PyErr DType) (p q : Prim) (l r x : Ty) (o : Bool)
    (hl : l.unOption = p.toTy) (hr : r.unOption = q.toTy)
    (hp : p ≠ .object ∧ p ≠ .void) (hq : q ≠ .object ∧ q ≠ .void) (h : promote ext l r o = .ok x) :
    ∃ w : Prim, x.unOption = w.toTy ∧ promotePrim p q = some w := by
  by_cases hne : pyEq l r = true
  · rw [promote_eq, if_pos hne] at h
    cases h
    have hd : ∀ p : Prim, p.toTy.isDShape = false ∧ (∃ n i a, p.toTy = .ctype n i a) := by
      intro p; cases p <;> exact ⟨rfl, _, _, _, rfl⟩
    -- equal operands have the same dtype
    have hpq : p = q := by
      have e : pyEq l.unOption r.unOption = true := by
        obtain ⟨n, i, a, hn⟩ := (hd p).2
        obtain ⟨n', i', a', hn'⟩ := (hd q).2
        rw [hl, hr, hn, hn']
        rw [hn] at hl; rw [hn'] at hr
        cases l with
        | option u =>
          simp only [Ty.unOption] at hl; subst hl
          cases r with
          | option v =>
            simp only [Ty.unOption] at hr; subst hr
            simpa [pyEq, eqM, eqShape, Ty.shape, Ty.measure] using hne
          | _ =>
            simp only [Ty.unOption] at hr
            first | (cases hr; done) | (injection hr with e1 e2 e3; subst e1 e2 e3; simp [pyEq, eqM, Ty.measure] at hne)
        | ctype n1 i1 a1 =>
          simp only [Ty.unOption] at hl
          injection hl with e1 e2 e3; subst e1 e2 e3
          cases r with
          | option v =>
            simp only [Ty.unOption] at hr; subst hr
            simp [pyEq, eqM, Ty.noShape, Ty.target, Ty.measure] at hne
          | _ =>
            simp only [Ty.unOption] at hr
            first | (cases hr; done) | (injection hr with e1 e2 e3; subst e1 e2 e3; exact hne)
        | _ => simp only [Ty.unOption] at hl; cases hl
      rw [hl, hr] at e
      obtain ⟨n, i, a, hn⟩ := (hd q).2
      rw [hn] at e
      have := pyEq_ctype e (hd p).1
      rw [← hn] at this
      revert this
      cases p <;> cases q <;> first | (intro; rfl) | (intro h; exact absurd h (by simp [Prim.toTy, tBool, tInt8, tInt16, tInt32, tInt64, tUint8, tUint16, tUint32, tUint64, tFloat16, tFloat32, tFloat64, tComplex64, tComplex128, tObject, tVoid]))
    subst hpq
    refine ⟨p, hl, ?_⟩
    cases p <;> first | rfl | exact absurd rfl hp.1 | exact absurd rfl hp.2
  · rw [promote_eq, if_neg hne] at h
    have hs : pyEq q.toTy tString = false := by cases q <;> rfl
    obtain ⟨w, hw⟩ : ∃ w, promotePrim p q = some w := by
      cases p <;> cases q <;> first | exact ⟨_, rfl⟩ | exact absurd rfl hp.1 | exact absurd rfl hp.2 | exact absurd rfl hq.1 | exact absurd rfl hq.2
    have hc : promoteCore ext l r = .ok w.toTy := by
      simp only [promoteCore, hl, hr, hs, Bool.and_false, Bool.false_eq_true, if_false, toNumpyDtype_prim, bind,
        Except.bind, resultType, hw, fromDtype]
    rw [hc] at h
    simp only [Except.map, Except.ok.injEq] at h
    refine ⟨w, ?_, hw⟩
    subst h
    have h1 : w.toTy.isOption = false ∧ w.toTy.measure = w.toTy ∧ w.toTy.unOption = w.toTy ∧ launderTy w.toTy = w.toTy := by
      cases w <;> exact ⟨rfl, rfl, rfl, rfl⟩
    split
    · unfold optionify
      rw [h1.2.1, h1.1]
      simp only [Bool.false_eq_true, if_false]
      split
      · simp only [mkOption, h1.2.2.2, Ty.unOption]
      · exact h1.2.2.1
    · exact h1.2.2.1

/-- For numeric and boolean operands, optional or not, the promoted type holds every value of both operands, except
when a 64-bit integer is mixed with a type that forces a floating result. -/
theorem C30.wide (ext : DType → DType → Except PyErr DType) (p q : Prim) (l r x : Ty) (o : Bool)
    (hl : l.unOption = p.toTy) (hr : r.unOption = q.toTy)
    (hp : p ≠ .object ∧ p ≠ .void) (hq : q ≠ .object ∧ q ≠ .void) (h : promote ext l r o = .ok x) :
    ∃ w : Prim, x.unOption = w.toTy ∧ (p.is64 = false ∨ w.floatFormat.1 = 0 → p.Fits w) ∧
      (q.is64 = false ∨ w.floatFormat.1 = 0 → q.Fits w) := by
  obtain ⟨w, hx, hw⟩ := promote_prim ext p q l r x o hl hr hp hq h
  exact ⟨w, hx, promotePrim_fits p q w hw, promotePrim_fits q p w (by rw [promotePrim_symm]; exact hw)⟩

theorem promotePrim_least (p q w v : Prim) (h : promotePrim p q = some w)
    (hv : (v.floatFormat.1 = 0 ↔ w.floatFormat.1 = 0) ∧ v.isComplex = w.isComplex) (h1 : p.Fits v) (h2 : q.Fits v) : w.Fits v := by
  have key : ∀ v : Prim, v ∈ [Prim.bool, .int8, .int16, .int32, .int64, .uint8, .uint16, .uint32, .uint64, .float16, .float32,
      .float64, .complex64, .complex128, .object, .void] := by intro v; cases v <;> simp
  have all : ∀ p ∈ [Prim.bool, .int8, .int16, .int32, .int64, .uint8, .uint16, .uint32, .uint64, .float16, .float32,
      .float64, .complex64, .complex128, .object, .void], ∀ q ∈ [Prim.bool, .int8, .int16, .int32, .int64, .uint8, .uint16, .uint32, .uint64, .float16, .float32,
      .float64, .complex64, .complex128, .object, .void], ∀ v ∈ [Prim.bool, .int8, .int16, .int32, .int64, .uint8, .uint16, .uint32, .uint64, .float16, .float32,
      .float64, .complex64, .complex128, .object, .void], ∀ w ∈ promotePrim p q,
      (v.floatFormat.1 = 0 ↔ w.floatFormat.1 = 0) → v.isComplex = w.isComplex → p.Fits v → q.Fits v → w.Fits v := by decide +kernel
  exact all p (key p) q (key q) v (key v) w h hv.1 hv.2 h1 h2

/-- The promoted type is also the narrowest one of its sort (integral, real or complex): every type of that sort that
holds all values of both operands holds all values of the promoted type. -/
theorem C30.narrow (ext : DType → DType → Except PyErr DType) (p q : Prim) (l r x : Ty) (o : Bool)
    (hl : l.unOption = p.toTy) (hr : r.unOption = q.toTy)
    (hp : p ≠ .object ∧ p ≠ .void) (hq : q ≠ .object ∧ q ≠ .void) (h : promote ext l r o = .ok x)
    (w v : Prim) (hx : x.unOption = w.toTy)
    (hv : (v.floatFormat.1 = 0 ↔ w.floatFormat.1 = 0) ∧ v.isComplex = w.isComplex) (h1 : p.Fits v) (h2 : q.Fits v) :
    w.Fits v := by
  obtain ⟨w', hx', hw⟩ := promote_prim ext p q l r x o hl hr hp hq h
  have : w = w' := by
    rw [hx] at hx'
    revert hx'
    cases w <;> cases w' <;> first | (intro; rfl) | (intro h; exact absurd h (by simp [Prim.toTy, tBool, tInt8, tInt16, tInt32, tInt64, tUint8, tUint16, tUint32, tUint64, tFloat16, tFloat32, tFloat64, tComplex64, tComplex128, tObject, tVoid]))
  subst this
  exact promotePrim_least p q w v hw hv h1 h2

/-- The exception is real: a 64-bit integer and a floating type, or `int64` with `uint64`, promote to `float64`, which
cannot hold all of them; nor is promotion associative. -/
theorem C30.lossy (ext : DType → DType → Except PyErr DType) :
    promote ext tInt64 tUint64 true = .ok tFloat64 ∧ promote ext tInt64 tFloat32 true = .ok tFloat64 ∧
    ¬ Prim.int64.Fits .float64 ∧
    (promote ext tInt16 tUint16 true = .ok tInt32 ∧ promote ext tInt32 tFloat32 true = .ok tFloat64) ∧
    (promote ext tUint16 tFloat32 true = .ok tFloat32 ∧ promote ext tInt16 tFloat32 true = .ok tFloat32) := by
  refine ⟨rfl, rfl, by decide, ⟨rfl, rfl⟩, rfl, rfl⟩

/-- Strings promote to `string`; `promote` does not look inside a `DataShape`. -/
theorem C30.strings (ext : DType → DType → Except PyErr DType) :
    promote ext tString (.option tString) true = .ok (.option tString) ∧
    promote ext tString (.option tString) false = .ok tString ∧
    promote ext (.dshape [.option tInt32]) tInt64 true = .error .typeError := by
  refine ⟨rfl, rfl, rfl⟩

example : (Ty.option tInt32).unOption = Prim.int32.toTy ∧
    promote (fun _ _ => .error .typeError) (.option tInt32) tFloat32 true = .ok (.option tFloat64) := ⟨rfl, rfl⟩

end DS
