import Verif.Model.Numpy
import Verif.Proofs.Util
import Verif.Proofs.Strings
import Verif.Props.Equality

/-
C21 NumPy round trip, C22 decimals.
-/
namespace DS

/-! ### C22 -/

/-- number of bits of the signed integer dtypes -/
def Prim.signedBits : Prim → Option Nat
  | .int8 => some 8 | .int16 => some 16 | .int32 => some 32 | .int64 => some 64 | _ => none

/-- `x` fits a signed integer of `b` bits -/
def Fits (b : Nat) (x : Int) : Prop := -(2 ^ (b - 1)) ≤ x ∧ x ≤ 2 ^ (b - 1) - 1

/-- `x` has at most `p` decimal digits -/
def HasDigits (p : Nat) (x : Int) : Prop := x.natAbs < 10 ^ p

/-- For an integer decimal of precision `p ≤ 18` the chosen dtype is a signed integer type that holds every integer of
at most `p` digits, and every smaller signed integer type fails to hold some of them (for `p ≥ 1`). -/
theorem C22.integer (p : Nat) (h : p ≤ 18) :
    ∃ d b, decimalDtype p 0 = .ok d ∧ d.signedBits = some b ∧ (∀ x, HasDigits p x → Fits b x) ∧
      ∀ (d' : Prim) (b' : Nat), d'.signedBits = some b' → b' < b → ∃ x, HasDigits p x ∧ ¬ Fits b' x := by
  have hp : ∀ b, 10 ^ p ≤ 2 ^ (b - 1) → ∀ x, HasDigits p x → Fits b x := by
    intro b hb x hx
    have hx' : x.natAbs < 2 ^ (b - 1) := Nat.lt_of_lt_of_le hx hb
    have : ((2 ^ (b - 1) : Nat) : Int) = 2 ^ (b - 1) := by simp
    constructor <;> omega
  have hbad : ∀ b, 2 ^ (b - 1) < 10 ^ p → ∃ x, HasDigits p x ∧ ¬ Fits b x := by
    intro b hb
    refine ⟨((2 ^ (b - 1) : Nat) : Int), by simpa [HasDigits] using hb, ?_⟩
    have : ((2 ^ (b - 1) : Nat) : Int) = 2 ^ (b - 1) := by simp
    rintro ⟨_, h2⟩; omega
  have hbits : ∀ (d' : Prim) b', d'.signedBits = some b' → b' = 8 ∨ b' = 16 ∨ b' = 32 ∨ b' = 64 := by
    intro d' b' h; cases d' <;> simp [Prim.signedBits] at h <;> omega
  have mono : ∀ a b, a ≤ b → 10 ^ a ≤ 10 ^ b := fun a b h => Nat.pow_le_pow_right (by omega) h
  unfold decimalDtype
  rw [if_pos rfl]
  by_cases h1 : p ≤ 2
  · rw [if_pos (by omega)]
    refine ⟨_, 8, rfl, rfl, hp 8 (Nat.le_trans (mono p 2 h1) (by decide)), fun d' b' h hb => ?_⟩
    rcases hbits d' b' h with rfl | rfl | rfl | rfl <;> omega
  by_cases h2 : p ≤ 4
  · rw [if_neg (by omega), if_pos (by omega)]
    refine ⟨_, 16, rfl, rfl, hp 16 (Nat.le_trans (mono p 4 h2) (by decide)), fun d' b' h hb => ?_⟩
    rcases hbits d' b' h with rfl | rfl | rfl | rfl
    · exact hbad 8 (Nat.lt_of_lt_of_le (show 2 ^ (8 - 1) < 10 ^ 3 by decide) (mono 3 p (by omega)))
    all_goals omega
  by_cases h3 : p ≤ 9
  · rw [if_neg (by omega), if_neg (by omega), if_pos (by omega)]
    refine ⟨_, 32, rfl, rfl, hp 32 (Nat.le_trans (mono p 9 h3) (by decide)), fun d' b' h hb => ?_⟩
    rcases hbits d' b' h with rfl | rfl | rfl | rfl
    · exact hbad 8 (Nat.lt_of_lt_of_le (show 2 ^ (8 - 1) < 10 ^ 5 by decide) (mono 5 p (by omega)))
    · exact hbad 16 (Nat.lt_of_lt_of_le (show 2 ^ (16 - 1) < 10 ^ 5 by decide) (mono 5 p (by omega)))
    all_goals omega
  · rw [if_neg (by omega), if_neg (by omega), if_neg (by omega), if_pos (by omega)]
    refine ⟨_, 64, rfl, rfl, hp 64 (Nat.le_trans (mono p 18 h) (by decide)), fun d' b' h hb => ?_⟩
    rcases hbits d' b' h with rfl | rfl | rfl | rfl
    · exact hbad 8 (Nat.lt_of_lt_of_le (show 2 ^ (8 - 1) < 10 ^ 10 by decide) (mono 10 p (by omega)))
    · exact hbad 16 (Nat.lt_of_lt_of_le (show 2 ^ (16 - 1) < 10 ^ 10 by decide) (mono 10 p (by omega)))
    · exact hbad 32 (Nat.lt_of_lt_of_le (show 2 ^ (32 - 1) < 10 ^ 10 by decide) (mono 10 p (by omega)))
    · omega

/-- An integer decimal of precision above 18 is rejected, and indeed no signed integer dtype could hold it. -/
theorem C22.too_big (p : Nat) (h : 18 < p) : decimalDtype p 0 = .error .typeError ∧
    ∀ d b, Prim.signedBits d = some b → ∃ x, HasDigits p x ∧ ¬ Fits b x := by
  constructor
  · unfold decimalDtype
    rw [if_pos rfl, if_neg (by omega), if_neg (by omega), if_neg (by omega), if_neg (by omega)]
  · intro d b hb
    have : b ≤ 64 := by cases d <;> simp [Prim.signedBits] at hb <;> omega
    refine ⟨((2 ^ (b - 1) : Nat) : Int), ?_, ?_⟩
    · have h1 : 2 ^ (b - 1) ≤ 2 ^ 63 := Nat.pow_le_pow_right (by omega) (by omega)
      have h2 : 10 ^ 19 ≤ 10 ^ p := Nat.pow_le_pow_right (by omega) h
      have h3 : 2 ^ 63 < 10 ^ 19 := by decide
      simp only [HasDigits, Int.natAbs_natCast]; omega
    · have : ((2 ^ (b - 1) : Nat) : Int) = 2 ^ (b - 1) := by simp
      rintro ⟨_, h2⟩; omega

/-- Any other decimal becomes a double. -/
theorem C22.fraction (p s : Int) (h : s ≠ 0) : decimalDtype p s = .ok .float64 := by simp [decimalDtype, h]

/-! ### C21 -/

/-- the measures that NumPy represents exactly: the sixteen named types; dates and zone-less datetimes; time deltas in
a canonical unit; non-empty fixed-length ASCII and UTF-32 strings; records with at least one field, non-empty distinct
names, and fields of such types -/
inductive NpExact : Ty → Prop where
  | prim (p : Prim) : NpExact p.toTy
  | date : NpExact .date
  | datetime : NpExact (.datetime none)
  | timedelta {u : Str} : u ∈ timeUnits → NpExact (.timedelta u)
  | ascii {n : Nat} : 0 < n → NpExact (.string (some n) (py"A"))
  | utf32 {n : Nat} : 0 < n → NpExact (.string (some n) (py"U32"))
  | record {fs : List (Str × Ty)} : fs ≠ [] → (fs.map (·.1)).Nodup → (∀ f ∈ fs, f.1 ≠ []) →
      (∀ f ∈ fs, NpExact f.2) → NpExact (.record fs)

theorem NpExact.not_ds {t : Ty} (h : NpExact t) : t.isDShape = false ∧ t.shape = [] ∧ t.cls ≠ some .dimension := by
  cases h with
  | prim p => cases p <;> exact ⟨rfl, rfl, by simp [Prim.toTy, Ty.cls, tBool, tInt8, tInt16, tInt32, tInt64, tUint8, tUint16, tUint32, tUint64, tFloat16, tFloat32, tFloat64, tComplex64, tComplex128, tVoid, tObject]⟩
  | _ => exact ⟨rfl, rfl, by simp [Ty.cls]⟩

theorem NpExact.launder {t : Ty} (h : NpExact t) : launderTy t = t := by
  have := h.not_ds.1
  cases t <;> first | rfl | simp [Ty.isDShape] at this

theorem npStruct_ok {fs : List (Str × DType)} (hn : (fs.map (·.1)).Nodup) (hne : ∀ f ∈ fs, f.1 ≠ []) :
    npStruct fs = .ok (.struct (fs.map fun f => (f.1, [], f.2))) := by
  have key : ∀ (fs : List (Str × DType)) (k : Nat), (∀ f ∈ fs, f.1 ≠ []) →
      (fs.zipIdx k).map (fun (p, i) => (if p.1.isEmpty then py"f" ++ natStr i else p.1, ([] : List Nat), p.2)) =
        fs.map fun f => (f.1, [], f.2) := by
    intro fs
    induction fs with
    | nil => intro k _; rfl
    | cons f fs ih =>
      intro k h
      have hf := h f (by simp)
      simp only [List.zipIdx_cons, List.map_cons, ih (k + 1) fun g hg => h g (by simp [hg])]
      simp [hf]
  unfold npStruct
  simp only [key fs 0 hne]
  rw [if_pos (by simpa [Function.comp_def] using hn)]

theorem npExact_dtype {t : Ty} (h : NpExact t) : ∀ k, ∃ d, toDtype t k = .ok d ∧ fromNumpy d [] = .ok t := by
  induction h with
  | prim p => intro k; cases p <;> exact ⟨_, rfl, rfl⟩
  | date => exact fun _ => ⟨_, rfl, rfl⟩
  | datetime => exact fun _ => ⟨_, rfl, rfl⟩
  | @timedelta u hu =>
    intro k
    refine ⟨_, rfl, ?_⟩
    simp only [timeUnits, List.mem_cons, List.not_mem_nil, or_false] at hu
    rcases hu with rfl | rfl | rfl | rfl | rfl | rfl | rfl | rfl | rfl | rfl <;> rfl
  | @ascii n hn =>
    intro k
    refine ⟨.bytes n, ?_, rfl⟩
    simp only [toDtype, stringDtype]
    rw [if_neg (by omega), if_neg (by omega)]; simp
  | @utf32 n hn =>
    intro k
    refine ⟨.str n, ?_, rfl⟩
    simp only [toDtype, stringDtype]
    rw [if_neg (by omega), if_neg (by omega), if_neg (by decide)]; simp
  | @record fs hne hnd hnm hfs ih =>
    intro k
    have hF : ∀ gs : List (Str × Ty), (∀ f ∈ gs, ∀ k, ∃ d, toDtype f.2 k = .ok d ∧ fromNumpy d [] = .ok f.2) →
        ∃ ds, toDtypeF gs = .ok ds ∧ ds.map (·.1) = gs.map (·.1) ∧
          fromNumpyF (ds.map fun f => (f.1, [], f.2)) = .ok gs := by
      intro gs
      induction gs with
      | nil => intro _; exact ⟨[], rfl, rfl, rfl⟩
      | cons g gs ihg =>
        obtain ⟨n, t⟩ := g
        intro h
        obtain ⟨d, h1, h2⟩ := h (n, t) (by simp) .measure
        obtain ⟨ds, h3, h4, h5⟩ := ihg fun f hf => h f (by simp [hf])
        refine ⟨(n, d) :: ds, ?_, by simp [h4], ?_⟩
        · simp only at h1; simp [toDtypeF, h1, h3, bind, Except.bind]
        · simp only at h2
          simp only [List.map_cons, fromNumpyF, List.map_nil, h2, h5, bind, Except.bind]
    obtain ⟨ds, h1, h2, h3⟩ := hF fs ih
    have h4 : npStruct ds = .ok (.struct (ds.map fun f => (f.1, [], f.2))) := by
      apply npStruct_ok
      · rw [h2]; exact hnd
      · intro f hf
        have : f.1 ∈ fs.map (·.1) := by rw [← h2]; exact List.mem_map.2 ⟨f, hf, rfl⟩
        obtain ⟨g, hg, e⟩ := List.mem_map.1 this
        rw [← e]; exact hnm g hg
    refine ⟨_, by simp only [toDtype, h1, bind, Except.bind]; exact h4, ?_⟩
    have hmk : mkRecord fs = .ok (.record fs) := by
      have : (fs.map fun f => (f.1, launderTy f.2)) = fs := by
        conv => rhs; rw [← List.map_id fs]
        apply List.map_inj_left.2
        intro f hf
        rw [(hfs f hf).launder]; rfl
      rw [mkRecord, if_pos hnd, this]
    cases hds : ds with
    | nil => rw [hds] at h2; simp at h2; exact absurd h2.symm (by simpa using hne)
    | cons f ds' =>
      rw [hds] at h3
      simp only [List.map_cons] at h3 ⊢
      simp only [fromNumpy, h3, bind, Except.bind, hmk, withShape, List.isEmpty_nil, if_true]

theorem toNumpyDims_fixed (ns : List Nat) (m : Ty) :
    toNumpyDims (ns.map Ty.fixed ++ [m]) = .ok (ns.map fun (n : Nat) => (n : Int)) := by
  induction ns with
  | nil => rfl
  | cons n ns ih =>
    cases ns with
    | nil => rfl
    | cons k ns =>
      simp only [List.map_cons, List.cons_append] at ih ⊢
      rw [toNumpyDims, ih]; rfl

theorem toDtypeLast_append (ds : List Ty) (m : Ty) (k : DtMode) : toDtypeLast (ds ++ [m]) k = toDtype m k := by
  induction ds with
  | nil => rfl
  | cons d ds ih =>
    cases ds with
    | nil => rfl
    | cons e ds => simpa [toDtypeLast] using ih

theorem withShape_fixed (ns : List Nat) (m : Ty) (hm : launderTy m = m) (hc : m.cls ≠ some .dimension) (hne : ns ≠ []) :
    withShape (ns.map fun (n : Nat) => (n : Int)) m = .ok (.dshape (ns.map Ty.fixed ++ [m])) := by
  have h1 : ∀ ns : List Nat, (ns.map fun (n : Nat) => (n : Int)).mapM mkFixed = .ok (ns.map Ty.fixed) := by
    intro ns
    induction ns with
    | nil => rfl
    | cons n ns ih =>
      have hf : mkFixed (n : Int) = .ok (.fixed n) := by
        unfold mkFixed; rw [if_neg (by omega)]; simp
      rw [List.map_cons, List.mapM_cons, ih, hf]
      rfl
  have h2 : Constructible (ns.map Ty.fixed ++ [m]) := by
    refine .of ⟨_, m, rfl, ?_, hc, ?_⟩
    · intro d hd; obtain ⟨n, _, rfl⟩ := List.mem_map.1 hd; simp [Ty.cls]
    · intro p hp
      rcases List.mem_append.1 hp with hp | hp
      · obtain ⟨n, _, rfl⟩ := List.mem_map.1 hp; rfl
      · rw [List.mem_singleton.1 hp]; exact launder_eq_self hm
  have h3 : (ns.map fun (n : Nat) => (n : Int)).isEmpty = false := by simpa using hne
  simp [withShape, h3, h1, bind, Except.bind, mkDS_self.2 h2]

/-- `from_numpy(*to_numpy(ds))` gives back `ds`, for every `ds` with fixed dimensions and a measure that NumPy
represents exactly. -/
theorem C21.roundtrip (ns : List Nat) (m : Ty) (hm : NpExact m) (hne : ns ≠ []) :
    ∃ sh d, toNumpy (.dshape (ns.map Ty.fixed ++ [m])) = .ok (sh, d) ∧
      fromNumpy d sh = .ok (.dshape (ns.map Ty.fixed ++ [m])) := by
  obtain ⟨d, h1, h2⟩ := npExact_dtype hm .method
  refine ⟨ns.map fun (n : Nat) => (n : Int), d, by simp only [toNumpy, toNumpyDims_fixed, toDtypeLast_append, h1, bind, Except.bind], ?_⟩
  have hw := withShape_fixed ns m hm.launder hm.not_ds.2.2 hne
  -- the measure does not depend on the shape
  have key : ∀ (d : DType) (sh : List Int), fromNumpy d [] = .ok m → fromNumpy d sh = withShape sh m := by
    intro d sh h
    cases d with
    | struct fs =>
      cases fs with
      | nil => simp only [fromNumpy, fromDtype, bind, Except.bind, withShape, List.isEmpty_nil, if_true] at h ⊢; cases h; rfl
      | cons f fs =>
        simp only [fromNumpy, bind_ok] at h
        obtain ⟨r, hr, m', hm', hw⟩ := h
        simp only [withShape, List.isEmpty_nil, if_true] at hw
        cases hw
        simp only [fromNumpy, hr, hm', bind, Except.bind]
    | _ =>
      simp only [fromNumpy, bind_ok] at h
      obtain ⟨m', hm', hw⟩ := h
      simp only [withShape, List.isEmpty_nil, if_true] at hw
      cases hw
      simp only [fromNumpy, hm', bind, Except.bind]
  rw [key d _ h2, hw]

/-- The same without dimensions: the result is the measure, which equals the one-element datashape it came from. -/
theorem C21.roundtrip_scalar (m : Ty) (hm : NpExact m) (he : m.everywhere eqLocal = true) :
    (∃ d, toNumpy m = .ok ([], d) ∧ fromNumpy d [] = .ok m) ∧
    (∃ d, toNumpy (.dshape [m]) = .ok ([], d) ∧ fromNumpy d [] = .ok m) ∧ pyEq (.dshape [m]) m = true := by
  obtain ⟨d, h1, h2⟩ := npExact_dtype hm .method
  obtain ⟨hd, hs, hc⟩ := hm.not_ds
  refine ⟨⟨d, ?_, h2⟩, ⟨d, ?_, h2⟩, ?_⟩
  · cases m <;> first | (simp [Ty.isDShape] at hd; done) | (simp only [toNumpy, h1, bind, Except.bind])
  · simp only [toNumpy, toNumpyDims, toDtypeLast, h1, bind, Except.bind]
  · exact (C08.singleton_eq_measure m he hd (by rintro n rfl; simp [Ty.cls] at hc)).2 hs

/-- `to_numpy` raises `TypeError` on every dimension that is neither fixed nor a type variable. -/
theorem C21.other_dims (ds : List Ty) (m : Ty) (d : Ty) (hd : d ∈ ds) (hf : ∀ n, d ≠ .fixed n)
    (ht : ∀ s, d ≠ .typevar s) : toNumpy (.dshape (ds ++ [m])) = .error .typeError := by
  have : toNumpyDims (ds ++ [m]) = .error .typeError := by
    induction ds with
    | nil => cases hd
    | cons e ds ih =>
      obtain ⟨q, r, hq⟩ : ∃ q r, ds ++ [m] = q :: r := by cases ds <;> simp
      simp only [List.cons_append, hq, toNumpyDims]
      rcases List.mem_cons.1 hd with rfl | h
      · cases d <;> first | rfl | exact absurd rfl (hf _) | exact absurd rfl (ht _)
      · rw [← hq, ih h]
        cases e <;> rfl
  simp only [toNumpy, this, bind, Except.bind]

/-- A type variable becomes `-1`, which `from_numpy` rejects. -/
theorem C21.typevar : toNumpy (.dshape [.typevar (py"N"), tInt32]) = .ok ([-1], .prim .int32) ∧
    fromNumpy (.prim .int32) [-1] = .error .valueError := ⟨rfl, rfl⟩

/-- Information that is lost: arrays inside records, variable-length strings, other encodings, time zones, decimals,
tuples, options of dates, and the empty record. -/
theorem C21.losses :
    toNumpy (.record [(py"a", .dshape [.fixed 3, tInt32])]) = toNumpy (.record [(py"a", tInt32)]) ∧
    (toNumpy tString = toNumpy tObject) ∧
    (toNumpy (.string (some 5) (py"U8")) = toNumpy (.string (some 5) (py"U32"))) ∧
    (toNumpy (.datetime (some (py"UTC"))) = toNumpy (.datetime none)) ∧
    (toNumpy (.decimal 9 0) = toNumpy tInt32) ∧
    (toNumpy (.tuple [.dshape [tInt32]]) = toNumpy (.record [(py"f0", tInt32)])) ∧
    (toNumpy (.option .date) = toNumpy .date) ∧
    (toNumpy (.record []) = .ok ([], .struct []) ∧ fromNumpy (.struct []) [] = .ok tVoid) :=
  ⟨rfl, rfl, rfl, rfl, rfl, rfl, rfl, rfl, rfl⟩

/-- the fragment is inhabited by nested records -/
example : NpExact (.record [(py"a", tInt32), (py"b", .record [(py"x", .date), (py"y", .string (some 5) (py"A"))])]) := by
  refine .record (by simp) (by decide) (by simp) ?_
  simp only [List.mem_cons, List.not_mem_nil, or_false]
  rintro f (rfl | rfl)
  · exact .prim .int32
  · refine .record (by simp) (by decide) (by simp) ?_
    simp only [List.mem_cons, List.not_mem_nil, or_false]
    rintro f (rfl | rfl)
    · exact .date
    · exact .ascii (by decide)

end DS
