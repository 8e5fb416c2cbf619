import Verif.Model.ArrayDiscovery
import Verif.Props.Numpy

/-
C47: what `discover` makes of a NumPy array.
-/
namespace DS

/-- the shape only adds dimensions -/
theorem fromNumpy_shape (d : DType) (sh : List Int) :
    fromNumpy d sh = (do let m ← fromNumpy d []; withShape sh m) := by
  have hw : ∀ m, withShape [] m = .ok m := fun m => by simp [withShape]
  cases d with
  | struct fs =>
    cases fs with
    | nil =>
      simp only [fromNumpy, bind, Except.bind]
      cases fromDtype (.struct []) <;> simp [hw]
    | cons f fs =>
      simp only [fromNumpy, bind, Except.bind]
      cases fromNumpyF (f :: fs) with
      | error e => rfl
      | ok r =>
        simp only
        cases mkRecord r <;> simp [hw]
  | bytes n => simp only [fromNumpy, bind, Except.bind]; cases mkString (some (n : Int)) (some (py"A")) <;> simp [hw]
  | str n => simp only [fromNumpy, bind, Except.bind]; cases mkString (some (n : Int)) (some (py"U32")) <;> simp [hw]
  | prim p => simp only [fromNumpy, bind, Except.bind]; cases fromDtype (.prim p) <;> simp [hw]
  | datetime u => simp only [fromNumpy, bind, Except.bind]; cases fromDtype (.datetime u) <;> simp [hw]
  | timedelta u => simp only [fromNumpy, bind, Except.bind]; cases fromDtype (.timedelta u) <;> simp [hw]

theorem mkString_form {n : Option Int} {e : Option Str} {t : Ty} (h : mkString n e = .ok t) : ∃ c, t = .string n c := by
  unfold mkString at h
  simp only at h
  split at h
  · injection h with h; exact ⟨_, h.symm⟩
  · cases h

/-- the datashape of a dtype is a measure without dimensions -/
theorem fromNumpy_measure {d : DType} {m : Ty} (h : fromNumpy d [] = .ok m) :
    m.isDShape = false ∧ m.cls ≠ some .dimension ∧ m.shape = [] ∧ m.measure = m ∧ launderTy m = m := by
  have hw : ∀ x : Except PyErr Ty, (do withShape [] (← x)) = .ok m → x = .ok m := by
    intro x hx
    cases x with
    | error e => cases hx
    | ok t => simpa [withShape, bind, Except.bind] using hx
  have hstr : ∀ {n e}, mkString n e = .ok m → _ := fun {n e} (h : mkString n e = .ok m) =>
    (mkString_form h)
  cases d with
  | struct fs =>
    cases fs with
    | nil => cases hw _ h; exact ⟨rfl, by simp [Ty.cls, tVoid], rfl, rfl, rfl⟩
    | cons f fs =>
      simp only [fromNumpy, bind_ok] at h
      obtain ⟨r, _, m', hm', h⟩ := h
      simp only [withShape, List.isEmpty_nil, if_true] at h
      injection h with h
      subst h
      unfold mkRecord at hm'
      split at hm'
      · injection hm' with hm'; subst hm'; exact ⟨rfl, by simp [Ty.cls], rfl, rfl, rfl⟩
      · cases hm'
  | bytes n =>
    obtain ⟨c, rfl⟩ := mkString_form (hw _ h)
    exact ⟨rfl, by simp [Ty.cls], rfl, rfl, rfl⟩
  | str n =>
    obtain ⟨c, rfl⟩ := mkString_form (hw _ h)
    exact ⟨rfl, by simp [Ty.cls], rfl, rfl, rfl⟩
  | prim p =>
    have := hw _ h
    simp only [fromDtype] at this
    cases this
    cases p <;> exact ⟨rfl, by simp [Ty.cls, Prim.toTy, tBool, tInt8, tInt16, tInt32, tInt64, tUint8, tUint16, tUint32, tUint64, tFloat16, tFloat32, tFloat64, tComplex64, tComplex128, tVoid, tObject], rfl, rfl, rfl⟩
  | datetime u =>
    have := hw _ h
    simp only [fromDtype] at this
    split at this <;> cases this <;> exact ⟨rfl, by simp [Ty.cls], rfl, rfl, rfl⟩
  | timedelta u =>
    have := hw _ h
    simp only [fromDtype, mkTimeDelta] at this
    split at this
    · cases this; exact ⟨rfl, by simp [Ty.cls], rfl, rfl, rfl⟩
    · cases this

/-- `from_numpy(shape, d)` as a datashape: the dimensions in front of the measure of `d` -/
theorem fromNumpy_dims {d : DType} {m : Ty} (h : fromNumpy d [] = .ok m) (ns : List Nat) :
    fromNumpy d (ns.map fun (n : Nat) => (n : Int)) = .ok (if ns = [] then m else .dshape (ns.map Ty.fixed ++ [m])) := by
  obtain ⟨_, hc, _, _, hl⟩ := fromNumpy_measure h
  rw [fromNumpy_shape, h]
  simp only [bind, Except.bind]
  by_cases hn : ns = []
  · subst hn; simp [withShape]
  · rw [if_neg hn, withShape_fixed ns m hl hc hn]

theorem mkDS_fixed (ns : List Nat) (m : Ty) (hl : launderTy m = m) (hc : m.cls ≠ some .dimension) :
    mkDS (ns.map Ty.fixed ++ [m]) = .ok (.dshape (ns.map Ty.fixed ++ [m])) := by
  apply mkDS_self.2
  refine .of ⟨_, m, rfl, ?_, hc, ?_⟩
  · intro d hd; obtain ⟨n, _, rfl⟩ := List.mem_map.1 hd; simp [Ty.cls]
  · intro p hp
    rcases List.mem_append.1 hp with hp | hp
    · obtain ⟨n, _, rfl⟩ := List.mem_map.1 hp; rfl
    · rw [List.mem_singleton.1 hp]; exact launder_eq_self hl

/-- the first five entries (or all, if there are fewer) are strings -/
def FirstFiveStrings (l : List Bool) : Prop := ∀ i, i < 5 → l[i]? ≠ some false

theorem isStringArray_iff (l : List Bool) : isStringArray l = true ↔ FirstFiveStrings l := by
  unfold isStringArray FirstFiveStrings
  rw [List.all_eq_true]
  constructor
  · intro h i hi e
    have : false ∈ l.take 5 := by
      rw [List.mem_iff_getElem?]
      exact ⟨i, by rw [List.getElem?_take, if_pos hi]; exact e⟩
    exact absurd (h _ this) (by simp)
  · intro h x hx
    obtain ⟨i, hi⟩ := List.mem_iff_getElem?.1 hx
    rw [List.getElem?_take] at hi
    split at hi
    · rename_i h5
      cases x with
      | true => rfl
      | false => exact absurd hi (h i h5)
    · cases hi

/-- the dimensions of an array in front of a measure; the measure itself for a zero-dimensional array -/
def ndDatashape (shape : List Nat) (m : Ty) : Ty := if shape = [] then m else .dshape (shape.map Ty.fixed ++ [m])

theorem arrayOf_parts (shape : List Nat) (m : Ty) (h1 : m.shape = []) (h2 : m.measure = m) :
    (ndDatashape shape m).shape = shape.map Ty.fixed ∧ (ndDatashape shape m).measure = m := by
  unfold ndDatashape
  by_cases hs : shape = []
  · subst hs; exact ⟨by simpa using h1, by simpa using h2⟩
  · rw [if_neg hs]
    refine ⟨by simp [Ty.shape], by simp [Ty.measure]⟩

/-- the last step, when the measure is not replaced as a whole -/
def NdArray.finish (a : NdArray) : Ty → Except PyErr Ty
  | .record fs =>
    if fs.any fun f => pyEq f.2 tObject then do
      let r ← mkRecord (fs.map a.field)
      mkDS (a.shape.map Ty.fixed ++ [r])
    else .ok (ndDatashape a.shape (.record fs))
  | m => .ok (ndDatashape a.shape m)

/-- what `discover` does after `from_numpy` -/
theorem discoverArray_eq {a : NdArray} {m : Ty} (h : fromNumpy a.dtype [] = .ok m) : discoverArray a =
    (if pyEq m tObject && isStringArray a.isStr then .ok (.dshape (a.shape.map Ty.fixed ++ [tString]))
     else a.finish m) := by
  obtain ⟨_, hc, hs, hm, hl⟩ := fromNumpy_measure h
  have e : fromNumpy a.dtype a.dims = .ok (ndDatashape a.shape m) := fromNumpy_dims h a.shape
  obtain ⟨e1, e2⟩ := arrayOf_parts a.shape m hs hm
  simp only [discoverArray, e, bind, Except.bind, e1, e2]
  rw [mkDS_fixed a.shape tString rfl (by simp [Ty.cls, tString])]
  cases m <;> rfl

theorem arrayOf_launder (shape : List Nat) {m : Ty} (h : launderTy m = m) : launderTy (ndDatashape shape m) = ndDatashape shape m := by
  unfold ndDatashape
  cases shape with
  | nil => simpa using h
  | cons n ns =>
    rw [if_neg (by simp)]
    simp only [List.map_cons, List.cons_append]
    cases ns <;> rfl

theorem fromNumpyF_launder : ∀ {l : List (Str × List Nat × DType)} {r : List (Str × Ty)}, fromNumpyF l = .ok r →
    ∀ f ∈ r, launderTy f.2 = f.2 := by
  intro l
  induction l with
  | nil => intro r h f hf; simp only [fromNumpyF] at h; cases h; cases hf
  | cons x l ih =>
    obtain ⟨n, sh, d⟩ := x
    intro r h f hf
    simp only [fromNumpyF, bind_ok] at h
    obtain ⟨t, ht, rest, hr, h⟩ := h
    injection h with h
    subst h
    rcases List.mem_cons.1 hf with rfl | hf
    · rw [fromNumpy_shape] at ht
      cases hm : fromNumpy d [] with
      | error e => rw [hm] at ht; cases ht
      | ok m =>
        have := fromNumpy_dims hm sh
        rw [fromNumpy_shape, hm] at this
        rw [hm, this] at ht
        injection ht with ht
        rw [← ht]
        exact arrayOf_launder sh (fromNumpy_measure hm).2.2.2.2
    · exact ih hr f hf

/-- a record that comes from a dtype: its fields are stored as they are -/
theorem fromNumpy_record {d : DType} {fs : List (Str × Ty)} (h : fromNumpy d [] = .ok (.record fs)) :
    (fs.map (·.1)).Nodup ∧ ∀ f ∈ fs, launderTy f.2 = f.2 := by
  cases d with
  | struct gs =>
    cases gs with
    | nil => cases h
    | cons g gs =>
      simp only [fromNumpy, bind_ok] at h
      obtain ⟨r, hr, m', hm', h⟩ := h
      simp only [withShape, List.isEmpty_nil, if_true] at h
      injection h with h
      subst h
      have hla := fromNumpyF_launder hr
      have e : (r.map fun f => (f.1, launderTy f.2)) = r := by
        conv => rhs; rw [← List.map_id r]
        apply List.map_inj_left.2
        intro f hf
        rw [hla f hf]; rfl
      unfold mkRecord at hm'
      rw [e] at hm'
      split at hm'
      · rename_i hn
        injection hm' with hm'
        injection hm' with hm'
        subst hm'
        exact ⟨hn, hla⟩
      · cases hm'
  | bytes n =>
    exfalso
    simp only [fromNumpy, bind_ok] at h
    obtain ⟨m', hm', h⟩ := h
    obtain ⟨c, rfl⟩ := mkString_form hm'
    simp [withShape] at h
  | str n =>
    exfalso
    simp only [fromNumpy, bind_ok] at h
    obtain ⟨m', hm', h⟩ := h
    obtain ⟨c, rfl⟩ := mkString_form hm'
    simp [withShape] at h
  | prim p => exfalso; cases p <;> cases h
  | datetime u =>
    exfalso
    simp only [fromNumpy, bind_ok] at h
    obtain ⟨m', hm', h⟩ := h
    simp only [fromDtype] at hm'
    split at hm' <;> cases hm' <;> simp [withShape] at h
  | timedelta u =>
    exfalso
    simp only [fromNumpy, bind_ok] at h
    obtain ⟨m', hm', h⟩ := h
    simp only [fromDtype, mkTimeDelta] at hm'
    split at hm'
    · cases hm'; simp [withShape] at h
    · cases hm'

/-! ### The theorems -/

/-- An array whose measure is neither `object` nor a record with an `object` field: `discover(x)` is
`from_numpy(x.shape, x.dtype)`, whatever the elements are. -/
theorem C47.plain (a : NdArray) (m : Ty) (h : fromNumpy a.dtype [] = .ok m) (h1 : pyEq m tObject = false)
    (h2 : ∀ fs, m = .record fs → ∀ f ∈ fs, pyEq f.2 tObject = false) :
    discoverArray a = fromNumpy a.dtype (a.shape.map fun (n : Nat) => (n : Int)) := by
  rw [discoverArray_eq h, fromNumpy_dims h, h1]
  simp only [Bool.false_and, Bool.false_eq_true, if_false]
  cases m with
  | record fs =>
    have : (fs.any fun f => pyEq f.2 tObject) = false := by
      rw [List.any_eq_false]; intro f hf; simp [h2 fs rfl f hf]
    simp only [NdArray.finish, this, Bool.false_eq_true, if_false]; rfl
  | _ => rfl

/-- An array of objects is an array of strings exactly when its first five entries are strings; otherwise it stays an
array of objects. The shape is that of the array. -/
theorem C47.objects (a : NdArray) (h : a.dtype = .prim .object) :
    (FirstFiveStrings a.isStr → discoverArray a = .ok (.dshape (a.shape.map Ty.fixed ++ [tString]))) ∧
    (¬ FirstFiveStrings a.isStr → discoverArray a = .ok (ndDatashape a.shape tObject)) := by
  have hm : fromNumpy a.dtype [] = .ok tObject := by rw [h]; rfl
  rw [discoverArray_eq hm, ← isStringArray_iff]
  have : pyEq tObject tObject = true := by decide
  constructor
  · intro hs; simp [this, hs]
  · intro hs; simp [this, hs, tObject, NdArray.finish]

/-- A structured array with an `object` field at the top level: the shape stays, the names and their order stay, and
exactly the `object` fields whose column begins with five strings become `string`. -/
theorem C47.records (a : NdArray) (fs : List (Str × Ty)) (h : fromNumpy a.dtype [] = .ok (.record fs))
    (ho : ∃ f ∈ fs, pyEq f.2 tObject = true) :
    ∃ gs, discoverArray a = .ok (.dshape (a.shape.map Ty.fixed ++ [.record gs])) ∧ gs.map (·.1) = fs.map (·.1) ∧
      ∀ (i : Nat) n t, fs[i]? = some (n, t) →
        (pyEq t tObject = true ∧ FirstFiveStrings (a.fieldIsStr n) → gs[i]? = some (n, tString)) ∧
        (¬ (pyEq t tObject = true ∧ FirstFiveStrings (a.fieldIsStr n)) → gs[i]? = some (n, t)) := by
  have hany : (fs.any fun f => pyEq f.2 tObject) = true := by
    obtain ⟨f, hf, e⟩ := ho; exact List.any_eq_true.2 ⟨f, hf, e⟩
  obtain ⟨hnd, hla⟩ := fromNumpy_record h
  have hnames : (fs.map a.field).map (·.1) = fs.map (·.1) := by simp [NdArray.field, Function.comp_def]
  have hmk : mkRecord (fs.map a.field) = .ok (.record (fs.map a.field)) := by
    have e : ((fs.map a.field).map fun f => (f.1, launderTy f.2)) = fs.map a.field := by
      rw [List.map_map]
      apply List.map_inj_left.2
      intro f hf
      simp only [Function.comp, NdArray.field]
      split
      · rfl
      · rw [hla f hf]
    rw [mkRecord, if_pos (by rw [hnames]; exact hnd), e]
  refine ⟨fs.map a.field, ?_, hnames, ?_⟩
  · rw [discoverArray_eq h]
    have : pyEq (.record fs) tObject = false := by unfold pyEq; unfold eqM; rfl
    simp only [this, Bool.false_and, Bool.false_eq_true, if_false, NdArray.finish, hany, if_true, hmk, bind, Except.bind]
    exact mkDS_fixed a.shape _ rfl (by simp [Ty.cls])
  · intro i n t hi
    rw [List.getElem?_map, hi, ← isStringArray_iff]
    simp only [Option.map_some, NdArray.field]
    constructor
    · rintro ⟨h1, h2⟩; simp [h1, h2]
    · intro hn
      rw [if_neg (by simpa using hn)]

/-- `discover` of an array raises only what `from_numpy` of its dtype raises. -/
theorem C47.total (a : NdArray) (m : Ty) (h : fromNumpy a.dtype [] = .ok m) : ∃ t, discoverArray a = .ok t ∧
    t.shape = a.shape.map Ty.fixed := by
  obtain ⟨_, _, hs, hm, _⟩ := fromNumpy_measure h
  by_cases ho : ∃ fs, m = .record fs ∧ ∃ f ∈ fs, pyEq f.2 tObject = true
  · obtain ⟨fs, rfl, ho⟩ := ho
    obtain ⟨gs, e, _⟩ := C47.records a fs h ho
    exact ⟨_, e, by simp [Ty.shape]⟩
  · rw [discoverArray_eq h]
    by_cases hc : (pyEq m tObject && isStringArray a.isStr) = true
    · rw [if_pos hc]; exact ⟨_, rfl, by simp [Ty.shape]⟩
    · rw [if_neg hc]
      have : a.finish m = .ok (ndDatashape a.shape m) := by
        cases m with
        | record fs =>
          have : (fs.any fun f => pyEq f.2 tObject) = false := by
            rw [List.any_eq_false]; intro f hf hh; exact ho ⟨fs, rfl, f, hf, hh⟩
          simp only [NdArray.finish, this, Bool.false_eq_true, if_false]
        | _ => rfl
      rw [this]
      exact ⟨_, rfl, (arrayOf_parts a.shape m hs hm).1⟩

/-- An array made with the shape and dtype of a datashape that NumPy represents exactly is discovered as that
datashape, if no `object` is involved. -/
theorem C47.roundtrip (ns : List Nat) (hne : ns ≠ []) (m : Ty) (hm : NpExact m) (h1 : pyEq m tObject = false)
    (h2 : ∀ fs, m = .record fs → ∀ f ∈ fs, pyEq f.2 tObject = false) (isStr : List Bool) (fieldIsStr : Str → List Bool) :
    ∃ d, toNumpy (.dshape (ns.map Ty.fixed ++ [m])) = .ok (ns.map (fun (n : Nat) => (n : Int)), d) ∧
      discoverArray ⟨ns, d, isStr, fieldIsStr⟩ = .ok (.dshape (ns.map Ty.fixed ++ [m])) := by
  obtain ⟨d, hd, hf⟩ := npExact_dtype hm .method
  refine ⟨d, by simp only [toNumpy, toNumpyDims_fixed, toDtypeLast_append, hd, bind, Except.bind], ?_⟩
  rw [C47.plain ⟨ns, d, isStr, fieldIsStr⟩ m hf h1 h2, fromNumpy_dims hf, if_neg hne]

/-- Only the first five entries are looked at: a sixth that is not a string does not matter, and an empty array of
objects is an array of strings; a zero-dimensional one becomes a one-element `DataShape`; an `object` inside a nested
record or a sub-array stays. -/
theorem C47.limits :
    discoverArray ⟨[6], .prim .object, [true, true, true, true, true, false], fun _ => []⟩ =
      .ok (.dshape [.fixed 6, tString]) ∧
    discoverArray ⟨[2], .prim .object, [true, false], fun _ => []⟩ = .ok (.dshape [.fixed 2, tObject]) ∧
    discoverArray ⟨[0], .prim .object, [], fun _ => []⟩ = .ok (.dshape [.fixed 0, tString]) ∧
    discoverArray ⟨[], .prim .object, [true], fun _ => []⟩ = .ok (.dshape [tString]) ∧
    discoverArray ⟨[1], .struct [(py"a", [], .prim .object), (py"b", [2], .prim .object),
        (py"c", [], .struct [(py"x", [], .prim .object)])], [], fun _ => [true]⟩ =
      .ok (.dshape [.fixed 1, .record [(py"a", tString), (py"b", .dshape [.fixed 2, tObject]),
        (py"c", .record [(py"x", tObject)])]]) :=
  ⟨rfl, rfl, rfl, rfl, rfl⟩

/-- NumPy scalars and other array-like objects: `from_numpy(shape, dtype)`, so the dimensions of the shape in front of
the measure of the dtype. -/
theorem C47.array_like (shape : List Nat) (d : DType) (m : Ty) (h : fromNumpy d [] = .ok m) :
    discoverArrayLike shape d = .ok (if shape = [] then m else .dshape (shape.map Ty.fixed ++ [m])) := by
  unfold discoverArrayLike; exact fromNumpy_dims h shape

end DS
