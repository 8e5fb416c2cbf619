import Verif.Model.Messages
import Verif.Spec.Messages
import Verif.Spec.Position
import Verif.Proofs.Position
import Verif.Props.Util

/-
C75: messages of exceptions.
-/
namespace DS

/-! ### The same as without messages -/

theorem dataShapeM_bare (env : Env) (ps : List Ty) : (dataShapeM env ps).bare = mkDS ps := by
  unfold dataShapeM mkDS checkM checkDS
  generalize ps.map launderTy = ps
  cases ps.getLast? with
  | none => rfl
  | some m =>
    dsimp only
    split
    · rfl
    · cases h : ps.dropLast.find? fun d => d.cls == some .measure with
      | none =>
        rw [if_neg]
        · rfl
        · rw [List.any_eq_true]
          rintro ⟨d, hd, hc⟩
          exact List.find?_eq_none.1 h d hd hc
      | some d =>
        rw [if_pos]
        · rfl
        · rw [List.any_eq_true]
          exact ⟨d, List.mem_of_find?_eq_some h, List.find?_some (p := fun d : Ty => d.cls == some .measure) h⟩

theorem recordM_bare (env : Env) (order : List Str) (fs : List (Str × Ty)) : (recordM env order fs).bare = mkRecord fs := by
  unfold recordM mkRecord
  split <;> rfl

theorem unpackSliceM_bare (env : Env) (s : Str) (i : RItem) (n : Nat) : (unpackSliceM env s i n).bare = unpackSlice i := by
  cases i with
  | other => rfl
  | slice a b c => cases a <;> cases b <;> cases c <;> rfl

theorem bare_bind {α β : Type} (x : Except Raised α) (f : α → Except Raised β) : (x >>= f).bare = x.bare >>= fun a => (f a).bare := by
  cases x <;> rfl

theorem fieldsM_bare (env : Env) (shown : Nat → Str) (n : Nat) (l : List RItem) : (fieldsM env shown n l).bare = l.mapM unpackSlice := by
  induction l generalizing n with
  | nil => rfl
  | cons i l ih =>
    rw [fieldsM, bare_bind, unpackSliceM_bare, List.mapM_cons]
    congr 1
    funext f
    rw [bare_bind, ih]
    rfl

theorem subarrayM_bare (env : Env) (t : Ty) (k : Int) : (subarrayM env t k).bare = subarray t k := by
  cases t with
  | dshape ps =>
    simp only [subarrayM, subarray]
    split
    · rfl
    · split
      · cases ps.getLast? with
        | none => rfl
        | some m => exact dataShapeM_bare env _
      · exact dataShapeM_bare env _
  | _ => simp only [subarrayM, subarray]; split <;> rfl

theorem toNumpyDimsM_bare (env : Env) (ps : List Ty) : (toNumpyDimsM env ps).bare = toNumpyDims ps := by
  induction ps with
  | nil => rfl
  | cons d ps ih =>
    cases ps with
    | nil => rfl
    | cons q ps =>
      have go : ∀ n : Int, (toNumpyDimsM env (q :: ps) >>= fun r => .ok (n :: r)).bare = toNumpyDims (q :: ps) >>= fun r => .ok (n :: r) := by
        intro n
        rw [bare_bind, ih]
        rfl
      cases d with
      | fixed n => exact go n
      | typevar s => exact go (-1)
      | _ => rfl

/-- **C75.** With or without messages, the constructors and conversions return and raise the same. -/
theorem C75.same (env : Env) :
    (∀ ps, (dataShapeM env ps).bare = mkDS ps) ∧ (∀ order fs, (recordM env order fs).bare = mkRecord fs) ∧
    (∀ shown l, (fieldsM env shown 0 l).bare = l.mapM unpackSlice) ∧ (∀ t k, (subarrayM env t k).bare = subarray t k) ∧
    (∀ ps, (toNumpyDimsM env ps).bare = toNumpyDims ps) ∧ (∀ s, (typeVarM env s).bare = mkTypeVar env s) ∧
    (∀ n e, (stringM env n e).bare = mkString n e) := by
  refine ⟨dataShapeM_bare env, recordM_bare env, fun shown => fieldsM_bare env shown 0, subarrayM_bare env, toNumpyDimsM_bare env,
    fun s => ?_, fun n e => ?_⟩
  · cases s with
    | nil => rfl
    | cons c s => unfold typeVarM mkTypeVar; dsimp only; split <;> rfl
  · unfold stringM mkString
    cases e with
    | none => rfl
    | some e =>
      dsimp only
      generalize (if e.isEmpty = true then py"U8" else e) = x
      cases encodings.lookup x <;> rfl

/-! ### `DataShape` -/

theorem stands_iff (t u : Ty) : Stands t u ↔ launderTy t = u := by
  constructor
  · intro h
    cases h with
    | one => rfl
    | self h =>
      unfold launderTy
      split
      · rename_i u; exact absurd rfl (h u)
      · rfl
  · rintro rfl
    unfold launderTy
    split
    · exact .one
    · rename_i h; exact .self h

theorem each_stands (ps qs : List Ty) : Each Stands ps qs ↔ ps.map launderTy = qs := by
  constructor
  · intro h
    induction h with
    | nil => rfl
    | cons h _ ih => rw [List.map_cons, (stands_iff _ _).1 h, ih]
  · rintro rfl
    induction ps with
    | nil => exact .nil
    | cons p ps ih => exact .cons ((stands_iff _ _).2 rfl) ih

theorem partMistake_of (env : Env) {qs : List Ty} {e : PyErr} {m : Str} (h : PartMistake env qs e m) :
    checkM env qs = .error (e, m) := by
  unfold checkM
  cases h with
  | empty => rfl
  | last h => simp [Decidable.not_not.1 (mt mayEnd_iff.1 h)]
  | @inner dims d rest m h1 h2 h3 =>
    have hl : dims ++ d :: (rest ++ [m]) = (dims ++ d :: rest) ++ [m] := by simp
    rw [hl, List.getLast?_concat, List.dropLast_concat]
    dsimp only
    rw [if_neg (mayEnd_iff.2 h1), List.find?_append, List.find?_eq_none.2 (fun x hx => by simpa using mayPrecede_iff.2 (h2 x hx)), List.find?_cons]
    simp [Decidable.not_not.1 (mt mayPrecede_iff.1 h3)]

/-- **C75.** `DataShape(*params)` names the parameter that does not fit: a dimension at the end, or else the first measure before it. -/
theorem C75.data_shape (env : Env) (ps : List Ty) (e : PyErr) (m : Str) :
    dataShapeM env ps = .error (e, m) ↔ ∃ qs, Each Stands ps qs ∧ PartMistake env qs e m := by
  constructor
  · intro h
    refine ⟨_, (each_stands _ _).2 rfl, ?_⟩
    unfold dataShapeM checkM at h
    generalize ps.map launderTy = qs at h
    rcases List.eq_nil_or_concat qs with rfl | ⟨dims, l, rfl⟩
    · cases h; exact .empty
    · simp only [List.concat_eq_append] at *
      rw [List.getLast?_concat, List.dropLast_concat] at h
      dsimp only at h
      split at h
      · rename_i hc; cases h; exact .last fun h => mayEnd_iff.2 h hc
      · rename_i hc
        cases hf : dims.find? fun d => d.cls == some .measure with
        | none => rw [hf] at h; cases h
        | some d =>
          rw [hf] at h
          cases h
          obtain ⟨hd, as, bs, rfl, has⟩ := List.find?_eq_some_iff_append.1 hf
          rw [List.append_assoc, List.cons_append]
          exact .inner (mayEnd_iff.1 hc) (fun x hx => mayPrecede_iff.1 (by simpa using has x hx))
            (fun h => mayPrecede_iff.2 h (by simpa using hd))
  · rintro ⟨qs, h1, h2⟩
    obtain rfl := (each_stands _ _).1 h1
    exact partMistake_of env h2

/-! ### `Record` -/

theorem erase_mem (x : Str) : ∀ (order l : List Str), x ∈ order →
    order.foldl List.erase (x :: l) = (order.erase x).foldl List.erase l
  | [], _, h => by cases h
  | o :: os, l, h => by
    by_cases e : o = x
    · subst e; simp
    · have hm : x ∈ os := by
        rcases List.mem_cons.1 h with h | h
        · exact absurd h.symm e
        · exact h
      rw [List.foldl_cons, List.erase_cons_tail (by simpa using Ne.symm e), erase_mem x os (l.erase o) hm,
        List.erase_cons_tail (by simpa using e), List.foldl_cons]

theorem erase_not_mem (x : Str) : ∀ (order l : List Str), x ∉ order →
    order.foldl List.erase (x :: l) = x :: order.foldl List.erase l
  | [], _, _ => rfl
  | o :: os, l, h => by
    have h1 : ¬ x = o := fun e => h (by simp [e])
    have h2 : x ∉ os := fun e => h (List.mem_cons_of_mem _ e)
    rw [List.foldl_cons, List.erase_cons_tail (by simpa using h1), erase_not_mem x os (l.erase o) h2]
    rfl

theorem erase_repetitions {seen names again : List Str} (h : Repetitions seen names again) :
    ∀ order : List Str, order.Nodup → (∀ x ∈ names, x ∉ seen ↔ x ∈ order) → order.foldl List.erase names = again := by
  induction h with
  | done =>
    intro order _ _
    show order.foldl List.erase [] = []
    rename_i h1 h2
    clear h1 h2
    induction order with
    | nil => rfl
    | cons o os ih => exact ih
  | @first seen x names again hx _ ih =>
    intro order hn ho
    rw [erase_mem x order names ((ho x (by simp)).1 hx)]
    refine ih _ (hn.erase x) fun y hy => ?_
    rw [hn.mem_erase_iff, ← ho y (List.mem_cons_of_mem _ hy), List.mem_cons]
    exact not_or
  | @again seen x names again hx _ ih =>
    intro order hn ho
    rw [erase_not_mem x order names fun h => (ho x (by simp)).2 h hx,
      ih order hn fun y hy => ho y (List.mem_cons_of_mem _ hy)]

theorem repetitions_total (names : List Str) : ∀ seen, ∃ again, Repetitions seen names again := by
  induction names with
  | nil => exact fun seen => ⟨_, .done⟩
  | cons x names ih =>
    intro seen
    by_cases hx : x ∈ seen
    · obtain ⟨again, h⟩ := ih seen
      exact ⟨_, .again hx h⟩
    · obtain ⟨again, h⟩ := ih (x :: seen)
      exact ⟨_, .first hx h⟩

/-- **C75.** `Record(fields)` with repeated names names every one of them, once for each repetition, in whatever order Python iterates
over sets. -/
theorem C75.record (env : Env) (order : List Str) (fs : List (Str × Ty)) (ho : order.Nodup) (hs : ∀ x, x ∈ order ↔ x ∈ fs.map (·.1))
    (e : PyErr) (m : Str) :
    recordM env order fs = .error (e, m) ↔ ¬ (fs.map (·.1)).Nodup ∧ e = .valueError ∧
      ∃ again, Repetitions [] (fs.map (·.1)) again ∧ m = py"duplicate field names found: " ++ listRepr env again := by
  have key : ∀ again, Repetitions [] (fs.map (·.1)) again → order.foldl List.erase (fs.map (·.1)) = again := fun again h =>
    erase_repetitions h order ho fun x hx => by rw [hs]; simp [hx]
  unfold recordM
  split
  · rename_i hn
    exact ⟨fun h => (by cases h), fun h => absurd hn h.1⟩
  · rename_i hn
    obtain ⟨again, ha⟩ := repetitions_total (fs.map (·.1)) []
    rw [key _ ha]
    constructor
    · intro h; cases h; exact ⟨hn, rfl, again, ha, rfl⟩
    · rintro ⟨-, rfl, again', ha', rfl⟩
      rw [← key _ ha, key _ ha']

/-- … so it lists a name `n - 1` times that comes `n` times; in particular, exactly the names that are repeated. -/
theorem C75.repeated (names again : List Str) (h : Repetitions [] names again) (x : Str) : again.count x = names.count x - 1 := by
  have key : ∀ seen names again, Repetitions seen names again →
      again.count x = if x ∈ seen then names.count x else names.count x - 1 := by
    intro seen names again h
    induction h with
    | done => simp
    | @first seen y names again hy _ ih =>
      rw [ih, List.count_cons]
      by_cases e : y = x
      · subst e; simp [hy]
      · have : ¬ x = y := fun h => e h.symm
        simp [e, this]
    | @again seen y names again hy _ ih =>
      rw [List.count_cons, List.count_cons, ih]
      by_cases e : y = x
      · subst e; simp [hy]
      · simp [e]
  simpa using key [] names again h

/-! ### `R[…]` -/

theorem unpackM_ok (env : Env) (s : Str) (n : Nat) (i : RItem) (f : Str × PVal) : unpackSliceM env s i n = .ok f ↔ FieldItem i f := by
  constructor
  · intro h
    cases i with
    | other => cases h
    | slice a b c => cases a <;> cases b <;> cases c <;> cases h <;> exact .field (by intro h; cases h)
  · rintro ⟨h⟩
    rename_i x t
    cases t <;> first | rfl | exact absurd rfl h

theorem unpackM_error (env : Env) (s : Str) (n : Nat) (i : RItem) (e : PyErr) (m : Str) :
    unpackSliceM env s i n = .error (e, m) ↔ e = .typeError ∧ ItemMistake env s n i m := by
  constructor
  · intro h
    cases i with
    | other => cases h; exact ⟨rfl, .noSlice⟩
    | slice a b c =>
      cases a <;> cases b <;> cases c <;> cases h <;>
        first
          | exact ⟨rfl, .noName⟩
          | exact ⟨rfl, .intName⟩
          | exact ⟨rfl, .typeName⟩
          | exact ⟨rfl, .otherName⟩
          | exact ⟨rfl, .noType⟩
          | exact ⟨rfl, .step (by intro h; cases h)⟩
  · rintro ⟨rfl, h⟩
    cases h with
    | @step x t s h => cases t <;> cases s <;> first | rfl | exact absurd rfl h
    | _ => rfl

theorem fieldsM_ok (env : Env) (shown : Nat → Str) (items : List RItem) : ∀ (n : Nat) (fs : List (Str × PVal)),
    fieldsM env shown n items = .ok fs ↔ Each FieldItem items fs := by
  induction items with
  | nil => exact fun n fs => ⟨fun h => (by cases h; exact .nil), fun h => by cases h; rfl⟩
  | cons i items ih =>
    intro n fs
    rw [fieldsM]
    constructor
    · intro h
      cases h1 : unpackSliceM env (shown n) i n with
      | error e => rw [h1] at h; cases h
      | ok f =>
        rw [h1] at h
        cases h2 : fieldsM env shown (n + 1) items with
        | error e => rw [h2] at h; cases h
        | ok gs =>
          rw [h2] at h
          cases h
          exact .cons ((unpackM_ok ..).1 h1) ((ih _ _).1 h2)
    · intro h
      cases h with
      | cons h1 h2 => rw [(unpackM_ok env (shown n) n i _).2 h1, (ih (n + 1) _).2 h2]; rfl

theorem fieldsM_error (env : Env) (shown : Nat → Str) (items : List RItem) (e : PyErr) (m : Str) : ∀ n : Nat,
    fieldsM env shown n items = .error (e, m) ↔ e = .typeError ∧ ∃ pre i post, items = pre ++ i :: post ∧
      (∀ x ∈ pre, ∃ f, FieldItem x f) ∧ ItemMistake env (shown (n + pre.length)) (n + pre.length) i m := by
  induction items with
  | nil => exact fun n => ⟨fun h => (by cases h), fun ⟨_, pre, i, post, h, _⟩ => by cases pre <;> cases h⟩
  | cons i items ih =>
    intro n
    rw [fieldsM]
    constructor
    · intro h
      cases h1 : unpackSliceM env (shown n) i n with
      | error e' =>
        rw [h1] at h
        cases h
        obtain ⟨he, hm⟩ := (unpackM_error ..).1 h1
        exact ⟨he, [], i, items, rfl, fun x hx => (by cases hx), hm⟩
      | ok f =>
        rw [h1] at h
        cases h2 : fieldsM env shown (n + 1) items with
        | ok gs => rw [h2] at h; cases h
        | error e' =>
          rw [h2] at h
          cases h
          obtain ⟨he, pre, j, post, rfl, hp, hm⟩ := (ih _).1 h2
          refine ⟨he, i :: pre, j, post, rfl, fun x hx => ?_, ?_⟩
          · rcases List.mem_cons.1 hx with rfl | hx
            · exact ⟨f, (unpackM_ok ..).1 h1⟩
            · exact hp x hx
          · rw [List.length_cons, show n + (pre.length + 1) = n + 1 + pre.length by omega]; exact hm
    · rintro ⟨rfl, pre, j, post, hi, hp, hm⟩
      cases pre with
      | nil =>
        cases hi
        rw [(unpackM_error env (shown n) n i .typeError m).2 ⟨rfl, hm⟩]
        rfl
      | cons p pre =>
        cases hi
        obtain ⟨f, hf⟩ := hp i (by simp)
        rw [(unpackM_ok env _ n i f).2 hf, (ih (n + 1)).2 ⟨rfl, pre, j, post, rfl, fun x hx => hp x (List.mem_cons_of_mem _ hx), ?_⟩]
        · rfl
        · rw [List.length_cons, show n + (pre.length + 1) = n + 1 + pre.length by omega] at hm; exact hm

/-- **C75.** `R[…]` names the position of the first item that is no field and says what is wrong with it. -/
theorem C75.literal (env : Env) (shown : Nat → Str) (items : List RItem) :
    (∀ fs, fieldsM env shown 0 items = .ok fs ↔ Each FieldItem items fs) ∧
    ∀ e m, fieldsM env shown 0 items = .error (e, m) ↔ e = .typeError ∧ ∃ pre i post, items = pre ++ i :: post ∧
      (∀ x ∈ pre, ∃ f, FieldItem x f) ∧ ItemMistake env (shown pre.length) pre.length i m := by
  refine ⟨fieldsM_ok env shown items 0, fun e m => ?_⟩
  rw [fieldsM_error]
  simp only [Nat.zero_add]

/-! ### `subarray`, `to_numpy`, `TypeVar`, `String` -/

theorem bare_error {α : Type} {x : Except Raised α} {a : α} (h : x.bare = .ok a) : x = .ok a := by
  cases x with
  | ok => cases h; rfl
  | error => cases h

theorem subarray_low (ps : List Ty) (hc : Constructible ps) (k : Int) (h : k < ps.length) : ∃ t, subarray (.dshape ps) k = .ok t := by
  by_cases h0 : 0 ≤ k
  · obtain ⟨n, rfl⟩ := Int.eq_ofNat_of_zero_le h0
    obtain ⟨qs, hq, _⟩ := C16.measure ps hc n (by omega)
    exact ⟨_, hq⟩
  · by_cases h1 : -(ps.length : Int) ≤ k
    · have := C16.negative ps hc (-k).toNat (by omega) (by omega)
      rw [show -((-k).toNat : Int) = k by omega] at this
      rw [this]
      obtain ⟨qs, hq, _⟩ := C16.measure ps hc (ps.length - (-k).toNat) (by omega)
      exact ⟨_, hq⟩
    · have hd : pyDrop ps k = ps := by
        simp only [pyDrop]
        rw [if_pos (by omega), show ((ps.length : Int) + k).toNat = 0 by omega]
        rfl
      have hl : 0 < ps.length := by obtain ⟨a, m, rfl, _⟩ := hc; simp
      simp only [subarray]
      rw [if_neg (by omega), if_neg (by omega), hd]
      exact ⟨_, mkDS_self.2 hc⟩

/-- **C75.** `ds.subarray(k)` raises `IndexError` exactly if `ds` has at most `k` elements (one, if it is no `DataShape`) and `k ≥ 1`,
and the message has the number. -/
theorem C75.subarray (env : Env) (t : Ty) (ht : ∀ ps, t = .dshape ps → Constructible ps) (k : Int) (e : PyErr) (m : Str) :
    subarrayM env t k = .error (e, m) ↔ (∀ ps, t = .dshape ps → (ps.length : Int) ≤ k) ∧ ((∀ ps, t ≠ .dshape ps) → 1 ≤ k) ∧
      e = .indexError ∧ m = py"Not enough dimensions in data shape to remove " ++ intStr k ++ py" leading dimensions." := by
  by_cases hd : ∃ ps, t = .dshape ps
  · obtain ⟨ps, rfl⟩ := hd
    have hc := ht ps rfl
    by_cases hk : (ps.length : Int) ≤ k
    · have : subarrayM env (.dshape ps) k = .error (.indexError,
          py"Not enough dimensions in data shape to remove " ++ intStr k ++ py" leading dimensions.") := by
        simp only [subarrayM]; rw [if_pos hk]
      rw [this]
      constructor
      · intro h; cases h
        exact ⟨fun qs h => (by cases h; exact hk), fun h => absurd rfl (h ps), rfl, rfl⟩
      · rintro ⟨-, -, rfl, rfl⟩; rfl
    · obtain ⟨u, hu⟩ := subarray_low ps hc k (by omega)
      rw [bare_error ((subarrayM_bare env (.dshape ps) k).trans hu)]
      exact ⟨fun h => (by cases h), fun h => absurd (h.1 ps rfl) hk⟩
  · have : subarrayM env t k = if k ≥ 1 then .error (.indexError,
          py"Not enough dimensions in data shape to remove " ++ intStr k ++ py" leading dimensions.") else .ok t := by
      cases t <;> first | rfl | exact absurd ⟨_, rfl⟩ hd
    rw [this]
    split
    · rename_i hk
      constructor
      · intro h; cases h
        exact ⟨fun qs h => absurd ⟨qs, h⟩ hd, fun _ => hk, rfl, rfl⟩
      · rintro ⟨-, -, rfl, rfl⟩; rfl
    · rename_i hk
      exact ⟨fun h => (by cases h), fun h => absurd (h.2.1 fun ps e => hd ⟨ps, e⟩) hk⟩

/-- **C75.** `to_numpy` names the first dimension that NumPy does not have. -/
theorem C75.to_numpy (env : Env) (ps : List Ty) (e : PyErr) (m : Str) :
    toNumpyDimsM env ps = .error (e, m) ↔ e = .typeError ∧ ∃ dims d rest, ps = dims ++ d :: rest ∧ rest ≠ [] ∧
      (∀ x ∈ dims, ∃ n, NpDim x n) ∧ (∀ n, ¬ NpDim d n) ∧
      m = py"DataShape dimension " ++ pyStr env d ++ py" is not NumPy-compatible" := by
  induction ps with
  | nil => exact ⟨fun h => (by cases h), fun ⟨_, dims, d, rest, h, _⟩ => by cases dims <;> cases h⟩
  | cons d ps ih =>
    cases ps with
    | nil =>
      refine ⟨fun h => (by cases h), fun ⟨_, dims, x, rest, h, hr, _⟩ => ?_⟩
      cases dims with
      | nil => cases h; exact absurd rfl hr
      | cons y dims => cases dims <;> cases h
    | cons q ps =>
      by_cases hd : ∃ n, NpDim d n
      · obtain ⟨n, hn⟩ := hd
        have : toNumpyDimsM env (d :: q :: ps) = toNumpyDimsM env (q :: ps) >>= fun r => .ok (n :: r) := by
          cases hn <;> rfl
        rw [this]
        have h' : (toNumpyDimsM env (q :: ps) >>= fun r => .ok (n :: r)) = .error (e, m) ↔ toNumpyDimsM env (q :: ps) = .error (e, m) := by
          cases toNumpyDimsM env (q :: ps) with
          | ok r => exact ⟨fun h => (by cases h), fun h => by cases h⟩
          | error x => exact ⟨fun h => (by cases h; rfl), fun h => by cases h; rfl⟩
        rw [h', ih]
        constructor
        · rintro ⟨he, dims, x, rest, h, hr, h1, h2⟩
          refine ⟨he, d :: dims, x, rest, by rw [h]; rfl, hr, fun y hy => ?_, h2⟩
          rcases List.mem_cons.1 hy with rfl | hy
          · exact ⟨n, hn⟩
          · exact h1 y hy
        · rintro ⟨he, dims, x, rest, h, hr, h1, h2, h3⟩
          cases dims with
          | nil => cases h; exact absurd hn (h2 n)
          | cons y dims =>
            obtain ⟨rfl, h5⟩ := List.cons.inj h
            exact ⟨he, dims, x, rest, h5, hr, fun z hz => h1 z (List.mem_cons_of_mem _ hz), h2, h3⟩
      · have : toNumpyDimsM env (d :: q :: ps) = .error (.typeError,
            py"DataShape dimension " ++ pyStr env d ++ py" is not NumPy-compatible") := by
          cases d with
          | fixed n => exact absurd ⟨_, .fixed n⟩ hd
          | typevar s => exact absurd ⟨_, .typevar s⟩ hd
          | _ => rfl
        rw [this]
        constructor
        · intro h; cases h
          exact ⟨rfl, [], d, q :: ps, rfl, by simp, fun x hx => (by cases hx), fun n hn => hd ⟨n, hn⟩, rfl⟩
        · rintro ⟨rfl, dims, x, rest, h, hr, h1, h2, rfl⟩
          cases dims with
          | nil => cases h; rfl
          | cons y dims => obtain ⟨rfl, h⟩ := List.cons.inj h; exact absurd (h1 d (by simp)) hd

/-- `TypeVar` and `String` name their argument. -/
theorem C75.argument (env : Env) (s : Str) (n : Option Int) :
    (∀ e m, typeVarM env s = .error (e, m) → s ≠ [] →
      e = .valueError ∧ m = py"TypeVar symbol " ++ pyRepr env s ++ py" does not begin with a capital") ∧
    (∀ e m, stringM env n (some s) = .error (e, m) → e = .valueError ∧ m = py"Unsupported string encoding " ++ pyRepr env s) := by
  refine ⟨fun e m h hs => ?_, fun e m h => ?_⟩
  · cases s with
    | nil => exact absurd rfl hs
    | cons c s =>
      unfold typeVarM at h
      dsimp only at h
      split at h
      · cases h
      · cases h; exact ⟨rfl, rfl⟩
  · unfold stringM at h
    dsimp only at h
    by_cases hs : s.isEmpty = true
    · rw [if_pos hs] at h; cases h
    · rw [if_neg hs] at h
      split at h
      · cases h
      · cases h; exact ⟨rfl, rfl⟩

/-- Cases that meet the hypotheses: `Record([('a', int32), ('b', int32), ('a', int32), ('a', int32)])`, `DataShape(3, int32, int64)`,
`DataShape(int32, 3)`, `R['a':int32, 'b':]`, `R['a':int32:1]`, `(3 * int32).subarray(2)`, `to_numpy(3 * var * var * int32)`. -/
theorem C75.example (env : Env) :
    Repetitions [] [py"a", py"b", py"a", py"a"] [py"a", py"a"] ∧
    dataShapeM env [.fixed 3, tInt32, tInt64] = .error (.typeError,
      py"Only dimensions can appear before the last position of a datashape, not ctype(\"int32\")") ∧
    dataShapeM env [tInt32, .fixed 3] = .error (.typeError,
      py"Only a measure can appear on the last position of a datashape, not Fixed(val=3)") ∧
    fieldsM env (fun _ => []) 0 [.slice (.str (py"a")) (.ty tInt32) .none, .slice (.str (py"b")) .none .none] = .error (.typeError,
      py"missing type for field 'b' at position 1") ∧
    fieldsM env (fun _ => []) 0 [.slice (.str (py"a")) (.ty tInt32) (.int 1)] = .error (.typeError,
      py"unexpected slice step for field 'a' at position 0.\nhint: you might have a second ':'") ∧
    subarrayM env (.dshape [.fixed 3, tInt32]) 2 = .error (.indexError,
      py"Not enough dimensions in data shape to remove 2 leading dimensions.") ∧
    toNumpyDimsM env [.fixed 3, .var, .var, tInt32] = .error (.typeError, py"DataShape dimension var is not NumPy-compatible") := by
  refine ⟨.first (by simp) (.first (by decide) (.again (by decide) (.again (by decide) .done))), rfl, rfl, rfl, rfl, rfl, rfl⟩

end DS
