import Verif.Model.Equality
import Verif.Spec.WellFormed

set_option linter.unusedSimpArgs false
namespace DS

/-- The free hash algebra: no collisions. -/
inductive HTree where
  | str (s : Str)
  | int (i : Int)
  | none
  | cls (s : Str)
  | tup (l : List HTree)
  | xor (a b : HTree)

/-- Hashing without collisions. -/
def freeHash : HashEnv HTree := ⟨.str, .int, .none, .cls, .tup, .xor⟩

mutual
/-- interpretation of a free hash -/
def HTree.eval {H} (E : HashEnv H) : HTree → H
  | .str s => E.str s
  | .int i => E.int i
  | .none => E.none
  | .cls s => E.cls s
  | .tup l => E.tup (HTree.evalL E l)
  | .xor a b => E.xor (a.eval E) (b.eval E)
/-- list version -/
def HTree.evalL {H} (E : HashEnv H) : List HTree → List H
  | [] => []
  | t :: r => t.eval E :: HTree.evalL E r
end

theorem evalL_map {H} (E : HashEnv H) (l : List HTree) : HTree.evalL E l = l.map (HTree.eval E) := by
  induction l with
  | nil => rfl
  | cons a l ih => simp [HTree.evalL, ih]

theorem hashL_eq {H} (E : HashEnv H) (l : List Ty) : hashL E l = l.map (fun t => (hashT E t).own) := by
  induction l with
  | nil => rfl
  | cons a l ih => simp [hashL, ih]

theorem hashF_eq {H} (E : HashEnv H) (l : List (Str × Ty)) :
    hashF E l = l.map (fun f => E.tup [E.str f.1, (hashT E f.2).own]) := by
  induction l with
  | nil => rfl
  | cons a l ih => obtain ⟨n, t⟩ := a; simp [hashF, ih]

theorem hashInit_eq {H} (E : HashEnv H) (l : List Ty) :
    hashInit E l = l.dropLast.map (fun t => (hashT E t).own) := by
  induction l with
  | nil => rfl
  | cons a l ih => cases l with
    | nil => rfl
    | cons b l => simp [hashInit, ih]

theorem hashLast_eq {H} (E : HashEnv H) (l : List Ty) :
    hashLast E l = (hashT E (l.getLast?.getD (.dshape []))).info := by
  induction l with
  | nil => rfl
  | cons a l ih => cases l with
    | nil => rfl
    | cons b l => rw [hashLast, ih]; simp

/-- `hash` of the shape component -/
theorem hash_shape {H} (E : HashEnv H) (t : Ty) :
    (hashT E t).shape = t.shape.map (fun t => (hashT E t).own) := by
  induction t using Ty.ind with
  | option t ih => simpa [hashT, HT.mk', Ty.shape] using ih
  | dshape ps _ => simp [hashT, HT.mk', Ty.shape, hashInit_eq]
  | _ => rfl

theorem hash_meas {H} (E : HashEnv H) (t : Ty) : (hashT E t).meas = (hashT E t.measure).info := by
  cases t with
  | dshape ps => simp [hashT, HT.mk', Ty.measure, hashLast_eq]
  | _ => rfl

theorem hash_own {H} (E : HashEnv H) (t : Ty) (h : eqLocal t = true) :
    (hashT E t).own = E.xor (E.tup (hashT E t).shape) (hashT E t).meas := by
  cases t with
  | typeset => simp [eqLocal] at h
  | _ => rfl

/-! ### every hash is an image of the free hash -/

section hom
variable {H : Type} (E : HashEnv H)
@[simp] theorem eval_str (s : Str) : (freeHash.str s).eval E = E.str s := by simp [freeHash, HTree.eval]
@[simp] theorem eval_int (i : Int) : (freeHash.int i).eval E = E.int i := by simp [freeHash, HTree.eval]
@[simp] theorem eval_none : freeHash.none.eval E = E.none := by simp [freeHash, HTree.eval]
@[simp] theorem eval_tup (l : List HTree) : (freeHash.tup l).eval E = E.tup (l.map (HTree.eval E)) := by
  simp [freeHash, HTree.eval, evalL_map]
@[simp] theorem eval_xor (a b : HTree) : (freeHash.xor a b).eval E = E.xor (a.eval E) (b.eval E) := by
  simp [freeHash, HTree.eval]
@[simp] theorem eval_info (c : Str) (l : List HTree) :
    (freeHash.info c l).eval E = E.info c (l.map (HTree.eval E)) := by
  simp [HashEnv.info]; simp [freeHash, HTree.eval]
@[simp] theorem eval_optStr (z : Option Str) : (freeHash.optStr z).eval E = E.optStr z := by
  cases z <;> simp [HashEnv.optStr]
@[simp] theorem eval_optInt (z : Option Int) : (freeHash.optInt z).eval E = E.optInt z := by
  cases z <;> simp [HashEnv.optInt]
@[simp] theorem eval_optTypeVar (z : Option Str) : (freeHash.optTypeVar z).eval E = E.optTypeVar z := by
  cases z <;> simp [HashEnv.optTypeVar]
@[simp] theorem eval_lit (z : Lit) : (freeHash.lit z).eval E = E.lit z := by
  cases z <;> simp [HashEnv.lit]

/-- pointwise image -/
def HT.map {H K : Type} (f : H → K) (h : HT H) : HT K := ⟨h.shape.map f, f h.meas, f h.info, f h.own⟩

theorem HT.map_mk' (s : List HTree) (m i : HTree) :
    (HT.mk' freeHash s m i).map (HTree.eval E) = HT.mk' E (s.map (HTree.eval E)) (m.eval E) (i.eval E) := by
  simp [HT.mk', HT.map]

theorem hash_hom (t : Ty) : hashT E t = (hashT freeHash t).map (HTree.eval E) := by
  have key : ∀ l : List Ty, (∀ t ∈ l, hashT E t = (hashT freeHash t).map (HTree.eval E)) →
      l.map (fun t => (hashT E t).own) = (l.map fun t => (hashT freeHash t).own).map (HTree.eval E) := by
    intro l h; simp only [List.map_map]
    exact List.map_congr_left (fun t ht => by rw [h t ht]; rfl)
  induction t using Ty.ind with
  | func ps ih => simp only [hashT, HT.scalar, HT.map_mk', hashL_eq, key ps ih, eval_info, List.map_nil]
  | tuple ps ih =>
    simp only [hashT, HT.scalar, HT.map_mk', hashL_eq, key ps ih, eval_info, List.map_nil, List.map_cons,
      eval_tup]
  | typeset ps n ih =>
    simp only [hashT, HT.map, hashL_eq, key ps ih, eval_info, List.map_nil, List.map_cons,
      eval_tup, eval_optStr]
  | record fs ih =>
    have : fs.map (fun f => E.tup [E.str f.1, (hashT E f.2).own]) =
        (fs.map (fun f => freeHash.tup [freeHash.str f.1, (hashT freeHash f.2).own])).map (HTree.eval E) := by
      simp only [List.map_map]
      exact List.map_congr_left (fun f hf => by simp [ih f hf, HT.map])
    simp only [hashT, HT.scalar, HT.map_mk', hashF_eq, this, eval_info, List.map_nil, List.map_cons, eval_tup]
  | categorical c t o ih =>
    have : c.map E.lit = (c.map freeHash.lit).map (HTree.eval E) := by
      simp only [List.map_map]
      exact List.map_congr_left (fun l _ => by simp)
    simp only [hashT, HT.scalar, HT.map_mk', this, eval_info, List.map_nil, List.map_cons, eval_tup, ih,
      eval_int]
    rfl
  | dshape ps ih =>
    have h1 := key ps ih
    have h2 := key ps.dropLast (fun t ht => ih t (List.dropLast_subset _ ht))
    have h3 : (hashT E (ps.getLast?.getD (.dshape []))).info =
        (hashT freeHash (ps.getLast?.getD (.dshape []))).info.eval E := by
      cases hl : ps.getLast? with
      | none => simp [hashT, HT.mk', hashL]
      | some x => simp [ih x (List.mem_of_getLast? hl), HT.map]
    simp only [hashT, HT.map_mk', hashL_eq, hashInit_eq, hashLast_eq, h1, h2, h3, eval_info]
  | units u t ih => simp [hashT, HT.scalar, HT.map_mk']; simp [ih, HT.map]
  | option t ih => simp [hashT, HT.map_mk']; simp [ih, HT.map]
  | map k v ih1 ih2 => simp [hashT, HT.scalar, HT.map_mk']; simp [ih1, ih2, HT.map]
  | _ => simp [hashT, HT.scalar, HT.map_mk']
end hom

/-- Equal free hashes give equal hashes. -/
theorem pyHash_of_free {H} (E : HashEnv H) {a b : Ty}
    (h : pyHash freeHash a = pyHash freeHash b) : pyHash E a = pyHash E b := by
  unfold pyHash at *
  rw [hash_hom E a, hash_hom E b]; simp [HT.map, h]

/-! ### `==` is equality of free hashes -/

abbrev fh (t : Ty) : HT HTree := hashT freeHash t

theorem info_inj (c c' : Str) (p p' : List HTree) :
    freeHash.info c p = freeHash.info c' p' ↔ c = c' ∧ p = p' := by
  simp [HashEnv.info, freeHash]

@[simp] theorem free_tup (a b : List HTree) : freeHash.tup a = freeHash.tup b ↔ a = b := by simp [freeHash]
@[simp] theorem free_str (a b : Str) : freeHash.str a = freeHash.str b ↔ a = b := by simp [freeHash]
@[simp] theorem free_int (a b : Int) : freeHash.int a = freeHash.int b ↔ a = b := by simp [freeHash]
@[simp] theorem free_xor (a b c d : HTree) : freeHash.xor a b = freeHash.xor c d ↔ a = c ∧ b = d := by
  simp [freeHash]
@[simp] theorem free_optStr (a b : Option Str) : freeHash.optStr a = freeHash.optStr b ↔ a = b := by
  cases a <;> cases b <;> simp [freeHash, HashEnv.optStr]
@[simp] theorem free_optInt (a b : Option Int) : freeHash.optInt a = freeHash.optInt b ↔ a = b := by
  cases a <;> cases b <;> simp [freeHash, HashEnv.optInt]
@[simp] theorem free_optTypeVar (a b : Option Str) :
    freeHash.optTypeVar a = freeHash.optTypeVar b ↔ a = b := by
  cases a <;> cases b <;> simp [freeHash, HashEnv.optTypeVar, HashEnv.info]

theorem litsEq_iff (c d : List Lit) : litsEq c d = true ↔ c.map freeHash.lit = d.map freeHash.lit := by
  induction c generalizing d with
  | nil => cases d <;> simp [litsEq]
  | cons a c ih =>
    cases d with
    | nil => simp [litsEq]
    | cons b d =>
      simp only [litsEq, Bool.and_eq_true, ih, List.map_cons, List.cons.injEq]
      refine and_congr_left fun _ => ?_
      cases a <;> cases b <;> simp [Lit.pyEq, Lit.canon, HashEnv.lit, freeHash]

/-- For a class with empty shape other than `Fixed`/`TypeSet`, `a == b` compares `info()` with the
measure of `b`. -/
theorem eqM_full_scalar {a : Ty} (h : a.shape = []) (hm : a.measure = a)
    (h1 : ∀ n, a ≠ .fixed n) (h2 : ∀ o n, a ≠ .typeset o n) (h3 : a.isOption = false) (b : Ty) :
    eqM a true b = (b.shape.isEmpty && eqM a false b.measure) := by
  cases a <;> simp_all [eqM, Ty.noShape, Ty.target, Ty.isOption]
  case dshape ps =>
    rw [Ty.measure] at hm
    cases hl : ps.getLast? with
    | none =>
      simp at hl; subst hl
      cases hb : b.measure <;> simp [eqInit, eqLast, eqM, eqL]
      rename_i qs; cases qs <;> simp [eqLast]
    | some x =>
      rw [hl] at hm; simp at hm; subst hm
      have := List.mem_of_getLast? hl
      have := List.sizeOf_lt_of_mem this
      simp at this
      omega

section
variable (P : Ty → Ty → Prop)

theorem eqL_iff {l : List Ty} (h : ∀ a ∈ l, ∀ b, b.everywhere eqLocal = true →
      (eqM a true b = true ↔ (fh a).own = (fh b).own)) :
    ∀ m : List Ty, (∀ b ∈ m, b.everywhere eqLocal = true) →
      (eqL l m = true ↔ l.map (fun t => (fh t).own) = m.map (fun t => (fh t).own)) := by
  induction l with
  | nil => intro m _; cases m <;> simp [eqL]
  | cons a l ih =>
    intro m hm
    cases m with
    | nil => simp [eqL]
    | cons b m =>
      simp only [eqL, Bool.and_eq_true, List.map_cons, List.cons.injEq]
      rw [h a (by simp) b (hm b (by simp)),
        ih (fun a ha => h a (by simp [ha])) m (fun b hb => hm b (by simp [hb]))]

theorem eqF_iff {l : List (Str × Ty)} (h : ∀ a ∈ l, ∀ b, b.everywhere eqLocal = true →
      (eqM a.2 true b = true ↔ (fh a.2).own = (fh b).own)) :
    ∀ m : List (Str × Ty), (∀ b ∈ m, b.2.everywhere eqLocal = true) →
      (eqF l m = true ↔ hashF freeHash l = hashF freeHash m) := by
  induction l with
  | nil => intro m _; cases m <;> simp [eqF, hashF]
  | cons a l ih =>
    intro m hm
    obtain ⟨n, a⟩ := a
    cases m with
    | nil => simp [eqF, hashF]
    | cons b m =>
      obtain ⟨n', b⟩ := b
      simp only [eqF, Bool.and_eq_true, hashF, List.cons.injEq]
      rw [h (n, a) (by simp) b (hm (n', b) (by simp)),
        ih (fun a ha => h a (by simp [ha])) m (fun b hb => hm b (by simp [hb]))]
      have : ∀ (n n' : Str) (x y : HTree),
          freeHash.tup [freeHash.str n, x] = freeHash.tup [freeHash.str n', y] ↔ n = n' ∧ x = y := by
        intro n n' x y; simp
      rw [this]; simp

theorem eqInit_eq (l m : List Ty) : eqInit l m = eqL l.dropLast m := by
  induction l generalizing m with
  | nil => cases m <;> rfl
  | cons a l ih =>
    cases l with
    | nil => cases m <;> rfl
    | cons b l => cases m <;> simp [eqInit, eqL, ih]

theorem eqLast_eq (l : List Ty) (m : Ty) : eqLast l m = eqM (l.getLast?.getD (.dshape [])) false m := by
  induction l with
  | nil => cases m <;> simp [eqLast, eqM, eqL]; rename_i ps; cases ps <;> simp
  | cons a l ih =>
    cases l with
    | nil => simp [eqLast]
    | cons b l => rw [eqLast, ih]; simp

theorem eqShape_eq (t : Ty) (m : List Ty) : eqShape t m = eqL t.shape m := by
  induction t using Ty.ind generalizing m with
  | dshape ps _ => simp [eqShape, Ty.shape, eqInit_eq]
  | option t ih => simp [eqShape, Ty.shape, ih]
  | _ => cases m <;> rfl
end

theorem ok_shape {b : Ty} (h : b.everywhere eqLocal = true) : ∀ s ∈ b.shape, s.everywhere eqLocal = true := by
  induction b using Ty.ind with
  | dshape ps _ =>
    intro s hs
    exact everywhere_child h (by simpa [Ty.children] using List.dropLast_subset _ hs)
  | option t ih =>
    intro s hs
    exact ih (everywhere_child h (by simp [Ty.children])) s hs
  | _ => intro s hs; simp [Ty.shape] at hs

theorem ok_measure {b : Ty} (h : b.everywhere eqLocal = true) : b.measure.everywhere eqLocal = true := by
  cases b with
  | dshape ps =>
    have h0 := everywhere_self h
    simp only [Ty.measure]
    cases hl : ps.getLast? with
    | none => simp [eqLocal, hl] at h0
    | some x => exact everywhere_child h (by simpa [Ty.children] using List.mem_of_getLast? hl)
  | _ => exact h

theorem measure_ne_fixed {b : Ty} (h : eqLocal b = true) (n : Nat) (hb : b.measure = .fixed n) :
    b = .fixed n := by
  cases b with
  | dshape ps =>
    simp only [Ty.measure] at hb
    cases hl : ps.getLast? with
    | none => simp [eqLocal, hl] at h
    | some x => rw [hl] at hb; simp at hb; subst hb; simp [eqLocal, hl] at h
  | _ => exact hb

theorem own_iff {a b : Ty} (ha : eqLocal a = true) (hb : eqLocal b = true) :
    (fh a).own = (fh b).own ↔ (fh a).shape = (fh b).shape ∧ (fh a).meas = (fh b).meas := by
  rw [hash_own _ _ ha, hash_own _ _ hb]; simp

/-- The three facts proved together by induction on the left operand. -/
def EqOk (a : Ty) : Prop := ∀ b, b.everywhere eqLocal = true →
    (eqM a true b = true ↔ (fh a).own = (fh b).own) ∧
    (eqM a false b = true ↔ (fh a).info = (fh b).info)

/-- For the classes with empty shape it is enough to treat `info()`. -/
theorem EqOk.scalar {a : Ty} (hok : a.everywhere eqLocal = true) (h : a.shape = []) (hm : a.measure = a)
    (h1 : ∀ n, a ≠ .fixed n) (h2 : ∀ o n, a ≠ .typeset o n) (h3 : a.isOption = false)
    (hi : ∀ b, b.everywhere eqLocal = true → (eqM a false b = true ↔ (fh a).info = (fh b).info)) :
    EqOk a := by
  intro b hb
  refine ⟨?_, hi b hb⟩
  rw [own_iff (everywhere_self hok) (everywhere_self hb), eqM_full_scalar h hm h1 h2 h3, hash_shape,
    hash_shape, hash_meas, hash_meas, h, hm, Bool.and_eq_true, hi _ (ok_measure hb)]
  cases b.shape <;> simp

theorem fixed_info (n : Nat) (b : Ty) : eqM (.fixed n) false b = true ↔ (fh (.fixed n)).info = (fh b).info := by
  cases b <;> simp [eqM, hashT, HT.scalar, HT.mk', info_inj]
  case fixed m => omega

theorem fixed_ok (n : Nat) : EqOk (.fixed n) := by
  intro b hb
  refine ⟨?_, fixed_info n b⟩
  have : eqM (.fixed n) true b = eqM (.fixed n) false b := by simp [eqM]
  rw [this, own_iff rfl (everywhere_self hb), hash_meas, hash_meas, hash_shape, hash_shape]
  have uniq : ∀ b, eqM (.fixed n) false b = true → b = .fixed n := by
    intro b; cases b <;> simp [eqM]
    intro h; exact h.symm
  constructor
  · intro h
    rw [uniq b h]; simp [Ty.shape, Ty.measure]
  · rintro ⟨_, h⟩
    have := uniq _ ((fixed_info n b.measure).2 h)
    rw [measure_ne_fixed (everywhere_self hb) n this]
    simp [eqM]

theorem EqOk.shapes {a : Ty} (h : ∀ s ∈ a.shape, EqOk s) {b : Ty} (hb : b.everywhere eqLocal = true) :
    eqL a.shape b.shape = true ↔ (fh a).shape = (fh b).shape := by
  rw [hash_shape, hash_shape]
  exact eqL_iff (fun s hs b' hb' => (h s hs b' hb').1) _ (ok_shape hb)

theorem eqOk_all (a : Ty) (ha : a.everywhere eqLocal = true) : EqOk a ∧ ∀ s ∈ a.shape, EqOk s := by
  induction a using Ty.ind with
  | typeset => have := everywhere_self ha; simp [eqLocal] at this
  | fixed n => exact ⟨fixed_ok n, by simp [Ty.shape]⟩
  | option t ih =>
    have iht := ih (everywhere_child ha (by simp [Ty.children]))
    refine ⟨?_, by simpa [Ty.shape] using iht.2⟩
    have key : ∀ b, b.everywhere eqLocal = true →
        (eqM (.option t) false b = true ↔ (fh (.option t)).info = (fh b).info) := by
      intro b hb
      cases b <;> simp [eqM, hashT, HT.scalar, HT.mk', info_inj]
      case option t' => exact (iht.1 t' (everywhere_child hb (by simp [Ty.children]))).1
    intro b hb
    refine ⟨?_, key b hb⟩
    have e : eqM (.option t) true b = (eqL (Ty.option t).shape b.shape && eqM (.option t) false b.measure) := by
      simp only [eqM, eqShape_eq, Ty.shape]
    rw [e, own_iff rfl (everywhere_self hb), Bool.and_eq_true, key _ (ok_measure hb),
      EqOk.shapes (by simpa [Ty.shape] using iht.2) hb, hash_meas, hash_meas]
    rfl
  | dshape ps ih =>
    have ih' : ∀ t ∈ ps, EqOk t := fun t ht =>
      (ih t ht (everywhere_child ha (by simpa [Ty.children] using ht))).1
    have hsh : ∀ s ∈ (Ty.dshape ps).shape, EqOk s := fun s hs => ih' s (List.dropLast_subset _ hs)
    refine ⟨?_, hsh⟩
    intro b hb
    constructor
    · have hm : EqOk (Ty.dshape ps).measure := by
        have h0 := everywhere_self ha
        simp only [Ty.measure]
        cases hl : ps.getLast? with
        | none => simp [eqLocal, hl] at h0
        | some x => exact ih' x (List.mem_of_getLast? hl)
      have e : eqM (.dshape ps) true b =
          (eqL (Ty.dshape ps).shape b.shape && eqM (Ty.dshape ps).measure false b.measure) := by
        simp only [eqM, eqInit_eq, eqLast_eq, Ty.shape, Ty.measure]
      rw [e, own_iff (everywhere_self ha) (everywhere_self hb), Bool.and_eq_true,
        (hm _ (ok_measure hb)).2, EqOk.shapes hsh hb, hash_meas, hash_meas]
    · cases b <;> simp [eqM, hashT, HT.scalar, HT.mk', info_inj]
      case dshape qs =>
        rw [hashL_eq, hashL_eq]
        exact eqL_iff (fun s hs b' hb' => (ih' s hs b' hb').1) _
          (fun b hb' => everywhere_child hb (by simpa [Ty.children] using hb'))
  | func ps ih =>
    refine ⟨EqOk.scalar ha rfl rfl (by simp) (by simp) rfl ?_, by simp [Ty.shape]⟩
    intro b hb
    cases b <;> simp [eqM, hashT, HT.scalar, HT.mk', info_inj, Ty.noShape, Ty.target]
    case func qs =>
      rw [hashL_eq, hashL_eq]
      exact eqL_iff (fun s hs b' hb' => ((ih s hs (everywhere_child ha (by simpa [Ty.children] using hs))).1
        b' hb').1) _ (fun b hb' => everywhere_child hb (by simpa [Ty.children] using hb'))
  | tuple ps ih =>
    refine ⟨EqOk.scalar ha rfl rfl (by simp) (by simp) rfl ?_, by simp [Ty.shape]⟩
    intro b hb
    cases b <;> simp [eqM, hashT, HT.scalar, HT.mk', info_inj, Ty.noShape, Ty.target]
    case tuple qs =>
      rw [hashL_eq, hashL_eq,
        eqL_iff (fun s hs b' hb' => ((ih s hs (everywhere_child ha (by simpa [Ty.children] using hs))).1
        b' hb').1) _ (fun b hb' => everywhere_child hb (by simpa [Ty.children] using hb'))]
  | record fs ih =>
    refine ⟨EqOk.scalar ha rfl rfl (by simp) (by simp) rfl ?_, by simp [Ty.shape]⟩
    intro b hb
    cases b <;> simp [eqM, hashT, HT.scalar, HT.mk', info_inj, Ty.noShape, Ty.target]
    case record gs =>
      rw [eqF_iff (fun f hf b' hb' => ((ih f hf (everywhere_child ha
        (by simp only [Ty.children, List.mem_map]; exact ⟨f, hf, rfl⟩))).1 b' hb').1) _
        (fun f hf => everywhere_child hb (by simp only [Ty.children, List.mem_map]; exact ⟨f, hf, rfl⟩))]
  | units u t ih =>
    refine ⟨EqOk.scalar ha rfl rfl (by simp) (by simp) rfl ?_, by simp [Ty.shape]⟩
    intro b hb
    cases b <;> simp [eqM, hashT, HT.scalar, HT.mk', info_inj, Ty.noShape, Ty.target]
    case units u' t' =>
      rw [((ih (everywhere_child ha (by simp [Ty.children]))).1 t'
        (everywhere_child hb (by simp [Ty.children]))).1]
      simp
  | map k v ihk ihv =>
    refine ⟨EqOk.scalar ha rfl rfl (by simp) (by simp) rfl ?_, by simp [Ty.shape]⟩
    intro b hb
    cases b <;> simp [eqM, hashT, HT.scalar, HT.mk', info_inj, Ty.noShape, Ty.target]
    case map k' v' =>
      rw [((ihk (everywhere_child ha (by simp [Ty.children]))).1 k'
        (everywhere_child hb (by simp [Ty.children]))).1, ((ihv (everywhere_child ha (by simp [Ty.children]))).1 v'
        (everywhere_child hb (by simp [Ty.children]))).1]
  | categorical c t o ih =>
    refine ⟨EqOk.scalar ha rfl rfl (by simp) (by simp) rfl ?_, by simp [Ty.shape]⟩
    intro b hb
    cases b <;> simp [eqM, hashT, HT.scalar, HT.mk', info_inj, Ty.noShape, Ty.target]
    case categorical c' t' o' =>
      rw [litsEq_iff, ((ih (everywhere_child ha (by simp [Ty.children]))).1 t'
        (everywhere_child hb (by simp [Ty.children]))).1]
      cases o <;> cases o' <;> simp [and_assoc]
  | _ =>
    refine ⟨EqOk.scalar ha rfl rfl (by simp) (by simp) rfl ?_, by simp [Ty.shape]⟩
    intro b hb
    cases b <;> simp [eqM, hashT, HT.scalar, HT.mk', info_inj, Ty.noShape, Ty.target] <;>
      first
      | done
      | (simp [and_assoc]; done)
      | (rw [and_assoc]; refine and_congr_right fun _ => ?_; omega)
      | omega

/-- `a == b` iff the collision-free hashes agree. -/
theorem pyEq_iff_free {a b : Ty} (ha : a.everywhere eqLocal = true) (hb : b.everywhere eqLocal = true) :
    pyEq a b = true ↔ pyHash freeHash a = pyHash freeHash b :=
  ((eqOk_all a ha).1 b hb).1

/-- The equation of the code (coretypes.py:87-91): `==` compares shapes element-wise with `==` and the
`info()` of the measures. `eqM x false y` unfolds to "same class and parameters equal". -/
theorem pyEq_code (a b : Ty) (h1 : ∀ n, a ≠ .fixed n) (h2 : ∀ o n, a ≠ .typeset o n) :
    pyEq a b = (eqL a.shape b.shape && eqM a.measure false b.measure) := by
  unfold pyEq
  cases a with
  | option t => simp only [eqM, eqShape_eq, Ty.shape, Ty.measure]
  | dshape ps => simp only [eqM, eqInit_eq, eqLast_eq, Ty.shape, Ty.measure]
  | fixed n => exact absurd rfl (h1 n)
  | typeset o n => exact absurd rfl (h2 o n)
  | _ => rw [eqM_full_scalar rfl rfl (by simp) (by simp) rfl]; cases b.shape <;> rfl

theorem pyEq_refl {a : Ty} (ha : a.everywhere eqLocal = true) : pyEq a a = true :=
  (pyEq_iff_free ha ha).2 rfl

theorem pyEq_symm {a b : Ty} (ha : a.everywhere eqLocal = true) (hb : b.everywhere eqLocal = true)
    (h : pyEq a b = true) : pyEq b a = true :=
  (pyEq_iff_free hb ha).2 ((pyEq_iff_free ha hb).1 h).symm

theorem pyEq_trans {a b c : Ty} (ha : a.everywhere eqLocal = true) (hb : b.everywhere eqLocal = true)
    (hc : c.everywhere eqLocal = true) (h : pyEq a b = true) (h' : pyEq b c = true) : pyEq a c = true :=
  (pyEq_iff_free ha hc).2 (((pyEq_iff_free ha hb).1 h).trans ((pyEq_iff_free hb hc).1 h'))

end DS
