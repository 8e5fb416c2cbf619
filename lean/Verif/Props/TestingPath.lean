import Verif.Props.ReprTypes
import Verif.Spec.Report
import Verif.Proofs.Same
import Verif.Props.Testing

/-
C51, C70: the message of `assert_dshape_equal` reports a difference, and the path in it leads there.
-/
namespace DS

/-- what the exception is without the path -/
def TErr.erase : TErr → PyErr
  | .differ _ _ => .assertion
  | .other e => e

/-- `x` is `y` up to the path in the message -/
def Erases (x : Except TErr Unit) (y : Except PyErr Unit) : Prop := x.mapError TErr.erase = y

theorem erases_assert (c : Bool) (r : Report) (path : List Step) : Erases (assertWith c r path) (pyAssert c) := by
  cases c <;> rfl

theorem Erases.seq {x y : Except TErr Unit} {x' y' : Except PyErr Unit} (h1 : Erases x x') (h2 : Erases y y') :
    Erases (do x; y) (do x'; y') := by
  subst h1; subst h2
  cases x <;> rfl

theorem Erases.ite {p : Prop} [Decidable p] {x y : Except TErr Unit} {x' y' : Except PyErr Unit} (h1 : Erases x x')
    (h2 : Erases y y') : Erases (if p then x else y) (if p then x' else y') := by
  split
  · exact h1
  · exact h2

theorem erases_dims (path : List Step) (as bs : List Ty) (n : Nat) (l m : List Ty) :
    Erases (checkDimsAt path as bs n l m) (checkDims l m) := by
  induction l generalizing n m with
  | nil => rfl
  | cons a l ih =>
    cases m with
    | nil => rfl
    | cons b m => exact (erases_assert _ _ _).seq (ih _ _)

/-- all values are pairwise equal -/
def allSame : List Param → List Param → Bool
  | v :: vs, w :: ws => v.same w && allSame vs ws
  | _, _ => true

theorem erases_loop (cls : Str) (path : List Step) (names : List Str) (vs ws : List Param) (h : names.length = vs.length) :
    Erases (slotLoop cls path names vs ws) (pyAssert (allSame vs ws)) := by
  induction names generalizing vs ws with
  | nil => cases vs <;> simp at h; rfl
  | cons n names ih =>
    cases vs with
    | nil => simp at h
    | cons v vs =>
      cases ws with
      | nil => rfl
      | cons w ws =>
        have e : pyAssert (allSame (v :: vs) (w :: ws)) = (do pyAssert (v.same w); pyAssert (allSame vs ws)) := by
          rw [allSame]; cases v.same w <;> rfl
        rw [e]
        exact (erases_assert _ _ _).seq (ih _ _ (by simpa using h))

theorem slotNames_length (a : Ty) (h : a.isSlotted = true) : a.slotNames.length = a.parameters.length := by
  cases a <;> first | rfl | (simp [Ty.isSlotted] at h) | skip
  rename_i s; cases s <;> rfl

theorem ofStr_same (a b : Option Str) : (Param.ofStr a).same (.ofStr b) = (a == b) := by
  cases a <;> cases b <;> simp [Param.ofStr, Param.same]

theorem ofInt_same (a b : Option Int) : (Param.ofInt a).same (.ofInt b) = (a == b) := by
  cases a <;> cases b <;> simp [Param.ofInt, Param.same]

theorem slots_same (a b : Ty) (h : a.isSlotted = true) (hb : a.ctorIdx = b.ctorIdx) :
    eqM a false b = allSame a.parameters b.parameters := by
  cases a with
  | ellipsis s =>
    cases b <;> simp [Ty.ctorIdx] at hb
    rename_i s'
    cases s <;> cases s' <;>
      simp [eqM, Ty.parameters, allSame, Param.same, Ty.noShape, Ty.target, pyEq, Ty.shape, Ty.measure]
  | ctype n i x =>
    cases b <;> simp [Ty.ctorIdx] at hb
    simp only [eqM, Ty.parameters, allSame, Param.same, Ty.noShape, Ty.target, Bool.not_false, Bool.true_or, Bool.true_and,
      Bool.and_true, Bool.false_eq_true, if_false, Bool.and_assoc]
    congr 1
    rw [Bool.eq_iff_iff]; simp; omega
  | fixed n =>
    cases b <;> simp [Ty.ctorIdx] at hb
    simp only [eqM, Ty.parameters, allSame, Param.same, Bool.and_true]
    rw [Bool.eq_iff_iff]; simp; omega
  | null => simp [Ty.isSlotted] at h
  | func => simp [Ty.isSlotted] at h
  | record => simp [Ty.isSlotted] at h
  | dshape => simp [Ty.isSlotted] at h
  | _ =>
    cases b <;> simp [Ty.ctorIdx] at hb <;>
      simp [eqM, Ty.parameters, allSame, Ty.noShape, Ty.target, ofStr_same, ofInt_same] <;>
      simp [Param.same, pyEq, Bool.and_assoc]

theorem erases_slots (path : List Step) (a b : Ty) : Erases (checkSlotsAt path a b) (checkSlots a b) := by
  unfold checkSlotsAt checkSlots
  split
  · rename_i h
    simp only [Bool.and_eq_true, beq_iff_eq] at h
    rw [slots_same a b h.1.1 h.2]
    exact erases_loop _ _ _ _ _ (slotNames_length a h.1.1)
  · exact erases_assert _ _ _

theorem erases_one (cls : Str) (path : List Step) (n : Str) (v w : Param) (c : Bool) (h : v.same w = c) :
    Erases (slotLoop cls path [n] [v] [w]) (pyAssert c) := by
  have := erases_loop cls path [n] [v] [w] rfl
  simpa [allSame, h] using this

theorem assertFAt_eq (fl : Flags) (fs : List (Str × Ty)) :
    assertFAt fl fs = fs.map fun f => (f.1, assertAt fl f.2) := by
  induction fs with
  | nil => simp [assertFAt]
  | cons f fs ih => obtain ⟨n, t⟩ := f; simp [assertFAt, ih]

theorem erases_fields (fl : Flags) (path : List Step) (k : Nat) (fs gs : List (Str × Ty))
    (h : ∀ f ∈ fs, ∀ path b, Erases (assertAt fl f.2 path b) (assertEq fl f.2 b)) :
    Erases (runFieldsAt path k (fs.map fun f => (f.1, assertAt fl f.2)) gs)
      (runFields (fs.map fun f => (f.1, assertEq fl f.2)) gs) := by
  induction fs generalizing gs k with
  | nil => rfl
  | cons f fs ih =>
    cases gs with
    | nil => rfl
    | cons g gs =>
      exact (erases_assert _ _ _).seq ((h f (by simp) _ _).seq (ih (k + 1) gs fun f hf => h f (by simp [hf])))

theorem assertLastAt_eq (fl : Flags) (ps : List Ty) (path : List Step) (m : Option Ty) : assertLastAt fl ps path m =
    (match ps.getLast?, m with
      | some p, some m => assertAt fl p path m
      | _, _ => .error (.other .indexError)) := by
  induction ps with
  | nil => simp [assertLastAt]
  | cons p r ih =>
    cases r with
    | nil => cases m <;> simp [assertLastAt]
    | cons q r =>
      rw [assertLastAt]
      simp only [ih]
      simp

theorem erases_items (fl : Flags) (path : List Step) (n : Nat) (l m : List Ty)
    (h : ∀ a ∈ l, ∀ path b, Erases (assertAt fl a path b) (assertEq fl a b)) :
    Erases (assertItemsAt fl l path n m) (assertL fl l m) ∧ Erases (assertArgsAt fl l path n m) (assertL fl l m) := by
  induction l generalizing n m with
  | nil => exact ⟨rfl, rfl⟩
  | cons a l ih =>
    cases m with
    | nil => exact ⟨rfl, rfl⟩
    | cons b m =>
      obtain ⟨h1, h2⟩ := ih (n + 1) m fun a ha => h a (by simp [ha])
      rw [assertItemsAt, assertArgsAt, assertL]
      exact ⟨(h a (by simp) _ _).seq h1, (h a (by simp) _ _).seq h2⟩

/-- **C51.** The model with paths and the model of C38 raise the same exceptions. -/
theorem C51.erase (fl : Flags) (a b : Ty) (path : List Step) :
    (assertAt fl a path b).mapError TErr.erase = assertEq fl a b := by
  show Erases _ _
  induction a using Ty.ind generalizing b path with
  | dshape ps ih =>
    cases b with
    | dshape qs =>
      rw [assertAt, assertEq]
      simp only
      have hl : Erases (assertLastAt fl ps (path ++ [.measure]) qs.getLast?) (assertLast fl ps qs.getLast?) := by
        rw [assertLastAt_eq, assertLast_eq]
        cases hp : ps.getLast? with
        | none => rfl
        | some p =>
          cases qs.getLast? with
          | none => rfl
          | some q => exact ih p (List.mem_of_getLast? hp) _ _
      exact Erases.ite ((erases_dims _ _ _ _ _ _).seq hl) hl
    | _ => simp only [assertAt, assertEq]; exact erases_assert _ _ _
  | datetime z =>
    cases b with
    | datetime z' =>
      rw [assertAt, assertEq]
      exact Erases.ite (erases_one _ _ _ _ _ _ (ofStr_same _ _)) rfl
    | _ => simp only [assertAt, assertEq]; exact erases_assert _ _ _
  | time z =>
    cases b with
    | time z' =>
      rw [assertAt, assertEq]
      exact Erases.ite (erases_one _ _ _ _ _ _ (ofStr_same _ _)) rfl
    | _ => simp only [assertAt, assertEq]; exact erases_assert _ _ _
  | timedelta u =>
    cases b with
    | timedelta u' =>
      rw [assertAt, assertEq]
      exact Erases.ite (erases_one _ _ _ _ _ _ rfl) rfl
    | _ => simp only [assertAt, assertEq]; exact erases_assert _ _ _
  | units u t =>
    cases b with
    | units u' t' =>
      rw [assertAt, assertEq]
      exact (erases_assert _ _ _).seq rfl
    | _ => simp only [assertAt, assertEq]; exact erases_assert _ _ _
  | string n e =>
    cases b with
    | string n' e' =>
      rw [assertAt, assertEq]
      have hl : Erases (if fl.strFixlen && n != n' then fixlenAt path n n' else .ok ())
          (if fl.strFixlen && n != n' then
            if n.isNone || n'.isNone then .error .typeError else .error .assertion
          else .ok ()) := by
        split
        · cases n <;> cases n' <;> rfl
        · rfl
      exact Erases.ite ((erases_assert _ _ _).seq hl) hl
    | _ => simp only [assertAt, assertEq]; exact erases_assert _ _ _
  | option t ih =>
    cases b with
    | option t' => rw [assertAt, assertEq]; exact ih _ _
    | _ => simp only [assertAt, assertEq]; exact erases_assert _ _ _
  | record fs ih =>
    cases b with
    | record gs =>
      rw [assertAt, assertEq]
      refine (erases_assert _ _ _).seq ?_
      simp only [assertFAt_eq, assertF_eq]
      refine Erases.ite (erases_fields fl path 0 fs gs fun f hf => ?_) ?_
      · exact fun path b => ih f hf b path
      · rw [sortFields_map, sortFields_map]
        exact erases_fields fl path 0 _ _ fun f hf path b => ih f ((sortFields_perm fs).mem_iff.1 hf) b path
    | _ => simp only [assertAt, assertEq]; exact erases_assert _ _ _
  | tuple ts ih =>
    cases b with
    | tuple us =>
      rw [assertAt, assertEq]
      exact (erases_assert _ _ _).seq (erases_items fl path 0 ts us fun a ha path b => ih a ha b path).1
    | _ => simp only [assertAt, assertEq]; exact erases_assert _ _ _
  | func ts ih =>
    cases b with
    | func us =>
      rw [assertAt, assertEq]
      exact (erases_assert _ _ _).seq (erases_items fl path 0 ts us fun a ha path b => ih a ha b path).2
    | _ => simp only [assertAt, assertEq]; exact erases_assert _ _ _
  | _ => simp only [assertAt, assertEq]; exact erases_slots _ _ _

/-! ### The path leads to a difference -/

/-- what the report `r` and the path `q` say, for a comparison of `a` and `b` that was called with the path `path` -/
def Found (o : Bool) (path : List Step) (r : Report) (q : List Step) (a b : Ty) : Prop :=
  (∃ p, q = path ++ p ∧ Reports o a b r p) ∨
  (q = [] ∧ ∃ p x y, r = .values x y ∧ Leads p a (.ty x) ∧ Leads p b (.ty y) ∧ TimeClash x y)

variable {o : Bool} {r : Report}

theorem Reports.step {q : List Step} {a b a' b' : Ty} {s : Step} (h : Reports o a' b' r q)
    (ha : ∀ r v, Leads r a' v → Leads (s :: r) a v) (hb : ∀ r v, Leads r b' v → Leads (s :: r) b v) :
    Reports o a b r (s :: q) := by
  cases h with
  | dims h1 h2 h3 h4 h5 h6 => exact .dims (ha _ _ h1) (hb _ _ h2) h3 h4 h5 h6
  | slot h1 h2 h3 h4 h5 h6 => exact .slot (ha _ _ h1) (hb _ _ h2) h3 h4 h5 h6
  | values h1 h2 h3 => exact .values (ha _ _ h1) (hb _ _ h2) h3
  | units h1 h2 h3 => exact .units (ha _ _ h1) (hb _ _ h2) h3
  | encoding h1 h2 h3 => exact .encoding (ha _ _ h1) (hb _ _ h2) h3
  | fixlen h1 h2 h3 => exact .fixlen (ha _ _ h1) (hb _ _ h2) h3
  | fieldCount h1 h2 h3 => exact .fieldCount (ha _ _ h1) (hb _ _ h2) h3
  | fieldName h1 h2 h3 h4 h5 h6 h7 h8 => exact .fieldName (ha _ _ h1) (hb _ _ h2) h3 h4 h5 h6 h7 h8
  | tupleCount h1 h2 h3 => exact .tupleCount (ha _ _ h1) (hb _ _ h2) h3
  | arity h1 h2 h3 => exact .arity (ha _ _ h1) (hb _ _ h2) h3

theorem Found.step {path q : List Step} {a b a' b' : Ty} {s : Step} (h : Found o (path ++ [s]) r q a' b')
    (ha : ∀ r v, Leads r a' v → Leads (s :: r) a v) (hb : ∀ r v, Leads r b' v → Leads (s :: r) b v) : Found o path r q a b := by
  rcases h with ⟨p, rfl, h⟩ | ⟨rfl, p, x, y, e, h1, h2, h3⟩
  · exact .inl ⟨s :: p, by simp, h.step ha hb⟩
  · exact .inr ⟨rfl, s :: p, x, y, e, ha _ _ h1, hb _ _ h2, h3⟩

theorem Found.here {path : List Step} {a b : Ty} (h : Reports o a b r []) : Found o path r path a b :=
  .inl ⟨[], by simp, h⟩

theorem assertWith_error {c : Bool} {r' : Report} {path q : List Step} (h : assertWith c r' path = .error (.differ r q)) :
    c = false ∧ r = r' ∧ q = path := by
  cases c
  · injection h with h; injection h with h h'; exact ⟨rfl, h.symm, h'.symm⟩
  · cases h

theorem Found.base {path q : List Step} {a b : Ty} (h : baseAt path a b = .error (.differ r q)) : Found o path r q a b := by
  obtain ⟨hx, rfl, rfl⟩ := assertWith_error h
  exact .here (.values (.here a) (.here b) hx)

theorem seq_error {x y : Except TErr Unit} {e : TErr} (h : (do x; y) = .error e) : x = .error e ∨ (x = .ok () ∧ y = .error e) := by
  cases x with
  | error e' => exact .inl h
  | ok u => exact .inr ⟨rfl, h⟩

theorem SameValue.same {v w : Param} (h : SameValue v w) : v.same w = true := by
  cases h with
  | none => rfl
  | int i => simp [Param.same]
  | str s => simp [Param.same]
  | bool b => simp [Param.same]
  | ty h => exact h
  | tys h1 h2 => exact (eqL_zip _ _).2 ⟨h1, h2⟩
  | lits h1 h2 => exact (litsEq_zip _ _).2 ⟨h1, h2⟩

/-- the loop over slots stops at a slot whose values differ -/
theorem slotLoop_error {cls : Str} {path q : List Step} {names : List Str} {vs ws : List Param}
    (h : slotLoop cls path names vs ws = .error (.differ r q)) :
    ∃ (i : Nat) (s : Str) (v w : Param), names[i]? = some s ∧ vs[i]? = some v ∧ ws[i]? = some w ∧ v.same w = false ∧
      r = .slot cls s v w ∧ q = path ++ [.slot s] := by
  induction names generalizing vs ws with
  | nil => cases h
  | cons n names ih =>
    cases vs with
    | nil => cases h
    | cons v vs =>
      cases ws with
      | nil => cases h
      | cons w ws =>
        rcases seq_error h with h | ⟨_, h⟩
        · obtain ⟨h1, h2, h3⟩ := assertWith_error h
          exact ⟨0, n, v, w, rfl, rfl, rfl, h1, h2, h3⟩
        · obtain ⟨i, s, v', w', h1, h2, h3, h4, h5⟩ := ih h
          exact ⟨i + 1, s, v', w', h1, h2, h3, h4, h5⟩

/-- the slots of a class are its attributes -/
theorem attr_of {t : Ty} {i : Nat} {s : Str} {v : Param} (hs : t.slotNames[i]? = some s) (hv : t.parameters[i]? = some v)
    (ho : ∀ u, t ≠ .option u) (ht : ∀ l, t ≠ .tuple l) : Attr t s v := by
  cases t with
  | option u => exact absurd rfl (ho u)
  | tuple l => exact absurd rfl (ht l)
  | ctype n a b =>
    rcases i with _ | _ | _ | i <;> simp [Ty.slotNames, Ty.parameters] at hs hv <;> subst hs <;> subst hv <;> constructor
  | time z =>
    rcases i with _ | i <;> simp [Ty.slotNames, Ty.parameters] at hs hv
    subst hs hv; cases z <;> constructor
  | datetime z =>
    rcases i with _ | i <;> simp [Ty.slotNames, Ty.parameters] at hs hv
    subst hs hv; cases z <;> constructor
  | timedelta u =>
    rcases i with _ | i <;> simp [Ty.slotNames, Ty.parameters] at hs hv
    subst hs hv; constructor
  | units u t =>
    rcases i with _ | _ | i <;> simp [Ty.slotNames, Ty.parameters] at hs hv <;> subst hs <;> subst hv <;> constructor
  | string n e =>
    rcases i with _ | _ | i <;> simp [Ty.slotNames, Ty.parameters] at hs hv <;> subst hs <;> subst hv
    · cases n <;> constructor
    · constructor
  | decimal p s =>
    rcases i with _ | _ | i <;> simp [Ty.slotNames, Ty.parameters] at hs hv <;> subst hs <;> subst hv <;> constructor
  | fixed n =>
    rcases i with _ | i <;> simp [Ty.slotNames, Ty.parameters] at hs hv
    subst hs hv; constructor
  | typevar u =>
    rcases i with _ | i <;> simp [Ty.slotNames, Ty.parameters] at hs hv
    subst hs hv; constructor
  | ellipsis u =>
    cases u <;> rcases i with _ | i <;> simp [Ty.slotNames, Ty.parameters] at hs hv
    · subst hs hv; constructor
    · subst hs hv; constructor
  | map k v =>
    rcases i with _ | _ | i <;> simp [Ty.slotNames, Ty.parameters] at hs hv <;> subst hs <;> subst hv <;> constructor
  | categorical c t o =>
    rcases i with _ | _ | _ | i <;> simp [Ty.slotNames, Ty.parameters] at hs hv <;> subst hs <;> subst hv <;> constructor
  | typeset o n =>
    rcases i with _ | _ | i <;> simp [Ty.slotNames, Ty.parameters] at hs hv <;> subst hs <;> subst hv
    · constructor
    · cases n <;> constructor
  | _ => simp [Ty.slotNames] at hs

theorem ctor_slotNames {a b : Ty} (h : a.ctorIdx = b.ctorIdx) : a.slotNames = b.slotNames := by
  cases a <;> cases b <;> first | rfl | (simp [Ty.ctorIdx] at h)

theorem lowerName_eq (t : Ty) : t.lowerName = t.klass.name.map lowerAscii := by cases t <;> rfl

theorem klass_of_ctorIdx {a b : Ty} (h : a.ctorIdx = b.ctorIdx) : a.klass = b.klass := by
  cases a <;> cases b <;> first | rfl | (simp [Ty.ctorIdx] at h)

theorem Found.slots {path q : List Step} {a b : Ty} (h : checkSlotsAt path a b = .error (.differ r q))
    (ho : ∀ u, a ≠ .option u) (ht : ∀ l, a ≠ .tuple l) : Found o path r q a b := by
  unfold checkSlotsAt at h
  split at h
  · rename_i hc
    simp only [Bool.and_eq_true, beq_iff_eq] at hc
    obtain ⟨i, s, v, w, h1, h2, h3, h4, rfl, rfl⟩ := slotLoop_error h
    refine .inl ⟨_, rfl, ?_⟩
    rw [lowerName_eq]
    refine Reports.slot (p := []) (.here a) (.here b) (klass_of_ctorIdx hc.2) (attr_of h1 h2 ho ht)
      (attr_of (ctor_slotNames hc.2 ▸ h1) h3 ?_ ?_) ?_
    · rintro u rfl; cases a <;> simp [Ty.ctorIdx] at hc; exact ho _ rfl
    · rintro u rfl; cases a <;> simp [Ty.ctorIdx] at hc; exact ht _ rfl
    · intro hs; rw [hs.same] at h4; cases h4
  · exact .base h

theorem Found.one {cls : Str} {path q : List Step} {a b : Ty} {n : Str} {v w : Param}
    (h : slotLoop cls path [n] [v] [w] = .error (.differ r q)) (hc : cls = a.klass.name.map lowerAscii)
    (hk : a.klass = b.klass) (ha : Attr a n v) (hb : Attr b n w) : Found o path r q a b := by
  rcases seq_error h with h | ⟨_, h⟩
  · obtain ⟨h1, rfl, rfl⟩ := assertWith_error h
    subst hc
    exact .inl ⟨_, rfl, .slot (p := []) (.here a) (.here b) hk ha hb fun hs => by rw [hs.same] at h1; cases h1⟩
  · cases h

theorem tz_time (z : Option Str) : Attr (.time z) (py"tz") (.ofStr z) := by cases z <;> constructor
theorem tz_datetime (z : Option Str) : Attr (.datetime z) (py"tz") (.ofStr z) := by cases z <;> constructor

theorem dims_error {path q : List Step} {as bs l m : List Ty} {k : Nat}
    (h : checkDimsAt path as bs k l m = .error (.differ r q)) :
    ∃ (i : Nat) (a b : Ty), l[i]? = some a ∧ m[i]? = some b ∧ pyEq a b = false ∧
      (∀ (j : Nat) x y, j < i → l[j]? = some x → m[j]? = some y → pyEq x y = true) ∧
      r = .dims a b as bs ∧ q = path ++ [.shape (k + i)] := by
  induction l generalizing m k with
  | nil => cases h
  | cons a l ih =>
    cases m with
    | nil => cases h
    | cons b m =>
      rcases seq_error h with h | ⟨h0, h⟩
      · obtain ⟨h1, h2, h3⟩ := assertWith_error h
        exact ⟨0, a, b, rfl, rfl, h1, fun j _ _ hj => absurd hj (Nat.not_lt_zero _), h2, h3⟩
      · obtain ⟨i, a', b', h1, h2, h3, hj, h4, h5⟩ := ih h
        refine ⟨i + 1, a', b', h1, h2, h3, ?_, h4, by rw [h5]; congr 3; omega⟩
        intro j x y hji hx hy
        cases j with
        | zero =>
          injection hx with hx; injection hy with hy
          subst hx hy
          cases he : pyEq a b with
          | true => rfl
          | false => rw [he] at h0; cases h0
        | succ j => exact hj j x y (by omega) hx hy

theorem items_error {fl : Flags} {path q : List Step} {l m : List Ty} {k : Nat}
    (h : assertItemsAt fl l path k m = .error (.differ r q)) :
    ∃ (i : Nat) (a b : Ty), l[i]? = some a ∧ m[i]? = some b ∧ assertAt fl a (path ++ [.dshapes (k + i)]) b = .error (.differ r q) := by
  induction l generalizing m k with
  | nil => cases h
  | cons a l ih =>
    cases m with
    | nil => cases h
    | cons b m =>
      rw [assertItemsAt] at h
      rcases seq_error h with h | ⟨_, h⟩
      · exact ⟨0, a, b, rfl, rfl, h⟩
      · obtain ⟨i, a', b', h1, h2, h3⟩ := ih h
        exact ⟨i + 1, a', b', h1, h2, by rw [show k + (i + 1) = k + 1 + i by omega]; exact h3⟩

theorem args_error {fl : Flags} {path q : List Step} {l m : List Ty} {k : Nat} (hl : l.length = m.length)
    (h : assertArgsAt fl l path k m = .error (.differ r q)) :
    (∃ (i : Nat) (a b : Ty), l.dropLast[i]? = some a ∧ m.dropLast[i]? = some b ∧
      assertAt fl a (path ++ [.argtypes (k + i)]) b = .error (.differ r q)) ∨
    ∃ a b, l.getLast? = some a ∧ m.getLast? = some b ∧ assertAt fl a (path ++ [.restype]) b = .error (.differ r q) := by
  induction l generalizing m k with
  | nil => cases h
  | cons a l ih =>
    cases m with
    | nil => cases h
    | cons b m =>
      rw [assertArgsAt] at h
      cases l with
      | nil =>
        cases m with
        | cons => simp at hl
        | nil =>
          rcases seq_error h with h | ⟨_, h⟩
          · exact .inr ⟨a, b, rfl, rfl, h⟩
          · cases h
      | cons a' l =>
        cases m with
        | nil => simp at hl
        | cons b' m =>
          rcases seq_error h with h | ⟨_, h⟩
          · exact .inl ⟨0, a, b, rfl, rfl, h⟩
          · rcases ih (by simpa using hl) h with ⟨i, x, y, h1, h2, h3⟩ | ⟨x, y, h1, h2, h3⟩
            · exact .inl ⟨i + 1, x, y, h1, h2, by rw [show k + (i + 1) = k + 1 + i by omega]; exact h3⟩
            · exact .inr ⟨x, y, by simpa using h1, by simpa using h2, h3⟩

theorem fields_error {fl : Flags} {path q : List Step} {k : Nat} {fs gs : List (Str × Ty)} (hl : fs.length = gs.length)
    (h : runFieldsAt path k (fs.map fun f => (f.1, assertAt fl f.2)) gs = .error (.differ r q)) :
    (∃ (n : Nat) (x y : Str), q = path ∧ r = .fieldName (k + n) x y ∧ (fs.map (·.1))[n]? = some x ∧
      (gs.map (·.1))[n]? = some y ∧ x ≠ y ∧ (fs.map (·.1)).take n = (gs.map (·.1)).take n) ∨
    ∃ n t u, (n, t) ∈ fs ∧ (n, u) ∈ gs ∧ assertAt fl t (path ++ [.field n]) u = .error (.differ r q) := by
  induction fs generalizing gs k with
  | nil => cases h
  | cons f fs ih =>
    obtain ⟨n, t⟩ := f
    cases gs with
    | nil => cases h
    | cons g gs =>
      obtain ⟨m, u⟩ := g
      have h0 : (do assertWith (n == m) (.fieldName k n m) path; (do assertAt fl t (path ++ [Step.field n]) u; runFieldsAt path (k + 1) (fs.map fun f : Str × Ty => (f.1, assertAt fl f.2)) gs) : Except TErr Unit) = .error (.differ r q) := h
      clear h
      rcases seq_error h0 with h | ⟨hm, h1⟩
      · obtain ⟨h1, h2, h3⟩ := assertWith_error h
        exact .inl ⟨0, n, m, h3, h2, rfl, rfl, by simpa using h1, rfl⟩
      · have hm : n = m := by
          cases hb : n == m with
          | false => rw [hb] at hm; cases hm
          | true => simpa using hb
        subst hm
        rcases seq_error h1 with h2 | ⟨_, h2⟩
        · exact .inr ⟨n, t, u, by simp, by simp, h2⟩
        · rcases ih (by simpa using hl) h2 with ⟨i, x, y, h1, h2, h3, h4, h5, h6⟩ | ⟨n', t', u', h1, h2, h3⟩
          · exact .inl ⟨i + 1, x, y, h1, by rw [h2]; congr 1; omega, h3, h4, h5, by simp [h6]⟩
          · exact .inr ⟨n', t', u', by simp [h1], by simp [h2], h3⟩

theorem FieldsRel.names {α β : Type} {R : α → β → Prop} {l : List (Str × α)} {m : List (Str × β)} (h : FieldsRel R l m) :
    l.map (·.1) = m.map (·.1) := by
  induction h with
  | nil => rfl
  | cons _ _ ih => simp [ih]

theorem record_eq {fs gs : List (Str × Ty)} (h : pyEq (.record fs) (.record gs) = true) :
    FieldsRel (fun a b => pyEq a b = true) fs gs := by
  rw [← eqF_rel]
  simpa [pyEq, eqM, Ty.noShape, Ty.shape, Ty.target, Ty.measure] using h

theorem snoc_of {l : List Ty} {a : Ty} (h : l.getLast? = some a) : l = l.dropLast ++ [a] := by
  have hne : l ≠ [] := by rintro rfl; cases h
  have := (List.dropLast_concat_getLast hne).symm
  rw [List.getLast?_eq_getLast hne] at h
  injection h with h
  rwa [h] at this

theorem insertField_le {α : Type} (x : Str × α) (l : List (Str × α)) (h : l.Pairwise fun a b => a.1 ≤ b.1) :
    (insertField x l).Pairwise fun a b => a.1 ≤ b.1 := by
  induction l with
  | nil => simp [insertField]
  | cons z l ih =>
    rw [insertField]
    split
    · rename_i hle
      have hle : x.1 ≤ z.1 := (strLe_iff x.1 z.1).1 hle
      refine .cons ?_ h
      intro y hy
      rcases List.mem_cons.1 hy with rfl | hy
      · exact hle
      · exact List.le_trans hle ((List.pairwise_cons.1 h).1 y hy)
    · rename_i hle
      have hle : z.1 ≤ x.1 := by
        rcases List.le_total z.1 x.1 with h | h
        · exact h
        · exact absurd ((strLe_iff _ _).2 h) hle
      refine .cons ?_ (ih (List.pairwise_cons.1 h).2)
      intro y hy
      rcases List.mem_cons.1 ((insertField_perm x l).subset hy) with rfl | hy
      · exact hle
      · exact (List.pairwise_cons.1 h).1 y hy

theorem namesOf_sorted (fs : List (Str × Ty)) : NamesOf false fs ((sortFields fs).map (·.1)) := by
  refine ⟨(sortFields_perm fs).map _, List.pairwise_map.2 ?_⟩
  induction fs with
  | nil => exact .nil
  | cons f fs ih => exact insertField_le f _ ih

theorem NamesOf.unique {o : Bool} {fs gs : List (Str × Ty)} {l m : List Str} (h : fs.map (·.1) = gs.map (·.1))
    (h1 : NamesOf o fs l) (h2 : NamesOf o gs m) : l = m := by
  cases o with
  | true =>
    simp only [NamesOf, if_true] at h1 h2
    rw [h1, h2, h]
  | false =>
    obtain ⟨p1, s1⟩ := h1
    obtain ⟨p2, s2⟩ := h2
    exact List.Perm.eq_of_pairwise (fun a b _ _ h1 h2 => List.le_antisymm h1 h2) s1 s2 (p1.trans (h ▸ p2.symm))

theorem Found.main (fl : Flags) (a b : Ty) (path q : List Step) (h : assertAt fl a path b = .error (.differ r q)) :
    Found fl.recordOrder path r q a b := by
  induction a using Ty.ind generalizing b path with
  | dshape ps ih =>
    cases b with
    | dshape qs =>
      have h : (do (if fl.dim then checkDimsAt path ps.dropLast qs.dropLast 0 ps.dropLast qs.dropLast else pure ())
                   assertLastAt fl ps (path ++ [Step.measure]) qs.getLast? : Except TErr Unit) = .error (.differ r q) := by
        rw [assertAt] at h
        simp only at h
        revert h
        cases fl.dim <;> exact id
      have hm : ∀ (h : assertLastAt fl ps (path ++ [.measure]) qs.getLast? = .error (.differ r q)),
          Found fl.recordOrder path r q (.dshape ps) (.dshape qs) := by
        intro h
        rw [assertLastAt_eq] at h
        cases hp : ps.getLast? with
        | none => rw [hp] at h; simp at h
        | some p =>
          cases hq : qs.getLast? with
          | none => rw [hp, hq] at h; simp at h
          | some q' =>
            rw [hp, hq] at h
            rw [snoc_of hp, snoc_of hq]
            exact (ih p (List.mem_of_getLast? hp) _ _ h).step (fun r v => .measure) (fun r v => .measure)
      rcases seq_error h with h | ⟨_, h⟩
      · cases hd : fl.dim
        · rw [hd] at h; cases h
        · rw [hd] at h
          simp only [if_true] at h
          obtain ⟨i, x, y, h1, h2, h3, hj, rfl, rfl⟩ := dims_error h
          have hps : ∃ m, ps = ps.dropLast ++ [m] := by
            cases hp : ps.getLast? with
            | none => rw [List.getLast?_eq_none_iff.1 hp] at h1; simp at h1
            | some m => exact ⟨m, snoc_of hp⟩
          have hqs : ∃ m, qs = qs.dropLast ++ [m] := by
            cases hp : qs.getLast? with
            | none => rw [List.getLast?_eq_none_iff.1 hp] at h2; simp at h2
            | some m => exact ⟨m, snoc_of hp⟩
          obtain ⟨m, em⟩ := hps
          obtain ⟨m', em'⟩ := hqs
          refine .inl ⟨_, rfl, ?_⟩
          rw [Nat.zero_add]
          exact .dims (p := []) (m := m) (m' := m') (by rw [← em]; exact .here _) (by rw [← em']; exact .here _) h1 h2 h3 hj
      · exact hm h
    | _ => simp only [assertAt] at h; exact .base h
  | datetime z =>
    cases b with
    | datetime z' =>
      rw [assertAt] at h
      cases hf : fl.tz
      · rw [hf] at h; cases h
      · rw [hf] at h; exact .one h rfl rfl (tz_datetime _) (tz_datetime _)
    | time z' =>
      simp only [assertAt] at h
      obtain ⟨_, rfl, rfl⟩ := assertWith_error h
      exact .inr ⟨rfl, [], _, _, rfl, .here _, .here _, .right _ _⟩
    | _ => simp only [assertAt] at h; exact .base h
  | time z =>
    cases b with
    | time z' =>
      rw [assertAt] at h
      cases hf : fl.tz
      · rw [hf] at h; cases h
      · rw [hf] at h; exact .one h rfl rfl (tz_time _) (tz_time _)
    | datetime z' =>
      simp only [assertAt] at h
      obtain ⟨_, rfl, rfl⟩ := assertWith_error h
      exact .inr ⟨rfl, [], _, _, rfl, .here _, .here _, .left _ _⟩
    | _ => simp only [assertAt] at h; exact .base h
  | timedelta u =>
    cases b with
    | timedelta u' =>
      rw [assertAt] at h
      cases hf : fl.timedeltaUnit
      · rw [hf] at h; cases h
      · rw [hf] at h; exact .one h rfl rfl (.deltaUnit _) (.deltaUnit _)
    | _ => simp only [assertAt] at h; exact .base h
  | units u t =>
    cases b with
    | units u' t' =>
      rw [assertAt] at h
      rcases seq_error h with h | ⟨_, h⟩
      · obtain ⟨hx, rfl, rfl⟩ := assertWith_error h
        exact .inl ⟨_, rfl, .units (p := []) (.here _) (.here _) (by simpa using hx)⟩
      · cases h
    | _ => simp only [assertAt] at h; exact .base h
  | string n e =>
    cases b with
    | string n' e' =>
      have h : (do (if fl.strEncoding then assertWith (e == e') (.encoding e e') (path ++ [Step.slot (py"encoding")]) else pure ())
                   (if fl.strFixlen && n != n' then fixlenAt path n n' else .ok ()) : Except TErr Unit) = .error (.differ r q) := by
        rw [assertAt] at h
        simp only at h
        revert h
        cases fl.strEncoding <;> exact id
      rcases seq_error h with h | ⟨_, h⟩
      · cases hf : fl.strEncoding
        · rw [hf] at h; cases h
        · rw [hf] at h
          obtain ⟨hx, rfl, rfl⟩ := assertWith_error h
          exact .inl ⟨_, rfl, .encoding (p := []) (.here _) (.here _) (by simpa using hx)⟩
      · split at h
        · rename_i hc
          cases n with
          | none => cases h
          | some n =>
            cases n' with
            | none => cases h
            | some n' =>
              injection h with h; injection h with h h'; subst h h'
              exact .inl ⟨_, rfl, .fixlen (p := []) (.here _) (.here _) (by simp at hc; exact hc.2)⟩
        · cases h
    | _ => simp only [assertAt] at h; exact .base h
  | option t ih =>
    cases b with
    | option t' =>
      rw [assertAt] at h
      exact (ih _ _ h).step (fun r v => .ty) (fun r v => .ty)
    | _ => simp only [assertAt] at h; exact .base h
  | record fs ih =>
    cases b with
    | record gs =>
      rw [assertAt] at h
      rcases seq_error h with h | ⟨hl, h⟩
      · obtain ⟨hx, rfl, rfl⟩ := assertWith_error h
        exact .here (.fieldCount (.here _) (.here _) (by simpa using hx))
      · have hl : fs.length = gs.length := by
          cases hb : fs.length == gs.length with
          | false => rw [hb] at hl; cases hl
          | true => simpa using hb
        simp only [assertFAt_eq] at h
        cases hr : fl.recordOrder
        · rw [← hr]
          rw [hr] at h
          simp only [Bool.false_eq_true, if_false, sortFields_map] at h
          rcases fields_error (by rw [(sortFields_perm fs).length_eq, (sortFields_perm gs).length_eq, hl]) h with
            ⟨n, x, y, rfl, rfl, h1, h2, h3, h4⟩ | ⟨n, t, u, h1, h2, h3⟩
          · rw [Nat.zero_add]
            exact .here (.fieldName (.here _) (.here _) (hr ▸ namesOf_sorted fs) (hr ▸ namesOf_sorted gs) h1 h2 h3 h4)
          · have h1 := (sortFields_perm fs).mem_iff.1 h1
            have h2 := (sortFields_perm gs).mem_iff.1 h2
            exact (ih (n, t) h1 _ _ h3).step (fun r v => .field h1) (fun r v => .field h2)
        · rw [← hr]
          rw [hr] at h
          simp only [if_true] at h
          rcases fields_error hl h with ⟨n, x, y, rfl, rfl, h1, h2, h3, h4⟩ | ⟨n, t, u, h1, h2, h3⟩
          · rw [Nat.zero_add]
            exact .here (.fieldName (.here _) (.here _) (hr ▸ rfl) (hr ▸ rfl) h1 h2 h3 h4)
          · exact (ih (n, t) h1 _ _ h3).step (fun r v => .field h1) (fun r v => .field h2)
    | _ => simp only [assertAt] at h; exact .base h
  | tuple ts ih =>
    cases b with
    | tuple us =>
      rw [assertAt] at h
      rcases seq_error h with h | ⟨_, h⟩
      · obtain ⟨hx, rfl, rfl⟩ := assertWith_error h
        exact .here (.tupleCount (.here _) (.here _) (by simpa using hx))
      · obtain ⟨i, x, y, h1, h2, h3⟩ := items_error h
        rw [Nat.zero_add] at h3
        exact (ih x (List.mem_of_getElem? h1) _ _ h3).step (fun r v => .dshapes h1) (fun r v => .dshapes h2)
    | _ => simp only [assertAt] at h; exact .base h
  | func ts ih =>
    cases b with
    | func us =>
      rw [assertAt] at h
      rcases seq_error h with h | ⟨hl, h⟩
      · obtain ⟨hx, rfl, rfl⟩ := assertWith_error h
        exact .here (.arity (.here _) (.here _) (by simpa using hx))
      · have hl : ts.length = us.length := by
          cases hb : ts.length == us.length with
          | false => rw [hb] at hl; cases hl
          | true => simpa using hb
        have hne : ∀ l : List Ty, (∃ (i : Nat) (a : Ty), l.dropLast[i]? = some a) → ∃ m, l = l.dropLast ++ [m] := by
          rintro l ⟨i, a, h⟩
          cases hp : l.getLast? with
          | none => rw [List.getLast?_eq_none_iff.1 hp] at h; simp at h
          | some m => exact ⟨m, snoc_of hp⟩
        rcases args_error hl h with ⟨i, x, y, h1, h2, h3⟩ | ⟨x, y, h1, h2, h3⟩
        · rw [Nat.zero_add] at h3
          obtain ⟨m, em⟩ := hne _ ⟨i, x, h1⟩
          obtain ⟨m', em'⟩ := hne _ ⟨i, y, h2⟩
          have hx : x ∈ ts := List.dropLast_subset _ (List.mem_of_getElem? h1)
          rw [em, em']
          exact (ih x hx _ _ h3).step (fun r v => .argtypes h1) (fun r v => .argtypes h2)
        · have hx : x ∈ ts := List.mem_of_getLast? h1
          rw [snoc_of h1, snoc_of h2]
          exact (ih x hx _ _ h3).step (fun r v => .restype) (fun r v => .restype)
    | _ => simp only [assertAt] at h; exact .base h
  | _ => simp only [assertAt] at h; exact .slots h (by intro u e; cases e) (by intro u e; cases e)

theorem Leads.append {p q : List Step} {a t : Ty} {v w : Param} (h : Leads p a w) (hw : w = .ty t) (h' : Leads q t v) :
    Leads (p ++ q) a v := by
  induction h with
  | here u => injection hw with hw; subst hw; exact h'
  | slot ha => subst hw; exact .within ha h'
  | within ha _ ih => exact .within ha (ih hw)
  | shape hd _ ih => exact .shape hd (ih hw)
  | measure _ ih => exact .measure (ih hw)
  | ty _ ih => exact .ty (ih hw)
  | field hf _ ih => exact .field hf (ih hw)
  | dshapes hd _ ih => exact .dshapes hd (ih hw)
  | argtypes hd _ ih => exact .argtypes hd (ih hw)
  | restype _ ih => exact .restype (ih hw)

theorem differ_ty {a b : Ty} (h : pyEq a b = false) : ¬ SameValue (.ty a) (.ty b) := by
  intro hs
  cases hs with
  | ty hs => rw [h] at hs; cases hs

/-- what is reported is a difference at the end of the path -/
theorem Reports.leads {q : List Step} {a b : Ty} (h : Reports o a b r q) :
    ∃ v w, Leads q a v ∧ Leads q b w ∧ ¬ SameValue v w := by
  cases h with
  | dims h1 h2 h3 h4 h5 _ =>
    exact ⟨_, _, h1.append rfl (.shape h3 (.here _)), h2.append rfl (.shape h4 (.here _)), differ_ty h5⟩
  | slot h1 h2 _ h4 h5 h6 => exact ⟨_, _, h1.append rfl (.slot h4), h2.append rfl (.slot h5), h6⟩
  | values h1 h2 h3 => exact ⟨_, _, h1, h2, differ_ty h3⟩
  | units h1 h2 h3 =>
    exact ⟨_, _, h1.append rfl (.slot (.unit _ _)), h2.append rfl (.slot (.unit _ _)), fun h => by cases h; exact h3 rfl⟩
  | encoding h1 h2 h3 =>
    exact ⟨_, _, h1.append rfl (.slot (.encoding _ _)), h2.append rfl (.slot (.encoding _ _)), fun h => by cases h; exact h3 rfl⟩
  | fixlen h1 h2 h3 =>
    exact ⟨_, _, h1.append rfl (.slot (.fixlen _ _)), h2.append rfl (.slot (.fixlen _ _)), fun h => by cases h; exact h3 rfl⟩
  | fieldCount h1 h2 h3 =>
    refine ⟨_, _, h1, h2, differ_ty ?_⟩
    cases he : pyEq (.record _) (.record _) with
    | false => rfl
    | true => exact absurd (by simpa using congrArg List.length (record_eq he).names) h3
  | fieldName h1 h2 h3 h4 h5 h6 h7 h8 =>
    refine ⟨_, _, h1, h2, differ_ty ?_⟩
    cases he : pyEq (.record _) (.record _) with
    | false => rfl
    | true =>
      have e := NamesOf.unique (record_eq he).names h3 h4
      subst e
      rw [h5] at h6
      injection h6 with h6
      exact absurd h6 h7
  | tupleCount h1 h2 h3 =>
    refine ⟨_, _, h1, h2, differ_ty ?_⟩
    cases he : pyEq (.tuple _) (.tuple _) with
    | false => rfl
    | true => exact absurd (eqL_get.1 (by simpa [pyEq, eqM, Ty.noShape, Ty.shape, Ty.target, Ty.measure] using he)).1 h3
  | arity h1 h2 h3 =>
    refine ⟨_, _, h1, h2, differ_ty ?_⟩
    cases he : pyEq (.func _) (.func _) with
    | false => rfl
    | true => exact absurd (eqL_get.1 (by simpa [pyEq, eqM, Ty.noShape, Ty.shape, Ty.target, Ty.measure] using he)).1 h3

/-- **C51.** If `assert_dshape_equal(a, b, **flags)` fails, the path in its message leads, from `a` and from `b`, to two
values that are different; or a `Time` is compared with a `DateTime` somewhere, and the message shows no path. -/
theorem C51.leads (fl : Flags) (a b : Ty) (r : Report) (q : List Step) (h : assertAt fl a [] b = .error (.differ r q)) :
    (∃ v w, Leads q a v ∧ Leads q b w ∧ ¬ SameValue v w) ∨
    (q = [] ∧ ∃ p x y, Leads p a (.ty x) ∧ Leads p b (.ty y) ∧ TimeClash x y) := by
  rcases Found.main fl a b [] q h with ⟨p, rfl, h⟩ | ⟨hq, p, x, y, _, h⟩
  · exact .inl h.leads
  · exact .inr ⟨hq, p, x, y, h⟩

/-- **C51.** The path is shown as the Python expression for it. -/
theorem C51.message (env : Env) (q : List Step) (src : Str) (hs : ∀ n, Step.field n ∈ q → Unicode n) :
    fmtPath env q = src ↔ PathText env q src := by
  have one : ∀ st ∈ q, ∀ r, Step.text env st = r ↔ StepText env st r := by
    intro st hst r
    cases st with
    | field n =>
      simp only [Step.text]
      constructor
      · rintro rfl; exact .field ((C58.python_repr env n _ (hs n hst)).1 rfl)
      · intro h; cases h with | field h => rw [(C58.python_repr env n _ (hs n hst)).2 h]
    | _ =>
      simp only [Step.text]
      constructor
      · rintro rfl; constructor
      · intro h; cases h; rfl
  have all : ∀ q' : List Step, (∀ st ∈ q', st ∈ q) → ∀ ts, q'.map (Step.text env) = ts ↔ Each (StepText env) q' ts := by
    intro q'
    induction q' with
    | nil => intro _ ts; exact ⟨fun h => h ▸ .nil, fun h => by cases h; rfl⟩
    | cons a q' ih =>
      intro hsub ts
      constructor
      · rintro rfl
        exact .cons ((one a (hsub a (by simp)) _).1 rfl) ((ih (fun b hb => hsub b (by simp [hb])) _).1 rfl)
      · intro h
        cases h with
        | cons h1 h2 => rw [List.map_cons, (one a (hsub a (by simp)) _).2 h1, (ih (fun b hb => hsub b (by simp [hb])) _).2 h2]
  cases q with
  | nil =>
    have : fmtPath env [] = [] := rfl
    rw [this]
    refine ⟨fun h => h ▸ .nil, fun h => ?_⟩
    cases h with
    | nil => rfl
    | steps h => exact absurd rfl h
  | cons a q =>
    have : fmtPath env (a :: q) = py"path: _" ++ ((a :: q).map (Step.text env)).flatten := rfl
    rw [this]
    constructor
    · rintro rfl
      exact .steps (by simp) ((all _ (fun _ h => h) _).1 rfl)
    · intro h
      cases h with
      | steps _ h => rw [(all _ (fun _ h => h) _).2 h]

/-- **C70.** What a failing `assert_dshape_equal(a, b, **flags)` reports is true of the two datashapes, at the place the
path names: the two dimensions, attributes, units, names, numbers of fields, … are those of `a` and `b` there, and they
differ. (A `Time` against a `DateTime` is reported without the path.) -/
theorem C70.reports (fl : Flags) (a b : Ty) (r : Report) (q : List Step)
    (h : assertAt fl a [] b = .error (.differ r q)) :
    Reports fl.recordOrder a b r q ∨
    (q = [] ∧ ∃ p x y, r = .values x y ∧ Leads p a (.ty x) ∧ Leads p b (.ty y) ∧ TimeClash x y) := by
  rcases Found.main fl a b [] q h with ⟨p, rfl, h⟩ | h
  · exact .inl h
  · exact .inr h

theorem tupleRepr_eq (l : List Str) : tupleRepr l = shownTuple l := by
  rcases l with _ | ⟨x, _ | ⟨y, l⟩⟩
  · rfl
  · simp [tupleRepr, shownTuple, percent]
  · simp [tupleRepr, shownTuple, percent]

theorem Attr.text {t : Ty} {s : Str} {v : Param} (env : Env) (h : Attr t s v) : ValueText env v (v.repr env) := by
  cases h <;> simp only [Param.repr, tupleRepr_eq] <;> try constructor
  rename_i o; cases o <;> constructor

theorem message_text (env : Env) {a b : Ty} {q : List Step} (h : Reports o a b r q) :
    MessageText env r (fmtPath env q) (message env r q) := by
  generalize hp : fmtPath env q = path
  rw [show message env r q = r.text env ++ path by rw [message, hp]]
  clear hp
  cases h with
  | @dims p as bs m m' d e n h1 h2 h3 h4 h5 h6 =>
    by_cases hl : 1 < as.length
    · have := MessageText.dims (env := env) (d := d) (e := e) (as := as) (bs := bs) (path := path) hl
      simpa [percent, Report.text, hl] using this
    · have := MessageText.dim (env := env) (d := d) (e := e) (as := as) (bs := bs) (path := path) (by omega)
      simpa [percent, Report.text, hl] using this
  | @slot p t u s v w h1 h2 h3 h4 h5 h6 =>
    have := MessageText.slot (env := env) (cls := t.klass.name.map lowerAscii) (path := path) (s := s) (h4.text env)
      (h5.text env)
    simpa [percent, Report.text] using this
  | @values p t u h1 h2 h3 =>
    simpa [percent, Report.text] using MessageText.values (env := env) (t := t) (u := u) (path := path)
  | @units p t u s s' h1 h2 h3 =>
    simpa [percent, Report.text] using MessageText.units (env := env) (s := s) (s' := s') (path := path)
  | @encoding p n n' e e' h1 h2 h3 =>
    simpa [percent, Report.text] using MessageText.encoding (env := env) (e := e) (e' := e') (path := path)
  | @fixlen p i j e e' h1 h2 h3 =>
    simpa [percent, Report.text] using MessageText.fixlen (env := env) (i := i) (j := j) (path := path)
  | @fieldCount p fs gs h1 h2 h3 =>
    simpa [percent, Report.text, listRepr, shownList] using
      MessageText.fieldCount (env := env) (l := fs.map (·.1)) (m := gs.map (·.1)) (path := path)
  | @fieldName p fs gs l m n x y h1 h2 h3 h4 h5 h6 h7 h8 =>
    simpa [percent, Report.text] using MessageText.fieldName (env := env) (n := n) (x := x) (y := y) (path := path)
  | @tupleCount p ts us h1 h2 h3 =>
    simpa [percent, Report.text] using MessageText.tupleCount (env := env) (l := ts) (m := us) (path := path)
  | @arity p ts us h1 h2 h3 =>
    simpa [percent, Report.text] using MessageText.arity (env := env) (l := ts) (m := us) (path := path)

/-- **C70.** The wording of the message. -/
theorem C70.text (env : Env) (fl : Flags) (a b : Ty) (r : Report) (q : List Step)
    (h : assertAt fl a [] b = .error (.differ r q)) : MessageText env r (fmtPath env q) (message env r q) := by
  rcases C70.reports fl a b r q h with h | ⟨rfl, p, x, y, rfl, _⟩
  · exact message_text env h
  · have := MessageText.values (env := env) (t := x) (u := y) (path := fmtPath env [])
    simpa [percent, message, Report.text] using this

/-- The hypothesis of `C70.reports` and `C70.text` for two records whose fields are compared in sorted order, and the
whole message. -/
theorem C70.example (env : Env) :
    let a : Ty := .option (.record [(py"b", tInt32), (py"a", tInt32)])
    let b : Ty := .option (.record [(py"c", tInt32), (py"a", tInt32)])
    assertAt { recordOrder := false } a [] b = .error (.differ (.fieldName 1 (py"b") (py"c")) [.ty]) ∧
    message env (.fieldName 1 (py"b") (py"c")) [.ty] =
      py"record field name at position 1 does not match: 'b' != 'c'\npath: _.ty" := by
  exact ⟨rfl, rfl⟩

/-- A failing comparison deep inside, and the last line of its message; a `Time` against a `DateTime`. -/
theorem C51.example (env : Env) :
    let a : Ty := .dshape [.var, .record [(py"x", .option (.datetime (some (py"UTC")))), (py"y", .tuple [.dshape [tInt32], .dshape [.fixed 2, tInt32]])]]
    let b : Ty := .dshape [.var, .record [(py"x", .option (.datetime (some (py"UTC")))), (py"y", .tuple [.dshape [tInt32], .dshape [.fixed 3, tInt32]])]]
    let q := [Step.measure, .field (py"y"), .dshapes 1, .shape 0]
    assertAt {} a [] b = .error (.differ (.dims (.fixed 2) (.fixed 3) [.fixed 2] [.fixed 3]) q) ∧
    fmtPath env q = py"path: _.measure['y'].dshapes[1].shape[0]" ∧
    assertAt {} (.dshape [.fixed 3, .time none]) [] (.dshape [.fixed 3, .datetime none]) =
      .error (.differ (.values (.time none) (.datetime none)) []) ∧
    fmtPath env [] = [] := ⟨rfl, rfl, rfl, rfl⟩

end DS
