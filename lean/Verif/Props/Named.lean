import Verif.Spec.Named
import Verif.Props.RoundTrip

/-
C73 datashapes with names.
-/
namespace DS

/-- Induction over datashapes with names. -/
theorem NTy.ind {P : NTy → Prop} (leaf : ∀ t, P (.leaf t)) (units : ∀ u t, P t → P (.units u t))
    (option : ∀ t, P t → P (.option t)) (map : ∀ k v, P k → P v → P (.map k v))
    (func : ∀ ps, (∀ t ∈ ps, P t) → P (.func ps))
    (record : ∀ fs : List (Str × NTy), (∀ f ∈ fs, P f.2) → P (.record fs))
    (tuple : ∀ ps, (∀ t ∈ ps, P t) → P (.tuple ps)) (categorical : ∀ c t o, P t → P (.categorical c t o))
    (dshape : ∀ n ps, (∀ t ∈ ps, P t) → P (.dshape n ps)) : ∀ t, P t := by
  intro t
  refine NTy.rec (motive_1 := P) (motive_2 := fun ts => ∀ t ∈ ts, P t)
    (motive_3 := fun fs => ∀ f ∈ fs, P f.2) (motive_4 := fun f => P f.2)
    leaf units option map func record tuple categorical dshape ?_ ?_ ?_ ?_ ?_ t
  · intro t h; cases h
  · intro a l ha hl t h
    cases h with
    | head => exact ha
    | tail _ h => exact hl t h
  · intro t h; cases h
  · intro a l ha hl t h
    cases h with
    | head => exact ha
    | tail _ h => exact hl t h
  · intro a b h; exact h

theorem eraseL_map (l : List NTy) : eraseL l = l.map NTy.erase := by
  induction l with
  | nil => rfl
  | cons t r ih => simp [eraseL, ih]

theorem shownL_map (l : List NTy) (f : Bool) : shownL l f = l.map (·.shown f) := by
  induction l with
  | nil => rfl
  | cons t r ih => simp [shownL, ih]

/-- What is not `float64` is not shown as `float64`. -/
theorem shown_float64 (t : NTy) (h : pyEq t.erase (.dshape [tFloat64]) = false) :
    pyEq (t.shown false) (.dshape [tFloat64]) = false := by
  cases t with
  | leaf t => exact h
  | dshape n ps =>
    simp only [NTy.shown]
    split
    · match ps with
      | [] => exact h
      | [x] =>
        cases x with
        | leaf t => exact h
        | dshape m qs =>
          simp only [shownL, NTy.shown]
          split <;>
          simp [pyEq, eqM, eqInit, eqLast, Ty.noShape, Ty.target, Ty.shape, Ty.measure, tFloat64]
        | _ =>
          simp [shownL, NTy.shown, pyEq, eqM, eqInit, eqLast, Ty.noShape, Ty.target, Ty.shape, Ty.measure, tFloat64]
      | x :: y :: r => simp [shownL, pyEq, eqM, eqInit, Ty.shape]
    · simp [pyEq, eqM, Ty.noShape, Ty.target, Ty.shape, Ty.measure, tFloat64]
  | _ => simp [NTy.shown, pyEq, eqM, Ty.noShape, Ty.target, Ty.shape, Ty.measure, tFloat64]

theorem renderN_shown (env : Env) (t : NTy) :
    (∀ w : Option Int, renderN env t w = render env (t.shown w.isSome) w) ∧
    (∀ res w, renderNDS env [t] res w = renderDS env [t.shown (!t.isNamable)] res w) := by
  induction t using NTy.ind with
  | leaf t => exact ⟨fun w => by simp only [renderN, NTy.shown], fun res w => by simp only [renderNDS, NTy.shown]⟩
  | units u t ih =>
    have h := ih.1 none
    have e : ∀ w f, renderN env (.units u t) w = render env ((NTy.units u t).shown f) w := by
      intro w f
      simp only [renderN, NTy.shown, render]
      by_cases hu : pyEq t.erase (.dshape [tFloat64]) = true
      · simp only [hu, if_true]
      · have hu' : pyEq t.erase (.dshape [tFloat64]) = false := by simpa using hu
        simp only [hu', shown_float64 t hu', h, Option.isSome_none, Bool.false_eq_true, if_false]
    refine ⟨fun w => e w _, fun res w => ?_⟩
    simp only [renderNDS, e none true, NTy.isNamable, Bool.not_false]
    simp only [NTy.shown, renderDS]
  | option t ih =>
    have h := ih.1 none
    simp only [Option.isSome_none] at h
    exact ⟨fun w => by simp only [renderN, NTy.shown, render, h], fun res w => by
      simp only [renderNDS, renderN, NTy.shown, renderDS, render, h]⟩
  | map k v ihk ihv =>
    have h := ihk.1 none
    have h' := ihv.1 none
    simp only [Option.isSome_none] at h h'
    exact ⟨fun w => by simp only [renderN, NTy.shown, render, h, h'], fun res w => by
      simp only [renderNDS, renderN, NTy.shown, renderDS, render, h, h']⟩
  | categorical c t o ih =>
    have h := ih.1 none
    simp only [Option.isSome_none] at h
    exact ⟨fun w => by simp only [renderN, NTy.shown, render, h], fun res w => by
      simp only [renderNDS, renderN, NTy.shown, renderDS, render, h]⟩
  | func ps ih =>
    have hi : renderNInit env ps = renderInit env (shownL ps false) ∧ renderNLast env ps = renderLast env (shownL ps false) := by
      induction ps with
      | nil => exact ⟨rfl, rfl⟩
      | cons t r ihr =>
        have h := (ih t (by simp)).1 none
        simp only [Option.isSome_none] at h
        cases r with
        | nil => exact ⟨rfl, by simp only [renderNLast, shownL, renderLast, h]⟩
        | cons u r =>
          obtain ⟨h1, h2⟩ := ihr fun t ht => ih t (by simp [ht])
          simp only [shownL] at h1 h2
          exact ⟨by simp only [renderNInit, shownL, renderInit, h, h1], by simp only [renderNLast, shownL, renderLast, h2]⟩
    exact ⟨fun w => by simp only [renderN, NTy.shown, render, hi], fun res w => by
      simp only [renderNDS, renderN, NTy.shown, renderDS, render, hi]⟩
  | record fs ih =>
    have h : ∀ w, renderNF env fs w = renderF env (shownF fs) w := by
      intro w
      induction fs with
      | nil => rfl
      | cons f r ihr =>
        obtain ⟨n, t⟩ := f
        have h := (ih (n, t) (by simp)).1 (some (w - n.length))
        simp only [Option.isSome_some] at h
        simp only [renderNF, shownF, renderF, h, ihr fun f hf => ih f (by simp [hf])]
    exact ⟨fun w => by simp only [renderN, NTy.shown, render, h], fun res w => by
      simp only [renderNDS, NTy.shown, renderDS, h]⟩
  | tuple ts ih =>
    have h : ∀ w : Option Int, renderNL env ts w = renderL env (shownL ts w.isSome) w := by
      intro w
      induction ts with
      | nil => rfl
      | cons t r ihr => simp only [renderNL, shownL, renderL, (ih t (by simp)).1 w, ihr fun t ht => ih t (by simp [ht])]
    refine ⟨fun w => ?_, fun res w => by simp only [renderNDS, NTy.shown, NTy.isNamable, Bool.not_false, renderDS, h, Option.isSome_some]⟩
    cases w <;> simp only [renderN, NTy.shown, render, h, Option.isSome_none, Option.isSome_some]
  | dshape n ps ih =>
    have hl : renderNL env ps none = renderL env (shownL ps false) none := by
      clear n
      induction ps with
      | nil => rfl
      | cons t r ihr =>
        have := (ih t (by simp)).1 none
        simp only [Option.isSome_none] at this
        simp only [renderNL, shownL, renderL, this, ihr fun t ht => ih t (by simp [ht])]
    have hs : renderN env (.dshape n ps) none = render env ((NTy.dshape n ps).shown false) none := by
      simp only [renderN, NTy.shown]
      by_cases hn : n = []
      · subst hn; simp only [List.isEmpty_nil, if_true, render, hl]
      · rw [if_neg (by simpa using hn), if_neg hn]; simp only [render]
    have hi : renderNInit env ps = renderInit env (shownDS ps) := by
      clear n hs hl
      induction ps with
      | nil => rfl
      | cons t r ihr =>
        cases r with
        | nil => rfl
        | cons u r =>
          have h := (ih t (by simp)).1 none
          simp only [Option.isSome_none] at h
          have h1 := ihr fun t ht => ih t (by simp [ht])
          cases r with
          | nil => simp only [renderNInit, shownDS, renderInit, h]
          | cons v r =>
            simp only [shownDS] at h1
            simp only [renderNInit, shownDS, renderInit, h] at h1 ⊢
            rw [h1]
    have hd : ∀ res w, renderNDS env ps res w = renderDS env (shownDS ps) res w := by
      clear n hs hl hi
      intro res w
      induction ps with
      | nil => rfl
      | cons t r ihr =>
        cases r with
        | nil => exact (ih t (by simp)).2 res w
        | cons u r =>
          have h1 := ihr fun t ht => ih t (by simp [ht])
          have e : renderNDS env (t :: u :: r) res w = renderNDS env (u :: r) res w := by
            cases t <;> simp only [renderNDS]
          rw [e, h1]
          simp only [shownDS]
          cases r with
          | nil => simp only [shownDS, renderDS]
          | cons v r => simp only [shownDS, renderDS]
    constructor
    · intro w
      cases w with
      | none => exact hs
      | some w => simp only [renderN, NTy.shown, Option.isSome_some, render, hi, hd]
    · intro res w
      simp only [renderNDS, hs, NTy.isNamable, Bool.not_true]
      simp only [NTy.shown]
      split <;> simp only [renderDS]

/-- **C73.** How names show in `str` and `pprint`: the text is that of the datashape in which every `DataShape` that shows
as its name is replaced by a type variable of that name. -/
theorem C73.text (env : Env) (t : NTy) :
    renderN env t none = pyStr env (t.shown false) ∧ ∀ w, renderN env t (some w) = pprint env (t.shown true) w :=
  ⟨(renderN_shown env t).1 none, fun w => (renderN_shown env t).1 (some w)⟩

/-- **C73.** `str` of a `DataShape` with a name is the name; `pprint` and `repr` do not show it. -/
theorem C73.name (env : Env) (n : Str) (ps : List NTy) :
    (n ≠ [] → renderN env (.dshape n ps) none = n) ∧
    (∀ w, renderN env (.dshape n ps) (some w) = renderN env (.dshape [] ps) (some w)) ∧
    reprN env (.dshape n ps) = reprN env (.dshape [] ps) := by
  refine ⟨fun h => ?_, fun w => by simp only [renderN], by simp only [reprN, renderN]⟩
  simp only [renderN]
  rw [if_neg (by simpa using h)]

theorem erase_shown (t : NTy) (h : t.noNames = true) (f : Bool) : t.shown f = t.erase := by
  induction t using NTy.ind generalizing f with
  | leaf t => simp only [NTy.shown, NTy.erase]
  | units u t ih =>
    simp only [NTy.noNames] at h
    simp only [NTy.shown, NTy.erase, ih h, ite_self]
  | option t ih => simp only [NTy.noNames] at h; simp only [NTy.shown, NTy.erase, ih h]
  | map k v ihk ihv =>
    simp only [NTy.noNames, Bool.and_eq_true] at h
    simp only [NTy.shown, NTy.erase, ihk h.1, ihv h.2]
  | categorical c t o ih => simp only [NTy.noNames] at h; simp only [NTy.shown, NTy.erase, ih h]
  | record fs ih =>
    simp only [NTy.noNames] at h
    have : shownF fs = eraseF fs := by
      induction fs with
      | nil => rfl
      | cons a r ihr =>
        obtain ⟨n, t⟩ := a
        simp only [noNamesF, Bool.and_eq_true] at h
        simp only [shownF, eraseF, ih (n, t) (by simp) h.1, ihr (fun f hf => ih f (by simp [hf])) h.2]
    simp only [NTy.shown, NTy.erase, this]
  | func ps ih | tuple ps ih =>
    simp only [NTy.noNames] at h
    have : ∀ f, shownL ps f = eraseL ps := by
      intro f
      induction ps with
      | nil => rfl
      | cons t r ihr =>
        simp only [noNamesL, Bool.and_eq_true] at h
        simp only [shownL, eraseL, ih t (by simp) h.1, ihr (fun t ht => ih t (by simp [ht])) h.2]
    simp only [NTy.shown, NTy.erase, this]
  | dshape n ps ih =>
    simp only [NTy.noNames, Bool.and_eq_true, List.isEmpty_iff] at h
    obtain ⟨rfl, h⟩ := h
    have : shownL ps false = eraseL ps ∧ shownDS ps = eraseL ps := by
      induction ps with
      | nil => exact ⟨rfl, rfl⟩
      | cons t r ihr =>
        simp only [noNamesL, Bool.and_eq_true] at h
        obtain ⟨h1, h2⟩ := ihr (fun t ht => ih t (by simp [ht])) h.2
        refine ⟨by simp only [shownL, eraseL, ih t (by simp) h.1, h1], ?_⟩
        cases r with
        | nil => simp only [shownDS, eraseL, ih t (by simp) h.1]
        | cons u r =>
          rw [shownDS, h2]
          simp only [eraseL, ih t (by simp) h.1]
    cases f <;> simp only [NTy.shown, NTy.erase, this, if_true]

/-- **C73.** Without names, the texts are those of the other properties. -/
theorem C73.unnamed (env : Env) (t : NTy) (h : t.noNames = true) :
    renderN env t none = pyStr env t.erase ∧ ∀ w, renderN env t (some w) = pprint env t.erase w := by
  have := C73.text env t
  rw [erase_shown t h, erase_shown t h] at this
  exact this

theorem launderN_erase (t : NTy) : (launderN t).erase = launderTy t.erase := by
  cases t with
  | leaf t =>
    cases t with
    | dshape ps =>
      match ps with
      | [] => rfl
      | [x] => rfl
      | x :: y :: r => rfl
    | _ => rfl
  | dshape n ps =>
    match ps with
    | [] => rfl
    | [x] => rfl
    | x :: y :: r => rfl
  | _ => rfl

/-- **C73.** `DataShape(*params, name=n)` has that name and returns exactly if `DataShape(*params)` does, without the names, and
it is the same datashape; otherwise it raises the same. -/
theorem C73.construct (n : Str) (ps : List NTy) :
    (∀ t, mkNamed n ps = .ok t ↔ t = .dshape n (ps.map launderN) ∧ mkDS (ps.map NTy.erase) = .ok t.erase) ∧
    (∀ e, mkNamed n ps = .error e ↔ mkDS (ps.map NTy.erase) = .error e) := by
  have hl : (ps.map launderN).map NTy.erase = (ps.map NTy.erase).map launderTy := by
    simp only [List.map_map, Function.comp_def, launderN_erase]
  have he : (NTy.dshape n (ps.map launderN)).erase = .dshape ((ps.map NTy.erase).map launderTy) := by
    simp only [NTy.erase, eraseL_map, hl]
  have hc : ∀ u, checkDS ((ps.map NTy.erase).map launderTy) = .ok u → u = .dshape ((ps.map NTy.erase).map launderTy) := by
    intro u hu
    unfold checkDS at hu
    split at hu
    · cases hu
    · split at hu
      · cases hu
      · split at hu <;> cases hu; rfl
  unfold mkNamed mkDS
  rw [hl]
  cases hm : checkDS ((ps.map NTy.erase).map launderTy) with
  | error f => simp
  | ok u =>
    have := hc u hm
    subst this
    constructor
    · intro t
      simp only [Except.ok.injEq]
      constructor
      · rintro rfl; exact ⟨rfl, he.symm⟩
      · rintro ⟨rfl, _⟩; rfl
    · intro e; simp

/-- **C73.** Inside another datashape the name of a `DataShape` of one element gets lost. -/
theorem C73.absorbed (env : Env) (n : Str) (x : NTy) (pre : List NTy) (m : Str) (hx : x.parameters? = none) :
    optionN (.dshape n [x]) = .option x ∧ renderN env (optionN (.dshape n [x])) none = py"?" ++ renderN env x none ∧
    mkNamed m (pre ++ [.dshape n [x]]) = mkNamed m (pre ++ [x]) := by
  refine ⟨rfl, by simp only [optionN, launderN, NTy.parameters?, renderN], ?_⟩
  have e : launderN x = x := by simp only [launderN, hx]
  have e' : launderN (.dshape n [x]) = x := rfl
  unfold mkNamed
  simp only [List.map_append, List.map_cons, List.map_nil, e, e']

/-- **C73.** What is derived from a `DataShape` has no name: `i * ds` and `ds.subarray(k)` (even with `k = 0`). Apart from
names the results are those of C16 and C17. -/
theorem C73.derived (n : Str) (ps : List NTy) (i k : Int) :
    (∀ t, timesN i ps = .ok t → t.name = [] ∧ mul (.int i) (.ty (NTy.dshape n ps).erase) = .ok t.erase) ∧
    (∀ e, timesN i ps = .error e ↔ mul (.int i) (.ty (NTy.dshape n ps).erase) = .error e) ∧
    (∀ t, subarrayN ps k = .ok t → t.name = [] ∧ subarray (NTy.dshape n ps).erase k = .ok t.erase) ∧
    (∀ e, subarrayN ps k = .error e ↔ subarray (NTy.dshape n ps).erase k = .error e) := by
  have hname : ∀ qs t, mkNamed [] qs = .ok t → t.name = [] := by
    intro qs t h
    rw [((C73.construct [] qs).1 t).1 h |>.1]; rfl
  have hmul : mul (.int i) (.ty (NTy.dshape n ps).erase) =
      (match mkFixed i with | .ok d => mkDS (d :: ps.map NTy.erase) | .error e => .error e) := by
    simp only [NTy.erase, mul, rmulDS, Operand.toTy, eraseL_map]
    cases mkFixed i <;> rfl
  have hsub : subarray (NTy.dshape n ps).erase k =
      (if k ≥ ps.length then .error .indexError
       else if k = ps.length - 1 ∨ k = -1 then
         (match ps.getLast? with | none => .error .indexError | some m => mkDS [m.erase])
       else mkDS ((pyDrop ps k).map NTy.erase)) := by
    simp only [NTy.erase, subarray, eraseL_map, List.length_map, List.getLast?_map]
    have hd : pyDrop (ps.map NTy.erase) k = (pyDrop ps k).map NTy.erase := by
      unfold pyDrop; split <;> simp [List.map_drop]
    rw [hd]
    cases ps.getLast? <;> rfl
  refine ⟨fun t h => ?_, fun e => ?_, fun t h => ?_, fun e => ?_⟩
  · rw [hmul]
    unfold timesN at h
    cases hf : mkFixed i with
    | error e => rw [hf] at h; cases h
    | ok d =>
      rw [hf] at h
      exact ⟨hname _ _ h, (((C73.construct [] _).1 t).1 h).2⟩
  · rw [hmul]
    unfold timesN
    cases hf : mkFixed i with
    | error e => simp
    | ok d => exact (C73.construct [] _).2 e
  · rw [hsub]
    unfold subarrayN at h
    by_cases h1 : k ≥ ps.length
    · rw [if_pos h1] at h; cases h
    · rw [if_neg h1] at h ⊢
      by_cases h2 : k = ps.length - 1 ∨ k = -1
      · rw [if_pos h2] at h ⊢
        cases hl : ps.getLast? with
        | none => rw [hl] at h; cases h
        | some m =>
          rw [hl] at h
          exact ⟨hname _ _ h, (((C73.construct [] _).1 t).1 h).2⟩
      · rw [if_neg h2] at h ⊢
        exact ⟨hname _ _ h, (((C73.construct [] _).1 t).1 h).2⟩
  · rw [hsub]
    unfold subarrayN
    by_cases h1 : k ≥ ps.length
    · simp only [if_pos h1, Except.error.injEq]
    · rw [if_neg h1, if_neg h1]
      by_cases h2 : k = ps.length - 1 ∨ k = -1
      · rw [if_pos h2, if_pos h2]
        cases hl : ps.getLast? with
        | none => simp
        | some m => exact (C73.construct [] _).2 e
      · rw [if_neg h2, if_neg h2]
        exact (C73.construct [] _).2 e

theorem pickleN_spec (t : NTy) : (pickleN t).noNames = true ∧ (pickleN t).erase = t.erase := by
  induction t using NTy.ind with
  | leaf t => exact ⟨rfl, rfl⟩
  | units u t ih | option t ih | categorical c t o ih =>
    exact ⟨by simp only [pickleN, NTy.noNames, ih], by simp only [pickleN, NTy.erase, ih]⟩
  | map k v ihk ihv =>
    exact ⟨by simp only [pickleN, NTy.noNames, ihk, ihv, Bool.and_self], by simp only [pickleN, NTy.erase, ihk, ihv]⟩
  | record fs ih =>
    have : noNamesF (pickleNF fs) = true ∧ eraseF (pickleNF fs) = eraseF fs := by
      induction fs with
      | nil => exact ⟨rfl, rfl⟩
      | cons a r ihr =>
        obtain ⟨n, t⟩ := a
        have h := ih (n, t) (by simp)
        have h' := ihr fun f hf => ih f (by simp [hf])
        exact ⟨by simp only [pickleNF, noNamesF, h, h', Bool.and_self], by simp only [pickleNF, eraseF, h, h']⟩
    exact ⟨by simp only [pickleN, NTy.noNames, this], by simp only [pickleN, NTy.erase, this]⟩
  | func ps ih | tuple ps ih | dshape n ps ih =>
    have : noNamesL (pickleNL ps) = true ∧ eraseL (pickleNL ps) = eraseL ps := by
      induction ps with
      | nil => exact ⟨rfl, rfl⟩
      | cons t r ihr =>
        have h := ih t (by simp)
        have h' := ihr fun f hf => ih f (by simp [hf])
        exact ⟨by simp only [pickleNL, noNamesL, h, h', Bool.and_self], by simp only [pickleNL, eraseL, h, h']⟩
    exact ⟨by simp only [pickleN, NTy.noNames, this, List.isEmpty_nil, Bool.and_self], by simp only [pickleN, NTy.erase, this]⟩

/-- **C73.** Unpickling gives the same datashape without any names, at any depth. -/
theorem C73.pickle (env : Env) (t : NTy) :
    (pickleN t).noNames = true ∧ (pickleN t).erase = t.erase ∧ renderN env (pickleN t) none = pyStr env t.erase := by
  obtain ⟨h1, h2⟩ := pickleN_spec t
  refine ⟨h1, h2, ?_⟩
  rw [← h2]
  exact (C73.unnamed env _ h1).1

/-- **C73.** `repr` of a `DataShape` with a name still is Python source for a datashape equal to it if names inside are not
shown, as in `var * {x: named, y: (named, named)}`. -/
theorem C73.repr (env : Env) (n : Str) (ps : List NTy) (h : (NTy.dshape n ps).shown true = (NTy.dshape n ps).erase) :
    reprN env (.dshape n ps) = pyReprTy env (NTy.dshape n ps).erase := by
  have e : pyReprTy env (NTy.dshape n ps).erase = quoteDshape (reprText env (NTy.dshape n ps).erase) := by
    simp only [NTy.erase, pyReprTy]
  rw [reprN, (C73.text env _).2, h, e]
  rfl

/-- A datashape as there. -/
example : let pair : NTy := .dshape (py"pair") [.leaf (.fixed 2), .leaf tInt32]
    let ds : NTy := .dshape (py"ds") [.leaf .var, .record [(py"x", pair), (py"y", .tuple [pair, pair])]]
    ds.shown true = ds.erase ∧ ds.noNames = false := ⟨rfl, rfl⟩

/-- **C73.** `dshape(str(ds))` need not be `ds`: the name may be read as another datashape, or not at all; `str` of a tuple
shows the names of its components, `str` of a record does not show those of its fields. -/
theorem C73.misread (env : Env) (disc : List Lit → Except PyErr Ty) :
    let ds : NTy := .dshape (py"int32") [.leaf tUint32]
    let pair : NTy := .dshape (py"pair") [.leaf (.fixed 2), .leaf tInt32]
    mkNamed (py"int32") [.leaf tUint32] = .ok ds ∧
    DS.dshape env disc (renderN env ds none) = .ok (.dshape [tInt32]) ∧ pyEq (.dshape [tInt32]) ds.erase = false ∧
    mkNamed (py"pair") [.leaf (.fixed 2), .leaf tInt32] = .ok pair ∧
    DS.dshape env disc (renderN env pair none) = .error (.syntax (py"pair") 0 (py"Invalid datashape")) ∧
    renderN env (.tuple [pair, .leaf (.dshape [tInt32])]) none = py"(pair, int32)" ∧
    renderN env (.record [(py"x", pair)]) none = py"{x: 2 * int32}" ∧
    reprN env pair = py"dshape(\"2 * int32\")" := by
  refine ⟨rfl, rfl, rfl, rfl, rfl, ?_, ?_, ?_⟩ <;> rfl

end DS
