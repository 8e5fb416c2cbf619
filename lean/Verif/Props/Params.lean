import Verif.Model.Params
import Verif.Props.Equality
import Verif.Props.Strings
import Verif.Props.WellFormed
import Verif.Props.Util

/-
C39: datashapes are determined by their class and parameters.
-/
namespace DS

theorem asTy_map (ps : List Ty) : (ps.map Param.ty).mapM Param.asTy = .ok ps := by
  induction ps with
  | nil => rfl
  | cons p r ih => simp only [List.map_cons, List.mapM_cons, Param.asTy, ih, bind, Except.bind, pure, Except.pure]

/-- the classes that `C39.rebuild` covers: all but C types and type sets; the type of a categorical is a measure -/
def rebuildable : Ty → Bool
  | .ctype .. | .typeset .. => false
  | .categorical _ t _ => !t.isDShape
  | _ => true

/-- `type(t)(*t.parameters)` rebuilds `t`, as the docstring of `Mono` promises, for every datashape the parser can
build other than a C type. -/
theorem C39.rebuild (env : Env) (reg : Str → Bool) (t : Ty) (ht : localOk env t = true) (hr : rebuildable t = true) :
    construct env reg t.klass t.parameters = .ok t := by
  cases t with
  | ctype n i a => simp [rebuildable] at hr
  | typeset o n => simp [rebuildable] at hr
  | time z => cases z <;> rfl
  | datetime z => cases z <;> rfl
  | ellipsis z => cases z <;> rfl
  | timedelta u =>
    simp only [localOk, List.contains_iff_mem] at ht
    show mkTimeDelta u = _
    simp only [timeUnits, List.mem_cons, List.not_mem_nil, or_false] at ht
    rcases ht with rfl | rfl | rfl | rfl | rfl | rfl | rfl | rfl | rfl | rfl <;> rfl
  | units u t =>
    simp only [localOk] at ht
    show mkUnits u (some t) = _
    simp [mkUnits, ht]
  | string n e =>
    simp only [localOk, List.contains_iff_mem, canonicalEncodings, List.mem_cons, List.not_mem_nil, or_false] at ht
    cases n <;> rcases ht with rfl | rfl | rfl | rfl <;> rfl
  | fixed n =>
    show mkFixed (n : Int) = _
    unfold mkFixed
    rw [if_neg (by omega)]
    simp
  | typevar s =>
    show mkTypeVar env s = _
    cases s with
    | nil => simp [localOk, upperName] at ht
    | cons c s => simp only [localOk, upperName] at ht; simp [mkTypeVar, ht]
  | option t =>
    show Except.ok (mkOption t) = _
    simp only [localOk, Bool.not_eq_true'] at ht
    simp [mkOption, launderTy_of_not_singleton ht]
  | map k v =>
    show Except.ok (mkMap k v) = _
    simp only [localOk, Bool.and_eq_true, Bool.not_eq_true'] at ht
    simp [mkMap, launderTy_of_not_singleton ht.1, launderTy_of_not_singleton ht.2]
  | func ps =>
    show (do Except.ok (Ty.func (← (ps.map Param.ty).mapM Param.asTy))) = _
    rw [asTy_map]
    rfl
  | record fs =>
    show mkRecord fs = _
    simp only [localOk, Bool.and_eq_true, decide_eq_true_eq, List.all_eq_true, Bool.not_eq_true'] at ht
    rw [mkRecord, if_pos ht.1]
    congr 2
    conv => rhs; rw [← List.map_id fs]
    apply List.map_congr_left
    intro f hf
    simp [launderTy_of_not_singleton (ht.2 f hf)]
  | tuple ts =>
    show mkTuple ts = _
    simp only [localOk, List.all_eq_true] at ht
    have : ts.mapM wrapDS = .ok ts := by
      clear hr
      induction ts with
      | nil => rfl
      | cons a r ih =>
        have ha := ht a List.mem_cons_self
        have hr := ih fun t h => ht t (List.mem_cons_of_mem _ h)
        have hw : wrapDS a = .ok a := by simp [wrapDS, ha]
        simp only [List.mapM_cons, hw, hr, bind, Except.bind, pure, Except.pure]
    simp [mkTuple, this]
  | categorical c t o =>
    show Except.ok (Ty.categorical c t.measure o) = _
    simp only [rebuildable, Bool.not_eq_true'] at hr
    have : t.measure = t := by cases t <;> simp_all [Ty.measure, Ty.isDShape]
    rw [this]
  | dshape ps =>
    show (do mkDS (← (ps.map Param.ty).mapM Param.asTy)) = _
    rw [asTy_map]
    show mkDS ps = _
    simp only [localOk, Bool.and_eq_true, Bool.not_eq_true', List.isEmpty_eq_false_iff, List.all_eq_true] at ht
    obtain ⟨⟨⟨h1, h2⟩, h3⟩, h4⟩ := ht
    have hl : ps.map launderTy = ps := by
      conv => rhs; rw [← List.map_id ps]
      apply List.map_congr_left
      intro p hp
      have := h4 p hp
      cases p <;> simp_all [launderTy, Ty.isDShape]
    rw [mkDS, hl, checkDS, List.getLast?_eq_getLast h1]
    rw [List.getLast?_eq_getLast h1] at h3
    simp only [Option.all_some, endsOk_cls, bne_iff_ne, ne_eq] at h3
    simp only
    rw [if_neg h3, if_neg]
    intro h
    rw [List.any_eq_true] at h
    obtain ⟨d, hd, hc⟩ := h
    have := h2 d hd
    cases d <;> simp_all [Ty.isDim, Ty.cls]
  | _ => rfl

/-- The same for every part of a datashape that `dshape` returns. -/
theorem C39.parsed (env : Env) (disc : List Lit → Except PyErr Ty) (hdisc : ∀ l t, disc l = .ok t → WF env t)
    (reg : Str → Bool) (s : Str) (t u : Ty) (h : DS.dshape env disc s = .ok t) (hu : Occurs u t)
    (hr : rebuildable u = true) : construct env reg u.klass u.parameters = .ok u :=
  C39.rebuild env reg u ((C10.wellformed env disc hdisc s t h).2 u hu) hr

/-- Class and parameters determine the datashape. -/
theorem C39.state (t : Ty) : setState t.klass t.parameters = .ok t := by
  cases t with
  | time z => cases z <;> rfl
  | datetime z => cases z <;> rfl
  | ellipsis z => cases z <;> rfl
  | string n e => cases n <;> rfl
  | typeset o n => cases n <;> rfl
  | func ps =>
    show (do Except.ok (Ty.func (← (ps.map Param.ty).mapM Param.asTy))) = _
    rw [asTy_map]; rfl
  | dshape ps =>
    show (do Except.ok (Ty.dshape (← (ps.map Param.ty).mapM Param.asTy))) = _
    rw [asTy_map]; rfl
  | _ => rfl

/-- Unpickling a pickled datashape gives it back, for every class, C types and type sets included. -/
theorem C39.pickle (t : Ty) : pickleCopy t = .ok t := by
  have hl : ∀ l : List Ty, (∀ t ∈ l, pickleCopy t = .ok t) → pickleL l = .ok l := by
    intro l h
    induction l with
    | nil => rfl
    | cons a r ih =>
      rw [pickleL, h a List.mem_cons_self, ih fun t ht => h t (List.mem_cons_of_mem _ ht)]
      rfl
  have hf : ∀ l : List (Str × Ty), (∀ f ∈ l, pickleCopy f.2 = .ok f.2) → pickleF l = .ok l := by
    intro l h
    induction l with
    | nil => rfl
    | cons a r ih =>
      obtain ⟨n, t⟩ := a
      have := h (n, t) List.mem_cons_self
      simp only at this
      rw [pickleF, this, ih fun t ht => h t (List.mem_cons_of_mem _ ht)]
      rfl
  induction t using Ty.ind with
  | units u t ih => rw [pickleCopy, ih]; rfl
  | option t ih => rw [pickleCopy, ih]; rfl
  | map k v ihk ihv => rw [pickleCopy, ihk, ihv]; rfl
  | func ps ih => rw [pickleCopy, hl ps ih]; exact C39.state (.func ps)
  | record fs ih => rw [pickleCopy, hf fs ih]; rfl
  | tuple ts ih => rw [pickleCopy, hl ts ih]; rfl
  | categorical c t o ih => rw [pickleCopy, ih]; rfl
  | typeset o n ih => rw [pickleCopy, hl o ih]; exact C39.state (.typeset o n)
  | dshape ps ih => rw [pickleCopy, hl ps ih]; exact C39.state (.dshape ps)
  | time z => rw [pickleCopy]; exact C39.state _
              all_goals simp
  | datetime z => rw [pickleCopy]; exact C39.state _
                  all_goals simp
  | ellipsis z => rw [pickleCopy]; exact C39.state _
                  all_goals simp
  | string n e => rw [pickleCopy]; exact C39.state _
                  all_goals simp
  | _ => rfl

/-- `==` on slotted and unslotted objects alike: same class and same parameters give the same datashape. -/
theorem C39.injective (a b : Ty) (hk : a.klass = b.klass) (hp : a.parameters = b.parameters) : a = b := by
  have h1 := C39.state a
  rw [hk, hp, C39.state b] at h1
  exact (Except.ok.inj h1).symm

/-- A C type cannot be rebuilt: its name is already registered (coretypes.py:47-54), so the constructor raises
`TypeError`. -/
theorem C39.ctype_fails (env : Env) (reg : Str → Bool) (n : Str) (i a : Nat) (h : reg n = true) :
    construct env reg (Ty.ctype n i a).klass (Ty.ctype n i a).parameters = .error .typeError := by
  simp [Ty.klass, Ty.parameters, construct, h]

/-- Example: an optional record inside an array. -/
theorem C39.example (env : Env) (reg : Str → Bool) :
    let t : Ty := .dshape [.fixed 3, .record [(py"x", .option tString), (py"y", .tuple [.dshape [.timedelta (py"ms")]])]]
    construct env reg t.klass t.parameters = .ok t ∧ localOk env t = true ∧ rebuildable t = true := by
  exact ⟨rfl, rfl, rfl⟩

end DS
