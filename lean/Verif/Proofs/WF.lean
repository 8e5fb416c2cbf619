import Verif.Proofs.Position
import Verif.Proofs.SymTab
import Verif.Proofs.AtEnd
import Verif.Spec.WellFormed
import Verif.Props.Strings

/-
Everything the parser builds is well formed.
-/
namespace DS
variable {env : Env}

theorem WF_iff {t : Ty} : WF env t ↔ localOk env t = true ∧ ∀ c ∈ t.children, WF env c := by
  simp only [WF]
  rw [everywhere_children]
  simp

theorem WF.local {t : Ty} (h : WF env t) : localOk env t = true := (WF_iff.1 h).1
theorem WF.child {t c : Ty} (h : WF env t) (hc : c ∈ t.children) : WF env c := (WF_iff.1 h).2 c hc

/-- a well-formed `DataShape` -/
def DSOk (env : Env) (t : Ty) : Prop := WF env t ∧ t.isDShape = true
/-- a well-formed datashape that is not a `DataShape` -/
def ElOk (env : Env) (t : Ty) : Prop := WF env t ∧ t.isDShape = false

theorem DSOk.params {t : Ty} (h : DSOk env t) : ∀ p ∈ t.params, ElOk env p := by
  obtain ⟨hw, hd⟩ := h
  cases t <;> simp [Ty.isDShape] at hd
  rename_i ps
  intro p hp
  refine ⟨hw.child hp, ?_⟩
  have := hw.local
  simp [localOk] at this
  exact this.2 p hp

theorem launderTy_id {t : Ty} (h : t.isDShape = false) : launderTy t = t := by
  cases t <;> simp_all [launderTy, Ty.isDShape]

/-- laundering removes a redundant wrapper -/
theorem launder_ok {t : Ty} (h : WF env t) : WF env (launderTy t) ∧ (launderTy t).isSingleton = false := by
  match t with
  | .dshape [u] =>
    have : ElOk env u := DSOk.params ⟨h, rfl⟩ u (by simp [Ty.params])
    refine ⟨this.1, ?_⟩
    have := this.2
    cases u <;> simp_all [launderTy, Ty.isSingleton, Ty.isDShape]
  | .dshape [] => simpa [launderTy, Ty.isSingleton] using h
  | .dshape (_ :: _ :: _) => simpa [launderTy, Ty.isSingleton] using h
  | .ctype .. | .null | .date | .time _ | .datetime _ | .timedelta _ | .units .. | .bytes | .string .. | .decimal ..
  | .json | .fixed _ | .var | .typevar _ | .ellipsis _ | .option _ | .map .. | .func _ | .record _ | .tuple _
  | .categorical .. | .typeset .. => simpa [launderTy, Ty.isSingleton] using h

theorem mkDS_ok {ps : List Ty} {r : Ty} (hp : ∀ p ∈ ps, ElOk env p) (hdim : ∀ p ∈ ps.dropLast, p.isDim = true) (h : mkDS ps = .ok r) :
    DSOk env r ∧ r = .dshape ps := by
  have hl : ps.map launderTy = ps := by
    conv => rhs; rw [← List.map_id ps]
    exact List.map_congr_left fun p hp' => launderTy_id (hp p hp').2
  rw [mkDS, hl] at h
  unfold checkDS at h
  split at h
  · cases h
  · rename_i m hm
    split at h
    · cases h
    · split at h
      · cases h
      · cases h
        rename_i h1 h2
        refine ⟨⟨?_, rfl⟩, rfl⟩
        refine WF_iff.2 ⟨?_, fun c hc => (hp c hc).1⟩
        simp only [localOk, Bool.and_eq_true]
        refine ⟨⟨⟨?_, ?_⟩, ?_⟩, ?_⟩
        · cases ps <;> simp_all
        · simpa only [List.all_eq_true] using hdim
        · rw [hm]; simpa [endsOk_cls] using h1
        · simp only [List.all_eq_true, Bool.not_eq_true']
          exact fun p hp' => (hp p hp').2

theorem mem_getLast? {α : Type} {l : List α} {a : α} (h : l.getLast? = some a) : a ∈ l := by
  exact List.mem_of_getLast? h

theorem measure_ok {t : Ty} (h : WF env t) : WF env t.measure := by
  cases t with
  | dshape ps =>
    simp only [Ty.measure]
    cases hl : ps.getLast? with
    | none =>
      have := h.local
      simp [localOk] at this
      cases ps <;> simp_all
    | some m => exact h.child (List.mem_of_getLast? hl)
  | _ => simpa [Ty.measure] using h

/-- the datashapes in a constructor argument are well-formed `DataShape`s -/
def ArgOk (env : Env) : Arg → Prop
  | .ds t => DSOk env t
  | .dss l => ∀ t ∈ l, DSOk env t
  | _ => True

/-- elements of an iterated argument: the datashapes among them are well formed -/
def ElemOk (env : Env) : Arg → Prop
  | .ds t => WF env t
  | .dss _ => False
  | _ => True

theorem iter_ok {a : Arg} {l : List Arg} (ha : ArgOk env a) (h : a.iter = .ok l) : ∀ x ∈ l, ElemOk env x := by
  cases a with
  | lit x =>
    cases x with
    | str s => simp [Arg.iter] at h; subst h; simp [ElemOk]
    | _ => simp [Arg.iter] at h
  | lits x => simp [Arg.iter] at h; subst h; simp [ElemOk]
  | dss ts =>
    simp only [Arg.iter] at h; injection h with h; subst h
    simp only [List.mem_map]
    rintro x ⟨t, ht, rfl⟩
    exact (ha t ht).1
  | ds t =>
    obtain ⟨hw, hd⟩ := ha
    cases t <;> simp [Ty.isDShape] at hd
    rename_i ps
    simp only [Arg.iter] at h; injection h with h; subst h
    simp only [List.mem_map]
    rintro x ⟨t, ht, rfl⟩
    exact hw.child ht

theorem argOk_elem {a : Arg} (h : ArgOk env a) (hd : ∀ l, a ≠ .dss l) : ElemOk env a := by
  cases a with
  | ds t => exact h.1
  | dss l => exact absurd rfl (hd l)
  | _ => trivial

theorem wf_fixed (n : Nat) : ElOk env (.fixed n) := ⟨WF_iff.2 ⟨rfl, by simp [Ty.children]⟩, rfl⟩

theorem launderArg_ok {nest : Str → Except PyErr Ty} (hn : ∀ s t, nest s = .ok t → WF env t) {a : Arg} {t : Ty}
    (ha : ElemOk env a) (h : a.launder nest = .ok t) : WF env t ∧ t.isSingleton = false := by
  cases a with
  | lit x =>
    cases x with
    | int i =>
      simp only [Arg.launder, mkFixed] at h
      split at h <;> cases h
      exact ⟨(wf_fixed _).1, rfl⟩
    | bool b => simp only [Arg.launder] at h; cases h; exact ⟨(wf_fixed _).1, rfl⟩
    | str s =>
      simp only [Arg.launder] at h
      split at h <;> cases h
      exact launder_ok (hn _ _ (by assumption))
  | ds t => simp only [Arg.launder] at h; cases h; exact launder_ok ha
  | lits l => simp [Arg.launder] at h
  | dss l => simp [Arg.launder] at h

theorem structFields_ok {nest : Str → Except PyErr Ty} (hn : ∀ s t, nest s = .ok t → WF env t) :
    ∀ {l : List (Arg × Arg)} {fs : List (Str × Ty)}, (∀ p ∈ l, ElemOk env p.2) → structFields env nest l = .ok fs →
      ∀ f ∈ fs, WF env f.2 ∧ f.2.isSingleton = false := by
  intro l
  induction l with
  | nil => intro fs _ h; simp [structFields] at h; subst h; simp
  | cons p l ih =>
    intro fs hl h
    obtain ⟨n, a⟩ := p
    simp only [structFields] at h
    split at h
    · cases h
    · simp only [bind_ok] at h
      obtain ⟨t, ht, rest, hr, h⟩ := h
      cases h
      intro f hf
      simp only [List.mem_cons] at hf
      rcases hf with rfl | hf
      · exact launderArg_ok hn (hl (n, a) (by simp)) ht
      · exact ih (fun p hp => hl p (by simp [hp])) hr f hf

theorem mapM_ok {α β : Type} {f : α → Except PyErr β} {P : β → Prop} : ∀ {l : List α} {r : List β},
    (∀ a ∈ l, ∀ b, f a = .ok b → P b) → l.mapM f = .ok r → ∀ b ∈ r, P b := by
  intro l
  induction l with
  | nil => intro r _ h; cases h; simp
  | cons a l ih =>
    intro r hl h
    rw [List.mapM_cons] at h
    simp only [bind_ok] at h
    obtain ⟨b, hb, r', hr, h⟩ := h
    cases h
    intro x hx
    simp only [List.mem_cons] at hx
    rcases hx with rfl | hx
    · exact hl a (by simp) _ hb
    · exact ih (fun a ha => hl a (by simp [ha])) hr x hx

theorem wrapDS_ok {t u : Ty} (h : WF env t) (hw : wrapDS t = .ok u) : DSOk env u := by
  unfold wrapDS at hw
  split at hw
  · rename_i hd; cases hw; exact ⟨h, hd⟩
  · rename_i hd
    exact (mkDS_ok (ps := [t]) (by simp [ElOk, h]; simpa using hd) (by simp) hw).1

theorem bindArgs_ok {names : List Str} {args : List Arg} {kw : List (Str × Arg)} {l : List (Option Arg)}
    (h : bindArgs names args kw = .ok l) (h1 : ∀ a ∈ args, ArgOk env a) (h2 : ∀ p ∈ kw, ArgOk env p.2) :
    ∀ a, some a ∈ l → ArgOk env a := by
  unfold bindArgs at h
  split at h
  · simp at h
  · simp only at h
    split at h
    · simp at h
    · injection h with h
      subst h
      intro a ha
      simp only [List.mem_append, List.mem_map] at ha
      rcases ha with ⟨b, hb, e⟩ | ⟨n, _, e⟩
      · cases e; exact h1 _ hb
      · have := lookup_mem e
        exact h2 (n, a) (by simpa using this)

theorem encodings_canon {e c : Str} (h : encodings.lookup e = some c) : canonicalEncodings.contains c = true := by
  have := lookup_mem h
  have hd : ∀ p ∈ encodings, canonicalEncodings.contains p.2 = true := by decide
  exact hd _ this

theorem leaf_ok {t : Ty} (h : localOk env t = true) (hc : t.children = []) : WF env t :=
  WF_iff.2 ⟨h, by simp [hc]⟩

theorem mkString_ok {f : Option Int} {e : Option Str} {t : Ty} (h : mkString f e = .ok t) :
    WF env t ∧ ∃ c, t = .string f c ∧ canonicalEncodings.contains c = true := by
  unfold mkString at h
  simp only at h
  split at h <;> cases h
  rename_i c hc
  exact ⟨leaf_ok (encodings_canon hc) rfl, _, rfl, encodings_canon hc⟩

theorem mkTypeVar_ok {s : Str} {t : Ty} (h : mkTypeVar env s = .ok t) : WF env t ∧ t = .typevar s ∧ upperName env s = true := by
  unfold mkTypeVar at h
  split at h
  · cases h
  · split at h <;> cases h
    rename_i hu
    exact ⟨leaf_ok (by simpa [localOk, upperName] using hu) rfl, rfl, hu⟩

theorem mkTimeDelta_ok {s : Str} {t : Ty} (h : mkTimeDelta s = .ok t) : WF env t := by
  unfold mkTimeDelta at h
  split at h <;> cases h
  rename_i u hu
  refine leaf_ok ?_ rfl
  have := C12.canonical s u hu
  simp only [canonicalUnits] at this
  simp only [localOk, timeUnits, List.contains_iff_mem]
  simp only [List.mem_cons, List.not_mem_nil, or_false] at this ⊢
  omega

theorem constr_wf {nest : Str → Except PyErr Ty} {disc : List Lit → Except PyErr Ty}
    (hn : ∀ s t, nest s = .ok t → WF env t) (hdisc : ∀ l t, disc l = .ok t → WF env t) :
    ∀ n c, (defaultSym env nest disc).dtypeConstr n = some c → ∀ args kw t, (∀ a ∈ args, ArgOk env a) →
      (∀ p ∈ kw, ArgOk env p.2) → c args kw = .ok t → WF env t := by
  apply forall_constr
  · intro args kw t h1 h2 h
    simp only [cComplex, bind_ok] at h
    obtain ⟨l, _, h⟩ := h
    split at h
    · split at h
      · cases h; exact leaf_ok rfl rfl
      · split at h <;> cases h; exact leaf_ok rfl rfl
    · cases h
  · intro args kw t h1 h2 h
    unfold cString at h
    split at h
    · cases h
    · split at h
      any_goals exact (mkString_ok h).1
      · cases h
      · simp only [bind_ok] at h
        obtain ⟨_, _, u, hu, h⟩ := h
        obtain ⟨_, c, rfl, hc⟩ := mkString_ok (env := env) hu
        split at h <;> cases h
        · rename_i heq; cases heq; exact leaf_ok hc rfl
        · rename_i heq; cases heq; exact leaf_ok hc rfl
      · cases h
  · intro args kw t h1 h2 h
    simp only [cStruct, bind_ok] at h
    obtain ⟨l, hl, h⟩ := h
    have hb := bindArgs_ok hl h1 h2
    split at h
    · simp only [bind_ok] at h
      obtain ⟨ns, _, ts, hts, fs, hfs, h⟩ := h
      have h3 := structFields_ok hn (fun p hp => iter_ok (hb _ (by simp)) hts p.2 (List.of_mem_zip hp).2) hfs
      unfold mkRecord at h
      split at h <;> cases h
      rename_i hnd
      have hid : fs.map (fun f => (f.1, launderTy f.2)) = fs.map (fun f => (f.1, launderTy f.2)) := rfl
      refine WF_iff.2 ⟨?_, ?_⟩
      · simp only [localOk, Bool.and_eq_true, decide_eq_true_eq, List.all_eq_true, Bool.not_eq_true']
        refine ⟨?_, ?_⟩
        · rw [List.map_map]; exact hnd
        · simp only [List.mem_map]
          rintro f ⟨g, hg, rfl⟩
          exact (launder_ok (h3 g hg).1).2
      · simp only [Ty.children, List.map_map, List.mem_map, Function.comp]
        rintro c ⟨g, hg, rfl⟩
        exact (launder_ok (h3 g hg).1).1
    · cases h
  · intro args kw t h1 h2 h
    simp only [cTuple, bind_ok] at h
    obtain ⟨l, hl, h⟩ := h
    have hb := bindArgs_ok hl h1 h2
    split at h
    · simp only [bind_ok] at h
      obtain ⟨ts, hts, r, hr, h⟩ := h
      cases h
      have hr' : ∀ u ∈ r, DSOk env u := by
        refine mapM_ok (fun a ha b hb' => ?_) hr
        have he := iter_ok (hb _ (by simp)) hts a ha
        unfold tupleElem at hb'
        split at hb'
        · split at hb' <;> cases hb'
        · exact wrapDS_ok he hb'
        · cases hb'
      refine WF_iff.2 ⟨?_, fun c hc => (hr' c hc).1⟩
      simp only [localOk, List.all_eq_true]
      exact fun c hc => (hr' c hc).2
    · cases h
  · intro args kw t h1 h2 h
    simp only [cFunc, bind_ok] at h
    obtain ⟨l, hl, h⟩ := h
    have hb := bindArgs_ok hl h1 h2
    split at h
    · simp only [bind_ok] at h
      obtain ⟨ts, hts, r, hr, u, hu, h⟩ := h
      cases h
      have hr' : ∀ u ∈ r, WF env u := by
        refine mapM_ok (fun a ha b hb' => ?_) hr
        have he := iter_ok (hb _ (by simp)) hts a ha
        unfold funcElem at hb'
        split at hb' <;> cases hb'
        exact he
      have hu' : WF env u := by
        unfold funcElem at hu
        split at hu <;> cases hu
        exact (hb (.ds _) (by simp)).1
      refine WF_iff.2 ⟨by simp [localOk], ?_⟩
      simp only [Ty.children, List.mem_append, List.mem_singleton]
      rintro c (hc | rfl)
      · exact hr' c hc
      · exact hu'
    · cases h
  · intro args kw t h1 h2 h
    simp only [cTypeVar, bind_ok] at h
    obtain ⟨l, _, h⟩ := h
    split at h
    · exact (mkTypeVar_ok h).1
    · cases h
    · cases h
  · intro args kw t h1 h2 h
    simp only [cOption, bind_ok] at h
    obtain ⟨l, hl, h⟩ := h
    have hb := bindArgs_ok hl h1 h2
    split at h
    · simp only [bind_ok] at h
      obtain ⟨u, hu, h⟩ := h
      cases h
      rename_i a
      have he : ElemOk env a := argOk_elem (hb a (by simp)) (by rintro l rfl; simp [Arg.launder] at hu)
      have := launderArg_ok hn he hu
      exact WF_iff.2 ⟨by simp [localOk, this.2], by simpa [Ty.children] using this.1⟩
    · cases h
  · intro args kw t h1 h2 h
    simp only [cMap, bind_ok] at h
    obtain ⟨l, hl, h⟩ := h
    have hb := bindArgs_ok hl h1 h2
    split at h
    · simp only [bind_ok] at h
      obtain ⟨u, hu, v, hv, h⟩ := h
      cases h
      rename_i k w
      have hk : ElemOk env k := argOk_elem (hb k (by simp)) (by rintro l rfl; simp [Arg.launder] at hu)
      have hw : ElemOk env w := argOk_elem (hb w (by simp)) (by rintro l rfl; simp [Arg.launder] at hv)
      have h3 := launderArg_ok hn hk hu
      have h4 := launderArg_ok hn hw hv
      exact WF_iff.2 ⟨by simp [localOk, h3.2, h4.2], by simp [Ty.children, h3.1, h4.1]⟩
    · cases h
  · intro args kw t h1 h2 h
    simp only [cTime, bind_ok] at h
    obtain ⟨l, _, h⟩ := h
    split at h <;> cases h <;> exact leaf_ok rfl rfl
  · intro args kw t h1 h2 h
    simp only [cDateTime, bind_ok] at h
    obtain ⟨l, _, h⟩ := h
    split at h <;> cases h <;> exact leaf_ok rfl rfl
  · intro args kw t h1 h2 h
    simp only [cTimeDelta, bind_ok] at h
    obtain ⟨l, _, h⟩ := h
    split at h
    · exact mkTimeDelta_ok h
    · split at h
      · exact mkTimeDelta_ok h
      · cases h
    · cases h
  · intro args kw t h1 h2 h
    simp only [cUnits, bind_ok] at h
    obtain ⟨l, hl, h⟩ := h
    have hb := bindArgs_ok hl h1 h2
    split at h
    · cases h
      refine WF_iff.2 ⟨rfl, ?_⟩
      simp only [Ty.children, List.mem_singleton]
      rintro c rfl
      exact WF_iff.2 ⟨rfl, by simp only [Ty.children, List.mem_singleton]; rintro c rfl; exact leaf_ok rfl rfl⟩
    · unfold mkUnits at h
      simp only at h
      split at h <;> cases h
      rename_i u ht
      refine WF_iff.2 ⟨by simpa [localOk] using ht, ?_⟩
      have := (hb (.ds _) (List.mem_cons_of_mem _ List.mem_cons_self)).1
      simpa [Ty.children] using this
    · cases h
  · intro args kw t h1 h2 h
    simp only [cDecimal, bind_ok] at h
    obtain ⟨l, _, h⟩ := h
    split at h <;> cases h <;> exact leaf_ok rfl rfl
  · intro args kw t h1 h2 h
    simp only [cCategorical, bind_ok] at h
    obtain ⟨l, hl, h⟩ := h
    have hb := bindArgs_ok hl h1 h2
    split at h
    · simp only [bind_ok] at h
      obtain ⟨c, hc, c', hc', u, hu, h⟩ := h
      have hdm : ∀ l v, Except.map Ty.measure (disc l) = .ok v → WF env v := by
        intro l v hv
        cases hd : disc l with
        | error e => rw [hd] at hv; cases hv
        | ok w => rw [hd] at hv; cases hv; exact measure_ok (hdisc _ _ hd)
      have hu' : WF env u := by
        split at hu
        · split at hu
          · split at hu
            · cases hu
              rename_i hmem
              exact measure_ok (hb (.ds _) (by simp)).1
            · cases hu
          · exact hdm _ _ hu
        · exact hdm _ _ hu
      split at h <;> cases h <;> exact WF_iff.2 ⟨rfl, by simpa [Ty.children] using hu'⟩
    · cases h

/-- well-formedness of the value of a nonterminal -/
def ValOk (env : Env) : (n : NT) → n.Val → Prop
  | .datashape, t => DSOk env t
  | .nooption, t => DSOk env t
  | .dtype, t => ElOk env t
  | .arg, a => ArgOk env a
  | .kwarg, p => ArgOk env p.2
  | .argList, r => (∀ a ∈ r.1, ArgOk env a) ∧ ∀ p ∈ r.2, ArgOk env p.2
  | .field, p => DSOk env p.2
  | .dsList, l => ∀ t ∈ l, DSOk env t
  | .kwList, l => ∀ p ∈ l, ArgOk env p.2
  | .fieldList, l => ∀ p ∈ l, DSOk env p.2

theorem isDShape_iff {t : Ty} : t.isDShape = true ↔ ∃ ps, t = .dshape ps := by
  cases t <;> simp [Ty.isDShape]

theorem plain_not_ds {t : Ty} (h : t.plain = true) : t.isDShape = false := by
  cases t <;> simp_all [Ty.plain, Ty.isDShape]

theorem dimG_wf {nest : Str → Except PyErr Ty} {disc : List Lit → Except PyErr Ty} {ts : List Tk} {d : Ty}
    (h : DimG (defaultSym env nest disc) ts d) : ElOk env d ∧ d.isDim = true := by
  have hel : ∀ s t, mkEllipsis env s = .ok t → ElOk env t ∧ t.isDim = true := by
    intro s t h
    unfold mkEllipsis at h
    split at h <;> cases h
    rename_i u hu
    exact ⟨⟨leaf_ok (by simpa [localOk] using (mkTypeVar_ok hu).2.2) rfl, rfl⟩, rfl⟩
  cases h with
  | typevar hc ht =>
    cases hc
    have := mkTypeVar_ok ht
    exact ⟨⟨this.1, by rw [this.2.1]; rfl⟩, by rw [this.2.1]; rfl⟩
  | ellipsisTypevar hc ht => cases hc; exact hel _ _ ht
  | name h =>
    have := lookup_mem h
    simp only [dimTable, List.mem_cons, Prod.mk.injEq, List.not_mem_nil, or_false] at this
    rcases this with ⟨_, rfl⟩ | ⟨_, rfl⟩ <;> exact ⟨⟨leaf_ok rfl rfl, rfl⟩, rfl⟩
  | int hc ht =>
    cases hc
    simp only [mkFixed] at ht
    split at ht <;> cases ht
    exact ⟨wf_fixed _, rfl⟩
  | ellipsis h => cases h; exact ⟨⟨leaf_ok rfl rfl, rfl⟩, rfl⟩

theorem G_wf {nest : Str → Except PyErr Ty} {disc : List Lit → Except PyErr Ty} {q : Bool}
    (hn : ∀ s t, nest s = .ok t → WF env t) (hdisc : ∀ l t, disc l = .ok t → WF env t)
    {nt : NT} {ts : List Tk} {v : nt.Val} (h : G (defaultSym env nest disc) q nt ts v) : ValOk env nt v := by
  have el : ∀ {n c args kw t}, (defaultSym env nest disc).dtypeConstr n = some c → c args kw = .ok t →
      (∀ a ∈ args, ArgOk env a) → (∀ p ∈ kw, ArgOk env p.2) → ElOk env t := fun hc ht h1 h2 =>
    ⟨constr_wf hn hdisc _ _ hc _ _ _ h1 h2 ht, plain_not_ds (constr_plain env nest disc _ _ hc _ _ _ ht)⟩
  induction h with
  | plain _ ih => exact ih
  | option _ hc ho hm ih =>
    have := el hc ho (by simpa [ArgOk, ValOk] using ih) (by simp)
    exact (mkDS_ok (by simpa [ValOk] using this) (by simp) hm).1
  | dim hd _ hm ih =>
    refine (mkDS_ok ?_ ?_ hm).1
    · simp only [List.mem_cons]
      rintro p (rfl | hp)
      · exact (dimG_wf hd).1
      · exact DSOk.params ih p hp
    · intro p hp
      simp only [ValOk] at ih
      have hw := ih.1.local
      have hds := ih.2
      obtain ⟨ps, hps⟩ : ∃ ps, _ = Ty.dshape ps := isDShape_iff.1 hds
      rw [hps] at hw hp
      simp only [Ty.params] at hp
      simp only [localOk, Bool.and_eq_true, List.all_eq_true, Bool.not_eq_true', List.isEmpty_eq_false_iff] at hw
      cases ps with
      | nil => simp at hw
      | cons a ps =>
        simp only [List.dropLast_cons₂, List.mem_cons] at hp
        rcases hp with rfl | hp
        · exact (dimG_wf hd).2
        · exact hw.1.1.2 p hp
  | dtype _ hm _ ih => exact (mkDS_ok (by simpa [ValOk] using ih) (by simp) hm).1
  | dropped _ _ _ hm ih => exact (mkDS_ok (by simpa [ValOk] using ih) (by simp) hm).1
  | typevar hc ht => exact el hc ht (by simp [ArgOk]) (by simp)
  | name h =>
    have h' := lookup_mem h
    have hl : ∀ p ∈ dtypeTable, p.2.children = [] ∧ p.2.isDShape = false := by
      simp only [dtypeTable, List.forall_mem_cons]; simp [Ty.children, Ty.isDShape, tBool, tInt8, tInt16, tInt32, tInt64, tUint8, tUint16, tUint32, tUint64, tFloat16, tFloat32, tFloat64, tComplex64, tComplex128, tVoid, tObject, tString, tTimedelta]
    have hl2 : ∀ p ∈ dtypeTable, localOk env p.2 = true := by
      simp only [dtypeTable, List.forall_mem_cons]; simp [localOk, tBool, tInt8, tInt16, tInt32, tInt64, tUint8, tUint16, tUint32, tUint64, tFloat16, tFloat32, tFloat64, tComplex64, tComplex128, tVoid, tObject, tString, tTimedelta, canonicalEncodings, timeUnits]
    exact ⟨leaf_ok (hl2 _ h') (hl _ h').1, (hl _ h').2⟩
  | constr hc _ _ _ ht ih => exact el hc ht ih.1 ih.2
  | struct _ _ hc ht ih =>
    refine el hc ht ?_ (by simp)
    simp only [List.mem_cons, List.not_mem_nil, or_false]
    rintro a (rfl | rfl)
    · trivial
    · simp only [ArgOk, List.mem_map]
      rintro t ⟨f, hf, rfl⟩
      exact ih f hf
  | emptyStruct hc ht => exact el hc ht (by simp [ArgOk]) (by simp)
  | tuple _ _ hc ht ih => exact el hc ht (by simpa [ArgOk, ValOk] using ih) (by simp)
  | emptyTuple hc ht => exact el hc ht (by simp [ArgOk]) (by simp)
  | func _ _ _ hc ht ih ih' => exact el hc ht (by simp only [ValOk] at ih ih'; simpa [ArgOk] using ⟨ih, ih'⟩) (by simp)
  | emptyFunc _ hc ht ih' => exact el hc ht (by simpa [ArgOk, ValOk] using ih') (by simp)
  | field _ _ ih => exact ih
  | argDs _ ih => exact ih
  | argLit => trivial
  | argEmpty => trivial
  | argLits => trivial
  | argDss _ _ ih => exact ih
  | kwarg _ ih => exact ih
  | argsOne _ ih => exact ⟨by simpa [ValOk] using ih, by simp⟩
  | argsCons _ _ ih1 ih2 => exact ⟨List.forall_mem_cons.2 ⟨ih1, ih2.1⟩, ih2.2⟩
  | argsKw _ _ ih => exact ⟨by simp, ih⟩
  | argsEnd => exact ⟨by simp, by simp⟩
  | dsOne _ ih => simpa [ValOk] using ih
  | dsCons _ _ ih1 ih2 => exact List.forall_mem_cons.2 ⟨ih1, ih2⟩
  | kwOne _ ih => simpa [ValOk] using ih
  | kwCons _ _ ih1 ih2 => exact List.forall_mem_cons.2 ⟨ih1, ih2⟩
  | fieldOne _ ih => simpa [ValOk] using ih
  | fieldCons _ _ ih1 ih2 => exact List.forall_mem_cons.2 ⟨ih1, ih2⟩

theorem dshapeN_wf {disc : List Lit → Except PyErr Ty} (hdisc : ∀ l t, disc l = .ok t → WF env t) :
    ∀ (n : Nat) (s : Str) (t : Ty), dshapeN env disc n s = .ok t → DSOk env t ∧ validOk t = true := by
  intro n
  induction n with
  | zero => intro s t h; cases h
  | succ n ih =>
    intro s t h
    rw [dshapeN] at h
    split at h
    · rename_i u hu
      split at h <;> cases h
      rename_i hv
      obtain ⟨toks, _, hg⟩ := parse_sound (defaultSym_truthy env _ disc) hu
      exact ⟨G_wf (fun s t h => (ih s t h).1.1) hdisc hg, hv⟩
    · cases h

end DS
