import Verif.Proofs.Print
import Verif.Proofs.WF
import Verif.Proofs.Util
import Verif.Spec.Grammar

/-
The printed text of a datashape derives from the grammar, with the datashape as its value.
-/
namespace DS

/-! ### `canon` -/

theorem canonL_eq (l : List Ty) : canonL l = l.map Ty.canon := by
  induction l with
  | nil => rfl
  | cons t l ih => simp [canonL, ih]

theorem canonW_eq (l : List Ty) : canonW l = l.map (fun t => t.canon.wrap) := by
  induction l with
  | nil => rfl
  | cons t l ih => simp [canonW, ih]

theorem canonF_eq (l : List (Str × Ty)) : canonF l = l.map (fun f => (f.1, f.2.canon)) := by
  induction l with
  | nil => rfl
  | cons t l ih => obtain ⟨n, t⟩ := t; simp [canonF, ih]

theorem canon_isDShape (t : Ty) : t.canon.isDShape = t.isDShape := by cases t <;> rfl
theorem canon_cls (t : Ty) : t.canon.cls = t.cls := by cases t <;> rfl
theorem canon_isSingleton (t : Ty) : t.canon.isSingleton = t.isSingleton := by
  cases t <;> try rfl
  rename_i ps
  simp only [Ty.canon, canonL_eq]
  match ps with
  | [] => rfl
  | [a] => rfl
  | a :: b :: r => rfl

theorem not_singleton {t : Ty} (h : t.isDShape = false) : t.isSingleton = false := by
  cases t <;> first | rfl | (simp [Ty.isDShape] at h)

theorem wrap_eq {t : Ty} (h : t.isDShape = false) : t.wrap = .dshape [t] := by simp [Ty.wrap, h]
theorem wrap_self {t : Ty} (h : t.isDShape = true) : t.wrap = t := by simp [Ty.wrap, h]

theorem launder_wrap {t : Ty} (h : t.isSingleton = false) : launderTy t.wrap = t := by
  cases hd : t.isDShape with
  | false => rw [wrap_eq hd]; rfl
  | true => rw [wrap_self hd]; exact launderTy_of_not_singleton h

theorem measureLike_cls {t : Ty} (h : t.measureLike = true) : t.cls ≠ some .dimension := by
  cases t <;> simp_all [Ty.measureLike, Ty.cls]

section
variable {env : Env} {nest : Str → Except PyErr Ty} {disc : List Lit → Except PyErr Ty}

local notation "S" => defaultSym env nest disc

/-- The tokens `ks` denote `t` where a datashape is expected, and also where no leading `?` is allowed unless `t` is
an option. -/
def Der (env : Env) (nest : Str → Except PyErr Ty) (disc : List Lit → Except PyErr Ty) (ks : List Tk) (t : Ty) : Prop :=
  G (defaultSym env nest disc) false .datashape ks t.canon.wrap ∧
    (t.isOption = false → t.isSingleton = false → G (defaultSym env nest disc) false .nooption ks t.canon.wrap)

theorem Der.dtype {ks : List Tk} {t : Ty} (hd : t.isDShape = false) (hc : t.cls ≠ some .dimension)
    (h : G S false .dtype ks t.canon) : Der env nest disc ks t := by
  have hd' : t.canon.isDShape = false := by rw [canon_isDShape, hd]
  have : G S false .nooption ks t.canon.wrap := by
    rw [wrap_eq hd']
    refine G.dtype h (mkDS_self.2 <| .of ⟨[], _, rfl, by simp, by rw [canon_cls]; exact hc, ?_⟩)
    simpa using not_singleton hd'
  exact ⟨.plain this, fun _ _ => this⟩

theorem Der.name {n : Str} {t : Ty} (hd : t.isDShape = false) (hc : t.cls ≠ some .dimension)
    (h : dtypeTable.lookup n = some t.canon) : Der env nest disc [.lower n] t :=
  .dtype hd hc (.name h)

theorem Der.constr {n : Str} {c : Constr} {ts : List Tk} {args : List Arg} {kw : List (Str × Arg)} {t : Ty}
    (hd : t.isDShape = false) (hcl : t.cls ≠ some .dimension)
    (h : (constrTable env nest disc).lookup n = some c) (hn : (dimConstrTable env).lookup n = none)
    (hg : G S false .argList ts (args, kw)) (hne : (args, kw) ≠ ([], [])) (hc : c args kw = .ok t.canon) :
    Der env nest disc (.lower n :: .lbrack :: (ts ++ [.rbrack])) t :=
  .dtype hd hcl (.constr h (fun _ => hn) hg hne hc)

/-! ### Dimensions -/

theorem typeVar_isUpper {s : Str} (h : typeVarName s = true) : mkTypeVar env s = .ok (.typevar s) := by
  cases s with
  | nil => cases h
  | cons c s =>
    simp only [typeVarName, Bool.and_eq_true] at h
    have hc := h.1.1
    have : c < 128 := by simp [isUpperA] at hc; omega
    simp [mkTypeVar, Env.isUpper, this, hc]

theorem dim_reads {d : Ty} (hd : d.isDim = true) (hs : spelledLocal env d = true) :
    ∃ ks, Lay (render env d none) ks ∧ DimG S ks d ∧ d.canon = d ∧ d.cls ≠ some .measure ∧ d.isSingleton = false := by
  cases d with
  | fixed n =>
    refine ⟨[.int n], ?_, .int rfl ?_, rfl, by simp [Ty.cls], rfl⟩
    · have := Lay.int (i := n) .nil .nil
      simpa [render, intStr] using this
    · show mkFixed n = _
      simp [mkFixed]
  | var => exact ⟨[.lower (py"var")], .one ⟨rfl, word_of rfl rfl⟩ (by simp [Munch]), .name rfl, rfl, by simp [Ty.cls], rfl⟩
  | typevar s =>
    refine ⟨[.upper s], ?_, .typevar rfl (typeVar_isUpper hs), rfl, by simp [Ty.cls], rfl⟩
    have := Lay.upper (r := []) (ks := []) hs .nil .nil
    simpa [render] using this
  | ellipsis s =>
    have he : Lay (py"...") [.ellipsis] := .one rfl trivial
    cases s with
    | none => exact ⟨[.ellipsis], he, .ellipsis rfl, rfl, by simp [Ty.cls], rfl⟩
    | some s =>
      refine ⟨[.upper s, .ellipsis], Lay.upper hs (.cons (by decide)) he, .ellipsisTypevar rfl ?_, rfl, by simp [Ty.cls], rfl⟩
      show mkEllipsis env s = _
      simp [mkEllipsis, typeVar_isUpper (env := env) hs]
  | _ => cases hd

/-- the text of dimensions in front of a measure -/
def dimText (env : Env) (ds : List Ty) : Str := ds.flatMap fun d => render env d none ++ py" * "

theorem dims_read {ds : List Ty} (hds : ∀ d ∈ ds, d.isDim = true ∧ spelledLocal env d = true) {m : Ty} {X : Str} {kx : List Tk}
    (hm : m.isDShape = false) (hml : m.measureLike = true) (hX : Lay X kx) (hd : Der env nest disc kx m) :
    ∃ ks, Lay (dimText env ds ++ X) ks ∧ G S false .datashape ks (.dshape (ds ++ [m.canon])) ∧
      (ds ≠ [] → G S false .nooption ks (.dshape (ds ++ [m.canon]))) ∧ Constructible (ds ++ [m.canon]) := by
  induction ds with
  | nil =>
    have hd' : m.canon.isDShape = false := by rw [canon_isDShape, hm]
    refine ⟨kx, hX, ?_, by simp, .of ⟨[], _, rfl, by simp, ?_, by simpa using not_singleton hd'⟩⟩
    · have := hd.1
      rwa [wrap_eq hd'] at this
    · rw [canon_cls]; exact measureLike_cls hml
  | cons d ds ih =>
    obtain ⟨ks, hl, hg, _, hC⟩ := ih (fun d hd => hds d (List.mem_cons_of_mem _ hd))
    have hd0 := hds d (by simp)
    obtain ⟨kd, hld, hgd, _, hcl, hsg⟩ := dim_reads (nest := nest) (disc := disc) hd0.1 hd0.2
    have hC' := hC.cons hcl hsg
    have hno : G S false .nooption (kd ++ .star :: ks) (.dshape (d :: ds ++ [m.canon])) :=
      .dim hgd hg (mkDS_self.2 hC')
    refine ⟨kd ++ .star :: ks, ?_, .plain hno, fun _ => hno, hC'⟩
    have e : dimText env (d :: ds) ++ X = render env d none ++ (32 :: 42 :: 32 :: (dimText env ds ++ X)) := by
      simp [dimText]
    rw [e]
    exact hld.append (.space (.star (.space hl))) (.cons (by decide))

theorem renderL_eq (l : List Ty) (w : Option Int) : renderL env l w = l.map (fun t => render env t w) := by
  induction l with
  | nil => rfl
  | cons t l ih => simp [renderL, ih]

theorem renderInit_eq (l : List Ty) (m : Ty) : renderInit env (l ++ [m]) = l.map (fun t => render env t none) := by
  induction l with
  | nil => rfl
  | cons t l ih => cases l <;> simp_all [renderInit]

theorem renderLast_eq (l : List Ty) (m : Ty) : renderLast env (l ++ [m]) = render env m none := by
  induction l with
  | nil => rfl
  | cons t l ih => cases l <;> simp_all [renderLast]

theorem renderDS_eq (l : List Ty) (m : Ty) (r : Str) (w : Int) : renderDS env (l ++ [m]) r w = renderDS env [m] r w := by
  induction l with
  | nil => rfl
  | cons t l ih =>
    cases l with
    | nil => simp [renderDS]
    | cons u l =>
      rw [← ih]
      simp [renderDS]

theorem join_star (ds : List Ty) (X : Str) :
    join (py" * ") (ds.map (fun t => render env t none) ++ [X]) = dimText env ds ++ X := by
  induction ds with
  | nil => simp [join, dimText]
  | cons d ds ih =>
    have : ∃ a r, ds.map (fun t => render env t none) ++ [X] = a :: r := by cases ds <;> simp
    obtain ⟨a, r, e⟩ := this
    simp only [List.map_cons, List.cons_append, e, join]
    rw [← e, ih]
    simp [dimText]

theorem dimPrefix_eq (ds : List Ty) : dimPrefix (ds.map (fun t => render env t none)) = dimText env ds := by
  cases ds with
  | nil => rfl
  | cons d ds =>
    have := join_star (env := env) (d :: ds) []
    rw [List.append_nil] at this
    rw [← this]
    have key : ∀ (l : List Str) (x : Str), join (py" * ") (x :: l) ++ py" * " = join (py" * ") (x :: l ++ [[]]) := by
      intro l
      induction l with
      | nil => intro x; simp [join]
      | cons y l ih => intro x; simp only [List.cons_append, join, List.append_assoc] at ih ⊢; rw [ih y]
    simp only [dimPrefix, List.map_cons, List.isEmpty_cons, Bool.false_eq_true, ite_false]
    exact key _ _

/-! ### Lists -/

theorem dsList_reads {ts : List Ty} (h : ∀ t ∈ ts, ∀ w, ∃ ks, Lay (render env t w) ks ∧ Der env nest disc ks t) (w : Option Int) :
    ∃ ks, LayL (renderL env ts w) ks ∧ (ts = [] → ks = []) ∧
      (ts ≠ [] → G S false .dsList (sepBy ks) (ts.map fun t => t.canon.wrap)) := by
  induction ts with
  | nil => exact ⟨[], .nil, fun _ => rfl, by simp⟩
  | cons t ts ih =>
    obtain ⟨ks, h1, h2, h3⟩ := ih fun t ht => h t (List.mem_cons_of_mem _ ht)
    obtain ⟨k, hk, hd⟩ := h t (by simp) w
    refine ⟨k :: ks, .cons hk h1, by simp, fun _ => ?_⟩
    cases ts with
    | nil => rw [h2 rfl]; exact .dsOne hd.1
    | cons u ts =>
      cases h1 with
      | cons _ _ => exact .dsCons hd.1 (h3 (by simp))

theorem mapM_ds {f : Arg → Except PyErr Ty} (l : List Ty) (h : ∀ t ∈ l, f (.ds t) = .ok t) :
    (l.map Arg.ds).mapM f = .ok l := by
  induction l with
  | nil => rfl
  | cons t l ih =>
    rw [List.map_cons, List.mapM_cons, h t (by simp), ih fun t ht => h t (List.mem_cons_of_mem _ ht)]
    rfl

theorem cTuple_ok {l : List Ty} (h : ∀ t ∈ l, t.isDShape = true) : cTuple [.dss l] [] = .ok (.tuple l) := by
  show ((l.map Arg.ds).mapM tupleElem >>= fun l => Except.ok (Ty.tuple l)) = _
  rw [mapM_ds l fun t ht => by simp [tupleElem, wrapDS, h t ht]]
  rfl

theorem cFunc_ok {l : List Ty} {r : Ty} : cFunc [.dss l, .ds r] [] = .ok (.func (l ++ [r])) := by
  show ((l.map Arg.ds).mapM funcElem >>= fun l => (funcElem (.ds r) >>= fun r => Except.ok (Ty.func (l ++ [r])))) = _
  rw [mapM_ds l fun t ht => rfl]
  rfl

theorem structFields_ok' (fs : List (Str × Ty)) :
    structFields env nest ((fs.map fun f => Arg.lit (.str f.1)).zip (fs.map fun f => Arg.ds f.2)) =
      .ok (fs.map fun f => (f.1, launderTy f.2)) := by
  induction fs with
  | nil => rfl
  | cons f fs ih =>
    simp only [List.map_cons, List.zip_cons_cons, structFields, Arg.str, Arg.launder, ih, bind, Except.bind]

theorem cStruct_ok {fs : List (Str × Ty)} (hn : (fs.map (·.1)).Nodup)
    (hl : ∀ f ∈ fs, (launderTy f.2).isSingleton = false) :
    cStruct env nest [.lits (fs.map fun f => .str f.1), .dss (fs.map (·.2))] [] = .ok (.record (fs.map fun f => (f.1, launderTy f.2))) := by
  show (structFields env nest (((fs.map fun f => Lit.str f.1).map Arg.lit).zip ((fs.map (·.2)).map Arg.ds)) >>= fun l => mkRecord l) = _
  have := structFields_ok' (env := env) (nest := nest) fs
  simp only [List.map_map, Function.comp_def, this, bind, Except.bind]
  simp only [mkRecord, List.map_map, Function.comp_def, hn, ite_true]
  congr 2
  exact List.map_congr_left fun f hf => by rw [launderTy_of_not_singleton (hl f hf)]

/-! ### Field names -/

theorem identRest (c : Nat) (r : Str) : isIdentifier.rest (c :: r) = true ↔
    (c :: r).all isWord = true ∨ (∃ p, c :: r = p ++ [10] ∧ p.all isWord = true) := by
  induction r generalizing c with
  | nil =>
    simp only [isIdentifier.rest, Bool.or_eq_true, beq_iff_eq, List.all_cons, List.all_nil, Bool.and_true]
    constructor
    · rintro (h | rfl)
      · exact .inl h
      · exact .inr ⟨[], rfl, rfl⟩
    · rintro (h | ⟨p, e, _⟩)
      · exact .inl h
      · cases p with
        | nil => cases e; exact .inr rfl
        | cons a p => cases p <;> cases e
  | cons d r ih =>
    simp only [isIdentifier.rest, Bool.and_eq_true, ih]
    constructor
    · rintro ⟨hc, h | ⟨p, e, hp⟩⟩
      · exact .inl (by rw [List.all_cons, hc, h]; rfl)
      · exact .inr ⟨c :: p, by simp [e], by simp only [List.all_cons, hc, hp]; rfl⟩
    · rintro (h | ⟨p, e, hp⟩)
      · rw [List.all_cons, Bool.and_eq_true] at h; exact ⟨h.1, .inl h.2⟩
      · cases p with
        | nil => cases e
        | cons a p =>
          rw [List.cons_append, List.cons.injEq] at e
          obtain ⟨rfl, e⟩ := e
          simp only [List.all_cons, Bool.and_eq_true] at hp
          exact ⟨hp.1, .inr ⟨p, e, hp.2⟩⟩

/-- the regular expression with `$` accepts identifiers, and identifiers followed by a newline -/
theorem isIdentifier_iff (n : Str) : isIdentifier n = true ↔
    identName n = true ∨ (n.getLast? = some 10 ∧ identName n.dropLast = true) := by
  cases n with
  | nil => simp [isIdentifier, identName]
  | cons c r =>
    simp only [isIdentifier, Bool.and_eq_true]
    cases r with
    | nil =>
      simp only [isIdentifier.rest, and_true, identName, List.all_nil, Bool.and_true]
      constructor
      · exact .inl
      · rintro (h | ⟨_, h⟩)
        · exact h
        · cases h
    | cons d r =>
      rw [identRest]
      simp only [identName, Bool.and_eq_true]
      constructor
      · rintro ⟨hc, h | ⟨p, e, hp⟩⟩
        · exact .inl ⟨hc, h⟩
        · rw [e]
          rw [← List.cons_append, List.dropLast_concat, List.getLast?_concat]
          refine .inr ⟨rfl, ?_⟩
          simp only [identName, Bool.and_eq_true]
          exact ⟨hc, hp⟩
      · rintro (⟨hc, h⟩ | ⟨h1, h2⟩)
        · exact ⟨hc, .inl h⟩
        · obtain ⟨p, e⟩ := List.getLast?_eq_some_iff.1 h1
          rw [e, List.dropLast_concat] at h2
          cases p with
          | nil => cases h2
          | cons a p =>
            rw [List.cons_append, List.cons.injEq] at e
            obtain ⟨rfl, e⟩ := e
            simp only [identName, Bool.and_eq_true] at h2
            exact ⟨h2.1, .inr ⟨p, e, h2.2⟩⟩

theorem fieldName_reads {n : Str} (h : fieldNameOk env n = true) {r : Str} {ks : List Tk} (hr : Lay (58 :: r) ks) :
    ∃ k, Lay (fieldName env n ++ 58 :: r) (k :: ks) ∧ FieldName k n := by
  have hs : Soft (58 :: r) := .cons (by decide)
  unfold fieldNameOk at h
  unfold fieldName
  cases hi : identName n with
  | true =>
    rw [if_pos ((isIdentifier_iff n).2 (.inl hi))]
    simp only [hi, ite_true, Bool.not_eq_true'] at h
    cases n with
    | nil => cases hi
    | cons c r =>
      simp only [identName, Bool.and_eq_true, Bool.or_eq_true] at hi
      rcases hi with ⟨(hc | hc) | hc, hw⟩
      · exact ⟨_, .tok (k := .lower _) ⟨rfl, word_of hc hw⟩ hs hr, .lower⟩
      · have ht : typeVarName (c :: r) = true := by
          simp [typeVarName, hc, h]; simpa using hw
        exact ⟨_, .upper ht hs hr, .upper⟩
      · exact ⟨_, .tok (k := .other _) ⟨rfl, word_of (start := (· == 95)) hc hw⟩ hs hr, .other⟩
  | false =>
    simp only [hi, Bool.false_eq_true, ite_false, Bool.and_eq_true, Bool.not_eq_true', Bool.and_eq_false_iff] at h
    have : isIdentifier n = false := by
      cases hid : isIdentifier n with
      | false => rfl
      | true =>
        rcases (isIdentifier_iff n).1 hid with h' | ⟨h1, h2⟩
        · rw [h'] at hi; cases hi
        · rw [h1, h2] at h; simp at h
    rw [this]
    exact ⟨_, .repr h.1 hr, .str⟩

theorem fieldList_reads {fs : List (Str × Ty)} (hn : ∀ f ∈ fs, fieldNameOk env f.1 = true)
    (h : ∀ f ∈ fs, ∀ w, ∃ ks, Lay (render env f.2 w) ks ∧ Der env nest disc ks f.2) (w : Int) :
    ∃ ks, LayL (renderF env fs w) ks ∧ (fs = [] → ks = []) ∧
      (fs ≠ [] → G S false .fieldList (sepBy ks) (fs.map fun f => (f.1, f.2.canon.wrap))) := by
  induction fs with
  | nil => exact ⟨[], .nil, fun _ => rfl, by simp⟩
  | cons f fs ih =>
    obtain ⟨n, t⟩ := f
    obtain ⟨ks, h1, h2, h3⟩ := ih (fun t ht => hn t (List.mem_cons_of_mem _ ht)) fun t ht => h t (List.mem_cons_of_mem _ ht)
    obtain ⟨k, hk, hd⟩ := h (n, t) (by simp) (some (w - n.length))
    obtain ⟨kn, hl, hf⟩ := fieldName_reads (hn (n, t) (by simp)) (Lay.colon (.space hk))
    refine ⟨(kn :: .colon :: k) :: ks, .cons ?_ h1, by simp, fun _ => ?_⟩
    · simpa [List.append_assoc] using hl
    · have hfield : G S false .field (kn :: .colon :: k) (n, t.canon.wrap) := .field hf hd.1
      cases fs with
      | nil => rw [h2 rfl]; exact .fieldOne hfield
      | cons u ts =>
        cases h1 with
        | cons _ _ => exact .fieldCons hfield (h3 (by simp))

/-! ### Arguments of constructors -/

theorem Der.arg {ks : List Tk} {t : Ty} (h : Der env nest disc ks t) : G S false .arg ks (.ds t.canon.wrap) := .argDs h.1

theorem argLit_reads (l : Lit) : G S false .arg [Lit.tok l] (.lit l) := .argLit (j := []) .none

theorem args1 {ts : List Tk} {a : Arg} (h : G S false .arg ts a) : G S false .argList ts ([a], []) := .argsOne h
theorem args2 {ts us : List Tk} {a b : Arg} (h : G S false .arg ts a) (h' : G S false .arg us b) :
    G S false .argList (ts ++ .comma :: us) ([a, b], []) := .argsCons h (.argsOne h')
theorem kws {ts : List Tk} {kw : List (Str × Arg)} (h : G S false .kwList ts kw) : G S false .argList ts ([], kw) :=
  .argsKw (j := []) .none h

/-! ### Leaves -/

/-- A C type in the table: its text and tokens. -/
theorem ctype_reads {n : Str} {i a : Nat} (h : spelledLocal env (.ctype n i a) = true) :
    ∃ ks, Lay n ks ∧ Der env nest disc ks (.ctype n i a) := by
  simp only [spelledLocal, List.contains_iff_mem] at h
  have simple : ∀ n i a, Word isLower n → dtypeTable.lookup n = some (.ctype n i a) →
      ∃ ks, Lay n ks ∧ Der env nest disc ks (.ctype n i a) := fun n i a hw hl =>
    ⟨[.lower n], .one ⟨rfl, hw⟩ (by simp [Munch]), .name rfl (by simp [Ty.cls]) hl⟩
  have cplx : ∀ (n f : Str) (i a k : Nat), Word isLower f → n = py"complex" ++ 91 :: (f ++ [93]) →
      dtypeTable.lookup f = some (.ctype f k k) → cComplex [.ds (.dshape [.ctype f k k])] [] = .ok (.ctype n i a) →
      ∃ ks, Lay n ks ∧ Der env nest disc ks (.ctype n i a) := by
    intro n f i a k hw hn hl hc
    refine ⟨_, ?_, Der.constr (n := py"complex") rfl (by simp [Ty.cls]) rfl rfl (args1 (Der.name (t := .ctype f k k) rfl (by simp [Ty.cls]) hl).arg) (by simp) hc⟩
    rw [hn]
    refine .lower (word_of rfl rfl) (.cons (by decide)) (.lbrack ?_)
    exact .lower hw (.cons (by decide)) (.rbrack .nil)
  simp only [spelledCtypes, List.mem_cons, List.not_mem_nil, or_false, Prod.mk.injEq] at h
  rcases h with ⟨rfl, rfl, rfl⟩ | ⟨rfl, rfl, rfl⟩ | ⟨rfl, rfl, rfl⟩ | ⟨rfl, rfl, rfl⟩ | ⟨rfl, rfl, rfl⟩ | ⟨rfl, rfl, rfl⟩ |
    ⟨rfl, rfl, rfl⟩ | ⟨rfl, rfl, rfl⟩ | ⟨rfl, rfl, rfl⟩ | ⟨rfl, rfl, rfl⟩ | ⟨rfl, rfl, rfl⟩ | ⟨rfl, rfl, rfl⟩ | ⟨rfl, rfl, rfl⟩ |
    ⟨rfl, rfl, rfl⟩ | ⟨rfl, rfl, rfl⟩ | ⟨rfl, rfl, rfl⟩
  case inr.inr.inr.inr.inr.inr.inr.inr.inr.inr.inr.inr.inl => exact cplx _ (py"float32") 8 4 4 (word_of rfl rfl) rfl rfl rfl
  case inr.inr.inr.inr.inr.inr.inr.inr.inr.inr.inr.inr.inr.inl => exact cplx _ (py"float64") 16 8 8 (word_of rfl rfl) rfl rfl rfl
  all_goals exact simple _ _ _ (word_of rfl rfl) rfl


/-! ### The main induction -/

/-- Printed at any width, and behind any dimensions, `t` is read back. -/
def Reads (env : Env) (nest : Str → Except PyErr Ty) (disc : List Lit → Except PyErr Ty) (t : Ty) : Prop :=
  (∀ w, ∃ ks, Lay (render env t w) ks ∧ Der env nest disc ks t) ∧
  (t.isDShape = false → ∀ r w, ∃ X ks, renderDS env [t] r w = r ++ X ∧ Lay X ks ∧ Der env nest disc ks t)

theorem Reads.simple {t : Ty} (h : ∃ ks, Lay (render env t none) ks ∧ Der env nest disc ks t)
    (h1 : ∀ w, render env t w = render env t none) (h2 : ∀ r w, renderDS env [t] r w = r ++ render env t none) :
    Reads env nest disc t := by
  obtain ⟨ks, hl, hd⟩ := h
  exact ⟨fun w => ⟨ks, by rw [h1]; exact hl, hd⟩, fun _ r w => ⟨_, ks, h2 r w, hl, hd⟩⟩

/-- a type written as one lower-case name -/
theorem Reads.name {n : Str} {t : Ty} (hd : t.isDShape = false) (hc : t.cls ≠ some .dimension)
    (h : dtypeTable.lookup n = some t.canon) (hn : Word isLower n) (h0 : render env t none = n)
    (h1 : ∀ w, render env t w = render env t none) (h2 : ∀ r w, renderDS env [t] r w = r ++ render env t none) :
    Reads env nest disc t :=
  .simple ⟨[.lower n], by rw [h0]; exact .one ⟨rfl, hn⟩ (by simp [Munch]), .name hd hc h⟩ h1 h2

/-- a constructor with arguments in brackets -/
theorem Reads.constr {n : Str} {c : Constr} {ts : List Tk} {args : List Arg} {kw : List (Str × Arg)} {t : Ty} {X : Str}
    (hd : t.isDShape = false) (hcl : t.cls ≠ some .dimension)
    (h : (constrTable env nest disc).lookup n = some c) (hn : (dimConstrTable env).lookup n = none)
    (hg : G S false .argList ts (args, kw)) (hne : (args, kw) ≠ ([], [])) (hc : c args kw = .ok t.canon)
    (hw : Word isLower n) (hX : Lay X (ts ++ [.rbrack])) (h0 : render env t none = n ++ 91 :: X)
    (h1 : ∀ w, render env t w = render env t none) (h2 : ∀ r w, renderDS env [t] r w = r ++ render env t none) :
    Reads env nest disc t :=
  .simple ⟨_, by rw [h0]; exact .lower hw (.cons (by decide)) (.lbrack hX), Der.constr hd hcl h hn hg hne hc⟩ h1 h2

theorem softBrack : Soft [93] := .cons (by decide)
theorem layBrack : Lay [93] [.rbrack] := .rbrack .nil

theorem units_float {t : Ty} (hd : t.isDShape = true) (h : pyEq t (.dshape [tFloat64]) = true) : t = .dshape [tFloat64] := by
  obtain ⟨ps, rfl⟩ := isDShape_iff.1 hd
  simp only [pyEq, eqM, Ty.shape, Ty.measure, Bool.and_eq_true] at h
  match ps with
  | [] => have := h.2; simp [eqLast, tFloat64] at this
  | [x] =>
    have := h.2
    simp only [eqLast, List.getLast?_singleton, Option.getD_some] at this
    cases x <;> simp [eqM, tFloat64, Ty.noShape, Ty.target] at this
    obtain ⟨⟨rfl, rfl⟩, rfl⟩ := this
    rfl
  | x :: y :: r => simp [eqInit] at h

theorem lits_lay {l : List Lit} (h : ∀ x ∈ l, ∀ s, x = .str s → spelledStr env s = true) :
    LayL (l.map (litRepr env)) (l.map fun x => [Lit.tok x]) := by
  induction l with
  | nil => exact .nil
  | cons x l ih =>
    refine .cons ?_ (ih fun y hy => h y (List.mem_cons_of_mem _ hy))
    cases x with
    | int i => simpa [litRepr, Lit.tok] using Lay.int (i := i) .nil .nil
    | bool b => simpa [litRepr, Lit.tok] using Lay.bool (b := b) .nil
    | str s => simpa [litRepr, Lit.tok] using Lay.repr (h _ (by simp) s rfl) .nil

theorem sepBy_commas (l : List Tk) : sepBy (l.map fun x => [x]) = commas l := by
  induction l with
  | nil => rfl
  | cons x l ih => cases l <;> simp_all [sepBy, commas]

theorem mapM_cat (c : List Lit) : (c.map Arg.lit).mapM catElem = .ok c := by
  induction c with
  | nil => rfl
  | cons x c ih => rw [List.map_cons, List.mapM_cons, ih]; rfl

/-- the list of categories as an argument -/
theorem categories_read {c : List Lit} (h : categoriesOk env c = true) : ∃ ks, Lay (formatCategories env c) ks ∧
    G S false .arg ks (.lits c) := by
  simp only [categoriesOk, Bool.and_eq_true, decide_eq_true_eq, Bool.or_eq_true, List.all_eq_true] at h
  obtain ⟨hlen, hk⟩ := h
  have hsp : ∀ x ∈ c, ∀ s, x = .str s → spelledStr env s = true := by
    rintro x hx s rfl
    rcases hk with (hk | hk) | hk
    · cases hk _ hx
    · cases hk _ hx
    · exact hk _ hx
  have htake : c.take 10 = c := List.take_of_length_le hlen
  have hl : Lay (formatCategories env c) (.lbrack :: (commas (c.map Lit.tok) ++ [.rbrack])) := by
    unfold formatCategories
    rw [htake, if_neg (by omega)]
    have := lay_join (sep := py", ") (.inl rfl) (lits_lay (env := env) hsp)
    have e : sepBy (c.map fun x => [Lit.tok x]) = commas (c.map Lit.tok) := by
      rw [← sepBy_commas]; simp [Function.comp_def]
    rw [e] at this
    have := Lay.lbrack (this.append layBrack softBrack)
    simpa using this
  refine ⟨_, hl, ?_⟩
  cases c with
  | nil => exact .argEmpty (j := []) .none
  | cons x c =>
    refine .argLits (j := []) .none ⟨by simp, ?_⟩
    generalize x :: c = l at hk
    rcases hk with (hk | hk) | hk
    · left
      refine ⟨l.map (fun | .int i => i | _ => 0), ?_⟩
      rw [List.map_map]
      conv => lhs; rw [← List.map_id l]
      refine List.map_congr_left fun y hy => ?_
      have := hk y hy
      cases y <;> first | rfl | cases this
    · right; right
      refine ⟨l.map (fun | .bool b => b | _ => false), ?_⟩
      rw [List.map_map]
      conv => lhs; rw [← List.map_id l]
      refine List.map_congr_left fun y hy => ?_
      have := hk y hy
      cases y <;> first | rfl | cases this
    · right; left
      refine ⟨l.map (fun | .str s => s | _ => []), ?_⟩
      rw [List.map_map]
      conv => lhs; rw [← List.map_id l]
      refine List.map_congr_left fun y hy => ?_
      have := hk y hy
      cases y <;> first | rfl | cases this

theorem timedelta_ok {u : Str} (h : timeUnits.contains u = true) : mkTimeDelta u = .ok (.timedelta u) ∧ spelledStr env u = true := by
  simp only [timeUnits, List.contains_iff_mem, List.mem_cons, List.not_mem_nil, or_false] at h
  rcases h with rfl | rfl | rfl | rfl | rfl | rfl | rfl | rfl | rfl | rfl <;> exact ⟨rfl, rfl⟩

theorem encoding_ok {e : Str} (h : canonicalEncodings.contains e = true) : encodings.lookup e = some e ∧ e.isEmpty = false ∧ spelledStr env e = true := by
  simp only [canonicalEncodings, List.contains_iff_mem, List.mem_cons, List.not_mem_nil, or_false] at h
  rcases h with rfl | rfl | rfl | rfl <;> exact ⟨rfl, rfl, rfl⟩

/-- `fs` as read by the struct constructor -/
theorem struct_ok {fs : List (Str × Ty)} (hn : (fs.map (·.1)).Nodup) (hs : ∀ f ∈ fs, f.2.isSingleton = false) :
    cStruct env nest [.lits ((fs.map fun f => (f.1, f.2.canon.wrap)).map fun f => .str f.1),
      .dss ((fs.map fun f => (f.1, f.2.canon.wrap)).map (·.2))] [] = .ok (Ty.record fs).canon := by
  have hl : ∀ f ∈ fs, launderTy f.2.canon.wrap = f.2.canon := fun f hf =>
    launder_wrap (by rw [canon_isSingleton]; exact hs f hf)
  rw [cStruct_ok]
  · simp only [Ty.canon, canonF_eq, List.map_map, Function.comp_def]
    congr 2
    exact List.map_congr_left fun f hf => by rw [hl f hf]
  · simpa [List.map_map, Function.comp_def] using hn
  · intro f hf
    obtain ⟨g, hg, rfl⟩ := List.mem_map.1 hf
    show (launderTy g.2.canon.wrap).isSingleton = false
    rw [hl g hg, canon_isSingleton]; exact hs g hg

theorem record_reads {fs : List (Str × Ty)} (hn : (fs.map (·.1)).Nodup) (hs : ∀ f ∈ fs, f.2.isSingleton = false)
    (hname : ∀ f ∈ fs, fieldNameOk env f.1 = true)
    (h : ∀ f ∈ fs, ∀ w, ∃ ks, Lay (render env f.2 w) ks ∧ Der env nest disc ks f.2) (r : Str) (w w' : Int) :
    ∃ X ks, layout 123 125 r (renderF env fs w) w' = r ++ X ∧ Lay X ks ∧ Der env nest disc ks (.record fs) := by
  obtain ⟨ks, h1, h2, h3⟩ := fieldList_reads hname h w
  obtain ⟨X, e, hX⟩ := lay_layout (l := 123) (r := 125) (kl := .lbrace) (kr := .rbrace) rfl (fun _ => trivial) rfl
    (fun _ => trivial) (by decide) h1 r w'
  refine ⟨X, _, e, hX, .dtype rfl (by simp [Ty.cls]) ?_⟩
  have hc := struct_ok (env := env) (nest := nest) hn hs
  cases fs with
  | nil =>
    rw [h2 rfl]
    exact .emptyStruct (c := cStruct env nest) rfl hc
  | cons f fs =>
    have := h3 (by simp)
    have := G.struct (comma := []) (c := cStruct env nest) this (.inl rfl) rfl hc
    simpa using this

theorem tuple_reads {ts : List Ty} (hd : ∀ t ∈ ts, t.isDShape = true)
    (h : ∀ t ∈ ts, ∀ w, ∃ ks, Lay (render env t w) ks ∧ Der env nest disc ks t) (r : Str) (w : Option Int) :
    (∃ ks, Lay (py"(" ++ join (py", ") (renderL env ts w) ++ py")") ks ∧ Der env nest disc ks (.tuple ts)) ∧
    ∀ w', ∃ X ks, layout 40 41 r (renderL env ts w) w' = r ++ X ∧ Lay X ks ∧ Der env nest disc ks (.tuple ts) := by
  obtain ⟨ks, h1, h2, h3⟩ := dsList_reads h w
  have hcan : ts.map (fun t => t.canon.wrap) = canonL ts := by
    rw [canonL_eq]
    exact List.map_congr_left fun t ht => wrap_self (by rw [canon_isDShape]; exact hd t ht)
  have hc : cTuple [.dss (ts.map fun t => t.canon.wrap)] [] = .ok (Ty.tuple ts).canon := by
    rw [cTuple_ok, hcan]; rfl
    intro t ht
    obtain ⟨u, hu, rfl⟩ := List.mem_map.1 ht
    rw [wrap_self (by rw [canon_isDShape]; exact hd u hu), canon_isDShape]; exact hd u hu
  have hder : Der env nest disc (.lparen :: (sepBy ks ++ [.rparen])) (.tuple ts) := by
    refine .dtype rfl (by simp [Ty.cls]) ?_
    cases ts with
    | nil => rw [h2 rfl]; exact .emptyTuple rfl hc
    | cons t ts =>
      have := G.tuple (comma := []) (c := cTuple) (h3 (by simp)) (.inl rfl) rfl hc
      simpa using this
  refine ⟨⟨_, ?_, hder⟩, fun w' => ?_⟩
  · have := Lay.lparen ((lay_join (sep := py", ") (.inl rfl) h1).append (.rparen .nil) (.cons (by decide)))
    simpa using this
  · obtain ⟨X, e, hX⟩ := lay_layout (l := 40) (r := 41) (kl := .lparen) (kr := .rparen) rfl (fun _ => trivial) rfl
      (fun _ => trivial) (by decide) h1 r w'
    exact ⟨X, _, e, hX, hder⟩

theorem func_reads {ps : List Ty} {m : Ty}
    (h : ∀ t ∈ ps ++ [m], ∀ w, ∃ ks, Lay (render env t w) ks ∧ Der env nest disc ks t) :
    ∃ ks, Lay (render env (.func (ps ++ [m])) none) ks ∧ Der env nest disc ks (.func (ps ++ [m])) := by
  obtain ⟨ks, h1, h2, h3⟩ := dsList_reads (ts := ps) (fun t ht => h t (by simp [ht])) none
  obtain ⟨km, hm, hdm⟩ := h m (by simp) none
  have hc : cFunc [.dss (ps.map fun t => t.canon.wrap), .ds m.canon.wrap] [] = .ok (Ty.func (ps ++ [m])).canon := by
    rw [cFunc_ok]; simp [Ty.canon, canonW_eq]
  refine ⟨.lparen :: (sepBy ks ++ .rparen :: .rarrow :: km), ?_, .dtype rfl (by simp [Ty.cls]) ?_⟩
  · have hr : Lay (py"->" ++ (32 :: render env m none)) (.rarrow :: km) := .tok rfl trivial (.space hm)
    have := Lay.lparen ((lay_join (sep := py", ") (.inl rfl) h1).append (.rparen (.space hr)) (.cons (by decide)))
    rw [renderL_eq] at this
    simpa [render, renderInit_eq, renderLast_eq] using this
  · cases ps with
    | nil => rw [h2 rfl]; exact .emptyFunc hdm.1 rfl hc
    | cons t ts =>
      have := G.func (comma := []) (c := cFunc) (h3 (by simp)) (.inl rfl) hdm.1 rfl hc
      simpa using this

/-- Every part of a printable datashape is read back, whatever the line breaks. -/
theorem reads (t : Ty) : WF env t → t.everywhere (spelledLocal env) = true → t.measureLike = true → Reads env nest disc t := by
  have child : ∀ {t c : Ty}, t.everywhere (spelledLocal env) = true → c ∈ t.children → c.everywhere (spelledLocal env) = true := by
    intro t c h hc
    rw [everywhere_children, Bool.and_eq_true, List.all_eq_true] at h
    exact h.2 c hc
  induction t using Ty.ind with
  | ctype n i a =>
    intro _ hs _
    obtain ⟨ks, hl, hd⟩ := ctype_reads (env := env) (nest := nest) (disc := disc) (everywhere_self hs)
    exact .simple ⟨ks, by simpa [render] using hl, hd⟩ (fun _ => by simp [render]) (fun _ _ => by simp [renderDS])
  | null => exact fun _ _ _ => .name (n := py"null") rfl (by simp [Ty.cls]) rfl (word_of rfl rfl) (by simp [render]) (fun _ => by simp [render]) (fun _ _ => by simp [renderDS])
  | date => exact fun _ _ _ => .name (n := py"date") rfl (by simp [Ty.cls]) rfl (word_of rfl rfl) (by simp [render]) (fun _ => by simp [render]) (fun _ _ => by simp [renderDS])
  | json => exact fun _ _ _ => .name (n := py"json") rfl (by simp [Ty.cls]) rfl (word_of rfl rfl) (by simp [render]) (fun _ => by simp [render]) (fun _ _ => by simp [renderDS])
  | time z =>
    intro _ hs _
    cases z with
    | none => exact .name (n := py"time") rfl (by simp [Ty.cls]) rfl (word_of rfl rfl) (by simp [render]) (fun _ => by simp [render]) (fun _ _ => by simp [renderDS])
    | some z =>
      have hz : spelledStr env z = true := everywhere_self hs
      refine .constr (n := py"time") rfl (by simp [Ty.cls]) rfl rfl (kws (.kwOne (.kwarg (n := py"tz") (argLit_reads (.str z))))) (by simp) rfl
        (word_of rfl rfl) (.lower (w := py"tz") (word_of rfl rfl) (.cons (by decide)) (.equal (.repr hz layBrack))) (by simp [render])
        (fun _ => by simp [render]) (fun _ _ => by simp [renderDS])
  | datetime z =>
    intro _ hs _
    cases z with
    | none => exact .name (n := py"datetime") rfl (by simp [Ty.cls]) rfl (word_of rfl rfl) (by simp [render]) (fun _ => by simp [render]) (fun _ _ => by simp [renderDS])
    | some z =>
      have hz : spelledStr env z = true := everywhere_self hs
      refine .constr (n := py"datetime") rfl (by simp [Ty.cls]) rfl rfl (kws (.kwOne (.kwarg (n := py"tz") (argLit_reads (.str z))))) (by simp) rfl
        (word_of rfl rfl) (.lower (w := py"tz") (word_of rfl rfl) (.cons (by decide)) (.equal (.repr hz layBrack))) (by simp [render])
        (fun _ => by simp [render]) (fun _ _ => by simp [renderDS])
  | timedelta u =>
    intro hw _ _
    have := timedelta_ok (env := env) (u := u) hw.local
    refine .constr (n := py"timedelta") rfl (by simp [Ty.cls]) rfl rfl (kws (.kwOne (.kwarg (n := py"unit") (argLit_reads (.str u))))) (by simp) this.1
        (word_of rfl rfl) (.lower (w := py"unit") (word_of rfl rfl) (.cons (by decide)) (.equal (.repr this.2 layBrack))) (by simp [render])
        (fun _ => by simp [render]) (fun _ _ => by simp [renderDS])
  | units u t ih =>
    intro hw hs _
    have hu : spelledStr env u = true := everywhere_self hs
    have hd : t.isDShape = true := hw.local
    by_cases hf : pyEq t (.dshape [tFloat64]) = true
    · have e := units_float hd hf
      subst e
      exact .constr (n := py"units") rfl (by simp [Ty.cls]) rfl rfl (args1 (argLit_reads (.str u))) (by simp) rfl (word_of rfl rfl)
        (.repr hu layBrack) (by simp [render, hf]) (fun _ => by simp [render]) (fun _ _ => by simp [renderDS])
    · obtain ⟨ks, hl, hdr⟩ := (ih (hw.child (by simp [Ty.children])) (child hs (by simp [Ty.children])) (by cases t <;> simp_all [Ty.isDShape, Ty.measureLike])).1 none
      refine .constr (n := py"units") rfl (by simp [Ty.cls]) rfl rfl (args2 (argLit_reads (.str u)) hdr.arg) (by simp) ?_ (word_of rfl rfl)
        (X := pyRepr env u ++ (44 :: 32 :: (render env t none ++ [93]))) ?_ (by simp [render, hf]) (fun _ => by simp [render]) (fun _ _ => by simp [renderDS])
      · have hd' : t.canon.isDShape = true := by rw [canon_isDShape, hd]
        show mkUnits u (some t.canon.wrap) = _
        simp [mkUnits, wrap_self hd', hd', Ty.canon]
      · exact .repr hu (.comma (.space (hl.append layBrack softBrack)))
  | bytes => intro _ hs _; cases everywhere_self hs
  | string f e =>
    intro hw _ _
    obtain ⟨he, hne, hsp⟩ := encoding_ok (env := env) (e := e) hw.local
    have hmk : ∀ f, mkString f (some e) = .ok (.string f e) := fun f => by simp [mkString, hne, he]
    have hr1 : ∀ w, render env (.string f e) w = render env (.string f e) none := fun _ => by simp [render]
    have hr2 : ∀ r w, renderDS env [.string f e] r w = r ++ render env (.string f e) none := fun _ _ => by simp [renderDS]
    by_cases hu : e = py"U8"
    · cases f with
      | none =>
        subst hu
        exact .name (n := py"string") rfl (by simp [Ty.cls]) rfl (word_of rfl rfl) (by simp [render]) hr1 hr2
      | some k =>
        subst hu
        exact .constr (n := py"string") rfl (by simp [Ty.cls]) rfl rfl (args1 (argLit_reads (.int k))) (by simp) rfl (word_of rfl rfl)
          (.int softBrack layBrack) (by simp [render]) hr1 hr2
    · cases f with
      | none =>
        exact .constr (n := py"string") rfl (by simp [Ty.cls]) rfl rfl (args1 (argLit_reads (.str e))) (by simp) (hmk _) (word_of rfl rfl)
          (.repr hsp layBrack) (by simp [render, hu]) hr1 hr2
      | some k =>
        refine .constr (n := py"string") rfl (by simp [Ty.cls]) rfl rfl (args2 (argLit_reads (.int k)) (argLit_reads (.str e))) (by simp) ?_ (word_of rfl rfl)
          (.int (.cons (by decide)) (.comma (.space (.repr hsp layBrack)))) (by simp [render, hu]) hr1 hr2
        show (mkString none (some e) >>= fun t => _) = _
        rw [hmk]; rfl
  | decimal p s =>
    intro _ _ _
    exact .constr (n := py"decimal") rfl (by simp [Ty.cls]) rfl rfl
      (kws (.kwCons (.kwarg (n := py"precision") (argLit_reads (.int p))) (.kwOne (.kwarg (n := py"scale") (argLit_reads (.int s)))))) (by simp) rfl (word_of rfl rfl)
      (.lower (w := py"precision") (word_of rfl rfl) (.cons (by decide)) (.equal (.int (.cons (by decide)) (.comma (.space
        (.lower (w := py"scale") (word_of rfl rfl) (.cons (by decide)) (.equal (.int softBrack layBrack))))))))
      (by simp [render]) (fun _ => by simp [render]) (fun _ _ => by simp [renderDS])
  | fixed n => intro _ _ h; cases h
  | var => intro _ _ h; cases h
  | ellipsis s => intro _ _ h; cases h
  | typevar s =>
    intro _ hs _
    have hn : typeVarName s = true := everywhere_self hs
    refine .simple ⟨[.upper s], ?_, .dtype rfl (by simp [Ty.cls]) (.typevar (c := cTypeVar env) rfl ?_)⟩ (fun _ => by simp [render]) (fun _ _ => by simp [renderDS])
    · simpa [render] using Lay.upper (r := []) hn .nil .nil
    · show mkTypeVar env s = _
      rw [typeVar_isUpper hn]; rfl
  | option t ih =>
    intro hw hs _
    have hl := everywhere_self hs
    simp only [spelledLocal, Bool.and_eq_true, Bool.not_eq_true'] at hl
    have hsg : t.isSingleton = false := by simpa [localOk] using hw.local
    obtain ⟨ks, hk, hd⟩ := (ih (hw.child (by simp [Ty.children])) (child hs (by simp [Ty.children])) hl.2).1 none
    have hno := hd.2 hl.1 hsg
    have hlw : launderTy t.canon.wrap = t.canon := launder_wrap (by rw [canon_isSingleton]; exact hsg)
    refine .simple ⟨.qmark :: ks, by simpa [render] using Lay.qmark hk, ?_, by simp [Ty.isOption]⟩ (fun _ => by simp [render]) (fun _ _ => by simp [renderDS])
    refine G.option (o := .option t.canon) hno rfl ?_ (mkDS_self.2 <| .of ⟨[], _, rfl, by simp, by simp [Ty.cls], by simp [Ty.isSingleton]⟩)
    show Except.ok (Ty.option (launderTy t.canon.wrap)) = _
    rw [hlw]
  | map k v ihk ihv =>
    intro hw hs _
    have hl := everywhere_self hs
    simp only [spelledLocal, Bool.and_eq_true] at hl
    have hsg := hw.local
    simp only [localOk, Bool.and_eq_true, Bool.not_eq_true'] at hsg
    obtain ⟨k1, hk1, hd1⟩ := (ihk (hw.child (by simp [Ty.children])) (child hs (by simp [Ty.children])) hl.1).1 none
    obtain ⟨k2, hk2, hd2⟩ := (ihv (hw.child (by simp [Ty.children])) (child hs (by simp [Ty.children])) hl.2).1 none
    have h1 : launderTy k.canon.wrap = k.canon := launder_wrap (by rw [canon_isSingleton]; exact hsg.1)
    have h2 : launderTy v.canon.wrap = v.canon := launder_wrap (by rw [canon_isSingleton]; exact hsg.2)
    refine .constr (n := py"map") rfl (by simp [Ty.cls]) rfl rfl (args2 hd1.arg hd2.arg) (by simp) ?_ (word_of rfl rfl)
      (X := render env k none ++ (44 :: 32 :: (render env v none ++ [93]))) ?_ (by simp [render]) (fun _ => by simp [render]) (fun _ _ => by simp [renderDS])
    · show Except.ok (Ty.map (launderTy k.canon.wrap) (launderTy v.canon.wrap)) = _
      rw [h1, h2]; rfl
    · have := hk1.append (.comma (.space (hk2.append layBrack softBrack))) (.cons (by decide))
      simpa using this
  | func ps ih =>
    intro hw hs _
    have hl := everywhere_self hs
    simp only [spelledLocal, List.all_eq_true, Bool.and_eq_true] at hl
    have hne : ps ≠ [] := by have := hw.local; simpa [localOk] using this
    obtain ⟨qs, m, rfl⟩ : ∃ c n, ps = c ++ [n] := ⟨_, _, (List.dropLast_concat_getLast hne).symm⟩
    exact .simple (func_reads fun t ht => (ih t ht (hw.child (by simpa [Ty.children] using ht)) (child hs (by simpa [Ty.children] using ht)) (hl t ht).1).1)
      (fun _ => by simp [render]) (fun _ _ => by simp [renderDS])
  | record fs ih =>
    intro hw hs _
    have hl := everywhere_self hs
    simp only [spelledLocal, List.all_eq_true, Bool.and_eq_true] at hl
    have hlo := hw.local
    simp only [localOk, Bool.and_eq_true, decide_eq_true_eq, List.all_eq_true, Bool.not_eq_true'] at hlo
    have hrec := record_reads (env := env) (nest := nest) (disc := disc) hlo.1 hlo.2 (fun f hf => (hl f hf).1)
      (fun f hf => (ih f hf (hw.child (List.mem_map.2 ⟨f, hf, rfl⟩)) (child hs (List.mem_map.2 ⟨f, hf, rfl⟩)) (hl f hf).2).1)
    refine ⟨fun w => ?_, fun _ r w => ?_⟩
    · obtain ⟨X, ks, e, hX, hd⟩ := hrec [] (w.getD 80) (w.getD 80)
      exact ⟨ks, by simp only [render]; rw [e]; exact hX, hd⟩
    · obtain ⟨X, ks, e, hX, hd⟩ := hrec r (w - r.length) w
      exact ⟨X, ks, by simp only [renderDS]; exact e, hX, hd⟩
  | tuple ts ih =>
    intro hw hs _
    have hlo := hw.local
    simp only [localOk, List.all_eq_true] at hlo
    have htup := tuple_reads (env := env) (nest := nest) (disc := disc) hlo
      (fun t ht => (ih t ht (hw.child (by simpa [Ty.children] using ht)) (child hs (by simpa [Ty.children] using ht))
        (by have := hlo t ht; cases t <;> simp_all [Ty.isDShape, Ty.measureLike])).1)
    refine ⟨fun w => ?_, fun _ r w => ?_⟩
    · cases w with
      | none =>
        obtain ⟨ks, hX, hd⟩ := (htup [] none).1
        exact ⟨ks, by simpa [render] using hX, hd⟩
      | some w =>
        obtain ⟨X, ks, e, hX, hd⟩ := (htup [] (some w)).2 w
        exact ⟨ks, by simp only [render]; rw [e]; exact hX, hd⟩
    · obtain ⟨X, ks, e, hX, hd⟩ := (htup r (some (w - r.length))).2 w
      exact ⟨X, ks, by simp only [renderDS]; exact e, hX, hd⟩
  | categorical c t o ih =>
    intro hw hs _
    have hl := everywhere_self hs
    simp only [spelledLocal, Bool.and_eq_true, Bool.not_eq_true'] at hl
    obtain ⟨kc, hkc, hgc⟩ := categories_read (nest := nest) (disc := disc) hl.1.1
    obtain ⟨kt, hkt, hdt⟩ := (ih (hw.child (by simp [Ty.children])) (child hs (by simp [Ty.children])) hl.2).1 none
    have hcd : t.canon.isDShape = false := by rw [canon_isDShape]; exact hl.1.2
    refine .constr (n := py"categorical") rfl (by simp [Ty.cls]) rfl rfl
      (.argsCons hgc (kws (.kwCons (.kwarg (n := py"type") hdt.arg) (.kwOne (.kwarg (n := py"ordered") (argLit_reads (.bool o))))))) (by simp) ?_ (word_of rfl rfl)
      (X := formatCategories env c ++ (44 :: 32 :: (py"type" ++ (61 :: (render env t none ++ (44 :: 32 :: (py"ordered" ++ (61 :: (boolStr o ++ [93])))))))))
      ?_ (by simp [render]) (fun _ => by simp [render]) (fun _ _ => by simp [renderDS])
    · show ((c.map Arg.lit).mapM catElem >>= fun c => (Except.ok t.canon.wrap.measure >>= fun t => Except.ok (Ty.categorical c t o))) = _
      rw [mapM_cat, wrap_eq hcd]
      rfl
    · have hend : Lay (py"ordered" ++ (61 :: (boolStr o ++ [93]))) [.lower (py"ordered"), .equal, .bool o, .rbrack] :=
        .lower (w := py"ordered") (word_of rfl rfl) (.cons (by decide)) (.equal (.bool layBrack))
      have hty := Lay.lower (w := py"type") (word_of rfl rfl) (.cons (by decide)) (Lay.equal (hkt.append (.comma (.space hend)) (.cons (by decide))))
      have := hkc.append (.comma (.space hty)) (.cons (by decide))
      simpa [Lit.tok] using this
  | typeset ps n _ => intro hw _ _; cases hw.local
  | dshape ps ih =>
    intro hw hs _
    have hl := everywhere_self hs
    have hlo := hw.local
    simp only [localOk, Bool.and_eq_true, Bool.not_eq_true', List.all_eq_true] at hlo
    have hne : ps ≠ [] := by intro e; subst e; simp at hlo
    obtain ⟨ds, m, rfl⟩ : ∃ c n, ps = c ++ [n] := ⟨_, _, (List.dropLast_concat_getLast hne).symm⟩
    rw [List.dropLast_concat] at hlo
    simp only [spelledLocal, List.getLast?_concat, Option.all_some] at hl
    have hmd : m.isDShape = false := hlo.2 m (by simp)
    have hds : ∀ d ∈ ds, d.isDim = true ∧ spelledLocal env d = true := fun d hd =>
      ⟨hlo.1.1.2 d hd, everywhere_self (child hs (by simp [Ty.children, hd]))⟩
    have hm := ih m (by simp) (hw.child (by simp [Ty.children])) (child hs (by simp [Ty.children])) hl
    have hcan : (Ty.dshape (ds ++ [m])).canon.wrap = .dshape (ds ++ [m.canon]) := by
      rw [wrap_self (by rfl)]
      simp only [Ty.canon, canonL_eq, List.map_append, List.map_cons, List.map_nil]
      congr 2
      conv => rhs; rw [← List.map_id ds]
      exact List.map_congr_left fun d hd => (dim_reads (nest := nest) (disc := disc) (hds d hd).1 (hds d hd).2).choose_spec.2.2.1
    have key : ∀ X kx, Lay X kx → Der env nest disc kx m → ∃ ks, Lay (dimText env ds ++ X) ks ∧ Der env nest disc ks (.dshape (ds ++ [m])) := by
      intro X kx hX hd
      obtain ⟨ks, h1, h2, h3, _⟩ := dims_read hds hmd hl hX hd
      refine ⟨ks, h1, by rw [hcan]; exact h2, fun _ hsg => ?_⟩
      rw [hcan]
      refine h3 ?_
      rintro rfl; simp [Ty.isSingleton] at hsg
    refine ⟨fun w => ?_, by simp [Ty.isDShape]⟩
    cases w with
    | none =>
      obtain ⟨kx, hX, hd⟩ := hm.1 none
      obtain ⟨ks, h1, h2⟩ := key _ _ hX hd
      refine ⟨ks, ?_, h2⟩
      simp only [render, renderL_eq, List.map_append, List.map_cons, List.map_nil, join_star]
      exact h1
    | some w =>
      obtain ⟨X, kx, e, hX, hd⟩ := hm.2 hmd (dimText env ds) w
      obtain ⟨ks, h1, h2⟩ := key _ _ hX hd
      refine ⟨ks, ?_, h2⟩
      simp only [render, renderInit_eq, dimPrefix_eq, renderDS_eq, e]
      exact h1

end
end DS
