import Verif.Model.Repr
import Verif.Spec.Source
import Verif.Props.RoundTrip

/-
C49: `repr` of a datashape is Python source text for it. C05: the message of a syntax error.
-/
namespace DS

/-! ### The characters of a printed datashape -/

/-- every character stands for itself in a literal -/
def GoodStr (s : Str) : Prop := ∀ c ∈ s, ForItself c

instance (c : Nat) : Decidable (ForItself c) := by unfold ForItself; infer_instance
instance (s : Str) : Decidable (GoodStr s) := by unfold GoodStr; infer_instance

theorem GoodStr.append {a b : Str} (ha : GoodStr a) (hb : GoodStr b) : GoodStr (a ++ b) := by
  intro c hc
  rcases List.mem_append.1 hc with h | h
  · exact ha c h
  · exact hb c h

theorem GoodStr.nil : GoodStr [] := by intro c hc; cases hc

theorem GoodStr.join {sep : Str} (hs : GoodStr sep) {l : List Str} (h : ∀ s ∈ l, GoodStr s) : GoodStr (DS.join sep l) := by
  induction l with
  | nil => exact .nil
  | cons a l ih =>
    cases l with
    | nil => exact h a (by simp)
    | cons b l =>
      rw [DS.join]
      exact ((h a (by simp)).append hs).append (ih fun s hs' => h s (by simp at hs' ⊢; exact .inr hs'))

theorem good_digit {n : Nat} (h : n < 10) : ForItself (48 + n) := by
  unfold ForItself; omega

theorem good_natStr (n : Nat) : GoodStr (natStr n) := by
  have key : ∀ fuel n acc, GoodStr acc → GoodStr (natStrAux fuel n acc) := by
    intro fuel
    induction fuel with
    | zero => intro n acc h; exact h
    | succ f ih =>
      intro n acc h
      unfold natStrAux
      split
      · exact GoodStr.append (a := [48 + n]) (fun c hc => by
          rw [List.mem_singleton.1 hc]; exact good_digit (by assumption)) h
      · apply ih
        exact GoodStr.append (a := [48 + n % 10]) (fun c hc => by
          rw [List.mem_singleton.1 hc]; exact good_digit (by omega)) h
  exact key _ _ _ .nil

theorem good_intStr (i : Int) : GoodStr (intStr i) := by
  cases i with
  | ofNat n => exact good_natStr n
  | negSucc n => exact GoodStr.append (a := [45]) (by decide) (good_natStr (n + 1))

variable {env : Env}

theorem plainChar_good {c : Nat} (h : plainChar env c = true) : ForItself c ∧ c ≠ 10 ∧ c ≠ 39 := by
  unfold plainChar at h
  unfold ForItself
  split at h
  · simp only [Bool.and_eq_true, decide_eq_true_eq, bne_iff_ne] at h; omega
  · simp only [Bool.and_eq_true, bne_iff_ne, Bool.not_eq_true', Bool.and_eq_false_iff, decide_eq_false_iff_not] at h; omega

theorem plainStr_good {s : Str} (h : plainStr env s = true) : GoodStr s :=
  fun c hc => (plainChar_good (List.all_eq_true.1 h c hc)).1

theorem good_pyRepr {s : Str} (h : plainStr env s = true) : GoodStr (pyRepr env s) := by
  have hq : reprQuote s = 39 := by
    have : s.contains 39 = false := by
      rw [List.contains_eq_mem, decide_eq_false_iff_not]
      exact fun hm => (plainChar_good (List.all_eq_true.1 h 39 hm)).2.2 rfl
    unfold reprQuote; rw [this]; rfl
  unfold pyRepr
  simp only [hq]
  refine GoodStr.append (GoodStr.append (by decide) ?_) (by decide)
  intro c hc
  obtain ⟨d, hd, hc⟩ := List.mem_flatMap.1 hc
  have hp := List.all_eq_true.1 h d hd
  have e : reprChar env 39 d = [d] := by
    unfold reprChar
    have h1 := plainChar_good hp
    unfold plainChar at hp
    unfold ForItself at h1
    split at hp
    · simp only [Bool.and_eq_true, decide_eq_true_eq, bne_iff_ne] at hp
      rw [if_neg (by omega), if_neg (by omega), if_neg (by omega), if_neg (by omega), if_neg (by omega), if_pos (by omega)]
    · simp only [Bool.and_eq_true, bne_iff_ne] at hp
      rw [if_neg (by omega), if_neg (by omega), if_neg (by omega), if_neg (by omega), if_neg (by omega), if_neg (by omega),
        if_pos hp.1.2]
  rw [e, List.mem_singleton] at hc
  exact hc ▸ (plainChar_good hp).1

theorem good_replaceNL {s : Str} (h : GoodStr s) : GoodStr (replaceNL s) := by
  intro c hc
  obtain ⟨d, hd, hc⟩ := List.mem_flatMap.1 hc
  split at hc
  · exact (by decide : GoodStr [10, 32, 32]) c hc
  · rw [List.mem_singleton] at hc; exact hc ▸ h d hd

theorem good_layout {l r : Nat} (hl : ForItself l) (hr : ForItself r) {result : Str} (hres : GoodStr result) {items : List Str}
    (h : ∀ s ∈ items, GoodStr s) (w : Int) : GoodStr (layout l r result items w) := by
  have gl : GoodStr [l] := fun c hc => by rw [List.mem_singleton.1 hc]; exact hl
  have gr : GoodStr [r] := fun c hc => by rw [List.mem_singleton.1 hc]; exact hr
  unfold layout
  simp only
  split
  · exact hres.append ((gl.append (.join (by decide) h)).append gr)
  · refine hres.append (good_replaceNL ?_)
    exact (GoodStr.append (gl.append (b := [10]) (by decide)) (.join (by decide) h)).append
      (GoodStr.append (a := [10]) (by decide) gr)

theorem good_fieldName {n : Str} (h : plainStr env n = true) : GoodStr (fieldName env n) := by
  unfold fieldName; split
  · exact plainStr_good h
  · exact good_pyRepr h

theorem good_bool (b : Bool) : GoodStr (boolStr b) := by cases b <;> decide

theorem good_lit {l : Lit} (h : ∀ s, l = .str s → plainStr env s = true) : GoodStr (litRepr env l) := by
  cases l with
  | int i => exact good_intStr i
  | str s => exact good_pyRepr (h s rfl)
  | bool b => exact good_bool b

theorem PlainStrings.own {t : Ty} (h : PlainStrings env t) : ∀ s ∈ t.strings, plainStr env s = true := by
  have := everywhere_self h
  simpa only [List.all_eq_true] using this

theorem PlainStrings.child {t c : Ty} (h : PlainStrings env t) (hc : c ∈ t.children) : PlainStrings env c :=
  everywhere_child h hc

theorem good_renderL {l : List Ty} (h : ∀ t ∈ l, ∀ w, GoodStr (render env t w)) (w : Option Int) :
    ∀ s ∈ renderL env l w, GoodStr s := by
  induction l with
  | nil => intro s hs; simp [renderL] at hs
  | cons a l ih =>
    intro s hs
    simp only [renderL, List.mem_cons] at hs
    rcases hs with rfl | hs
    · exact h a (by simp) w
    · exact ih (fun t ht => h t (by simp [ht])) s hs

theorem good_renderInit {l : List Ty} (h : ∀ t ∈ l, ∀ w, GoodStr (render env t w)) : ∀ s ∈ renderInit env l, GoodStr s := by
  induction l with
  | nil => intro s hs; simp [renderInit] at hs
  | cons t l ih =>
    cases l with
    | nil => intro s hs; simp [renderInit] at hs
    | cons u r =>
      intro s hs
      simp only [renderInit, List.mem_cons] at hs
      rcases hs with rfl | hs
      · exact h t (by simp) none
      · exact ih (fun t ht => h t (List.mem_cons_of_mem _ ht)) s hs

theorem good_renderLast {l : List Ty} (h : ∀ t ∈ l, ∀ w, GoodStr (render env t w)) : GoodStr (renderLast env l) := by
  induction l with
  | nil => exact .nil
  | cons t l ih =>
    cases l with
    | nil => exact h t (by simp) none
    | cons u r => exact ih fun t ht => h t (List.mem_cons_of_mem _ ht)

theorem good_renderF {fs : List (Str × Ty)} (hn : ∀ f ∈ fs, plainStr env f.1 = true)
    (h : ∀ f ∈ fs, ∀ w, GoodStr (render env f.2 w)) (w : Int) : ∀ s ∈ renderF env fs w, GoodStr s := by
  induction fs with
  | nil => intro s hs; simp [renderF] at hs
  | cons f fs ih =>
    obtain ⟨n, t⟩ := f
    intro s hs
    simp only [renderF, List.mem_cons] at hs
    rcases hs with rfl | hs
    · exact ((good_fieldName (hn (n, t) (by simp))).append (by decide)).append (h (n, t) (by simp) _)
    · exact ih (fun f hf => hn f (by simp [hf])) (fun f hf => h f (by simp [hf])) s hs

theorem good_renderDS {l : List Ty} (h : ∀ t ∈ l, ∀ w, GoodStr (render env t w)) (hp : ∀ t ∈ l, PlainStrings env t)
    (hc : ∀ t ∈ l, ∀ c ∈ t.children, ∀ w, GoodStr (render env c w)) {result : Str}
    (hr : GoodStr result) (w : Int) : GoodStr (renderDS env l result w) := by
  induction l with
  | nil => exact hr
  | cons t l ih =>
    cases l with
    | cons u r =>
      have e : renderDS env (t :: u :: r) result w = renderDS env (u :: r) result w := by cases t <;> rfl
      rw [e]
      exact ih (fun t ht => h t (List.mem_cons_of_mem _ ht)) (fun t ht => hp t (List.mem_cons_of_mem _ ht))
        (fun t ht => hc t (List.mem_cons_of_mem _ ht))
    | nil =>
      cases t with
      | record fs =>
        refine good_layout (by decide) (by decide) hr (good_renderF ?_ ?_ _) _
        · exact fun f hf => (hp (.record fs) (by simp)).own _ (List.mem_map.2 ⟨f, hf, rfl⟩)
        · exact fun f hf => hc (.record fs) (by simp) f.2 (List.mem_map.2 ⟨f, hf, rfl⟩)
      | tuple ts => exact good_layout (by decide) (by decide) hr (good_renderL (fun t ht => hc (.tuple ts) (by simp) t ht) _) _
      | _ => exact hr.append (h _ (by simp) none)

/-- a printed datashape with plain strings consists of characters that stand for themselves in a literal -/
theorem render_good (t : Ty) (ht : PlainStrings env t) : ∀ w, GoodStr (render env t w) := by
  -- the statement for the children too, as `pprint` of a `DataShape` looks inside its measure
  suffices H : ∀ t : Ty, PlainStrings env t → (∀ w, GoodStr (render env t w)) ∧ ∀ c ∈ t.children, ∀ w, GoodStr (render env c w) from
    (H t ht).1
  clear ht t
  intro t
  induction t using Ty.ind_children with
  | h t ih =>
    intro ht
    have hch : ∀ c ∈ t.children, ∀ w, GoodStr (render env c w) := fun c hc => (ih c hc (ht.child hc)).1
    refine ⟨?_, hch⟩
    have own := ht.own
    cases t with
    | ctype n i a => intro w; rw [render]; exact plainStr_good (own n (by simp [Ty.strings]))
    | null => intro w; rw [render]; decide
    | date => intro w; rw [render]; decide
    | time z =>
      intro w
      cases z with
      | none => rw [render]; decide
      | some z => rw [render]; exact (GoodStr.append (by decide) (good_pyRepr (own z (by simp [Ty.strings])))).append (by decide)
    | datetime z =>
      intro w
      cases z with
      | none => rw [render]; decide
      | some z => rw [render]; exact (GoodStr.append (by decide) (good_pyRepr (own z (by simp [Ty.strings])))).append (by decide)
    | timedelta u => intro w; rw [render]; exact (GoodStr.append (by decide) (good_pyRepr (own u (by simp [Ty.strings])))).append (by decide)
    | units u t =>
      intro w
      have hu := good_pyRepr (own u (by simp [Ty.strings]))
      rw [render]
      split
      · exact (GoodStr.append (by decide) hu).append (by decide)
      · exact (((GoodStr.append (by decide) hu).append (by decide)).append (hch t (by simp [Ty.children]) none)).append (by decide)
    | bytes => intro w; rw [render]; decide
    | string n e =>
      intro w
      have he := good_pyRepr (own e (by simp [Ty.strings]))
      cases n with
      | none =>
        simp only [render]
        split
        · decide
        · exact (GoodStr.append (by decide) he).append (by decide)
      | some k =>
        simp only [render]
        split
        · exact (GoodStr.append (by decide) (good_intStr k)).append (by decide)
        · exact (((GoodStr.append (by decide) (good_intStr k)).append (by decide)).append he).append (by decide)
    | decimal p s =>
      intro w; rw [render]
      exact (((GoodStr.append (by decide) (good_intStr p)).append (by decide)).append (good_intStr s)).append (by decide)
    | json => intro w; rw [render]; decide
    | fixed n => intro w; rw [render]; exact good_natStr n
    | var => intro w; rw [render]; decide
    | typevar s => intro w; rw [render]; exact plainStr_good (own s (by simp [Ty.strings]))
    | ellipsis s =>
      intro w
      cases s with
      | none => rw [render]; decide
      | some s => rw [render]; exact (plainStr_good (own s (by simp [Ty.strings]))).append (by decide)
    | option t => intro w; rw [render]; exact GoodStr.append (by decide) (hch t (by simp [Ty.children]) none)
    | map k v =>
      intro w; rw [render]
      exact (((GoodStr.append (by decide) (hch k (by simp [Ty.children]) none)).append (by decide)).append
        (hch v (by simp [Ty.children]) none)).append (by decide)
    | func ps =>
      intro w; rw [render]
      exact ((GoodStr.append (by decide) (.join (by decide) (good_renderInit hch))).append (by decide)).append
        (good_renderLast hch)
    | record fs =>
      intro w; rw [render]
      refine good_layout (by decide) (by decide) .nil (good_renderF ?_ ?_ _) _
      · exact fun f hf => own _ (List.mem_map.2 ⟨f, hf, rfl⟩)
      · exact fun f hf => hch f.2 (List.mem_map.2 ⟨f, hf, rfl⟩)
    | tuple ts =>
      intro w
      cases w with
      | none => rw [render]; exact (GoodStr.append (by decide) (.join (by decide) (good_renderL hch none))).append (by decide)
      | some w => rw [render]; exact good_layout (by decide) (by decide) .nil (good_renderL hch _) _
    | categorical c t o =>
      intro w; rw [render]
      have hcs : ∀ l ∈ c, GoodStr (litRepr env l) := fun l hl => good_lit fun s e => own s (by
        subst e
        simp only [Ty.strings, List.mem_filterMap]
        exact ⟨_, hl, rfl⟩)
      have hf : GoodStr (formatCategories env c) := by
        unfold formatCategories
        refine GoodStr.append (GoodStr.append (GoodStr.append (by decide) (.join (by decide) ?_)) ?_) (by decide)
        · intro s hs
          obtain ⟨l, hl, rfl⟩ := List.mem_map.1 hs
          exact hcs l (List.mem_of_mem_take hl)
        · split <;> decide
      exact ((((GoodStr.append (by decide) hf).append (by decide)).append (hch t (by simp [Ty.children]) none)).append
        (by decide)).append (good_bool o) |>.append (by decide)
    | typeset o n => intro w; rw [render]; decide
    | dshape ps =>
      intro w
      cases w with
      | none => rw [render]; exact .join (by decide) (good_renderL hch none)
      | some w =>
        rw [render]
        refine good_renderDS hch (fun t ht' => ht.child ht') (fun t ht' => (ih t ht' (ht.child ht')).2) ?_ w
        unfold dimPrefix
        split
        · exact .nil
        · exact (GoodStr.join (by decide) (good_renderInit hch)).append (by decide)

/-! ### C49 -/

theorem literal_of {T : Str} (h : GoodStr T) : ∃ lit, quoteDshape T = py"dshape(" ++ lit ++ py")" ∧ PyLiteral lit T := by
  unfold quoteDshape
  split
  · refine ⟨_, ?_, .long h⟩
    simp
  · rename_i hn
    refine ⟨_, ?_, .short h (by simpa using hn)⟩
    simp

section
variable {disc : List Lit → Except PyErr Ty} (hd : ∀ l, Returns (disc l))
include hd

/-- `repr(ds)` of a `DataShape` is the Python source text of a call `dshape("…")`; evaluating it gives a datashape equal
to `ds`. -/
theorem C49.evaluates (ds : Ty) (h : Printable env ds) (hds : ds.isDShape = true) (hp : PlainStrings env ds) :
    ∃ lit text u, pyReprTy env ds = py"dshape(" ++ lit ++ py")" ∧ PyLiteral lit text ∧
      DS.dshape env disc text = .ok u ∧ pyEq u ds = true := by
  obtain ⟨ps, rfl⟩ := isDShape_iff.1 hds
  obtain ⟨lit, h1, h2⟩ := literal_of (render_good _ hp (some 80))
  obtain ⟨u, h3, h4⟩ := C02.roundtrip hd _ h hds 80
  exact ⟨lit, _, u, by rw [pyReprTy]; exact h1, h2, h3, h4⟩

/-- If the functions in it are as the parser builds them, the result is identical to `ds`. -/
theorem C49.identical (ds : Ty) (h : Printable env ds) (hds : ds.isDShape = true) (hp : PlainStrings env ds)
    (hf : ds.everywhere funcDS = true) :
    ∃ lit text, pyReprTy env ds = py"dshape(" ++ lit ++ py")" ∧ PyLiteral lit text ∧ DS.dshape env disc text = .ok ds := by
  obtain ⟨ps, rfl⟩ := isDShape_iff.1 hds
  obtain ⟨lit, h1, h2⟩ := literal_of (render_good _ hp (some 80))
  exact ⟨lit, _, by rw [pyReprTy]; exact h1, h2, C02.identical hd _ h hds hf 80⟩

/-- The same for records and tuples, which print like a `DataShape` of one. -/
theorem C49.collections (m : Ty) (h : Printable env m) (hm : (∃ fs, m = .record fs) ∨ ∃ ts, m = .tuple ts)
    (hp : PlainStrings env m) :
    ∃ lit text u, pyReprTy env m = py"dshape(" ++ lit ++ py")" ∧ PyLiteral lit text ∧
      DS.dshape env disc text = .ok u ∧ pyEq u m = true := by
  obtain ⟨lit, h1, h2⟩ := literal_of (render_good _ hp none)
  have h0 : m.isDShape = false ∧ m.shape = [] ∧ pyReprTy env m = quoteDshape (pyStr env m) := by
    rcases hm with ⟨fs, rfl⟩ | ⟨ts, rfl⟩ <;> exact ⟨rfl, rfl, by rw [pyReprTy]⟩
  obtain ⟨u, h3, h4⟩ := (C01.measure hd m h h0.1).2 h0.2.1
  exact ⟨lit, _, u, by rw [h0.2.2]; exact h1, h2, h3, h4⟩

/-- Different datashapes are printed differently: if `str(a)` and `str(b)`, or `pprint` of them at any two widths,
agree, then `a == b`. -/
theorem C01.injective (a b : Ty) (ha : Printable env a) (hb : Printable env b) (hda : a.isDShape = true)
    (hdb : b.isDShape = true) (v w : Option Int) (h : render env a v = render env b w) : pyEq a b = true := by
  have h1 := render_read hd ha v
  have h2 := render_read hd hb w
  rw [h, h2] at h1
  injection h1 with h1
  have e1 := (canon_equal ha (.inl hda)).2
  have e2 := (canon_equal hb (.inl hdb)).1
  rw [h1] at e2
  have w3 : a.canon.wrap.everywhere eqLocal = true := by
    exact eqLocal_wrap (canon_eqLocal a ha.spelled ha.wf.eqOk) (by rw [canon_measureLike]; exact ha.top)
  exact C08.eq_trans a a.canon.wrap b ha.wf.eqOk w3 hb.wf.eqOk e1 e2

end

/-- A datashape over several lines with a quoted name meets the hypotheses; `repr` of other datashapes; a quote in a
name gives a text that is not a Python expression. -/
theorem C49.examples :
    (Printable ⟨fun _ => true, fun _ => false⟩ (.dshape [.var, .record [(py"two words", tInt32), (py"b", .option tString)]]) ∧
      PlainStrings ⟨fun _ => true, fun _ => false⟩ (.dshape [.var, .record [(py"two words", tInt32), (py"b", .option tString)]])) ∧
    pyReprTy ⟨fun _ => true, fun _ => false⟩ (.dshape [.var, .record [(py"two words", tInt32), (py"b", .option tString)]]) =
      py"dshape(\"var * {'two words': int32, b: ?string}\")" ∧
    pyReprTy ⟨fun _ => true, fun _ => false⟩ (.option (.map (.string (some 3) (py"A")) (.dshape [.fixed 2, .datetime none]))) =
      py"Option(ty=Map(key=ctype(\"string[3, 'A']\"), value=dshape(\"2 * datetime\")))" ∧
    pyReprTy ⟨fun _ => true, fun _ => false⟩ (.dshape [.record [(py"it's", tInt32)]]) =
      py"dshape(\"{\"it's\": int32}\")" :=
  ⟨⟨⟨by decide, by decide, by decide, by decide⟩, rfl⟩, by decide, by decide, by decide⟩

/-! ### C05: the message -/

/-- The message of a syntax error shows the line of the text that contains the offset, and below it a line of blanks
and `^` such that `^` stands under the character at the offset, or behind the last character of the line if the offset
is at the end of the line. Above it stand the file name and the number of the line, below it the message. -/
theorem C05.caret (text : Str) (lexpos : Nat) (hp : lexpos ≤ text.length) (filename msg : Str) (hf : 10 ∉ filename) :
    ∃ head shown j tail, syntaxErrStr (mkSyntaxErr text lexpos) filename msg =
        head ++ py"\n" ++ shown ++ py"\n" ++ (List.replicate j 32 ++ py"^") ++ py"\n" ++ tail ∧
      head = py"\n\n  File " ++ filename ++ py", line " ++ natStr ((text.take lexpos).count 10 + 1) ∧
      tail = py"\nDataShapeSyntaxError: " ++ msg ++ py"\n" ∧
      10 ∉ shown ∧ head.count 10 = 2 ∧
      (shown[j]? = if text[lexpos]? = some 10 then none else text[lexpos]?) ∧ j ≤ shown.length := by
  obtain ⟨pre, post, e1, h1, h2, h3, h4, h5, h6⟩ := C05.line text lexpos hp
  have hno : (mkSyntaxErr text lexpos).lineno = (text.take lexpos).count 10 + 1 := rfl
  generalize mkSyntaxErr text lexpos = E at *
  refine ⟨py"\n\n  File " ++ filename ++ py", line " ++ natStr E.lineno, py"    " ++ E.line, 4 + E.colOffset,
    py"\nDataShapeSyntaxError: " ++ msg ++ py"\n", ?_, by rw [hno], rfl, ?_, ?_, ?_, ?_⟩
  · unfold syntaxErrStr
    have e4 : List.replicate (4 + E.colOffset) 32 = py"    " ++ List.replicate E.colOffset 32 := by
      rw [← List.replicate_append_replicate]; rfl
    rw [e4]
    simp [List.append_assoc]
  · simp [h1]
  · rw [List.count_append, List.count_append, List.count_append, List.count_eq_zero_of_not_mem hf]
    have hn : (natStr E.lineno).count 10 = 0 := by
      apply List.count_eq_zero_of_not_mem
      intro hm
      have := natStr_digits E.lineno 10 hm
      simp [isDigit] at this
    rw [hn]; rfl
  · have e5 : (py"    " ++ E.line)[4 + E.colOffset]? = E.line[E.colOffset]? := by
      rw [List.getElem?_append_right (by simp)]; simp
    have e6 : text[lexpos]? = (E.line ++ post)[E.colOffset]? := by
      conv => lhs; rw [e1, ← h5]
      rw [List.getElem?_append_right (by omega)]; congr 1; omega
    rw [e5, e6]
    by_cases hc : E.colOffset < E.line.length
    · rw [List.getElem?_append_left hc]
      rw [if_neg]
      intro h
      exact h1 (List.mem_iff_getElem?.2 ⟨_, h⟩)
    · have hc' : E.colOffset = E.line.length := by omega
      rw [hc', List.getElem?_append_right (by omega)]
      simp only [Nat.sub_self]
      rw [List.getElem?_eq_none (by omega)]
      rcases h3 with rfl | h3
      · simp
      · cases post with
        | nil => cases h3
        | cons x post =>
          simp only [List.head?_cons, Option.some.injEq] at h3
          subst h3
          rfl
  · simp; omega

end DS
