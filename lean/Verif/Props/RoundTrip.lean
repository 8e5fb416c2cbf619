import Verif.Proofs.RoundTrip
import Verif.Props.Equality
import Verif.Props.Grammar

/-
C01: `dshape(str(ds)) == ds`, C02: the same for `pprint` at every width.
-/
namespace DS

/-! ### `canon` keeps everything but the wrapping of function components -/

theorem validOkL_eq (l : List Ty) : validOkL l = l.all validOk := by
  induction l with
  | nil => rfl
  | cons t l ih => simp [validOkL, ih]

theorem canon_isEllipsis (t : Ty) : t.canon.isEllipsis = t.isEllipsis := by cases t <;> rfl

theorem filter_canon (l : List Ty) : ((l.map Ty.canon).filter Ty.isEllipsis).length = (l.filter Ty.isEllipsis).length := by
  induction l with
  | nil => rfl
  | cons t l ih =>
    simp only [List.map_cons, List.filter_cons, canon_isEllipsis]
    split <;> simp_all

theorem wrap_valid {t : Ty} (h : validOk t = true) (hm : t.isEllipsis = false) : validOk t.wrap = true := by
  unfold Ty.wrap
  split
  · exact h
  · simp [validOk, validOkL, h, hm]

theorem measureLike_ell {t : Ty} (h : t.measureLike = true) : t.isEllipsis = false := by
  cases t <;> simp_all [Ty.measureLike, Ty.isEllipsis]

theorem child_spelled {env : Env} {t c : Ty} (h : t.everywhere (spelledLocal env) = true) (hc : c ∈ t.children) :
    c.everywhere (spelledLocal env) = true := by
  rw [everywhere_children, Bool.and_eq_true, List.all_eq_true] at h
  exact h.2 c hc

theorem canon_valid {env : Env} (t : Ty) : t.everywhere (spelledLocal env) = true → validOk t = true → validOk t.canon = true := by
  induction t using Ty.ind with
  | option t ih => exact fun hs hv => ih (child_spelled hs (by simp [Ty.children])) hv
  | map k v ihk ihv =>
    intro hs hv
    simp only [validOk, Bool.and_eq_true] at hv
    simp only [Ty.canon, validOk, ihk (child_spelled hs (by simp [Ty.children])) hv.1,
      ihv (child_spelled hs (by simp [Ty.children])) hv.2, Bool.and_self]
  | categorical c t o ih => exact fun hs hv => ih (child_spelled hs (by simp [Ty.children])) hv
  | func ps ih =>
    intro hs hv
    have hl := everywhere_self hs
    simp only [spelledLocal, List.all_eq_true, Bool.and_eq_true] at hl
    simp only [validOk, validOkL_eq, List.all_eq_true] at hv
    simp only [Ty.canon, validOk, validOkL_eq, canonW_eq, List.all_map, List.all_eq_true, Function.comp_def]
    intro t ht
    exact wrap_valid (ih t ht (child_spelled hs (by simpa [Ty.children] using ht)) (hv t ht))
      (by rw [canon_isEllipsis]; exact measureLike_ell (hl t ht).1)
  | dshape ps ih =>
    intro hs hv
    simp only [validOk, validOkL_eq, Bool.and_eq_true, List.all_eq_true] at hv
    simp only [Ty.canon, validOk, validOkL_eq, canonL_eq, filter_canon, Bool.and_eq_true, List.all_eq_true, List.getLast?_map]
    refine ⟨⟨?_, hv.1.2⟩, ?_⟩
    · intro t ht
      obtain ⟨u, hu, rfl⟩ := List.mem_map.1 ht
      exact ih u hu (child_spelled hs (by simpa [Ty.children] using hu)) (hv.1.1 u hu)
    · have := hv.2
      cases h : ps.getLast? with
      | none => simp
      | some m => rw [h] at this; simpa [canon_isEllipsis] using this
  | _ => exact fun _ _ => by simp [Ty.canon, validOk]

theorem eqLocal_wrap {t : Ty} (h : t.everywhere eqLocal = true) (hm : t.measureLike = true) : t.wrap.everywhere eqLocal = true := by
  unfold Ty.wrap
  split
  · exact h
  · simp only [Ty.everywhere, everywhereL, h, Bool.and_true]
    cases t <;> simp_all [eqLocal, Ty.measureLike]

theorem canon_measureLike (t : Ty) : t.canon.measureLike = t.measureLike := by cases t <;> rfl

theorem canon_eqLocal {env : Env} (t : Ty) : t.everywhere (spelledLocal env) = true → t.everywhere eqLocal = true →
    t.canon.everywhere eqLocal = true := by
  have sub : ∀ {t c : Ty}, t.everywhere eqLocal = true → c ∈ t.children → c.everywhere eqLocal = true := by
    intro t c h hc
    rw [everywhere_children, Bool.and_eq_true, List.all_eq_true] at h
    exact h.2 c hc
  induction t using Ty.ind with
  | units u t ih =>
    intro hs h
    simp only [Ty.canon, Ty.everywhere, eqLocal, Bool.true_and]
    exact ih (child_spelled hs (by simp [Ty.children])) (sub h (by simp [Ty.children]))
  | option t ih =>
    intro hs h
    simp only [Ty.canon, Ty.everywhere, eqLocal, Bool.true_and]
    exact ih (child_spelled hs (by simp [Ty.children])) (sub h (by simp [Ty.children]))
  | map k v ihk ihv =>
    intro hs h
    simp only [Ty.canon, Ty.everywhere, eqLocal, Bool.true_and, Bool.and_eq_true]
    exact ⟨ihk (child_spelled hs (by simp [Ty.children])) (sub h (by simp [Ty.children])),
      ihv (child_spelled hs (by simp [Ty.children])) (sub h (by simp [Ty.children]))⟩
  | categorical c t o ih =>
    intro hs h
    simp only [Ty.canon, Ty.everywhere, eqLocal, Bool.true_and]
    exact ih (child_spelled hs (by simp [Ty.children])) (sub h (by simp [Ty.children]))
  | func ps ih =>
    intro hs h
    have hl := everywhere_self hs
    simp only [spelledLocal, List.all_eq_true, Bool.and_eq_true] at hl
    simp only [Ty.canon, Ty.everywhere, eqLocal, Bool.true_and, everywhereL_eq, canonW_eq, List.all_map, List.all_eq_true, Function.comp_def]
    intro t ht
    exact eqLocal_wrap (ih t ht (child_spelled hs (by simpa [Ty.children] using ht)) (sub h (by simpa [Ty.children] using ht)))
      (by rw [canon_measureLike]; exact (hl t ht).1)
  | record fs ih =>
    intro hs h
    simp only [Ty.canon, Ty.everywhere, eqLocal, Bool.true_and, everywhereF_eq, canonF_eq, List.all_map, List.all_eq_true, Function.comp_def]
    intro f hf
    exact ih f hf (child_spelled hs (List.mem_map.2 ⟨f, hf, rfl⟩)) (sub h (List.mem_map.2 ⟨f, hf, rfl⟩))
  | tuple ps ih =>
    intro hs h
    simp only [Ty.canon, Ty.everywhere, eqLocal, Bool.true_and, everywhereL_eq, canonL_eq, List.all_map, List.all_eq_true, Function.comp_def]
    intro t ht
    exact ih t ht (child_spelled hs (by simpa [Ty.children] using ht)) (sub h (by simpa [Ty.children] using ht))
  | dshape ps ih =>
    intro hs h
    have hl := everywhere_self h
    simp only [Ty.canon, Ty.everywhere, everywhereL_eq, canonL_eq, Bool.and_eq_true, List.all_map, List.all_eq_true, Function.comp_def]
    refine ⟨?_, fun t ht => ih t ht (child_spelled hs (by simpa [Ty.children] using ht)) (sub h (by simpa [Ty.children] using ht))⟩
    simp only [eqLocal, List.getLast?_map] at hl ⊢
    cases hm : ps.getLast? with
    | none => rw [hm] at hl; exact hl
    | some m =>
      rw [hm] at hl
      cases m <;> first | rfl | (exact hl)
  | typeset o n _ => intro _ h; have := everywhere_self h; simp [eqLocal] at this
  | _ => exact fun _ h => h

theorem own_wrap {t : Ty} (ht : eqLocal t = true) (h : t.isDShape = true ∨ t.shape = []) :
    (hashT freeHash t.wrap).own = (hashT freeHash t).own := by
  unfold Ty.wrap
  split
  · rfl
  · rename_i hd
    have hs : t.shape = [] := h.resolve_left hd
    have hm : t.measure = t := by cases t <;> simp_all [Ty.measure, Ty.isDShape]
    rw [hash_own _ t ht, hash_shape, hash_meas, hs, hm]
    simp [hashT, HT.mk', hashInit, hashLast]

theorem canon_shape_nil (t : Ty) (h : t.shape = []) : t.canon.shape = [] := by
  induction t using Ty.ind with
  | option t ih => exact ih h
  | dshape ps _ =>
    have e : (ps.map Ty.canon).dropLast = ps.dropLast.map Ty.canon := by
      rw [List.dropLast_eq_take, List.dropLast_eq_take]; simp
    simp only [Ty.canon, Ty.shape, canonL_eq, e] at h ⊢
    rw [h]; rfl
  | _ => rfl

/-- the collision-free hash of `t.canon` is that of `t` -/
theorem canon_hash {env : Env} (t : Ty) : t.everywhere (spelledLocal env) = true → t.everywhere eqLocal = true →
    hashT freeHash t.canon = hashT freeHash t := by
  have sub : ∀ {t c : Ty}, t.everywhere eqLocal = true → c ∈ t.children → c.everywhere eqLocal = true := by
    intro t c h hc
    rw [everywhere_children, Bool.and_eq_true, List.all_eq_true] at h
    exact h.2 c hc
  induction t using Ty.ind with
  | units u t ih =>
    intro hs h
    simp only [Ty.canon, hashT, ih (child_spelled hs (by simp [Ty.children])) (sub h (by simp [Ty.children]))]
  | option t ih =>
    intro hs h
    simp only [Ty.canon, hashT, ih (child_spelled hs (by simp [Ty.children])) (sub h (by simp [Ty.children]))]
  | map k v ihk ihv =>
    intro hs h
    simp only [Ty.canon, hashT, ihk (child_spelled hs (by simp [Ty.children])) (sub h (by simp [Ty.children])),
      ihv (child_spelled hs (by simp [Ty.children])) (sub h (by simp [Ty.children]))]
  | categorical c t o ih =>
    intro hs h
    simp only [Ty.canon, hashT, ih (child_spelled hs (by simp [Ty.children])) (sub h (by simp [Ty.children]))]
  | func ps ih =>
    intro hs h
    have hl := everywhere_self hs
    simp only [spelledLocal, List.all_eq_true, Bool.and_eq_true, Bool.or_eq_true, List.isEmpty_iff] at hl
    simp only [Ty.canon, hashT, hashL_eq, canonW_eq, List.map_map]
    congr 2
    refine List.map_congr_left fun t ht => ?_
    have hsp := child_spelled hs (c := t) (by simpa [Ty.children] using ht)
    have heq := sub h (c := t) (by simpa [Ty.children] using ht)
    simp only [Function.comp_def]
    rw [own_wrap (everywhere_self (canon_eqLocal t hsp heq)), ih t ht hsp heq]
    rcases (hl t ht).2 with h1 | h1
    · exact .inl (by rw [canon_isDShape]; exact h1)
    · exact .inr (canon_shape_nil t h1)
  | record fs ih =>
    intro hs h
    simp only [Ty.canon, hashT, hashF_eq, canonF_eq, List.map_map]
    congr 4
    refine List.map_congr_left fun f hf => ?_
    simp only [Function.comp_def]
    rw [ih f hf (child_spelled hs (List.mem_map.2 ⟨f, hf, rfl⟩)) (sub h (List.mem_map.2 ⟨f, hf, rfl⟩))]
  | tuple ps ih =>
    intro hs h
    simp only [Ty.canon, hashT, hashL_eq, canonL_eq, List.map_map]
    congr 4
    refine List.map_congr_left fun t ht => ?_
    simp only [Function.comp_def]
    rw [ih t ht (child_spelled hs (by simpa [Ty.children] using ht)) (sub h (by simpa [Ty.children] using ht))]
  | dshape ps ih =>
    intro hs h
    have hmap : ∀ t ∈ ps, hashT freeHash t.canon = hashT freeHash t := fun t ht =>
      ih t ht (child_spelled hs (by simpa [Ty.children] using ht)) (sub h (by simpa [Ty.children] using ht))
    have e1 : hashL freeHash (canonL ps) = hashL freeHash ps := by
      simp only [hashL_eq, canonL_eq, List.map_map]
      exact List.map_congr_left fun t ht => by simp only [Function.comp_def]; rw [hmap t ht]
    have e2 : hashInit freeHash (canonL ps) = hashInit freeHash ps := by
      have e : (ps.map Ty.canon).dropLast = ps.dropLast.map Ty.canon := by
        rw [List.dropLast_eq_take, List.dropLast_eq_take]; simp
      simp only [hashInit_eq, canonL_eq, e, List.map_map]
      exact List.map_congr_left fun t ht => by simp only [Function.comp_def]; rw [hmap t (List.dropLast_subset _ ht)]
    have e3 : hashLast freeHash (canonL ps) = hashLast freeHash ps := by
      simp only [hashLast_eq, canonL_eq, List.getLast?_map]
      cases hl : ps.getLast? with
      | none => rfl
      | some m => simp only [Option.map_some, Option.getD_some]; rw [hmap m (mem_getLast? hl)]
    simp only [Ty.canon, hashT, e1, e2, e3]
  | typeset o n _ => intro _ h; have := everywhere_self h; simp [eqLocal] at this
  | _ => exact fun _ _ => rfl


/-! ### C01, C02 -/

section
variable {env : Env} {disc : List Lit → Except PyErr Ty} (hd : ∀ l, Returns (disc l))

/-- Functions in `t` have `DataShape`s as components, as the parser builds them. -/
def funcDS : Ty → Bool
  | .func ps => ps.all Ty.isDShape
  | _ => true

theorem canon_id (t : Ty) : t.everywhere funcDS = true → t.canon = t := by
  have sub : ∀ {t c : Ty}, t.everywhere funcDS = true → c ∈ t.children → c.everywhere funcDS = true := by
    intro t c h hc
    rw [everywhere_children, Bool.and_eq_true, List.all_eq_true] at h
    exact h.2 c hc
  have lst : ∀ l : List Ty, (∀ t ∈ l, t.canon = t) → l.map Ty.canon = l := fun l h => by
    conv => rhs; rw [← List.map_id l]
    exact List.map_congr_left h
  induction t using Ty.ind with
  | units u t ih => intro h; simp only [Ty.canon]; rw [ih (sub h (by simp [Ty.children]))]
  | option t ih => intro h; simp only [Ty.canon]; rw [ih (sub h (by simp [Ty.children]))]
  | map k v ihk ihv =>
    intro h; simp only [Ty.canon]; rw [ihk (sub h (by simp [Ty.children])), ihv (sub h (by simp [Ty.children]))]
  | categorical c t o ih => intro h; simp only [Ty.canon]; rw [ih (sub h (by simp [Ty.children]))]
  | func ps ih =>
    intro h
    have hl := everywhere_self h
    simp only [funcDS, List.all_eq_true] at hl
    simp only [Ty.canon, canonW_eq]
    congr 1
    conv => rhs; rw [← List.map_id ps]
    refine List.map_congr_left fun t ht => ?_
    rw [ih t ht (sub h (by simpa [Ty.children] using ht)), wrap_self (hl t ht)]; rfl
  | record fs ih =>
    intro h
    simp only [Ty.canon, canonF_eq]
    congr 1
    conv => rhs; rw [← List.map_id fs]
    exact List.map_congr_left fun f hf => by rw [ih f hf (sub h (List.mem_map.2 ⟨f, hf, rfl⟩))]; rfl
  | tuple ps ih =>
    intro h
    simp only [Ty.canon, canonL_eq]
    rw [lst ps fun t ht => ih t ht (sub h (by simpa [Ty.children] using ht))]
  | dshape ps ih =>
    intro h
    simp only [Ty.canon, canonL_eq]
    rw [lst ps fun t ht => ih t ht (sub h (by simpa [Ty.children] using ht))]
  | _ => intro _; rfl

include hd

/-- Printed in any way (`str` or `pprint` at any width), a printable `t` is read back as `t`, or as `DataShape(t)` if
`t` is not a `DataShape`, up to the wrapping of function components. -/
theorem render_read {t : Ty} (h : Printable env t) (w : Option Int) :
    dshape env disc (render env t w) = .ok t.canon.wrap := by
  obtain ⟨ks, hl, hg⟩ := (reads (nest := dshape env disc) (disc := disc) t h.wf h.spelled h.top).1 w
  obtain ⟨toks, hlex, e⟩ := hl.lex
  refine C06.complete env disc hd _ toks _ hlex (by rw [e]; exact hg.1) ?_
  exact wrap_valid (canon_valid t h.spelled h.valid) (by rw [canon_isEllipsis]; exact measureLike_ell h.top)

omit hd in
theorem canon_equal {t : Ty} (h : Printable env t) (hs : t.isDShape = true ∨ t.shape = []) :
    pyEq t.canon.wrap t = true ∧ pyEq t t.canon.wrap = true := by
  have h1 := h.wf.eqOk
  have h2 := canon_eqLocal t h.spelled h1
  have h3 : t.canon.wrap.everywhere eqLocal = true := eqLocal_wrap h2 (by rw [canon_measureLike]; exact h.top)
  have h4 : pyHash freeHash t.canon.wrap = pyHash freeHash t := by
    unfold pyHash
    rw [own_wrap (everywhere_self h2), canon_hash t h.spelled h1]
    rcases hs with hs | hs
    · exact .inl (by rw [canon_isDShape]; exact hs)
    · exact .inr (canon_shape_nil t hs)
  exact ⟨(pyEq_iff_free h3 h1).2 h4, (pyEq_iff_free h1 h3).2 h4.symm⟩

/-- **C01.** For every `DataShape` `ds` in the printable fragment, `dshape(str(ds))` succeeds, and the result equals
`ds`. -/
theorem C01.roundtrip (ds : Ty) (h : Printable env ds) (hds : ds.isDShape = true) :
    ∃ u, DS.dshape env disc (pyStr env ds) = .ok u ∧ pyEq u ds = true :=
  ⟨_, render_read hd h none, (canon_equal h (.inl hds)).1⟩

/-- If moreover the functions in `ds` are as the parser builds them, the result is identical to `ds`, attribute by
attribute. -/
theorem C01.identical (ds : Ty) (h : Printable env ds) (hds : ds.isDShape = true) (hf : ds.everywhere funcDS = true) :
    DS.dshape env disc (pyStr env ds) = .ok ds := by
  have := render_read hd h none
  rwa [canon_id ds hf, wrap_self hds] at this

/-- For a measure `m` that is not a `DataShape`, `dshape(str(m))` is `DataShape(m)`; it equals `m` unless `m` is an
option of an array. -/
theorem C01.measure (m : Ty) (h : Printable env m) (hm : m.isDShape = false) :
    (∃ u, DS.dshape env disc (pyStr env m) = .ok (.dshape [u]) ∧ (m.everywhere funcDS = true → u = m)) ∧
    (m.shape = [] → ∃ u, DS.dshape env disc (pyStr env m) = .ok u ∧ pyEq u m = true) := by
  have hr := render_read hd h none
  refine ⟨⟨m.canon, ?_, canon_id m⟩, fun hs => ⟨_, hr, (canon_equal h (.inr hs)).1⟩⟩
  rwa [wrap_eq (by rw [canon_isDShape]; exact hm)] at hr

/-- Whatever `dshape` returns for a text, if its parts can be spelled, is read back from its printed form. -/
theorem C01.parsed (hw : ∀ l t, disc l = .ok t → WF env t) (s : Str) (ds : Ty) (h : DS.dshape env disc s = .ok ds)
    (hs : ds.everywhere (spelledLocal env) = true) :
    (∃ u, DS.dshape env disc (pyStr env ds) = .ok u ∧ pyEq u ds = true) ∧
    (ds.everywhere funcDS = true → DS.dshape env disc (pyStr env ds) = .ok ds) := by
  have hd1 : ds.isDShape = true ∧ WF env ds := by
    obtain ⟨⟨h1, h2⟩, _⟩ := dshapeN_wf hw _ s ds h
    exact ⟨h2, h1⟩
  have hp : Printable env ds := by
    refine ⟨hd1.2, hs, ?_, ?_⟩
    · obtain ⟨ps, rfl⟩ := isDShape_iff.1 hd1.1; rfl
    · exact ((dshape_ok_iff env disc hd s ds).1 h).2
  exact ⟨C01.roundtrip hd ds hp hd1.1, C01.identical hd ds hp hd1.1⟩

/-- **C02.** The same for `pprint` at every width, also zero and negative. -/
theorem C02.roundtrip (ds : Ty) (h : Printable env ds) (hds : ds.isDShape = true) (width : Int) :
    ∃ u, DS.dshape env disc (pprint env ds width) = .ok u ∧ pyEq u ds = true :=
  ⟨_, render_read hd h (some width), (canon_equal h (.inl hds)).1⟩

/-- Line breaking never changes the meaning of the text: all widths, and `str`, read the same. -/
theorem C02.width_irrelevant (t : Ty) (h : Printable env t) (v w : Int) :
    DS.dshape env disc (pprint env t v) = DS.dshape env disc (pprint env t w) ∧
    DS.dshape env disc (pprint env t v) = DS.dshape env disc (pyStr env t) := by
  have h1 := render_read hd h (some v)
  have h2 := render_read hd h (some w)
  have h3 := render_read hd h none
  exact ⟨h1.trans h2.symm, h1.trans h3.symm⟩

/-- identical, attribute by attribute -/
theorem C02.identical (ds : Ty) (h : Printable env ds) (hds : ds.isDShape = true) (hf : ds.everywhere funcDS = true)
    (width : Int) : DS.dshape env disc (pprint env ds width) = .ok ds := by
  have := render_read hd h (some width)
  rwa [canon_id ds hf, wrap_self hds] at this

/-- `repr(ds)` prints `dshape("""…""")` around a text that reads back as `ds`. -/
theorem C02.repr (ds : Ty) (h : Printable env ds) (hds : ds.isDShape = true) :
    ∃ u, DS.dshape env disc (reprText env ds) = .ok u ∧ pyEq u ds = true := C02.roundtrip hd ds h hds 80

end

/-- a datashape with everything: dimensions of every kind, a record with quoted names, options, a function, a map, a
tuple, a categorical, parametrised strings and times -/
def bigExample : Ty :=
  .dshape [.fixed 3, .var, .typevar (py"N"), .ellipsis (some (py"Dims")),
    .record [(py"id", tInt32), (py"_x", .option tFloat64), (py"two words", .string (some 10) (py"A")),
      ([9, 34, 39, 0x3b1], .option (.dshape [.fixed 4, .option (tString)])), ([], .dshape [.var, .record []]),
      (py"f", .func [.dshape [.fixed 2, tInt8], .dshape [.func [tComplex64]]]),
      (py"m", .map (.datetime (some (py"Europe/Berlin"))) (.dshape [.var, .tuple [.dshape [tObject], .dshape [.var, .json]]])),
      (py"c", .categorical [.str (py"a b"), .str (py"c'd")] tString true),
      (py"u", .units (py"m/s") (.dshape [.fixed 3, tFloat64])), (py"d", .decimal 10 (-2)), (py"t", tTimedelta)]]

theorem C01.example (env : Env) : Printable env bigExample := by
  refine ⟨by rfl, ?_, rfl, rfl⟩
  cases h : env.printable 0x3b1 <;>
    simp [bigExample, Ty.everywhere, everywhereL, everywhereF, spelledLocal, fieldNameOk, identName, spelledStr, spelledChar,
      startsBool, typeVarName, h, isLower, isUpperA, isWord, isDigit, Ty.measureLike, Ty.isOption, Ty.isDShape, categoriesOk,
      spelledCtypes, tInt32, tFloat64, tString, tInt8, tComplex64, tObject, tTimedelta, Ty.shape] <;> decide

end DS
