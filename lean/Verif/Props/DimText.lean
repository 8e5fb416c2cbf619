import Verif.Props.Multiply

/-
C44, C17: a dimension written, or multiplied, in front of a text.
-/
namespace DS

/-- The tokens of a text that begins with the spelling of a token. -/
theorem LexTo.untok {w r : Str} {k : Tk} {ls : List Tk} (hw : Spells w k) (hm : Munch k r) (h : LexTo (w ++ r) ls) :
    ∃ ks, ls = k :: ks ∧ LexTo r ks := by
  obtain ⟨toks, hl, rfl⟩ := h.lexed 0
  clear h
  have hs := spells_head hw r
  generalize ht : w ++ r = s at hl hs
  cases hl with
  | done hb =>
    have := skipWs_blank hb [] (fun _ => rfl)
    rw [List.append_nil, hs] at this
    rw [this] at ht
    exact absurd (List.append_eq_nil_iff.1 ht).1 (spells_ne hw)
  | @tok _ g w' k' r' ts hg hw' hm' hr =>
    rw [skipWs_blank hg _ (fun h => by cases h), spells_head hw'] at hs
    have e : w' ++ r' = w ++ r := by rw [hs, ht]
    have h1 := scanTok_complete hw' hm'
    rw [e, scanTok_complete hw hm] at h1
    simp only [Option.some.injEq, Prod.mk.injEq, Except.ok.injEq] at h1
    obtain ⟨rfl, rfl⟩ := h1
    exact ⟨_, rfl, lexTo_of hr⟩

section
variable (env : Env) (disc : List Lit → Except PyErr Ty)

/-- `DimText.lex`, backwards -/
theorem DimText.unlex {d : Str} {x : Ty} (h : DimText d x) : ∃ ds, DimG (theSym env disc) ds x ∧
    ∀ {b ls}, LexTo (d ++ (py"*" ++ b)) ls → ∃ ks, ls = ds ++ .star :: ks ∧ LexTo b ks := by
  have hstar : ∀ {b ls}, LexTo (py"*" ++ b) ls → ∃ ks, ls = .star :: ks ∧ LexTo b ks :=
    fun h => LexTo.untok (w := py"*") (k := .star) rfl trivial h
  have one : ∀ {w : Str} {k : Tk}, Spells w k → (∀ b, Munch k (py"*" ++ b)) → ∀ {b ls}, LexTo (w ++ (py"*" ++ b)) ls →
      ∃ ks, ls = [k] ++ .star :: ks ∧ LexTo b ks := by
    intro w k hw hm b ls h
    obtain ⟨ks, rfl, h1⟩ := LexTo.untok hw (hm b) h
    obtain ⟨ls, rfl, h2⟩ := hstar h1
    exact ⟨ls, rfl, h2⟩
  cases h with
  | fixed n =>
    refine ⟨[.int n], .int (c := fun | .int i => mkFixed i | .bool b => .ok (.fixed (if b then 1 else 0)) | .str _ => .error .typeError) rfl ?_,
      one (w := natStr n) (k := .int n) (by simp [Spells, intStr]) (fun b => by intro c hc; cases hc; decide)⟩
    show mkFixed (n : Int) = _
    rw [mkFixed, if_neg (by omega)]; rfl
  | var =>
    exact ⟨[.lower (py"var")], .name rfl, one (w := py"var") (k := .lower (py"var")) ⟨rfl, word_of rfl rfl⟩ (fun b => by intro c hc; cases hc; decide)⟩
  | ellipsis =>
    exact ⟨[.ellipsis], .ellipsis rfl, one (w := py"...") (k := .ellipsis) rfl (fun _ => trivial)⟩
  | typevar hs h1 h2 =>
    exact ⟨[.upper d], .typevar (c := fun | .str s => mkTypeVar env s | _ => .error .typeError) rfl (isUpperA_env env hs),
      one (w := d) (k := .upper d) ⟨rfl, hs⟩ (fun b => ⟨(by intro c hc; cases hc; decide), h1, h2⟩)⟩
  | @named s hs h1 h2 =>
    refine ⟨[.upper s, .ellipsis], .ellipsisTypevar (c := fun | .str s => mkEllipsis env s | _ => .error .typeError) rfl ?_, fun {b ls} h => ?_⟩
    · show mkEllipsis env s = _
      simp [mkEllipsis, isUpperA_env env hs]
    · rw [List.append_assoc] at h
      obtain ⟨ks, rfl, h3⟩ := LexTo.untok (w := s) (k := .upper s) ⟨rfl, hs⟩ ⟨(by intro c hc; cases hc; decide), h1, h2⟩ h
      obtain ⟨ls, rfl, h4⟩ := one (w := py"...") (k := .ellipsis) rfl (fun _ => trivial) h3
      exact ⟨ls, rfl, h4⟩

theorem DimG.unique {sym : Sym} {ds : List Tk} {x y : Ty} (h : DimG sym ds x) (h' : DimG sym ds y) : x = y := by
  cases h <;> cases h' <;> simp_all <;> (subst_vars; simp_all)

theorem DimG.split {sym : Sym} {ds ds' ts ts' : List Tk} {x y : Ty} (h : DimG sym ds x) (h' : DimG sym ds' y)
    (e : ds ++ .star :: ts = ds' ++ .star :: ts') : ds = ds' ∧ ts = ts' := by
  cases h <;> cases h' <;> simp_all

theorem G.no_star {sym : Sym} {q : Bool} {ks ts : List Tk} {t : Ty} (h : G sym q .dtype ks t) : ks ≠ .star :: ts := by
  intro e
  cases h <;> cases e

theorem G.not_dim {sym : Sym} {q : Bool} {ds ks ts : List Tk} {x t : Ty} (hx : DimG sym ds x) (h : G sym q .dtype ks t) :
    ks ≠ ds ++ .star :: ts := by
  intro e
  cases hx <;> (cases h <;> simp at e)

/-- what stands after a dimension and a `*` -/
theorem G.undim {sym : Sym} {ds ts : List Tk} {x r : Ty} (hx : DimG sym ds x)
    (h : G sym true .datashape (ds ++ .star :: ts) r) :
    ∃ t : Ty, G sym true .datashape ts t ∧ mkDS (x :: t.params) = .ok r := by
  generalize hk : ds ++ .star :: ts = ks at h
  cases h with
  | option => cases hx <;> simp at hk
  | plain h =>
    cases h with
    | @dim ds' ts' d t r hd ht hr =>
      obtain ⟨rfl, rfl⟩ := hx.split hd hk
      have := hx.unique hd
      subst this
      exact ⟨t, ht, hr⟩
    | dtype ht => exact absurd hk.symm (G.not_dim hx ht)
    | @dropped ds' ts' t r _ hl ht =>
      exfalso
      cases hx <;> cases hl <;> simp at hk <;> first
        | exact (G.no_star ht hk.2.symm)
        | exact (G.no_star ht hk.symm)
        | (cases hk)

theorem EllipsisOk.tail {x : Ty} {ps : List Ty} (h : EllipsisOk (x :: ps)) : EllipsisOk ps :=
  ⟨fun a b c y z e => h.1 (x :: a) b c y z (by rw [e]; rfl), fun a y e => h.2 (x :: a) y (by rw [e]; rfl)⟩

theorem validOk_cons {x : Ty} {ps : List Ty} (hx : x.isDim = true) :
    validOk (.dshape (x :: ps)) = true ↔ validOk (.dshape ps) = true ∧ EllipsisOk (x :: ps) := by
  have hv : validOk x = true := by cases x <;> first | rfl | cases hx
  constructor
  · intro h
    have he := (C11.validate_iff _).1 h _ (.refl _)
    refine ⟨(C11.validate_iff _).2 fun qs hq => ?_, he⟩
    cases hq with
    | refl => exact he.tail
    | dshape hp hq => exact (C11.validate_iff _).1 h _ (.dshape (List.mem_cons_of_mem _ hp) hq)
  · rintro ⟨h, he⟩
    refine (C11.validate_iff _).2 fun qs hq => ?_
    cases hq with
    | refl => exact he
    | dshape hp hq =>
      rcases List.mem_cons.1 hp with rfl | hp
      · exact (C11.validate_iff _).1 hv _ hq
      · exact (C11.validate_iff _).1 h _ (.dshape hp hq)

/-- **C44.** `dshape(d*s)` returns exactly if `dshape(s)` does, and the dimension is not a second ellipsis; it returns the
datashape of `s` with the dimension in front. -/
theorem C44.dims_exact (hd : ∀ l, Returns (disc l)) (hw : ∀ l t, disc l = .ok t → WF env t)
    (d s : Str) (x r : Ty) (hx : DimText d x) :
    DS.dshape env disc (d ++ (py"*" ++ s)) = .ok r ↔
      ∃ ps, DS.dshape env disc s = .ok (.dshape ps) ∧ EllipsisOk (x :: ps) ∧ r = .dshape (x :: ps) := by
  have hdim : x.isDim = true := (hx.lex env disc).1
  have wf : ∀ {ks : List Tk} {t : Ty}, G (theSym env disc) true .datashape ks t → DSOk env t :=
    fun hg => G_wf (fun s t h => (dshapeN_wf hw _ s t h).1.1) hw hg
  constructor
  · intro h
    obtain ⟨toks, hl, hg, hv⟩ := (C06.exact env disc hd _ _).1 h
    obtain ⟨ds, hds, hu⟩ := hx.unlex env disc
    obtain ⟨ks, e, hl'⟩ := hu ⟨toks, hl, rfl⟩
    rw [e] at hg
    obtain ⟨t, hgt, hr⟩ := G.undim hds hg
    have ht := wf hgt
    rw [ht.prepend hdim] at hr
    obtain ⟨ps, rfl⟩ := isDShape_iff.1 ht.2
    injection hr with hr
    subst hr
    obtain ⟨hv1, hv2⟩ := (validOk_cons hdim).1 hv
    refine ⟨ps, ?_, hv2, rfl⟩
    rw [dshape_of_G env disc hd hl' hgt, if_pos (by simpa only [Ty.params] using hv1)]
  · rintro ⟨ps, hs, he, rfl⟩
    obtain ⟨toks, hl, hg, hv⟩ := (C06.exact env disc hd _ _).1 hs
    obtain ⟨_, ls, hdg, hl'⟩ := hx.lex env disc
    have := dshape_of_G env disc hd (hl' ⟨toks, hl, rfl⟩) (.plain (.dim hdg hg ((wf hg).prepend hdim)))
    rw [Ty.params, if_pos ((validOk_cons hdim).2 ⟨hv, he⟩)] at this
    exact this

/-- **C17.** A dimension times a text puts the dimension in front of the datashape of the text. It does not look at the
ellipses. -/
theorem C17.text (hw : ∀ l t, disc l = .ok t → WF env t) (d s : Str) (x r : Ty) (hx : DimText d x) :
    mulObj (DS.dshape env disc) (.ty x) (.str s) = .ok r ↔
      ∃ ps, DS.dshape env disc s = .ok (.dshape ps) ∧ r = .dshape (x :: ps) := by
  have hdim : x.isDim = true := (hx.lex env disc).1
  show (DS.dshape env disc s >>= fun d => rmulParts (DS.dshape env disc) (.ty x) d) = _ ↔ _
  cases hs : DS.dshape env disc s with
  | error e =>
    constructor
    · intro h; cases h
    · rintro ⟨ps, h, _⟩; cases h
  | ok t =>
    have ht : DSOk env t := (dshapeN_wf hw _ s t hs).1
    obtain ⟨ps, rfl⟩ := isDShape_iff.1 ht.2
    have : rmulParts (DS.dshape env disc) (.ty x) (.dshape ps) = .ok (.dshape (x :: ps)) :=
      (dataShape_tys (x :: ps) (by simp)).trans (ht.prepend hdim)
    show rmulParts (DS.dshape env disc) (.ty x) (.dshape ps) = _ ↔ _
    rw [this]
    constructor
    · intro h; injection h with h; exact ⟨ps, rfl, h.symm⟩
    · rintro ⟨qs, h, rfl⟩; injection h with h; injection h with h; rw [h]

/-- What `dshape(d*s)` returns is what the dimension times the text is. -/
theorem C17.written (hd : ∀ l, Returns (disc l)) (hw : ∀ l t, disc l = .ok t → WF env t) (d s : Str) (x r : Ty)
    (hx : DimText d x) (h : DS.dshape env disc (d ++ (py"*" ++ s)) = .ok r) :
    mulObj (DS.dshape env disc) (.ty x) (.str s) = .ok r := by
  obtain ⟨ps, hs, _, rfl⟩ := (C44.dims_exact env disc hd hw d s x r hx).1 h
  exact (C17.text env disc hw d s x _ hx).2 ⟨ps, hs, rfl⟩

/-- `Fixed(3) * '2 * int32'`, a text on the left of an array, the swapped operands of a text and a
measure or dimension, two ellipses, operands of other kinds and texts that are not datashapes -/
theorem C17.examples :
    mulObj (DS.dshape env disc) (.ty (.fixed 3)) (.str (py"2 * int32")) = .ok (.dshape [.fixed 3, .fixed 2, tInt32]) ∧
    mulObj (DS.dshape env disc) (.str (py"A")) (.ty (.dshape [tInt32])) = .ok (.dshape [.typevar (py"A"), tInt32]) ∧
    mulObj (DS.dshape env disc) (.str (py"int32")) (.ty .var) = .ok (.dshape [.var, tInt32]) ∧
    mulObj (DS.dshape env disc) (.str (py"A")) (.ty tInt32) = .error .typeError ∧
    mulObj (DS.dshape env disc) (.ty (.ellipsis none)) (.str (py"... * int32")) =
      .ok (.dshape [.ellipsis none, .ellipsis none, tInt32]) ∧
    mulObj (DS.dshape env disc) .none (.ty tInt32) = .error .typeError ∧
    mulObj (DS.dshape env disc) (.ty .var) .other = .error .typeError ∧
    mulObj (DS.dshape env disc) (.ty .var) (.int (-1)) = .error .valueError ∧
    mulObj (DS.dshape env disc) (.str (py"3")) (.ty tInt32) = .error (.syntax (py"3") 0 (py"Invalid datashape")) ∧
    DS.dshape env disc (py"...*... * int32") = .error .typeError :=
  ⟨rfl, rfl, rfl, rfl, rfl, rfl, rfl, rfl, rfl, rfl⟩

end

end DS
