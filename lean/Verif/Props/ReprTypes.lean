import Verif.Spec.Repr
import Verif.Spec.Source
import Verif.Props.Repr
import Verif.Spec.Categories

namespace DS

theorem hexNum_str (k c : Nat) : HexNum (hexStr k c) (c % 16 ^ k) := by
  induction k generalizing c with
  | zero => rw [hexStr, Nat.pow_zero, Nat.mod_one]; exact .nil
  | succ k ih =>
    rw [hexStr]
    have h := HexNum.snoc (ih (c / 16)) (hexDigit_iff.2 (hexDigit_ok (n := c % 16) (by omega)))
    have e : 16 * (c / 16 % 16 ^ k) + c % 16 = c % 16 ^ (k + 1) := by
      rw [Nat.pow_succ, Nat.mul_comm (16 ^ k) 16, Nat.mod_mul]; omega
    rw [e] at h; exact h

theorem hexStr_length (k c : Nat) : (hexStr k c).length = k := by
  induction k generalizing c with
  | zero => rfl
  | succ k ih => rw [hexStr, List.length_append, ih]; rfl

theorem PyBody.append {q : Nat} {a b v w : Str} (h : PyBody q a v) (h2 : PyBody q b w) : PyBody q (a ++ b) (v ++ w) := by
  induction h with
  | nil => exact h2
  | raw h1 h2' h3 h4 h5 h6 _ ih => exact .raw h1 h2' h3 h4 h5 h6 ih
  | esc h1 _ ih => exact .esc h1 ih
  | hex h1 h2' h3 h4 _ ih =>
    simp only [List.cons_append, List.append_assoc]
    exact .hex h1 h2' h3 h4 ih

theorem pyBody_hex {q e k c : Nat} (he : (e, k) ∈ [(120, 2), (117, 4), (85, 8)]) (hc : c < 16 ^ k) (hm : c ≤ 0x10ffff) :
    PyBody q (92 :: e :: hexStr k c) [c] := by
  have h := hexNum_str k c
  rw [Nat.mod_eq_of_lt hc] at h
  have := PyBody.hex (q := q) he (hexStr_length k c) h hm .nil
  rwa [List.append_nil] at this

theorem pyBody_each {q : Nat} {f : Nat → Str} {s : Str} (h : ∀ c ∈ s, PyBody q (f c) [c]) : PyBody q (s.flatMap f) s := by
  induction s with
  | nil => exact .nil
  | cons c s ih =>
    rw [List.flatMap_cons]
    exact (h c (by simp)).append (ih fun d hd => h d (by simp [hd]))

theorem reprChar_pyBody {env : Env} (hu : env.Usual) {q c : Nat} (hq : q = 34 ∨ q = 39) (hc : c ≤ 0x10ffff) :
    PyBody q (reprChar env q c) [c] := by
  unfold reprChar
  by_cases h1 : c = q
  · rw [if_pos (.inl h1)]; subst h1
    exact .esc (by rcases hq with rfl | rfl <;> simp) .nil
  by_cases h2 : c = 92
  · rw [if_pos (.inr h2)]; subst h2; exact .esc (by simp) .nil
  rw [if_neg (by simp [h1, h2])]
  by_cases h9 : c = 9
  · rw [if_pos h9, h9]; exact .esc (by simp) .nil
  rw [if_neg h9]
  by_cases h10 : c = 10
  · rw [if_pos h10, h10]; exact .esc (by simp) .nil
  rw [if_neg h10]
  by_cases h13 : c = 13
  · rw [if_pos h13, h13]; exact .esc (by simp) .nil
  rw [if_neg h13]
  by_cases hlow : c < 32 ∨ c = 127
  · rw [if_pos hlow]; exact pyBody_hex (by simp) (by omega) hc
  rw [if_neg hlow]
  by_cases hlt : c < 127
  · rw [if_pos hlt]; exact .raw h1 h10 h13 h2 (by omega) (by omega) .nil
  rw [if_neg hlt]
  cases hp : env.printable c with
  | true =>
    rw [if_pos rfl]
    exact .raw h1 h10 h13 h2 (by omega) (fun h => by rw [hu c h.1 h.2] at hp; cases hp) .nil
  | false =>
    rw [if_neg (by simp)]
    by_cases h3 : c ≤ 0xff
    · rw [if_pos h3]; exact pyBody_hex (by simp) (by omega) hc
    rw [if_neg h3]
    by_cases h4 : c ≤ 0xffff
    · rw [if_pos h4]; exact pyBody_hex (by simp) (by omega) hc
    rw [if_neg h4]; exact pyBody_hex (by simp) (by omega) hc

theorem pyRepr_quoted {env : Env} (hu : env.Usual) {s : Str} (hs : Unicode s) : PyQuoted (pyRepr env s) s :=
  ⟨reprQuote s, _, reprQuote_or s, by simp [pyRepr],
    pyBody_each fun c hc => reprChar_pyBody hu (reprQuote_or s) (hs c hc)⟩

theorem escapeChar_pyBody {c : Nat} (h34 : c ≠ 34) (hc : c ≤ 0x10ffff) : PyBody 34 (escapeChar c) [c] := by
  unfold escapeChar
  by_cases h2 : c = 92
  · rw [if_pos h2]; subst h2; exact .esc (by simp) .nil
  rw [if_neg h2]
  by_cases h9 : c = 9
  · rw [if_pos h9, h9]; exact .esc (by simp) .nil
  rw [if_neg h9]
  by_cases h10 : c = 10
  · rw [if_pos h10, h10]; exact .esc (by simp) .nil
  rw [if_neg h10]
  by_cases h13 : c = 13
  · rw [if_pos h13, h13]; exact .esc (by simp) .nil
  rw [if_neg h13]
  by_cases hlt : 32 ≤ c ∧ c < 127
  · rw [if_pos hlt]; exact .raw h34 h10 h13 h2 (by omega) (by omega) .nil
  rw [if_neg hlt]
  by_cases h3 : c ≤ 0xff
  · rw [if_pos h3]; exact pyBody_hex (by simp) (by omega) hc
  rw [if_neg h3]
  by_cases h4 : c ≤ 0xffff
  · rw [if_pos h4]; exact pyBody_hex (by simp) (by omega) hc
  rw [if_neg h4]; exact pyBody_hex (by simp) (by omega) hc

theorem hexStr_ascii (k n : Nat) : ∀ d ∈ hexStr k n, 32 ≤ d ∧ d < 127 := by
  induction k generalizing n with
  | zero => simp [hexStr]
  | succ k ih =>
    intro d hd
    rw [hexStr, List.mem_append] at hd
    rcases hd with hd | hd
    · exact ih _ d hd
    · rw [List.mem_singleton] at hd; subst hd; unfold hexDigit; split <;> omega

theorem escapeChar_ascii (c : Nat) : ∀ d ∈ escapeChar c, 32 ≤ d ∧ d < 127 := by
  have hx := hexStr_ascii 2 c
  have hu := hexStr_ascii 4 c
  have hU := hexStr_ascii 8 c
  unfold escapeChar
  intro d hd
  by_cases h2 : c = 92
  · rw [if_pos h2] at hd; simp at hd; omega
  rw [if_neg h2] at hd
  by_cases h9 : c = 9
  · rw [if_pos h9] at hd; simp at hd; omega
  rw [if_neg h9] at hd
  by_cases h10 : c = 10
  · rw [if_pos h10] at hd; simp at hd; omega
  rw [if_neg h10] at hd
  by_cases h13 : c = 13
  · rw [if_pos h13] at hd; simp at hd; omega
  rw [if_neg h13] at hd
  by_cases hlt : 32 ≤ c ∧ c < 127
  · rw [if_pos hlt] at hd; simp at hd; omega
  rw [if_neg hlt] at hd
  by_cases h3 : c ≤ 0xff
  · rw [if_pos h3] at hd; simp at hd; rcases hd with h | h | h
    · omega
    · omega
    · exact hx d h
  rw [if_neg h3] at hd
  by_cases h4 : c ≤ 0xffff
  · rw [if_pos h4] at hd; simp at hd; rcases hd with h | h | h
    · omega
    · omega
    · exact hu d h
  rw [if_neg h4] at hd; simp at hd; rcases hd with h | h | h
  · omega
  · omega
  · exact hU d h

/-- `repr` of the classes without a `repr` of their own: the class name and, in parentheses, `slot=value` for every slot,
in order, where the text of a value is Python source for it (a literal for strings, numbers and `None`, the `repr` of a
datashape). -/
theorem C58.slots (env : Env) (hu : env.Usual) (t : Ty) (names : List Str) (hk : t.klass.shown = some names)
    (hs : ∀ s ∈ t.strings, Unicode s) :
    ∃ vals, Each (Shows (pyReprTy env)) t.parameters vals ∧ names.length = vals.length ∧
      pyReprTy env t = t.klass.name ++ py"(" ++ join (py", ") (List.zipWith (fun n v => n ++ py"=" ++ v) names vals) ++ py")" := by
  have one : ∀ (n v : Str), join (py", ") [n ++ py"=" ++ v] = n ++ py"=" ++ v := fun _ _ => rfl
  have hq : ∀ {s : Str}, s ∈ t.strings → PyQuoted (pyRepr env s) s := fun h => pyRepr_quoted hu (hs _ h)
  cases t <;> simp only [Ty.klass, Klass.shown, Option.some.injEq, reduceCtorEq] at hk <;> subst hk
  case null | date | bytes | json | var => exact ⟨[], .nil, rfl, rfl⟩
  case time z | datetime z =>
    cases z with
    | none => exact ⟨[py"None"], .cons .none .nil, rfl, by rw [pyReprTy]; rfl⟩
    | some s =>
      refine ⟨[pyRepr env s], .cons (.str (hq (by simp [Ty.strings]))) .nil, rfl, ?_⟩
      rw [pyReprTy]; simp [optRepr, Ty.klass, Klass.name, join]
  case timedelta u | typevar u =>
    refine ⟨[pyRepr env u], .cons (.str (hq (by simp [Ty.strings]))) .nil, rfl, ?_⟩
    rw [pyReprTy]; simp [Ty.klass, Klass.name, join]
  case units u t =>
    refine ⟨[pyRepr env u, pyReprTy env t], .cons (.str (hq (by simp [Ty.strings]))) (.cons (.ty t) .nil), rfl, ?_⟩
    rw [pyReprTy]; simp [Ty.klass, Klass.name, join]
  case decimal p s =>
    refine ⟨[intStr p, intStr s], .cons (.int p) (.cons (.int s) .nil), rfl, ?_⟩
    rw [pyReprTy]; simp [Ty.klass, Klass.name, join]
  case fixed n =>
    refine ⟨[intStr n], .cons (.int n) .nil, rfl, ?_⟩
    rw [pyReprTy]; simp [Ty.klass, Klass.name, join, intStr]
  case option t =>
    refine ⟨[pyReprTy env t], .cons (.ty t) .nil, rfl, ?_⟩
    rw [pyReprTy]; simp [Ty.klass, Klass.name, join]
  case map k v =>
    refine ⟨[pyReprTy env k, pyReprTy env v], .cons (.ty k) (.cons (.ty v) .nil), rfl, ?_⟩
    rw [pyReprTy]; simp [Ty.klass, Klass.name, join]

theorem pyReprL_map (env : Env) (l : List Ty) : pyReprL env l = l.map (pyReprTy env) := by
  induction l with
  | nil => rfl
  | cons t l ih => rw [pyReprL, ih]; rfl

/-- `repr` of a function lists the argument types and the result type. -/
theorem C58.function (env : Env) (ps : List Ty) :
    pyReprTy env (.func ps) = py"Function(" ++ join (py", ") (ps.map (pyReprTy env)) ++ py")" := by
  rw [pyReprTy, pyReprL_map]

/-- `repr` of a sized type or of a string type is `ctype("…")`, all in printable ASCII, and what stands in the
parentheses is a Python literal for `str` of the type, if there are no double quotes in that. -/
theorem C58.ctype (env : Env) (t : Ty) (ht : t.klass = .ctype ∨ t.klass = .string)
    (hu : Unicode (pyStr env t)) :
    (∃ lit, pyReprTy env t = py"ctype(" ++ lit ++ py")" ∧ (34 ∉ pyStr env t → PyQuoted lit (pyStr env t))) ∧
    ∀ c ∈ pyReprTy env t, 32 ≤ c ∧ c < 127 := by
  have key : pyReprTy env t = quoteCtype (pyStr env t) := by
    cases t <;> simp [Ty.klass] at ht <;> rw [pyReprTy] <;> rfl
  rw [key]
  constructor
  · refine ⟨34 :: ((pyStr env t).flatMap escapeChar ++ [34]), by simp [quoteCtype], fun h34 => ?_⟩
    exact ⟨34, _, .inl rfl, rfl, pyBody_each fun c hc => escapeChar_pyBody (fun e => h34 (e ▸ hc)) (hu c hc)⟩
  · intro c hc
    simp only [quoteCtype, List.mem_append, List.mem_flatMap] at hc
    rcases hc with (hc | ⟨d, _, hc⟩) | hc
    · revert c; decide
    · exact escapeChar_ascii d c hc
    · revert c; decide

/-- `repr` of a categorical type shows at most ten categories, the type and whether it is ordered. -/
theorem C58.categorical (env : Env) (hu : env.Usual) (c : List Lit) (t : Ty) (o : Bool)
    (hs : ∀ s, Lit.str s ∈ c → Unicode s) :
    ∃ vals flag, Each ShowsLit (c.take 10) vals ∧ ShowsLit (.bool o) flag ∧
      pyReprTy env (.categorical c t o) = py"Categorical(categories=[" ++ join (py", ") vals ++
        (if c.length ≤ 10 then [] else py", ...") ++ py"], type=" ++ pyReprTy env t ++ py", ordered=" ++ flag ++ py")" := by
  refine ⟨(c.take 10).map (litRepr env), boolStr o, ?_, ?_, ?_⟩
  · have : ∀ l : List Lit, (∀ s, Lit.str s ∈ l → Unicode s) → Each ShowsLit l (l.map (litRepr env)) := by
      intro l h
      induction l with
      | nil => exact .nil
      | cons x l ih =>
        refine .cons ?_ (ih fun s hs => h s (by simp [hs]))
        cases x with
        | int i => exact .int i
        | str s => exact .str (pyRepr_quoted hu (h s (by simp)))
        | bool b => cases b <;> constructor
    exact this _ fun s h => hs s (List.mem_of_mem_take h)
  · cases o <;> constructor
  · rw [pyReprTy, formatCategories]
    by_cases h : c.length ≤ 10
    · rw [if_neg (by omega), if_pos h]; simp
    · rw [if_pos (by omega), if_neg h]; simp

/-- `repr` of an ellipsis shows its text, `...` with the type variable before it. -/
theorem C58.ellipsis (env : Env) (hu : env.Usual) (s : Option Str) (hs : ∀ x, s = some x → Unicode x) :
    ∃ lit, PyQuoted lit (s.getD [] ++ py"...") ∧ pyReprTy env (.ellipsis s) = py"Ellipsis(" ++ lit ++ py")" := by
  refine ⟨_, ?_, by rw [pyReprTy]⟩
  cases s with
  | none => exact pyRepr_quoted hu fun c hc => (by
      have h : pyStr env (.ellipsis none) = py"..." := rfl
      rw [h] at hc; revert c; decide)
  | some x =>
    refine pyRepr_quoted hu fun c hc => ?_
    have : pyStr env (.ellipsis (some x)) = x ++ py"..." := rfl
    rw [this, List.mem_append] at hc
    rcases hc with hc | hc
    · exact hs x rfl c hc
    · revert c; decide

/-- `repr` of a type set is its name in braces. -/
theorem C58.typeset (env : Env) (ts : List Ty) (n : Str) (hn : n ≠ []) :
    pyReprTy env (.typeset ts (some n)) = py"{" ++ n ++ py"}" := by
  cases n with
  | nil => exact absurd rfl hn
  | cons c r => rw [pyReprTy]

theorem distinct_fold (l acc : List Str) (h : (acc ++ l).Nodup) :
    l.foldl (fun s x => if s.contains x then s else s ++ [x]) acc = acc ++ l := by
  induction l generalizing acc with
  | nil => simp
  | cons x l ih =>
    have hx : acc.contains x = false := by
      rw [← Bool.not_eq_true, List.contains_iff_mem]
      intro hm
      exact (List.nodup_append.1 h).2.2 x hm x (by simp) rfl
    rw [List.foldl_cons, hx]
    simp only [Bool.false_eq_true, ite_false]
    rw [ih _ (by simpa using h)]; simp

/-- `repr` of a type set without a name lists its members (in some order: they are a Python set; the model gives the
order of the arguments). -/
theorem C58.unnamed (env : Env) (ts : List Ty) (hd : (ts.map (pyReprTy env)).Nodup) :
    pyReprTy env (.typeset ts none) = py"TypeSet(" ++ (if ts = [] then py"set()" else py"{" ++ join (py", ") (ts.map (pyReprTy env)) ++
      py"}") ++ py", name=None)" := by
  rw [pyReprTy, pyReprL_map, setRepr, distinct_fold _ [] (by simpa using hd), List.nil_append]
  · cases ts with
    | nil => rfl
    | cons t ts => simp
  · intro c r h; cases h

theorem lowerHex {s : Str} {n : Nat} (h : HexNum s n) (hl : ∀ x ∈ s, x ∈ py"0123456789abcdef") : s = hexStr s.length n := by
  induction h with
  | nil => rfl
  | @snoc s n c d hs hd ih =>
    have hlt : d < 16 := hexDigit_lt hd
    have h1 := ih fun x hx => hl x (by simp [hx])
    have h2 : c = hexDigit d := by
      have hc := hl c (by simp)
      have : ∀ m : Fin 16, ∀ a ∈ [py"0123456789abcdef", py"0123456789ABCDEF"], ∀ x ∈ py"0123456789abcdef", a[m.1]? = some x →
          x = hexDigit m.1 := by decide
      rcases hd with hd | hd
      · exact this ⟨d, hlt⟩ _ (by simp) c hc hd
      · exact this ⟨d, hlt⟩ _ (by simp) c hc hd
    rw [List.length_append, List.length_singleton, hexStr]
    rw [show (16 * n + d) / 16 = n by omega, show (16 * n + d) % 16 = d by omega, ← h1, ← h2]

theorem hexStr_lower (k n : Nat) : ∀ x ∈ hexStr k n, x ∈ py"0123456789abcdef" := by
  induction k generalizing n with
  | zero => intro x hx; cases hx
  | succ k ih =>
    intro x hx
    rw [hexStr, List.mem_append, List.mem_singleton] at hx
    rcases hx with hx | rfl
    · exact ih _ x hx
    · have : ∀ m : Fin 16, hexDigit m.1 ∈ py"0123456789abcdef" := by decide
      exact this ⟨n % 16, by omega⟩

theorem hex_eq {c k : Nat} {ds : Str} (h1 : ds.length = k) (h2 : HexNum ds c) (h3 : ∀ x ∈ ds, x ∈ py"0123456789abcdef") :
    ds = hexStr k c := by rw [← h1]; exact lowerHex h2 h3

theorem reprChar_escaped {env : Env} {q c : Nat} {v r : Str} (hc : c ≤ 0x10ffff) (h : Escaped env.Printable [q, 92] v r) :
    Escaped env.Printable [q, 92] (c :: v) (reprChar env q c ++ r) := by
  have hx : ∀ e k, ¬ (c = q ∨ c = 92) → ¬ env.Printable c → c ≠ 9 → c ≠ 10 → c ≠ 13 →
      (e = 120 ∧ k = 2 ∧ c < 256 ∨ e = 117 ∧ k = 4 ∧ 256 ≤ c ∧ c < 65536 ∨ e = 85 ∧ k = 8 ∧ 65536 ≤ c) →
      Escaped env.Printable [q, 92] (c :: v) ([92, e] ++ hexStr k c ++ r) := by
    intro e k h1 h2 h3 h4 h5 h6
    have hn : HexNum (hexStr k c) c := by
      have := hexNum_str k c
      rwa [Nat.mod_eq_of_lt (by rcases h6 with ⟨_, rfl, _⟩ | ⟨_, rfl, _, _⟩ | ⟨_, rfl, _⟩ <;> omega)] at this
    rw [List.append_assoc]
    exact Escaped.hex (ds := hexStr k c) (by simpa using h1) h2 (by simp [h3, h4, h5]) h6 (hexStr_length k c) hn (hexStr_lower k c) h
  unfold reprChar
  by_cases h1 : c = q ∨ c = 92
  · rw [if_pos h1]; exact .quoted (by simpa using h1) h
  rw [if_neg h1]
  have h1' : c ∉ [q, 92] := by simpa using h1
  by_cases h9 : c = 9
  · rw [if_pos h9]; exact .control h1' (by simp [h9]) h
  rw [if_neg h9]
  by_cases h10 : c = 10
  · rw [if_pos h10]; exact .control h1' (by simp [h10]) h
  rw [if_neg h10]
  by_cases h13 : c = 13
  · rw [if_pos h13]; exact .control h1' (by simp [h13]) h
  rw [if_neg h13]
  by_cases hlow : c < 32 ∨ c = 127
  · rw [if_pos hlow]; exact hx 120 2 h1 (by unfold Env.Printable; omega) h9 h10 h13 (by omega)
  rw [if_neg hlow]
  by_cases hlt : c < 127
  · rw [if_pos hlt]; exact .plain h1' (.inl (by omega)) h
  rw [if_neg hlt]
  cases hp : env.printable c with
  | true => rw [if_pos rfl]; exact .plain h1' (.inr ⟨by omega, hp⟩) h
  | false =>
    have hnp : ¬ env.Printable c := by
      rintro (h | h)
      · omega
      · rw [hp] at h; cases h.2
    rw [if_neg (by simp)]
    by_cases h3 : c ≤ 0xff
    · rw [if_pos h3]; exact hx 120 2 h1 hnp h9 h10 h13 (by omega)
    rw [if_neg h3]
    by_cases h4 : c ≤ 0xffff
    · rw [if_pos h4]; exact hx 117 4 h1 hnp h9 h10 h13 (by omega)
    rw [if_neg h4]; exact hx 85 8 h1 hnp h9 h10 h13 (by omega)

/-- the text is determined -/
theorem Escaped.unique {p : Nat → Prop} {qs : List Nat} (hp : ∀ c ∈ [9, 10, 13], ¬ p c) {v a b : Str}
    (h : Escaped p qs v a) (h' : Escaped p qs v b) : a = b := by
  induction h generalizing b with
  | nil => cases h'; rfl
  | quoted hq _ ih =>
    cases h' with
    | quoted _ h => rw [ih h]
    | control hn | plain hn | hex hn => exact absurd hq hn
  | @control c e v r hn he _ ih =>
    have hc : c ∈ [9, 10, 13] := by
      simp only [List.mem_cons, Prod.mk.injEq, List.not_mem_nil, or_false] at he ⊢; omega
    cases h' with
    | quoted hq => exact absurd hq hn
    | @control _ e' _ _ _ he' h =>
      rw [ih h]
      simp only [List.mem_cons, Prod.mk.injEq, List.not_mem_nil, or_false] at he he'
      rw [show e = e' by omega]
    | plain _ hpc => exact absurd hpc (hp _ hc)
    | hex _ _ hc' => exact absurd hc hc'
  | @plain c v r hn hpc _ ih =>
    cases h' with
    | quoted hq => exact absurd hq hn
    | @control _ e' _ _ _ he' h =>
      refine absurd hpc (hp _ ?_)
      simp only [List.mem_cons, Prod.mk.injEq, List.not_mem_nil, or_false] at he' ⊢; omega
    | plain _ _ h => rw [ih h]
    | hex _ hnp => exact absurd hpc hnp
  | @hex c e k ds v r hn hnp hc he hl hx hlow _ ih =>
    cases h' with
    | quoted hq => exact absurd hq hn
    | @control _ e' _ _ _ he' h =>
      refine absurd ?_ hc
      simp only [List.mem_cons, Prod.mk.injEq, List.not_mem_nil, or_false] at he' ⊢; omega
    | plain _ hpc => exact absurd hpc hnp
    | @hex _ e' k' ds' _ _ _ _ _ he' hl' hx' hlow' h =>
      have : e = e' ∧ k = k' := by omega
      obtain ⟨rfl, rfl⟩ := this
      rw [ih h, hex_eq hl hx hlow, hex_eq hl' hx' hlow']

/-- The `repr` of a string, which stands for it everywhere in these texts, is exactly what Python writes. -/
theorem C58.python_repr (env : Env) (s src : Str) (hs : Unicode s) : pyRepr env s = src ↔ PyReprOf env s src := by
  have key : ∀ q, Escaped env.Printable [q, 92] s (s.flatMap (reprChar env q)) := by
    intro q
    clear src
    induction s with
    | nil => exact .nil
    | cons c s ih =>
      rw [List.flatMap_cons]
      exact reprChar_escaped (hs c (by simp)) (ih fun x hx => hs x (by simp [hx]))
  have hp : ∀ c ∈ [9, 10, 13], ¬ env.Printable c := by
    intro c hc
    simp only [List.mem_cons, List.not_mem_nil, or_false] at hc
    unfold Env.Printable; omega
  have hq : (39 ∈ s ∧ 34 ∉ s → reprQuote s = 34) ∧ ((39 ∉ s ∨ 34 ∈ s) → reprQuote s = 39) := by
    unfold reprQuote
    refine ⟨fun h => by rw [if_pos (by simpa using h)], fun h => by rw [if_neg (by rcases h with h | h <;> simp [h])]⟩
  have hr : pyRepr env s = reprQuote s :: (s.flatMap (reprChar env (reprQuote s)) ++ [reprQuote s]) := by simp [pyRepr]
  rw [hr]
  constructor
  · rintro rfl
    by_cases h : 39 ∈ s ∧ 34 ∉ s
    · rw [hq.1 h]; exact .double h.1 h.2 (key 34)
    · have h' : 39 ∉ s ∨ 34 ∈ s := by
        by_cases h1 : 39 ∈ s
        · by_cases h2 : 34 ∈ s
          · exact .inr h2
          · exact absurd ⟨h1, h2⟩ h
        · exact .inl h1
      rw [hq.2 h']; exact .single h' (key 39)
  · intro h
    cases h with
    | double h1 h2 h => rw [hq.1 ⟨h1, h2⟩, h.unique hp (key 34)]
    | single h1 h => rw [hq.2 h1, h.unique hp (key 39)]

theorem HexNum.unique {s : Str} {n m : Nat} (h : HexNum s n) (h' : HexNum s m) : n = m := by
  induction h generalizing m with
  | nil =>
    generalize hs : ([] : Str) = s at h'
    cases h' with
    | nil => rfl
    | snoc _ _ => simp at hs
  | @snoc s n c d _ hd ih =>
    generalize hs : s ++ [c] = s' at h'
    cases h' with
    | nil => simp at hs
    | @snoc s2 n2 c2 d2 h2 hd2 =>
      obtain ⟨e1, e2⟩ := List.append_inj' hs rfl
      injection e2 with e2 _
      subst e1; subst e2
      rw [ih h2, ← (hexDigit_iff.1 hd).2, ← (hexDigit_iff.1 hd2).2]

theorem PyBody.unique {q : Nat} {b v w : Str} (h : PyBody q b v) (h' : PyBody q b w) : v = w := by
  induction h generalizing w with
  | nil => cases h'; rfl
  | raw h1 h2 h3 h4 h5 h6 _ ih =>
    cases h' with
    | raw _ _ _ _ _ _ h => rw [ih h]
    | esc _ _ => exact absurd rfl h4
    | hex _ _ _ _ _ => exact absurd rfl h4
  | esc he _ ih =>
    cases h' with
    | raw _ _ _ h4 _ _ h => exact absurd rfl h4
    | esc he' h =>
      rw [ih h]
      simp only [List.mem_cons, Prod.mk.injEq, List.not_mem_nil, or_false] at he he'
      congr 1; omega
    | hex he' _ _ _ _ =>
      simp only [List.mem_cons, Prod.mk.injEq, List.not_mem_nil, or_false] at he he'
      omega
  | @hex e k n ds r v he hl hn hm _ ih =>
    generalize hb : 92 :: e :: (ds ++ r) = b' at h'
    cases h' with
    | nil => cases hb
    | raw _ _ _ h4 _ _ h => injection hb with e1 _; exact absurd e1.symm h4
    | esc he' h =>
      injection hb with _ e2; injection e2 with e2 _
      simp only [List.mem_cons, Prod.mk.injEq, List.not_mem_nil, or_false] at he he'
      omega
    | @hex e2 k2 n2 ds2 r2 v2 he' hl' hn' hm' h =>
      injection hb with _ e3; injection e3 with e3 e4
      have hk : k = k2 := by
        simp only [List.mem_cons, Prod.mk.injEq, List.not_mem_nil, or_false] at he he'
        omega
      obtain ⟨e5, e6⟩ := List.append_inj e4 (by rw [hl, hl', hk])
      subst e5; subst e6
      rw [hn.unique hn', ih h]

/-- The literals in these texts denote one string only, so that `repr` tells the values of the slots apart. -/
theorem C58.literal_unique {src v w : Str} (h : PyQuoted src v) (h' : PyQuoted src w) : v = w := by
  obtain ⟨q, b, _, e, h⟩ := h
  obtain ⟨q', b', _, e', h'⟩ := h'
  rw [e] at e'
  injection e' with e1 e2
  subst e1
  rw [List.append_cancel_right e2] at h
  exact h.unique h'

theorem escapeChar_escaped {c : Nat} {v r : Str} (hc : c ≤ 0x10ffff) (h : Escaped (fun c => 32 ≤ c ∧ c < 127) [92] v r) :
    Escaped (fun c => 32 ≤ c ∧ c < 127) [92] (c :: v) (escapeChar c ++ r) := by
  have hx : ∀ e k, c ≠ 92 → ¬ (32 ≤ c ∧ c < 127) → c ≠ 9 → c ≠ 10 → c ≠ 13 →
      (e = 120 ∧ k = 2 ∧ c < 256 ∨ e = 117 ∧ k = 4 ∧ 256 ≤ c ∧ c < 65536 ∨ e = 85 ∧ k = 8 ∧ 65536 ≤ c) →
      Escaped (fun c => 32 ≤ c ∧ c < 127) [92] (c :: v) ([92, e] ++ hexStr k c ++ r) := by
    intro e k h1 h2 h3 h4 h5 h6
    have hn : HexNum (hexStr k c) c := by
      have := hexNum_str k c
      rwa [Nat.mod_eq_of_lt (by rcases h6 with ⟨_, rfl, _⟩ | ⟨_, rfl, _, _⟩ | ⟨_, rfl, _⟩ <;> omega)] at this
    rw [List.append_assoc]
    exact Escaped.hex (ds := hexStr k c) (by simpa using h1) h2 (by simp [h3, h4, h5]) h6 (hexStr_length k c) hn (hexStr_lower k c) h
  unfold escapeChar
  by_cases h1 : c = 92
  · rw [if_pos h1, h1]; exact .quoted (by simp) h
  rw [if_neg h1]
  have h1' : c ∉ [92] := by simpa using h1
  by_cases h9 : c = 9
  · rw [if_pos h9]; exact .control h1' (by simp [h9]) h
  rw [if_neg h9]
  by_cases h10 : c = 10
  · rw [if_pos h10]; exact .control h1' (by simp [h10]) h
  rw [if_neg h10]
  by_cases h13 : c = 13
  · rw [if_pos h13]; exact .control h1' (by simp [h13]) h
  rw [if_neg h13]
  by_cases hlt : 32 ≤ c ∧ c < 127
  · rw [if_pos hlt]; exact .plain h1' hlt h
  rw [if_neg hlt]
  by_cases h3 : c ≤ 0xff
  · rw [if_pos h3]; exact hx 120 2 h1 hlt h9 h10 h13 (by omega)
  rw [if_neg h3]
  by_cases h4 : c ≤ 0xffff
  · rw [if_pos h4]; exact hx 117 4 h1 hlt h9 h10 h13 (by omega)
  rw [if_neg h4]; exact hx 85 8 h1 hlt h9 h10 h13 (by omega)

/-- The text of `repr` of a sized type or of a string type, exactly. -/
theorem C58.ctype_text (env : Env) (t : Ty) (src : Str) (ht : t.klass = .ctype ∨ t.klass = .string) (hu : Unicode (pyStr env t)) :
    pyReprTy env t = src ↔
      ∃ body, Escaped (fun c => 32 ≤ c ∧ c < 127) [92] (pyStr env t) body ∧ src = py"ctype(\"" ++ body ++ py"\")" := by
  have e : pyReprTy env t = quoteCtype (pyStr env t) := by
    cases t <;> simp only [Ty.klass, reduceCtorEq, or_false, false_or] at ht
    · simp only [pyReprTy, pyStr, render]
    · simp only [pyReprTy]
  have key : ∀ s : Str, Unicode s → Escaped (fun c => 32 ≤ c ∧ c < 127) [92] s (s.flatMap escapeChar) := by
    intro s
    induction s with
    | nil => intro _; exact .nil
    | cons c s ih =>
      intro hs
      rw [List.flatMap_cons]
      exact escapeChar_escaped (hs c (by simp)) (ih fun x hx => hs x (by simp [hx]))
  rw [e]
  unfold quoteCtype
  constructor
  · rintro rfl; exact ⟨_, key _ hu, rfl⟩
  · rintro ⟨body, hb, rfl⟩
    rw [hb.unique (by intro c hc; simp only [List.mem_cons, List.not_mem_nil, or_false] at hc; omega) (key _ hu)]

/-- Concrete cases. -/
theorem C58.examples :
    (Env.Usual ⟨fun c => c < 0xd800, fun _ => false⟩) ∧
    pyReprTy ⟨fun c => c < 0xd800, fun _ => false⟩ (.option (.time (some (py"it's")))) = py"Option(ty=Time(tz=\"it's\"))" ∧
    pyReprTy ⟨fun c => c < 0xd800, fun _ => false⟩ (.ctype [233, 10] 4 4) = py"ctype(\"\\xe9\\n\")" ∧
    pyReprTy ⟨fun c => c < 0xd800, fun _ => false⟩ (.func [.decimal 5 2, .categorical [.int 1, .str (py"a")] tInt64 true]) =
      py"Function(Decimal(precision=5, scale=2), Categorical(categories=[1, 'a'], type=ctype(\"int64\"), ordered=True))" := by
  refine ⟨fun c h1 _ => by simp; omega, by decide, by decide, by decide⟩

end DS
