import Verif.Spec.Multiply
import Verif.Model.Multiply
import Verif.Props.Build
import Verif.Props.Names
import Verif.Props.Util

/-
C17: `a * b` for operands of any kind.
-/
namespace DS

variable {nest : Str → Except PyErr Ty}

theorem rmulParts_other {a : PVal} {t : Ty} (h : ∀ ps, t ≠ .dshape ps) :
    rmulParts nest a t = dataShape nest [a, .ty t] := by
  cases t <;> first | rfl | exact absurd rfl (h _)

theorem rmulParts_parts {a : PVal} {t : Ty} {ps : List Ty} (h : PartsOf t ps) :
    rmulParts nest a t = dataShape nest (a :: ps.map .ty) := by
  cases h with
  | array => rfl
  | other h => rw [rmulParts_other h]; rfl

theorem mulLeft_parts {u t : Ty} {ps : List Ty} (h : PartsOf t ps) :
    mulLeft nest u (.ty t) = dataShape nest (.ty u :: ps.map .ty) := by
  cases h with
  | array => rfl
  | other h => cases t <;> first | rfl | exact absurd rfl (h _)

theorem mulRight_other {a : PVal} {t : Ty} (h : ∀ ps, t ≠ .dshape ps) (ha : ∀ s, a ≠ .str s) :
    mulRight nest a t = dataShape nest [a, .ty t] := by
  cases t <;> first
    | exact absurd rfl (h _)
    | (cases a <;> first | rfl | exact absurd rfl (ha _))

theorem mulRight_str {s : Str} {t : Ty} (h : ∀ ps, t ≠ .dshape ps) :
    mulRight nest (.str s) t = (nest s).bind fun d => mulLeft nest t (.ty d) := by
  cases t <;> first | exact absurd rfl (h _) | rfl

/-- `a * b` is `DataShape(*vs)` for the factors `vs` of `a` and `b`. -/
theorem C17.factors (a b : PVal) (vs : List PVal) (h : Factors nest a b vs) : mulObj nest a b = dataShape nest vs := by
  cases h with
  | @array a ps => cases a <;> rfl
  | @element a t ha ht =>
    cases a with
    | ty u => exact mulLeft_parts (.other ht)
    | str s => exact absurd rfl (ha s)
    | _ => exact mulRight_other ht ha
  | @text t d s ps hn hp =>
    show (nest s >>= fun d => rmulParts nest (.ty t) d) = _
    rw [hn]
    exact rmulParts_parts hp
  | @swapped t d s ps ht hn hp =>
    show mulRight nest (.str s) t = _
    rw [mulRight_str ht, hn]
    exact mulLeft_parts hp
  | @value t b hs hu =>
    cases b with
    | str s => exact absurd rfl (hs s)
    | ty u => exact absurd rfl (hu u)
    | _ => rfl

theorem parts (t : Ty) : ∃ ps, PartsOf t ps := by
  cases t <;> first | exact ⟨_, .array _⟩ | exact ⟨_, .other (fun _ h => by cases h)⟩

theorem dshape_or (t : Ty) : (∃ ps, t = .dshape ps) ∨ ∀ ps, t ≠ .dshape ps := by
  cases t <;> first | exact .inl ⟨_, rfl⟩ | exact .inr (fun _ h => by cases h)

/-- If one operand is a datashape, `a * b` has factors, or one operand is a text that `dshape` rejects: then `a * b`
raises the exception of `dshape`. -/
theorem C17.complete (a b : PVal) (h : (∃ t, a = .ty t) ∨ ∃ t, b = .ty t) :
    (∃ vs, Factors nest a b vs) ∨
    ∃ s e, (a = .str s ∨ b = .str s) ∧ nest s = .error e ∧ mulObj nest a b = .error e := by
  have left : ∀ (t : Ty) (b : PVal), (∃ vs, Factors nest (.ty t) b vs) ∨
      ∃ s e, (PVal.ty t = .str s ∨ b = .str s) ∧ nest s = .error e ∧ mulObj nest (.ty t) b = .error e := by
    intro t b
    cases b with
    | str s =>
      cases hn : nest s with
      | ok d =>
        obtain ⟨ps, hp⟩ := parts d
        exact .inl ⟨_, .text hn hp⟩
      | error e =>
        refine .inr ⟨s, e, .inr rfl, hn, ?_⟩
        show (nest s >>= fun d => rmulParts nest (.ty t) d) = _
        rw [hn]; rfl
    | ty u =>
      rcases dshape_or u with ⟨ps, rfl⟩ | hu
      · exact .inl ⟨_, .array⟩
      · exact .inl ⟨_, .element (fun _ h => by cases h) hu⟩
    | _ => exact .inl ⟨_, .value (fun _ h => by cases h) (fun _ h => by cases h)⟩
  rcases h with ⟨t, rfl⟩ | ⟨t, rfl⟩
  · exact left t b
  · rcases dshape_or t with ⟨ps, rfl⟩ | ht
    · exact .inl ⟨_, .array⟩
    · cases a with
      | ty u => exact left u _
      | str s =>
        cases hn : nest s with
        | ok d =>
          obtain ⟨ps, hp⟩ := parts d
          exact .inl ⟨_, .swapped ht hn hp⟩
        | error e =>
          refine .inr ⟨s, e, .inl rfl, hn, ?_⟩
          show mulRight nest (.str s) t = _
          rw [mulRight_str ht, hn]; rfl
      | _ => exact .inl ⟨_, .element (fun _ h => by cases h) ht⟩

/-- The datashapes that `a * b` returns, for a datashape and any other operand: the factors of `a` and `b` in order, if
all but the last may be dimensions and the last may be a measure. -/
theorem C17.law (a b : PVal) (r : Ty) (h : (∃ t, a = .ty t) ∨ ∃ t, b = .ty t) :
    mulObj nest a b = .ok r ↔ ∃ vs, Factors nest a b vs ∧ BuiltFrom nest vs r := by
  constructor
  · intro hr
    rcases C17.complete a b h with ⟨vs, hv⟩ | ⟨s, e, _, _, he⟩
    · rw [C17.factors a b vs hv] at hr
      exact ⟨vs, hv, (C50.constructor vs r).1 hr⟩
    · rw [he] at hr; cases hr
  · rintro ⟨vs, hv, hr⟩
    rw [C17.factors a b vs hv]
    exact (C50.constructor vs r).2 hr

/-- the operands of `mul` as Python values -/
def Operand.toVal : Operand → PVal
  | .ty t => .ty t
  | .int i => .int i

theorem mapM_tys (ps : List Ty) : (ps.map PVal.ty).mapM (PVal.launder nest) = .ok (ps.map launderTy) := by
  induction ps with
  | nil => rfl
  | cons p ps ih => simp [List.mapM_cons, PVal.launder, ih, bind, Except.bind, pure, Except.pure]

theorem dataShape_tys (ps : List Ty) (h : ps ≠ []) : dataShape nest (ps.map .ty) = mkDS ps := by
  have hs : (ps.map PVal.ty).any PVal.isStr = false := by simp [PVal.isStr]
  have hl : (ps.map PVal.ty).length > 0 := by simpa using List.length_pos_iff.2 h
  simp only [dataShape]
  rw [if_neg (by rw [hs]; exact fun h => by cases h.2), if_pos hl, mapM_tys]
  rfl

theorem dataShape_op (o : Operand) (ps : List Ty) :
    dataShape nest (o.toVal :: ps.map .ty) = o.toTy >>= fun x => mkDS (x :: ps) := by
  cases o with
  | ty t => exact dataShape_tys (t :: ps) (by simp)
  | int i =>
    show dataShape nest (.int i :: ps.map .ty) = mkFixed i >>= fun x => mkDS (x :: ps)
    have hs : (PVal.int i :: ps.map PVal.ty).any PVal.isStr = false := by simp [PVal.isStr]
    simp only [dataShape]
    rw [if_neg (by rw [hs]; exact fun h => by cases h.2), if_pos (by exact Nat.succ_pos _)]
    simp only [List.mapM_cons, PVal.launder, mapM_tys, mkFixed]
    split
    · rfl
    · rfl

theorem dataShape_last (t : Ty) (o : Operand) :
    dataShape nest [.ty t, o.toVal] = o.toTy >>= fun x => mkDS [t, x] := by
  cases o with
  | ty u => exact dataShape_tys [t, u] (by simp)
  | int i =>
    show dataShape nest [.ty t, .int i] = mkFixed i >>= fun x => mkDS [t, x]
    simp only [dataShape]
    rw [if_neg (by rintro ⟨h, _⟩; cases h), if_pos (by exact Nat.succ_pos _)]
    simp only [List.mapM_cons, PVal.launder, List.mapM_nil, mkFixed]
    split
    · rfl
    · rfl

/-- For datashapes and ints this is the multiplication of the theorems above, whatever texts mean. -/
theorem C17.same (a b : Operand) : mulObj nest a.toVal b.toVal = mul a b := by
  cases a with
  | int i =>
    cases b with
    | int j => rfl
    | ty t =>
      rcases dshape_or t with ⟨ps, rfl⟩ | ht
      · rw [show mulObj nest (Operand.int i).toVal (Operand.ty (.dshape ps)).toVal = mulObj nest (.int i) (.ty (.dshape ps)) from rfl,
          C17.factors _ _ _ (.array (a := .int i) (ps := ps))]
        exact dataShape_op (.int i) ps
      · rw [show mulObj nest (Operand.int i).toVal (Operand.ty t).toVal = mulObj nest (.int i) (.ty t) from rfl,
          C17.factors _ _ _ (.element (a := .int i) (fun _ h => by cases h) ht)]
        have := dataShape_op (nest := nest) (.int i) [t]
        refine this.trans ?_
        cases t <;> first | rfl | exact absurd rfl (ht _)
  | ty u =>
    cases b with
    | int j => exact dataShape_last u (.int j)
    | ty t =>
      rcases dshape_or t with ⟨ps, rfl⟩ | ht
      · rw [show mulObj nest (Operand.ty u).toVal (Operand.ty (.dshape ps)).toVal = mulObj nest (.ty u) (.ty (.dshape ps)) from rfl,
          C17.factors _ _ _ (.array (a := .ty u) (ps := ps))]
        exact dataShape_op (.ty u) ps
      · rw [show mulObj nest (Operand.ty u).toVal (Operand.ty t).toVal = mulObj nest (.ty u) (.ty t) from rfl,
          C17.factors _ _ _ (.element (a := .ty u) (fun _ h => by cases h) ht)]
        refine (dataShape_last (nest := nest) u (.ty t)).trans ?_
        cases t <;> first | rfl | exact absurd rfl (ht _)

end DS
