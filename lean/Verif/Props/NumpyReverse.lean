import Verif.Spec.Numpy
import Verif.Props.ArrayDiscovery
import Verif.Props.Strings

/-
C21, the other direction: `to_numpy(from_numpy(shape, dtype))`.
-/
namespace DS

theorem toDtype_fixed (ns : List Nat) {m : Ty} {e : DType} (h : ∀ k, toDtype m k = .ok e) :
    toDtype (if ns = [] then m else .dshape (ns.map Ty.fixed ++ [m])) .measure = .ok e := by
  split
  · exact h _
  · simp only [toDtype, toDtypeLast_append]; exact h _

theorem kept_forward {d e : DType} (hn : NpNamed d) (h : Kept d e) :
    ∃ t, fromNumpy d [] = .ok t ∧ ∀ k, toDtype t k = .ok e := by
  revert hn
  refine Kept.rec (motive_1 := fun d e _ => NpNamed d → ∃ t, fromNumpy d [] = .ok t ∧ ∀ k, toDtype t k = .ok e)
    (motive_2 := fun fs gs _ => NpNamedFields fs → ∃ r ds, fromNumpyF fs = .ok r ∧ toDtypeF r = .ok ds ∧
      gs = ds.map (fun f => (f.1, [], f.2)) ∧ r.map (·.1) = fs.map (·.1) ∧ ds.map (·.1) = fs.map (·.1) ∧
      ∀ f ∈ ds, f.1 ≠ []) ?_ ?_ ?_ ?_ ?_ ?_ ?_ ?_ ?_ ?_ ?_ ?_ h
  · intro p _; cases p <;> exact ⟨_, rfl, fun _ => rfl⟩
  · intro u hu _
    refine ⟨.date, ?_, fun _ => rfl⟩
    simp only [dateUnits, List.mem_cons, List.not_mem_nil, or_false] at hu
    simp only [fromNumpy, fromDtype, if_pos hu, bind, Except.bind, withShape, List.isEmpty_nil, if_true]
  · intro u hu _
    refine ⟨.datetime none, ?_, fun _ => rfl⟩
    simp only [dateUnits, List.mem_cons, List.not_mem_nil, or_false] at hu
    simp only [fromNumpy, fromDtype, if_neg hu, bind, Except.bind, withShape, List.isEmpty_nil, if_true]
  · intro u v hu _
    refine ⟨.timedelta v, ?_, fun _ => rfl⟩
    have := (C12.timedelta u (.timedelta v)).2 ⟨v, hu, rfl⟩
    simp only [fromNumpy, fromDtype, this, bind, Except.bind, withShape, List.isEmpty_nil, if_true]
  · intro n _
    refine ⟨_, rfl, fun k => ?_⟩
    simp only [toDtype, stringDtype]
    rw [if_neg (by omega), if_neg (by omega)]; rfl
  · intro n _
    refine ⟨_, rfl, fun k => ?_⟩
    simp only [toDtype, stringDtype]
    rw [if_neg (by omega), if_neg (by omega)]; rfl
  · intro _; exact ⟨_, rfl, fun _ => rfl⟩
  · intro _; exact ⟨_, rfl, fun _ => rfl⟩
  · intro _; exact ⟨_, rfl, fun _ => rfl⟩
  · intro fs gs hne _ ih hn
    cases hn with
    | struct hnd hf =>
      obtain ⟨r, ds, h1, h2, rfl, h4, h5, h6⟩ := ih hf
      have hmk : mkRecord r = .ok (.record r) := by
        have hla := fromNumpyF_launder h1
        have : (r.map fun f => (f.1, launderTy f.2)) = r := by
          conv => rhs; rw [← List.map_id r]
          apply List.map_inj_left.2
          intro f hf
          rw [hla f hf]; rfl
        rw [mkRecord, this, if_pos (by rw [h4]; exact hnd)]
      refine ⟨.record r, ?_, fun k => ?_⟩
      · cases fs with
        | nil => exact absurd rfl hne
        | cons f fs => simp only [fromNumpy, h1, hmk, bind, Except.bind, withShape, List.isEmpty_nil, if_true]
      · simp only [toDtype, h2, bind, Except.bind]
        exact npStruct_ok (by rw [h5]; exact hnd) h6
  · intro _; exact ⟨[], [], rfl, rfl, rfl, rfl, rfl, by simp⟩
  · intro n sh d e fs gs _ _ ihd ihf hn
    cases hn with
    | cons hne hd hf =>
      obtain ⟨t, t1, t2⟩ := ihd hd
      obtain ⟨r, ds, h1, h2, rfl, h4, h5, h6⟩ := ihf hf
      have h7 := fromNumpy_dims t1 sh
      have h8 := toDtype_fixed sh t2
      refine ⟨(n, if sh = [] then t else .dshape (sh.map Ty.fixed ++ [t])) :: r, (n, e) :: ds, ?_, ?_, rfl, ?_, ?_, ?_⟩
      · simp only [fromNumpyF, h7, h1, bind, Except.bind]
      · simp only [toDtypeF, h8, h2, bind, Except.bind]
      · simp [h4]
      · simp [h5]
      · intro f hf
        rcases List.mem_cons.1 hf with rfl | hf
        · exact hne
        · exact h6 f hf

theorem kept_backward (d : DType) : ∀ sh t, fromNumpy d sh = .ok t → ∃ e, Kept d e := by
  have hw : ∀ {x : Except PyErr Ty} {sh t}, (do withShape sh (← x)) = .ok t → ∃ m, x = .ok m := by
    intro x sh t hx
    cases x with
    | error e => cases hx
    | ok t => exact ⟨t, rfl⟩
  refine DType.rec (motive_1 := fun d => ∀ sh t, fromNumpy d sh = .ok t → ∃ e, Kept d e)
    (motive_2 := fun l => ∀ r, fromNumpyF l = .ok r → ∃ gs, KeptFields l gs)
    (motive_3 := fun x => ∀ sh t, fromNumpy x.2.2 sh = .ok t → ∃ e, Kept x.2.2 e)
    (motive_4 := fun x => ∀ sh t, fromNumpy x.2 sh = .ok t → ∃ e, Kept x.2 e)
    ?_ ?_ ?_ ?_ ?_ ?_ ?_ ?_ ?_ ?_ d
  · intro p sh t _; exact ⟨_, .prim p⟩
  · intro u sh t _
    by_cases hu : u ∈ dateUnits
    · exact ⟨_, .date hu⟩
    · exact ⟨_, .datetime hu⟩
  · intro u sh t h
    rw [fromNumpy] at h
    · obtain ⟨m, hm⟩ := hw h
      simp only [fromDtype] at hm
      obtain ⟨v, hv, _⟩ := (C12.timedelta u m).1 hm
      exact ⟨_, .timedelta hv⟩
    all_goals simp
  · intro n sh t _
    cases n with
    | zero => exact ⟨_, .bytes0⟩
    | succ n => exact ⟨_, .bytes n⟩
  · intro n sh t _
    cases n with
    | zero => exact ⟨_, .str0⟩
    | succ n => exact ⟨_, .str n⟩
  · intro l hl sh t h
    cases l with
    | nil => exact ⟨_, .empty⟩
    | cons f l =>
      rw [fromNumpy] at h
      simp only [bind_ok] at h
      obtain ⟨r, hr, _⟩ := h
      obtain ⟨gs, hg⟩ := hl r hr
      exact ⟨_, .struct (by simp) hg⟩
  · intro r _; exact ⟨[], .nil⟩
  · intro x l hx hl r h
    obtain ⟨n, sh, d⟩ := x
    rw [fromNumpyF] at h
    simp only [bind_ok] at h
    obtain ⟨t, ht, rest, hr, _⟩ := h
    obtain ⟨e, he⟩ := hx _ _ ht
    obtain ⟨gs, hg⟩ := hl rest hr
    exact ⟨_, .cons he hg⟩
  · intro n x hx; exact hx
  · intro sh d hd; exact hd

theorem toNumpy_fromNumpy {d : DType} {m : Ty} {e : DType} (hm : fromNumpy d [] = .ok m)
    (he : ∀ k, toDtype m k = .ok e) (sh : List Nat) :
    ∃ t, fromNumpy d (sh.map fun (n : Nat) => (n : Int)) = .ok t ∧
      toNumpy t = .ok (sh.map fun (n : Nat) => (n : Int), e) := by
  refine ⟨_, fromNumpy_dims hm sh, ?_⟩
  by_cases hs : sh = []
  · subst hs
    have hd := (fromNumpy_measure hm).1
    rw [if_pos rfl]
    have := he .method
    cases m <;> first | (simp [Ty.isDShape] at hd; done) | (simp only [toNumpy, this, bind, Except.bind, List.map_nil])
  · rw [if_neg hs]
    simp only [toNumpy, toNumpyDims_fixed, toDtypeLast_append, he, bind, Except.bind]

/-- `to_numpy(from_numpy(shape, dtype))`: the shape comes back, and the dtype comes back as described by `Kept`. -/
theorem C21.reverse (sh : List Nat) (d e : DType) (hn : NpNamed d) :
    (∃ t, fromNumpy d (sh.map fun (n : Nat) => (n : Int)) = .ok t ∧
      toNumpy t = .ok (sh.map fun (n : Nat) => (n : Int), e)) ↔ Kept d e := by
  constructor
  · rintro ⟨t, h1, h2⟩
    obtain ⟨e', he'⟩ := kept_backward d _ _ h1
    obtain ⟨m, hm, hk⟩ := kept_forward hn he'
    obtain ⟨t', h3, h4⟩ := toNumpy_fromNumpy hm hk sh
    rw [h1] at h3
    cases h3
    rw [h2] at h4
    cases h4
    exact he'
  · intro h
    obtain ⟨m, hm, hk⟩ := kept_forward hn h
    exact toNumpy_fromNumpy hm hk sh

/-- `from_numpy` accepts exactly the dtypes that can come back, and never produces anything `to_numpy` rejects. -/
theorem C21.accepts (sh : List Nat) (d : DType) (hn : NpNamed d) :
    ((∃ t, fromNumpy d (sh.map fun (n : Nat) => (n : Int)) = .ok t) ↔ ∃ e, Kept d e) ∧
    ∀ t, fromNumpy d (sh.map fun (n : Nat) => (n : Int)) = .ok t →
      ∃ e, toNumpy t = .ok (sh.map fun (n : Nat) => (n : Int), e) := by
  have key : ∀ t, fromNumpy d (sh.map fun (n : Nat) => (n : Int)) = .ok t → ∃ e, Kept d e :=
    fun t h => kept_backward d _ _ h
  refine ⟨⟨fun ⟨t, h⟩ => key t h, fun ⟨e, h⟩ => ?_⟩, fun t h => ?_⟩
  · obtain ⟨t, ht, _⟩ := (C21.reverse sh d e hn).2 h
    exact ⟨t, ht⟩
  · obtain ⟨e, he⟩ := key t h
    obtain ⟨t', h1, h2⟩ := (C21.reverse sh d e hn).2 he
    rw [h] at h1
    cases h1
    exact ⟨e, h2⟩

/-- A structured dtype with a sub-array field, a date, and a nested structure: the sub-array shape and the month
resolution are lost, everything else is kept. -/
example : Kept
    (.struct [(py"a", [3], .prim .int32), (py"b", [], .datetime (py"M")), (py"c", [], .struct [(py"s", [], .bytes 7)])])
    (.struct [(py"a", [], .prim .int32), (py"b", [], .datetime (py"D")), (py"c", [], .struct [(py"s", [], .bytes 7)])]) :=
  .struct (by simp) (.cons (.prim _) (.cons (.date (by decide)) (.cons (.struct (by simp) (.cons (.bytes 6) .nil)) .nil)))

example : NpNamed
    (.struct [(py"a", [3], .prim .int32), (py"b", [], .datetime (py"M")), (py"c", [], .struct [(py"s", [], .bytes 7)])]) :=
  .struct (by decide) (.cons (by decide) (.prim _) (.cons (by decide) (.datetime _)
    (.cons (by decide) (.struct (by decide) (.cons (by decide) (.bytes _) .nil)) .nil)))

/-- not every dtype is accepted: datashape does not know picoseconds -/
theorem C21.picoseconds (sh : List Nat) :
    ¬ ∃ t, fromNumpy (.timedelta (py"ps")) (sh.map fun (n : Nat) => (n : Int)) = .ok t := by
  rw [(C21.accepts sh _ (.timedelta _)).1]
  rintro ⟨e, h⟩
  cases h with
  | timedelta h =>
    have := (C12.exact _ _).2 h
    revert this
    have e : normalizeTimeUnit (py"ps") = .error .valueError := rfl
    rw [e]
    intro h; cases h

end DS
