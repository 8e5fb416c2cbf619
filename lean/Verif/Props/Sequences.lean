import Verif.Proofs.Sequences

/-
C67: what `discover` of a list, tuple or set comes to (datashape/discovery.py:200-229, 282-348), for every sequence: the
datashape it returns or the exception it raises, in terms of `discover` of the items and of their elements.
-/
namespace DS

/-- `discover` of a list, tuple or set comes to `r` (a datashape or an exception) exactly if `SequenceOf` says so. -/
theorem C67.sequence (E : StrEnv) (topo : List Node) (htopo : Toposort discEdges (.ok topo)) (kind : SeqKind) (items : List PyObj)
    (r : Except PyErr Ty) :
    discover (discoverStr E) topo (.seq kind items) = r ↔ SequenceOf (discover (discoverStr E) topo) items r := by
  have hD : ∀ v t, discover (discoverStr E) topo v = .ok t → Good t := fun v t h => (cell_discover h).good
  rw [discover_seq]
  constructor
  · rintro rfl
    obtain ⟨r, h⟩ := sequence_total hD items
    rw [sequence_eq hD htopo h]
    exact h
  · exact sequence_eq hD htopo

/-- So the answer for the items decides: a list, a tuple and a set with the same items have the same datashape. -/
theorem C67.kind (E : StrEnv) (topo : List Node) (htopo : Toposort discEdges (.ok topo)) (kind kind' : SeqKind) (items : List PyObj) :
    discover (discoverStr E) topo (.seq kind items) = discover (discoverStr E) topo (.seq kind' items) :=
  (C67.sequence E topo htopo kind items _).2 ((C67.sequence E topo htopo kind' items _).1 rfl)

theorem united_error {ts : List Ty} {r : Except PyErr Ty} (h : United ts r) :
    ∀ e, r = .error e → e = .valueError ∨ e = .attributeError := by
  induction h with
  | nulls | scalars | records | emptyRecord => intro e h; cases h
  | unrelated => intro e h; cases h; exact .inl rfl
  | recordsFail _ _ _ _ _ ih => intro e h; cases h; exact ih _ rfl
  | mixed | noRecord => intro e h; cases h; exact .inr rfl

theorem inTurn_error {α β : Type} {R : α → Except PyErr β → Prop} {l : List α} {r : Except PyErr (List β)} (h : InTurn R l r) :
    ∀ e, r = .error e → ∃ x ∈ l, R x (.error e) := by
  induction h with
  | done | next => intro e h; cases h
  | fails h => intro e he; cases he; exact ⟨_, by simp, h⟩
  | failsLater _ _ ih =>
    intro e he
    cases he
    obtain ⟨x, hx, h⟩ := ih _ rfl
    exact ⟨x, by simp [hx], h⟩

theorem columns_error {D : PyObj → Except PyErr Ty} {cols : List (List PyObj)} {e : PyErr} (h : InTurn (CellsColumn D) cols (.error e)) :
    e = .valueError ∨ e = .attributeError ∨ ∃ c ∈ cols, ∃ x ∈ c, D x = .error e := by
  obtain ⟨c, hc, h⟩ := inTurn_error h e rfl
  cases h with
  | column _ h2 =>
    cases h2 with
    | differ _ h => rcases united_error h e rfl with h | h <;> simp [h]
  | fails h1 =>
    obtain ⟨x, hx, h⟩ := inTurn_error h1 e rfl
    exact .inr (.inr ⟨c, hc, x, hx, h⟩)

/-- An exception other than `ValueError` comes from an item, or from a cell of an item. -/
theorem C67.raises (E : StrEnv) (topo : List Node) (htopo : Toposort discEdges (.ok topo)) (kind : SeqKind) (items : List PyObj)
    (e : PyErr) (h : discover (discoverStr E) topo (.seq kind items) = .error e) :
    e = .valueError ∨ ∃ v ∈ items, discover (discoverStr E) topo v = .error e ∨
      ∃ x, CellOf v x ∧ discover (discoverStr E) topo x = .error e := by
  have hone : OneByOne (discover (discoverStr E) topo) items (.error e) → ∃ v ∈ items, discover (discoverStr E) topo v = .error e ∨
      ∃ x, CellOf v x ∧ discover (discoverStr E) topo x = .error e := by
    intro h
    cases h with
    | fails h =>
      obtain ⟨v, hv, h⟩ := inTurn_error h e rfl
      exact ⟨v, hv, .inl h⟩
  cases (C67.sequence E topo htopo kind items _).1 h with
  | @rowsFail _ rows k _ hne h1 h2 h3 =>
    rcases columns_error h2 with h | h | ⟨c, hc, x, hx, h⟩
    · exact .inl h
    · exact absurd h h3
    · obtain ⟨j, hj, rfl⟩ := List.mem_map.1 hc
      obtain ⟨row, hrow, hx⟩ := List.mem_filterMap.1 hx
      obtain ⟨v, hv, hl⟩ := h1.1.mem_right row hrow
      refine .inr ⟨v, hv, .inr ⟨x, ?_, h⟩⟩
      rcases hl with rfl | rfl
      · exact .row (by simp) (List.mem_of_getElem? hx)
      · exact .row (by simp) (List.mem_of_getElem? hx)
  | @dictsFail _ rows keys _ hne h1 h2 h3 h4 =>
    rcases columns_error h3 with h | h | ⟨c, hc, x, hx, h⟩
    · exact .inl h
    · exact absurd h h4
    · obtain ⟨k, hk, rfl⟩ := List.mem_map.1 hc
      obtain ⟨es, hes, rfl⟩ := List.mem_map.1 hx
      obtain ⟨v, hv, hl⟩ := h1.mem_right es hes
      cases hlk : es.lookup k with
      | none => rw [hlk] at h; cases h
      | some x =>
        rw [hlk] at h
        exact .inr ⟨v, hv, .inr ⟨x, .key hl (lookup_mem hlk), h⟩⟩
  | notRows _ _ _ h => exact .inr (hone h)
  | notDicts _ _ _ _ h => exact .inr (hone h)
  | other _ _ _ h => exact .inr (hone h)

/-- If the items and their cells can be discovered, then the sequence can, or some column holds types that nothing in the
promotion order is above. -/
theorem C67.succeeds (E : StrEnv) (topo : List Node) (htopo : Toposort discEdges (.ok topo)) (kind : SeqKind) (items : List PyObj)
    (hitems : ∀ v ∈ items, ∃ t, discover (discoverStr E) topo v = .ok t)
    (hcells : ∀ v ∈ items, ∀ x, CellOf v x → ∃ t, discover (discoverStr E) topo x = .ok t) :
    (∃ t, discover (discoverStr E) topo (.seq kind items) = .ok t) ∨
      discover (discoverStr E) topo (.seq kind items) = .error .valueError := by
  cases h : discover (discoverStr E) topo (.seq kind items) with
  | ok t => exact .inl ⟨t, rfl⟩
  | error e =>
    rcases C67.raises E topo htopo kind items e h with rfl | ⟨v, hv, h | ⟨x, hx, h⟩⟩
    · exact .inr rfl
    · obtain ⟨t, ht⟩ := hitems v hv
      rw [h] at ht; cases ht
    · obtain ⟨t, ht⟩ := hcells v hv x hx
      rw [h] at ht; cases ht

/-- Lists of sets, which are not read as rows; of lists of different lengths; of different things; rows that cannot be
read by columns, because a number stands beside a dict; and rows and dicts with a thing that cannot be discovered. -/
theorem C67.example (E : StrEnv) (topo : List Node) :
    discover (discoverStr E) topo (.seq .list [.seq .set [.int], .seq .set [.date]]) =
      .ok (.tuple [.dshape [.fixed 1, tInt64], .dshape [.fixed 1, .date]]) ∧
    discover (discoverStr E) topo (.seq .set [.seq .list [.int], .seq .list [.int, .int]]) = .ok (.dshape [.fixed 2, .var, tInt64]) ∧
    discover (discoverStr E) topo (.seq .tuple [.int, .date, .seq .list []]) =
      .ok (.tuple [.dshape [tInt64], .dshape [.date], .dshape [.var, tString]]) ∧
    discover (discoverStr E) topo (.seq .list [.seq .list [.int], .seq .list [.dict [(py"a", .int)]]]) =
      .ok (.tuple [.dshape [.fixed 1, tInt64], .dshape [.fixed 1, .record [(py"a", tInt64)]]]) ∧
    discover (discoverStr E) topo (.seq .list [.seq .list [.int, .other]]) = .error .notImplemented ∧
    discover (discoverStr E) topo (.seq .list [.dict [(py"a", .int)], .dict [(py"a", .other)]]) = .error .notImplemented ∧
    discover (discoverStr E) topo (.seq .list []) = .ok (.dshape [.var, tString]) :=
  ⟨rfl, rfl, rfl, rfl, rfl, rfl, rfl⟩

end DS
