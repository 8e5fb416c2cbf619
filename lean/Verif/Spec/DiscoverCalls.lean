import Verif.Model.Discovery

/-
Specification for C76: how large and how deeply nested a Python value is. Nothing here is taken from the code of
`discover`.
-/
namespace DS

mutual
/-- the number of objects a value is made of: itself, and all the elements and values in it -/
def PyObj.count : (v : PyObj) → Nat
  | .seq _ l => 1 + countL l
  | .dict l => 1 + countE l
  | .od l => 1 + countE l
  | .mp l => 1 + countE l
  | _ => 1
termination_by structural v => v
/-- over the elements of a sequence -/
def countL : (l : List PyObj) → Nat
  | [] => 0
  | v :: r => v.count + countL r
termination_by structural l => l
/-- over the values of a mapping -/
def countE : (l : List (Str × PyObj)) → Nat
  | [] => 0
  | (_, v) :: r => v.count + countE r
termination_by structural l => l
end

mutual
/-- how deeply sequences and mappings are nested -/
def PyObj.levels : (v : PyObj) → Nat
  | .seq _ l => 1 + levelsL l
  | .dict l => 1 + levelsE l
  | .od l => 1 + levelsE l
  | .mp l => 1 + levelsE l
  | _ => 0
termination_by structural v => v
/-- over the elements of a sequence -/
def levelsL : (l : List PyObj) → Nat
  | [] => 0
  | v :: r => max v.levels (levelsL r)
termination_by structural l => l
/-- over the values of a mapping -/
def levelsE : (l : List (Str × PyObj)) → Nat
  | [] => 0
  | (_, v) :: r => max v.levels (levelsE r)
termination_by structural l => l
end

mutual
/-- no mapping has a key twice (in Python none does) -/
def PyObj.KeysOnce : (v : PyObj) → Prop
  | .seq _ l => KeysOnceL l
  | .dict l => (l.map (·.1)).Nodup ∧ KeysOnceE l
  | .od l => (l.map (·.1)).Nodup ∧ KeysOnceE l
  | .mp l => (l.map (·.1)).Nodup ∧ KeysOnceE l
  | _ => True
termination_by structural v => v
/-- over the elements of a sequence -/
def KeysOnceL : (l : List PyObj) → Prop
  | [] => True
  | v :: r => v.KeysOnce ∧ KeysOnceL r
termination_by structural l => l
/-- over the values of a mapping -/
def KeysOnceE : (l : List (Str × PyObj)) → Prop
  | [] => True
  | (_, v) :: r => v.KeysOnce ∧ KeysOnceE r
termination_by structural l => l
end

mutual
/-- no mapping in the value -/
def PyObj.NoMapping : (v : PyObj) → Prop
  | .seq _ l => NoMappingL l
  | .dict _ => False
  | .od _ => False
  | .mp _ => False
  | _ => True
termination_by structural v => v
/-- over the elements of a sequence -/
def NoMappingL : (l : List PyObj) → Prop
  | [] => True
  | v :: r => v.NoMapping ∧ NoMappingL r
termination_by structural l => l
end

/-- the Fibonacci numbers 0, 1, 1, 2, 3, 5, … -/
def fibo : Nat → Nat
  | 0 => 0
  | 1 => 1
  | n + 2 => fibo (n + 1) + fibo n

/-- the list `[…[[[[], 0], [0, 0]], [0, 0]]…, [0, 0]]` with `[0, 0]` coming `d` times -/
def staircase : Nat → PyObj
  | 0 => .seq .list [.seq .list [], .int]
  | d + 1 => .seq .list [staircase d, .seq .list [.int, .int]]

/-- the list of the dicts `{k: None}` -/
def sparse (ks : List Str) : PyObj := .seq .list (ks.map fun k => .dict [(k, .none)])

end DS
