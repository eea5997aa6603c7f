import Mathlib.Data.List.Basic

/-
JSON values as Python's `json.loads` returns them and `json.dumps` takes them (tn/cache.py:91, 575,
813-820). A dict is the list of its items; where an order matters (`Dump.lean`) it is sorted by
key. A float is its text and, when its value is an integer, that integer.
-/

namespace Verif.Cache

/-- Texts are lists of code points. -/
abbrev Str := List Char

inductive Json where
  | null
  | bool (b : Bool)
  | int (i : Int)
  | flt (whole : Option Int) (text : Str)
  | str (s : Str)
  | arr (l : List Json)
  | obj (l : List (Str × Json))

/-- The number a scalar is equal to: `True == 1 == 1.0`. -/
def Json.num : Json → Option Int
  | .bool b => some (if b then 1 else 0)
  | .int i => some i
  | .flt w _ => w
  | _ => none

mutual
/-- Python's `==` on the values, used at cache.py:584. Dicts are compared item by item in the order
of the lists; NaN, which differs from itself, is not modelled. -/
def pyEq : Json → Json → Bool
  | .null, .null => true
  | .str a, .str b => a == b
  | .arr a, .arr b => pyEqArr a b
  | .obj a, .obj b => pyEqObj a b
  | .flt none a, .flt none b => a == b
  | .bool a, b => match Json.num b with
    | some k => k == (if a then 1 else 0)
    | none => false
  | .int a, b => match Json.num b with
    | some k => k == a
    | none => false
  | .flt (some a) _, b => match Json.num b with
    | some k => k == a
    | none => false
  | _, _ => false
def pyEqArr : List Json → List Json → Bool
  | [], [] => true
  | a :: as, b :: bs => pyEq a b && pyEqArr as bs
  | _, _ => false
def pyEqObj : List (Str × Json) → List (Str × Json) → Bool
  | [], [] => true
  | (k, a) :: as, (l, b) :: bs => k == l && pyEq a b && pyEqObj as bs
  | _, _ => false
end

mutual
theorem pyEq_refl : ∀ a : Json, pyEq a a = true
  | .null => by simp [pyEq]
  | .bool b => by simp [pyEq, Json.num]
  | .int i => by simp [pyEq, Json.num]
  | .flt none t => by simp [pyEq]
  | .flt (some w) t => by simp [pyEq, Json.num]
  | .str s => by simp [pyEq]
  | .arr l => by simp [pyEq, pyEqArr_refl l]
  | .obj l => by simp [pyEq, pyEqObj_refl l]
theorem pyEqArr_refl : ∀ l : List Json, pyEqArr l l = true
  | [] => by simp [pyEqArr]
  | a :: as => by simp [pyEqArr, pyEq_refl a, pyEqArr_refl as]
theorem pyEqObj_refl : ∀ l : List (Str × Json), pyEqObj l l = true
  | [] => by simp [pyEqObj]
  | (k, a) :: as => by simp [pyEqObj, pyEq_refl a, pyEqObj_refl as]
end

/-- `d.get(key)`, `None` when the key is missing. -/
def get (items : List (Str × Json)) (key : Str) : Json := (items.lookup key).getD .null

end Verif.Cache
