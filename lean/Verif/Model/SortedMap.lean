import Verif.Model.Basic

/-!
# Go maps with string keys, listed by ascending key

A Go map has no order; listing it by ascending key is a canonical form, and is the order in
which `encoding/json` writes it.
-/

namespace Stix

/-- Bytewise order of strings, as Go compares them. -/
def strLt : Str → Str → Bool
  | _, [] => false
  | [], _ :: _ => true
  | a :: x, b :: y => if a < b then true else if b < a then false else strLt x y

/-- `m[k] = v` on the canonical form. -/
def smInsert {α} (k : Str) (v : α) : List (Str × α) → List (Str × α)
  | [] => [(k, v)]
  | (k', v') :: m =>
    if k' = k then (k, v) :: m
    else if strLt k k' then (k, v) :: (k', v') :: m
    else (k', v') :: smInsert k v m

/-- The keys ascend strictly. -/
def SortedKeys {α} (m : List (Str × α)) : Prop := m.Pairwise (fun a b => strLt a.1 b.1 = true)

/-- The canonical form of the map made by writing the entries one after the other. -/
def smOfList {α} (l : List (Str × α)) : List (Str × α) := l.foldl (fun m e => smInsert e.1 e.2 m) []

end Stix
