import Verif.Model.Str
/-
Model of the counters of `Utils` (src/utils.cpp:16-39). The map is an association list; the order of
a `std::map` is not observable through these functions.
-/
namespace AS

/-- `Utils::counts_` (src/utils.h:42). -/
abbrev Counts := List (Str × UInt64)

namespace Counts

/-- `counts_.find( key )`. -/
def lookup (key : Str) : Counts → Option UInt64
  | [] => none
  | (k, v) :: m => if k = key then some v else lookup key m

/-- Assignment to the value of an existing key, or insertion. -/
def assign (key : Str) (v : UInt64) : Counts → Counts
  | [] => [(key, v)]
  | (k, w) :: m => if k = key then (k, v) :: m else (k, w) :: assign key v m

/-- `Utils::count` (src/utils.cpp:18-26). -/
def count (key : Str) (m : Counts) : Counts :=
  match m.lookup key with
  | none => m.assign key 1
  | some v => m.assign key (v + 1)

/-- `Utils::clear` (src/utils.cpp:29-31). -/
def clear (key : Str) (m : Counts) : Counts := m.filter (fun e => e.1 != key)

/-- `Utils::getCount` (src/utils.cpp:33-39). -/
def getCount (key : Str) (m : Counts) : UInt64 :=
  match m.lookup key with
  | none => 0
  | some v => v

end Counts
end AS
