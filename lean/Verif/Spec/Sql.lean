import Verif.Spec.Wrapper
/-
Specification vocabulary for the SQL functions: the declared columns.
-/
namespace AS
namespace Sql
open Wrapper

/-- The output columns of `as_standardize`, in the order of the declaration
(src/address_standardizer2--2.0.sql.in:10-35). -/
def columns : List Str := [c!"building", c!"house_num", c!"predir", c!"qual", c!"pretype", c!"name", c!"suftype",
  c!"sufdir", c!"ruralroute", c!"extra", c!"city", c!"prov", c!"country", c!"postcode", c!"box", c!"unit", c!"pattern"]

/-- The column meant for a field. -/
def columnName : Field → Str
  | .building => c!"building"
  | .houseNum => c!"house_num"
  | .predir => c!"predir"
  | .qual => c!"qual"
  | .pretype => c!"pretype"
  | .name => c!"name"
  | .suftype => c!"suftype"
  | .sufdir => c!"sufdir"
  | .ruralroute => c!"ruralroute"
  | .extra => c!"extra"
  | .city => c!"city"
  | .prov => c!"prov"
  | .country => c!"country"
  | .postcode => c!"postcode"
  | .box => c!"box"
  | .unit => c!"unit"

/-- What a query reads from the column of that name; `some none` is NULL. -/
def column (row : List (Option Str)) (name : Str) : Option (Option Str) := (columns.zip row).lookup name

/-- The row is all NULL. -/
def AllNull (row : List (Option Str)) : Prop := row.length = columns.length ∧ ∀ v ∈ row, v = none

/-- The row shows these standardized tokens: each column the texts of the tokens of its field separated by single
blanks, NULL without tokens, and the column `pattern` is filled. -/
def Shows (row : List (Option Str)) (ts : List Token) (pattern : Str) : Prop :=
  row.length = columns.length ∧
  (∀ f, column row (columnName f) =
    some (if wordsFor f ts = [] then none else some (joinWith c!" " (wordsFor f ts)))) ∧
  column row c!"pattern" = some (some pattern)

end Sql
end AS
