import Verif.Model.Token
import Verif.Spec.Lexicon
/-
What the text of a token means.
-/
namespace AS

/-- The fields of the text of a token: the parts between tabs, without the tag. -/
def tokenFields (text : Str) : List Str :=
  match splitOn '\t' text with
  | f :: g :: gs => if f = c!"TOKEN:" then g :: gs else f :: g :: gs
  | fs => fs

/-- The token a text stands for: text, standard text, classes (C02), output class (C05), attachments (C03); missing
fields are empty, further ones ignored; it is not marked as coming from a lexicon. -/
def tokenOf (text : Str) : Token :=
  { text := (tokenFields text).getD 0 []
    stdtext := (tokenFields text).getD 1 []
    inclass := InType.asType ((tokenFields text).getD 2 [])
    outclass := OutType.asType ((tokenFields text).getD 3 [])
    attached := Attach.asAttach ((tokenFields text).getD 4 [])
    inlex := false }

end AS
