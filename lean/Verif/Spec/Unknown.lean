import Verif.Spec.Classify
import Verif.Spec.Joint
import Verif.Spec.Wrapper
/-
Words the lexicon does not know.
-/
namespace AS

/-- A word of letters and digits that is not in the lexicon and stays whole: it contains none of the characters that separate
tokens, no attached prefix or suffix is split off, and it does not mix letters and digits. -/
structure Unknown (u : UTables) (es : List LexEntry) (v : Str) : Prop where
  chars : RunOf (fun c => u.alpha (u.fold c) || u.digit (u.fold c)) v
  plain : ∀ c ∈ v, ¬ SepChar u c ∧ c ≠ '/' ∧ c ≠ ',' ∧ c ≠ '.'
  unlisted : ∀ e ∈ es, e.word ≠ v ∧ e.word ≠ v.map u.canon
  noPrefix : NoPrefix u ((es.filter LexEntry.isPrefixAttached).map (·.word)) v
  noSuffix : NoSuffix ((es.filter LexEntry.isSuffixAttached).map (·.word)) v
  whole : ¬ FirstShape (shapes u .WORD) v .MIXED

/-- Two unknown words of the same shape. -/
structure Interchangeable (u : UTables) (es : List LexEntry) (v w : Str) : Prop where
  left : Unknown u es v
  right : Unknown u es w
  shape : ∀ c, FirstShape (shapes u .WORD) v c ↔ FirstShape (shapes u .WORD) w c

/-- The text of a field with these words. -/
def asField (ws : List Str) : Option Str := if ws = [] then none else some (Wrapper.upToNul (joinWith c!" " ws))

/-- The standardized addresses have the same pattern, and each field has the same words, except that some words `v` of the first
are `w` in the second. -/
def FieldsReplaced (v w : Str) (a a' : Wrapper.StdAddr) : Prop :=
  a'.pattern = a.pattern ∧ ∀ f, ∃ ws ws', Along (fun x x' => x' = x ∨ (x = v ∧ x' = w)) ws ws' ∧
    a.get f = asField ws ∧ a'.get f = asField ws'

end AS
