import Verif.Model.Wrapper
/-
What it means for two lexicon texts to do the same and for one to be refused (property C90).
-/
namespace AS
open Wrapper
variable {F D : Type}

/-- The three functions return the same for the two lexicon texts, whatever the other arguments are. -/
def SameResults (env : Env F D) (a b : Str) : Prop := ∀ address grammar locale filter,
  stdStandardize env address grammar a locale filter = stdStandardize env address grammar b locale filter ∧
  stdParseAddress env address a locale filter = stdParseAddress env address b locale filter ∧
  stdMatchAddress env address grammar a locale filter = stdMatchAddress env address grammar b locale filter

/-- The three functions return no result and the message, the two that use a grammar for every grammar that can
be loaded. -/
def Refused (env : Env F D) (a msg : Str) : Prop := ∀ address locale filter,
  stdParseAddress env address a locale filter = some ⟨none, some msg⟩ ∧
  ∀ grammar g, loadGrammar env grammar = .ok g →
    stdStandardize env address grammar a locale filter = some ⟨none, some msg⟩ ∧
    stdMatchAddress env address grammar a locale filter = some ⟨none, some msg⟩

end AS
