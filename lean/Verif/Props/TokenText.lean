import Verif.Props.Codec
import Verif.Props.Rounds
import Verif.Lemmas.LexiconPrint
import Verif.Spec.TokenText
/-
C72: the text form of a token.
-/
namespace AS.Props
open AS AS.Tokenizer

theorem ofText_eq_tokenOf (text : Str) : Token.ofText text = tokenOf text := by
  obtain ⟨p, ps, e, h, hl⟩ := splitOn_spec '\t' text
  have hs : fieldStream '\t' (p :: ps) (IStream.ofStr text) := by rw [fieldStream, hl]
  obtain ⟨a1, a2⟩ := field_next h hs []
  have hps : ∀ q ∈ ps, '\t' ∉ q := fun q hq => h q (List.mem_cons_of_mem _ hq)
  have key : ∀ (fs : List Str) (s : IStream), (∀ q ∈ fs, '\t' ∉ q) → fieldStream '\t' fs s →
      ((s.getline '\t' []).2 = fs.getD 0 [] ∧
       ((s.getline '\t' []).1.getline '\t' []).2 = fs.getD 1 [] ∧
       (((s.getline '\t' []).1.getline '\t' []).1.getline '\t' []).2 = fs.getD 2 [] ∧
       ((((s.getline '\t' []).1.getline '\t' []).1.getline '\t' []).1.getline '\t' []).2 = fs.getD 3 []) := by
    intro fs s hfs hs
    have hd : ∀ n, ∀ q ∈ fs.drop n, '\t' ∉ q := fun n q hq => hfs q (List.mem_of_mem_drop hq)
    obtain ⟨b1, b2⟩ := field_any hfs hs []
    obtain ⟨c1, c2⟩ := field_any (hd 1) b2 []
    rw [List.drop_drop] at c2
    obtain ⟨d1, d2⟩ := field_any (hd 2) c2 []
    rw [List.drop_drop] at d2
    obtain ⟨e1, _⟩ := field_any (hd 3) d2 []
    have hdrop : ∀ n, (fs.drop n).getD 0 [] = fs.getD n [] := by
      intro n
      rw [List.getD_eq_getElem?_getD, List.getD_eq_getElem?_getD, List.getElem?_drop, Nat.add_zero]
    exact ⟨b1, c1.trans (hdrop 1), d1.trans (hdrop 2), e1.trans (hdrop 3)⟩
  unfold Token.ofText tokenOf tokenFields
  rw [e]
  simp only [a1]
  by_cases hp : p = c!"TOKEN:"
  · subst hp
    simp only [if_true]
    cases ps with
    | nil =>
      obtain ⟨b1, b2⟩ := field_end a2 c!"TOKEN:"
      obtain ⟨k1, k2, k3, k4⟩ := key [] _ (by simp) b2
      simp only [b1, k1, k2, k3, k4]
      simp
    | cons q qs =>
      obtain ⟨b1, b2⟩ := field_next hps a2 c!"TOKEN:"
      obtain ⟨k1, k2, k3, k4⟩ := key qs _ (fun x hx => hps x (List.mem_cons_of_mem _ hx)) b2
      simp only [b1, k1, k2, k3, k4]
      simp [List.getD]
  · simp only [if_neg hp]
    obtain ⟨k1, k2, k3, k4⟩ := key ps _ hps a2
    simp only [k1, k2, k3, k4]
    cases ps with
    | nil => simp [List.getD]
    | cons q qs => simp [List.getD, hp]

/-! ## C72 -/

/-- A token made from a text is the one the text stands for. -/
theorem C72_token_text (text : Str) : Token.ofText text = tokenOf text := ofText_eq_tokenOf text

/-- A printed token without tabs in its texts is read back; only the mark that it comes from a lexicon is lost. -/
theorem C72_roundtrip (t : Token) (h1 : '\t' ∉ t.text) (h2 : '\t' ∉ t.stdtext)
    (h3 : IsSet InType.code t.inclass) (h4 : IsSet Attach.code t.attached) :
    Token.ofText t.print = { t with inlex := false } := by
  have hi := C02_class_list_roundtrip t.inclass h3
  have ha := C03_attach_list_roundtrip t.attached h4
  have ho := (C05_outclass_roundtrip t.outclass).1
  have hj : t.print = joinWith ['\t'] [c!"TOKEN:", t.text, t.stdtext, InType.setAsString t.inclass, t.outclass.asString,
      Attach.setAsString t.attached, if t.inlex then c!"1" else c!"0"] := by
    simp [Token.print, joinWith]
  have hf : tokenFields t.print = [t.text, t.stdtext, InType.setAsString t.inclass, t.outclass.asString,
      Attach.setAsString t.attached, if t.inlex then c!"1" else c!"0"] := by
    unfold tokenFields
    rw [hj, splitOn_join]
    · simp
    · intro q hq
      simp only [List.mem_cons, List.not_mem_nil, or_false] at hq
      rcases hq with rfl | rfl | rfl | rfl | rfl | rfl | rfl
      · decide
      · exact h1
      · exact h2
      · exact setAsString_no_tab _
      · cases t.outclass <;> decide
      · exact attachAsString_no_tab _
      · cases t.inlex <;> decide
  rw [C72_token_text]
  unfold tokenOf
  rw [hf]
  simp [List.getD, InType.asType, Attach.asAttach, hi, ha, ho]

/-- In a text with a tab only what stands before the first tab becomes the text of the token; nothing, if the text begins
with a tab, and then trimming does not put a blank in its place. -/
theorem C72_tab_cuts (a b : Str) (ha : '\t' ∉ a) (htag : a ≠ c!"TOKEN:") :
    (Token.ofText (a ++ '\t' :: b)).text = a ∧
    (a = [] → ((Token.ofText (a ++ '\t' :: b)).trim 3).text = []) := by
  rw [C72_token_text]
  have e : (tokenOf (a ++ '\t' :: b)).text = a := by
    obtain ⟨p, ps, hp, _⟩ := splitOn_spec '\t' b
    unfold tokenOf tokenFields
    rw [splitOn_append _ _ _ ha, hp]
    simp [htag]
  refine ⟨e, fun h0 => ?_⟩
  have e0 : (tokenOf (a ++ '\t' :: b)).text.length = 0 := by rw [e, h0]; rfl
  unfold Token.trim
  rw [if_neg (by rw [e0]; decide), e, h0]

/-- Trimming on the left (1), on the right (2), or on both sides (any other number): the blanks on those sides are taken
away and nothing else; blanks alone become one space; the empty text stays empty. -/
theorem C72_trim (t : Token) (which : Int) :
    ∃ v, t.trim which = { t with text := v } ∧
      ((t.text = [] ∧ v = []) ∨
       (t.text ≠ [] ∧ (∀ c ∈ t.text, c ∈ blankChars) ∧ v = c!" ") ∨
       (∃ a b, t.text = a ++ v ++ b ∧ (∀ c ∈ a ++ b, c ∈ blankChars) ∧ (∃ c ∈ v, c ∉ blankChars) ∧
         (if which = 2 then a = [] else ∃ c, v.head? = some c ∧ c ∉ blankChars) ∧
         (if which = 1 then b = [] else ∃ c, v.getLast? = some c ∧ c ∉ blankChars))) := by
  have hb : ∀ c, c ∈ blankChars ↔ Token.isTrimmed c = true := fun c => (isTrimmed_iff c).symm
  by_cases h0 : t.text = []
  · refine ⟨[], ?_, Or.inl ⟨h0, rfl⟩⟩
    unfold Token.trim
    rw [if_neg (by rw [h0]; decide), ← h0]
  have hlen : 0 < t.text.length := List.length_pos_iff.2 h0
  -- what is left after each step
  have left : ∃ a s, (if which ≠ 2 then t.text.dropWhile Token.isTrimmed else t.text) = s ∧ t.text = a ++ s ∧
      (∀ c ∈ a, c ∈ blankChars) ∧ (if which = 2 then a = [] else s = [] ∨ ∃ c, s.head? = some c ∧ c ∉ blankChars) := by
    by_cases h2 : which = 2
    · exact ⟨[], t.text, by simp [h2], rfl, by simp, by simp [h2]⟩
    · obtain ⟨a, e, k1, k2⟩ := dropWhile_parts Token.isTrimmed t.text
      refine ⟨a, _, by rw [if_pos h2], e, fun c hc => (hb c).2 (k1 c hc), ?_⟩
      rw [if_neg h2]
      rcases k2 with k2 | ⟨c, k2, k3⟩
      · exact Or.inl k2
      · exact Or.inr ⟨c, k2, fun hc => by rw [(hb c).1 hc] at k3; cases k3⟩
  obtain ⟨a, s, hs, e1, k1, k2⟩ := left
  have right : ∃ b v, (if which ≠ 1 then (s.reverse.dropWhile Token.isTrimmed).reverse else s) = v ∧ s = v ++ b ∧
      (∀ c ∈ b, c ∈ blankChars) ∧ (if which = 1 then b = [] else v = [] ∨ ∃ c, v.getLast? = some c ∧ c ∉ blankChars) := by
    by_cases h1 : which = 1
    · exact ⟨[], s, by simp [h1], by simp, by simp, by simp [h1]⟩
    · obtain ⟨b, e, g1, g2⟩ := dropWhile_parts Token.isTrimmed s.reverse
      refine ⟨b.reverse, _, by rw [if_pos h1], ?_, fun c hc => (hb c).2 (g1 c (List.mem_reverse.1 hc)), ?_⟩
      · have := congrArg List.reverse e
        rwa [List.reverse_reverse, List.reverse_append] at this
      · rw [if_neg h1]
        rcases g2 with g2 | ⟨c, g2, g3⟩
        · exact Or.inl (by rw [g2]; rfl)
        · exact Or.inr ⟨c, by rw [List.getLast?_reverse]; exact g2, fun hc => by rw [(hb c).1 hc] at g3; cases g3⟩
  obtain ⟨b, v, hv, e2, g1, g2⟩ := right
  have et : t.trim which = { t with text := if v.length = 0 then c!" " else v } := by
    unfold Token.trim
    rw [if_pos hlen]
    simp only [hs, hv]
  by_cases hv0 : v = []
  · refine ⟨c!" ", by rw [et, hv0]; rfl, Or.inr (Or.inl ⟨h0, fun c hc => ?_, rfl⟩)⟩
    rw [e1, e2, hv0] at hc
    rcases List.mem_append.1 hc with hc | hc
    · exact k1 c hc
    · exact g1 c (by simpa using hc)
  · refine ⟨v, by rw [et, if_neg (by simpa using hv0)], ?_⟩
    have hhead : s.head? = v.head? := by
      obtain ⟨y, ys, hy⟩ := List.exists_cons_of_ne_nil hv0
      rw [e2, hy]; rfl
    have hs0 : s ≠ [] := by rw [e2]; simp [hv0]
    have c1 : if which = 2 then a = [] else ∃ c, v.head? = some c ∧ c ∉ blankChars := by
      split
      · next h => rw [if_pos h] at k2; exact k2
      · next h =>
        rw [if_neg h] at k2
        rcases k2 with k2 | ⟨c, k2, k3⟩
        · exact absurd k2 hs0
        · exact ⟨c, by rw [← hhead]; exact k2, k3⟩
    have c2 : if which = 1 then b = [] else ∃ c, v.getLast? = some c ∧ c ∉ blankChars := by
      split
      · next h => rw [if_pos h] at g2; exact g2
      · next h =>
        rw [if_neg h] at g2
        rcases g2 with g2 | g2
        · exact absurd g2 hv0
        · exact g2
    refine Or.inr (Or.inr ⟨a, b, by rw [List.append_assoc, ← e2]; exact e1, fun c hc => ?_, ?_, c1, c2⟩)
    · rcases List.mem_append.1 hc with hc | hc
      · exact k1 c hc
      · exact g1 c hc
    · by_cases h2 : which = 2
      · rw [if_neg (by rw [h2]; decide)] at c2
        obtain ⟨c, c2, c3⟩ := c2
        exact ⟨c, List.mem_of_getLast? c2, c3⟩
      · rw [if_neg h2] at c1
        obtain ⟨c, c1, c3⟩ := c1
        exact ⟨c, List.mem_of_mem_head? c1, c3⟩

/-! ### Examples -/

/-- A token as it is when an address was standardized. -/
def exToken : Token := ⟨c!"NEW YORK", c!"NY", [.WORD, .CITY], .CITY, [.ATT_SUF], true⟩

example : '\t' ∉ exToken.text ∧ '\t' ∉ exToken.stdtext ∧ IsSet InType.code exToken.inclass ∧ IsSet Attach.code exToken.attached ∧
    exToken.print = c!"TOKEN:\tNEW YORK\tNY\tWORD,CITY\tCITY\tATT_SUF\t1" := by
  unfold IsSet
  decide +kernel

/-- A text with the tag and one without, with fields missing. -/
example : tokenOf c!"TOKEN:\tA\tB" = { text := c!"A", stdtext := c!"B" } ∧ tokenOf c!"A\tB\tWORD" =
    { text := c!"A", stdtext := c!"B", inclass := [.WORD] } ∧ tokenOf c!"TOKEN:" = { text := c!"TOKEN:" } ∧
    tokenOf c!"TOKEN:\t" = { text := [] } := by
  decide +kernel

/-- So a tab before a comma hides the comma: it goes to the standard text of a token without text. -/
example : (getTokens asciiIcu asciiU townLexicon townRe [] c!"12\t, str").map (·.map (fun t => (t.text, t.stdtext))) =
      some [(c!"12", []), ([], c!", "), (c!"STR", [])] ∧
    (getTokens asciiIcu asciiU townLexicon townRe [] c!"12 , str").map (·.map (fun t => (t.text, t.stdtext))) =
      some [(c!"12", []), (c!",", []), (c!"STR", [])] := by
  decide +kernel

example : (({ text := c!" A B " } : Token).trim 1).text = c!"A B " ∧ (({ text := c!" A B " } : Token).trim 2).text = c!" A B" ∧
    (({ text := c!" A B " } : Token).trim 3).text = c!"A B" ∧ (({ text := c!" \t " } : Token).trim 2).text = c!" " := by
  decide +kernel

end AS.Props
