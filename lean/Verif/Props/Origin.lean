import Verif.Spec.Origin
import Verif.Props.Slack
/-
Property C83: from what tokens the fields of an address are made.
-/
namespace AS.Props
open AS AS.Wrapper
variable {F D : Type}

theorem zip_append_mem {α β : Type} {p : α × β} : ∀ {a : List α} {b : List β} {a' : List α} {b' : List β}, a.length = b.length →
    p ∈ (a ++ a').zip (b ++ b') → p ∈ a.zip b ∨ p ∈ a'.zip b'
  | [], [], _, _, _, h => Or.inr h
  | x :: a, y :: b, a', b', hl, h => by
    rw [List.cons_append, List.cons_append, List.zip_cons_cons] at h
    rcases List.mem_cons.1 h with rfl | h
    · exact Or.inl List.mem_cons_self
    · rcases zip_append_mem (by simpa using hl) h with h | h
      · exact Or.inl (List.mem_cons_of_mem _ h)
      · exact Or.inr h

theorem zip_rules {p : InType × OutType} : ∀ {rs : List (Rule F)}, (∀ r ∈ rs, r.inClass.length = r.outClass.length) →
    p ∈ (inputs rs).zip (outputs rs) → ∃ r ∈ rs, p ∈ r.inClass.zip r.outClass
  | [], _, h => by simp [inputs, outputs] at h
  | r :: rs, hb, h => by
    simp only [inputs, outputs, List.flatMap_cons] at h
    rcases zip_append_mem (hb r List.mem_cons_self) h with h | h
    · exact ⟨r, List.mem_cons_self, h⟩
    · obtain ⟨q, hq, h⟩ := zip_rules (rs := rs) (fun x hx => hb x (List.mem_cons_of_mem _ hx)) h
      exact ⟨q, List.mem_cons_of_mem _ hq, h⟩

theorem standardText_of {l : Lexicon} {t t' : Token} {c : InType} {o : OutType}
    (h : l.standardize { t with inclass := [c], outclass := o } = some t') : t'.outclass = o ∧ StandardText l t c t'.stdtext := by
  obtain ⟨s, h1, h2, h3, _⟩ := C20_standardize l { t with inclass := [c], outclass := o } c [] rfl
  rw [h1] at h
  cases h
  refine ⟨rfl, ?_⟩
  rcases C20_cases l t c with ⟨a, e, b, q1, q2, q3⟩ | q
  · exact Or.inl ⟨a, e, b, q1, q2, q3, h2 a e b q1 q2 q3⟩
  · exact Or.inr ⟨q, h3 q⟩

/-- The standardized tokens of a field, with the tokens and classes they come from. -/
theorem parts_of (l : Lexicon) (f : Field) : ∀ {phrase : List Token} {is : List InType} {os : List OutType} {std : List Token},
    Picks is (phrase.map (·.inclass)) → os.length = phrase.length → (retag phrase is os).map l.standardize = std.map some →
    ∃ parts : List (Token × InType × Str), (parts.map (·.1)).Sublist phrase ∧
      (∀ p ∈ parts, p.2.1 ∈ p.1.inclass ∧ StandardText l p.1 p.2.1 p.2.2 ∧ ∃ o, (p.2.1, o) ∈ is.zip os ∧ fieldOf o = some f) ∧
      wordsFor f std = parts.map (·.2.2) := by
  intro phrase
  induction phrase with
  | nil =>
    intro is os std _ hl hs
    cases std with
    | cons x xs => simp [retag] at hs
    | nil => exact ⟨[], .slnil, by simp, by simp [wordsFor]⟩
  | cons t ts ih =>
    intro is os std hp hl hs
    cases hp with
    | @cons i _ is _ hi hp =>
    cases os with
    | nil => simp at hl
    | cons o os =>
    rw [retag, List.map_cons] at hs
    cases std with
    | nil => simp at hs
    | cons x xs =>
    rw [List.map_cons, List.cons.injEq] at hs
    obtain ⟨e1, e2⟩ := standardText_of hs.1
    obtain ⟨parts, k1, k2, k3⟩ := ih hp (by simpa using hl) hs.2
    have hrest : ∀ p ∈ parts, p.2.1 ∈ p.1.inclass ∧ StandardText l p.1 p.2.1 p.2.2 ∧
        ∃ o', (p.2.1, o') ∈ (i :: is).zip (o :: os) ∧ fieldOf o' = some f := fun p hp' => by
      obtain ⟨q1, q2, o', q3, q4⟩ := k2 p hp'
      exact ⟨q1, q2, o', by rw [List.zip_cons_cons]; exact List.mem_cons_of_mem _ q3, q4⟩
    by_cases hf : fieldOf o = some f
    · refine ⟨(t, i, x.stdtext) :: parts, k1.cons_cons t, ?_, ?_⟩
      · intro p hp'
        rcases List.mem_cons.1 hp' with rfl | hp'
        · exact ⟨hi, e2, o, by rw [List.zip_cons_cons]; exact List.mem_cons_self, hf⟩
        · exact hrest p hp'
      · have : wordsFor f (x :: xs) = x.stdtext :: wordsFor f xs := by
          unfold wordsFor
          rw [List.filter_cons_of_pos (by simp [e1, hf])]; rfl
        rw [this, k3]; rfl
    · refine ⟨parts, k1.cons t, hrest, ?_⟩
      have : wordsFor f (x :: xs) = wordsFor f xs := by
        unfold wordsFor
        rw [List.filter_cons_of_neg (by simp [e1, hf])]
      rw [this, k3]

/-- If in the rules that ADDRESS leads to a field stands opposite some classes only, then it is NULL or made of tokens that
have such a class. It is the same token list for all fields. -/
theorem C83_origin (env : Env F D) (laws : LtLaws env.fo) (signs : SignLaws env.fo)
    (htot : ∀ a b c, env.fo.lt env.fo.zero b = true → env.fo.lt a c = true → env.fo.lt a b = true ∨ env.fo.lt b c = true)
    (h0 : env.fo.le0 env.fo.zero = true) (address grammar lexicon locale filter : Str) (a : StdAddr) (err : Option Str)
    (h : stdStandardize env address grammar lexicon locale filter = some ⟨some a, err⟩) :
    ∃ g l phrases phrase, loadGrammar env grammar = .ok g ∧ loadLexicon env lexicon = .ok l ∧
      phrasesOf env l locale filter address = .ok phrases ∧ phrase ∈ phrases ∧
      ∀ f cs, OnlyFrom g.metaNames g.ruleSections f cs →
        a.get f = none ∨ ∃ text, a.get f = some text ∧ MadeFrom l phrase cs text := by
  obtain ⟨g, l, phrases, phrase, rs, m, std, k1, k2, k3, k4, hd, hpk, hlen, _, hst, _, hget, _⟩ :=
    C65_explained env laws signs htot h0 address grammar lexicon locale filter a err h
  refine ⟨g, l, phrases, phrase, k1, k2, k3, k4, fun f cs hf => ?_⟩
  have hinit : Grammar.initialize env.u.toCharTables env.fo grammar = .ok g := by
    unfold loadGrammar at k1
    split at k1
    · next g' e => cases k1; exact e
    · cases k1
  have hb := (C29_constructed_wf _ env.fo h0 grammar g hinit).2.1
  have hlead := derives_leads hd (fun s hs => by rw [List.mem_singleton.1 hs]; exact .root)
  have hbal : ∀ r ∈ rs, r.inClass.length = r.outClass.length := by
    intro r hr
    obtain ⟨sec, hs, _, hrs⟩ := hlead r hr
    obtain ⟨q, hq, rfl⟩ := List.mem_map.1 hs
    exact hb q hq r hrs
  obtain ⟨parts, q1, q2, q3⟩ := parts_of l f hpk hlen hst
  rw [hget]
  by_cases hw : wordsFor f std = []
  · exact Or.inl (if_pos hw)
  · refine Or.inr ⟨_, if_neg hw, parts, ?_, q1, ?_, by rw [q3]⟩
    · rintro rfl; exact hw q3
    · intro p hp
      obtain ⟨e1, e2, o, e3, e4⟩ := q2 p hp
      obtain ⟨r, hr, hz⟩ := zip_rules hbal e3
      obtain ⟨sec, hs, hl, hrs⟩ := hlead r hr
      exact ⟨hf sec hs hl r hrs _ hz e4, e1, e2⟩

/-- In the grammar of the examples a city is made of CITY tokens only, a street of WORD tokens only. -/
example : (∃ g, Grammar.initialize asciiTables ratOps addrText = .ok g ∧
      g.ruleSections.all (fun sec => sec.2.all (fun r => (r.inClass.zip r.outClass).all (fun p =>
        (fieldOf p.2 ≠ some .city || p.1 = .CITY) && (fieldOf p.2 ≠ some .name || p.1 = .WORD)))) = true) ∧
    (stdStandardize exEnv c!"12 new york str" addrText townText c!"en" c!"SPACE").map
      (fun r => r.value.map (fun a => (a.city, a.name))) = some (some (some c!"NY", none)) ∧
    (stdStandardize exEnv c!"12 abc def" addrText townText c!"en" c!"SPACE").map
      (fun r => r.value.map (fun a => (a.city, a.name))) = some (some (none, some c!"ABC DEF")) :=
  ⟨exists_ok (by decide +kernel), by decide +kernel, by decide +kernel⟩

end AS.Props
