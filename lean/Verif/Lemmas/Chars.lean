import Verif.Lemmas.Compiled
import Verif.Lemmas.Split
import Verif.Lemmas.Wrapper
/-
Which characters the texts of tokens consist of.
-/
namespace AS
open Tokenizer

/-- All characters are such. -/
def AllOf (P : Char → Prop) (s : Str) : Prop := ∀ c ∈ s, P c

/-- Text and standard text of a token. -/
def TokenOf (P : Char → Prop) (t : Token) : Prop := AllOf P t.text ∧ AllOf P t.stdtext

variable {P : Char → Prop}

theorem AllOf.nil : AllOf P [] := fun _ h => by cases h

theorem AllOf.append {a b : Str} (ha : AllOf P a) (hb : AllOf P b) : AllOf P (a ++ b) := fun c hc =>
  (List.mem_append.1 hc).elim (ha c) (hb c)

theorem AllOf.sub {a b : Str} (hb : AllOf P b) (h : ∀ c ∈ a, c ∈ b) : AllOf P a := fun c hc => hb c (h c hc)

theorem cutAt_of (d : Char) : ∀ {s : Str}, AllOf P s → AllOf P (cutAt d s).1 ∧ ∀ r, (cutAt d s).2 = some r → AllOf P r
  | [], _ => by simp [cutAt, AllOf]
  | c :: s, h => by
    have hs : AllOf P s := h.sub (fun _ => List.mem_cons_of_mem _)
    obtain ⟨h1, h2⟩ := cutAt_of d hs
    rw [cutAt]
    split
    · exact ⟨AllOf.nil, fun r e => by cases e; exact hs⟩
    · refine ⟨fun x hx => ?_, h2⟩
      rcases List.mem_cons.1 hx with rfl | hx
      · exact h _ (List.mem_cons_self ..)
      · exact h1 x hx

theorem getline_of {s : IStream} {d : Char} {old : Str} (hs : AllOf P s.rest) (ho : AllOf P old) :
    AllOf P (s.getline d old).1.rest ∧ AllOf P (s.getline d old).2 := by
  obtain ⟨h1, h2⟩ := cutAt_of d hs
  unfold IStream.getline
  split
  · split
    · next l r e => rw [e] at h1 h2; exact ⟨h2 r rfl, h1⟩
    · next l e => rw [e] at h1; exact ⟨AllOf.nil, h1⟩
  · exact ⟨hs, ho⟩

theorem ofText_of {s : Str} (h : AllOf P s) : TokenOf P (Token.ofText s) := by
  unfold Token.ofText
  have h1 := getline_of (s := IStream.ofStr s) (d := '\t') (old := []) h AllOf.nil
  simp only
  split
  · have h2 := getline_of (d := '\t') h1.1 h1.2
    have h3 := getline_of (d := '\t') (old := []) h2.1 AllOf.nil
    exact ⟨h2.2, h3.2⟩
  · have h3 := getline_of (d := '\t') (old := []) h1.1 AllOf.nil
    exact ⟨h1.2, h3.2⟩

theorem addClasses_keeps (cs : List InType) : ∀ t : Token, (cs.foldl Token.addClass t).text = t.text ∧
    (cs.foldl Token.addClass t).stdtext = t.stdtext := by
  induction cs with
  | nil => intro t; exact ⟨rfl, rfl⟩
  | cons c cs ih => intro t; rw [List.foldl_cons, (ih _).1, (ih _).2]; exact ⟨rfl, rfl⟩

theorem addTypes_keeps (es : List LexEntry) : ∀ t : Token, (Lexicon.addTypes es t).text = t.text ∧
    (Lexicon.addTypes es t).stdtext = t.stdtext := by
  unfold Lexicon.addTypes
  induction es with
  | nil => intro t; exact ⟨rfl, rfl⟩
  | cons e es ih =>
    intro t
    rw [List.foldl_cons, (ih _).1, (ih _).2]
    exact addClasses_keeps _ _

theorem firstComma_of (hdot : P '.') : ∀ {s : Str}, AllOf P s → AllOf P (firstComma s)
  | [], _ => AllOf.nil
  | c :: s, h => by
    have hs : AllOf P s := h.sub (fun _ => List.mem_cons_of_mem _)
    rw [firstComma]
    split
    · intro x hx
      rcases List.mem_cons.1 hx with rfl | hx
      · exact hdot
      · exact hs x hx
    · intro x hx
      rcases List.mem_cons.1 hx with rfl | hx
      · exact h _ (List.mem_cons_self ..)
      · exact firstComma_of hdot hs x hx

theorem addClass_of {t : Token} (c : InType) (h : TokenOf P t) : TokenOf P (t.addClass c) := h

theorem ite_of {p : Prop} [Decidable p] {a b : Token} (ha : TokenOf P a) (hb : TokenOf P b) : TokenOf P (if p then a else b) := by
  split
  · exact ha
  · exact hb

theorem byShape_of (hdot : P '.') (u : UTables) {t : Token} (h : TokenOf P t) : TokenOf P (Lexicon.byShape u t) := by
  unfold Lexicon.byShape
  refine ite_of ⟨firstComma_of hdot h.1, h.2⟩ ?_
  repeat' first
    | exact h
    | refine addClass_of _ ?_
    | refine ite_of ?_ ?_

theorem classify_of (hdot : P '.') (u : UTables) (l : Lexicon) {t : Token} (h : TokenOf P t) (d : InType) :
    TokenOf P (l.classify u t d) := by
  have h1 : TokenOf P (Lexicon.addTypes (l.find t.text) t) := by
    unfold TokenOf
    rw [(addTypes_keeps _ _).1, (addTypes_keeps _ _).2]
    exact h
  unfold Lexicon.classify
  simp only
  split
  · exact h1
  · have h2 := byShape_of hdot u (t := { Lexicon.addTypes (l.find t.text) t with inlex := false }) h1
    split
    · exact h2
    · exact h2

theorem wordToken_of (hdot : P '.') (u : UTables) (l : Lexicon) {s : Str} (h : AllOf P s) : TokenOf P (wordToken u l s) :=
  classify_of hdot u l (ofText_of h) _

theorem wordsOf_of {s : Str} (h : AllOf P s) : ∀ w ∈ splitBlanks false [] s, AllOf P w := by
  intro w hw
  rw [splitBlanks_eq] at hw
  refine h.sub (splitOn_chars ' ' s w ?_)
  unfold wordsOf at hw
  split at hw
  · cases hw
  · next p e => rw [e]; exact hw
  · next p q ps e =>
    rw [e]
    rw [List.cons_append] at hw
    rcases List.mem_cons.1 hw with rfl | hw
    · exact List.mem_cons_self ..
    · refine List.mem_cons_of_mem _ ?_
      rcases List.mem_append.1 hw with hw | hw
      · exact List.dropLast_subset _ (List.mem_filter.1 hw).1
      · rw [List.mem_singleton] at hw
        rw [hw]; exact List.getLast_mem _

theorem noBlanks_of (hb : P ' ') {s t : Str} (e : noBlanks s = noBlanks t) (h : AllOf P t) : AllOf P s := by
  intro c hc
  by_cases hc' : c = ' '
  · rw [hc']; exact hb
  · have : c ∈ noBlanks s := List.mem_filter.2 ⟨hc, by simpa using hc'⟩
    rw [e] at this
    exact h c (List.mem_filter.1 this).1

theorem mixed_of (hb : P ' ') (u : UTables) {s : Str} (h : AllOf P s) : ∀ w ∈ mixedPieces u s, AllOf P w := by
  unfold mixedPieces
  refine wordsOf_of (noBlanks_of hb ?_ h)
  unfold replace12
  rw [(replaceLoop_ok (letterDigits_ok u) _ _ _).1, (replaceLoop_ok (digitsLetter_ok u) _ _ _).1]

theorem attached_of {s a b c d : Str} (h : AllOf P s) (ha : AllOf P a) (hb : AllOf P b) (hc : AllOf P c) (hd : AllOf P d) :
    ∀ w ∈ attachedPieces s a b c d, AllOf P w := by
  have hm : AllOf P ((s.drop a.length).take (s.length - a.length - d.length)) :=
    h.sub (fun x hx => List.mem_of_mem_drop (List.mem_of_mem_take hx))
  intro w hw
  unfold attachedPieces at hw
  repeat' split at hw
  all_goals simp only [List.mem_cons, List.not_mem_nil, or_false] at hw
  all_goals rcases hw with rfl | rfl | rfl <;> assumption

theorem groups_of {r : Rx} {s : Str} (h : AllOf P s)
    (hc : ((groups r s).1 = [] ∧ (groups r s).2 = []) ∨ s = (groups r s).1 ++ (groups r s).2) :
    AllOf P (groups r s).1 ∧ AllOf P (groups r s).2 := by
  rcases hc with ⟨h1, h2⟩ | h1
  · rw [h1, h2]; exact ⟨AllOf.nil, AllOf.nil⟩
  · exact ⟨h.sub (fun c hc => by rw [h1]; exact List.mem_append_left _ hc),
      h.sub (fun c hc => by rw [h1]; exact List.mem_append_right _ hc)⟩

theorem splitToken_of (hdot : P '.') (hb : P ' ') (u : UTables) (l : Lexicon) (x : LexRe) {t : Token} (h : TokenOf P t) :
    ∀ t' ∈ splitToken u l x t, TokenOf P t' := by
  intro t' ht'
  unfold splitToken at ht'
  simp only at ht'
  split at ht'
  · obtain ⟨w, hw, rfl⟩ := List.mem_map.1 ht'
    exact wordToken_of hdot u l (mixed_of hb u h.1 w hw)
  · obtain ⟨w, hw, rfl⟩ := List.mem_map.1 ht'
    have h1 := groups_of h.1 ((prefix_cut u x t.text).imp id And.left)
    have h2 := groups_of h.1 ((suffix_cut x t.text).imp id And.left)
    exact wordToken_of hdot u l (attached_of h.1 h1.1 h1.2 h2.1 h2.2 w hw)

theorem trim_of (hb : P ' ') {t : Token} (h : TokenOf P t) (n : Int) : TokenOf P (t.trim n) := by
  unfold Token.trim
  split
  · refine ⟨?_, h.2⟩
    simp only
    have hd : ∀ s : Str, AllOf P s → AllOf P (s.dropWhile Token.isTrimmed) := fun s hs =>
      hs.sub (fun c hc => (List.dropWhile_sublist _).subset hc)
    have hr : ∀ s : Str, AllOf P s → AllOf P s.reverse := fun s hs => hs.sub (fun c hc => List.mem_reverse.1 hc)
    have hi : ∀ (p : Prop) [Decidable p] (a b : Str), AllOf P a → AllOf P b → AllOf P (if p then a else b) := by
      intro p _ a b ha hb
      split
      · exact ha
      · exact hb
    have h1 : AllOf P (if n ≠ 2 then List.dropWhile Token.isTrimmed t.text else t.text) := hi _ _ _ (hd _ h.1) h.1
    refine hi _ _ _ (fun c hc => ?_) (hi _ _ _ (hr _ (hd _ (hr _ h1))) h1)
    rw [List.mem_singleton.1 hc]; exact hb
  · exact h

theorem roundTokens_of (hdot : P '.') (hb : P ' ') (u : UTables) (l : Lexicon) (x : LexRe) {r : Round} (h : AllOf P r.text) :
    ∀ t ∈ roundTokens u l x r, TokenOf P t := by
  have hw : AllOf P r.word := h.sub (fun c hc => by
    unfold Round.text; exact List.mem_append_left _ (List.mem_append_right _ hc))
  have hs : AllOf P r.sep := h.sub (fun c hc => by unfold Round.text; exact List.mem_append_right _ hc)
  intro t ht
  unfold roundTokens at ht
  rcases List.mem_append.1 ht with ht | ht
  · split at ht
    · simp only at ht
      have hwt := wordToken_of hdot u l hw
      split at ht
      · rw [List.mem_singleton.1 ht]; exact hwt
      · split at ht
        · exact splitToken_of hdot hb u l x hwt t ht
        · rw [List.mem_singleton.1 ht]; exact hwt
    · cases ht
  · split at ht
    · rw [List.mem_singleton.1 ht]
      exact classify_of hdot u l (trim_of hb (ofText_of hs) 3) _
    · cases ht

theorem applyFilter_sub (f : List InType) : ∀ (ts : List Token), ∀ t ∈ applyFilter f ts, t ∈ ts
  | [], _, h => h
  | t :: ts, x, h => by
    rw [applyFilter] at h
    split at h
    · rcases List.mem_cons.1 h with rfl | h
      · exact List.mem_cons_self ..
      · exact List.mem_cons_of_mem _ (applyFilter_sub f ts x h)
    · exact List.mem_cons_of_mem _ (applyFilter_sub f ts x h)

theorem getTokens_of (hdot : P '.') (hb : P ' ') {icu : Icu} {u : UTables} {l : Lexicon} {x : LexRe} {f : List InType}
    {str : Str} (h : AllOf P (prepare icu l str)) {ts : List Token} (ht : getTokens icu u l x f str = some ts) :
    ∀ t ∈ ts, TokenOf P t := by
  obtain ⟨qs, last, h1, h2⟩ := getTokens_spec icu u l x f str
  rw [ht] at h2
  injection h2 with h2
  intro t hm
  rw [h2] at hm
  obtain ⟨r, hr, hr'⟩ := List.mem_flatMap.1 (applyFilter_sub _ _ _ hm)
  refine roundTokens_of hdot hb u l x (h.sub (fun c hc => ?_)) t hr'
  rw [h1.text]
  exact List.mem_append_left _ (List.mem_flatMap.2 ⟨r, hr, hc⟩)

theorem altOne_of (hdot : P '.') (u : UTables) (l : Lexicon) (i : Nat) : ∀ (ts : List Token) (n : Nat) (r : List Token),
    (∀ t ∈ ts, TokenOf P t) → altOne u l i n (ts.map (fun t => (t, splitBlanks false [] t.text))) = some r →
    ∀ t ∈ r, TokenOf P t
  | [], n, r, _, h => by
    simp only [List.map_nil, altOne, Option.some.injEq] at h
    subst h; intro t ht; cases ht
  | t :: ts, n, r, hall, h => by
    have ht := hall t (List.mem_cons_self ..)
    have hts : ∀ t ∈ ts, TokenOf P t := fun x hx => hall x (List.mem_cons_of_mem _ hx)
    have keep : ∀ m, (altOne u l i m (ts.map (fun t => (t, splitBlanks false [] t.text)))).map (t :: ·) = some r →
        ∀ t ∈ r, TokenOf P t := by
      intro m h
      obtain ⟨r', hr', rfl⟩ := Option.map_eq_some_iff.1 h
      intro x hx
      rcases List.mem_cons.1 hx with rfl | hx
      · exact ht
      · exact altOne_of hdot u l i ts m r' hts hr' x hx
    rw [List.map_cons, altOne] at h
    split at h
    · exact keep _ h
    · split at h
      · cases h
      · split at h
        · exact keep _ h
        · obtain ⟨r', hr', rfl⟩ := Option.map_eq_some_iff.1 h
          intro x hx
          rcases List.mem_append.1 hx with hx | hx
          · obtain ⟨w, hw, rfl⟩ := List.mem_map.1 hx
            exact wordToken_of hdot u l (wordsOf_of ht.1 w hw)
          · exact altOne_of hdot u l i ts _ r' hts hr' x hx

theorem mapM_some {α β : Type} {f : α → Option β} : ∀ {l : List α} {r : List β}, l.mapM f = some r → ∀ y ∈ r, ∃ x ∈ l, f x = some y
  | [], r, h, y, hy => by
    simp only [List.mapM_nil, Option.pure_def, Option.some.injEq] at h
    subst h; cases hy
  | a :: l, r, h, y, hy => by
    simp only [List.mapM_cons, Option.bind_eq_bind, Option.pure_def, Option.bind_eq_some_iff, Option.some.injEq] at h
    obtain ⟨b, h1, bs, h2, rfl⟩ := h
    rcases List.mem_cons.1 hy with rfl | hy
    · exact ⟨a, List.mem_cons_self .., h1⟩
    · obtain ⟨x, hx, e⟩ := mapM_some h2 y hy
      exact ⟨x, List.mem_cons_of_mem _ hx, e⟩

theorem getAltTokens_of (hdot : P '.') {u : UTables} {l : Lexicon} {ts : List Token} (h : ∀ t ∈ ts, TokenOf P t)
    {alts : List (List Token)} (ha : getAltTokens u l ts = some alts) : ∀ a ∈ alts, ∀ t ∈ a, TokenOf P t := by
  unfold getAltTokens at ha
  simp only at ha
  split at ha
  · injection ha with ha; subst ha; intro a h; cases h
  · split at ha
    · cases ha
    · intro a hm
      obtain ⟨i, _, e⟩ := mapM_some ha a hm
      exact altOne_of hdot u l i ts 0 a h e

/-! ### Searching and standardizing -/
variable {F D : Type}

-- a property of tokens that does not depend on the classes
variable {Q : Token → Prop}

theorem reclassRule_of (hq : ∀ t i o, Q t → Q { t with inclass := [i], outclass := o }) : ∀ (is : List InType) (os : List OutType) (ts : List Token) (b : Bool) (done rest : List Token),
    (∀ t ∈ ts, Q t) → reclassRule is os ts = some (b, done, rest) → (∀ t ∈ done, Q t) ∧ ∀ t ∈ rest, Q t
  | [], _, ts, b, done, rest, hts, h => by
    rw [reclassRule.eq_def] at h
    cases h
    exact ⟨fun t ht => (by cases ht), hts⟩
  | _ :: _, _, [], b, done, rest, hts, h => by
    rw [reclassRule.eq_def] at h
    cases h
  | i :: is, [], t :: ts, b, done, rest, hts, h => by
    rw [reclassRule.eq_def] at h
    cases h
  | i :: is, o :: os, t :: ts, b, done, rest, hts, h => by
    have ht := hts t (List.mem_cons_self ..)
    have hts' : ∀ t ∈ ts, Q t := fun x hx => hts x (List.mem_cons_of_mem _ hx)
    rw [reclassRule.eq_def] at h
    simp only at h
    split at h
    · cases hr : reclassRule is os ts with
      | none => rw [hr] at h; cases h
      | some q =>
        obtain ⟨b', d', r'⟩ := q
        rw [hr] at h
        cases h
        obtain ⟨h1, h2⟩ := reclassRule_of hq is os ts _ _ _ hts' hr
        refine ⟨fun x hx => ?_, h2⟩
        rcases List.mem_cons.1 hx with rfl | hx
        · exact hq _ _ _ ht
        · exact h1 x hx
    · cases h
      exact ⟨fun x hx => (by cases hx), hts⟩

theorem reclassRules_of (hq : ∀ t i o, Q t → Q { t with inclass := [i], outclass := o }) : ∀ (rs : List (Rule F)) (ts : List Token) (b : Bool) (out : List Token),
    (∀ t ∈ ts, Q t) → reclassRules rs ts = some (b, out) → ∀ t ∈ out, Q t
  | [], ts, b, out, hts, h => by
    rw [reclassRules] at h
    cases h
    exact hts
  | r :: rs, ts, b, out, hts, h => by
    rw [reclassRules] at h
    cases hr : reclassRule r.inClass r.outClass ts with
    | none => rw [hr] at h; cases h
    | some q =>
      obtain ⟨b', d', r'⟩ := q
      rw [hr] at h
      obtain ⟨h1, h2⟩ := reclassRule_of hq _ _ _ _ _ _ hts hr
      cases b' with
      | false =>
        cases h
        exact fun t ht => (List.mem_append.1 ht).elim (h1 t) (h2 t)
      | true =>
        simp only at h
        cases hq2 : reclassRules rs r' with
        | none => rw [hq2] at h; cases h
        | some q =>
          obtain ⟨b2, o2⟩ := q
          rw [hq2] at h
          cases h
          exact fun t ht => (List.mem_append.1 ht).elim (h1 t) (reclassRules_of hq rs r' _ _ h2 hq2 t)

theorem reclassTokens_of (hq : ∀ t i o, Q t → Q { t with inclass := [i], outclass := o }) {ts : List Token} {p : SearchPath F} {b : Bool} {out : List Token} (hts : ∀ t ∈ ts, Q t)
    (h : reclassTokens ts p = some (b, out)) : ∀ t ∈ out, Q t := by
  unfold reclassTokens at h
  simp only at h
  split at h
  · cases h; exact hts
  · exact reclassRules_of hq _ _ _ _ hts h

theorem best_of (hq : ∀ t i o, Q t → Q { t with inclass := [i], outclass := o }) {g : Grammar F} {fo : FloatOps F} {phrase : List Token} {b : BestResult F} (hts : ∀ t ∈ phrase, Q t)
    (h : searchAndReclassBest g fo phrase = .ok b) : ∀ t ∈ b.tokens, Q t := by
  unfold searchAndReclassBest at h
  split at h
  · cases h
  · cases h
  · split at h
    · cases h
      exact fun t ht => (by cases ht)
    · simp only at h
      split at h
      · cases h
      · split at h
        · cases h
        · next e => cases h; exact reclassTokens_of hq hts e
        · next e => cases h; exact reclassTokens_of hq hts e

theorem bestPhrases_of (hq : ∀ t i o, Q t → Q { t with inclass := [i], outclass := o }) {g : Grammar F} {fo : FloatOps F} : ∀ {phrases : List (List Token)} {b0 b : BestResult F},
    (∀ phrase ∈ phrases, ∀ t ∈ phrase, Q t) → (∀ t ∈ b0.tokens, Q t) →
    bestPhrases g fo b0 phrases = .ok b → ∀ t ∈ b.tokens, Q t
  | [], b0, b, _, h0, h => by
    rw [bestPhrases] at h
    cases h
    exact h0
  | phrase :: ps, b0, b, hp, h0, h => by
    rw [bestPhrases] at h
    cases hr : searchAndReclassBest g fo phrase with
    | throws m => rw [hr] at h; cases h
    | undefined => rw [hr] at h; cases h
    | ok r =>
      rw [hr] at h
      simp only at h
      refine bestPhrases_of hq (fun ph hm => hp ph (List.mem_cons_of_mem _ hm)) ?_ h
      split
      · exact fun t ht => best_of hq (hp phrase (List.mem_cons_self ..)) hr t ht
      · exact h0

theorem bestOf_of (hq : ∀ t i o, Q t → Q { t with inclass := [i], outclass := o }) {g : Grammar F} {fo : FloatOps F} {phrases : List (List Token)} {b : BestResult F}
    (hp : ∀ phrase ∈ phrases, ∀ t ∈ phrase, Q t) (h : searchAndReclassBestOf g fo phrases = .ok b) :
    ∀ t ∈ b.tokens, Q t :=
  bestPhrases_of hq hp (fun t ht => by cases ht) h

theorem phrasesOf_of (hdot : P '.') (hb : P ' ') {env : Wrapper.Env F D} {l : Lexicon} {locale filter address : Str}
    (h : AllOf P (env.icu.upper l.locale (env.icu.norm (env.icu.upper locale (env.icu.norm address)))))
    {phrases : List (List Token)} (hp : Wrapper.phrasesOf env l locale filter address = .ok phrases) :
    ∀ phrase ∈ phrases, ∀ t ∈ phrase, TokenOf P t := by
  unfold Wrapper.phrasesOf at hp
  simp only at hp
  split at hp
  · cases hp
  · next ts hts =>
    split at hp
    · cases hp
    · next alts halts =>
      injection hp with hp
      subst hp
      have h1 := getTokens_of hdot hb h hts
      intro phrase hm
      rcases List.mem_cons.1 hm with rfl | hm
      · exact h1
      · exact getAltTokens_of hdot h1 halts phrase hm

theorem stdLoop_mem {ic : List InType} : ∀ {es : List LexEntry} {w : Str}, Lexicon.stdLoop ic es = some (some w) →
    ∃ e ∈ es, e.stdword = w
  | [], w, h => by cases h
  | e :: es, w, h => by
    cases ic with
    | nil => cases h
    | cons c cs =>
      rw [Lexicon.stdLoop] at h
      split at h
      · cases h; exact ⟨e, List.mem_cons_self .., rfl⟩
      · obtain ⟨x, hx, e⟩ := stdLoop_mem h
        exact ⟨x, List.mem_cons_of_mem _ hx, e⟩

theorem omFind_mem' {α : Type} {k : Str} {v : α} : ∀ {m : List (Str × α)}, omFind k m = some v → (k, v) ∈ m
  | [], h => by cases h
  | (k', w) :: m, h => by
    rw [omFind] at h
    split at h
    · next e => cases h; rw [e]; exact List.mem_cons_self ..
    · exact List.mem_cons_of_mem _ (omFind_mem' h)

theorem find_mem {l : Lexicon} {w : Str} {x : LexEntry} (h : x ∈ l.find w) : ∃ e ∈ l.lex, x ∈ e.2 := by
  unfold Lexicon.find at h
  split at h
  · next es e =>
    exact ⟨_, omFind_mem' e, h⟩
  · cases h

theorem standardize_of {l : Lexicon} (hl : ∀ e ∈ l.lex, ∀ x ∈ e.2, AllOf P x.stdword) {t t' : Token} (ht : TokenOf P t)
    (h : l.standardize t = some t') : AllOf P t'.stdtext := by
  unfold Lexicon.standardize at h
  cases hs : Lexicon.stdLoop t.inclass (l.find t.text) with
  | none => rw [hs] at h; cases h
  | some r =>
    rw [hs] at h
    simp only [Option.some.injEq] at h
    subst h
    cases r with
    | none =>
      simp only
      split
      · exact ht.1
      · exact ht.2
    | some w =>
      simp only
      obtain ⟨x, hx, rfl⟩ := stdLoop_mem hs
      obtain ⟨e, he, hx⟩ := find_mem hx
      split
      · exact ht.1
      · exact hl e he x hx

end AS
