import Verif.Lemmas.Agree
import Verif.Lemmas.Search
import Verif.Lemmas.Token
import Verif.Spec.Further
import Verif.Spec.Best
/-
Addresses read with a lexicon and with one that has further classes for its words.
-/
namespace AS
open Tokenizer
variable {New : Str → InType → Prop}

namespace Along
variable {α β : Type} {R : α → β → Prop}

theorem append {a : List α} {b : List β} {c : List α} {d : List β} (h : Along R a b) (h' : Along R c d) : Along R (a ++ c) (b ++ d) := by
  induction h with
  | nil => exact h'
  | cons r _ ih => exact .cons r ih

theorem length {a : List α} {b : List β} (h : Along R a b) : a.length = b.length := by
  induction h with
  | nil => rfl
  | cons _ _ ih => simp [ih]

theorem mapped {γ : Type} {f : γ → α} {g : γ → β} : ∀ (l : List γ), (∀ x ∈ l, R (f x) (g x)) → Along R (l.map f) (l.map g)
  | [], _ => .nil
  | x :: l, h => .cons (h x List.mem_cons_self) (mapped l (fun y hy => h y (List.mem_cons_of_mem _ hy)))

theorem flat {γ : Type} {f : γ → List α} {g : γ → List β} : ∀ (l : List γ), (∀ x ∈ l, Along R (f x) (g x)) →
    Along R (l.flatMap f) (l.flatMap g)
  | [], _ => .nil
  | x :: l, h => by
    rw [List.flatMap_cons, List.flatMap_cons]
    exact (h x List.mem_cons_self).append (flat l (fun y hy => h y (List.mem_cons_of_mem _ hy)))

theorem mem_right {a : List α} {b : List β} (h : Along R a b) {y : β} (hy : y ∈ b) : ∃ x ∈ a, R x y := by
  induction h with
  | nil => cases hy
  | cons r _ ih =>
    rcases List.mem_cons.1 hy with rfl | hy
    · exact ⟨_, List.mem_cons_self, r⟩
    · obtain ⟨x, hx, hr⟩ := ih hy
      exact ⟨x, List.mem_cons_of_mem _ hx, hr⟩

end Along

theorem MoreToken.refl (t : Token) : MoreToken New t t where
  rest := rfl
  sub := by
    symm
    rw [List.filter_eq_self]
    intro c hc
    exact decide_eq_true hc
  new _ h := Or.inl h

theorem MoreToken.text {t t' : Token} (h : MoreToken New t t') : t'.text = t.text := by rw [h.rest]
theorem MoreToken.inlex {t t' : Token} (h : MoreToken New t t') : t'.inlex = t.inlex := by rw [h.rest]

theorem MoreToken.mem {t t' : Token} (h : MoreToken New t t') {c : InType} (hc : c ∈ t.inclass) : c ∈ t'.inclass := by
  rw [h.sub] at hc
  exact (List.mem_filter.1 hc).1

/-- The lexicons find entries with classes and standard words like that. -/
structure FindsMore (New : Str → InType → Prop) (l l' : Lexicon) : Prop where
  old : ∀ w c, (∃ e ∈ l.find w, c ∈ e.type) → ∃ e ∈ l'.find w, c ∈ e.type
  new : ∀ w c, (∃ e ∈ l'.find w, c ∈ e.type) → (∃ e ∈ l.find w, c ∈ e.type) ∨ New w c
  classed : ∀ w c, New w c → ∃ d, ∃ e ∈ l.find w, d ∈ e.type
  standard : ∀ w c cs, ¬ New w c → Lexicon.stdLoop (c :: cs) (l.find w) = Lexicon.stdLoop (c :: cs) (l'.find w)

theorem classify_more {l l' : Lexicon} (h : FindsMore New l l') (u : UTables) {t : Token}
    (hi : IsSet InType.code t.inclass) (d : InType) : MoreToken New (l.classify u t d) (l'.classify u t d) ∧
      ((l.classify u t d).inlex = false → l'.classify u t d = l.classify u t d) := by
  have e : Lexicon.addTypes (l.find t.text) t = { t with inclass := (Lexicon.addTypes (l.find t.text) t).inclass } := addTypes_rest _ _
  have e' : Lexicon.addTypes (l'.find t.text) t = { t with inclass := (Lexicon.addTypes (l'.find t.text) t).inclass } := addTypes_rest _ _
  have hs := isSet_addTypes (l.find t.text) hi
  have hs' := isSet_addTypes (l'.find t.text) hi
  have hm := fun c => mem_addTypes c (l.find t.text) t
  have hm' := fun c => mem_addTypes c (l'.find t.text) t
  have hold : ∀ c ∈ (Lexicon.addTypes (l.find t.text) t).inclass, c ∈ (Lexicon.addTypes (l'.find t.text) t).inclass := by
    intro c hc
    rw [hm'] 
    rcases (hm c).1 hc with h1 | h1
    · exact Or.inl h1
    · exact Or.inr (h.old _ _ h1)
  have hnew : ∀ c ∈ (Lexicon.addTypes (l'.find t.text) t).inclass, c ∈ (Lexicon.addTypes (l.find t.text) t).inclass ∨ New t.text c := by
    intro c hc
    rw [hm]
    rcases (hm' c).1 hc with h1 | h1
    · exact Or.inl (Or.inl h1)
    · rcases h.new _ _ h1 with h2 | h2
      · exact Or.inl (Or.inr h2)
      · exact Or.inr h2
  by_cases hnil : (Lexicon.addTypes (l.find t.text) t).inclass = []
  · have hnil' : (Lexicon.addTypes (l'.find t.text) t).inclass = [] := by
      apply Classical.byContradiction
      intro hne
      obtain ⟨c, cs, hc⟩ := List.exists_cons_of_ne_nil hne
      rcases hnew c (by rw [hc]; simp) with h1 | h1
      · rw [hnil] at h1; cases h1
      · obtain ⟨d, hd⟩ := h.classed _ _ h1
        have := (hm d).2 (Or.inr hd)
        rw [hnil] at this; cases this
    have same : Lexicon.addTypes (l'.find t.text) t = Lexicon.addTypes (l.find t.text) t := by rw [e, e', hnil, hnil']
    have : l'.classify u t d = l.classify u t d := by
      unfold Lexicon.classify
      rw [same]
    rw [this]
    exact ⟨.refl _, fun _ => rfl⟩
  · have hne' : (Lexicon.addTypes (l'.find t.text) t).inclass ≠ [] := by
      intro hx
      obtain ⟨c, cs, hc⟩ := List.exists_cons_of_ne_nil hnil
      have := hold c (by rw [hc]; simp)
      rw [hx] at this; cases this
    have c1 : l.classify u t d = { Lexicon.addTypes (l.find t.text) t with inlex := true } := by
      unfold Lexicon.classify
      simp [hnil]
    have c2 : l'.classify u t d = { Lexicon.addTypes (l'.find t.text) t with inlex := true } := by
      unfold Lexicon.classify
      simp [hne']
    rw [c1, c2]
    refine ⟨⟨?_, ?_, ?_⟩, fun hx => by cases hx⟩
    · show ({ Lexicon.addTypes (l'.find t.text) t with inlex := true } : Token) =
        { Lexicon.addTypes (l.find t.text) t with inlex := true, inclass := (Lexicon.addTypes (l'.find t.text) t).inclass }
      rw [e, e']
    · refine IsSet.ext hs (hs'.sublist List.filter_sublist) fun c => ?_
      show c ∈ (Lexicon.addTypes (l.find t.text) t).inclass ↔ _
      rw [List.mem_filter, decide_eq_true_eq]
      exact ⟨fun hc => ⟨hold c hc, hc⟩, fun hc => hc.2⟩
    · intro c hc
      have : (Lexicon.addTypes (l.find t.text) t).text = t.text := by rw [e]
      show c ∈ (Lexicon.addTypes (l.find t.text) t).inclass ∨ New (Lexicon.addTypes (l.find t.text) t).text c
      rw [this]
      exact hnew c hc

theorem wordToken_more {l l' : Lexicon} (h : FindsMore New l l') (u : UTables) (s : Str) :
    MoreToken New (wordToken u l s) (wordToken u l' s) ∧
      ((wordToken u l s).inlex = false → wordToken u l' s = wordToken u l s) := classify_more h u (ofText_isSet _) _

theorem splitToken_more {l l' : Lexicon} (h : FindsMore New l l') (u : UTables) (x : LexRe) (t : Token) :
    Along (MoreToken New) (splitToken u l x t) (splitToken u l' x t) := by
  unfold splitToken
  simp only
  split
  · exact .mapped _ fun w _ => (wordToken_more h u w).1
  · exact .mapped _ fun w _ => (wordToken_more h u w).1

theorem roundTokens_more {l l' : Lexicon} (h : FindsMore New l l') (u : UTables) (x : LexRe) (r : Round) :
    Along (MoreToken New) (roundTokens u l x r) (roundTokens u l' x r) := by
  unfold roundTokens
  refine .append ?_ ?_
  · split
    · obtain ⟨h1, h2⟩ := wordToken_more h u r.word
      simp only [h1.inlex]
      cases hin : (wordToken u l r.word).inlex with
      | true => exact .cons h1 .nil
      | false =>
        simp only [Bool.false_eq_true, ↓reduceIte]
        rw [h2 hin]
        have h3 := splitToken_more h u x (wordToken u l r.word)
        rw [← h3.length]
        split
        · exact h3
        · exact .cons (.refl _) .nil
    · exact .nil
  · split
    · exact .cons (classify_more h u (trim_isSet _ _) _).1 .nil
    · exact .nil

theorem isInAny_iff (t : Token) : ∀ f : List InType, t.isInAnyClass f = true ↔ ∃ c ∈ f, c ∈ t.inclass
  | [] => by simp [Token.isInAnyClass]
  | c :: f => by
    rw [Token.isInAnyClass]
    split
    · next h => simp only [true_iff]; exact ⟨c, List.mem_cons_self, by simpa using h⟩
    · next h =>
      rw [isInAny_iff t f]
      constructor
      · rintro ⟨d, hd, hm⟩; exact ⟨d, List.mem_cons_of_mem _ hd, hm⟩
      · rintro ⟨d, hd, hm⟩
        rcases List.mem_cons.1 hd with rfl | hd
        · exact absurd (by simpa using hm) h
        · exact ⟨d, hd, hm⟩

theorem applyFilter_more {f : List InType} (hf : ∀ w c, New w c → c ∉ f) {ts ts' : List Token} (h : Along (MoreToken New) ts ts') :
    Along (MoreToken New) (applyFilter f ts) (applyFilter f ts') := by
  induction h with
  | nil => exact .nil
  | @cons t t' ts ts' r _ ih =>
    have : t'.isInAnyClass f = t.isInAnyClass f := by
      rw [Bool.eq_iff_iff, isInAny_iff, isInAny_iff]
      constructor
      · rintro ⟨c, hc, hm⟩
        rcases r.new c hm with h1 | h1
        · exact ⟨c, hc, h1⟩
        · exact absurd hc (hf _ _ h1)
      · rintro ⟨c, hc, hm⟩; exact ⟨c, hc, r.mem hm⟩
    rw [applyFilter, applyFilter, this]
    split
    · exact .cons r ih
    · exact ih

/-- Both are undefined, or both give lists that are related. -/
def OptAlong {α β : Type} (R : α → β → Prop) (a : Option (List α)) (b : Option (List β)) : Prop :=
  (a = none ∧ b = none) ∨ ∃ x y, a = some x ∧ b = some y ∧ Along R x y

theorem getTokens_more {icu : Icu} {l l' : Lexicon} (h : FindsMore New l l') (u : UTables) (x : LexRe) (hloc : l.locale = l'.locale)
    {f : List InType} (hf : ∀ w c, New w c → c ∉ f) (str : Str) :
    OptAlong (MoreToken New) (getTokens icu u l x f str) (getTokens icu u l' x f str) := by
  have e : prepare icu l str = prepare icu l' str := by unfold prepare; rw [hloc]
  unfold getTokens
  simp only
  rw [← e]
  cases rounds (tokenRx u x) ((prepare icu l str).length + 2) (prepare icu l str) with
  | none => exact Or.inl ⟨rfl, rfl⟩
  | some r => exact Or.inr ⟨_, _, rfl, rfl, applyFilter_more hf (.flat _ fun r _ => roundTokens_more h u x r)⟩

theorem optAlong_map {α β : Type} {R : α → β → Prop} {a : Option (List α)} {b : Option (List β)} (h : OptAlong R a b)
    {f : List α → List α} {g : List β → List β} (hfg : ∀ x y, Along R x y → Along R (f x) (g y)) : OptAlong R (a.map f) (b.map g) := by
  rcases h with ⟨rfl, rfl⟩ | ⟨x, y, rfl, rfl, h⟩
  · exact Or.inl ⟨rfl, rfl⟩
  · exact Or.inr ⟨_, _, rfl, rfl, hfg _ _ h⟩

theorem altOne_more {l l' : Lexicon} (h : FindsMore New l l') (u : UTables) (i : Nat) {ts ts' : List Token}
    (ha : Along (MoreToken New) ts ts') : ∀ n, OptAlong (MoreToken New)
    (altOne u l i n (ts.map (fun t => (t, splitBlanks false [] t.text))))
    (altOne u l' i n (ts'.map (fun t => (t, splitBlanks false [] t.text)))) := by
  induction ha with
  | nil => intro n; exact Or.inr ⟨[], [], rfl, rfl, .nil⟩
  | @cons t t' ts ts' r _ ih =>
    intro n
    rw [List.map_cons, List.map_cons, altOne, altOne, r.text]
    split
    · exact optAlong_map (ih _) fun _ _ hx => .cons r hx
    · split
      · exact Or.inl ⟨rfl, rfl⟩
      · split
        · exact optAlong_map (ih _) fun _ _ hx => .cons r hx
        · exact optAlong_map (ih _) fun _ _ hx => .append (.mapped _ fun w _ => (wordToken_more h u w).1) hx

theorem mapM_more {α β γ : Type} {R : α → β → Prop} {f : γ → Option (List α)} {g : γ → Option (List β)}
    (h : ∀ c, OptAlong R (f c) (g c)) : ∀ l : List γ, OptAlong (Along R) (l.mapM f) (l.mapM g)
  | [] => Or.inr ⟨[], [], rfl, rfl, .nil⟩
  | c :: l => by
    rw [List.mapM_cons, List.mapM_cons]
    rcases h c with ⟨h1, h2⟩ | ⟨x, y, h1, h2, h3⟩
    · rw [h1, h2]; exact Or.inl ⟨rfl, rfl⟩
    · rw [h1, h2]
      rcases mapM_more h l with ⟨k1, k2⟩ | ⟨xs, ys, k1, k2, k3⟩
      · rw [k1, k2]; exact Or.inl ⟨rfl, rfl⟩
      · rw [k1, k2]; exact Or.inr ⟨_, _, rfl, rfl, .cons h3 k3⟩

theorem getAltTokens_more {l l' : Lexicon} (h : FindsMore New l l') (u : UTables) {ts ts' : List Token}
    (ha : Along (MoreToken New) ts ts') : OptAlong (Along (MoreToken New)) (getAltTokens u l ts) (getAltTokens u l' ts') := by
  have hc : ∀ n, countAlts n (ts'.map (fun t => (t, splitBlanks false [] t.text))) =
      countAlts n (ts.map (fun t => (t, splitBlanks false [] t.text))) := by
    induction ha with
    | nil => intro n; rfl
    | cons r _ ih => intro n; rw [List.map_cons, List.map_cons, countAlts, countAlts, r.text, ih]
  unfold getAltTokens
  simp only
  rw [hc]
  split
  · exact Or.inr ⟨_, _, rfl, rfl, .nil⟩
  · split
    · exact Or.inl ⟨rfl, rfl⟩
    · exact mapM_more (fun i => altOne_more h u i ha 0) _

variable {F D : Type}

theorem phrasesOf_more {env : Wrapper.Env F D} {l l' : Lexicon} (h : FindsMore New l l')
    (hx : Wrapper.lexRe env l = Wrapper.lexRe env l') (hloc : l.locale = l'.locale) {filter : Str}
    (hf : ∀ w c, New w c → c ∉ InType.asType filter) (locale address : Str) :
    (Wrapper.phrasesOf env l locale filter address = .undefined ∧ Wrapper.phrasesOf env l' locale filter address = .undefined) ∨
    ∃ ps ps', Wrapper.phrasesOf env l locale filter address = .ok ps ∧ Wrapper.phrasesOf env l' locale filter address = .ok ps' ∧
      Along (Along (MoreToken New)) ps ps' := by
  unfold Wrapper.phrasesOf
  simp only
  rw [← hx]
  rcases getTokens_more (icu := env.icu) h env.u (Wrapper.lexRe env l) hloc hf
    (env.icu.upper locale (env.icu.norm address)) with ⟨h1, h2⟩ | ⟨ts, ts', h1, h2, h3⟩
  · rw [h1, h2]; exact Or.inl ⟨rfl, rfl⟩
  · rw [h1, h2]
    simp only
    rcases getAltTokens_more h env.u h3 with ⟨k1, k2⟩ | ⟨as, as', k1, k2, k3⟩
    · rw [k1, k2]; exact Or.inl ⟨rfl, rfl⟩
    · rw [k1, k2]; exact Or.inr ⟨_, _, rfl, rfl, .cons h3 k3⟩

/-! ### Patterns -/

theorem cart_more {ts ts' : List Token} (h : Along (MoreToken New) ts ts') :
    ∃ P : List InType → Bool, (∀ p, Picks p (ts'.map (·.inclass)) → (P p = true ↔ Picks p (ts.map (·.inclass)))) ∧
      cart (ts.map (·.inclass)) = (cart (ts'.map (·.inclass))).filter P := by
  induction h with
  | nil => exact ⟨fun _ => true, fun p hp => ⟨fun _ => hp, fun _ => rfl⟩, rfl⟩
  | @cons t t' ts ts' r _ ih =>
    obtain ⟨P, h1, h2⟩ := ih
    let Q : List InType → Bool := fun p => match p with | [] => false | c :: p => decide (c ∈ t.inclass) && P p
    refine ⟨Q, ?_, ?_⟩
    · intro p hp
      rw [List.map_cons] at hp ⊢
      cases hp with
      | cons hx hp =>
        simp only [Q, Bool.and_eq_true, decide_eq_true_eq]
        constructor
        · rintro ⟨k1, k2⟩
          exact .cons k1 ((h1 _ hp).1 k2)
        · intro hk
          cases hk with
          | cons k1 k2 => exact ⟨k1, (h1 _ hp).2 k2⟩
    · rw [List.map_cons, List.map_cons, cart, cart, List.filter_flatMap, h2]
      have key : ∀ (s s' : List InType), s = s'.filter (fun c => decide (c ∈ t.inclass)) →
          s.flatMap (fun x => ((cart (ts'.map (·.inclass))).filter P).map (x :: ·)) =
          s'.flatMap (fun x => ((cart (ts'.map (·.inclass))).map (x :: ·)).filter Q) := by
        intro s s'
        induction s' generalizing s with
        | nil => rintro rfl; rfl
        | cons c s' ih =>
          intro e
          rw [List.flatMap_cons, List.filter_map]
          by_cases hc : c ∈ t.inclass
          · rw [List.filter_cons_of_pos (by simpa using hc)] at e
            subst e
            rw [List.flatMap_cons, ih _ rfl]
            congr 2
            apply List.filter_congr
            intro p _
            simp [Q, hc]
          · rw [List.filter_cons_of_neg (by simpa using hc)] at e
            rw [ih s e]
            have : List.filter (Q ∘ fun x => c :: x) (cart (ts'.map (·.inclass))) = [] := by
              rw [List.filter_eq_nil_iff]
              intro p _
              simp [Q, hc]
            rw [this]
            rfl
      exact key _ _ r.sub

theorem sizeProd_more {ts ts' : List Token} (h : Along (MoreToken New) ts ts') :
    sizeProd (ts.map (·.inclass)) ≤ sizeProd (ts'.map (·.inclass)) := by
  induction h with
  | nil => exact Nat.le_refl _
  | @cons t t' ts ts' r _ ih =>
    rw [List.map_cons, List.map_cons, sizeProd, sizeProd]
    refine Nat.mul_le_mul ?_ ih
    rw [r.sub]
    exact List.length_filter_le _ _

/-- Fewer patterns, of the same length: fewer results. -/
theorem search_fewer {G : Grammar F} (wf : WfGrammar G) (node : Str) {phrase phrase' : List Token} (hlen : phrase.length = phrase'.length)
    {ps ps' : List (List InType)} (hps : Token.enumerate phrase = some ps) (hps' : Token.enumerate phrase' = some ps')
    {P : List InType → Bool} (he : ps = ps'.filter P) {l' : List (SearchPath F)} (hl' : search G node phrase' = .ok l') :
    search G node phrase = .ok (l'.filter (fun p => P (inputs p.rules))) := by
  unfold search at hl' ⊢
  rw [hps'] at hl'
  rw [hps, hlen]
  simp only at hl' ⊢
  rcases stringToSectionPtr_ok wf node with ⟨ptr, h1, h2, h3⟩ | ⟨h1, _⟩
  · rw [h1] at hl' ⊢
    simp only at hl' ⊢
    have key : ∀ ps' : List (List InType), ∃ ms ms',
        matchAll G (phrase'.length + 2) ptr (ps'.map (fun e => { remaining := e : SearchPath F })) 0 = some ms' ∧
        matchAll G (phrase'.length + 2) ptr ((ps'.filter P).map (fun e => { remaining := e : SearchPath F })) 0 = some ms ∧
        ms.filter (fun m => m.remaining.length == 0) =
          (ms'.filter (fun m => m.remaining.length == 0)).filter (fun p => P (inputs p.rules)) := by
      intro ps'
      induction ps' with
      | nil => exact ⟨[], [], rfl, rfl, rfl⟩
      | cons e ps' ih =>
        obtain ⟨ms, ms', k1, k2, k3⟩ := ih
        obtain ⟨res, hres, hmem⟩ := matchPath_top wf (phrase'.length + 2) ptr h3 e
        unfold matchAll at k1 k2 ⊢
        have hin : ∀ p ∈ res.filter (fun m => m.remaining.length == 0), inputs p.rules = e := by
          intro p hp
          obtain ⟨hp, hr⟩ := List.mem_filter.1 hp
          obtain ⟨rs, m, rest, _, _, k, rfl⟩ := (hmem p).1 hp
          have : rest = [] := by simpa using hr
          subst this
          rw [k, List.append_nil]
        cases hP : P e with
        | true =>
          refine ⟨res ++ ms, res ++ ms', ?_, ?_, ?_⟩
          · rw [List.map_cons, flatMapM, hres]; simp only [k1]
          · rw [List.filter_cons_of_pos hP, List.map_cons, flatMapM, hres]; simp only [k2]
          · rw [List.filter_append, List.filter_append, List.filter_append, k3]
            congr 1
            symm
            rw [List.filter_eq_self]
            intro p hp
            rw [hin p hp, hP]
        | false =>
          refine ⟨ms, res ++ ms', ?_, ?_, ?_⟩
          · rw [List.map_cons, flatMapM, hres]; simp only [k1]
          · rw [List.filter_cons_of_neg (by rw [hP]; simp)]; exact k2
          · rw [List.filter_append, List.filter_append, k3]
            have : (res.filter (fun m => m.remaining.length == 0)).filter (fun p => P (inputs p.rules)) = [] := by
              rw [List.filter_eq_nil_iff]
              intro p hp
              rw [hin p hp, hP]; simp
            rw [this, List.nil_append]
    obtain ⟨ms, ms', k1, k2, k3⟩ := key ps'
    rw [k1] at hl'
    rw [he, k2]
    simp only [Outcome.ok.injEq] at hl' ⊢
    rw [← hl', k3]
  · rw [h1] at hl'; cases hl'

theorem retag_more {ts ts' : List Token} (h : Along (MoreToken New) ts ts') : ∀ (is : List InType) (os : List OutType),
    retag ts is os = retag ts' is os := by
  induction h with
  | nil => intro is os; rfl
  | @cons t t' ts ts' r _ ih =>
    intro is os
    cases is with
    | nil => rfl
    | cons i is =>
      cases os with
      | nil => rfl
      | cons o os => rw [retag, retag, ih, r.rest]

/-- Classes that pick from the tokens with further classes, none of them new. -/
theorem picks_more {ts ts' : List Token} (h : Along (MoreToken New) ts ts') : ∀ (cs : List InType),
    Picks cs (ts'.map (·.inclass)) → ¬ UsesNew New ts' cs → Picks cs (ts.map (·.inclass)) := by
  induction h with
  | nil => intro cs hp _; exact hp
  | @cons t t' ts ts' r _ ih =>
    intro cs hp hu
    rw [List.map_cons] at hp ⊢
    cases hp with
    | @cons c _ cs _ hx hp =>
      refine .cons ?_ (ih cs hp fun ⟨x, hm, hn⟩ => hu ⟨x, by rw [List.zip_cons_cons]; exact List.mem_cons_of_mem _ hm, hn⟩)
      rcases r.new c hx with h1 | h1
      · exact h1
      · exact absurd ⟨(t', c), by rw [List.zip_cons_cons]; exact List.mem_cons_self, by rw [r.text]; exact h1⟩ hu

/-- The standard words are the same for tokens that are in no new class. -/
theorem collect_more {l l' : Lexicon} (h : FindsMore New l l') : ∀ (ts : List Token) (is : List InType) (os : List OutType) (v : List Str),
    ¬ UsesNew New ts is → Wrapper.collect l v (retag ts is os) = Wrapper.collect l' v (retag ts is os)
  | [], is, os, v, _ => rfl
  | t :: ts, [], os, v, _ => rfl
  | t :: ts, i :: is, [], v, _ => rfl
  | t :: ts, i :: is, o :: os, v, hu => by
    have ih := fun v => collect_more h ts is os v fun ⟨x, hm, hn⟩ =>
      hu ⟨x, by rw [List.zip_cons_cons]; exact List.mem_cons_of_mem _ hm, hn⟩
    have hs : l.standardize { t with inclass := [i], outclass := o } = l'.standardize { t with inclass := [i], outclass := o } := by
      unfold Lexicon.standardize
      rw [h.standard t.text i [] fun hn => hu ⟨(t, i), by rw [List.zip_cons_cons]; exact List.mem_cons_self, hn⟩]
    rw [retag, Wrapper.collect, Wrapper.collect, hs]
    split
    · rfl
    · split
      · exact ih _
      · exact ih _

end AS
