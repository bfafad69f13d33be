import Verif.Spec.Labels
import Verif.Lemmas.Classified
import Verif.Lemmas.Further
import Verif.Spec.Wrapper
/-
Input classes exchanged for one another: the tokens.
-/
namespace AS
open Tokenizer
variable {F D : Type} {σ : InType → InType}

theorem isSet_nodup {l : List InType} (h : IsSet InType.code l) : l.Nodup := by
  unfold IsSet at h
  refine List.Pairwise.imp ?_ h
  rintro a b hab rfl
  exact absurd hab (Int.lt_irrefl _)

/-- Tokens with classes of their own only. -/
theorem RelabelledToken.own (hσ : Relabels σ) {t : Token} (h : ∀ c ∈ t.inclass, c ∈ ownClasses)
    (hset : IsSet InType.code t.inclass) : RelabelledToken σ t t where
  rest := rfl
  sets := ⟨hset, hset⟩
  classes := by
    have : t.inclass.map σ = t.inclass.map id := List.map_congr_left fun c hc => hσ.own c (h c hc)
    rw [this, List.map_id]

theorem RelabelledToken.text {t t' : Token} (h : RelabelledToken σ t t') : t'.text = t.text := by rw [h.rest]
theorem RelabelledToken.inlex {t t' : Token} (h : RelabelledToken σ t t') : t'.inlex = t.inlex := by rw [h.rest]

theorem RelabelledToken.mem (hσ : Relabels σ) {t t' : Token} (h : RelabelledToken σ t t') (c : InType) :
    σ c ∈ t'.inclass ↔ c ∈ t.inclass := by
  rw [h.classes.mem_iff, List.mem_map]
  constructor
  · rintro ⟨d, hd, e⟩; rw [← hσ.inj _ _ e]; exact hd
  · intro hc; exact ⟨c, hc, rfl⟩

/-- The lexicons find entries with classes like that. -/
structure FindsLabels (σ : InType → InType) (l l' : Lexicon) : Prop where
  types : ∀ w c, (∃ e ∈ l.find w, c ∈ e.type) ↔ ∃ e ∈ l'.find w, σ c ∈ e.type
  standard : ∀ w c, Lexicon.stdLoop [σ c] (l'.find w) = Lexicon.stdLoop [c] (l.find w)

theorem byShape_own (u : UTables) (t : Token) (h : t.inclass = []) : ∀ c ∈ (Lexicon.byShape u t).inclass, c ∈ ownClasses := by
  have key : ∀ c ∈ (Lexicon.byShape u t).inclass, c ∈ t.inclass ∨ c ∈ ownClasses := by
    intro c hc
    unfold Lexicon.byShape at hc
    simp only at hc
    unfold ownClasses
    simp only [List.mem_cons]
    grind (splits := 40) (ematch := 20) [mem_addClass]
  intro c hc
  rcases key c hc with hc | hc
  · rw [h] at hc; cases hc
  · exact hc

theorem byShape_isSet (u : UTables) (t : Token) (h : IsSet InType.code t.inclass) : IsSet InType.code (Lexicon.byShape u t).inclass := by
  unfold Lexicon.byShape
  simp only
  grind (splits := 40) (ematch := 20) [isSet_addClass]

theorem classify_isSet (l : Lexicon) (u : UTables) {t : Token} (h : IsSet InType.code t.inclass) (d : InType) :
    IsSet InType.code (l.classify u t d).inclass := by
  have h1 := isSet_addTypes (l.find t.text) h
  unfold Lexicon.classify
  simp only
  split
  · exact h1
  · have h2 := byShape_isSet u { Lexicon.addTypes (l.find t.text) t with inlex := false } h1
    split
    · exact isSet_addClass _ h2
    · exact h2

theorem classify_labels (hσ : Relabels σ) {l l' : Lexicon} (h : FindsLabels σ l l') (u : UTables) {t : Token}
    (hi : t.inclass = []) {d : InType} (hd : d ∈ ownClasses) : RelabelledToken σ (l.classify u t d) (l'.classify u t d) ∧
      ((l.classify u t d).inlex = false → l'.classify u t d = l.classify u t d) := by
  have e : Lexicon.addTypes (l.find t.text) t = { t with inclass := (Lexicon.addTypes (l.find t.text) t).inclass } := addTypes_rest _ _
  have e' : Lexicon.addTypes (l'.find t.text) t = { t with inclass := (Lexicon.addTypes (l'.find t.text) t).inclass } := addTypes_rest _ _
  have hset : IsSet InType.code t.inclass := by rw [hi]; exact .nil
  have hs := isSet_addTypes (l.find t.text) hset
  have hs' := isSet_addTypes (l'.find t.text) hset
  have hm : ∀ c, c ∈ (Lexicon.addTypes (l.find t.text) t).inclass ↔ ∃ e ∈ l.find t.text, c ∈ e.type := by
    intro c; rw [mem_addTypes, hi]; simp
  have hm' : ∀ c, c ∈ (Lexicon.addTypes (l'.find t.text) t).inclass ↔ ∃ e ∈ l'.find t.text, c ∈ e.type := by
    intro c; rw [mem_addTypes, hi]; simp
  have hperm : (Lexicon.addTypes (l'.find t.text) t).inclass.Perm ((Lexicon.addTypes (l.find t.text) t).inclass.map σ) := by
    refine (List.perm_ext_iff_of_nodup (isSet_nodup hs') ?_).2 fun c => ?_
    · refine List.Pairwise.map σ ?_ (isSet_nodup hs)
      intro a b hab hc
      exact hab (hσ.inj _ _ hc)
    · obtain ⟨b, rfl⟩ := hσ.surj c
      rw [hm', ← h.types, ← hm, List.mem_map]
      constructor
      · intro hb; exact ⟨b, hb, rfl⟩
      · rintro ⟨x, hx, ex⟩; rw [← hσ.inj _ _ ex]; exact hx
  by_cases hnil : (Lexicon.addTypes (l.find t.text) t).inclass = []
  · have hnil' : (Lexicon.addTypes (l'.find t.text) t).inclass = [] := by
      rw [hnil] at hperm
      exact List.Perm.eq_nil hperm
    have same : Lexicon.addTypes (l'.find t.text) t = Lexicon.addTypes (l.find t.text) t := by rw [e, e', hnil, hnil']
    have : l'.classify u t d = l.classify u t d := by
      unfold Lexicon.classify
      rw [same]
    rw [this]
    refine ⟨.own hσ ?_ (classify_isSet l u (by rw [hi]; exact .nil) d), fun _ => rfl⟩
    have hb := byShape_own u { Lexicon.addTypes (l.find t.text) t with inlex := false } hnil
    simp only [hnil] at hb
    intro c hc
    unfold Lexicon.classify at hc
    simp only [hnil, List.isEmpty_nil, Bool.not_true, Bool.false_eq_true, ↓reduceIte] at hc
    split at hc
    · rw [mem_addClass] at hc
      rcases hc with rfl | hc
      · exact hd
      · exact hb c hc
    · exact hb c hc
  · have hne' : (Lexicon.addTypes (l'.find t.text) t).inclass ≠ [] := by
      intro hx
      rw [hx] at hperm
      exact hnil (List.map_eq_nil_iff.1 (List.Perm.eq_nil hperm.symm))
    have c1 : l.classify u t d = { Lexicon.addTypes (l.find t.text) t with inlex := true } := by
      unfold Lexicon.classify
      simp [hnil]
    have c2 : l'.classify u t d = { Lexicon.addTypes (l'.find t.text) t with inlex := true } := by
      unfold Lexicon.classify
      simp [hne']
    rw [c1, c2]
    refine ⟨⟨?_, hperm, hs, hs'⟩, fun hx => by cases hx⟩
    show ({ Lexicon.addTypes (l'.find t.text) t with inlex := true } : Token) =
      { Lexicon.addTypes (l.find t.text) t with inlex := true, inclass := (Lexicon.addTypes (l'.find t.text) t).inclass }
    rw [e, e']

theorem wordToken_labels (hσ : Relabels σ) {l l' : Lexicon} (h : FindsLabels σ l l') (u : UTables) {s : Str} (hs : AllOf (· ≠ '\t') s) :
    RelabelledToken σ (wordToken u l s) (wordToken u l' s) ∧
      ((wordToken u l s).inlex = false → wordToken u l' s = wordToken u l s) :=
  classify_labels hσ h u (ofText_inclass hs) (by decide)

theorem splitToken_labels (hσ : Relabels σ) {l l' : Lexicon} (h : FindsLabels σ l l') (u : UTables) (x : LexRe) {t : Token}
    (ht : AllOf (· ≠ '\t') t.text) : Along (RelabelledToken σ) (splitToken u l x t) (splitToken u l' x t) := by
  unfold splitToken
  simp only
  split
  · exact .mapped _ fun w hw => (wordToken_labels hσ h u (mixed_of (by decide) u ht w hw)).1
  · refine .mapped _ fun w hw => (wordToken_labels hσ h u ?_).1
    have h1 := groups_of ht ((prefix_cut u x t.text).imp id And.left)
    have h2 := groups_of ht ((suffix_cut x t.text).imp id And.left)
    exact attached_of ht h1.1 h1.2 h2.1 h2.2 w hw

theorem roundTokens_labels (hσ : Relabels σ) {l l' : Lexicon} (h : FindsLabels σ l l') (u : UTables) (x : LexRe) {r : Round}
    (hr : AllOf (· ≠ '\t') r.text) : Along (RelabelledToken σ) (roundTokens u l x r) (roundTokens u l' x r) := by
  have hw : AllOf (· ≠ '\t') r.word := hr.sub (fun c hc => by
    unfold Round.text; exact List.mem_append_left _ (List.mem_append_right _ hc))
  have hs : AllOf (· ≠ '\t') r.sep := hr.sub (fun c hc => by unfold Round.text; exact List.mem_append_right _ hc)
  unfold roundTokens
  refine .append ?_ ?_
  · split
    · obtain ⟨h1, h2⟩ := wordToken_labels hσ h u hw
      simp only [h1.inlex]
      cases hin : (wordToken u l r.word).inlex with
      | true => exact .cons h1 .nil
      | false =>
        simp only [Bool.false_eq_true, ↓reduceIte]
        rw [h2 hin]
        rw [h2 hin] at h1
        have h3 := splitToken_labels hσ h u x (wordToken_of (by decide) u l hw).1
        rw [← h3.length]
        split
        · exact h3
        · exact .cons h1 .nil
    · exact .nil
  · split
    · exact .cons (classify_labels hσ h u (by rw [trim_inclass]; exact ofText_inclass hs) (by decide)).1 .nil
    · exact .nil

theorem applyFilter_labels (hσ : Relabels σ) {f f' : List InType} (hf : ∀ c, σ c ∈ f' ↔ c ∈ f) {ts ts' : List Token}
    (h : Along (RelabelledToken σ) ts ts') : Along (RelabelledToken σ) (applyFilter f ts) (applyFilter f' ts') := by
  induction h with
  | nil => exact .nil
  | @cons t t' ts ts' r _ ih =>
    have : t'.isInAnyClass f' = t.isInAnyClass f := by
      rw [Bool.eq_iff_iff, isInAny_iff, isInAny_iff]
      constructor
      · rintro ⟨c, hc, hm⟩
        obtain ⟨b, rfl⟩ := hσ.surj c
        exact ⟨b, (hf b).1 hc, (r.mem hσ b).1 hm⟩
      · rintro ⟨c, hc, hm⟩; exact ⟨σ c, (hf c).2 hc, (r.mem hσ c).2 hm⟩
    rw [applyFilter, applyFilter, this]
    split
    · exact .cons r ih
    · exact ih

theorem getTokens_labels (hσ : Relabels σ) {icu : Icu} {l l' : Lexicon} (h : FindsLabels σ l l') (u : UTables) (x : LexRe)
    (hloc : l.locale = l'.locale) {f f' : List InType} (hf : ∀ c, σ c ∈ f' ↔ c ∈ f) {str : Str}
    (hs : AllOf (· ≠ '\t') (prepare icu l str)) :
    OptAlong (RelabelledToken σ) (getTokens icu u l x f str) (getTokens icu u l' x f' str) := by
  have e : prepare icu l str = prepare icu l' str := by unfold prepare; rw [hloc]
  obtain ⟨rs, last, qs, h1, h2, h3⟩ := rounds_spec u x ((prepare icu l str).length + 2) (prepare icu l str) (by omega)
  have g1 : getTokens icu u l x f str = some (applyFilter f (qs.flatMap (roundTokens u l x))) := by
    rw [getTokens]
    simp only [h1]
    rw [h3 _ (roundTokens_empty u l x)]
  have g2 : getTokens icu u l' x f' str = some (applyFilter f' (qs.flatMap (roundTokens u l' x))) := by
    rw [getTokens, ← e]
    simp only [h1]
    rw [h3 _ (roundTokens_empty u l' x)]
  refine Or.inr ⟨_, _, g1, g2, applyFilter_labels hσ hf (.flat _ fun r hr => roundTokens_labels hσ h u x (hs.sub fun c hc => ?_))⟩
  rw [h2.text]
  exact List.mem_append_left _ (List.mem_flatMap.2 ⟨r, hr, hc⟩)

theorem altOne_labels (hσ : Relabels σ) {l l' : Lexicon} (h : FindsLabels σ l l') (u : UTables) (i : Nat) {ts ts' : List Token}
    (ha : Along (RelabelledToken σ) ts ts') (ht : ∀ t ∈ ts, AllOf (· ≠ '\t') t.text) : ∀ n, OptAlong (RelabelledToken σ)
    (altOne u l i n (ts.map (fun t => (t, splitBlanks false [] t.text))))
    (altOne u l' i n (ts'.map (fun t => (t, splitBlanks false [] t.text)))) := by
  induction ha with
  | nil => intro n; exact Or.inr ⟨[], [], rfl, rfl, .nil⟩
  | @cons t t' ts ts' r _ ih =>
    intro n
    have ih := ih fun t ht' => ht t (List.mem_cons_of_mem _ ht')
    rw [List.map_cons, List.map_cons, altOne, altOne, r.text]
    split
    · exact optAlong_map (ih _) fun _ _ hx => .cons r hx
    · split
      · exact Or.inl ⟨rfl, rfl⟩
      · split
        · exact optAlong_map (ih _) fun _ _ hx => .cons r hx
        · exact optAlong_map (ih _) fun _ _ hx => .append (.mapped _ fun w hw =>
            (wordToken_labels hσ h u (wordsOf_of (ht t List.mem_cons_self) w hw)).1) hx

theorem getAltTokens_labels (hσ : Relabels σ) {l l' : Lexicon} (h : FindsLabels σ l l') (u : UTables) {ts ts' : List Token}
    (ha : Along (RelabelledToken σ) ts ts') (ht : ∀ t ∈ ts, AllOf (· ≠ '\t') t.text) :
    OptAlong (Along (RelabelledToken σ)) (getAltTokens u l ts) (getAltTokens u l' ts') := by
  have hc : ∀ n, countAlts n (ts'.map (fun t => (t, splitBlanks false [] t.text))) =
      countAlts n (ts.map (fun t => (t, splitBlanks false [] t.text))) := by
    clear ht
    induction ha with
    | nil => intro n; rfl
    | cons r _ ih => intro n; rw [List.map_cons, List.map_cons, countAlts, countAlts, r.text, ih]
  unfold getAltTokens
  simp only
  rw [hc]
  split
  · exact Or.inr ⟨_, _, rfl, rfl, .nil⟩
  · split
    · exact Or.inl ⟨rfl, rfl⟩
    · exact mapM_more (fun i => altOne_labels hσ h u i ha ht 0) _

/-- The token lists of an address without tabs. -/
theorem phrasesOf_labels (hσ : Relabels σ) {env : Wrapper.Env F D} (hk : IcuKeeps env.icu '\t') {l l' : Lexicon} (h : FindsLabels σ l l')
    (hx : Wrapper.lexRe env l = Wrapper.lexRe env l') (hloc : l.locale = l'.locale) {filter filter' : Str}
    (hf : ∀ c, σ c ∈ InType.asType filter' ↔ c ∈ InType.asType filter) (locale : Str) {address : Str} (hn : '\t' ∉ address) :
    (Wrapper.phrasesOf env l locale filter address = .undefined ∧ Wrapper.phrasesOf env l' locale filter' address = .undefined) ∨
    ∃ ps ps', Wrapper.phrasesOf env l locale filter address = .ok ps ∧ Wrapper.phrasesOf env l' locale filter' address = .ok ps' ∧
      Along (Along (RelabelledToken σ)) ps ps' := by
  have hprep : AllOf (· ≠ '\t') (prepare env.icu l (env.icu.upper locale (env.icu.norm address))) := by
    rintro _ hc rfl
    exact hk.upper _ _ (hk.norm _ (hk.upper _ _ (hk.norm _ hn))) hc
  unfold Wrapper.phrasesOf
  simp only
  rw [← hx]
  rcases getTokens_labels hσ (icu := env.icu) h env.u (Wrapper.lexRe env l) hloc hf hprep with ⟨h1, h2⟩ | ⟨ts, ts', h1, h2, h3⟩
  · rw [h1, h2]; exact Or.inl ⟨rfl, rfl⟩
  · have ht := getTokens_of (P := (· ≠ '\t')) (by decide) (by decide) hprep h1
    rw [h1, h2]
    simp only
    rcases getAltTokens_labels hσ h env.u h3 (fun t hm => (ht t hm).1) with ⟨k1, k2⟩ | ⟨as, as', k1, k2, k3⟩
    · rw [k1, k2]; exact Or.inl ⟨rfl, rfl⟩
    · rw [k1, k2]; exact Or.inr ⟨_, _, rfl, rfl, .cons h3 k3⟩

/-! ### Patterns -/

theorem picks_labels (hσ : Relabels σ) {ts ts' : List Token} (h : Along (RelabelledToken σ) ts ts') : ∀ cs : List InType,
    Picks (cs.map σ) (ts'.map (·.inclass)) ↔ Picks cs (ts.map (·.inclass)) := by
  induction h with
  | nil =>
    intro cs
    cases cs with
    | nil => exact ⟨fun _ => .nil, fun _ => .nil⟩
    | cons c cs => exact ⟨fun h => (by cases h), fun h => (by cases h)⟩
  | @cons t t' ts ts' r _ ih =>
    intro cs
    cases cs with
    | nil => exact ⟨fun h => (by cases h), fun h => (by cases h)⟩
    | cons c cs =>
      simp only [List.map_cons]
      constructor
      · intro h
        cases h with
        | cons h1 h2 => exact .cons ((r.mem hσ c).1 h1) ((ih cs).1 h2)
      · intro h
        cases h with
        | cons h1 h2 => exact .cons ((r.mem hσ c).2 h1) ((ih cs).2 h2)

theorem sizeProd_labels {ts ts' : List Token} (h : Along (RelabelledToken σ) ts ts') :
    sizeProd (ts'.map (·.inclass)) = sizeProd (ts.map (·.inclass)) := by
  induction h with
  | nil => rfl
  | @cons t t' ts ts' r _ ih =>
    have := r.classes.length_eq
    rw [List.length_map] at this
    rw [List.map_cons, List.map_cons, sizeProd, sizeProd, ih, this]

/-- The standardized tokens but for their classes. -/
theorem standardize_labels {l l' : Lexicon} (h : FindsLabels σ l l') {ts ts' : List Token} (ha : Along (RelabelledToken σ) ts ts') :
    ∀ (is : List InType) (os : List OutType) (std' : List Token), (retag ts' (is.map σ) os).map l'.standardize = std'.map some →
    ∃ std : List Token, (retag ts is os).map l.standardize = std.map some ∧ std.map (fun t => (t.stdtext, t.outclass)) = std'.map (fun t => (t.stdtext, t.outclass)) := by
  induction ha with
  | nil =>
    intro is os std' h
    cases std' with
    | nil => exact ⟨[], rfl, rfl⟩
    | cons a b => simp [retag] at h
  | @cons t t' ts ts' r _ ih =>
    intro is os std' hs
    cases is with
    | nil =>
      cases std' with
      | nil => exact ⟨[], rfl, rfl⟩
      | cons a b => simp [retag] at hs
    | cons i is =>
      cases os with
      | nil =>
        cases std' with
        | nil => exact ⟨[], rfl, rfl⟩
        | cons a b => simp [retag] at hs
      | cons o os =>
        rw [List.map_cons, retag, List.map_cons] at hs
        cases std' with
        | nil => simp at hs
        | cons a b =>
          simp only [List.map_cons, List.cons.injEq] at hs
          obtain ⟨std, k1, k2⟩ := ih is os b hs.2
          have h1 := hs.1
          have hkey : ∃ a0 : Token, l.standardize { t with inclass := [i], outclass := o } = some a0 ∧ a0.stdtext = a.stdtext ∧ a0.outclass = a.outclass := by
            rw [r.rest] at h1
            unfold Lexicon.standardize at h1 ⊢
            simp only [h.standard] at h1 ⊢
            cases hq : Lexicon.stdLoop [i] (l.find t.text) with
            | none => rw [hq] at h1; cases h1
            | some q =>
              rw [hq] at h1
              simp only [Option.some.injEq] at h1 ⊢
              refine ⟨_, rfl, ?_⟩
              rw [← h1]
              cases q <;> simp only <;> split <;> exact ⟨rfl, rfl⟩
          obtain ⟨a0, e1, e2, e3⟩ := hkey
          refine ⟨a0 :: std, ?_, ?_⟩
          · rw [retag, List.map_cons, List.map_cons, e1, k1]
          · rw [List.map_cons, List.map_cons, k2, e2, e3]

theorem wordsFor_labels (f : Wrapper.Field) : ∀ {ts ts' : List Token},
    ts.map (fun t => (t.stdtext, t.outclass)) = ts'.map (fun t => (t.stdtext, t.outclass)) → Wrapper.wordsFor f ts = Wrapper.wordsFor f ts'
  | [], [], _ => rfl
  | [], _ :: _, h => by simp at h
  | _ :: _, [], h => by simp at h
  | t :: ts, t' :: ts', h => by
    simp only [List.map_cons, List.cons.injEq, Prod.mk.injEq] at h
    have ih := wordsFor_labels f h.2
    unfold Wrapper.wordsFor at ih ⊢
    rw [List.filter_cons, List.filter_cons, h.1.2]
    split
    · rw [List.map_cons, List.map_cons, ih, h.1.1]
    · exact ih

end AS
