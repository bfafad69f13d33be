import Verif.Spec.Again
import Verif.Props.Further
import Verif.Props.Country
/-
C111: standardizing an address that has been standardized.
-/
namespace AS.Props
open AS AS.Tokenizer AS.Wrapper
variable {F D : Type}

/-! ### Fewer classes -/

theorem retag_inj : ∀ {ts : List Token} {is is' : List InType} {os os' : List OutType}, is.length = ts.length → os.length = ts.length →
    is'.length = ts.length → os'.length = ts.length → retag ts is os = retag ts is' os' → is = is' ∧ os = os'
  | [], [], [], [], [], _, _, _, _, _ => ⟨rfl, rfl⟩
  | t :: ts, i :: is, i' :: is', o :: os, o' :: os', h1, h2, h3, h4, h => by
    simp only [retag, List.cons.injEq, Token.mk.injEq, and_true, true_and] at h
    obtain ⟨k1, k2⟩ := retag_inj (by simpa using h1) (by simpa using h2) (by simpa using h3) (by simpa using h4) h.2
    exact ⟨by rw [k1, h.1.1], by rw [k2, h.1.2]⟩

theorem sub_filter {cs ds : List InType} (hc : IsSet InType.code cs) (hd : IsSet InType.code ds) (h : ∀ d ∈ ds, d ∈ cs) :
    ds = cs.filter (fun c => decide (c ∈ ds)) := by
  refine IsSet.ext hd (List.Pairwise.filter _ hc) fun c => ?_
  simp only [List.mem_filter, decide_eq_true_eq]
  exact ⟨fun k => ⟨h c k, k⟩, fun k => k.2⟩

/-- The tokens with other classes. -/
def withClasses (ts : List Token) (dss : List (List InType)) : List Token := (ts.zip dss).map (fun p => { p.1 with inclass := p.2 })

theorem withClasses_more : ∀ {ts : List Token} {dss : List (List InType)}, (∀ t ∈ ts, IsSet InType.code t.inclass) →
    (∀ ds ∈ dss, IsSet InType.code ds) → Along (fun cs ds => ∀ d ∈ ds, d ∈ cs) (ts.map (·.inclass)) dss →
    Along (MoreToken (fun _ _ => True)) (withClasses ts dss) ts ∧ (withClasses ts dss).map (·.inclass) = dss
  | [], [], _, _, _ => ⟨.nil, rfl⟩
  | [], _ :: _, _, _, h => by cases h
  | _ :: _, [], _, _, h => by cases h
  | t :: ts, ds :: dss, h1, h2, h => by
    cases h with
    | cons r h =>
      obtain ⟨k1, k2⟩ := withClasses_more (fun t ht => h1 t (List.mem_cons_of_mem _ ht)) (fun d hd => h2 d (List.mem_cons_of_mem _ hd)) h
      refine ⟨.cons ⟨rfl, ?_, fun _ _ => Or.inr trivial⟩ k1, ?_⟩
      · exact sub_filter (h1 t (by simp)) (h2 ds (by simp)) r
      · simp only [withClasses, List.zip_cons_cons, List.map_cons] at k2 ⊢
        rw [k2]

/-- The best match is found also for tokens that have the classes it takes, and fewer others. -/
theorem best_fewer {fo : FloatOps F} {nan : F → Prop} (nl : NanLaws fo nan) (hm1 : fo.lt (fo.ofInt (-1)) fo.zero = true) {g : Grammar F}
    (wf : WfGrammar g) (hb : Balanced g) (hr : HasRoot g) {ts ts' : List Token} (h : Along (MoreToken (fun _ _ => True)) ts' ts)
    (hsize : sizeProd (ts.map (·.inclass)) < 2 ^ 32) {r : BestResult F} (hbest : searchAndReclassBest g fo ts = .ok r)
    {is : List InType} {os : List OutType} (hi : is.length = ts.length) (ho : os.length = ts.length) (ht : r.tokens = retag ts is os)
    (hp : Picks is (ts'.map (·.inclass))) : searchAndReclassBest g fo ts' = .ok r := by
  obtain ⟨l', hl'⟩ := search_root wf hr ts
  obtain ⟨P, h1, hl⟩ := found_fewer wf h hsize hl'
  obtain ⟨r1, r2, k1, k2, _, _, k5⟩ := one_choice (K := fun p => Picks (inputs p.rules) (ts'.map (·.inclass))) nl hm1 wf wf hb hb hl hl'
    (fun q hq => ⟨q, (List.mem_filter.1 hq).1, Or.inr (.refl _)⟩)
    (fun u' p' v' e' hk => by
      refine ⟨u'.filter (fun p => P (inputs p.rules)), v'.filter (fun p => P (inputs p.rules)), ?_, ?_⟩
      · have hp' : p' ∈ l' := by rw [e']; simp
        have hpk := (found_picks wf ts hl' p' hp').1
        rw [e', List.filter_append, List.filter_cons_of_pos]
        exact (h1 _ hpk).2 hk
      · intro q hq
        exact ⟨q, (List.mem_filter.1 hq).1, Or.inr (.refl _)⟩)
    (fun p _ _ => retag_more h _ _)
  rw [hbest] at k2; cases k2
  rcases k5 with ⟨k5, _⟩ | ⟨p, hpl, hk, hrep⟩
  · rw [k1, k5]
  · exfalso
    obtain ⟨b1, b2, _⟩ := search_balanced wf hb _ ts l' hl' p hpl
    have l1 := picks_length b2
    rw [List.length_map] at l1
    have l2 : (outputs p.rules).length = ts.length := by rw [outputs_length _ b1, l1]
    have e := ht.symm.trans hrep.1
    obtain ⟨e, _⟩ := retag_inj hi ho l1 l2 e
    exact hk (e ▸ hp)

/-! ### The words -/

/-- The classes an address was taken in; another one whose words have these classes, and no others than the words in the same places
of the first, is taken in them too. The lexicons, too, may differ. -/
theorem C111_narrowed (env : Env F D) {nan : F → Prop} (laws : NanLaws env.fo nan) (signs : SignLaws env.fo)
    (h0 : env.fo.le0 env.fo.zero = true) (hread : ReadsPatterns env) (text locale filter address grammar : Str)
    (es : List LexEntry) (cls : Str → List InType) (kept : List Str) (h : PlainAddress env text locale filter address es cls kept)
    (hsize : sizeProd (kept.map cls) < 2 ^ 32) (a : StdAddr) (err : Option Str)
    (hs : stdStandardize env address grammar text locale filter = some ⟨some a, err⟩) :
    ∃ is os, Picks is (kept.map cls) ∧ os.length = kept.length ∧ (∀ f, a.get f = asField (fieldWords es f kept is os)) ∧
      ∀ (text' locale' filter' address' : Str) (es' : List LexEntry) (cls' : Str → List InType) (kept' : List Str),
        PlainAddress env text' locale' filter' address' es' cls' kept' → NarrowedTo is (kept.map cls) (kept'.map cls') →
        ∃ a', stdStandardize env address' grammar text' locale' filter' = some ⟨some a', none⟩ ∧ a'.pattern = a.pattern ∧
          ∀ f, a'.get f = asField (fieldWords es' f kept' is os) := by
  obtain ⟨h1, h2, h3, hd, vs, h4, h5, h6, hkept⟩ := h
  obtain ⟨l, k1, k2, inlex, k3⟩ := phrases_plain hread h1 h4 h2 h3 h5 h6
  rw [← hkept] at k3
  have hset : ∀ t ∈ kept.map (fun v => ({ text := v, inclass := cls v, inlex := inlex v } : Token)), IsSet InType.code t.inclass := by
    intro t ht
    obtain ⟨v, hv, rfl⟩ := List.mem_map.1 ht
    rw [hkept] at hv
    exact (h6 v (List.mem_filter.1 hv).1).2.1
  have hcl0 : (kept.map (fun v => ({ text := v, inclass := cls v, inlex := inlex v } : Token))).map (·.inclass) = kept.map cls := by
    rw [List.map_map]; rfl
  unfold stdStandardize at hs ⊢
  cases hg : loadGrammar env grammar with
  | undefined => rw [hg] at hs; cases hs
  | throws m => rw [hg] at hs; simp at hs
  | ok g =>
  have hinit : Grammar.initialize env.u.toCharTables env.fo grammar = .ok g := by
    unfold loadGrammar at hg
    split at hg
    · next g' e => cases hg; exact e
    · cases hg
  obtain ⟨wf, hb, hr⟩ := C29_constructed_wf _ env.fo h0 grammar g hinit
  rw [hg, k1] at hs
  simp only at hs ⊢
  unfold standardizeAddr at hs
  rw [k3] at hs
  unfold standardizeAddrWith searchAndReclassBestOf at hs
  simp only [bestPhrases] at hs
  rcases best_classes wf hb env.fo (ts := kept.map (fun v => ({ text := v, inclass := cls v, inlex := inlex v } : Token))) rfl with
    ⟨e1, _⟩ | ⟨m, e1, _⟩ | ⟨r, r', e1, e2, _, _, e5⟩
  · rw [e1] at hs; cases hs
  · rw [e1] at hs; simp at hs
  · rw [e1] at hs e2
    cases e2
    simp only at hs
    split at hs
    · next hge0 =>
      simp only at hs
      split at hs
      · next hge =>
        rcases e5 with ⟨_, _, e5⟩ | ⟨is, os, p1, p2, p3, _, p5⟩
        · rw [e5, signs.neg_ge] at hge; cases hge
        · obtain ⟨std, s1, s2⟩ := standardize_words (cls := cls) (inlex := inlex) k2 kept is os
          rw [← p3] at s1
          obtain ⟨x, hx, hf⟩ := collect_fields l r.tokens std (r.matched.getD []) s1
          rw [hx] at hs
          simp only at hs
          split at hs
          · next hal =>
            simp only [Option.some.injEq, Ret.mk.injEq] at hs
            obtain ⟨rfl, rfl⟩ := hs
            have p1' := p1
            rw [hcl0] at p1'
            refine ⟨is, os, p1', by simpa using p2, fun f => ?_, ?_⟩
            · rw [Option.getD_some, hf f, s2]; rfl
            · intro text' locale' filter' address' es' cls' kept' h' hn
              obtain ⟨h1', h2', h3', hd', vs', h4', h5', h6', hkept'⟩ := h'
              obtain ⟨l', k1', k2', inlex', k3'⟩ := phrases_plain hread h1' h4' h2' h3' h5' h6'
              rw [← hkept'] at k3'
              have hset' : ∀ ds ∈ kept'.map cls', IsSet InType.code ds := by
                intro ds hds
                obtain ⟨v, hv, rfl⟩ := List.mem_map.1 hds
                rw [hkept'] at hv
                exact (h6' v (List.mem_filter.1 hv).1).2.1
              obtain ⟨m1, m2⟩ := withClasses_more hset hset' (by rw [hcl0]; exact hn.2)
              have l1 := picks_length p1
              rw [List.length_map] at l1
              have hbest := best_fewer laws signs.neg_lt wf hb hr m1 (by rw [hcl0]; exact hsize) e1 l1 p2 p3 (by rw [m2]; exact hn.1)
              have hcl : (kept'.map (fun v => ({ text := v, inclass := cls' v, inlex := inlex' v } : Token))).map (·.inclass) =
                  (withClasses (kept.map (fun v => ({ text := v, inclass := cls v, inlex := inlex v } : Token))) (kept'.map cls')).map (·.inclass) := by
                rw [m2, List.map_map]; rfl
              rw [k1']
              simp only
              unfold standardizeAddr
              rw [k3']
              unfold standardizeAddrWith searchAndReclassBestOf
              simp only [bestPhrases]
              rcases best_classes wf hb env.fo hcl with ⟨q1, _⟩ | ⟨m, q1, _⟩ | ⟨r1, r2, q1, q2, q3, q4, q5⟩
              · rw [hbest] at q1; cases q1
              · rw [hbest] at q1; cases q1
              · rw [hbest] at q1; cases q1
                rw [q2]
                simp only [q3, q4, if_pos hge0, if_pos hge]
                rcases q5 with ⟨_, _, q5⟩ | ⟨is', os', t1, t2, t3, t4, t5⟩
                · rw [q5, signs.neg_ge] at hge; cases hge
                · have el : (withClasses (kept.map (fun v => ({ text := v, inclass := cls v, inlex := inlex v } : Token)))
                      (kept'.map cls')).length = (kept.map (fun v => ({ text := v, inclass := cls v, inlex := inlex v } : Token))).length :=
                    m1.length_eq
                  have l2 := picks_length t1
                  rw [List.length_map] at l2
                  rw [← retag_more m1] at p3
                  obtain ⟨rfl, rfl⟩ := retag_inj l2 t2 (l1.trans el.symm) (p2.trans el.symm) (t3.symm.trans p3)
                  obtain ⟨std', s1', s2'⟩ := standardize_words (cls := cls') (inlex := inlex') k2' kept' is' os'
                  rw [← t4] at s1'
                  obtain ⟨x', hx', hf'⟩ := collect_fields l' r2.tokens std' (r.matched.getD []) s1'
                  rw [hx']
                  simp only [if_pos hal]
                  refine ⟨_, rfl, rfl, fun f => ?_⟩
                  rw [Option.getD_some, hf' f, s2']; rfl
          · cases hs
      · cases hs
    · next hge0 =>
      simp only [signs.neg_ge] at hs
      cases hs

theorem addr_ext {a b : StdAddr} (hp : a.pattern = b.pattern) (h : ∀ f, a.get f = b.get f) : a = b := by
  have := h .building; have := h .houseNum; have := h .predir; have := h .qual; have := h .pretype; have := h .name
  have := h .suftype; have := h .sufdir; have := h .ruralroute; have := h .extra; have := h .city; have := h .prov
  have := h .country; have := h .postcode; have := h .box; have := h .unit
  cases a; cases b
  simp only [StdAddr.get] at *
  simp [*]

theorem standardWord_cases (es : List LexEntry) (v : Str) (c : InType) : standardWord es v c = v ∨
    ∃ s, standardOf es v c = some s ∧ s ≠ [] ∧ standardWord es v c = s := by
  unfold standardWord
  cases standardOf es v c with
  | none => exact Or.inl rfl
  | some s =>
    cases s with
    | nil => exact Or.inl rfl
    | cons d s => exact Or.inr ⟨_, rfl, by simp, rfl⟩

/-- The standard word of a settled standard word is itself. -/
theorem standardWord_again {es : List LexEntry} {v : Str} {c : InType} (h : SettledAt es v c) :
    standardWord es (standardWord es v c) c = standardWord es v c := by
  rcases standardWord_cases es v c with e | ⟨s, h1, h2, e⟩
  · rw [e, e]
  · rw [e]
    rcases (h s h1 h2).1 with k | k
    · unfold standardWord
      rw [k]
      cases s <;> rfl
    · unfold standardWord
      rw [k]

/-- It has the class, and no class that the word does not have. -/
theorem classOf_again {u : UTables} {es : List LexEntry} {v : Str} {c : InType} (h : SettledAt es v c) (hc : ClassOf u es .WORD v c) :
    ClassOf u es .WORD (standardWord es v c) c ∧ ∀ d, ClassOf u es .WORD (standardWord es v c) d → ClassOf u es .WORD v d := by
  rcases standardWord_cases es v c with e | ⟨s, h1, h2, e⟩
  · rw [e]; exact ⟨hc, fun _ h => h⟩
  · rw [e]
    obtain ⟨k1, k2⟩ := h s h1 h2
    have k3 : standardOf es s c ≠ none := by rcases k1 with k | k <;> rw [k] <;> simp
    refine ⟨Or.inl k3, fun d hd => ?_⟩
    rcases hd with hd | hd
    · exact Or.inl (k2 d hd)
    · exact absurd (hd.1 c) k3

theorem narrowed_again {u : UTables} {es : List LexEntry} {cls cls' : Str → List InType} : ∀ {vs : List Str} {is : List InType},
    Along (SettledAt es) vs is → Picks is (vs.map cls) → (∀ v ∈ vs, ∀ c, c ∈ cls v ↔ ClassOf u es .WORD v c) →
    (∀ w ∈ standardized es vs is, ∀ c, c ∈ cls' w ↔ ClassOf u es .WORD w c) →
    NarrowedTo is (vs.map cls) ((standardized es vs is).map cls')
  | [], [], _, _, _, _ => ⟨.nil, .nil⟩
  | v :: vs, i :: is, .cons hs h, hp, h1, h2 => by
    cases hp with
    | cons hi hp =>
      have e : standardized es (v :: vs) (i :: is) = standardWord es v i :: standardized es vs is := rfl
      rw [e] at h2 ⊢
      have hv := (h1 v (by simp))
      have hw := (h2 (standardWord es v i) (by simp))
      obtain ⟨k1, k2⟩ := classOf_again hs ((hv i).1 hi)
      obtain ⟨ih1, ih2⟩ := narrowed_again h hp (fun v m => h1 v (List.mem_cons_of_mem _ m)) (fun w m => h2 w (List.mem_cons_of_mem _ m))
      exact ⟨.cons ((hw i).2 k1) ih1, .cons (fun d hd => (hv d).2 (k2 d ((hw d).1 hd))) ih2⟩

theorem fieldWords_again {es : List LexEntry} (f : Field) : ∀ {vs : List Str} {is : List InType} (os : List OutType),
    Along (SettledAt es) vs is → fieldWords es f (standardized es vs is) is os = fieldWords es f vs is os
  | [], [], _, _ => rfl
  | v :: vs, i :: is, [], _ => rfl
  | v :: vs, i :: is, o :: os, .cons hs h => by
    have e : standardized es (v :: vs) (i :: is) = standardWord es v i :: standardized es vs is := rfl
    rw [e, fieldWords, fieldWords, standardWord_again hs, fieldWords_again f os h]

/-- None of the standard words is left out by the filter. -/
theorem kept_again {filter : Str} {cls cls' : Str → List InType} : ∀ {vs ws : List Str},
    (∀ v ∈ vs, ∀ c ∈ cls v, ¬ FilterNames filter c) → Along (fun cs ds => ∀ d ∈ ds, d ∈ cs) (vs.map cls) (ws.map cls') →
    ws = ws.filter (fun w => ∀ c ∈ cls' w, ¬ FilterNames filter c)
  | [], [], _, _ => rfl
  | [], _ :: _, _, h => by cases h
  | _ :: _, [], _, h => by cases h
  | v :: vs, w :: ws, h1, .cons hs h => by
    rw [List.filter_cons_of_pos, ← kept_again (fun v m => h1 v (List.mem_cons_of_mem _ m)) h]
    rw [decide_eq_true_eq]
    exact fun c hc => h1 v (by simp) c (hs c hc)

/-- An address was standardized, and the standard words of the words kept, in the classes they were taken in, are settled. Then an
address that is read as these standard words is standardized to the same. -/
theorem C111_again (env : Env F D) {nan : F → Prop} (laws : NanLaws env.fo nan) (signs : SignLaws env.fo)
    (h0 : env.fo.le0 env.fo.zero = true) (hread : ReadsPatterns env) (text h : Str) (es : List LexEntry)
    (ha : env.archive text = .notArchive) (ht : LexText env.icu text h es)
    (hp : ∀ e ∈ es, ∀ c ∈ e.word, c ∉ unescaped ∧ env.u.canon c = c) (hne : ∃ e ∈ es, e.word ≠ [])
    (locale filter address grammar : Str) (vs kept : List Str) (cls : Str → List InType)
    (hw : InWords env.u es filter (textFor env locale (headerLocale h) address) vs) (hc : ClassLists env.u es vs cls)
    (hkept : kept = vs.filter (fun v => ∀ c ∈ cls v, ¬ FilterNames filter c))
    (hsize : sizeProd (kept.map cls) < 2 ^ 32) (a : StdAddr) (err : Option Str)
    (hs : stdStandardize env address grammar text locale filter = some ⟨some a, err⟩) :
    ∃ is os, Picks is (kept.map cls) ∧ os.length = kept.length ∧ (∀ f, a.get f = asField (fieldWords es f kept is os)) ∧
      (Along (SettledAt es) kept is → ∀ address',
        InWords env.u es filter (textFor env locale (headerLocale h) address') (standardized es kept is) →
        stdStandardize env address' grammar text locale filter = some ⟨some a, none⟩) := by
  obtain ⟨is, os, k1, k2, k3, k4⟩ := C111_narrowed env laws signs h0 hread text locale filter address grammar es cls kept
    ⟨ha, hp, hne, h, vs, ht, hw, hc, hkept⟩ hsize a err hs
  refine ⟨is, os, k1, k2, k3, fun hset address' hw' => ?_⟩
  obtain ⟨cls', hc'⟩ := C107_classes env hread text h es ha ht hp filter _ _ hw'
  have hn : NarrowedTo is (kept.map cls) ((standardized es kept is).map cls') := by
    refine narrowed_again (u := env.u) hset k1 (fun v hv => ?_) fun w hm => (hc' w hm).2.2
    rw [hkept] at hv
    exact (hc v (List.mem_filter.1 hv).1).2.2
  obtain ⟨a', e1, e2, e3⟩ := k4 text locale filter address' es cls' (standardized es kept is)
    ⟨ha, hp, hne, h, _, ht, hw', hc', kept_again (fun v hv => by
      rw [hkept] at hv
      simpa using (List.mem_filter.1 hv).2) hn.2⟩ hn
  rw [e1, addr_ext e2 fun f => by rw [e3, k3, fieldWords_again f os hset]]

/-- If all standard words are settled, the standard words may be written with single spaces between them: every such address that
is standardized is standardized to the same again, if the standard words are words without blanks in which no expression of several words
occurs. -/
theorem C111_settled (env : Env F D) {nan : F → Prop} (laws : NanLaws env.fo nan) (signs : SignLaws env.fo)
    (h0 : env.fo.le0 env.fo.zero = true) (hread : ReadsPatterns env) (text h : Str) (es : List LexEntry)
    (ha : env.archive text = .notArchive) (ht : LexText env.icu text h es)
    (hp : ∀ e ∈ es, ∀ c ∈ e.word, c ∉ unescaped ∧ env.u.canon c = c) (hne : ∃ e ∈ es, e.word ≠ []) (hset : Settled es)
    (locale filter address grammar : Str) (hf : FilterNames filter .SPACE)
    (hsp : env.u.isWord ' ' = false ∧ env.u.isWord (env.u.fold ' ') = false ∧ env.u.canon ' ' = ' ')
    (vs kept : List Str) (cls : Str → List InType)
    (hw : InWords env.u es filter (textFor env locale (headerLocale h) address) vs) (hc : ClassLists env.u es vs cls)
    (hkept : kept = vs.filter (fun v => ∀ c ∈ cls v, ¬ FilterNames filter c))
    (hsize : sizeProd (kept.map cls) < 2 ^ 32) (a : StdAddr) (err : Option Str)
    (hs : stdStandardize env address grammar text locale filter = some ⟨some a, err⟩) :
    ∃ is os, Picks is (kept.map cls) ∧ os.length = kept.length ∧ (∀ f, a.get f = asField (fieldWords es f kept is os)) ∧
      ((∀ w ∈ standardized es kept is, (Familiar env.u es w ∨ Unknown env.u es w) ∧ (∃ c, w.getLast? = some c ∧ ¬ SepChar env.u c) ∧
          ∀ c ∈ w, lineSeparator c = false) →
        (∀ e ∈ es, ' ' ∈ e.word → ¬ e.word <:+: (joinWith c!" " (standardized es kept is)).map env.u.canon) →
        ∀ address', textFor env locale (headerLocale h) address' = joinWith c!" " (standardized es kept is) →
        stdStandardize env address' grammar text locale filter = some ⟨some a, none⟩) := by
  obtain ⟨is, os, k1, k2, k3, k4⟩ := C111_again env laws signs h0 hread text h es ha ht hp hne locale filter address grammar vs kept cls
    hw hc hkept hsize a err hs
  refine ⟨is, os, k1, k2, k3, fun hv he address' e => k4 ?_ address' ?_⟩
  · have hl : kept.length = is.length := by
      have := picks_length k1
      rw [List.length_map] at this
      exact this.symm
    clear k1 k2 k3 k4 hv he e hsize hkept
    induction kept generalizing is with
    | nil => cases is with
      | nil => exact .nil
      | cons => cases hl
    | cons v kept ih => cases is with
      | nil => cases hl
      | cons i is => exact .cons (hset v i) (ih is (by simpa using hl))
  · rw [e]
    exact joined_whole env.u es filter hf hsp _ he hv

/-- Whether the standard words of the entries are settled. -/
def settledCheck (es : List LexEntry) : Bool :=
  es.all fun e => e.type.all fun c =>
    match standardOf es e.word c with
    | none => true
    | some [] => true
    | some (x :: s) => (decide (standardOf es (x :: s) c = some (x :: s)) || decide (standardOf es (x :: s) c = some [])) &&
        es.all fun e' => !decide (e'.word = x :: s) || e'.type.all fun d => (standardOf es e.word d).isSome

theorem standardOf_mem {es : List LexEntry} {v : Str} {c : InType} (h : standardOf es v c ≠ none) : ∃ e ∈ es, e.word = v ∧ c ∈ e.type := by
  rw [← Option.isSome_iff_ne_none, standardOf_some] at h
  exact h

theorem settled_of_check {es : List LexEntry} (h : settledCheck es = true) : Settled es := by
  intro v c s hs hne
  obtain ⟨e, he, rfl, hc⟩ := standardOf_mem (es := es) (v := v) (c := c) (by rw [hs]; simp)
  have := List.all_eq_true.1 (List.all_eq_true.1 h e he) c hc
  rw [hs] at this
  cases s with
  | nil => exact absurd rfl hne
  | cons x s =>
    simp only [Bool.and_eq_true, Bool.or_eq_true, decide_eq_true_eq] at this
    refine ⟨this.1, fun d hd => ?_⟩
    obtain ⟨e', he', hw, hd'⟩ := standardOf_mem hd
    have k := List.all_eq_true.1 this.2 e' he'
    simp only [hw, decide_true, Bool.not_true, Bool.false_or] at k
    have := List.all_eq_true.1 k d hd'
    rwa [Option.isSome_iff_ne_none] at this

/-- If a standard word is not listed, the standardized address need not be standardized: `12 MAIN STR` becomes `12 MAIN STRASSE`, and that
is not matched. -/
theorem C111_unsettled : ∃ (env : Env Rat Rat) (text h : Str) (es : List LexEntry) (grammar locale filter address address' : Str) (a : StdAddr),
    ReadsPatterns env ∧ env.archive text = .notArchive ∧ LexText env.icu text h es ∧
    (∀ e ∈ es, ∀ c ∈ e.word, c ∉ unescaped ∧ env.u.canon c = c) ∧ ¬ Settled es ∧
    stdStandardize env address grammar text locale filter = some ⟨some a, none⟩ ∧
    a.house_num = some c!"12" ∧ a.name = some c!"MAIN" ∧ a.suftype = some c!"STRASSE" ∧ address' = c!"12 MAIN STRASSE" ∧
    stdStandardize env address' grammar text locale filter = some ⟨none, none⟩ := by
  refine ⟨readingEnv, synText, _, synEntries, unlines [c!"[ADDRESS]", c!"NUMBER WORD TYPE -> HOUSE STREET SUFTYP -> 0.4"], c!"en", c!"SPACE",
    c!"12 MAIN STR", _, { house_num := some c!"12", name := some c!"MAIN", suftype := some c!"STRASSE", pattern := some c!"NUMBER WORD TYPE -> HOUSE STREET SUFTYP" },
    readingEnv_reads, rfl, synText_means, syn_plain, ?_, ?_, rfl, rfl, rfl, rfl, ?_⟩
  · intro hset
    rcases (hset c!"STR" .TYPE c!"STRASSE" (by decide +kernel) (by decide)).1 with k | k <;> revert k <;> decide +kernel
  all_goals (rw [(reading_syn _ _ _ _).1]; decide +kernel)

/-! ### An example -/

def eSt : LexEntry := ⟨c!"ST", c!"STREET", [.TYPE], []⟩
def eStt : LexEntry := ⟨c!"STREET", c!"STREET", [.TYPE], []⟩

/-- A lexicon whose standard words are settled. -/
def settledText : Str := unlines [c!"LEXICON:\tT\tENG\ten\t2", c!"LEXENTRY:\tST\tSTREET\tTYPE\t", c!"LEXENTRY:\tSTREET\tSTREET\tTYPE\t"]

theorem settledText_means : LexText asciiIcu settledText c!"LEXICON:\tT\tENG\ten\t2" [eSt, eStt] := by
  refine ⟨_, _, c!"LEXICON:\tT\tENG\ten\t2", _, rfl, .plain (by decide), ⟨[], rfl, by decide, by decide⟩, by decide, by decide +kernel, ?_⟩
  exact .entry (l := c!"LEXENTRY:\tST\tSTREET\tTYPE\t") (Or.inl (by decide)) (by decide +kernel)
      (.entry (l := c!"LEXENTRY:\tSTREET\tSTREET\tTYPE\t") (Or.inl (by decide)) (by decide +kernel) (.blank .nil))

theorem settled_example : Settled [eSt, eStt] := settled_of_check (by decide +kernel)

def settledRe : LexRe := ⟨readOf ((trieOf ([eSt, eStt].map (·.word))).getRegexp.map asciiU.canon), readOf (trieOf []).getRegexp,
  readOf (trieOf []).getRegexp⟩

def settledEnv : Env Rat Rat := { exEnv with compile := fun _ _ _ => settledRe }

theorem load_settled (text : Str) : loadLexicon readingEnv text = loadLexicon settledEnv text := rfl

theorem settled_plain : ∀ e ∈ [eSt, eStt], ∀ c ∈ e.word, c ∉ unescaped ∧ asciiU.canon c = c := by decide +kernel

theorem reading_settled (address grammar locale filter : Str) :
    stdStandardize readingEnv address grammar settledText locale filter = stdStandardize settledEnv address grammar settledText locale filter := by
  obtain ⟨l, h1, h2, H, C⟩ := loadLexicon_text (env := readingEnv) (text := settledText) rfl settledText_means
  have hpl : PlainLexicon asciiU l := plain_of H settled_plain
  have h3 : loadLexicon settledEnv settledText = .ok l := (load_settled settledText).symm.trans h1
  have hs : (lexRe settledEnv l).For asciiU l := by
    have : outcomeIs (loadLexicon settledEnv settledText) (fun l => l.lex = [(c!"ST", [eSt]), (c!"STREET", [eStt])]) = true := by decide +kernel
    obtain ⟨l', h4, h5⟩ := of_outcomeIs this
    rw [h3] at h4; cases h4
    have h5 : l.lex = [(c!"ST", [eSt]), (c!"STREET", [eStt])] := by simpa using h5
    have : settledRe.For asciiU { lex := [(c!"ST", [eSt]), (c!"STREET", [eStt])] } :=
      ⟨reads_readOf (by decide +kernel), reads_readOf (by decide +kernel), reads_readOf (by decide +kernel)⟩
    unfold LexRe.For at this ⊢
    rw [h5]
    exact this
  have hx := for_unique (lexRe_for readingEnv_reads hpl C) hs
  unfold stdStandardize
  rw [h1, h3]
  simp only
  unfold standardizeAddr phrasesOf
  rw [hx]
  rfl

theorem settled_words : ∀ v, v = c!"12" ∨ v = c!"MAIN" ∨ v = c!"ST" ∨ v = c!"STREET" →
    (Familiar asciiU [eSt, eStt] v ∨ Unknown asciiU [eSt, eStt] v) ∧ (∃ c, v.getLast? = some c ∧ ¬ SepChar asciiU c) ∧
      ∀ c ∈ v, lineSeparator c = false := by
  rintro v (rfl | rfl | rfl | rfl)
  · refine ⟨Or.inr (C100_numbers asciiU [eSt, eStt] c!"12" c!"12" ?_ (Or.inl rfl)).left, ⟨'2', rfl, by decide⟩, by decide⟩
    rintro z (rfl | rfl) <;> exact ⟨by decide, by decide +kernel, by decide +kernel, ascii_noPrefix _ (by decide +kernel) _, noSuffix_none _ (by decide +kernel) _⟩
  · refine ⟨Or.inr (C100_letters asciiU [eSt, eStt] c!"MAIN" c!"MAIN" ?_ (Or.inl rfl)).left, ⟨'N', rfl, by decide⟩, by decide⟩
    rintro z (rfl | rfl) <;> exact ⟨by decide, by decide +kernel, by decide +kernel, ascii_noPrefix _ (by decide +kernel) _, noSuffix_none _ (by decide +kernel) _⟩
  · exact ⟨Or.inl ⟨⟨'S', rfl, by decide⟩, ⟨.TYPE, by decide +kernel⟩, by decide⟩, ⟨'T', rfl, by decide⟩, by decide⟩
  · exact ⟨Or.inl ⟨⟨'S', rfl, by decide⟩, ⟨.TYPE, by decide +kernel⟩, by decide⟩, ⟨'T', rfl, by decide⟩, by decide⟩

/-- The address is read as its words, the address standardized as their standard words. -/
example : InWords readingEnv.u [eSt, eStt] c!"SPACE" (textFor readingEnv c!"en" (headerLocale c!"LEXICON:\tT\tENG\ten\t2") c!"12 Main St")
      [c!"12", c!"MAIN", c!"ST"] ∧
    InWords readingEnv.u [eSt, eStt] c!"SPACE" (textFor readingEnv c!"en" (headerLocale c!"LEXICON:\tT\tENG\ten\t2") c!"12 Main Street")
      (standardized [eSt, eStt] [c!"12", c!"MAIN", c!"ST"] [.NUMBER, .WORD, .TYPE]) := by
  have h : ∀ vs : List Str, (∀ v ∈ vs, v = c!"12" ∨ v = c!"MAIN" ∨ v = c!"ST" ∨ v = c!"STREET") →
      InWords asciiU [eSt, eStt] c!"SPACE" (joinWith c!" " vs) vs := fun vs hv =>
    joined_whole asciiU [eSt, eStt] c!"SPACE" (by decide +kernel) (by decide +kernel) _
      (fun e he hs => absurd hs (by revert e; decide +kernel)) fun v hm => settled_words v (hv v hm)
  exact ⟨h [c!"12", c!"MAIN", c!"ST"] (by decide), h [c!"12", c!"MAIN", c!"STREET"] (by decide)⟩

/-- What the address, and the address standardized, give. -/
example : let g := unlines [c!"[ADDRESS]", c!"NUMBER WORD TYPE -> HOUSE STREET SUFTYP -> 0.4"]
    let a : StdAddr := { house_num := some c!"12", name := some c!"MAIN", suftype := some c!"STREET", pattern := some c!"NUMBER WORD TYPE -> HOUSE STREET SUFTYP" }
    stdStandardize readingEnv c!"12 Main St" g settledText c!"en" c!"SPACE" = some ⟨some a, none⟩ ∧
    stdStandardize readingEnv c!"12 MAIN STREET" g settledText c!"en" c!"SPACE" = some ⟨some a, none⟩ := by
  intro g a
  rw [reading_settled, reading_settled]
  decide +kernel

end AS.Props
