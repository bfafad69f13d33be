import Verif.Spec.Slack
import Verif.Props.Mirror
import Verif.Props.Whole
/-
Properties C79 and C80: which grammars are searched completely; which fields a grammar fills.
-/
namespace AS.Props
open AS AS.Wrapper
variable {F D : Type}

/-! ## C79 -/

/-- The number of meta rules of a derivation exceeds the number of its classes by at most the bound. -/
theorem C79_bound {G : Grammar F} {e : Str → Int} (h : Slack G.metaNames G.ruleSections e) {ss : List Str}
    {rs : List (Rule F)} {m : Nat} (hd : Derives G ss rs m) :
    (m : Int) - ((inputs rs).length : Int) ≤ (ss.map e).sum := by
  induction hd with
  | done => simp [inputs]
  | @rule s ss sec r rs m h1 h2 h3 _ ih =>
    have := h.1 (sec.name, sec.rules) (List.mem_map.2 ⟨sec, h1, rfl⟩) r h3
    simp only [h2] at this
    simp only [inputs, List.flatMap_cons, List.length_append, List.map_cons, List.sum_cons] at ih ⊢
    omega
  | @expand s ss sec refs rs m h1 h2 h3 _ ih =>
    have := h.2 (sec.name, sec.rules.map (·.map (·.name))) (List.mem_map.2 ⟨sec, h1, rfl⟩) (refs.map (·.name))
      (List.mem_map.2 ⟨refs, h3, rfl⟩)
    simp only [h2] at this
    rw [List.map_append, List.sum_append] at ih
    simp only [List.map_cons, List.sum_cons]
    omega

theorem picks_length {α : Type} {p : List α} {ss : List (List α)} (h : Picks p ss) : p.length = ss.length := by
  induction h with
  | nil => rfl
  | cons _ _ ih => simp [ih]

/-- The search of a grammar misses no derivation, whatever the tokens, iff every sequence of rules that can be derived
can be derived with at most two meta rules more than it has classes. -/
theorem C79_complete_iff {G : Grammar F} (wf : WfGrammar G) (hr : HasRoot G) :
    Complete G ↔ ∀ rs m, Derives G [c!"ADDRESS"] rs m →
      ∃ m', Derives G [c!"ADDRESS"] rs m' ∧ m' ≤ (inputs rs).length + 2 := by
  constructor
  · intro hc rs m hd
    have hpk : ∀ is : List InType, Picks is ((is.map (fun i => ({ inclass := [i] } : Token))).map (·.inclass)) := by
      intro is
      induction is with
      | nil => exact .nil
      | cons i is ih => exact .cons (by simp) ih
    have hsz : ∀ is : List InType, sizeProd ((is.map (fun i => ({ inclass := [i] } : Token))).map (·.inclass)) = 1 := by
      intro is
      induction is with
      | nil => rfl
      | cons i is ih => simp only [List.map_cons, sizeProd, ih]; rfl
    let phrase := (inputs rs).map (fun i => ({ inclass := [i] } : Token))
    obtain ⟨results, hs⟩ := search_root wf hr phrase
    have hlt : sizeProd (phrase.map (·.inclass)) < 2 ^ 32 := by rw [hsz]; decide
    have hmem := hc phrase results hlt hs rs m hd (hpk _)
    obtain ⟨m', h1, h2, _⟩ := (C37_search_exact wf _ phrase hlt results hs rs).1 hmem
    exact ⟨m', h1, by simpa [phrase] using h2⟩
  · intro h phrase results hlt hs rs m hd hpk
    obtain ⟨m', h1, h2⟩ := h rs m hd
    refine (C37_search_exact wf _ phrase hlt results hs rs).2 ⟨m', h1, ?_, hpk⟩
    have := picks_length hpk
    rw [List.length_map] at this
    omega

/-- So it is complete if there are bounds that allow ADDRESS at most two. -/
theorem C79_complete {G : Grammar F} (wf : WfGrammar G) (hr : HasRoot G) (e : Str → Int)
    (h : Slack G.metaNames G.ruleSections e) (he : e c!"ADDRESS" ≤ 2) : Complete G := by
  rw [C79_complete_iff wf hr]
  intro rs m hd
  refine ⟨m, hd, ?_⟩
  have := C79_bound h hd
  simp only [List.map_cons, List.map_nil, List.sum_cons, List.sum_nil] at this
  omega

/-- A list of words, with a section that refers to itself, meets the hypotheses. -/
example : ∃ g, Grammar.initialize asciiTables ratOps
      (unlines [c!"[ADDRESS]", c!"@L", c!"[L]", c!"@W @L", c!"@W", c!"[W]", c!"WORD -> STREET -> 0.5"]) = .ok g ∧
    Slack g.metaNames g.ruleSections (fun s => if s = c!"ADDRESS" then 1 else if s = c!"L" then 0 else -1) :=
  exists_ok (by decide +kernel)

/-- A grammar that nests too deeply does not, and its search misses the only derivation. -/
example : ∃ g, Grammar.initialize asciiTables ratOps (unlines
      [c!"[ADDRESS]", c!"@A", c!"[A]", c!"@B", c!"[B]", c!"@C", c!"[C]", c!"@D", c!"[D]", c!"WORD -> STREET -> 0.5"]) = .ok g ∧
    (match search g c!"ADDRESS" [{ inclass := [.WORD] }] with | .ok [] => true | _ => false) = true :=
  exists_ok (by decide +kernel)

/-- With such a grammar an address can be standardized iff some derivation suits one of its token lists. -/
theorem C79_standardized_iff (env : Env F D) (laws : LtLaws env.fo) (signs : SignLaws env.fo)
    (h0 : env.fo.le0 env.fo.zero = true) (ha : env.alloc 1 = true) (text : Str) (g : Grammar F)
    (hg : loadGrammar env text = .ok g) (hc : Complete g)
    (l : Lexicon) (locale filter address : Str) (phrases : List (List Token))
    (hp : phrasesOf env l locale filter address = .ok phrases)
    (hsize : ∀ phrase ∈ phrases, sizeProd (phrase.map (·.inclass)) < 2 ^ 32) :
    (∃ a, standardizeAddr env g l locale filter address = some ⟨some a, none⟩) ↔
      ∃ phrase ∈ phrases, ∃ rs m, Derives g [c!"ADDRESS"] rs m ∧ Picks (inputs rs) (phrase.map (·.inclass)) := by
  rcases C48_address_iff_match env laws signs h0 ha text g hg l locale filter address phrases hp with
    ⟨a, h1, phrase, h2, _, h3⟩ | ⟨h1, h2⟩
  · exact ⟨fun _ => ⟨phrase, h2, h3⟩, fun _ => ⟨a, h1⟩⟩
  · constructor
    · rintro ⟨a, h⟩
      rw [h1] at h
      cases h
    · rintro ⟨phrase, hm, rs, m, hd, hpk⟩
      have := hc phrase [] (hsize phrase hm) (h2 phrase hm) rs m hd hpk
      cases this

/-! ## C80 -/

theorem derives_leads {G : Grammar F} {ss : List Str} {rs : List (Rule F)} {m : Nat} (h : Derives G ss rs m)
    (hs : ∀ s ∈ ss, Leads G.metaNames s) : ∀ r ∈ rs, ∃ sec ∈ G.ruleSections, Leads G.metaNames sec.1 ∧ r ∈ sec.2 := by
  induction h with
  | done => simp
  | @rule s ss sec r rs m h1 h2 h3 _ ih =>
    intro q hq
    rcases List.mem_cons.1 hq with rfl | hq
    · exact ⟨(sec.name, sec.rules), List.mem_map.2 ⟨sec, h1, rfl⟩, by rw [h2]; exact hs s List.mem_cons_self, h3⟩
    · exact ih (fun t ht => hs t (List.mem_cons_of_mem _ ht)) q hq
  | @expand s ss sec refs rs m h1 h2 h3 _ ih =>
    refine ih ?_
    intro t ht
    rcases List.mem_append.1 ht with ht | ht
    · exact .step (hs s List.mem_cons_self) (List.mem_map.2 ⟨sec, h1, by rw [h2]⟩)
        (List.mem_map.2 ⟨refs, h3, rfl⟩) ht
    · exact hs t (List.mem_cons_of_mem _ ht)

theorem derives_must {G : Grammar F} {must : List Str} {f : Field} (ha : AlwaysFills G.metaNames G.ruleSections must f)
    {ss : List Str} {rs : List (Rule F)} {m : Nat} (h : Derives G ss rs m) :
    (∃ s ∈ ss, s ∈ must) → ∃ r ∈ rs, ∃ o ∈ r.outClass, fieldOf o = some f := by
  induction h with
  | done => rintro ⟨s, hs, _⟩; cases hs
  | @rule s ss sec r rs m h1 h2 h3 _ ih =>
    rintro ⟨t, ht, hm⟩
    rcases List.mem_cons.1 ht with rfl | ht
    · exact ⟨r, List.mem_cons_self, ha.2.1 (sec.name, sec.rules) (List.mem_map.2 ⟨sec, h1, rfl⟩) (by rw [h2]; exact hm) r h3⟩
    · obtain ⟨q, hq, e⟩ := ih ⟨t, ht, hm⟩
      exact ⟨q, List.mem_cons_of_mem _ hq, e⟩
  | @expand s ss sec refs rs m h1 h2 h3 _ ih =>
    rintro ⟨t, ht, hm⟩
    rcases List.mem_cons.1 ht with rfl | ht
    · obtain ⟨n, hn, hnm⟩ := ha.2.2 (sec.name, sec.rules.map (·.map (·.name))) (List.mem_map.2 ⟨sec, h1, rfl⟩)
        (by rw [h2]; exact hm) (refs.map (·.name)) (List.mem_map.2 ⟨refs, h3, rfl⟩)
      exact ih ⟨n, List.mem_append_left _ hn, hnm⟩
    · exact ih ⟨t, List.mem_append_right _ ht, hm⟩

theorem mem_classes {ts : List Token} {rs : List (Rule F)} (h : ts.map (·.outclass) = outputs rs) (o : OutType) :
    (∃ t ∈ ts, t.outclass = o) ↔ ∃ r ∈ rs, o ∈ r.outClass := by
  have : (∃ t ∈ ts, t.outclass = o) ↔ o ∈ ts.map (·.outclass) := by simp
  rw [this, h]
  unfold outputs
  rw [List.mem_flatMap]

/-- A field for which no rule that ADDRESS leads to has an output class is NULL in every address. -/
theorem C80_never (env : Env F D) (laws : LtLaws env.fo) (signs : SignLaws env.fo)
    (htot : ∀ a b c, env.fo.lt env.fo.zero b = true → env.fo.lt a c = true → env.fo.lt a b = true ∨ env.fo.lt b c = true)
    (h0 : env.fo.le0 env.fo.zero = true) (address grammar lexicon locale filter : Str) (a : StdAddr) (err : Option Str)
    (h : stdStandardize env address grammar lexicon locale filter = some ⟨some a, err⟩) (g : Grammar F)
    (hg : loadGrammar env grammar = .ok g) (f : Field) (hf : NeverFills g.metaNames g.ruleSections f) : a.get f = none := by
  obtain ⟨g', l, phrases, phrase, rs, m, std, k1, _, _, _, hd, _, _, _, _, hout, hget, _⟩ :=
    C65_explained env laws signs htot h0 address grammar lexicon locale filter a err h
  rw [hg] at k1; cases k1
  rw [hget, if_pos]
  unfold wordsFor
  rw [List.map_eq_nil_iff, List.filter_eq_nil_iff]
  intro t ht e
  have e := of_decide_eq_true e
  obtain ⟨r, hr, ho⟩ := (mem_classes hout t.outclass).1 ⟨t, ht, rfl⟩
  obtain ⟨sec, hs, hl, hrs⟩ := derives_leads hd (fun s hs => by rw [List.mem_singleton.1 hs]; exact .root) r hr
  exact hf sec hs hl r hrs t.outclass ho e

/-- A field that cannot be avoided is not NULL in any address. -/
theorem C80_always (env : Env F D) (laws : LtLaws env.fo) (signs : SignLaws env.fo)
    (htot : ∀ a b c, env.fo.lt env.fo.zero b = true → env.fo.lt a c = true → env.fo.lt a b = true ∨ env.fo.lt b c = true)
    (h0 : env.fo.le0 env.fo.zero = true) (address grammar lexicon locale filter : Str) (a : StdAddr) (err : Option Str)
    (h : stdStandardize env address grammar lexicon locale filter = some ⟨some a, err⟩) (g : Grammar F)
    (hg : loadGrammar env grammar = .ok g) (f : Field) (must : List Str)
    (hf : AlwaysFills g.metaNames g.ruleSections must f) : ∃ text, a.get f = some text := by
  obtain ⟨g', l, phrases, phrase, rs, m, std, k1, _, _, _, hd, _, _, _, _, hout, hget, _⟩ :=
    C65_explained env laws signs htot h0 address grammar lexicon locale filter a err h
  rw [hg] at k1; cases k1
  obtain ⟨r, hr, o, ho, e⟩ := derives_must hf hd ⟨_, List.mem_singleton.2 rfl, hf.1⟩
  obtain ⟨t, ht, rfl⟩ := (mem_classes hout o).2 ⟨r, hr, ho⟩
  have hne : wordsFor f std ≠ [] := by
    unfold wordsFor
    intro hnil
    rw [List.map_eq_nil_iff, List.filter_eq_nil_iff] at hnil
    exact hnil t ht (decide_eq_true e)
  rw [hget, if_neg hne]
  exact ⟨_, rfl⟩

example : (∃ g, Grammar.initialize asciiTables ratOps addrText = .ok g ∧
      AlwaysFills g.metaNames g.ruleSections [c!"ADDRESS", c!"A"] .houseNum ∧
      ∀ sec ∈ g.ruleSections, ∀ r ∈ sec.2, ∀ o ∈ r.outClass, fieldOf o ≠ some .building) ∧
    (stdStandardize exEnv c!"12 new york str" addrText townText c!"en" c!"SPACE").map
      (fun r => r.value.map (fun a => (a.building, a.house_num))) = some (some (none, some c!"12")) :=
  ⟨exists_ok (by decide +kernel), by decide +kernel⟩

end AS.Props
