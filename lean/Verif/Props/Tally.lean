import Verif.Lemmas.Tally
import Verif.Props.Token
import Verif.Props.Search
/-
Property C99: how often a match is listed.
-/
namespace AS.Props
variable {F : Type}

/-! ## C99 -/

/-- The search lists a sequence of rules exactly `times` times if it reads one class of each token, and
not at all otherwise. -/
theorem C99_listed [DecidableEq F] {G : Grammar F} (wf : WfGrammar G) (node : Str) (phrase : List Token)
    (h : sizeProd (phrase.map (·.inclass)) < 2 ^ 32) (hset : ∀ t ∈ phrase, IsSet InType.code t.inclass)
    (results : List (SearchPath F)) (hs : search G node phrase = .ok results) (rs : List (Rule F)) :
    (Picks (inputs rs) (phrase.map (·.inclass)) →
      results.count ⟨rs, [], []⟩ = times G (phrase.length + 2) [node] rs) ∧
    (¬ Picks (inputs rs) (phrase.map (·.inclass)) → results.count ⟨rs, [], []⟩ = 0) := by
  obtain ⟨ps, hps, hmem, _, _, hnd⟩ := C06_enumerate_exact phrase h hset
  have hc := count_search wf node phrase ps hps results hs rs
  refine ⟨fun hp => ?_, fun hp => ?_⟩
  · have h1 : ps.count (inputs rs) = 1 :=
      Nat.le_antisymm (List.nodup_iff_count.1 hnd _) (List.count_pos_iff.2 ((hmem _).2 hp))
    rw [hc, h1, Nat.one_mul]
  · rw [hc, List.count_eq_zero.2 (fun hin => hp ((hmem _).1 hin)), Nat.zero_mul]

/-- Without a bound on the number of combinations of classes: each combination that is enumerated adds
`times`. -/
theorem C99_any_phrase [DecidableEq F] {G : Grammar F} (wf : WfGrammar G) (node : Str) (phrase : List Token) :
    ∃ ps, Token.enumerate phrase = some ps ∧ ∀ results, search G node phrase = .ok results →
      ∀ rs, results.count ⟨rs, [], []⟩ = ps.count (inputs rs) * times G (phrase.length + 2) [node] rs := by
  obtain ⟨ps, hps, _⟩ := Token.enumerate_picks phrase
  exact ⟨ps, hps, fun results hs rs => count_search wf node phrase ps hps results hs rs⟩

/-- What is counted: there is a way iff the rules are derived, and a derivation is listed at least once. -/
theorem C99_ways [DecidableEq F] (G : Grammar F) (m : Nat) (ss : List Str) (rs : List (Rule F)) :
    (0 < ways G m ss rs ↔ ∃ k, k ≤ m ∧ Derives G ss rs k) ∧ ways G m ss rs ≤ times G m ss rs := by
  refine ⟨tally_pos G m ss (inputs rs) rs, tally_le G _ _ ?_ m ss rs⟩
  intro s ss r rs hr
  split
  · exact Nat.le_refl _
  · exact fitting_pos hr rs

/-- If in no section a rule begins with the input classes of another, every derivation is listed once. -/
theorem C99_once [DecidableEq F] {G : Grammar F} (wf : WfGrammar G) (hp : PrefixFree G) (m : Nat) (ss : List Str)
    (rs : List (Rule F)) : times G m ss rs = ways G m ss rs := by
  refine tally_congr G _ _ ?_ m ss rs
  intro s ss r rs hr
  split
  · rfl
  · obtain ⟨sec, h1, h2, h3⟩ := mem_linesNamed.1 hr
    rw [linesNamed_eq wf h1 h2]
    exact fitting_one (hp sec h1) h3 rs

/-- If every meta rule refers to one section, every derivation is listed once. -/
theorem C99_one_section [DecidableEq F] {G : Grammar F}
    (h : ∀ sec ∈ G.metas, ∀ refs ∈ sec.rules, refs.length = 1) (m : Nat) (s : Str) (rs : List (Rule F)) :
    times G m [s] rs = ways G m [s] rs := by
  refine tally_single G listWeight (fun _ _ _ => 1) (fun _ _ => by simp [listWeight]) ?_ m s (inputs rs) rs
  intro s refs hr
  obtain ⟨sec, h1, _, l, h2, rfl⟩ := mem_refsNamed.1 hr
  rw [List.length_map]
  exact h sec h1 l h2

/-- With at most `K` rules in each section a derivation by `n` rules is listed at most `K ^ (n - 1)` times. -/
theorem C99_bound [DecidableEq F] {G : Grammar F} (wf : WfGrammar G) (K : Nat) (hK1 : 1 ≤ K)
    (hK : ∀ sec ∈ G.rules, sec.rules.length ≤ K) (m : Nat) (ss : List Str) (rs : List (Rule F)) :
    times G m ss rs ≤ K ^ (rs.length - 1) * ways G m ss rs := by
  refine times_le_pow wf.refs_ne K ?_ hK1 m ss rs
  intro s
  cases hl : linesNamed G s with
  | nil => simp
  | cons r l =>
    obtain ⟨sec, h1, h2, _⟩ := mem_linesNamed.1 (show r ∈ linesNamed G s by rw [hl]; simp)
    rw [← hl, linesNamed_eq wf h1 h2]
    exact hK sec h1

/-- Two words read by `@R @R` with two rules in `[R]`: each of the four derivations is found in one way
and listed twice, which is the bound. -/
example : WfGrammar exGrammar ∧
    (sizeProd ([tokenWith [.WORD], tokenWith [.WORD]].map (·.inclass)) < 2 ^ 32 ∧
      ∀ t ∈ [tokenWith [.WORD], tokenWith [.WORD]], IsSet InType.code t.inclass) ∧
    (∃ results, search exGrammar c!"ADDRESS" [tokenWith [.WORD], tokenWith [.WORD]] = .ok results ∧
      results.length = 8 ∧
      results.count ⟨[⟨[.WORD], [.STREET], 1⟩, ⟨[.WORD], [.CITY], 2⟩], [], []⟩ = 2) ∧
    times exGrammar 4 [c!"ADDRESS"] [⟨[.WORD], [.STREET], 1⟩, ⟨[.WORD], [.CITY], 2⟩] = 2 ∧
    ways exGrammar 4 [c!"ADDRESS"] [⟨[.WORD], [.STREET], 1⟩, ⟨[.WORD], [.CITY], 2⟩] = 1 ∧
    (∀ sec ∈ exGrammar.rules, sec.rules.length ≤ 2) := by
  refine ⟨exGrammar_wf, ⟨by decide, ?_⟩, ⟨_, rfl, by decide, by decide⟩, by decide +kernel, by decide +kernel, by decide⟩
  intro t ht
  simp only [List.mem_cons, List.not_mem_nil, or_false, or_self] at ht
  subst ht
  exact List.pairwise_singleton ..

/-- `[ADDRESS] @N @R @R | [N] NUMBER -> HOUSE -> 1 | [R] WORD -> STREET -> 1, TYPE -> SUFTYP -> 1`: no
rule begins with another, and each meta rule of `oneRef` refers to one section. -/
def apartGrammar : Grammar Rat :=
  { metas := [⟨c!"ADDRESS", [[⟨c!"N", none, some 0⟩, ⟨c!"R", none, some 1⟩, ⟨c!"R", none, some 1⟩]]⟩]
    rules := [⟨c!"N", [⟨[.NUMBER], [.HOUSE], 1⟩]⟩, ⟨c!"R", [⟨[.WORD], [.STREET], 1⟩, ⟨[.TYPE], [.SUFTYP], 1⟩]⟩]
    sectionIndex := [(c!"ADDRESS", 0), (c!"N", 0), (c!"R", 1)] }

theorem apartGrammar_wf : WfGrammar apartGrammar where
  distinct := by decide
  nonempty := by decide
  linked := by
    intro sec hs refs hr ref href
    have h : ref = ⟨c!"N", none, some 0⟩ ∨ ref = ⟨c!"R", none, some 1⟩ := by
      revert ref; revert refs; revert sec; decide
    rcases h with rfl | rfl
    · exact Or.inr ⟨rfl, 0, _, rfl, rfl, rfl⟩
    · exact Or.inr ⟨rfl, 1, _, rfl, rfl, rfl⟩
  indexed := by
    intro name
    simp only [apartGrammar, mapFind]
    by_cases h1 : name = c!"ADDRESS"
    · subst h1; exact Or.inl ⟨_, rfl, rfl⟩
    · by_cases h2 : name = c!"N"
      · subst h2; exact Or.inr ⟨_, rfl, rfl⟩
      · by_cases h3 : name = c!"R"
        · subst h3; exact Or.inr ⟨_, rfl, rfl⟩
        · rw [if_neg h1, if_neg h2, if_neg h3]
          simp only [List.mem_cons, List.not_mem_nil, or_false, forall_eq_or_imp, forall_eq]
          exact ⟨fun h => h1 h.symm, fun h => h2 h.symm, fun h => h3 h.symm⟩

example : WfGrammar apartGrammar ∧ PrefixFree apartGrammar ∧
    (∃ results, search apartGrammar c!"ADDRESS" [tokenWith [.NUMBER], tokenWith [.WORD], tokenWith [.TYPE]] = .ok results ∧
      results.count ⟨[⟨[.NUMBER], [.HOUSE], 1⟩, ⟨[.WORD], [.STREET], 1⟩, ⟨[.TYPE], [.SUFTYP], 1⟩], [], []⟩ = 1) ∧
    ways apartGrammar 5 [c!"ADDRESS"] [⟨[.NUMBER], [.HOUSE], 1⟩, ⟨[.WORD], [.STREET], 1⟩, ⟨[.TYPE], [.SUFTYP], 1⟩] = 1 := by
  refine ⟨apartGrammar_wf, ?_, ⟨_, rfl, by decide⟩, by decide +kernel⟩
  unfold PrefixFree
  decide

/-- Two meta rules with one reference each, to sections that overlap: the derivation through either is
listed once, so the rules are listed twice. -/
def oneRef : Grammar Rat :=
  { metas := [⟨c!"ADDRESS", [[⟨c!"A", none, some 0⟩], [⟨c!"B", none, some 1⟩]]⟩]
    rules := [⟨c!"A", [⟨[.WORD], [.STREET], 1⟩, ⟨[.WORD], [.CITY], 1⟩]⟩, ⟨c!"B", [⟨[.WORD], [.STREET], 1⟩]⟩]
    sectionIndex := [(c!"ADDRESS", 0), (c!"A", 0), (c!"B", 1)] }

example : (∀ sec ∈ oneRef.metas, ∀ refs ∈ sec.rules, refs.length = 1) ∧
    (∃ results, search oneRef c!"ADDRESS" [tokenWith [.WORD]] = .ok results ∧
      results.count ⟨[⟨[.WORD], [.STREET], 1⟩], [], []⟩ = 2 ∧ results.count ⟨[⟨[.WORD], [.CITY], 1⟩], [], []⟩ = 1) ∧
    ways oneRef 3 [c!"ADDRESS"] [⟨[.WORD], [.STREET], 1⟩] = 2 := by
  exact ⟨by decide, ⟨_, rfl, by decide, by decide⟩, by decide +kernel⟩

end AS.Props
