import Verif.Lemmas.Search
/-
Properties C35–C38: the search.
-/
namespace AS.Props
variable {F : Type}

/-! ## Example grammars -/

/-- `[ADDRESS] @R @R | [R] WORD -> STREET -> 1, WORD -> CITY -> 2`. -/
def exGrammar : Grammar Rat :=
  { metas := [⟨c!"ADDRESS", [[⟨c!"R", none, some 0⟩, ⟨c!"R", none, some 0⟩]]⟩]
    rules := [⟨c!"R", [⟨[.WORD], [.STREET], 1⟩, ⟨[.WORD], [.CITY], 2⟩]⟩]
    sectionIndex := [(c!"ADDRESS", 0), (c!"R", 0)] }

theorem exGrammar_wf : WfGrammar exGrammar where
  distinct := by decide
  nonempty := by decide
  linked := by
    intro sec hs refs hr ref href
    have h : ref.mptr = none ∧ ref.rptr = some 0 ∧ ref.name = c!"R" := by
      revert ref; revert refs; revert sec; decide
    exact Or.inr ⟨h.1, 0, _, h.2.1, rfl, h.2.2.symm⟩
  indexed := by
    intro name
    simp only [exGrammar, mapFind]
    by_cases h1 : name = c!"ADDRESS"
    · subst h1; exact Or.inl ⟨_, rfl, rfl⟩
    · by_cases h2 : name = c!"R"
      · subst h2; exact Or.inr ⟨_, rfl, rfl⟩
      · rw [if_neg h1, if_neg h2]
        simp only [List.mem_singleton, forall_eq]
        exact ⟨fun h => h1 h.symm, fun h => h2 h.symm⟩

/-! ## C35 -/

/-- Search ends for every grammar and phrase: with results or with the error that the start section
does not exist; in particular for left-recursive grammars. -/
theorem C35_search_terminates {G : Grammar F} (wf : WfGrammar G) (node : Str) (phrase : List Token) :
    (∃ results, search G node phrase = .ok results) ∨
    (search G node phrase = .throws (c!"Search-Rule-Not-Found:" ++ node) ∧
      (∀ sec ∈ G.metas, sec.name ≠ node) ∧ (∀ sec ∈ G.rules, sec.name ≠ node)) := by
  obtain ⟨ps, hps, _⟩ := Token.enumerate_picks phrase
  rcases search_spec wf node phrase ps hps with ⟨r, h, _⟩ | h
  · exact Or.inl ⟨r, h⟩
  · exact Or.inr h

/-- The recursion depth used in the model is no restriction: any greater depth gives the same. -/
theorem C35_depth_irrelevant {G : Grammar F} (wf : WfGrammar G) (limit : Nat) (sec : MetaSection)
    (hsec : sec ∈ G.metas) (refs : MetaRule) (hr : refs ∈ sec.rules) (rules : List (Rule F))
    (remaining : List InType) (f : Nat) (hf : searchFuel G limit ≤ f) :
    ∃ res, matchNext G limit f ⟨rules, refs, remaining⟩ 0 = some res ∧
      matchNext G limit (searchFuel G limit) ⟨rules, refs, remaining⟩ 0 = some res := by
  obtain ⟨res, h⟩ := matchNext_fuel wf limit sec hsec refs hr rules remaining
  exact ⟨res, matchNext_mono_le G limit _ f hf _ _ res h, h⟩

/-- A left-recursive grammar: `[ADDRESS] @ADDRESS @R, @R | [R] WORD -> STREET -> 1`. -/
def leftRec : Grammar Rat :=
  { metas := [⟨c!"ADDRESS", [[⟨c!"ADDRESS", some 0, none⟩, ⟨c!"R", none, some 0⟩], [⟨c!"R", none, some 0⟩]]⟩]
    rules := [⟨c!"R", [⟨[.WORD], [.STREET], 1⟩]⟩]
    sectionIndex := [(c!"ADDRESS", 0), (c!"R", 0)] }

theorem leftRec_wf : WfGrammar leftRec where
  distinct := by decide
  nonempty := by decide
  linked := by
    intro sec hs refs hr ref href
    have h : (ref.mptr = some 0 ∧ ref.name = c!"ADDRESS") ∨ (ref.mptr = none ∧ ref.rptr = some 0 ∧ ref.name = c!"R") := by
      revert ref; revert refs; revert sec; decide
    rcases h with h | h
    · exact Or.inl ⟨0, _, h.1, rfl, h.2.symm⟩
    · exact Or.inr ⟨h.1, 0, _, h.2.1, rfl, h.2.2.symm⟩
  indexed := by
    intro name
    simp only [leftRec, mapFind]
    by_cases h1 : name = c!"ADDRESS"
    · subst h1; exact Or.inl ⟨_, rfl, rfl⟩
    · by_cases h2 : name = c!"R"
      · subst h2; exact Or.inr ⟨_, rfl, rfl⟩
      · rw [if_neg h1, if_neg h2]
        simp only [List.mem_singleton, forall_eq]
        exact ⟨fun h => h1 h.symm, fun h => h2 h.symm⟩

example : WfGrammar leftRec ∧
    search leftRec c!"ADDRESS" [{ inclass := [.WORD] }, { inclass := [.NUMBER, .WORD] }] =
      .ok [⟨[⟨[.WORD], [.STREET], 1⟩, ⟨[.WORD], [.STREET], 1⟩], [], []⟩] := ⟨leftRec_wf, by decide +kernel⟩

/-! ## C36 -/

/-- Every result is a derivation from the start section whose rules cover all tokens, in order, with
classes the tokens have; nothing remains to be matched. -/
theorem C36_search_sound {G : Grammar F} (wf : WfGrammar G) (node : Str) (phrase : List Token)
    (results : List (SearchPath F)) (h : search G node phrase = .ok results) (p : SearchPath F) (hp : p ∈ results) :
    (∃ m, Derives G [node] p.rules m) ∧ Picks (inputs p.rules) (phrase.map (·.inclass)) ∧
      p.next = [] ∧ p.remaining = [] := by
  obtain ⟨ps, hps, hpick⟩ := Token.enumerate_picks phrase
  rcases search_spec wf node phrase ps hps with ⟨r, h', _, hmem⟩ | ⟨h', _⟩
  · rw [h] at h'
    cases h'
    obtain ⟨rs, m, hd, _, hin, rfl⟩ := (hmem p).1 hp
    exact ⟨⟨m, hd⟩, hpick _ hin, rfl, rfl⟩
  · rw [h] at h'; cases h'

example : WfGrammar exGrammar ∧ ∃ results,
    search exGrammar c!"ADDRESS" [{ inclass := [.WORD] }, { inclass := [.NUMBER, .WORD] }] = .ok results ∧
    ⟨[⟨[.WORD], [.CITY], 2⟩, ⟨[.WORD], [.STREET], 1⟩], [], []⟩ ∈ results :=
  ⟨exGrammar_wf, _, rfl, by decide +kernel⟩

/-! ## C37 -/

/-- The results are exactly the derivations that cover the phrase and expand at most (number of tokens
+ 2) meta rules. -/
theorem C37_search_exact {G : Grammar F} (wf : WfGrammar G) (node : Str) (phrase : List Token)
    (hsize : sizeProd (phrase.map (·.inclass)) < 2 ^ 32)
    (results : List (SearchPath F)) (h : search G node phrase = .ok results) (rs : List (Rule F)) :
    ⟨rs, [], []⟩ ∈ results ↔
      ∃ m, Derives G [node] rs m ∧ m ≤ phrase.length + 2 ∧ Picks (inputs rs) (phrase.map (·.inclass)) := by
  rcases search_spec wf node phrase _ (Token.enumerate_eq phrase hsize) with ⟨r, h', _, hmem⟩ | ⟨h', _⟩
  · rw [h] at h'
    cases h'
    rw [hmem]
    constructor
    · rintro ⟨rs', m, hd, hl, hin, he⟩
      cases he
      exact ⟨m, hd, hl, (mem_cart _ _).1 hin⟩
    · rintro ⟨m, hd, hl, hpk⟩
      exact ⟨rs, m, hd, hl, (mem_cart _ _).2 hpk, rfl⟩
  · rw [h] at h'; cases h'

example : sizeProd (([{ inclass := [.WORD] }, { inclass := [.NUMBER, .WORD] }] : List Token).map (·.inclass)) < 2 ^ 32 := by
  decide

/-- `[ADDRESS] @A | [A] @B | [B] @C | [C] @R | [R] WORD -> STREET -> 1`. -/
def chain : Grammar Rat :=
  { metas := [⟨c!"ADDRESS", [[⟨c!"A", some 1, none⟩]]⟩, ⟨c!"A", [[⟨c!"B", some 2, none⟩]]⟩,
      ⟨c!"B", [[⟨c!"C", some 3, none⟩]]⟩, ⟨c!"C", [[⟨c!"R", none, some 0⟩]]⟩]
    rules := [⟨c!"R", [⟨[.WORD], [.STREET], 1⟩]⟩]
    sectionIndex := [(c!"ADDRESS", 0), (c!"A", 1), (c!"B", 2), (c!"C", 3), (c!"R", 0)] }

/-- A phrase that is derivable but not found, because its only derivation expands four meta rules and
there is one token. -/
theorem C37_search_incomplete :
    Derives chain [c!"ADDRESS"] [⟨[.WORD], [.STREET], 1⟩] 4 ∧
    Picks (inputs [(⟨[.WORD], [.STREET], 1⟩ : Rule Rat)]) (([{ inclass := [.WORD] }] : List Token).map (·.inclass)) ∧
    search chain c!"ADDRESS" [{ inclass := [.WORD] }] = .ok [] := by
  refine ⟨?_, ?_, by decide +kernel⟩
  · refine .expand (sec := ⟨c!"ADDRESS", [[⟨c!"A", some 1, none⟩]]⟩) (refs := [⟨c!"A", some 1, none⟩])
      (by simp [chain]) rfl (by simp) ?_
    refine .expand (sec := ⟨c!"A", [[⟨c!"B", some 2, none⟩]]⟩) (refs := [⟨c!"B", some 2, none⟩])
      (by simp [chain]) rfl (by simp) ?_
    refine .expand (sec := ⟨c!"B", [[⟨c!"C", some 3, none⟩]]⟩) (refs := [⟨c!"C", some 3, none⟩])
      (by simp [chain]) rfl (by simp) ?_
    refine .expand (sec := ⟨c!"C", [[⟨c!"R", none, some 0⟩]]⟩) (refs := [⟨c!"R", none, some 0⟩])
      (by simp [chain]) rfl (by simp) ?_
    exact .rule (sec := ⟨c!"R", [⟨[.WORD], [.STREET], 1⟩]⟩) (by simp [chain]) rfl (by simp) .done
  · exact .cons (by simp) .nil

/-! ## C38 -/

/-- `k` rules with the same input. -/
def kRules (sc : Nat → F) (k : Nat) : List (Rule F) :=
  (List.range k).map (fun i => ⟨[.WORD], [.STREET], sc i⟩)

/-- `[ADDRESS] @S ... @S` (`n` times) `| [S]` with `k` rules with the same input. -/
def repGrammar (sc : Nat → F) (k n : Nat) : Grammar F :=
  { metas := [⟨c!"ADDRESS", [List.replicate n ⟨c!"S", none, some 0⟩]⟩]
    rules := [⟨c!"S", kRules sc k⟩]
    sectionIndex := [(c!"ADDRESS", 0), (c!"S", 0)] }

theorem repGrammar_wf (sc : Nat → F) (k n : Nat) : WfGrammar (repGrammar sc k (n + 1)) where
  distinct := by simp [repGrammar]
  nonempty := by
    intro sec hs refs hr
    simp only [repGrammar, List.mem_singleton] at hs
    subst hs
    simp only [List.mem_singleton] at hr
    subst hr
    simp [List.replicate_succ]
  linked := by
    intro sec hs refs hr ref href
    simp only [repGrammar, List.mem_singleton] at hs
    subst hs
    simp only [List.mem_singleton] at hr
    subst hr
    obtain ⟨_, rfl⟩ := List.mem_replicate.1 href
    exact Or.inr ⟨rfl, 0, _, rfl, rfl, rfl⟩
  indexed := by
    intro name
    simp only [repGrammar, mapFind]
    by_cases h1 : name = c!"ADDRESS"
    · subst h1; exact Or.inl ⟨_, rfl, rfl⟩
    · by_cases h2 : name = c!"S"
      · subst h2; exact Or.inr ⟨_, rfl, rfl⟩
      · rw [if_neg h1, if_neg h2]
        simp only [List.mem_singleton, forall_eq]
        exact ⟨fun h => h1 h.symm, fun h => h2 h.symm⟩

private theorem matchRules_k (rules : List (Rule F)) (next : List SectionPtr) (rem : List InType) :
    ∀ rs : List (Rule F), (∀ r ∈ rs, r.inClass = [.WORD]) →
      matchRules ⟨rules, next, .WORD :: rem⟩ rs = rs.map (fun r => ⟨rules ++ [r], next, rem⟩)
  | [], _ => rfl
  | r :: rs, h => by
    rw [matchRules, matchRule_success r ⟨rules, next, .WORD :: rem⟩ rem (by simp [h r (List.mem_cons_self ..)])]
    rw [matchRules_k rules next rem rs (fun x hx => h x (List.mem_cons_of_mem _ hx))]
    simp

private theorem kRules_in (sc : Nat → F) (k : Nat) : ∀ r ∈ kRules sc k, r.inClass = [.WORD] := by
  intro r hr
  obtain ⟨_, _, rfl⟩ := List.mem_map.1 hr
  rfl

private theorem rep_count (sc : Nat → F) (k N limit : Nat) (hl : 1 ≤ limit) : ∀ (j fuel : Nat) (rules : List (Rule F))
    (res : List (SearchPath F)),
    matchNext (repGrammar sc k N) limit fuel
      ⟨rules, List.replicate (j + 1) ⟨c!"S", none, some 0⟩, List.replicate (j + 1) .WORD⟩ 0 = some res →
    res.length = k ^ (2 * j + 1)
  | _, 0, _, _, h => by cases h
  | 0, fuel + 1, rules, res, h => by
    simp only [matchNext, List.replicate_succ, List.replicate_zero] at h
    rw [matchPath, if_neg (by omega)] at h
    have hsec : (repGrammar sc k N).rules[0]? = some ⟨c!"S", kRules sc k⟩ := rfl
    simp only [hsec] at h
    rw [matchRules_k _ _ _ _ (kRules_in sc k)] at h
    rw [flatMapM_congr (g := fun x => some [x]) _ (by
      intro q hq
      obtain ⟨_, _, rfl⟩ := List.mem_map.1 hq
      rfl), flatMapM_pure] at h
    cases h
    simp [kRules]
  | j + 1, fuel + 1, rules, res, h => by
    rw [List.replicate_succ, List.replicate_succ (a := InType.WORD)] at h
    simp only [matchNext] at h
    rw [matchPath, if_neg (by omega)] at h
    have hsec : (repGrammar sc k N).rules[0]? = some ⟨c!"S", kRules sc k⟩ := rfl
    simp only [hsec] at h
    rw [matchRules_k _ _ _ _ (kRules_in sc k)] at h
    have hlen : ((kRules sc k).map (fun r => (⟨rules ++ [r], List.replicate (j + 1) ⟨c!"S", none, some 0⟩,
        List.replicate (j + 1) .WORD⟩ : SearchPath F))).length = k := by simp [kRules]
    have := flatMapM_length (k * k ^ (2 * j + 1)) h (by
      intro q hq zs hz
      obtain ⟨r, _, rfl⟩ := List.mem_map.1 hq
      simp only [List.length_replicate, gt_iff_lt, Nat.zero_lt_succ, ↓reduceIte] at hz
      have h2 := flatMapM_length (k ^ (2 * j + 1)) hz (by
        intro q hq zs hz
        obtain ⟨r, _, rfl⟩ := List.mem_map.1 hq
        simp only [List.length_replicate, gt_iff_lt, Nat.zero_lt_succ, ↓reduceIte] at hz
        exact rep_count sc k N limit hl j fuel _ zs hz)
      rw [hlen] at h2
      exact h2)
    rw [hlen] at this
    rw [this, show 2 * (j + 1) + 1 = 2 * j + 1 + 1 + 1 by omega, Nat.pow_succ k (2 * j + 1 + 1),
      Nat.pow_succ k (2 * j + 1), Nat.mul_comm k (k * _), Nat.mul_comm k (k ^ _)]

private theorem derives_rep (sc : Nat → F) (k N : Nat) : ∀ (j : Nat) (rs : List (Rule F)) (m : Nat),
    Derives (repGrammar sc k N) (List.replicate j c!"S") rs m ↔
      m = 0 ∧ Picks rs (List.replicate j (kRules sc k))
  | 0, rs, m => by
    constructor
    · intro h; cases h; exact ⟨rfl, .nil⟩
    · rintro ⟨rfl, h⟩; cases h; exact .done
  | j + 1, rs, m => by
    rw [List.replicate_succ, List.replicate_succ]
    constructor
    · intro h
      cases h with
      | @rule _ _ sec r rs' _ h1 h2 h3 hd =>
        simp only [repGrammar, List.mem_singleton] at h1
        subst h1
        obtain ⟨hm, hp⟩ := (derives_rep sc k N j rs' m).1 hd
        exact ⟨hm, .cons h3 hp⟩
      | @expand _ _ sec _ _ _ h1 h2 =>
        simp only [repGrammar, List.mem_singleton] at h1
        subst h1
        simp at h2
    · rintro ⟨rfl, h⟩
      cases h with
      | cons hx hp =>
        exact .rule (sec := ⟨c!"S", kRules sc k⟩) (by simp [repGrammar]) rfl hx ((derives_rep sc k N j _ 0).2 ⟨rfl, hp⟩)

private theorem picks_inputs (sc : Nat → F) (k : Nat) : ∀ (j : Nat) (rs : List (Rule F)),
    Picks rs (List.replicate j (kRules sc k)) → inputs rs = List.replicate j .WORD
  | 0, rs, h => by cases h; rfl
  | j + 1, rs, h => by
    rw [List.replicate_succ] at h
    cases h with
    | cons hx hp =>
      have := picks_inputs sc k j _ hp
      simp only [inputs, List.flatMap_cons] at this ⊢
      rw [this, kRules_in sc k _ hx, List.replicate_succ]
      rfl

private theorem sizeProd_rep {α : Type} (s : List α) : ∀ n, sizeProd (List.replicate n s) = s.length ^ n
  | 0 => rfl
  | n + 1 => by rw [List.replicate_succ, sizeProd, sizeProd_rep s n, Nat.pow_succ, Nat.mul_comm]

/-- With `k` alternatives for each of `n + 1` positions there are `k ^ (n + 1)` derivations, but
`k ^ (2 n + 1)` results are returned; the set of results is right. -/
theorem C38_search_repeats (sc : Nat → F) (hsc : ∀ i j, sc i = sc j → i = j) (k n : Nat) :
    ∃ results, search (repGrammar sc k (n + 1)) c!"ADDRESS"
        (List.replicate (n + 1) { inclass := [.WORD] }) = .ok results ∧
      results.length = k ^ (2 * n + 1) ∧
      ∃ distinct : List (SearchPath F), distinct.Nodup ∧ distinct.length = k ^ (n + 1) ∧
        (∀ p, p ∈ results ↔ p ∈ distinct) ∧
        (∀ rs, ⟨rs, [], []⟩ ∈ distinct ↔ ∃ m, Derives (repGrammar sc k (n + 1)) [c!"ADDRESS"] rs m) := by
  have wf := repGrammar_wf sc k n
  have henum : Token.enumerate (List.replicate (n + 1) { inclass := [.WORD] }) =
      some [List.replicate (n + 1) .WORD] := by
    have h1 : (List.replicate (n + 1) ({ inclass := [.WORD] } : Token)).map (·.inclass) =
        List.replicate (n + 1) [InType.WORD] := by simp
    rw [Token.enumerate_eq]
    · rw [h1]
      clear h1
      generalize n + 1 = j
      induction j with
      | zero => rfl
      | succ j ih =>
        rw [Option.some.injEq] at ih ⊢
        rw [List.replicate_succ, cart, ih]
        simp [List.replicate_succ]
    · rw [h1, sizeProd_rep]; simp
  have hder : ∀ rs m, Derives (repGrammar sc k (n + 1)) [c!"ADDRESS"] rs m ↔
      m = 1 ∧ Picks rs (List.replicate (n + 1) (kRules sc k)) := by
    intro rs m
    constructor
    · intro h
      cases h with
      | @rule _ _ sec _ _ _ h1 h2 =>
        simp only [repGrammar, List.mem_singleton] at h1
        subst h1
        simp at h2
      | @expand _ _ sec refs _ m' h1 h2 h3 hd =>
        simp only [repGrammar, List.mem_singleton] at h1
        subst h1
        simp only [List.mem_singleton] at h3
        subst h3
        rw [List.append_nil, List.map_replicate] at hd
        obtain ⟨rfl, hp⟩ := (derives_rep sc k (n + 1) (n + 1) rs m').1 hd
        exact ⟨rfl, hp⟩
    · rintro ⟨rfl, hp⟩
      refine .expand (sec := ⟨c!"ADDRESS", [List.replicate (n + 1) ⟨c!"S", none, some 0⟩]⟩)
        (refs := List.replicate (n + 1) ⟨c!"S", none, some 0⟩) (by simp [repGrammar]) rfl (by simp) ?_
      rw [List.append_nil, List.map_replicate]
      exact (derives_rep sc k (n + 1) (n + 1) rs 0).2 ⟨rfl, hp⟩
  rcases search_spec wf c!"ADDRESS" _ _ henum with ⟨results, hres, _, hmem⟩ | ⟨_, hno, _⟩
  · refine ⟨results, hres, ?_, ?_⟩
    · -- count
      simp only [search, henum, List.length_replicate, List.map_cons, List.map_nil] at hres
      have hptr : stringToSectionPtr (repGrammar sc k (n + 1)) c!"ADDRESS" =
          some { name := c!"ADDRESS", mptr := some 0 } := rfl
      rw [hptr] at hres
      simp only at hres
      cases hm : matchAll (repGrammar sc k (n + 1)) (n + 1 + 2) { name := c!"ADDRESS", mptr := some 0 }
          [{ remaining := List.replicate (n + 1) .WORD }] 0 with
      | none => rw [hm] at hres; cases hres
      | some ms =>
        rw [hm] at hres
        simp only [Outcome.ok.injEq] at hres
        have hml : ms.length = 1 * k ^ (2 * n + 1) := by
          refine flatMapM_length (k ^ (2 * n + 1)) hm ?_
          intro q hq zs hz
          simp only [List.mem_singleton] at hq
          subst hq
          rw [matchPath, if_neg (by omega)] at hz
          have hsec : (repGrammar sc k (n + 1)).metas[0]? =
              some ⟨c!"ADDRESS", [List.replicate (n + 1) ⟨c!"S", none, some 0⟩]⟩ := rfl
          simp only [hsec] at hz
          have h3 := flatMapM_length (k ^ (2 * n + 1)) hz (by
            intro q hq zs hz
            simp only [List.mem_singleton] at hq
            subst hq
            simp only [List.append_nil, List.length_replicate, gt_iff_lt, Nat.zero_lt_succ, ↓reduceIte] at hz
            exact rep_count sc k (n + 1) (n + 1 + 2) (by omega) n _ [] zs hz)
          simpa using h3
        have hall : ∀ p ∈ ms, p.remaining.length == 0 := by
          intro p hp
          obtain ⟨q, hq, zs, hz, hpz⟩ := (flatMapM_some hm p).1 hp
          simp only [List.mem_singleton] at hq
          subst hq
          obtain ⟨res, hr1, hr2⟩ := matchPath_top wf (n + 1 + 2) { name := c!"ADDRESS", mptr := some 0 }
            (Or.inl ⟨0, _, rfl, rfl, rfl⟩) (List.replicate (n + 1) .WORD)
          rw [hr1] at hz
          cases hz
          obtain ⟨rs, m, rest, hd, _, he, rfl⟩ := (hr2 p).1 hpz
          have hi := picks_inputs sc k (n + 1) rs ((hder rs m).1 hd).2
          rw [hi] at he
          have := congrArg List.length he
          simp only [List.length_append, List.length_replicate] at this
          simp only [beq_iff_eq]
          omega
        rw [← hres, List.filter_eq_self.2 hall, hml, Nat.one_mul]
    · -- the set
      have hnd : (kRules sc k).Nodup := by
        unfold kRules List.Nodup
        rw [List.pairwise_map]
        refine List.Pairwise.imp ?_ (List.nodup_range (n := k))
        intro a b hab e
        exact hab (hsc a b (by simpa using e))
      refine ⟨(cart (List.replicate (n + 1) (kRules sc k))).map (fun rs => ⟨rs, [], []⟩), ?_, ?_, ?_, ?_⟩
      · unfold List.Nodup
        rw [List.pairwise_map]
        refine List.Pairwise.imp ?_ (nodup_cart _ (by
          intro s hs
          obtain ⟨_, rfl⟩ := List.mem_replicate.1 hs
          exact hnd))
        intro a b hab e
        exact hab (by simpa using e)
      · rw [List.length_map, length_cart, sizeProd_rep]
        simp [kRules]
      · intro p
        rw [hmem p, List.mem_map]
        constructor
        · rintro ⟨rs, m, hd, _, _, rfl⟩
          exact ⟨rs, (mem_cart _ _).2 ((hder rs m).1 hd).2, rfl⟩
        · rintro ⟨rs, hrs, rfl⟩
          have hp := (mem_cart _ _).1 hrs
          refine ⟨rs, 1, (hder rs 1).2 ⟨rfl, hp⟩, by simp, ?_, rfl⟩
          rw [picks_inputs sc k _ rs hp]
          simp
      · intro rs
        rw [List.mem_map]
        constructor
        · rintro ⟨rs', hrs, he⟩
          have : rs' = rs := by simpa using he
          subst this
          exact ⟨1, (hder rs' 1).2 ⟨rfl, (mem_cart _ _).1 hrs⟩⟩
        · rintro ⟨m, hd⟩
          exact ⟨rs, (mem_cart _ _).2 ((hder rs m).1 hd).2, rfl⟩
  · exact absurd rfl (hno ⟨c!"ADDRESS", [List.replicate (n + 1) ⟨c!"S", none, some 0⟩]⟩ (by simp [repGrammar]))

example : (∀ i j : Nat, ((i : Nat) : Rat) + 1 = (j : Rat) + 1 → i = j) := by
  intro i j h
  have : (i : Rat) = j := by
    have := congrArg (· - 1) h
    simpa [Rat.add_sub_cancel] using this
  exact_mod_cast this

end AS.Props
