import Verif.Lemmas.Alts
import Verif.Lemmas.TokenizerLoop
/-
Facts about `splitToken`: the groups of the patterns for attached words, the cases by length, the
pieces of texts that mix letters and digits.
-/
namespace AS
namespace Tokenizer

/-! ### Bytes -/

theorem byteLen_append (a b : Str) : byteLen (a ++ b) = byteLen a + byteLen b := by
  induction a with
  | nil => simp [byteLen]
  | cons c a ih =>
    simp only [byteLen, List.cons_append, List.map_cons, List.foldr_cons] at ih ⊢
    omega

theorem byteLen_pos (a : Str) : 0 < byteLen a ↔ a ≠ [] := by
  cases a with
  | nil => simp [byteLen]
  | cons c a =>
    have := Char.utf8Size_pos c
    simp only [byteLen, List.map_cons, List.foldr_cons]
    constructor
    · intro _; simp
    · intro _; omega

theorem byteLen_zero (a : Str) : byteLen a = 0 ↔ a = [] := by
  have := byteLen_pos a
  by_cases h : a = []
  · simp [h, byteLen]
  · have := this.2 h
    exact ⟨fun e => by omega, fun e => absurd e h⟩

/-- Two ways of cutting a text: one of the beginnings is a beginning of the other. -/
theorem cuts {a b c d : Str} (h : a ++ b = c ++ d) :
    (∃ m, c = a ++ m ∧ b = m ++ d) ∨ (∃ m, a = c ++ m ∧ d = m ++ b) := by
  rcases List.append_eq_append_iff.1 h with ⟨m, h1, h2⟩ | ⟨m, h1, h2⟩
  · exact Or.inl ⟨m, h1, h2⟩
  · exact Or.inr ⟨m, h1, h2⟩

/-! ### The cases -/

/-- The groups of a pattern are empty or cut the text. -/
theorem prefix_cut (u : UTables) (x : LexRe) (s : Str) :
    ((groups (prefixRx u x) s).1 = [] ∧ (groups (prefixRx u x) s).2 = []) ∨
    (s = (groups (prefixRx u x) s).1 ++ (groups (prefixRx u x) s).2 ∧ (groups (prefixRx u x) s).2 ≠ []) := by
  rw [groups]
  cases hm : (prefixRx u x).fullMatch s with
  | none => exact Or.inl ⟨rfl, rfl⟩
  | some m =>
    right
    have hmem := List.mem_of_find?_eq_some hm
    have hrest : m.rest = [] := by simpa using List.find?_some hm
    rw [prefixRx, mem_seq] at hmem
    obtain ⟨m1, h1, h2⟩ := hmem
    obtain ⟨y, a, hy, e1, rfl⟩ := mem_cap.1 h1
    obtain ⟨z, b, hz, e2, rfl⟩ := mem_cap.1 h2
    obtain ⟨b', hb0, _, e3, hcaps⟩ := mem_plus.1 hz
    have := e3.unique e2
    subst this
    have e2' : Eats y b' z := e2
    simp only [M.cap, capOf, hcaps] at hrest ⊢
    refine ⟨?_, by simpa using hb0⟩
    have := (e1.trans e2').1
    simp only [hrest, List.append_nil] at this
    simpa using this

theorem suffix_cut (x : LexRe) (s : Str) :
    ((groups (suffixRx x) s).1 = [] ∧ (groups (suffixRx x) s).2 = []) ∨
    (s = (groups (suffixRx x) s).1 ++ (groups (suffixRx x) s).2 ∧ (groups (suffixRx x) s).1 ≠ []) := by
  rw [groups]
  cases hm : (suffixRx x).fullMatch s with
  | none => exact Or.inl ⟨rfl, rfl⟩
  | some m =>
    right
    have hmem := List.mem_of_find?_eq_some hm
    have hrest : m.rest = [] := by simpa using List.find?_some hm
    rw [suffixRx, mem_seq] at hmem
    obtain ⟨m1, h1, h2⟩ := hmem
    obtain ⟨y, a, hy, e1, rfl⟩ := mem_cap.1 h1
    obtain ⟨z, b, hz, e2, rfl⟩ := mem_cap.1 h2
    obtain ⟨a', ha0, _, e3, hcaps⟩ := mem_plus.1 hy
    have := e3.unique e1
    subst this
    obtain ⟨b', e4, _, hc⟩ := mem_gen.1 hz
    have e2' : Eats y b z := e2
    simp only at hc
    simp only [M.cap, capOf, hc] at hrest ⊢
    refine ⟨?_, by simpa using ha0⟩
    have := (e1.trans e2').1
    simp only [hrest, List.append_nil] at this
    simpa using this

/-- The pieces put together are the text, and none is empty. -/
theorem attachedPieces_ok {s a b c d : Str} (hab : (a = [] ∧ b = []) ∨ (s = a ++ b ∧ b ≠ []))
    (hcd : (c = [] ∧ d = []) ∨ (s = c ++ d ∧ c ≠ [])) :
    attachedPieces s a b c d = [] ∨
      ((attachedPieces s a b c d).flatten = s ∧ ∀ p ∈ attachedPieces s a b c d, p ≠ []) := by
  have hA := byteLen_pos a
  have hD := byteLen_pos d
  have hD0 := byteLen_zero d
  rw [attachedPieces]
  by_cases ha : byteLen a > 0
  · rw [if_pos ha]
    have ha0 := hA.1 ha
    rcases hab with ⟨h, _⟩ | ⟨hs, hb⟩
    · exact absurd h ha0
    by_cases h1 : byteLen d = 0 ∨ byteLen b = byteLen d
    · rw [if_pos h1]
      right; simp [hs, ha0, hb]
    · rw [if_neg h1]
      have hd0 : d ≠ [] := fun e => h1 (Or.inl (hD0.2 e))
      rcases hcd with ⟨_, h⟩ | ⟨hs', hc⟩
      · exact absurd h hd0
      have hl : byteLen s = byteLen a + byteLen b := by rw [hs, byteLen_append]
      have hl' : byteLen s = byteLen c + byteLen d := by rw [hs', byteLen_append]
      by_cases h2 : byteLen d > 0 ∧ byteLen a + byteLen d < byteLen s
      · rw [if_pos h2]
        right
        rcases cuts (hs.symm.trans hs') with ⟨m, e1, e2⟩ | ⟨m, e1, e2⟩
        · have hm : m ≠ [] := by
            rintro rfl
            rw [List.append_nil] at e1
            rw [e1] at hl'
            omega
          have : (s.drop a.length).take (s.length - a.length - d.length) = m := by
            rw [hs, e2]
            simp
          rw [this]
          refine ⟨by simp [hs, e2], ?_⟩
          simp [ha0, hm, hd0]
        · rw [e1, byteLen_append] at h2
          omega
      · rw [if_neg h2]
        by_cases h3 : byteLen d > 0 ∧ byteLen a + byteLen d > byteLen s
        · rw [if_pos h3]
          right; simp [hs', hc, hd0]
        · rw [if_neg h3]; exact Or.inl rfl
  · rw [if_neg ha]
    by_cases hd : byteLen d > 0
    · rw [if_pos hd]
      have hd0 := hD.1 hd
      rcases hcd with ⟨_, h⟩ | ⟨hs', hc⟩
      · exact absurd h hd0
      right; simp [hs', hc, hd0]
    · rw [if_neg hd]; exact Or.inl rfl

/-! ### Which words are attached -/

theorem mem_attachedWords (p : LexEntry → Bool) (m : List (Str × List LexEntry)) (w : Str) :
    w ∈ Lexicon.attachedWords p m ↔ w ∈ (m.filter (fun e => e.2.any p)).map (·.1) := by
  simp only [Lexicon.attachedWords, List.mem_flatMap, List.mem_map, List.mem_filter, List.any_eq_true]
  constructor
  · rintro ⟨e, he, q, ⟨hq, hp⟩, rfl⟩; exact ⟨e, ⟨he, q, hq, hp⟩, rfl⟩
  · rintro ⟨e, ⟨he, q, hq, hp⟩, rfl⟩; exact ⟨e, he, q, ⟨hq, hp⟩, rfl⟩

/-- Longest words are tried first. -/
theorem reads_sorted {words : List Str} {r : Re} (hp : ∀ w ∈ words, ∀ c ∈ w, c ∉ unescaped)
    (h : Reads (trieOf words).getRegexp r) (text : Str) :
    (r.run text).Pairwise (fun a b => a.length < b.length) := by
  by_cases hne : ∃ w ∈ words, w ≠ []
  · obtain ⟨r', _, hu, hrun⟩ := Props.C21_word_pattern words hp hne
    rw [hu r h, hrun, wordEnds, List.pairwise_map]
    have hs : ((List.range (text.length + 1)).reverse.filter (fun n => n ≠ 0 ∧ text.take n ∈ words)).Pairwise
        (fun a b => b < a) := by
      apply List.Pairwise.filter
      rw [List.pairwise_reverse]
      exact List.pairwise_lt_range
    refine List.Pairwise.imp_of_mem ?_ hs
    intro a b ha hb hlt
    simp only [List.mem_filter, List.mem_reverse, List.mem_range] at ha hb
    simp only [List.length_drop]
    omega
  · have hall : ∀ w ∈ words, w = [] := fun w hw => Classical.byContradiction fun h0 => hne ⟨w, hw, h0⟩
    obtain ⟨_, r', hr', hrun⟩ := Props.C21_no_words words hall
    rw [reads_unique h hr', hrun]
    exact List.pairwise_singleton _ _

/-- The first match over the whole text of one expression after another. -/
theorem fullMatch_seq (a b : Rx) (s : Str) : (Rx.seq a b).fullMatch s =
    (a.run ⟨[], s, []⟩).findSome? (fun x => (b.run x).find? (fun m => m.rest.isEmpty)) := by
  rw [Rx.fullMatch, Rx.run, List.find?_flatMap]

/-- `.+` to the end. -/
theorem find_dots (x : M) (k : Nat) :
    (((Rx.cap k (.plus (fun _ => true))).run x).find? (fun m => m.rest.isEmpty)) =
      if x.rest = [] then none else some ⟨x.rest.reverse ++ x.prev, [], (k, x.rest) :: x.caps⟩ := by
  cases hf : ((Rx.cap k (.plus (fun _ => true))).run x).find? (fun m => m.rest.isEmpty) with
  | none =>
    rw [List.find?_eq_none] at hf
    split
    · rfl
    · rename_i h
      exfalso
      refine hf ⟨x.rest.reverse ++ x.prev, [], (k, x.rest) :: x.caps⟩ ?_ rfl
      rw [mem_cap]
      refine ⟨⟨x.rest.reverse ++ x.prev, [], x.caps⟩, x.rest, ?_, ⟨by simp, rfl⟩, rfl⟩
      exact mem_plus.2 ⟨x.rest, h, by simp, ⟨by simp, rfl⟩, rfl⟩
  | some m =>
    have hmem := List.mem_of_find?_eq_some hf
    have hrest : m.rest = [] := by simpa using List.find?_some hf
    obtain ⟨z, b, hz, e2, rfl⟩ := mem_cap.1 hmem
    obtain ⟨b', hb0, _, e3, hcaps⟩ := mem_plus.1 hz
    have := e3.unique e2
    subst this
    simp only at hrest
    have e : x.rest = b' := by rw [e2.1, hrest, List.append_nil]
    rw [e, if_neg hb0]
    obtain ⟨p, r, c⟩ := z
    simp only at hrest hcaps
    have hp := e2.2
    simp only at hp
    rw [hrest, hcaps, hp]

/-- The first group of the pattern for prefixes. -/
def preRx (u : UTables) (x : LexRe) : Rx := .cap 1 (.seqs [.bol, .gen id x.pre, .within u.isWord])

/-- The conditions on an attached prefix. -/
def PreOk (u : UTables) (words : List Str) (s a b : Str) : Prop :=
  s = a ++ b ∧ a ∈ words ∧ a ≠ [] ∧ b ≠ [] ∧ a.getLast?.map u.isWord = b.head?.map u.isWord

theorem atWithin_iff {w : Char → Bool} {a b : Str} {c : List (Nat × Str)} : atWithin w ⟨a.reverse, b, c⟩ = true ↔
    a ≠ [] ∧ b ≠ [] ∧ a.getLast?.map w = b.head?.map w := by
  rw [← List.head?_reverse]
  have : a ≠ [] ↔ a.reverse ≠ [] := by simp
  rw [this]
  generalize a.reverse = r
  rw [atWithin.eq_def]
  cases r with
  | nil => simp
  | cons c r =>
    cases b with
    | nil => simp
    | cons d b => simp

theorem mem_preRx {u : UTables} {words : List Str} {x : LexRe} (hp : ∀ w ∈ words, ∀ c ∈ w, c ∉ unescaped)
    (h : Reads (trieOf words).getRegexp x.pre) {s : Str} {m : M} : m ∈ (preRx u x).run ⟨[], s, []⟩ ↔
    ∃ a b, PreOk u words s a b ∧ m = ⟨a.reverse, b, [(1, a)]⟩ := by
  rw [preRx, mem_cap]
  simp only [Rx.seqs, mem_seq, mem_bol, mem_gen, mem_within, List.map_id]
  constructor
  · rintro ⟨y, a, ⟨y1, ⟨_, rfl⟩, y2, ⟨a', e', hrun, hc⟩, hw, rfl⟩, e, rfl⟩
    have := e'.unique e
    subst this
    obtain ⟨p, r, c⟩ := y
    have h1 := e.1
    have h2 := e.2
    simp only [List.append_nil] at h1 h2 hc hrun
    subst h1 h2 hc
    rw [atWithin_iff] at hw
    refine ⟨a', r, ⟨rfl, ?_, hw⟩, rfl⟩
    rcases (reads_words hp h _ _).1 hrun with ⟨w, hw', _, e⟩ | ⟨_, e⟩
    · rw [List.append_cancel_right e]; exact hw'
    · have := congrArg List.length e
      simp only [List.length_append] at this
      exact absurd (List.eq_nil_of_length_eq_zero (by omega)) hw.1
  · rintro ⟨a, b, ⟨rfl, hw, h0, h1, h2⟩, rfl⟩
    refine ⟨⟨a.reverse, b, []⟩, a, ⟨⟨[], a ++ b, []⟩, ⟨by simp [atBol], rfl⟩, ⟨a.reverse, b, []⟩, ⟨a, ⟨rfl, by simp⟩, ?_, rfl⟩, ?_, rfl⟩, ⟨rfl, by simp⟩, rfl⟩
    · exact (reads_words hp h _ _).2 (Or.inl ⟨a, hw, h0, rfl⟩)
    · exact atWithin_iff.2 ⟨h0, h1, h2⟩

theorem pairwise_flatMap_filter {α β : Type} {R : β → β → Prop} {f : α → List β} {g : α → β} {S : α → α → Prop}
    (hf : ∀ a, f a = [g a] ∨ f a = []) (hR : ∀ a b, S a b → R (g a) (g b)) :
    ∀ {l : List α}, l.Pairwise S → (l.flatMap f).Pairwise R
  | [], _ => by simp
  | a :: l, h => by
    rw [List.pairwise_cons] at h
    rw [List.flatMap_cons]
    have ih := pairwise_flatMap_filter hf hR h.2
    rcases hf a with e | e
    · rw [e, List.singleton_append, List.pairwise_cons]
      refine ⟨?_, ih⟩
      intro b hb
      rw [List.mem_flatMap] at hb
      obtain ⟨a', ha', hb⟩ := hb
      rcases hf a' with e' | e'
      · rw [e', List.mem_singleton] at hb
        subst hb; exact hR _ _ (h.1 a' ha')
      · rw [e'] at hb; cases hb
    · rw [e]; exact ih

theorem sorted_preRx {u : UTables} {words : List Str} {x : LexRe} (hp : ∀ w ∈ words, ∀ c ∈ w, c ∉ unescaped)
    (h : Reads (trieOf words).getRegexp x.pre) (s : Str) :
    ((preRx u x).run ⟨[], s, []⟩).Pairwise (fun a b => a.rest.length < b.rest.length) := by
  have hb : Rx.bol.run ⟨[], s, []⟩ = [⟨[], s, []⟩] := by simp [Rx.run, atBol]
  rw [preRx, Rx.run, List.pairwise_map]
  simp only [Rx.seqs]
  rw [Rx.run, hb, List.flatMap_cons, List.flatMap_nil, List.append_nil, Rx.run]
  apply pairwise_flatMap_filter (g := id) (S := fun a b => a.rest.length < b.rest.length)
  · intro m
    simp only [Rx.run, id]
    split
    · exact Or.inl rfl
    · exact Or.inr rfl
  · exact fun _ _ h => h
  · rw [Rx.run, List.pairwise_map]
    simp only [List.map_id]
    refine List.Pairwise.imp_of_mem ?_ (reads_sorted hp h s)
    intro a b ha hb hlt
    have h1 := run_length _ _ _ ha
    have h2 := run_length _ _ _ hb
    simp only [M.advance, List.length_drop]
    omega

/-- The groups are the longest prefix and the rest, or empty. -/
theorem prefix_groups {u : UTables} {words : List Str} {x : LexRe} (hp : ∀ w ∈ words, ∀ c ∈ w, c ∉ unescaped)
    (h : Reads (trieOf words).getRegexp x.pre) (s : Str) :
    (NoPrefix u words s ∧ groups (prefixRx u x) s = ([], [])) ∨
    LongestPrefix u words s (groups (prefixRx u x) s).1 (groups (prefixRx u x) s).2 := by
  have e : (prefixRx u x).fullMatch s = ((preRx u x).run ⟨[], s, []⟩).findSome? (fun y =>
      if y.rest = [] then none else some ⟨y.rest.reverse ++ y.prev, [], (2, y.rest) :: y.caps⟩) := by
    rw [prefixRx, fullMatch_seq]
    simp only [find_dots]
    rfl
  rw [groups, e]
  cases hf : ((preRx u x).run ⟨[], s, []⟩).findSome? (fun y =>
      if y.rest = [] then none else some (⟨y.rest.reverse ++ y.prev, [], (2, y.rest) :: y.caps⟩ : M)) with
  | none =>
    left
    refine ⟨?_, rfl⟩
    rintro ⟨a, b, hab⟩
    rw [List.findSome?_eq_none_iff] at hf
    have := hf _ ((mem_preRx hp h).2 ⟨a, b, hab, rfl⟩)
    simp [hab.2.2.2.1] at this
  | some m =>
    right
    obtain ⟨l1, y, l2, hl, hy, hbefore⟩ := List.findSome?_eq_some_iff.1 hf
    obtain ⟨a, b, hab, rfl⟩ := (mem_preRx hp h).1 (show y ∈ (preRx u x).run ⟨[], s, []⟩ by rw [hl]; simp)
    simp only [hab.2.2.2.1, if_false, Option.some.injEq] at hy
    subst hy
    refine ⟨hab, ?_⟩
    intro a' b' hab'
    have hmem := (mem_preRx hp h).2 ⟨a', b', hab', rfl⟩
    have hsorted := sorted_preRx (u := u) hp h s
    rw [hl] at hmem hsorted
    have hlen : b.length ≤ b'.length := by
      rcases List.mem_append.1 hmem with hm | hm
      · have := hbefore _ hm
        simp [hab'.2.2.2.1] at this
      · rcases List.mem_cons.1 hm with hm | hm
        · injection hm with _ hm
          rw [hm]; exact Nat.le_refl _
        · have := (List.pairwise_cons.1 (List.pairwise_append.1 hsorted).2.1).1 _ hm
          simp only at this
          omega
    have h1 := congrArg List.length hab.1
    have h2 := congrArg List.length hab'.1
    simp only [List.length_append] at h1 h2
    show a'.length ≤ a.length
    omega

theorem starRun_sorted (p : Char → Bool) (caps : List (Nat × Str)) : ∀ (prev s : Str),
    (starRun p caps prev s).Pairwise (fun a b => a.rest.length < b.rest.length)
  | prev, [] => by rw [starRun]; exact List.pairwise_singleton _ _
  | prev, c :: s => by
    rw [starRun]
    split
    · rw [List.pairwise_append]
      refine ⟨starRun_sorted p caps _ s, List.pairwise_singleton _ _, ?_⟩
      intro a ha b hb
      rw [List.mem_singleton] at hb
      subst hb
      obtain ⟨z, _, ⟨hz, _⟩, _⟩ := mem_starRun.1 ha
      have := congrArg List.length hz
      simp only [List.length_append] at this
      simp only [List.length_cons]
      omega
    · exact List.pairwise_singleton _ _

/-- The groups are what is before the shortest suffix and the suffix, or there is no suffix. -/
theorem suffix_groups {words : List Str} {x : LexRe} (hp : ∀ w ∈ words, ∀ c ∈ w, c ∉ unescaped)
    (h : Reads (trieOf words).getRegexp x.suf) (s : Str) :
    (NoSuffix words s ∧ (groups (suffixRx x) s).2 = []) ∨
    ShortestSuffix words s (groups (suffixRx x) s).1 (groups (suffixRx x) s).2 := by
  have hL : ∀ m, m ∈ (Rx.cap 1 (.plus (fun _ => true))).run ⟨[], s, []⟩ ↔
      ∃ c d, s = c ++ d ∧ c ≠ [] ∧ m = ⟨c.reverse, d, [(1, c)]⟩ := by
    intro m
    rw [mem_cap]
    constructor
    · rintro ⟨y, c, hy, e, rfl⟩
      obtain ⟨c', h0, _, e', hc⟩ := mem_plus.1 hy
      have := e'.unique e
      subst this
      obtain ⟨p, r, cs⟩ := y
      have h1 := e.1
      have h2 := e.2
      simp only [List.append_nil] at h1 h2 hc
      subst h1 h2 hc
      exact ⟨c', r, rfl, h0, rfl⟩
    · rintro ⟨c, d, rfl, h0, rfl⟩
      exact ⟨⟨c.reverse, d, []⟩, c, mem_plus.2 ⟨c, h0, by simp, ⟨rfl, by simp⟩, rfl⟩, ⟨rfl, by simp⟩, rfl⟩
  have hsorted : ((Rx.cap 1 (.plus (fun _ => true))).run ⟨[], s, []⟩).Pairwise
      (fun a b => a.rest.length < b.rest.length) := by
    rw [Rx.run, List.pairwise_map]
    simp only [Rx.run]
    cases s with
    | nil => simp
    | cons c s => exact starRun_sorted _ _ _ _
  -- what the second group does at a position
  have hG : ∀ (c d : Str) (m : M), m ∈ (Rx.cap 2 (.gen id x.suf)).run ⟨c.reverse, d, [(1, c)]⟩ ∧ m.rest = [] ↔
      [] ∈ x.suf.run d ∧ m = ⟨d.reverse ++ c.reverse, [], [(2, d), (1, c)]⟩ := by
    intro c d m
    rw [mem_cap]
    constructor
    · rintro ⟨⟨y, b, hy, e, rfl⟩, hr⟩
      obtain ⟨b', e', hrun, hc⟩ := mem_gen.1 hy
      obtain ⟨p, r, cs⟩ := y
      simp only at hr hc
      subst hr hc
      simp only [List.map_nil, List.map_id] at hrun
      refine ⟨hrun, ?_⟩
      have h1 := e.1
      have h2 := e.2
      simp only [List.append_nil] at h1 h2
      subst h1 h2
      rfl
    · rintro ⟨hrun, rfl⟩
      refine ⟨⟨⟨d.reverse ++ c.reverse, [], [(1, c)]⟩, d, mem_gen.2 ⟨d, ⟨by simp, rfl⟩, by simpa using hrun, rfl⟩, ⟨by simp, rfl⟩, rfl⟩, rfl⟩
  have hfind : ∀ (c d : Str), ((Rx.cap 2 (.gen id x.suf)).run ⟨c.reverse, d, [(1, c)]⟩).find? (fun m => m.rest.isEmpty) ≠ none ↔
      [] ∈ x.suf.run d := by
    intro c d
    rw [Ne, List.find?_eq_none]
    constructor
    · intro hn
      refine Classical.byContradiction fun hno => hn ?_
      intro m hm hr
      exact hno ((hG c d m).1 ⟨hm, by simpa using hr⟩).1
    · intro hrun hn
      have := (hG c d _).2 ⟨hrun, rfl⟩
      exact hn _ this.1 (by simp)
  have hW : ∀ d, [] ∈ x.suf.run d ↔ (d ∈ words ∧ d ≠ []) ∨ ((∀ w ∈ words, w = []) ∧ d = []) := by
    intro d
    rw [reads_words hp h]
    constructor
    · rintro (⟨w, hw, h0, e⟩ | ⟨h1, h2⟩)
      · rw [List.append_nil] at e; subst e; exact Or.inl ⟨hw, h0⟩
      · exact Or.inr ⟨h1, h2.symm⟩
    · rintro (⟨hw, h0⟩ | ⟨h1, h2⟩)
      · exact Or.inl ⟨d, hw, h0, by simp⟩
      · exact Or.inr ⟨h1, h2.symm⟩
  rw [groups, suffixRx, fullMatch_seq]
  cases hf : ((Rx.cap 1 (.plus (fun _ => true))).run ⟨[], s, []⟩).findSome? (fun y =>
      ((Rx.cap 2 (.gen id x.suf)).run y).find? (fun m => m.rest.isEmpty)) with
  | none =>
    left
    refine ⟨?_, rfl⟩
    rintro ⟨c, d, e, hw, h0, h1⟩
    rw [List.findSome?_eq_none_iff] at hf
    exact (hfind c d).2 ((hW d).2 (Or.inl ⟨hw, h1⟩)) (hf _ ((hL _).2 ⟨c, d, e, h0, rfl⟩))
  | some m =>
    obtain ⟨l1, y, l2, hl, hy, hbefore⟩ := List.findSome?_eq_some_iff.1 hf
    obtain ⟨c, d, e, h0, rfl⟩ := (hL y).1 (by rw [hl]; simp)
    obtain ⟨hrun, rfl⟩ := (hG c d m).1 ⟨List.mem_of_find?_eq_some hy, by simpa using List.find?_some hy⟩
    have hlen : ∀ c' d', s = c' ++ d' → c' ≠ [] → [] ∈ x.suf.run d' → d.length ≤ d'.length := by
      intro c' d' e' h0' hrun'
      have hmem := (hL _).2 ⟨c', d', e', h0', rfl⟩
      rw [hl] at hmem hsorted
      rcases List.mem_append.1 hmem with hm | hm
      · exact absurd (hbefore _ hm) ((hfind c' d').2 hrun')
      · rcases List.mem_cons.1 hm with hm | hm
        · injection hm with _ hm
          rw [hm]; exact Nat.le_refl _
        · have := (List.pairwise_cons.1 (List.pairwise_append.1 hsorted).2.1).1 _ hm
          simp only at this
          omega
    rcases (hW d).1 hrun with ⟨hw, h1⟩ | ⟨hall, hd⟩
    · right
      refine ⟨⟨e, hw, h0, h1⟩, ?_⟩
      rintro c' d' ⟨e', hw', h0', h1'⟩
      exact hlen c' d' e' h0' ((hW d').2 (Or.inl ⟨hw', h1'⟩))
    · left
      refine ⟨?_, hd⟩
      rintro ⟨c', d', _, hw', _, h1'⟩
      exact h1' (hall d' hw')

/-! ### Letters and digits -/

/-- The text without blanks. -/
def noBlanks (s : Str) : Str := s.filter (fun c => c ≠ ' ')

theorem noBlanks_append (a b : Str) : noBlanks (a ++ b) = noBlanks a ++ noBlanks b := List.filter_append ..

/-- Blanks are put in between, nothing else happens. -/
theorem replaceLoop_ok {r : Rx} (hr : ∀ prev s m0 m, searchFrom r prev s = some (m0, m) →
      ∃ a, s = a ++ m0.rest ∧ m0.rest = m.cap 1 ++ m.cap 2 ++ m.rest ∧ m.cap 1 ≠ [] ∧ m.cap 2 ≠ []) :
    ∀ (n : Nat) (prev s : Str), noBlanks (replaceLoop r n prev s) = noBlanks s ∧
      (replaceLoop r n prev s).head? = s.head? ∧ (replaceLoop r n prev s).getLast? = s.getLast?
  | 0, prev, s => by simp [replaceLoop]
  | n + 1, prev, s => by
    rw [replaceLoop]
    cases hs : searchFrom r prev s with
    | none => simp
    | some mm =>
      obtain ⟨m0, m⟩ := mm
      obtain ⟨a, h1, h2, h3, h4⟩ := hr _ _ _ _ hs
      obtain ⟨i1, i2, i3⟩ := replaceLoop_ok hr n m.prev m.rest
      have htake : s.take (s.length - m0.rest.length) = a := by
        rw [h1]; simp
      simp only [htake]
      refine ⟨?_, ?_, ?_⟩
      · rw [h1, h2]
        simp only [noBlanks_append, i1, List.append_assoc]
        have : noBlanks c!" " = [] := by decide
        rw [this, List.nil_append]
      · rw [h1, h2]
        cases a with
        | nil =>
          cases hc : m.cap 1 with
          | nil => exact absurd hc h3
          | cons x xs => simp
        | cons x xs => simp
      · rw [h1, h2]
        by_cases hm : m.rest = []
        · have hl : replaceLoop r n m.prev m.rest = [] := by
            rw [hm] at i3 ⊢
            simpa using i3
          rw [hl, hm, List.append_nil, List.append_nil, getLast?_append_right h4, ← List.append_assoc,
            getLast?_append_right h4]
        · have hl : replaceLoop r n m.prev m.rest ≠ [] := by
            intro e
            rw [e] at i3
            exact hm (by simpa using i3.symm)
          rw [getLast?_append_right hl, i3, ← List.append_assoc, getLast?_append_right hm]

theorem digitsLetter_ok (u : UTables) : ∀ prev s m0 m, searchFrom (digitsLetter u) prev s = some (m0, m) →
    ∃ a, s = a ++ m0.rest ∧ m0.rest = m.cap 1 ++ m.cap 2 ++ m.rest ∧ m.cap 1 ≠ [] ∧ m.cap 2 ≠ [] := by
  intro prev s m0 m h
  obtain ⟨a, b, rfl, rfl, hm, _⟩ := searchFrom_some h
  have hmem := List.mem_of_mem_head? hm
  simp only [digitsLetter, Rx.seqs, mem_seq, mem_bol, mem_eol] at hmem
  obtain ⟨_, ⟨_, rfl⟩, y, hy, z, hz, _, rfl⟩ := hmem
  obtain ⟨y, p, hy', e1, rfl⟩ := mem_cap.1 hy
  obtain ⟨z, q, hz', e2, rfl⟩ := mem_cap.1 hz
  obtain ⟨p', hp0, _, e1', _⟩ := mem_plus.1 hy'
  obtain ⟨c, _, e2', hc⟩ := mem_cls.1 hz'
  have h1 := e1'.unique e1
  have h2 := e2'.unique e2
  subst h1 h2
  have e2'' : Eats y [c] z := e2
  simp only [M.cap, capOf, hc] at *
  exact ⟨a, rfl, by simpa using (e1.trans e2'').1, by simpa using hp0, by simp⟩

theorem letterDigits_ok (u : UTables) : ∀ prev s m0 m, searchFrom (letterDigits u) prev s = some (m0, m) →
    ∃ a, s = a ++ m0.rest ∧ m0.rest = m.cap 1 ++ m.cap 2 ++ m.rest ∧ m.cap 1 ≠ [] ∧ m.cap 2 ≠ [] := by
  intro prev s m0 m h
  obtain ⟨a, b, rfl, rfl, hm, _⟩ := searchFrom_some h
  have hmem := List.mem_of_mem_head? hm
  simp only [letterDigits, Rx.seqs, mem_seq, mem_wordStart, mem_wordEnd] at hmem
  obtain ⟨_, ⟨_, rfl⟩, y, hy, z, hz, _, rfl⟩ := hmem
  obtain ⟨y, p, hy', e1, rfl⟩ := mem_cap.1 hy
  obtain ⟨z, q, hz', e2, rfl⟩ := mem_cap.1 hz
  obtain ⟨c, _, e1', _⟩ := mem_cls.1 hy'
  obtain ⟨q', hq0, _, e2', hc⟩ := mem_plus.1 hz'
  have h1 := e1'.unique e1
  have h2 := e2'.unique e2
  subst h1 h2
  have e2'' : Eats y q' z := e2
  simp only [M.cap, capOf, hc] at *
  exact ⟨a, rfl, by simpa using (e1.trans e2'').1, by simp, by simpa using hq0⟩

/-! ### Words of a text that neither starts nor ends with a blank -/

theorem splitOn_flatten : ∀ s : Str, (splitOn ' ' s).flatten = noBlanks s
  | [] => rfl
  | c :: s => by
    have ih := splitOn_flatten s
    rw [splitOn]
    split
    · rename_i h; simp [noBlanks, h] at ih ⊢; exact ih
    · rename_i h
      obtain ⟨p, ps, e⟩ := List.exists_cons_of_ne_nil (splitOn_ne_nil ' ' s)
      rw [e] at ih ⊢
      simp only [List.flatten_cons, List.cons_append, noBlanks] at ih ⊢
      rw [ih, List.filter_cons_of_pos (by simpa using h)]

theorem keepLast_flatten : ∀ l : List Str, (keepLast l).flatten = l.flatten
  | [] => rfl
  | [q] => rfl
  | q :: r :: qs => by
    rw [keepLast]
    split
    · rename_i h; rw [keepLast_flatten]; simp [h]
    · rw [List.flatten_cons, keepLast_flatten, List.flatten_cons (L := r :: qs)]

theorem wordsOf_flatten (s : Str) : (wordsOf s).flatten = noBlanks s := by
  obtain ⟨p, ps, h1, h2⟩ := wordsOf_eq s
  rw [h2, List.flatten_cons, keepLast_flatten, ← List.flatten_cons, ← h1, splitOn_flatten]

theorem splitOn_head {s : Str} {p : Str} {ps : List Str} (h : splitOn ' ' s = p :: ps) (h0 : s ≠ [])
    (hb : s.head? ≠ some ' ') : p ≠ [] := by
  cases s with
  | nil => exact absurd rfl h0
  | cons c s =>
    rw [splitOn, if_neg (by simpa using hb)] at h
    obtain ⟨q, qs, e⟩ := List.exists_cons_of_ne_nil (splitOn_ne_nil ' ' s)
    rw [e] at h
    simp only [List.cons.injEq] at h
    rw [← h.1]; simp

theorem splitOn_last : ∀ {s : Str}, s ≠ [] → s.getLast? ≠ some ' ' → (splitOn ' ' s).getLast? ≠ some []
  | [], h0, _ => absurd rfl h0
  | [c], _, hb => by
    have : c ≠ ' ' := by simpa using hb
    rw [splitOn, if_neg this]; simp [splitOn]
  | c :: d :: s, _, hb => by
    have ih := splitOn_last (s := d :: s) (by simp) (by simpa using hb)
    obtain ⟨q, qs, e⟩ := List.exists_cons_of_ne_nil (splitOn_ne_nil ' ' (d :: s))
    rw [splitOn]
    split
    · rw [e] at ih ⊢
      simpa using ih
    · rw [e] at ih ⊢
      cases qs with
      | nil => simp
      | cons r rs => simpa using ih

theorem keepLast_nonempty : ∀ l : List Str, l.getLast? ≠ some [] → ∀ p ∈ keepLast l, p ≠ []
  | [], _ => by simp [keepLast]
  | [q], h => by
    intro p hp
    rw [keepLast, List.mem_singleton] at hp
    subst hp
    simpa using h
  | q :: r :: qs, h => by
    have ih := keepLast_nonempty (r :: qs) (by simpa using h)
    intro p hp
    rw [keepLast] at hp
    split at hp
    · exact ih p hp
    · rename_i hq
      rcases List.mem_cons.1 hp with rfl | hp
      · exact hq
      · exact ih p hp

theorem wordsOf_nonempty {s : Str} (h0 : s ≠ []) (hh : s.head? ≠ some ' ') (hl : s.getLast? ≠ some ' ') :
    ∀ p ∈ wordsOf s, p ≠ [] := by
  obtain ⟨p, ps, h1, h2⟩ := wordsOf_eq s
  have hlast := splitOn_last h0 hl
  rw [h2]
  rw [h1] at hlast
  intro q hq
  rcases List.mem_cons.1 hq with rfl | hq
  · exact splitOn_head h1 h0 hh
  · refine keepLast_nonempty ps ?_ q hq
    cases ps with
    | nil => simp
    | cons r rs => simpa using hlast

/-- The pieces of a text that mixes letters and digits, put together, are the text. -/
theorem mixedPieces_ok (u : UTables) {s : Str} (h0 : s ≠ []) (hb : ' ' ∉ s) :
    (mixedPieces u s).flatten = s ∧ ∀ p ∈ mixedPieces u s, p ≠ [] := by
  rw [mixedPieces, splitBlanks_eq]
  obtain ⟨a1, a2, a3⟩ := replaceLoop_ok (digitsLetter_ok u) (s.length + 1) [] s
  obtain ⟨b1, b2, b3⟩ := replaceLoop_ok (letterDigits_ok u) ((replace12 (digitsLetter u) s).length + 1) []
    (replace12 (digitsLetter u) s)
  have h1 : noBlanks (replace12 (letterDigits u) (replace12 (digitsLetter u) s)) = s := by
    rw [replace12, b1, replace12, a1, noBlanks, List.filter_eq_self]
    intro c hc
    simp only [ne_eq, decide_not, Bool.not_eq_true', decide_eq_false_iff_not]
    rintro rfl; exact hb hc
  have h2 : (replace12 (letterDigits u) (replace12 (digitsLetter u) s)).head? = s.head? := by
    rw [replace12, b2, replace12, a2]
  have h3 : (replace12 (letterDigits u) (replace12 (digitsLetter u) s)).getLast? = s.getLast? := by
    rw [replace12, b3, replace12, a3]
  refine ⟨by rw [wordsOf_flatten, h1], wordsOf_nonempty ?_ ?_ ?_⟩
  · intro e
    rw [e] at h1
    exact h0 h1.symm
  · rw [h2]; intro e; exact hb (List.mem_of_head? e)
  · rw [h3]; intro e; exact hb (List.mem_of_getLast? e)

/-! ### Which pieces -/

theorem word_not_sep (u : UTables) {c : Char} (h : u.isWord c = true) : isSep c = false := by
  rw [Bool.eq_false_iff]
  intro hs
  have := u.space_not_word c (u.sep_space c hs)
  rw [h] at this; cases this

/-- On a text of word characters the first pattern matches the whole text or nothing. -/
theorem digitsLetter_match (u : UTables) {s : Str} (hw : ∀ c ∈ s, u.isWord c = true) {a b : Str} (e : s = a ++ b)
    {m : M} (hm : m ∈ (digitsLetter u).run ⟨a.reverse ++ [], b, []⟩) :
    a = [] ∧ m.rest = [] ∧ ∃ ds c, s = ds ++ [c] ∧ RunOf u.digit ds ∧ isLetter u c = true ∧
      m.cap 1 = ds ∧ m.cap 2 = [c] := by
  simp only [digitsLetter, Rx.seqs, mem_seq, mem_bol, mem_eol, List.append_nil] at hm
  obtain ⟨_, ⟨hbol, rfl⟩, y, hy, z, hz, heol, rfl⟩ := hm
  obtain ⟨y, p, hy', e1, rfl⟩ := mem_cap.1 hy
  obtain ⟨z, q, hz', e2, rfl⟩ := mem_cap.1 hz
  obtain ⟨p', hp0, hp, e1', _⟩ := mem_plus.1 hy'
  obtain ⟨c, hc, e2', hcaps⟩ := mem_cls.1 hz'
  have h1 := e1'.unique e1
  have h2 := e2'.unique e2
  subst h1 h2
  have e2'' : Eats y [c] z := e2
  have etot := (e1.trans e2'').1
  simp only at etot
  have ha : a = [] := by
    rcases atBol_iff.1 hbol with h | ⟨d, h1, h2, _⟩
    · exact h
    · have := word_not_sep u (hw d (by rw [e]; exact List.mem_append_left _ (List.mem_of_getLast? h1)))
      exact absurd (this.symm.trans h2) Bool.false_ne_true
  have hr : z.rest = [] := by
    cases hz : z.rest with
    | nil => rfl
    | cons d r =>
      exfalso
      have hd : isSep d = true := by
        have h' := heol
        rw [atEol] at h'
        simp only [hz] at h'
        cases hp2 : z.prev with
        | nil => simpa [hp2] using h'
        | cons q qs => rw [hp2] at h'; simp at h'; exact h'.1
      have := word_not_sep u (hw d (by rw [e, etot, hz]; simp))
      rw [this] at hd; cases hd
  refine ⟨ha, hr, p', c, ?_, ⟨hp0, hp⟩, hc, ?_, ?_⟩
  · rw [e, etot, ha, hr]; simp
  · simp [M.cap, capOf, hcaps]
  · simp [M.cap, capOf]

theorem replaceLoop_nil {r : Rx} (hr : ∀ prev s m0 m, searchFrom r prev s = some (m0, m) →
      ∃ a, s = a ++ m0.rest ∧ m0.rest = m.cap 1 ++ m.cap 2 ++ m.rest ∧ m.cap 1 ≠ [] ∧ m.cap 2 ≠ [])
    (n : Nat) (prev : Str) : replaceLoop r n prev [] = [] := by
  have := (replaceLoop_ok hr n prev []).2.2
  simpa using this

theorem replace_digitsLetter (u : UTables) {s : Str} (hw : ∀ c ∈ s, u.isWord c = true) :
    (∀ ds c, s = ds ++ [c] → RunOf u.digit ds → isLetter u c = true →
      replace12 (digitsLetter u) s = ds ++ c!" " ++ [c]) ∧
    ((¬ ∃ ds c, s = ds ++ [c] ∧ RunOf u.digit ds ∧ isLetter u c = true) → replace12 (digitsLetter u) s = s) := by
  cases hs : searchFrom (digitsLetter u) [] s with
  | none =>
    have hnone := searchFrom_none.1 hs
    constructor
    · intro ds c e hds hc
      exfalso
      have := hnone [] s rfl
      have hmem : (⟨c :: ds.reverse, [], [(2, [c]), (1, ds)]⟩ : M) ∈ (digitsLetter u).run ⟨[].reverse ++ [], s, []⟩ := by
        simp only [digitsLetter, Rx.seqs, mem_seq, mem_bol, mem_eol]
        refine ⟨⟨[], s, []⟩, ⟨by simp [atBol], rfl⟩, ⟨ds.reverse, [c], [(1, ds)]⟩, ?_, _, ?_, ?_, rfl⟩
        · exact mem_cap.2 ⟨⟨ds.reverse, [c], []⟩, ds, mem_plus.2 ⟨ds, hds.1, hds.2, ⟨e, by simp⟩, rfl⟩, ⟨e, by simp⟩, rfl⟩
        · exact mem_cap.2 ⟨⟨c :: ds.reverse, [], [(1, ds)]⟩, [c], mem_cls.2 ⟨c, hc, ⟨rfl, rfl⟩, rfl⟩, ⟨rfl, rfl⟩, rfl⟩
        · simp [atEol]
      rw [this] at hmem; cases hmem
    · intro _
      rw [replace12, replaceLoop, hs]
  | some mm =>
    obtain ⟨m0, m⟩ := mm
    obtain ⟨a, b, e, rfl, hm, _⟩ := searchFrom_some hs
    obtain ⟨rfl, hr, ds, c, e', hds, hc, c1, c2⟩ := digitsLetter_match u hw e (List.mem_of_mem_head? hm)
    constructor
    · intro ds' c' e'' _ _
      have hx := e'.symm.trans e''
      obtain ⟨h1, h2⟩ := List.append_inj' hx rfl
      rw [← h1, ← h2, replace12, replaceLoop, hs]
      simp only [hr, c1, c2, replaceLoop_nil (digitsLetter_ok u)]
      rw [e]; simp
    · intro hno
      exact absurd ⟨ds, c, e', hds, hc⟩ hno

theorem letterDigits_match (u : UTables) {s : Str} (hw : ∀ c ∈ s, u.isWord c = true) {a b : Str} (e : s = a ++ b)
    {m : M} (hm : m ∈ (letterDigits u).run ⟨a.reverse ++ [], b, []⟩) :
    a = [] ∧ m.rest = [] ∧ ∃ c ds, s = c :: ds ∧ RunOf u.digit ds ∧ isLetter u c = true ∧
      m.cap 1 = [c] ∧ m.cap 2 = ds := by
  simp only [letterDigits, Rx.seqs, mem_seq, mem_wordStart, mem_wordEnd, List.append_nil] at hm
  obtain ⟨_, ⟨hws, rfl⟩, y, hy, z, hz, hwe, rfl⟩ := hm
  obtain ⟨y, p, hy', e1, rfl⟩ := mem_cap.1 hy
  obtain ⟨z, q, hz', e2, rfl⟩ := mem_cap.1 hz
  obtain ⟨c, hc, e1', _⟩ := mem_cls.1 hy'
  obtain ⟨q', hq0, hq, e2', hcaps⟩ := mem_plus.1 hz'
  have h1 := e1'.unique e1
  have h2 := e2'.unique e2
  subst h1 h2
  have e2'' : Eats y q' z := e2
  have etot := (e1.trans e2'').1
  simp only at etot
  have ha : a = [] := by
    refine Classical.byContradiction fun h0 => ?_
    obtain ⟨d, hd⟩ : ∃ d, a.reverse.head? = some d := by
      cases hrev : a.reverse with
      | nil => exact absurd (by simpa using hrev) h0
      | cons d _ => exact ⟨d, rfl⟩
    have hdw := hw d (by rw [e]; exact List.mem_append_left _ (by simpa using List.mem_of_head? hd))
    rw [atWordStart.eq_def] at hws
    cases hrev : a.reverse with
    | nil => rw [hrev] at hd; cases hd
    | cons d' r =>
      rw [hrev] at hd hws
      simp only [List.head?_cons, Option.some.injEq] at hd
      subst hd
      cases b with
      | nil => simp at hws
      | cons _ _ => simp [hdw] at hws
  have hr : z.rest = [] := by
    cases hz : z.rest with
    | nil => rfl
    | cons d r =>
      exfalso
      have hdw := hw d (by rw [e, etot, hz]; simp)
      rw [atWordEnd.eq_def] at hwe
      cases hp : z.prev with
      | nil => simp [hp] at hwe
      | cons _ _ => simp [hp, hz, hdw] at hwe
  refine ⟨ha, hr, c, q', ?_, ⟨hq0, hq⟩, hc, ?_, ?_⟩
  · rw [e, etot, ha, hr]; simp
  · simp [M.cap, capOf, hcaps]
  · simp [M.cap, capOf]

theorem replace_letterDigits (u : UTables) {s : Str} (hw : ∀ c ∈ s, u.isWord c = true) :
    (∀ c ds, s = c :: ds → RunOf u.digit ds → isLetter u c = true →
      replace12 (letterDigits u) s = [c] ++ c!" " ++ ds) ∧
    ((¬ ∃ c ds, s = c :: ds ∧ RunOf u.digit ds ∧ isLetter u c = true) → replace12 (letterDigits u) s = s) := by
  cases hs : searchFrom (letterDigits u) [] s with
  | none =>
    have hnone := searchFrom_none.1 hs
    constructor
    · intro c ds e hds hc
      exfalso
      have := hnone [] s rfl
      have hmem : (⟨ds.reverse ++ [c], [], [(2, ds), (1, [c])]⟩ : M) ∈ (letterDigits u).run ⟨[].reverse ++ [], s, []⟩ := by
        simp only [letterDigits, Rx.seqs, mem_seq, mem_wordStart, mem_wordEnd]
        refine ⟨⟨[], s, []⟩, ⟨?_, rfl⟩, ⟨[c], ds, [(1, [c])]⟩, ?_, _, ?_, ?_, rfl⟩
        · rw [e]
          have := hw c (by rw [e]; simp)
          simpa [atWordStart] using this
        · exact mem_cap.2 ⟨⟨[c], ds, []⟩, [c], mem_cls.2 ⟨c, hc, ⟨e, rfl⟩, rfl⟩, ⟨e, rfl⟩, rfl⟩
        · exact mem_cap.2 ⟨⟨ds.reverse ++ [c], [], [(1, [c])]⟩, ds,
            mem_plus.2 ⟨ds, hds.1, hds.2, ⟨by simp, rfl⟩, rfl⟩, ⟨by simp, rfl⟩, rfl⟩
        · rw [atWordEnd.eq_def]
          cases hp : ds.reverse ++ [c] with
          | nil => simp at hp
          | cons d _ =>
            have hd : d ∈ s := by
              have : d ∈ ds.reverse ++ [c] := by rw [hp]; simp
              rw [e]; simp at this ⊢; exact this.symm
            simpa using hw d hd
      rw [this] at hmem; cases hmem
    · intro _
      rw [replace12, replaceLoop, hs]
  | some mm =>
    obtain ⟨m0, m⟩ := mm
    obtain ⟨a, b, e, rfl, hm, _⟩ := searchFrom_some hs
    obtain ⟨rfl, hr, c, ds, e', hds, hc, c1, c2⟩ := letterDigits_match u hw e (List.mem_of_mem_head? hm)
    constructor
    · intro c' ds' e'' _ _
      have hx := e'.symm.trans e''
      simp only [List.cons.injEq] at hx
      rw [← hx.1, ← hx.2, replace12, replaceLoop, hs]
      simp only [hr, c1, c2, replaceLoop_nil (letterDigits_ok u)]
      rw [e]; simp
    · intro hno
      exact absurd ⟨c, ds, e', hds, hc⟩ hno

theorem letter_not_digit (u : UTables) {c : Char} (h : isLetter u c = true) : u.digit c = false := by
  rw [Bool.eq_false_iff]
  intro hd
  have := u.digit_not_letter c hd
  rw [isLetter, this.1, this.2] at h
  cases h

theorem letter_not_blank (u : UTables) {c : Char} (h : isLetter u c = true) : c ≠ ' ' := by
  rintro rfl
  have hw : u.isWord ' ' = true := by
    rw [isLetter, Bool.or_eq_true] at h
    exact h.elim (u.alpha_word _) (u.letter_word _)
  have := u.space_not_word ' ' (u.cspace_space _ (by decide))
  rw [hw] at this; cases this

/-- After the first replacement the second finds nothing. -/
theorem replace_after (u : UTables) {ds : Str} {c : Char} (hds : RunOf u.digit ds) :
    replace12 (letterDigits u) (ds ++ c!" " ++ [c]) = ds ++ c!" " ++ [c] := by
  have hs : searchFrom (letterDigits u) [] (ds ++ c!" " ++ [c]) = none := by
    rw [searchFrom_none]
    intro a b e
    refine Classical.byContradiction fun hne => ?_
    obtain ⟨m, hm⟩ := List.exists_mem_of_ne_nil _ hne
    simp only [letterDigits, Rx.seqs, mem_seq, mem_wordStart, mem_wordEnd] at hm
    obtain ⟨_, ⟨hws, rfl⟩, y, hy, z, hz, hwe, rfl⟩ := hm
    obtain ⟨y, p, hy', e1, rfl⟩ := mem_cap.1 hy
    obtain ⟨z, q, hz', e2, rfl⟩ := mem_cap.1 hz
    obtain ⟨x, hx, e1', _⟩ := mem_cls.1 hy'
    obtain ⟨q', hq0, hq, e2', hcaps⟩ := mem_plus.1 hz'
    have h1 := e1'.unique e1
    have h2 := e2'.unique e2
    subst h1 h2
    have e2'' : Eats y q' z := e2
    have etot := (e1.trans e2'').1
    simp only at etot
    rw [etot, List.append_assoc] at e
    have hblank := letter_not_blank u hx
    have hdig := letter_not_digit u hx
    rcases cuts e with ⟨k, h1, h2⟩ | ⟨k, h1, h2⟩
    · cases k with
      | nil => simp only [List.nil_append, List.cons_append, List.cons.injEq] at h2; exact hblank h2.1.symm
      | cons k1 k =>
        have hl := congrArg List.length h2
        have := List.length_pos_iff.2 hq0
        simp only [List.length_append, List.length_cons, List.length_nil] at hl
        omega
    · cases k with
      | nil => simp only [List.nil_append, List.cons_append, List.cons.injEq] at h2; exact hblank h2.1
      | cons k1 k =>
        simp only [List.cons_append, List.cons.injEq] at h2
        have := hds.2 x (by rw [h1, h2.1]; simp)
        rw [hdig] at this; cases this
  rw [replace12, replaceLoop, hs]

theorem splitBlanks_plain {s : Str} (h : ' ' ∉ s) : wordsOf s = [s] := by
  have h1 := (wordsOf_length s).2 h
  have h2 := wordsOf_flatten s
  obtain ⟨p, hp⟩ := List.length_eq_one_iff.1 h1
  rw [hp] at h2 ⊢
  simp only [List.flatten_cons, List.flatten_nil, List.append_nil] at h2
  rw [h2, noBlanks, List.filter_eq_self.2]
  intro c hc
  simp only [ne_eq, decide_not, Bool.not_eq_true', decide_eq_false_iff_not]
  rintro rfl; exact h hc

theorem splitOn_two : ∀ {a b : Str}, ' ' ∉ a → ' ' ∉ b → splitOn ' ' (a ++ c!" " ++ b) = [a, b]
  | [], b, _, hb => by
    have hs : splitOn ' ' b = [b] := by
      obtain ⟨p, ps, e⟩ := List.exists_cons_of_ne_nil (splitOn_ne_nil ' ' b)
      have h1 := (splitOn_length ' ' b).2 hb
      have h2 := splitOn_flatten b
      obtain ⟨q, hq⟩ := List.length_eq_one_iff.1 h1
      rw [hq] at h2 ⊢
      simp only [List.flatten_cons, List.flatten_nil, List.append_nil] at h2
      rw [h2, noBlanks, List.filter_eq_self.2]
      intro c hc
      simp only [ne_eq, decide_not, Bool.not_eq_true', decide_eq_false_iff_not]
      rintro rfl; exact hb hc
    simp [splitOn, hs]
  | c :: a, b, ha, hb => by
    simp only [List.mem_cons, not_or] at ha
    have ih := splitOn_two ha.2 hb
    rw [List.cons_append, List.cons_append, splitOn, if_neg (fun e => ha.1 e.symm), ih]

theorem wordsOf_two {a b : Str} (ha : ' ' ∉ a) (hb : ' ' ∉ b) : wordsOf (a ++ c!" " ++ b) = [a, b] := by
  obtain ⟨p, ps, h1, h2⟩ := wordsOf_eq (a ++ c!" " ++ b)
  rw [splitOn_two ha hb] at h1
  injection h1 with h1 h3
  rw [h2, ← h1, ← h3]; rfl

theorem word_not_blank (u : UTables) {s : Str} (hw : ∀ c ∈ s, u.isWord c = true) : ' ' ∉ s := by
  intro h
  have := u.space_not_word ' ' (u.cspace_space _ (by decide))
  rw [hw _ h] at this; cases this

/-- Digits and a letter, a letter and digits, or one piece. -/
theorem mixedPieces_eq (u : UTables) {s : Str} (hw : ∀ c ∈ s, u.isWord c = true) :
    (∀ ds c, s = ds ++ [c] → RunOf u.digit ds → isLetter u c = true → mixedPieces u s = [ds, [c]]) ∧
    (∀ c ds, s = c :: ds → RunOf u.digit ds → isLetter u c = true → mixedPieces u s = [[c], ds]) ∧
    ((¬ ∃ ds c, s = ds ++ [c] ∧ RunOf u.digit ds ∧ isLetter u c = true) →
      (¬ ∃ c ds, s = c :: ds ∧ RunOf u.digit ds ∧ isLetter u c = true) → mixedPieces u s = [s]) := by
  obtain ⟨a1, a2⟩ := replace_digitsLetter u hw
  obtain ⟨b1, b2⟩ := replace_letterDigits u hw
  refine ⟨?_, ?_, ?_⟩
  · intro ds c e hds hc
    rw [mixedPieces, splitBlanks_eq, a1 ds c e hds hc, replace_after u hds]
    have hb := word_not_blank u hw
    rw [e, List.mem_append, not_or] at hb
    exact wordsOf_two hb.1 hb.2
  · intro c ds e hds hc
    have hno : ¬ ∃ ds c, s = ds ++ [c] ∧ RunOf u.digit ds ∧ isLetter u c = true := by
      rintro ⟨ds', c', e', hds', _⟩
      cases ds' with
      | nil => exact hds'.1 rfl
      | cons d ds' =>
        rw [e] at e'
        simp only [List.cons_append, List.cons.injEq] at e'
        have := hds'.2 d (by simp)
        rw [← e'.1, letter_not_digit u hc] at this; cases this
    rw [mixedPieces, splitBlanks_eq, a2 hno, b1 c ds e hds hc]
    have hb := word_not_blank u hw
    rw [e, List.mem_cons, not_or] at hb
    exact wordsOf_two (by simpa using hb.1) hb.2
  · intro h1 h2
    rw [mixedPieces, splitBlanks_eq, a2 h1, b2 h2]
    exact splitBlanks_plain (word_not_blank u hw)

end Tokenizer
end AS
