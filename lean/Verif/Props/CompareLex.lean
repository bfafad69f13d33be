import Verif.Spec.CompareLex
import Verif.Lemmas.Str
/-
Properties of tools/compare-lexicon.
-/
namespace AS.Props
open AS.CompareLex

theorem perlSpace_iff (c : Char) : perlSpace c = true ↔ White c := by
  unfold perlSpace White
  have hc : ∀ d : Char, c = d ↔ c.toNat = d.toNat := fun d => ⟨fun h => h ▸ rfl, fun h => Char.toNat_inj.1 h⟩
  rw [Bool.or_eq_true, beq_iff_eq, Bool.and_eq_true, decide_eq_true_eq, decide_eq_true_eq]
  rw [hc ' ', hc '\t', hc '\n', hc '\x0b', hc '\x0c', hc '\r']
  have e0 : ' '.toNat = 32 := rfl
  have e1 : '\t'.toNat = 9 := rfl
  have e2 : '\n'.toNat = 10 := rfl
  have e3 : '\x0b'.toNat = 11 := rfl
  have e4 : '\x0c'.toNat = 12 := rfl
  have e5 : '\r'.toNat = 13 := rfl
  omega

theorem skip_iff : ∀ l : Str, skip l = true ↔ Skipped l
  | [] => by simp [skip, Skipped]
  | c :: l => by
    unfold skip
    rw [List.dropWhile_cons]
    by_cases h : perlSpace c = true
    · rw [if_pos h]
      have ih := skip_iff l
      unfold skip at ih
      rw [ih]
      have hb := (perlSpace_iff c).1 h
      constructor
      · rintro (h1 | ⟨a, b, rfl, h1⟩)
        · refine Or.inl (fun d hd => ?_)
          rcases List.mem_cons.1 hd with rfl | hd
          · exact hb
          · exact h1 d hd
        · refine Or.inr ⟨c :: a, b, rfl, fun d hd => ?_⟩
          rcases List.mem_cons.1 hd with rfl | hd
          · exact hb
          · exact h1 d hd
      · rintro (h1 | ⟨a, b, e, h1⟩)
        · exact Or.inl (fun d hd => h1 d (List.mem_cons_of_mem _ hd))
        · cases a with
          | nil =>
            cases (List.cons.inj e).1
            exact absurd h (by decide)
          | cons x a =>
            obtain ⟨rfl, rfl⟩ := List.cons.inj e
            exact Or.inr ⟨a, b, rfl, fun d hd => h1 d (List.mem_cons_of_mem _ hd)⟩
    · rw [if_neg h]
      have hb := mt (perlSpace_iff c).2 h
      simp only [beq_iff_eq]
      constructor
      · rintro rfl
        exact Or.inr ⟨[], l, rfl, by simp⟩
      · rintro (h1 | ⟨a, b, e, h1⟩)
        · exact absurd (h1 c List.mem_cons_self) hb
        · cases a with
          | nil => exact (List.cons.inj e).1
          | cons x a =>
            obtain ⟨rfl, rfl⟩ := List.cons.inj e
            exact absurd (h1 c List.mem_cons_self) hb

theorem readA_body (file : Str) {ls es : List Str} (h : Counted ls es) : ∀ t : Hash, ∃ t',
    readA file true t ls = .ok t' ∧ ((t'.lookup c!"key").isSome = true ↔ (t.lookup c!"key").isSome = true ∨ es ≠ []) := by
  induction h with
  | nil => intro t; exact ⟨t, rfl, by simp⟩
  | skipped hs _ ih =>
    intro t
    rw [readA, if_pos ((skip_iff _).2 hs)]
    exact ih t
  | @counted l ls es hs _ ih =>
    intro t
    rw [readA, if_neg (fun h => hs ((skip_iff _).1 h)), if_neg (by decide)]
    obtain ⟨t', h1, h2⟩ := ih (t.push c!"key" ((lineFields l).drop 1))
    refine ⟨t', h1, ?_⟩
    rw [h2]
    have : ((t.push c!"key" ((lineFields l).drop 1)).lookup c!"key").isSome = true := by
      have hm : ∀ u : Hash, (u.lookup c!"key").isSome = true ↔ c!"key" ∈ u.map (·.1) := by
        intro u
        induction u with
        | nil => simp
        | cons e u ih =>
          rw [List.lookup_cons]
          by_cases he : c!"key" = e.1
          · have : (c!"key" == e.1) = true := by simpa using he
            rw [this]
            simp only [Option.isSome_some, true_iff, List.map_cons, List.mem_cons]
            exact Or.inl he
          · have : (c!"key" == e.1) = false := by simpa using he
            rw [this]
            simp only [List.map_cons, List.mem_cons]
            rw [ih]
            exact ⟨Or.inr, fun h => h.resolve_left he⟩
      unfold Hash.push
      split
      · rename_i hk
        rw [hm] at hk ⊢
        rw [List.map_map]
        have : t.map ((fun e : Str × List (List Str) => e.1) ∘ fun e => if e.1 = c!"key" then (e.1, e.2 ++ [(lineFields l).drop 1]) else e) =
            t.map (·.1) := by
          apply List.map_congr_left
          intro e _
          simp only [Function.comp_apply]
          split <;> rfl
        rw [this]
        exact hk
      · rw [hm]; simp
    exact ⟨fun _ => Or.inr (by simp), fun _ => Or.inl this⟩

theorem readA_start (file : Str) {ls es : List Str} (h : Counted ls es) : ∀ t : Hash,
    (es = [] → readA file false t ls = .ok t) ∧
    ∀ l rest, es = l :: rest → (c!"LEXICON:" <+: l → ∃ ls', Counted ls' rest ∧ readA file false t ls = readA file true t ls') ∧
      (¬ c!"LEXICON:" <+: l → readA file false t ls = .error (syntaxError l file)) := by
  induction h with
  | nil => intro t; exact ⟨fun _ => rfl, fun l rest h => by cases h⟩
  | skipped hs _ ih =>
    intro t
    rw [readA, if_pos ((skip_iff _).2 hs)]
    exact ih t
  | @counted l ls es hs hc _ =>
    intro t
    refine ⟨fun h => (by cases h), ?_⟩
    intro _ _ h
    obtain ⟨rfl, rfl⟩ := List.cons.inj h
    rw [readA, if_neg (fun h => hs ((skip_iff _).1 h)), if_pos rfl]
    refine ⟨fun hp => ⟨ls, hc, by rw [if_pos (List.isPrefixOf_iff_prefix.2 hp)]⟩, fun hp => ?_⟩
    rw [if_neg (fun h => hp (List.isPrefixOf_iff_prefix.1 h))]

theorem readB_body (file : Str) (t : Hash) {ls es : List Str} (h : Counted ls es) : ∀ out : Str,
    readB file t true out ls = .ok (if (t.lookup c!"key").isSome = true then out else out ++ unlines es) := by
  induction h with
  | nil => intro out; simp [readB, unlines]
  | skipped hs _ ih =>
    intro out
    rw [readB, if_pos ((skip_iff _).2 hs)]
    exact ih out
  | @counted l ls es hs _ ih =>
    intro out
    rw [readB, if_neg (fun h => hs ((skip_iff _).1 h)), if_neg (by decide), ih]
    split
    · rfl
    · simp [unlines]

theorem readB_start (file : Str) (t : Hash) {ls es : List Str} (h : Counted ls es) : ∀ out : Str,
    (es = [] → readB file t false out ls = .ok out) ∧
    ∀ l rest, es = l :: rest → (c!"LEXICON:" <+: l → ∃ ls', Counted ls' rest ∧ readB file t false out ls = readB file t true out ls') ∧
      (¬ c!"LEXICON:" <+: l → readB file t false out ls = .error (syntaxError l file)) := by
  induction h with
  | nil => intro out; exact ⟨fun _ => rfl, fun l rest h => by cases h⟩
  | skipped hs _ ih =>
    intro out
    rw [readB, if_pos ((skip_iff _).2 hs)]
    exact ih out
  | @counted l ls es hs hc _ =>
    intro out
    refine ⟨fun h => (by cases h), ?_⟩
    intro _ _ h
    obtain ⟨rfl, rfl⟩ := List.cons.inj h
    rw [readB, if_neg (fun h => hs ((skip_iff _).1 h)), if_pos rfl]
    refine ⟨fun hp => ⟨ls, hc, by rw [if_pos (List.isPrefixOf_iff_prefix.2 hp)]⟩, fun hp => ?_⟩
    rw [if_neg (fun h => hp (List.isPrefixOf_iff_prefix.1 h))]

theorem readA_entries (file : Str) {ls es : List Str} (h : HasEntries ls es) : ∃ t,
    readA file false [] ls = .ok t ∧ ((t.lookup c!"key").isSome = true ↔ es ≠ []) := by
  rcases h with ⟨h, rfl⟩ | ⟨hd, hp, h⟩
  · exact ⟨[], (readA_start file h []).1 rfl, by simp⟩
  · obtain ⟨ls', hc, e⟩ := ((readA_start file h []).2 hd es rfl).1 hp
    obtain ⟨t, h1, h2⟩ := readA_body file hc []
    exact ⟨t, by rw [e, h1], by rw [h2]; simp⟩

/-- What the script reports of two lexicons: all entries of the second one if the first one has no entry, and nothing if it
has one. -/
theorem C104_report (fa fb : Str) {a b ea eb : List Str} (ha : HasEntries a ea) (hb : HasEntries b eb) :
    report fa a fb b = .ok (if ea = [] then unlines eb else []) := by
  obtain ⟨t, h1, h2⟩ := readA_entries fa ha
  unfold report
  rw [h1]
  simp only
  have key : readB fb t false [] b = .ok (if (t.lookup c!"key").isSome = true then [] else unlines eb) := by
    rcases hb with ⟨h, rfl⟩ | ⟨hd, hp, h⟩
    · rw [(readB_start fb t h []).1 rfl]
      simp [unlines]
    · obtain ⟨ls', hc, e⟩ := ((readB_start fb t h []).2 hd eb rfl).1 hp
      rw [e, readB_body fb t hc]
      rfl
  rw [key]
  by_cases he : ea = []
  · rw [if_pos he, if_neg (fun h => h2.1 h he)]
  · rw [if_neg he, if_pos (h2.2 he)]

/-- So the report is the one the script promises just if the first lexicon has no entry, or the second one has no entry for a
word that the first one lacks. -/
theorem C104_right (fa fb : Str) {a b ea eb : List Str} (ha : HasEntries a ea) (hb : HasEntries b eb) :
    report fa a fb b = .ok (unlines (missing ea eb)) ↔ ea = [] ∨ missing ea eb = [] := by
  rw [C104_report fa fb ha hb]
  by_cases he : ea = []
  · subst he
    have : missing [] eb = eb := List.filter_eq_self.2 (by simp)
    simp [this]
  · rw [if_neg he]
    constructor
    · intro h
      right
      injection h with h
      cases hm : missing ea eb with
      | nil => rfl
      | cons l ls => rw [hm] at h; simp [unlines] at h
    · rintro (h | h)
      · exact absurd h he
      · rw [h]; rfl

/-- A file in which the first line that counts is not a header ends the script with a message that tells the line and the
file; the second file is looked at only if the first one is in order. Every file is of one kind or the other. -/
theorem C104_errors (fa fb : Str) (a b : List Str) :
    ((∃ es, HasEntries a es) ∨ ∃ l, NoHeader a l) ∧
    (∀ l, NoHeader a l → report fa a fb b = .error (c!"ERROR: '" ++ l ++ c!"' file syntax error processing '" ++ fa ++ c!"'!\n")) ∧
    ∀ ea l, HasEntries a ea → NoHeader b l →
      report fa a fb b = .error (c!"ERROR: '" ++ l ++ c!"' file syntax error processing '" ++ fb ++ c!"'!\n") := by
  refine ⟨?_, ?_, ?_⟩
  · have : ∀ ls : List Str, ∃ es, Counted ls es := by
      intro ls
      induction ls with
      | nil => exact ⟨[], .nil⟩
      | cons l ls ih =>
        obtain ⟨es, h⟩ := ih
        by_cases hs : Skipped l
        · exact ⟨es, .skipped hs h⟩
        · exact ⟨l :: es, .counted hs h⟩
    obtain ⟨es, h⟩ := this a
    cases es with
    | nil => exact Or.inl ⟨[], Or.inl ⟨h, rfl⟩⟩
    | cons l es =>
      by_cases hp : c!"LEXICON:" <+: l
      · exact Or.inl ⟨es, Or.inr ⟨l, hp, h⟩⟩
      · exact Or.inr ⟨l, hp, es, h⟩
  · rintro l ⟨hp, es, h⟩
    unfold report
    rw [((readA_start fa h []).2 l es rfl).2 hp]
    rfl
  · rintro ea l ha ⟨hp, es, h⟩
    obtain ⟨t, h1, _⟩ := readA_entries fa ha
    unfold report
    rw [h1]
    exact ((readB_start fb t h []).2 l es rfl).2 hp

/-! ### Examples -/

/-- Two lexicons with a word each. -/
def lexA : List Str := [c!"# first", c!"LEXICON:\tA\tENG\ten\t", c!"LEXENTRY:\tST\tSTREET\tTYPE\t"]
def lexB : List Str := [c!"LEXICON:\tB\tENG\ten\t", c!"  ", c!"LEXENTRY:\tAVE\tAVENUE\tTYPE\t"]

instance (l : Str) : Decidable (Skipped l) := decidable_of_iff _ (skip_iff l)

theorem lexA_entries : HasEntries lexA [c!"LEXENTRY:\tST\tSTREET\tTYPE\t"] :=
  Or.inr ⟨c!"LEXICON:\tA\tENG\ten\t", List.isPrefixOf_iff_prefix.1 (by decide),
    .skipped (by decide +kernel) (.counted (by decide +kernel) (.counted (by decide +kernel) .nil))⟩

theorem lexB_entries : HasEntries lexB [c!"LEXENTRY:\tAVE\tAVENUE\tTYPE\t"] :=
  Or.inr ⟨c!"LEXICON:\tB\tENG\ten\t", List.isPrefixOf_iff_prefix.1 (by decide),
    .counted (by decide +kernel) (.skipped (by decide +kernel) (.counted (by decide +kernel) .nil))⟩

/-- There are lexicons for which the report is wrong. -/
theorem C104_wrong : ∃ a b ea eb, HasEntries a ea ∧ HasEntries b eb ∧ missing ea eb ≠ [] ∧
    ∀ fa fb, report fa a fb b = .ok [] := by
  refine ⟨lexA, lexB, _, _, lexA_entries, lexB_entries, by decide +kernel, fun fa fb => ?_⟩
  rw [C104_report fa fb lexA_entries lexB_entries]
  rfl

/-- A lexicon compared with nothing, with itself, and with a file without a header. -/
example : report c!"a" [] c!"b" lexB = .ok c!"LEXENTRY:\tAVE\tAVENUE\tTYPE\t\n" ∧ report c!"a" lexB c!"b" lexB = .ok [] ∧
    report c!"a" lexA c!"b" [c!"", c!"x"] = .error c!"ERROR: 'x' file syntax error processing 'b'!\n" := by
  refine ⟨?_, ?_, ?_⟩
  · exact C104_report c!"a" c!"b" (Or.inl ⟨.nil, rfl⟩) lexB_entries
  · exact C104_report c!"a" c!"b" lexB_entries lexB_entries
  · refine (C104_errors c!"a" c!"b" lexA _).2.2 _ _ lexA_entries ⟨fun h => ?_, [], .skipped (by decide +kernel) (.counted (by decide +kernel) .nil)⟩
    exact absurd (List.isPrefixOf_iff_prefix.2 h) (by decide)

end AS.Props
