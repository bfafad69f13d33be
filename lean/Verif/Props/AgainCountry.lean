import Verif.Props.AgainSamples
/-
C111: standardizing an address that has been standardized with a sample lexicon.
-/
namespace AS.Props
open AS AS.Tokenizer AS.Wrapper
variable {F D : Type}

/-- With one of the sample lexicons whose standard words are settled, and any grammar, an address of words with spaces between them that
is standardized is standardized to the same again, written with the standard words. -/
theorem C111_country (env : Env F D) {nan : F → Prop} (laws : NanLaws env.fo nan) (signs : SignLaws env.fo)
    (h0 : env.fo.le0 env.fo.zero = true) (p : Pair) (hp : p ∈ settledPairs) (hicu : Capitals env.icu p) (hl : ReadsLexicon env p)
    (locale filter address grammar : Str) (ws : List Str) (parts : Str → List Str) (vs kept : List Str)
    (h : Spaced env p locale filter address ws parts vs) (cls : Str → List InType) (hc : ClassLists env.u (entriesOf env.icu p) vs cls)
    (hkept : kept = vs.filter (fun v => ∀ c ∈ cls v, ¬ FilterNames filter c))
    (hsize : sizeProd (kept.map cls) < 2 ^ 32) (a : StdAddr) (err : Option Str)
    (hs : stdStandardize env address grammar p.lexicon.text locale filter = some ⟨some a, err⟩) :
    ∃ is os, Picks is (kept.map cls) ∧ os.length = kept.length ∧
      (∀ f, a.get f = asField (fieldWords (entriesOf env.icu p) f kept is os)) ∧
      ∀ address' ws' parts', Spaced env p locale filter address' ws' parts' (standardized (entriesOf env.icu p) kept is) →
        stdStandardize env address' grammar p.lexicon.text locale filter = some ⟨some a, none⟩ := by
  have hp' : p ∈ pairs := by
    simp only [pairs, settledPairs, List.mem_cons, List.not_mem_nil, or_false] at hp ⊢
    rcases hp with hp | hp | hp | hp | hp | hp | hp | hp <;> simp only [hp, true_or, or_true]
  have hset : Settled (entriesOf env.icu p) := by
    rw [entries_up hicu]
    simp only [settledPairs, List.mem_cons, List.not_mem_nil, or_false] at hp
    rcases hp with rfl | rfl | rfl | rfl | rfl | rfl | rfl | rfl
    · exact settledAustria
    · exact settledFinland
    · exact settledLiechtenstein
    · exact settledLuxembourg
    · exact settledNetherlands
    · exact settledNorway
    · exact settledSpain
    · exact settledSweden
  obtain ⟨hlex, _⟩ := pair_text hl.tab hp'
  obtain ⟨is, os, k1, k2, k3, k4⟩ := C111_again env laws signs h0 hl.patterns _ _ _ hl.archive hlex hl.chars hl.word locale filter address
    grammar vs kept cls (spaced_inWords hp' hl h) hc hkept hsize a err hs
  refine ⟨is, os, k1, k2, k3, fun address' ws' parts' h' => k4 ?_ address' (spaced_inWords hp' hl h')⟩
  have hlen : kept.length = is.length := by
    have := picks_length k1
    rw [List.length_map] at this
    exact this.symm
  clear h' k1 k2 k3 k4 hsize hkept
  induction kept generalizing is with
  | nil => cases is with
    | nil => exact .nil
    | cons => cases hlen
  | cons v kept ih => cases is with
    | nil => cases hlen
    | cons i is => exact .cons (hset v i) (ih is (by simpa using hlen))

/-! ### An example -/

set_option maxRecDepth 1000000 in
theorem finland_aside : (∀ e ∈ entriesOf asciiIcu Sample.Finland.pair, Aside [c!"123"] c!"POSTILOKERO 123" e ∧ Aside [c!"123"] c!"PL 123" e) ∧
    ∃ e ∈ entriesOf asciiIcu Sample.Finland.pair, e.word ≠ [] := by decide +kernel

set_option maxRecDepth 1000000 in
theorem finland_capitals : Capitals asciiIcu Sample.Finland.pair := by
  unfold Capitals
  decide +kernel

set_option maxRecDepth 1000000 in
theorem finland_box : standardOf (entriesOf asciiIcu Sample.Finland.pair) c!"POSTILOKERO" .BOXH = some c!"PL" ∧
    standardOf (entriesOf asciiIcu Sample.Finland.pair) c!"PL" .BOXH = some c!"PL" := by decide +kernel

/-- A post box, and the same with the standard word. -/
example : Sample.Finland.pair ∈ settledPairs ∧ Capitals formEnv.icu Sample.Finland.pair ∧ ReadsLexicon formEnv Sample.Finland.pair ∧
    Spaced formEnv Sample.Finland.pair c!"fi" c!"SPACE" c!"Postilokero 123" [c!"POSTILOKERO", c!"123"] (fun v => [v]) [c!"POSTILOKERO", c!"123"] ∧
    Spaced formEnv Sample.Finland.pair c!"fi" c!"SPACE" c!"PL 123" [c!"PL", c!"123"] (fun v => [v])
      (standardized (entriesOf formEnv.icu Sample.Finland.pair) [c!"POSTILOKERO", c!"123"] [.BOXH, .NUMBER]) := by
  have hu : Unknown asciiU (entriesOf asciiIcu Sample.Finland.pair) c!"123" :=
    aside_unknown (fun e he => (finland_aside.1 e he).1) (by simp) (by decide) (by decide)
  have hn : standardWord (entriesOf asciiIcu Sample.Finland.pair) c!"123" .NUMBER = c!"123" := by
    unfold standardWord
    have : standardOf (entriesOf asciiIcu Sample.Finland.pair) c!"123" .NUMBER = none := by
      rw [← Option.not_isSome_iff_eq_none, standardOf_some]
      rintro ⟨e, he, h1, _⟩
      exact (hu.unlisted e he).1 h1
    rw [this]
  have hb : standardWord (entriesOf asciiIcu Sample.Finland.pair) c!"POSTILOKERO" .BOXH = c!"PL" := by
    unfold standardWord
    rw [finland_box.1]
  refine ⟨by simp only [settledPairs, List.mem_cons, true_or, or_true], finland_capitals,
    aside_reads (fun e he => (finland_aside.1 e he).1) finland_aside.2, ?_, ?_⟩
  · refine ⟨by decide +kernel, by decide +kernel, fun v hv => ?_, aside_phrases (fun e he => (finland_aside.1 e he).1), by decide⟩
    simp only [List.mem_cons, List.not_mem_nil, or_false] at hv
    rcases hv with rfl | rfl
    · exact ⟨.whole (Or.inl ⟨⟨'P', rfl, by decide⟩, ⟨.BOXH, by rw [show entriesOf formEnv.icu Sample.Finland.pair = entriesOf asciiIcu Sample.Finland.pair from rfl, finland_box.1]; simp⟩, by decide⟩), ⟨'O', rfl, by decide⟩, by decide⟩
    · exact ⟨.whole (Or.inr hu), ⟨'3', rfl, by decide⟩, by decide⟩
  · refine ⟨by decide +kernel, by decide +kernel, fun v hv => ?_, aside_phrases (fun e he => (finland_aside.1 e he).2), ?_⟩
    · simp only [List.mem_cons, List.not_mem_nil, or_false] at hv
      rcases hv with rfl | rfl
      · exact ⟨.whole (Or.inl ⟨⟨'P', rfl, by decide⟩, ⟨.BOXH, by rw [show entriesOf formEnv.icu Sample.Finland.pair = entriesOf asciiIcu Sample.Finland.pair from rfl, finland_box.2]; simp⟩, by decide⟩), ⟨'L', rfl, by decide⟩, by decide⟩
      · exact ⟨.whole (Or.inr hu), ⟨'3', rfl, by decide⟩, by decide⟩
    · show [standardWord (entriesOf asciiIcu Sample.Finland.pair) c!"POSTILOKERO" .BOXH,
        standardWord (entriesOf asciiIcu Sample.Finland.pair) c!"123" .NUMBER] = _
      rw [hb, hn]
      rfl

end AS.Props
