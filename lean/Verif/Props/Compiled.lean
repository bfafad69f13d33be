import Verif.Lemmas.Compiled
import Verif.Props.Cache
/-
Property C62: compiled lexicons.
-/
namespace AS.Props
open AS AS.Wrapper
variable {F D : Type}

/-! ## C62 -/

theorem nul_free (text : Str) (h : '\x00' ∉ text) : ∀ q ∈ splitOn '\n' text, '\x00' ∉ q :=
  fun _ hq hd => h (splitOn_chars _ _ _ hq _ hd)

theorem serialize_ok {icu : Icu} {lexWhat : Lexicon.Error → Str} {lib : Nat} {text : Str} (hk : IcuKeeps icu '\x00')
    (hnul : '\x00' ∉ text) {l : Lexicon} (hl : Lexicon.initialize icu c!"query-lex" text = .ok l) :
    Archive.asCompileLexicon icu lexWhat lib text = .value (Archive.save lib (Archive.compiled l)) := by
  have hf := Archive.compiled_free (d := '\x00') (by unfold Archive.NoSyntax; decide)
    (Archive.loaded_free hk (by decide) (by decide) (nul_free text hnul) hl)
  have hs := Archive.save_free (by unfold Archive.NoNumber; decide) (by decide) lib hf
  have e : Archive.serializeLexicon icu lexWhat lib text = ⟨some (Archive.save lib (Archive.compiled l)), none⟩ := by
    unfold Archive.serializeLexicon
    rw [hl]
    simp only
    rw [show l.regex.1.regexPrefixAtt.1.regexSuffixAtt.1 = Archive.compiled l from rfl, if_neg (Archive.save_ne _ _),
      Archive.cstr_free hs]
  unfold Archive.asCompileLexicon
  rw [e]

theorem serialize_err {icu : Icu} {lexWhat : Lexicon.Error → Str} {lib : Nat} {text : Str} {x : Lexicon.Error}
    (hl : Lexicon.initialize icu c!"query-lex" text = .error x) :
    Archive.asCompileLexicon icu lexWhat lib text = .error (c!"std_standardize threw an error: " ++ upToNul (lexWhat x)) := by
  unfold Archive.asCompileLexicon Archive.serializeLexicon
  rw [hl]
  rfl

/-- A compiled lexicon, used with the same or a later version of the library, gives what the text it was compiled
from gives: for every address, grammar, locale and filter the three functions return the same, errors included. -/
theorem C62_compiled (env : Env F D) (lib lib' : Nat) (hlib : lib' ≤ lib) (henv : env.archive = Archive.load lib)
    (hk : IcuKeeps env.icu '\x00') (text : Str) (hnul : '\x00' ∉ text) (hplain : Archive.load lib text = .notArchive) (c : Str)
    (hc : Archive.asCompileLexicon env.icu env.lexWhat lib' text = .value c) (address grammar locale filter : Str) :
    stdStandardize env address grammar c locale filter = stdStandardize env address grammar text locale filter ∧
    stdParseAddress env address c locale filter = stdParseAddress env address text locale filter ∧
    stdMatchAddress env address grammar c locale filter = stdMatchAddress env address grammar text locale filter := by
  cases hl : Lexicon.initialize env.icu c!"query-lex" text with
  | error x => rw [serialize_err hl] at hc; cases hc
  | ok l =>
    rw [serialize_ok hk hnul hl] at hc
    injection hc with hc
    have h1 : loadLexicon env text = .ok l := by
      unfold loadLexicon
      rw [henv, hplain]
      simp only
      rw [hl]
    have h2 : loadLexicon env c = .ok (Archive.compiled l) := by
      unfold loadLexicon
      rw [henv, ← hc, Archive.load_save lib lib' _ (Archive.compiled_storable (Archive.loaded_storable hl)) hlib]
    have hs := Archive.sameLex_compiled l
    refine ⟨?_, ?_, ?_⟩
    · unfold stdStandardize
      rw [h1, h2]
      simp only [hs.addr]
    · unfold stdParseAddress parseAddr
      rw [h1, h2]
      simp only [hs.phrases]
    · unfold stdMatchAddress matchAddr
      rw [h1, h2]
      simp only [hs.phrases]

/-- Text whose first character other than white space is neither digit nor minus is no archive. -/
theorem C62_plain_text (lib : Nat) (text : Str) (h : StartsPlain text) : Archive.load lib text = .notArchive := by
  obtain ⟨sp, c, rest, rfl, h1, h2, h3, h4⟩ := h
  replace h1 : ∀ x ∈ sp, isCSpace x = true := h1
  replace h2 : isCSpace c = false := h2
  have hd : (sp ++ c :: rest).dropWhile isCSpace = c :: rest := by
    clear h3 h4
    induction sp with
    | nil => rw [List.nil_append, List.dropWhile_cons_of_neg (by rw [h2]; decide)]
    | cons x sp ih =>
      rw [List.cons_append, List.dropWhile_cons_of_pos (h1 x (List.mem_cons_self ..)),
        ih (fun y hy => h1 y (List.mem_cons_of_mem _ hy))]
  unfold Archive.load Archive.readText Archive.readInt
  rw [hd]
  simp only [if_neg h4, Archive.readDigits, List.takeWhile_cons_of_neg (by rw [h3]; decide : ¬ c.isDigit = true)]
  rfl

/-- Compiling succeeds exactly for the texts that are lexicons; otherwise it reports the message that the other
functions report for the text. -/
theorem C62_compiles (env : Env F D) (lib : Nat) (henv : env.archive = Archive.load lib)
    (hk : IcuKeeps env.icu '\x00') (text : Str) (hnul : '\x00' ∉ text) (hplain : Archive.load lib text = .notArchive) :
    ((∃ c, Archive.asCompileLexicon env.icu env.lexWhat lib text = .value c) ↔ ∃ h es, LexText env.icu text h es) ∧
    ((¬ ∃ h es, LexText env.icu text h es) → ∃ m,
      Archive.asCompileLexicon env.icu env.lexWhat lib text = .error (c!"std_standardize threw an error: " ++ m) ∧
      ∀ address locale filter, stdParseAddress env address text locale filter = some ⟨none, some m⟩) := by
  cases hl : Lexicon.initialize env.icu c!"query-lex" text with
  | ok l =>
    obtain ⟨h, es, ht⟩ := Lexicon.loads_only _ _ _ _ hl
    exact ⟨⟨fun _ => ⟨h, es, ht⟩, fun _ => ⟨_, serialize_ok hk hnul hl⟩⟩, fun hn => absurd ⟨h, es, ht⟩ hn⟩
  | error x =>
    have hn : ¬ ∃ h es, LexText env.icu text h es := by
      rintro ⟨h, es, ht⟩
      obtain ⟨l, hl', _⟩ := Lexicon.loads env.icu c!"query-lex" text h es ht
      rw [hl] at hl'; cases hl'
    refine ⟨⟨?_, fun h => absurd h hn⟩, fun _ => ⟨_, serialize_err hl, fun address locale filter => ?_⟩⟩
    · rintro ⟨c, hc⟩
      rw [serialize_err hl] at hc; cases hc
    · unfold stdParseAddress loadLexicon
      rw [henv, hplain]
      simp only
      rw [hl]
      rfl

/-- A lexicon compiled with an earlier class version is refused by all three functions with the request to compile
again. -/
theorem C62_old_version (env : Env F D) (lib lib' v : Nat) (henv : env.archive = Archive.load lib) (ds : List Archive.Datum)
    (hlib : lib' ≤ lib) (hv : v < 2) (address grammar locale filter : Str) (g : Grammar F) (hg : loadGrammar env grammar = .ok g) :
    stdParseAddress env address (Archive.writeAll (Archive.header lib' v ++ ds)) locale filter =
      some ⟨none, some c!"Re-compile-lexicon"⟩ ∧
    stdStandardize env address grammar (Archive.writeAll (Archive.header lib' v ++ ds)) locale filter =
      some ⟨none, some c!"Re-compile-lexicon"⟩ ∧
    stdMatchAddress env address grammar (Archive.writeAll (Archive.header lib' v ++ ds)) locale filter =
      some ⟨none, some c!"Re-compile-lexicon"⟩ := by
  have h : loadLexicon env (Archive.writeAll (Archive.header lib' v ++ ds)) = .throws c!"Re-compile-lexicon" := by
    unfold loadLexicon
    rw [henv, Archive.load_header lib lib' v ds hlib, if_neg (by omega), if_pos hv]
  refine ⟨?_, ?_, ?_⟩
  · unfold stdParseAddress; rw [h]; rfl
  · unfold stdStandardize; rw [hg, h]; rfl
  · unfold stdMatchAddress; rw [hg, h]; rfl

/-- A compiled lexicon cannot be compiled again. -/
theorem C62_not_twice (icu : Icu) (lexWhat : Lexicon.Error → Str) (lib lib' : Nat) (hk : IcuKeeps icu '\x00') (hk' : IcuKeeps icu '\n')
    (text : Str) (hnul : '\x00' ∉ text) (c : Str) (hc : Archive.asCompileLexicon icu lexWhat lib text = .value c) :
    Archive.asCompileLexicon icu lexWhat lib' c =
      .error (c!"std_standardize threw an error: " ++ upToNul (lexWhat .invalidFileFormat)) := by
  cases hl : Lexicon.initialize icu c!"query-lex" text with
  | error x => rw [serialize_err hl] at hc; cases hc
  | ok l =>
    rw [serialize_ok hk hnul hl] at hc
    injection hc with hc
    refine serialize_err ?_
    have hf := Archive.compiled_free (d := '\n') (by unfold Archive.NoSyntax; decide)
      (Archive.loaded_free hk' (by decide) (by decide) (by
        obtain ⟨p, ps, e, h, _⟩ := splitOn_spec '\n' text
        rw [e]; exact h) hl)
    have hs := Archive.save_free (by unfold Archive.NoNumber; decide) (by decide) lib hf
    rw [hc] at hs
    have h2 : ∃ r, c = '2' :: r := by
      rw [← hc]
      unfold Archive.save Archive.header
      simp only [List.cons_append]
      rw [Archive.writeAll_cons]
      exact ⟨_, rfl⟩
    obtain ⟨r, hr⟩ := h2
    obtain ⟨p, ps, e, hp, hj⟩ := splitOn_spec '\n' c
    have hps : ps = [] := by
      cases ps with
      | nil => rfl
      | cons q qs =>
        exfalso
        apply hs
        rw [hj, joinWith]
        exact List.mem_append_left _ (List.mem_append_right _ (List.mem_singleton.2 rfl))
    subst hps
    have hpc : p = c := hj.symm
    subst hpc
    refine ((Lexicon.load_errors icu c!"query-lex" p).2.2.2).2 ⟨p, [], p, e, .plain (by rw [hr]; simp), ?_⟩
    intro x hx
    rw [List.mem_singleton.1 hx, hr]
    constructor <;> · rintro ⟨t, ht⟩; cases ht

theorem asciiIcu_keeps (d : Char) (h : ∀ c : Char, c.toUpper = d → c = d) : IcuKeeps asciiIcu d where
  norm _ h := h
  upper _ s hs hm := by
    obtain ⟨c, hc, e⟩ := List.mem_map.1 hm
    exact hs (h c e ▸ hc)

theorem toUpper_low (d : Char) (hd : d.toNat < 65) (c : Char) (h : c.toUpper = d) : c = d := by
  rw [Char.toUpper] at h
  split at h
  · rename_i hl
    exfalso
    have : d.toNat ≥ 65 := by
      rw [← h]
      show (_ : UInt32).toNat ≥ 65
      obtain ⟨h1, h2⟩ := hl
      have h1' : 97 ≤ c.val.toNat := h1
      have h2' : c.val.toNat ≤ 122 := h2
      simp only [UInt32.toNat_add]
      show 65 ≤ (c.val.toNat + 4294967264) % 4294967296
      omega
    omega
  · exact h

/-- The environment of the examples with archives. -/
def archEnv : Env Rat Rat := { exEnv with archive := Archive.load 19 }

example : archEnv.archive = Archive.load 19 ∧ IcuKeeps archEnv.icu '\x00' ∧ IcuKeeps archEnv.icu '\n' ∧ '\x00' ∉ townText ∧
    StartsPlain townText ∧
    Archive.asCompileLexicon archEnv.icu archEnv.lexWhat 17 townText = .value (c!"22 serialization::archive 17 0 2 " ++
      c!"9 query-lex 18 2 en 2 8 NEW YORK 1 8 NEW YORK 2 NY 1 10 0 3 STR 1 3 STR 7 STRASSE 1 2 0 " ++
      c!"17 (?:NEW YORK|STR)| 7 ^(?:)\\B 4 (?:) " ++
      c!"73 LEXICON:\tT\tENG\ten\t2LEXENTRY:\tNEW YORK\tNY\tCITY\tLEXENTRY:\tSTR\tSTRASSE\tTYPE\t") ∧
    (∃ g, loadGrammar archEnv addrText = .ok g) := by
  refine ⟨rfl, asciiIcu_keeps _ (toUpper_low _ (by decide)), asciiIcu_keeps _ (toUpper_low _ (by decide)), by decide +kernel,
    ⟨[], 'L', _, rfl, by simp, by decide, by decide, by decide⟩, by decide +kernel, ?_⟩
  obtain ⟨g, hg, _⟩ := of_outcomeIs (o := loadGrammar archEnv addrText) (p := fun _ => true) (by decide +kernel)
  exact ⟨g, hg⟩

end AS.Props
