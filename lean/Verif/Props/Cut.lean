import Verif.Lemmas.ArchiveCut
import Verif.Spec.Cut
import Verif.Props.Compiled
/-
Property C90: compiled lexicons that are cut short or followed by more text.
-/
namespace AS.Props
open AS AS.Wrapper
variable {F D : Type}

/-! ## C90 -/

theorem sameResults_of_load {env : Env F D} {a b : Str} {l l' : Lexicon} (hs : SameLex l l') (ha : loadLexicon env a = .ok l')
    (hb : loadLexicon env b = .ok l) : SameResults env a b := by
  intro address grammar locale filter
  refine ⟨?_, ?_, ?_⟩
  · unfold stdStandardize
    rw [ha, hb]
    simp only [hs.addr]
  · unfold stdParseAddress parseAddr
    rw [ha, hb]
    simp only [hs.phrases]
  · unfold stdMatchAddress matchAddr
    rw [ha, hb]
    simp only [hs.phrases]

theorem sameLex_md5 (l : Lexicon) (m : Str) : SameLex l { l with md5in := m } := by
  constructor <;> simp only [Lexicon.regex, Lexicon.regexPrefixAtt, Lexicon.regexSuffixAtt] <;> split <;> rfl

/-- Text without line ends that begins with no header is no lexicon. -/
theorem no_header {icu : Icu} {p : Str} (hn : '\n' ∉ p) (h0 : p.head? ≠ some 'L') (hb : p.head? ≠ some '﻿') :
    Lexicon.initialize icu c!"query-lex" p = .error .invalidFileFormat := by
  obtain ⟨x, xs, e, hx, hj⟩ := splitOn_spec '\n' p
  have hxs : xs = [] := by
    cases xs with
    | nil => rfl
    | cons y ys =>
      exfalso
      apply hn
      rw [hj, joinWith]
      exact List.mem_append_left _ (List.mem_append_right _ (List.mem_singleton.2 rfl))
  subst hxs
  have hp : x = p := hj.symm
  subst hp
  refine ((Lexicon.load_errors icu c!"query-lex" x).2.2.2).2 ⟨x, [], x, e, .plain hb, ?_⟩
  intro y hy
  rw [List.mem_singleton.1 hy]
  constructor <;> · rintro ⟨t, ht⟩; rw [← ht] at h0; exact h0 rfl

theorem refused_of_load {env : Env F D} {a msg : Str} (h : loadLexicon env a = .throws msg) : Refused env a (upToNul msg) := by
  intro address locale filter
  refine ⟨?_, fun grammar g hg => ⟨?_, ?_⟩⟩
  · unfold stdParseAddress; rw [h]; rfl
  · unfold stdStandardize; rw [hg, h]; rfl
  · unfold stdMatchAddress; rw [hg, h]; rfl

/-- Where a compiled lexicon may be cut. Its last item is the digest of the text, given as a string with its length.
Cut anywhere before that item it is refused as a text that is no lexicon; if at least one character of the
item is left it does all it did. -/
theorem C90_where (env : Env F D) (lib lib' : Nat) (hlib : lib' ≤ lib) (henv : env.archive = Archive.load lib)
    (hk : IcuKeeps env.icu '\x00') (hk' : IcuKeeps env.icu '\n') (text : Str) (hnul : '\x00' ∉ text) (l : Lexicon)
    (hl : Lexicon.initialize env.icu c!"query-lex" text = .ok l) (c : Str)
    (hc : Archive.asCompileLexicon env.icu env.lexWhat lib' text = .value c) :
    ∃ b item, c = b ++ ' ' :: item ∧ item = (toString (byteLen l.md5in)).toList ++ ' ' :: l.md5in ∧
      (∀ p, p <+: b ++ [' '] → Refused env p (upToNul (env.lexWhat .invalidFileFormat))) ∧
      (∀ p, p <+: item → p ≠ [] → SameResults env (b ++ ' ' :: p) c) := by
  rw [serialize_ok hk hnul hl] at hc
  injection hc with hc
  have hst := Archive.compiled_storable (Archive.loaded_storable hl)
  have hm : (Archive.compiled l).md5in = l.md5in := by
    unfold Archive.compiled
    simp only [Lexicon.regex, Lexicon.regexPrefixAtt, Lexicon.regexSuffixAtt]
    repeat' split
    all_goals rfl
  have hload : loadLexicon env c = .ok (Archive.compiled l) := by
    unfold loadLexicon
    rw [henv, ← hc, Archive.load_save lib lib' _ hst hlib]
  refine ⟨_, _, hc.symm.trans (Archive.save_front _ _), ?_, ?_, ?_⟩
  · rw [hm, Archive.Datum.write, List.append_assoc]
    rfl
  · rintro p ⟨q, h⟩
    have hf := Archive.compiled_free (d := '\n') (by unfold Archive.NoSyntax; decide)
      (Archive.loaded_free hk' (by decide) (by decide) (by
        obtain ⟨p, ps, e, h, _⟩ := splitOn_spec '\n' text
        rw [e]; exact h) hl)
    have hs := Archive.save_free (by unfold Archive.NoNumber; decide) (by decide) lib' hf
    have hpre : p ++ (q ++ (Archive.Datum.text (Archive.compiled l).md5in).write) = Archive.save lib' (Archive.compiled l) := by
      rw [← List.append_assoc, h, Archive.save_front, List.append_assoc]
      rfl
    have hhead : ∀ x, p.head? = some x → x = '2' := by
      intro x hx
      have h2 : (Archive.save lib' (Archive.compiled l)).head? = some '2' := by
        unfold Archive.save Archive.header
        simp only [List.cons_append]
        rw [Archive.writeAll_cons]
        rfl
      cases p with
      | nil => cases hx
      | cons y p =>
        injection hx with hx
        rw [← hpre] at h2
        injection h2 with h2
        rw [← hx, h2]
    apply refused_of_load
    unfold loadLexicon
    rw [henv, Archive.load_short lib lib' _ hst p q h]
    simp only
    rw [no_header (fun hn => hs (hpre ▸ List.mem_append_left _ hn)) (fun e => by cases hhead _ e) (fun e => by
      have := hhead _ e
      revert this
      decide)]
  · rintro p ⟨q, h⟩ hp
    obtain ⟨m, hm⟩ := Archive.load_within lib lib' _ hst hlib p q hp h
    refine sameResults_of_load (sameLex_md5 _ m) ?_ hload
    unfold loadLexicon
    rw [henv, hm]

/-- A compiled lexicon that is cut short never works with part of its words: it does all it did, or it is refused. -/
theorem C90_cut (env : Env F D) (lib lib' : Nat) (hlib : lib' ≤ lib) (henv : env.archive = Archive.load lib)
    (hk : IcuKeeps env.icu '\x00') (hk' : IcuKeeps env.icu '\n') (text : Str) (hnul : '\x00' ∉ text) (c : Str)
    (hc : Archive.asCompileLexicon env.icu env.lexWhat lib' text = .value c) (p : Str) (hp : p <+: c) :
    SameResults env p c ∨ Refused env p (upToNul (env.lexWhat .invalidFileFormat)) := by
  cases hl : Lexicon.initialize env.icu c!"query-lex" text with
  | error x => rw [serialize_err hl] at hc; cases hc
  | ok l =>
    obtain ⟨b, item, e, _, h1, h2⟩ := C90_where env lib lib' hlib henv hk hk' text hnul l hl c hc
    obtain ⟨q, hq⟩ := hp
    rw [e, show b ++ ' ' :: item = (b ++ [' ']) ++ item by simp] at hq
    rcases List.append_eq_append_iff.1 hq with ⟨a, ha, _⟩ | ⟨a, ha, hb⟩
    · exact Or.inr (h1 p ⟨a, ha.symm⟩)
    · cases a with
      | nil => exact Or.inr (h1 p ⟨[], by rw [ha]; simp⟩)
      | cons x a =>
        left
        have := h2 (x :: a) ⟨q, hb.symm⟩ (by simp)
        rwa [show b ++ ' ' :: x :: a = p by rw [ha]; simp] at this

/-- What follows a compiled lexicon has no effect. -/
theorem C90_trailing (env : Env F D) (lib lib' : Nat) (hlib : lib' ≤ lib) (henv : env.archive = Archive.load lib)
    (hk : IcuKeeps env.icu '\x00') (text : Str) (hnul : '\x00' ∉ text) (c : Str)
    (hc : Archive.asCompileLexicon env.icu env.lexWhat lib' text = .value c) (x : Str) : SameResults env (c ++ x) c := by
  cases hl : Lexicon.initialize env.icu c!"query-lex" text with
  | error x => rw [serialize_err hl] at hc; cases hc
  | ok l =>
    rw [serialize_ok hk hnul hl] at hc
    injection hc with hc
    have hst := Archive.compiled_storable (Archive.loaded_storable hl)
    refine sameResults_of_load (sameLex_refl _) (l := Archive.compiled l) ?_ ?_
    · unfold loadLexicon
      rw [henv, ← hc, Archive.load_trailing lib lib' _ hst hlib]
    · unfold loadLexicon
      rw [henv, ← hc, Archive.load_save lib lib' _ hst hlib]

theorem of_lexicon {a : Wrapper.Archive} {p : Lexicon → Bool} (h : (match a with | .lexicon l => p l | _ => false) = true) :
    ∃ l, a = .lexicon l ∧ p l = true := by
  cases a with
  | lexicon l => exact ⟨l, rfl, h⟩
  | notArchive => cases h
  | recompile => cases h

theorem of_notArchive {a : Wrapper.Archive} (h : (match a with | .notArchive => true | _ => false) = true) : a = .notArchive := by
  cases a with
  | notArchive => rfl
  | lexicon l => cases h
  | recompile => cases h

/-- What comes before the digest in the compiled lexicon of the town text, and the digest. -/
def townFront : Str := c!"22 serialization::archive 17 0 2 " ++
  c!"9 query-lex 18 2 en 2 8 NEW YORK 1 8 NEW YORK 2 NY 1 10 0 3 STR 1 3 STR 7 STRASSE 1 2 0 " ++
  c!"17 (?:NEW YORK|STR)| 7 ^(?:)\\B 4 (?:)"
def townItem : Str := c!"73 LEXICON:\tT\tENG\ten\t2LEXENTRY:\tNEW YORK\tNY\tCITY\tLEXENTRY:\tSTR\tSTRASSE\tTYPE\t"

/-- Cuts of it before the last number, after its first digit, and in the digest. -/
example : archEnv.archive = Archive.load 19 ∧ IcuKeeps archEnv.icu '\x00' ∧ IcuKeeps archEnv.icu '\n' ∧ '\x00' ∉ townText ∧
    (∃ l, Lexicon.initialize archEnv.icu c!"query-lex" townText = .ok l) ∧
    Archive.asCompileLexicon archEnv.icu archEnv.lexWhat 17 townText = .value (townFront ++ ' ' :: townItem) ∧
    Archive.load 19 (townFront ++ c!" ") = .notArchive ∧
    (∃ l, Archive.load 19 (townFront ++ c!" 7") = .lexicon l ∧ l.lex.length = 2 ∧ l.md5in = List.replicate 7 '\x00') ∧
    (∃ l, Archive.load 19 (townFront ++ c!" 73 LEXICON") = .lexicon l ∧ l.lex.length = 2) := by
  refine ⟨rfl, asciiIcu_keeps _ (toUpper_low _ (by decide)), asciiIcu_keeps _ (toUpper_low _ (by decide)), by decide +kernel, ?_,
    by decide +kernel, of_notArchive (by decide +kernel), ?_, ?_⟩
  · obtain ⟨l, h, _⟩ := exists_ok (r := Lexicon.initialize archEnv.icu c!"query-lex" townText) (P := fun _ => True) (by decide +kernel)
    exact ⟨l, h⟩
  · obtain ⟨l, h1, h2⟩ := of_lexicon (a := Archive.load 19 (townFront ++ c!" 7"))
      (p := fun l => decide (l.lex.length = 2 ∧ l.md5in = List.replicate 7 '\x00')) (by decide +kernel)
    exact ⟨l, h1, of_decide_eq_true h2⟩
  · obtain ⟨l, h1, h2⟩ := of_lexicon (a := Archive.load 19 (townFront ++ c!" 73 LEXICON"))
      (p := fun l => decide (l.lex.length = 2)) (by decide +kernel)
    exact ⟨l, h1, of_decide_eq_true h2⟩

end AS.Props
