import Verif.Props.LineEnds
import Verif.Sample.LexGermany
/-
Property C91: data/sample/germany.lex, the lines of which end in carriage return and line feed.
-/
namespace AS.Props
open AS AS.Wrapper AS.Tokenizer
variable {F D : Type}

/-- The lines of the lexicon without the carriage returns. -/
def germanyLines : List Str := Sample.Germany.lexicon.body.map List.dropLast
/-- The header without the carriage return. -/
def germanyHeader : Str := Sample.Germany.lexicon.header.dropLast

/-- The attachments that are lost: the line, counted from 0 after the header, and the name. -/
def germanyLost : List (Nat × Attach) := [
  (37, .ATT_SUF), (38, .ATT_SUF), (47, .ATT_SUF), (50, .ATT_SUF), (78, .ATT_SUF), (79, .ATT_SUF), (81, .ATT_SUF), (82,
  .ATT_SUF), (83, .ATT_SUF), (87, .ATT_SUF), (135, .ATT_SUF), (141, .ATT_PRE), (142, .ATT_PRE), (163, .ATT_SUF), (166,
  .ATT_SUF), (222, .ATT_SUF), (223, .ATT_SUF), (233, .ATT_PRE), (235, .ATT_PRE), (250, .ATT_SUF), (269, .ATT_SUF), (355,
  .ATT_SUF), (376, .ATT_SUF), (377, .ATT_SUF), (381, .ATT_SUF), (386, .ATT_SUF), (408, .ATT_SUF), (410, .ATT_SUF), (411,
  .ATT_SUF), (420, .ATT_SUF), (421, .ATT_SUF)]

theorem unlines_dropCr {h : Str} {body : List Str} (hc : (h :: body).all (fun l => decide (l = withCr l.dropLast)) = true) :
    unlines (h :: body) = unlinesCr (h.dropLast :: body.map List.dropLast) := by
  rw [unlinesCr_eq, ← List.map_cons (f := List.dropLast), List.map_map]
  congr 1
  conv => lhs; rw [← List.map_id (h :: body)]
  refine List.map_congr_left fun l h => ?_
  exact of_decide_eq_true (List.all_eq_true.1 hc l h)

/-- All lines end in a carriage return. -/
theorem C91_germany_text : Sample.Germany.lexicon.text = unlinesCr (germanyHeader :: germanyLines) ∧ germanyLines.length = 470 ∧
    c!"LEXICON:\t" <+: germanyHeader ∧ (splitOn '\t' germanyHeader).length = 5 ∧
    ∀ l ∈ germanyLines, '\n' ∉ l ∧ FullLine l ∧ (splitOn '\t' l).length = 5 := by
  have hc : (Sample.Germany.lexicon.header :: Sample.Germany.lexicon.body).all (fun l => decide (l = withCr l.dropLast)) = true := by
    decide +kernel
  have hl : germanyLines.all (fun l => !l.contains '\n' && c!"LEXENTRY:\t".isPrefixOf l && decide ((splitOn '\t' l).length = 5)) = true := by
    decide +kernel
  refine ⟨?_, by decide +kernel, by decide +kernel, by decide +kernel, fun l h => ?_⟩
  · exact unlines_dropCr hc
  · have := List.all_eq_true.1 hl l h
    simp only [Bool.and_eq_true, Bool.not_eq_true', List.contains_eq_mem, decide_eq_false_iff_not, decide_eq_true_eq] at this
    exact ⟨this.1.1, full_of this.1.2 (by omega), this.2⟩

/-- What the check says of a line. -/
def lineLoses (i : Nat) (l : Str) : Bool :=
  let f := (splitOn '\t' l).getD 4 []
  isPlain f && decide (squeeze f = f) && [Attach.ATT_PRE, .ATT_SUF].all (fun t =>
    (Attach.asAttach (withCr f)).contains t == ((Attach.asAttach f).contains t && !germanyLost.contains (i, t)) &&
    (!germanyLost.contains (i, t) || (Attach.asAttach f).contains t))

theorem germany_checked : ((List.range 470).zip germanyLines).all (fun p => lineLoses p.1 p.2) = true := by decide +kernel

/-- The attachments of the lines as they are in the file are those of the lines without the carriage returns, but for the 31
listed. -/
theorem C91_germany (icu : Icu) (hk : IcuKeeps icu '\t') (hc : IcuCr icu) (loc : Str) (i : Nat) (l : Str)
    (hl : germanyLines[i]? = some l) (t : Attach) (ht : t = .ATT_PRE ∨ t = .ATT_SUF) :
    (t ∈ (entryOf (canonLine icu loc (withCr l))).attached ↔ t ∈ (entryOf (canonLine icu loc l)).attached ∧ (i, t) ∉ germanyLost) ∧
    ((i, t) ∈ germanyLost → t ∈ (entryOf (canonLine icu loc l)).attached) ∧ germanyLost.length = 31 := by
  obtain ⟨_, hlen, _, _, hall⟩ := C91_germany_text
  obtain ⟨_, hfull, h5⟩ := hall l (List.mem_of_getElem? hl)
  have hi : i < 470 := by
    rw [← hlen]
    exact (List.getElem?_eq_some_iff.1 hl).1
  have hz : (i, l) ∈ (List.range 470).zip germanyLines := by
    refine List.mem_of_getElem? (i := i) ?_
    rw [List.getElem?_zip_eq_some]
    exact ⟨List.getElem?_range hi, hl⟩
  have hch := List.all_eq_true.1 germany_checked _ hz
  unfold lineLoses at hch
  simp only [Bool.and_eq_true, decide_eq_true_eq] at hch
  obtain ⟨⟨h1, h2⟩, h3⟩ := hch
  have hcan : canonLine icu loc ((splitOn '\t' l).getD 4 []) = (splitOn '\t' l).getD 4 [] := by
    rw [canonLine_plain (by rw [h2]; exact h1), h2]
  have h4 := List.all_eq_true.1 h3 t (by rcases ht with rfl | rfl <;> simp)
  simp only [Bool.and_eq_true, beq_iff_eq, List.contains_eq_mem] at h4
  obtain ⟨_, _, _, _, kn, k5⟩ := C91_line icu hk hc loc l hfull
  have e1 : t ∈ (entryOf (canonLine icu loc l)).attached ↔ t ∈ Attach.asAttach ((splitOn '\t' l).getD 4 []) := by
    rw [kn, hcan, asAttach_mem]
  have e2 : t ∈ (entryOf (canonLine icu loc (withCr l))).attached ↔ t ∈ Attach.asAttach (withCr ((splitOn '\t' l).getD 4 [])) := by
    rw [k5 h5, hcan, asAttach_mem, listed_cr]
  refine ⟨?_, ?_, rfl⟩
  · rw [e1, e2, ← decide_eq_true_iff (p := _ ∈ _), h4.1]
    simp
  · intro hm
    rw [e1]
    simpa [hm] using h4.2

/-- So for instance these words, of lines listed, are not split off, and would be. -/
example : ∀ w ∈ [c!"DEICH", c!"HAFEN"],
    (∃ l ∈ germanyLines, (entryOf (canonLine asciiIcu (headerLocale germanyHeader) l)).word = w ∧
      .ATT_SUF ∈ (entryOf (canonLine asciiIcu (headerLocale germanyHeader) l)).attached) ∧
    ¬ ∃ l ∈ germanyLines, (entryOf (canonLine asciiIcu (headerLocale germanyHeader) (withCr l))).word = w ∧
      .ATT_SUF ∈ (entryOf (canonLine asciiIcu (headerLocale germanyHeader) (withCr l))).attached := by
  have h : [c!"DEICH", c!"HAFEN"].all (fun w =>
    (germanyLines.any (fun l => let e := entryOf (canonLine asciiIcu (headerLocale germanyHeader) l); e.word == w && e.attached.contains .ATT_SUF)) &&
    !(germanyLines.any (fun l => let e := entryOf (canonLine asciiIcu (headerLocale germanyHeader) (withCr l)); e.word == w && e.attached.contains .ATT_SUF))) = true := by
    decide +kernel
  intro w hw
  have := List.all_eq_true.1 h w hw
  simpa using this

/-- The hypotheses of `C91_germany` hold for the line of "DEICH". -/
example : IcuKeeps asciiIcu '\t' ∧ IcuCr asciiIcu ∧ germanyLines[87]? = some c!"LEXENTRY:\tDEICH\tDEICH\tTYPE\tATT_SUF" ∧
    (87, Attach.ATT_SUF) ∈ germanyLost :=
  ⟨asciiIcu_keeps _ (toUpper_low _ (by decide)), asciiIcu_cr, by decide +kernel, by decide⟩

end AS.Props
