import Verif.Lemmas.Codec
import Verif.Spec.Lexicon
import Verif.Props.Codec
/-
Lemmas about entry lines.
-/
namespace AS

theorem splitOn_ne (d : Char) (s : Str) : splitOn d s ≠ [] := by
  cases s with
  | nil => simp [splitOn]
  | cons c cs =>
    rw [splitOn]
    split
    · simp
    · split <;> simp

theorem splitOn_join (d : Char) : ∀ (ps : List Str) (p : Str), (∀ q ∈ p :: ps, d ∉ q) →
    splitOn d (joinWith [d] (p :: ps)) = p :: ps
  | [], p, h => by
    simp only [joinWith]
    have hp := h p (List.mem_cons_self ..)
    clear h
    induction p with
    | nil => rfl
    | cons c cs ih =>
      simp only [List.mem_cons, not_or] at hp
      rw [splitOn, if_neg (fun e => hp.1 e.symm), ih hp.2]
  | q :: qs, p, h => by
    have ih := splitOn_join d qs q (fun x hx => h x (List.mem_cons_of_mem _ hx))
    have hp := h p (List.mem_cons_self ..)
    have e : joinWith [d] (p :: q :: qs) = p ++ d :: joinWith [d] (q :: qs) := by simp [joinWith]
    rw [e]
    clear h e
    induction p with
    | nil => rw [List.nil_append, splitOn, if_pos rfl, ih]
    | cons c cs ihp =>
      simp only [List.mem_cons, not_or] at hp
      rw [List.cons_append, splitOn, if_neg (fun e => hp.1 e.symm), ihp hp.2]

theorem splitOn_spec (d : Char) (s : Str) :
    ∃ p ps, splitOn d s = p :: ps ∧ (∀ q ∈ p :: ps, d ∉ q) ∧ s = joinWith [d] (p :: ps) := by
  obtain ⟨p, ps, h, rfl⟩ := exists_parts d s
  exact ⟨p, ps, splitOn_join d ps p h, h, rfl⟩

/-- Reading one field of a stream that holds the given remaining fields. -/
def fieldStream (d : Char) : List Str → IStream → Prop
  | [], s => s.good = false
  | p :: ps, s => s = IStream.ofStr (joinWith [d] (p :: ps))

theorem field_next {d : Char} {p : Str} {ps : List Str} (h : ∀ q ∈ p :: ps, d ∉ q) {s : IStream}
    (hs : fieldStream d (p :: ps) s) (old : Str) :
    (s.getline d old).2 = p ∧ fieldStream d ps (s.getline d old).1 := by
  have hp := h p (List.mem_cons_self ..)
  rw [fieldStream] at hs
  subst hs
  cases ps with
  | nil =>
    simp only [joinWith]
    rw [getline_last d p old hp]
    exact ⟨rfl, rfl⟩
  | cons q qs =>
    have e : joinWith [d] (p :: q :: qs) = p ++ d :: joinWith [d] (q :: qs) := by simp [joinWith]
    rw [e, getline_append d p _ old hp]
    exact ⟨rfl, rfl⟩

theorem field_end {d : Char} {s : IStream} (hs : fieldStream d [] s) (old : Str) :
    (s.getline d old).2 = old ∧ fieldStream d [] (s.getline d old).1 := by
  rw [fieldStream] at hs
  rw [getline_bad s d old hs]
  refine ⟨rfl, ?_⟩
  simp [fieldStream, IStream.good]

theorem field_any {d : Char} {ps : List Str} (h : ∀ q ∈ ps, d ∉ q) {s : IStream}
    (hs : fieldStream d ps s) (old : Str) :
    (s.getline d old).2 = ps.getD 0 old ∧ fieldStream d (ps.drop 1) (s.getline d old).1 := by
  cases ps with
  | nil => simpa using field_end hs old
  | cons p ps => simpa using field_next h hs old

theorem ofLine_eq_entryOf (line : Str) : LexEntry.ofLine line = entryOf line := by
  obtain ⟨p, ps, e, h, hl⟩ := splitOn_spec '\t' line
  have hs : fieldStream '\t' (p :: ps) (IStream.ofStr line) := by rw [fieldStream, hl]
  obtain ⟨a1, a2⟩ := field_next h hs []
  have hps : ∀ q ∈ ps, '\t' ∉ q := fun q hq => h q (List.mem_cons_of_mem _ hq)
  have key : ∀ (fs : List Str) (s : IStream) (w : Str), (∀ q ∈ fs, '\t' ∉ q) → fieldStream '\t' fs s →
      ((s.getline '\t' []).2 = fs.getD 0 [] ∧
       ((s.getline '\t' []).1.getline '\t' []).2 = fs.getD 1 [] ∧
       (((s.getline '\t' []).1.getline '\t' []).1.getline '\t' []).2 = fs.getD 2 []) := by
    intro fs s w hfs hs
    obtain ⟨b1, b2⟩ := field_any hfs hs []
    obtain ⟨c1, c2⟩ := field_any (fun q hq => hfs q (List.mem_of_mem_drop hq)) b2 []
    obtain ⟨d1, _⟩ := field_any (fun q hq => hfs q (List.mem_of_mem_drop (List.mem_of_mem_drop hq))) c2 []
    refine ⟨b1, c1.trans ?_, d1.trans ?_⟩
    · cases fs <;> simp [List.getD]
    · cases fs with
      | nil => simp
      | cons a fs => cases fs <;> simp [List.getD]
  unfold LexEntry.ofLine entryOf entryFields
  rw [e]
  simp only [a1]
  by_cases hp : p = c!"LEXENTRY:"
  · subst hp
    simp only [if_true]
    cases ps with
    | nil =>
      obtain ⟨b1, b2⟩ := field_end a2 c!"LEXENTRY:"
      obtain ⟨k1, k2, k3⟩ := key [] _ [] (by simp) b2
      simp only [b1, k1, k2, k3]
      simp
    | cons q qs =>
      obtain ⟨b1, b2⟩ := field_next hps a2 c!"LEXENTRY:"
      obtain ⟨k1, k2, k3⟩ := key qs _ [] (fun x hx => hps x (List.mem_cons_of_mem _ hx)) b2
      simp only [b1, k1, k2, k3]
      simp [List.getD]
  · simp only [if_neg hp]
    obtain ⟨k1, k2, k3⟩ := key ps _ [] hps a2
    simp only [k1, k2, k3]
    cases ps with
    | nil => simp [List.getD]
    | cons q qs => simp [List.getD, hp]

theorem setAsString_no_tab (S : List InType) : '\t' ∉ InType.setAsString S := by
  rw [setAsString_eq]
  have h : ∀ t : InType, '\t' ∉ t.asString := by intro t; cases t <;> decide
  induction S with
  | nil => simp [joinWith]
  | cons a S ih =>
    cases S with
    | nil => simpa [joinWith] using h a
    | cons b S =>
      simp only [List.map_cons, joinWith, List.mem_append, List.mem_cons, List.not_mem_nil, or_false, not_or] at ih ⊢
      exact ⟨⟨h a, by decide⟩, ih⟩

theorem attachAsString_no_tab (S : List Attach) : '\t' ∉ Attach.setAsString S := by
  rw [attach_setAsString_eq]
  have h : ∀ t : Attach, '\t' ∉ t.asString := by intro t; cases t <;> decide
  induction S with
  | nil => simp [joinWith]
  | cons a S ih =>
    cases S with
    | nil => simpa [joinWith] using h a
    | cons b S =>
      simp only [List.map_cons, joinWith, List.mem_append, List.mem_cons, List.not_mem_nil, or_false, not_or] at ih ⊢
      exact ⟨⟨h a, by decide⟩, ih⟩

theorem print_fields (e : LexEntry) (h1 : '\t' ∉ e.word) (h2 : '\t' ∉ e.stdword) :
    entryFields e.print = [e.word, e.stdword, InType.setAsString e.type, Attach.setAsString e.attached] := by
  have hj : e.print = joinWith ['\t'] [c!"LEXENTRY:", e.word, e.stdword, InType.setAsString e.type, Attach.setAsString e.attached] := by
    simp [LexEntry.print, joinWith]
  unfold entryFields
  rw [hj, splitOn_join]
  · simp
  · intro q hq
    simp only [List.mem_cons, List.not_mem_nil, or_false] at hq
    rcases hq with rfl | rfl | rfl | rfl | rfl
    · decide
    · exact h1
    · exact h2
    · exact setAsString_no_tab _
    · exact attachAsString_no_tab _

end AS
