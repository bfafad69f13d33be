import Verif.Spec.LineEnds
import Verif.Props.Grammar
/-
Lines of a grammar with a carriage return at the end.
-/
namespace AS
variable {F : Type} (ct : CharTables) (fo : FloatOps F)

theorem space_cr : ct.isSpace '\r' = true := ct.cspace_space _ (by decide)

theorem refChar_cr : isRefChar ct '\r' = false := by
  unfold isRefChar
  rw [ct.space_not_word _ (space_cr ct)]
  decide

theorem dropWhile_withCr (l : Str) : (withCr l).dropWhile ct.isSpace =
    if l.dropWhile ct.isSpace = [] then [] else withCr (l.dropWhile ct.isSpace) := by
  unfold withCr
  rw [List.dropWhile_append]
  cases h : l.dropWhile ct.isSpace with
  | nil => simp [space_cr]
  | cons c cs => simp

theorem isCommentLine_cr (l : Str) : isCommentLine ct (withCr l) = isCommentLine ct l := by
  unfold isCommentLine
  rw [dropWhile_withCr]
  cases l.dropWhile ct.isSpace with
  | nil => rfl
  | cons c cs => simp [withCr]

theorem sectionName?_cr (l : Str) : sectionName? ct (withCr l) = sectionName? ct l := by
  unfold sectionName?
  rw [dropWhile_withCr]
  cases l.dropWhile ct.isSpace with
  | nil => rfl
  | cons c cs =>
    have : withCr (c :: cs) = c :: (cs ++ ['\r']) := rfl
    simp only [reduceCtorEq, ↓reduceIte, this, List.reverse_append, List.reverse_cons, List.reverse_nil, List.nil_append,
      List.cons_append, List.dropWhile_cons, space_cr]

theorem isMetaFrom_cr : ∀ (s : Str) (q : Nat), q ≤ 3 → isMetaFrom ct q (withCr s) = isMetaFrom ct q s
  | [], q, hq => by
    have e : withCr [] = ['\r'] := rfl
    rw [e]
    have h : q = 0 ∨ q = 1 ∨ q = 2 ∨ q = 3 := by omega
    rcases h with rfl | rfl | rfl | rfl <;> simp [isMetaFrom, space_cr, refChar_cr]
  | c :: s, q, hq => by
    have e : withCr (c :: s) = c :: withCr s := rfl
    have ih := fun q hq => isMetaFrom_cr s q hq
    rw [e]
    have h : q = 0 ∨ q = 1 ∨ q = 2 ∨ q = 3 := by omega
    rcases h with rfl | rfl | rfl | rfl <;>
      simp only [isMetaFrom, ih 0 (by omega), ih 1 (by omega), ih 2 (by omega), ih 3 (by omega)]

theorem metaRefsFrom_cr : ∀ (s : Str) (o : Option Str), metaRefsFrom ct o (withCr s) = metaRefsFrom ct o s
  | [], o => by
    have e : withCr [] = ['\r'] := rfl
    rw [e]
    cases o <;> simp [metaRefsFrom, refChar_cr]
  | c :: s, o => by
    have e : withCr (c :: s) = c :: withCr s := rfl
    have ih := fun o => metaRefsFrom_cr s o
    rw [e]
    cases o <;> simp only [metaRefsFrom, ih]

/-- The same state but for the digest, or the same error but for the line quoted. -/
inductive SameLoad {α : Type} (l : Str) : Except GrammarError α → Except GrammarError α → Prop
  | same {r} : SameLoad l r r
  | quoted : SameLoad l (.error (.ruleNotValid l)) (.error (.ruleNotValid (withCr l)))

theorem loadLine_cr (h0 : fo.le0 fo.zero = true) (st : LoadState F) (l : Str) :
    SameLoad l (loadLine ct fo st l) (loadLine ct fo st (withCr l)) := by
  unfold loadLine
  rw [isCommentLine_cr, sectionName?_cr]
  split
  · exact .same
  · split
    · exact .same
    · unfold loadData
      have h1 : '@' ∈ withCr l ↔ '@' ∈ l := by simp [withCr]
      have h2 : metaRuleOfLine ct (withCr l) = metaRuleOfLine ct l := by unfold metaRuleOfLine; rw [metaRefsFrom_cr]
      have h3 : isMetaLine ct (withCr l) = isMetaLine ct l := isMetaFrom_cr ct l 0 (by omega)
      have h4 : Rule.ofLine fo (withCr l) = Rule.ofLine fo l := Props.C27_trailing_blanks fo h0 l ['\r'] (by decide)
      simp only [h1, h2, h3, h4]
      split
      · exact .same
      · split
        · exact .same
        · split
          · exact .same
          · split
            · exact .same
            · exact .quoted
            · exact .same

/-- The lines read one after the other. -/
theorem loadLines_cr (h0 : fo.le0 fo.zero = true) : ∀ (ls : List Str) (st : LoadState F) (x : Str),
    (∀ s, loadLines ct fo st (ls ++ [[]]) = .ok s → ∃ y, loadLines ct fo { st with grammarIn := x } (ls.map withCr ++ [[]]) = .ok { s with grammarIn := y }) ∧
    (∀ e, loadLines ct fo st (ls ++ [[]]) = .error e →
      loadLines ct fo { st with grammarIn := x } (ls.map withCr ++ [[]]) = .error e ∨
      ∃ l ∈ ls, e = .ruleNotValid l ∧ loadLines ct fo { st with grammarIn := x } (ls.map withCr ++ [[]]) = .error (.ruleNotValid (withCr l)))
  | [], st, x => by
    have hb : ∀ st : LoadState F, loadLine ct fo st [] = .ok st := by
      intro st
      have : isCommentLine ct [] = true := rfl
      unfold loadLine
      rw [this]
      rfl
    constructor
    · intro s h
      simp only [List.nil_append, List.map_nil, loadLines, hb, Except.ok.injEq] at h ⊢
      exact ⟨x ++ [], by rw [← h]⟩
    · intro e h
      simp [loadLines, hb] at h
  | l :: ls, st, x => by
    simp only [List.map_cons, List.cons_append, loadLines]
    rw [loadLine_in ct fo st (st.grammarIn ++ l) l, loadLine_in ct fo st (x ++ withCr l) (withCr l)]
    have hs := loadLine_cr ct fo h0 st l
    cases h1 : loadLine ct fo st l with
    | error e =>
      rw [h1] at hs
      refine ⟨fun s h => by simp [Except.map] at h, fun e' h => ?_⟩
      simp only [Except.map, Except.error.injEq] at h
      subst h
      generalize h2 : loadLine ct fo st (withCr l) = r at hs
      cases hs with
      | same => exact Or.inl rfl
      | quoted => exact Or.inr ⟨l, List.mem_cons_self, rfl, rfl⟩
    | ok s =>
      rw [h1] at hs
      generalize h2 : loadLine ct fo st (withCr l) = r at hs
      cases hs
      simp only [Except.map]
      obtain ⟨i1, i2⟩ := loadLines_cr h0 ls { s with grammarIn := st.grammarIn ++ l } (x ++ withCr l)
      refine ⟨i1, fun e h => ?_⟩
      rcases i2 e h with h | ⟨l', hl, h⟩
      · exact Or.inl h
      · exact Or.inr ⟨l', List.mem_cons_of_mem _ hl, h⟩

end AS
