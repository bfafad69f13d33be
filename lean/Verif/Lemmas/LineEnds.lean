import Verif.Spec.LineEnds
import Verif.Lemmas.LexCheck
import Verif.Props.Grammar
import Verif.Props.Codec
/-
Lines with a carriage return at the end.
-/
namespace AS

theorem unlinesCr_eq (ls : List Str) : unlinesCr ls = unlines (ls.map withCr) := by
  unfold unlinesCr unlines withCr
  rw [List.flatMap_map]
  simp

/-! ### Parts -/

/-- The last of the parts gets the carriage return. -/
def crLast : List Str → List Str
  | [] => []
  | [p] => [withCr p]
  | p :: q :: ps => p :: crLast (q :: ps)

theorem splitOn_withCr {d : Char} (hd : d ≠ '\r') : ∀ s : Str, splitOn d (withCr s) = crLast (splitOn d s)
  | [] => by
    have : ¬ '\r' = d := fun h => hd h.symm
    simp [withCr, splitOn, crLast, this]
  | c :: s => by
    have ih := splitOn_withCr hd s
    have e : withCr (c :: s) = c :: withCr s := rfl
    obtain ⟨p, ps, hs⟩ := List.exists_cons_of_ne_nil (splitOn_ne d s)
    rw [e, splitOn, splitOn, ih, hs]
    split
    · simp [crLast]
    · cases ps with
      | nil => simp [crLast, withCr]
      | cons q qs => simp [crLast]

theorem crLast_length : ∀ ps : List Str, (crLast ps).length = ps.length
  | [] => rfl
  | [_] => rfl
  | _ :: q :: ps => by rw [crLast, List.length_cons, crLast_length (q :: ps)]; rfl

theorem crLast_ne : ∀ (ps : List Str), ps ≠ [] → crLast ps = ps.dropLast ++ [withCr (ps.getLastD [])]
  | [], h => absurd rfl h
  | [p], _ => rfl
  | p :: q :: ps, _ => by
    rw [crLast, crLast_ne (q :: ps) (by simp)]
    simp

theorem crLast_getD (ps : List Str) (i : Nat) (h : i + 1 < ps.length) : (crLast ps).getD i [] = ps.getD i [] := by
  rw [crLast_ne ps (by intro e; simp [e] at h)]
  rw [List.getD_eq_getElem?_getD, List.getD_eq_getElem?_getD, List.getElem?_append_left (by simp; omega), List.getElem?_dropLast]
  simp [show i < ps.length - 1 by omega]

theorem crLast_getD_last (ps : List Str) (i : Nat) (h : i + 1 = ps.length) : (crLast ps).getD i [] = withCr (ps.getD i []) := by
  have hne : ps ≠ [] := by intro e; simp [e] at h
  rw [crLast_ne ps hne, List.getD_eq_getElem?_getD, List.getElem?_append_right (by simp; omega)]
  have : i - ps.dropLast.length = 0 := by simp; omega
  rw [this]
  simp only [List.getElem?_cons_zero, Option.getD_some]
  congr 1
  rw [List.getLastD_eq_getLast?, List.getLast?_eq_getElem?, List.getD_eq_getElem?_getD, ← h, Nat.add_sub_cancel]

theorem crLast_head (p : Str) (ps : List Str) (h : ps ≠ []) : crLast (p :: ps) = p :: crLast ps := by
  cases ps with
  | nil => exact absurd rfl h
  | cons q qs => rfl

/-! ### Canonical lines -/

theorem collapse_withCr : ∀ (s : Str) (b : Bool), Lexicon.collapse b (withCr s) = withCr (Lexicon.collapse b s)
  | [], b => by simp [withCr, Lexicon.collapse]
  | c :: s, b => by
    have e : withCr (c :: s) = c :: withCr s := rfl
    rw [e, Lexicon.collapse, Lexicon.collapse]
    split
    · split
      · exact collapse_withCr s true
      · rw [collapse_withCr s true]; rfl
    · rw [collapse_withCr s false]; rfl

theorem canonLine_withCr {icu : Icu} (hc : IcuCr icu) (loc l : Str) : canonLine icu loc (withCr l) = withCr (canonLine icu loc l) := by
  rw [canonLine_eq, canonLine_eq, collapse_withCr, hc.norm]
  split
  · exact hc.upper _ _
  · rfl

/-! ### Classes and attachments -/

theorem names_iff {q : Str} {t : Attach} : ItemNames q t ↔ ∃ name a b, (name, t) ∈ Props.attachTable ∧
    q = List.replicate a ' ' ++ name ++ List.replicate b ' ' := Iff.rfl

theorem asAttach_mem (s : Str) (t : Attach) : t ∈ Attach.asAttach s ↔ Named s t := by
  obtain ⟨p, ps, e, h, hs⟩ := splitOn_spec ',' s
  obtain ⟨S, h1, _, h3⟩ := Props.C03_read_attach_list p ps h
  unfold Named Attach.asAttach
  rw [e]
  conv => lhs; rw [hs]
  rw [h1]
  exact h3 t

theorem asType_mem (s : Str) (t : InType) : t ∈ InType.asType s ↔ ∃ q ∈ splitOn ',' s, itemType q = some t := by
  obtain ⟨p, ps, e, h, hs⟩ := splitOn_spec ',' s
  unfold InType.asType
  rw [e]
  conv => lhs; rw [hs]
  rw [show joinWith [','] (p :: ps) = joinWith c!"," (p :: ps) from rfl, asType?_join p ps h]
  exact mem_readItems _ t

theorem not_names_cr (p : Str) (t : Attach) : ¬ ItemNames (withCr p) t := by
  rintro ⟨name, a, b, hm, he⟩
  have hl : (withCr p).getLast? = some '\r' := by simp [withCr]
  rw [he] at hl
  have hn : ∀ e ∈ attachNames, e.1.getLast? ≠ some '\r' ∧ e.1 ≠ [] := by decide
  obtain ⟨h1, h2⟩ := hn _ hm
  cases b with
  | zero =>
    simp only [List.replicate_zero, List.append_nil, List.getLast?_append] at hl
    rw [List.getLast?_eq_some_getLast h2] at hl h1
    exact h1 hl
  | succ b =>
    rw [List.replicate_succ', ← List.append_assoc, List.getLast?_append] at hl
    simp at hl

theorem listed_cr (s : Str) (t : Attach) : Named (withCr s) t ↔ NamedBeforeLast s t := by
  unfold Named NamedBeforeLast
  rw [splitOn_withCr (by decide), crLast_ne _ (splitOn_ne _ _)]
  constructor
  · rintro ⟨q, hq, hn⟩
    rcases List.mem_append.1 hq with hq | hq
    · exact ⟨q, hq, hn⟩
    · rw [List.mem_singleton] at hq
      subst hq
      exact absurd hn (not_names_cr _ _)
  · rintro ⟨q, hq, hn⟩
    exact ⟨q, List.mem_append_left _ hq, hn⟩

theorem itemType_cr (p : Str) : itemType (withCr p) = some .BADTOKEN := by
  rcases blank_or_core (withCr p) with ⟨n, h⟩ | ⟨a, b, core, hne, hh, hl, h⟩
  · exfalso
    have : '\r' ∈ withCr p := by simp [withCr]
    rw [h] at this
    simp at this
  · have hc : '\r' ∈ core := by
      have : '\r' ∈ withCr p := by simp [withCr]
      rw [h] at this
      simpa using this
    unfold itemType
    rw [h, trimboth_core a b core hne hh hl]
    simp only [List.length_pos_iff, ne_eq, hne, not_false_eq_true, ↓reduceIte, Option.some.injEq]
    have ht : ∀ e ∈ Props.inTable, '\r' ∉ e.1 := by decide
    exact Props.C01_inclass_other_string core (fun e he h => ht e he (h ▸ hc))

theorem asType_cr (s : Str) : InType.BADTOKEN ∈ InType.asType (withCr s) := by
  rw [asType_mem, splitOn_withCr (by decide), crLast_ne _ (splitOn_ne _ _)]
  exact ⟨_, List.mem_append_right _ (List.mem_singleton.2 rfl), itemType_cr _⟩

/-! ### Entries -/

theorem entryFields_cr {x : Str} (ht : (splitOn '\t' x).head? = some c!"LEXENTRY:") (h2 : 2 ≤ (splitOn '\t' x).length) :
    entryFields x = (splitOn '\t' x).tail ∧ entryFields (withCr x) = crLast (splitOn '\t' x).tail := by
  unfold entryFields
  rw [splitOn_withCr (by decide)]
  match hs : splitOn '\t' x with
  | [] => simp [hs] at h2
  | [a] => simp [hs] at h2
  | a :: b :: cs =>
    rw [hs] at ht
    simp only [List.head?_cons, Option.some.injEq] at ht
    subst ht
    constructor
    · simp
    · rw [crLast_head _ _ (by simp)]
      have : ∃ y ys, crLast (b :: cs) = y :: ys := by
        cases cs with
        | nil => exact ⟨_, _, rfl⟩
        | cons c cs => exact ⟨_, _, rfl⟩
      obtain ⟨y, ys, e⟩ := this
      simp [e]

end AS
