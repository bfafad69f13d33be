import Verif.Lemmas.TrieRegex
import Verif.Spec.Trie
/-
The characters of a generated pattern.
-/
namespace AS

/-- A map that leaves these characters alone. -/
def Fixes (f : Char → Char) (s : Str) : Prop := s.map f = s

theorem Fixes.append {f : Char → Char} {a b : Str} (ha : Fixes f a) (hb : Fixes f b) : Fixes f (a ++ b) := by
  unfold Fixes at *; rw [List.map_append, ha, hb]

theorem fixes_of_mem {f : Char → Char} {s : Str} (h : ∀ c ∈ s, f c = c) : Fixes f s := by
  unfold Fixes
  induction s with
  | nil => rfl
  | cons c s ih =>
    rw [List.map_cons, h c (List.mem_cons_self ..), ih (fun x hx => h x (List.mem_cons_of_mem _ hx))]

theorem fixes_joinBar {f : Char → Char} (hb : f '|' = '|') : ∀ {l : List Str}, (∀ x ∈ l, Fixes f x) → Fixes f (joinBar l)
  | [], _ => rfl
  | [x], h => h x (by simp)
  | x :: y :: ys, h => by
    rw [joinBar]
    refine Fixes.append (h x (by simp)) ?_
    have := fixes_joinBar hb (l := y :: ys) (fun z hz => h z (List.mem_cons_of_mem _ hz))
    unfold Fixes at *
    rw [List.map_cons, hb, this]

theorem fixes_flatten {f : Char → Char} : ∀ {l : List Str}, (∀ x ∈ l, Fixes f x) → Fixes f l.flatten
  | [], _ => rfl
  | x :: l, h => by
    rw [List.flatten_cons]
    exact (h x (by simp)).append (fixes_flatten (fun z hz => h z (List.mem_cons_of_mem _ hz)))

/-- The characters of the syntax of patterns. -/
def patternSyntax : Str := c!"()?:|[]\\"

theorem fixes_finish {f : Char → Char} (hs : ∀ c ∈ patternSyntax, f c = c) {alt cc : List Str} (q : Bool)
    (ha : ∀ x ∈ alt, Fixes f x) (hc : ∀ x ∈ cc, Fixes f x) : Fixes f (finishRegexp alt cc q) := by
  have lit : ∀ s : Str, (∀ c ∈ s, c ∈ patternSyntax) → Fixes f s := fun s h => fixes_of_mem (fun c hc => hs c (h c hc))
  have hhead : ∀ l : List Str, (∀ x ∈ l, Fixes f x) → Fixes f (l.headD []) := by
    intro l h
    cases l with
    | nil => exact rfl
    | cons x l => exact h x (by simp)
  have hcc : Fixes f (if cc.length = 1 then cc.headD [] else c!"[" ++ cc.flatten ++ c!"]") := by
    split
    · exact hhead cc hc
    · exact ((lit _ (by decide)).append (fixes_flatten hc)).append (lit _ (by decide))
  have halt : ∀ x ∈ (if cc.length > 0 then alt ++ [if cc.length = 1 then cc.headD [] else c!"[" ++ cc.flatten ++ c!"]"] else alt), Fixes f x := by
    intro x hx
    split at hx
    · rcases List.mem_append.1 hx with h | h
      · exact ha x h
      · rw [List.mem_singleton.1 h]; exact hcc
    · exact ha x hx
  simp only [finishRegexp]
  generalize (if cc.length > 0 then alt ++ [if cc.length = 1 then cc.headD [] else c!"[" ++ cc.flatten ++ c!"]"] else alt) = alt' at halt
  have hres : Fixes f (if alt'.length = 1 then alt'.headD [] else c!"(?:" ++ joinBar alt' ++ c!")") := by
    split
    · exact hhead _ halt
    · exact ((lit _ (by decide)).append (fixes_joinBar (hs _ (by decide)) halt)).append (lit _ (by decide))
  generalize (if alt'.length = 1 then alt'.headD [] else c!"(?:" ++ joinBar alt' ++ c!")") = res at hres
  split
  · split
    · exact hres.append (lit _ (by decide))
    · exact ((lit _ (by decide)).append hres).append (lit _ (by decide))
  · exact hres

theorem fixes_quote {f : Char → Char} (hs : ∀ c ∈ patternSyntax, f c = c) {c : Char} (hc : f c = c) : Fixes f (quoteMeta [c]) := by
  rw [quoteMeta]
  split
  · exact fixes_of_mem (by
      intro d hd
      simp only [quoteMeta, List.mem_cons, List.not_mem_nil, or_false] at hd
      rcases hd with rfl | rfl
      · exact hs _ (by decide)
      · exact hc)
  · exact fixes_of_mem (by
      intro d hd
      simp only [quoteMeta, List.mem_cons, List.not_mem_nil, or_false] at hd
      rw [hd]; exact hc)

mutual
theorem fixes_getRegexp {f : Char → Char} (hs : ∀ c ∈ patternSyntax, f c = c) : ∀ (t : Trie),
    t.Ok (fun c => f c = c) → Fixes f t.getRegexp
  | .node e sz k, h => by
    rw [Trie.Ok] at h
    rw [Trie.getRegexp]
    split
    · exact rfl
    · exact fixes_finish hs _ (fixes_regexps hs k h).1 (fixes_regexps hs k h).2
theorem fixes_regexps {f : Char → Char} (hs : ∀ c ∈ patternSyntax, f c = c) : ∀ (k : Kids),
    k.Ok (fun c => f c = c) → (∀ x ∈ (Kids.regexps k).1, Fixes f x) ∧ (∀ x ∈ (Kids.regexps k).2, Fixes f x)
  | .nil, _ => by simp [Kids.regexps]
  | .cons c t rest, h => by
    rw [Kids.Ok] at h
    obtain ⟨hc, ht, hrest⟩ : f c = c ∧ t.Ok (fun c => f c = c) ∧ rest.Ok (fun c => f c = c) := by
      simp_all
    have it := fixes_getRegexp hs t ht
    have ir := fixes_regexps hs rest hrest
    have hq := fixes_quote hs hc
    rw [Kids.regexps]
    split
    · refine ⟨?_, ir.2⟩
      intro x hx
      rcases List.mem_cons.1 hx with rfl | hx
      · exact hq.append it
      · exact ir.1 x hx
    · refine ⟨ir.1, ?_⟩
      intro x hx
      rcases List.mem_cons.1 hx with rfl | hx
      · exact hq
      · exact ir.2 x hx
end

/-- A map that leaves the characters of the words and of the syntax alone leaves the pattern alone. -/
theorem pattern_map {f : Char → Char} (hs : ∀ c ∈ patternSyntax, f c = c) {words : List Str}
    (hw : ∀ w ∈ words, ∀ c ∈ w, f c = c) : (trieOf words).getRegexp.map f = (trieOf words).getRegexp :=
  fixes_getRegexp hs _ (trieOf_spec words hw).1

end AS
