import Verif.Lemmas.LexEntry
import Verif.Lemmas.Trie
/-
Lemmas about lexicon histories.
-/
namespace AS

/-! ### Ordered maps -/

/-- Keys in increasing order. -/
def OmSorted {α : Type} (m : List (Str × α)) : Prop := m.Pairwise (fun a b => strLt a.1 b.1 = true)

theorem strLt_ne {a b : Str} (h : strLt a b = true) : a ≠ b := by
  rintro rfl; rw [strLt_irrefl] at h; cases h

theorem omFind_none_of_lt {α : Type} {k : Str} : ∀ {m : List (Str × α)}, (∀ a ∈ m, strLt k a.1 = true) → omFind k m = none
  | [], _ => rfl
  | (k', v) :: m, h => by
    rw [omFind, if_neg (strLt_ne (h (k', v) (List.mem_cons_self ..)))]
    exact omFind_none_of_lt (fun a ha => h a (List.mem_cons_of_mem _ ha))

theorem omSorted_cons {α : Type} {a : Str × α} {m : List (Str × α)} :
    OmSorted (a :: m) ↔ (∀ b ∈ m, strLt a.1 b.1 = true) ∧ OmSorted m := by
  unfold OmSorted; exact List.pairwise_cons

theorem omFind_omSet {α : Type} (k k' : Str) (v : α) : ∀ {m : List (Str × α)}, OmSorted m →
    omFind k' (omSet k v m) = if k' = k then some v else omFind k' m
  | [], _ => by
    by_cases h : k' = k <;> simp [omSet, omFind, h]
  | (k0, v0) :: m, h => by
    obtain ⟨h1, h2⟩ := omSorted_cons.1 h
    rw [omSet]
    by_cases e : k = k0
    · subst e
      rw [if_pos rfl]
      by_cases e' : k' = k
      · simp [omFind, e']
      · simp [omFind, e']
    · rw [if_neg e]
      by_cases hl : strLt k k0 = true
      · rw [if_pos hl, omFind]
      · rw [if_neg hl, omFind, omFind, omFind_omSet k k' v h2]
        by_cases e' : k' = k0
        · subst e'
          have : ¬ k' = k := fun x => e x.symm
          simp [this]
        · simp [e']

theorem mem_omSet {α : Type} (k : Str) (v : α) {a : Str × α} : ∀ {m : List (Str × α)}, a ∈ omSet k v m → a = (k, v) ∨ a ∈ m
  | [], h => by simpa [omSet] using h
  | (k0, v0) :: m, h => by
    rw [omSet] at h
    split at h
    · rename_i e
      subst e
      rcases List.mem_cons.1 h with h | h
      · exact Or.inl h
      · exact Or.inr (List.mem_cons_of_mem _ h)
    · split at h
      · rcases List.mem_cons.1 h with h | h
        · exact Or.inl h
        · exact Or.inr h
      · rcases List.mem_cons.1 h with h | h
        · exact Or.inr (by rw [h]; exact List.mem_cons_self ..)
        · rcases mem_omSet k v h with h | h
          · exact Or.inl h
          · exact Or.inr (List.mem_cons_of_mem _ h)

theorem omSorted_omSet {α : Type} (k : Str) (v : α) : ∀ {m : List (Str × α)}, OmSorted m → OmSorted (omSet k v m)
  | [], _ => by simp [omSet, OmSorted]
  | (k0, v0) :: m, h => by
    obtain ⟨h1, h2⟩ := omSorted_cons.1 h
    rw [omSet]
    split
    · exact omSorted_cons.2 ⟨h1, h2⟩
    · rename_i e
      split
      · rename_i hl
        refine omSorted_cons.2 ⟨?_, h⟩
        intro b hb
        rcases List.mem_cons.1 hb with rfl | hb
        · exact hl
        · exact strLt_trans _ _ _ hl (h1 b hb)
      · rename_i hl
        refine omSorted_cons.2 ⟨?_, omSorted_omSet k v h2⟩
        intro b hb
        rcases mem_omSet k v hb with rfl | hb
        · rcases strLt_total k k0 with h | h | h
          · exact absurd h hl
          · exact absurd h e
          · exact h
        · exact h1 b hb

theorem mem_omErase {α : Type} (k : Str) {a : Str × α} : ∀ {m : List (Str × α)}, a ∈ omErase k m → a ∈ m
  | [], h => by simp [omErase] at h
  | (k0, v0) :: m, h => by
    rw [omErase] at h
    split at h
    · exact List.mem_cons_of_mem _ h
    · rcases List.mem_cons.1 h with h | h
      · rw [h]; exact List.mem_cons_self ..
      · exact List.mem_cons_of_mem _ (mem_omErase k h)

theorem omSorted_omErase {α : Type} (k : Str) : ∀ {m : List (Str × α)}, OmSorted m → OmSorted (omErase k m)
  | [], _ => by simp [omErase, OmSorted]
  | (k0, v0) :: m, h => by
    obtain ⟨h1, h2⟩ := omSorted_cons.1 h
    rw [omErase]
    split
    · exact h2
    · exact omSorted_cons.2 ⟨fun b hb => h1 b (mem_omErase k hb), omSorted_omErase k h2⟩

theorem omFind_omErase {α : Type} (k k' : Str) : ∀ {m : List (Str × α)}, OmSorted m →
    omFind k' (omErase k m) = if k' = k then none else omFind k' m
  | [], _ => by simp [omErase, omFind]
  | (k0, v0) :: m, h => by
    obtain ⟨h1, h2⟩ := omSorted_cons.1 h
    rw [omErase]
    by_cases e : k = k0
    · subst e
      rw [if_pos rfl]
      by_cases e' : k' = k
      · subst e'
        rw [if_pos rfl]
        exact omFind_none_of_lt h1
      · simp [omFind, e']
    · rw [if_neg e, omFind, omFind, omFind_omErase k k' h2]
      by_cases e' : k' = k0
      · subst e'
        have : ¬ k' = k := fun x => e x.symm
        simp [this]
      · simp [e']

theorem omFind_mem {α : Type} {k : Str} {v : α} : ∀ {m : List (Str × α)}, OmSorted m → (omFind k m = some v ↔ (k, v) ∈ m)
  | [], _ => by simp [omFind]
  | (k0, v0) :: m, h => by
    obtain ⟨h1, h2⟩ := omSorted_cons.1 h
    rw [omFind]
    by_cases e : k = k0
    · subst e
      rw [if_pos rfl]
      simp only [Option.some.injEq, List.mem_cons, Prod.mk.injEq, true_and]
      constructor
      · rintro rfl; exact Or.inl rfl
      · rintro (h | h)
        · exact h.symm
        · exact absurd rfl (strLt_ne (h1 (k, v) h))
    · rw [if_neg e, omFind_mem h2]
      simp [e]

theorem om_ext {α : Type} : ∀ {m m' : List (Str × α)}, OmSorted m → OmSorted m' → (∀ k, omFind k m = omFind k m') → m = m'
  | [], [], _, _, _ => rfl
  | [], (k, v) :: m, _, _, h => by have := h k; simp [omFind] at this
  | (k, v) :: m, [], _, _, h => by have := h k; simp [omFind] at this
  | (k, v) :: m, (k', v') :: m', s, s', h => by
    obtain ⟨h1, h2⟩ := omSorted_cons.1 s
    obtain ⟨h1', h2'⟩ := omSorted_cons.1 s'
    have hk : k = k' := by
      rcases strLt_total k k' with hl | hl | hl
      · have hn : omFind k ((k', v') :: m') = none := omFind_none_of_lt (by
          intro a ha
          rcases List.mem_cons.1 ha with rfl | ha
          · exact hl
          · exact strLt_trans _ _ _ hl (h1' a ha))
        rw [← h k] at hn; simp [omFind] at hn
      · exact hl
      · have hn : omFind k' ((k, v) :: m) = none := omFind_none_of_lt (by
          intro a ha
          rcases List.mem_cons.1 ha with rfl | ha
          · exact hl
          · exact strLt_trans _ _ _ hl (h1 a ha))
        rw [h k'] at hn; simp [omFind] at hn
    subst hk
    have hv : v = v' := by have := h k; simpa [omFind] using this
    subst hv
    have : m = m' := by
      apply om_ext h2 h2'
      intro x
      by_cases e : x = k
      · subst e
        rw [omFind_none_of_lt h1, omFind_none_of_lt h1']
      · have := h x
        simpa [omFind, e] using this
    rw [this]

/-! ### Histories -/

namespace Lexicon

theorem present_iff (e : LexEntry) : ∀ l : List LexEntry, present e l = true ↔ e ∈ l
  | [] => by simp [present]
  | x :: xs => by
    rw [present]
    by_cases h : x = e
    · simp [h]
    · have : ¬ e = x := fun y => h y.symm
      simp [h, this, present_iff e xs]

theorem eraseFirst_eq (e : LexEntry) : ∀ l : List LexEntry, l.Nodup →
    eraseFirst e l = if e ∈ l then some (l.filter (fun x => x ≠ e)) else none
  | [], _ => by simp [eraseFirst]
  | x :: xs, h => by
    obtain ⟨h1, h2⟩ := List.nodup_cons.1 h
    rw [eraseFirst]
    by_cases hx : x = e
    · subst hx
      have : xs.filter (fun y => decide (y ≠ x)) = xs := by
        apply List.filter_eq_self.2
        intro a ha
        simp only [ne_eq, decide_eq_true_eq]
        rintro rfl; exact h1 ha
      simp only [if_true, List.mem_cons, true_or]
      rw [List.filter_cons]
      simp only [ne_eq, not_true_eq_false, decide_false, Bool.false_eq_true, if_false]
      rw [← this]; simp
    · have hx' : ¬ e = x := fun y => hx y.symm
      rw [if_neg hx, eraseFirst_eq e xs h2]
      by_cases hm : e ∈ xs
      · simp [hm, hx]
      · simp [hm, hx']

/-- The lexicon holds exactly the entries of the list. -/
structure Holds (l : Lexicon) (h : List LexEntry) : Prop where
  sorted : OmSorted l.lex
  ne : ∀ a ∈ l.lex, a.2 ≠ []
  find : ∀ w, l.find w = h.filter (fun e => e.word = w)
  nodup : h.Nodup

theorem holds_empty (n : Str) (la : Lang) (lo : Str) (r p s m : Str) :
    Holds { name := n, lang := la, locale := lo, lex := [], regex_ := r, regexPrefix := p, regexSuffix := s, md5in := m } [] where
  sorted := List.Pairwise.nil
  ne := by simp
  find := by intro w; simp [Lexicon.find, omFind]
  nodup := List.nodup_nil

theorem find_eq (l : Lexicon) (w : Str) : l.find w = (omFind w l.lex).getD [] := by
  unfold Lexicon.find; cases omFind w l.lex <;> rfl

theorem Holds.insert {l : Lexicon} {h : List LexEntry} (H : Holds l h) (e : LexEntry) :
    Holds (l.insert e) (if e ∈ h then h else h ++ [e]) := by
  unfold Lexicon.insert
  simp only
  have hp : present e (l.find e.word) = true ↔ e ∈ h := by
    rw [present_iff, H.find]; simp
  by_cases he : e ∈ h
  · rw [if_pos (hp.2 he), if_pos he]; exact H
  · rw [if_neg (fun x => he (hp.1 x)), if_neg he]
    refine ⟨omSorted_omSet _ _ H.sorted, ?_, ?_, ?_⟩
    · intro a ha
      rcases mem_omSet _ _ ha with rfl | ha
      · simp
      · exact H.ne a ha
    · intro w
      rw [find_eq]
      simp only [clearCaches]
      rw [omFind_omSet _ _ _ H.sorted, List.filter_append]
      by_cases hw : w = e.word
      · subst hw
        simp [H.find]
      · have : ¬ e.word = w := fun x => hw x.symm
        rw [if_neg hw, ← find_eq, H.find]
        simp [this]
    · rw [List.nodup_append]
      refine ⟨H.nodup, by simp, ?_⟩
      intro a ha b hb
      simp only [List.mem_singleton] at hb
      subst hb
      rintro rfl; exact he ha

theorem Holds.remove {l : Lexicon} {h : List LexEntry} (H : Holds l h) (e : LexEntry) :
    Holds (l.remove e) (h.filter (fun x => x ≠ e)) := by
  have hnd : (l.find e.word).Nodup := by rw [H.find]; exact H.nodup.filter _
  have hmem : e ∈ l.find e.word ↔ e ∈ h := by rw [H.find]; simp
  have hsame : e ∉ h → h.filter (fun x => decide (x ≠ e)) = h := by
    intro he
    apply List.filter_eq_self.2
    intro a ha
    simp only [ne_eq, decide_eq_true_eq]
    rintro rfl; exact he ha
  unfold Lexicon.remove
  simp only
  split
  · rename_i h0
    have he : e ∉ h := by
      rw [← hmem, List.length_eq_zero_iff.1 h0]; simp
    rw [hsame he]; exact H
  · rw [eraseFirst_eq _ _ hnd]
    by_cases he : e ∈ h
    · rw [if_pos (hmem.2 he)]
      simp only
      have hrest : (l.find e.word).filter (fun x => decide (x ≠ e)) = (h.filter (fun x => decide (x ≠ e))).filter (fun x => decide (x.word = e.word)) := by
        rw [H.find, List.filter_filter, List.filter_filter]
        congr 1; funext x; exact Bool.and_comm _ _
      have hother : ∀ w, w ≠ e.word → (h.filter (fun x => decide (x ≠ e))).filter (fun x => decide (x.word = w)) = h.filter (fun x => decide (x.word = w)) := by
        intro w hw
        rw [List.filter_filter]
        apply List.filter_congr
        intro x _
        by_cases hx : x = e
        · subst hx
          have : ¬ x.word = w := fun y => hw y.symm
          simp [this]
        · simp [hx]
      split
      · rename_i hl
        have hnil := List.length_eq_zero_iff.1 hl
        refine ⟨omSorted_omErase _ H.sorted, fun a ha => H.ne a (mem_omErase _ ha), ?_, H.nodup.filter _⟩
        intro w
        rw [find_eq]
        simp only [clearCaches]
        rw [omFind_omErase _ _ H.sorted]
        by_cases hw : w = e.word
        · subst hw
          rw [if_pos rfl, ← hrest, hnil]; rfl
        · rw [if_neg hw, ← find_eq, H.find, hother w hw]
      · rename_i hl
        refine ⟨omSorted_omSet _ _ H.sorted, ?_, ?_, H.nodup.filter _⟩
        · intro a ha
          rcases mem_omSet _ _ ha with rfl | ha
          · intro h0; exact hl (by simp only at h0; rw [h0]; rfl)
          · exact H.ne a ha
        · intro w
          rw [find_eq]
          simp only [clearCaches]
          rw [omFind_omSet _ _ _ H.sorted]
          by_cases hw : w = e.word
          · subst hw
            rw [if_pos rfl, ← hrest]; rfl
          · rw [if_neg hw, ← find_eq, H.find, hother w hw]
    · rw [if_neg (fun x => he (hmem.1 x)), hsame he]
      exact ⟨H.sorted, H.ne, H.find, H.nodup⟩

/-- One step of `held`. -/
def heldStep (h : List LexEntry) (op : LexOp) : List LexEntry :=
  match op with
  | .ins e => if e ∈ h then h else h ++ [e]
  | .rem e => h.filter (fun x => x ≠ e)

theorem held_eq (ops : List LexOp) : held ops = ops.foldl heldStep [] := rfl

theorem Holds.apply {l : Lexicon} {h : List LexEntry} (H : Holds l h) (op : LexOp) : Holds (op.apply l) (heldStep h op) := by
  cases op with
  | ins e => exact H.insert e
  | rem e => exact H.remove e

theorem Holds.run : ∀ (ops : List LexOp) {l : Lexicon} {h : List LexEntry}, Holds l h →
    Holds (ops.foldl LexOp.apply l) (ops.foldl heldStep h)
  | [], _, _, H => H
  | op :: ops, _, _, H => Holds.run ops (H.apply op)

/-- The entries determine the map. -/
theorem Holds.lex_eq {l l' : Lexicon} {h : List LexEntry} (H : Holds l h) (H' : Holds l' h) : l.lex = l'.lex := by
  apply om_ext H.sorted H'.sorted
  intro k
  have e : l.find k = l'.find k := by rw [H.find, H'.find]
  rw [find_eq, find_eq] at e
  cases h1 : omFind k l.lex with
  | none =>
    cases h2 : omFind k l'.lex with
    | none => rfl
    | some v =>
      rw [h1, h2] at e
      exact absurd e.symm (H'.ne _ ((omFind_mem H'.sorted).1 h2))
  | some v =>
    cases h2 : omFind k l'.lex with
    | none =>
      rw [h1, h2] at e
      exact absurd e (H.ne _ ((omFind_mem H.sorted).1 h1))
    | some v' => rw [h1, h2] at e; simp only [Option.getD_some] at e; rw [e]

theorem Holds.key_iff {l : Lexicon} {h : List LexEntry} (H : Holds l h) (k : Str) :
    k ∈ l.lex.map (·.1) ↔ ∃ e ∈ h, e.word = k := by
  have hf := H.find k
  rw [find_eq] at hf
  constructor
  · intro hk
    obtain ⟨⟨k', v⟩, hm, rfl⟩ := List.mem_map.1 hk
    rw [(omFind_mem H.sorted).2 hm] at hf
    have hne := H.ne _ hm
    simp only [Option.getD_some] at hf hne
    obtain ⟨e, es, he⟩ := List.exists_cons_of_ne_nil hne
    have : e ∈ h.filter (fun e => decide (e.word = k')) := by rw [← hf, he]; exact List.mem_cons_self ..
    simp only [List.mem_filter, decide_eq_true_eq] at this
    exact ⟨e, this.1, this.2⟩
  · rintro ⟨e, he, rfl⟩
    cases h1 : omFind e.word l.lex with
    | some v => exact List.mem_map.2 ⟨_, (omFind_mem H.sorted).1 h1, rfl⟩
    | none =>
      rw [h1] at hf
      have : e ∈ h.filter (fun x => decide (x.word = e.word)) := by simp [he]
      rw [← hf] at this
      simp at this

/-! ### Caches -/

/-- The pattern a request builds. -/
def freshRegex (m : List (Str × List LexEntry)) : Str := (trieOf (m.map (·.1))).getRegexp ++ c!"|"
/-- The pattern a request builds. -/
def freshPrefix (m : List (Str × List LexEntry)) : Str :=
  c!"^" ++ (trieOf (attachedWords LexEntry.isPrefixAttached m)).getRegexp ++ c!"\\B"
/-- The pattern a request builds. -/
def freshSuffix (m : List (Str × List LexEntry)) : Str :=
  (trieOf (attachedWords LexEntry.isSuffixAttached m)).getRegexp

/-- A cache is empty or up to date. -/
structure CacheOk (l : Lexicon) : Prop where
  re : l.regex_ = [] ∨ l.regex_ = freshRegex l.lex
  pre : l.regexPrefix = [] ∨ l.regexPrefix = freshPrefix l.lex
  suf : l.regexSuffix = [] ∨ l.regexSuffix = freshSuffix l.lex

theorem cacheOk_cleared (l : Lexicon) : CacheOk (clearCaches l) := ⟨Or.inl rfl, Or.inl rfl, Or.inl rfl⟩

theorem CacheOk.regex {l : Lexicon} (h : CacheOk l) : l.regex.2 = freshRegex l.lex ∧ CacheOk l.regex.1 ∧ l.regex.1.lex = l.lex := by
  unfold Lexicon.regex
  simp only
  split
  · exact ⟨rfl, ⟨Or.inr rfl, h.pre, h.suf⟩, rfl⟩
  · rename_i h0
    rcases h.re with h1 | h1
    · rw [h1] at h0; simp at h0
    · exact ⟨h1, h, rfl⟩

theorem CacheOk.regexPrefixAtt {l : Lexicon} (h : CacheOk l) :
    l.regexPrefixAtt.2 = freshPrefix l.lex ∧ CacheOk l.regexPrefixAtt.1 ∧ l.regexPrefixAtt.1.lex = l.lex := by
  unfold Lexicon.regexPrefixAtt
  simp only
  split
  · exact ⟨rfl, ⟨h.re, Or.inr rfl, h.suf⟩, rfl⟩
  · rename_i h0
    rcases h.pre with h1 | h1
    · rw [h1] at h0; simp at h0
    · exact ⟨h1, h, rfl⟩

theorem CacheOk.regexSuffixAtt {l : Lexicon} (h : CacheOk l) :
    l.regexSuffixAtt.2 = freshSuffix l.lex ∧ CacheOk l.regexSuffixAtt.1 ∧ l.regexSuffixAtt.1.lex = l.lex := by
  unfold Lexicon.regexSuffixAtt
  simp only
  split
  · exact ⟨rfl, ⟨h.re, h.pre, Or.inr rfl⟩, rfl⟩
  · rename_i h0
    rcases h.suf with h1 | h1
    · rw [h1] at h0; simp at h0
    · exact ⟨h1, h, rfl⟩

theorem CacheOk.insert {l : Lexicon} (h : CacheOk l) (e : LexEntry) : CacheOk (l.insert e) := by
  unfold Lexicon.insert
  simp only
  split
  · exact h
  · exact cacheOk_cleared _

theorem CacheOk.remove {l : Lexicon} (h : CacheOk l) (e : LexEntry) : CacheOk (l.remove e) := by
  unfold Lexicon.remove
  simp only
  split
  · exact h
  · split
    · exact cacheOk_cleared _
    · split <;> exact cacheOk_cleared _

theorem use_inv : ∀ (us : List LexUse) {l : Lexicon} {h : List LexEntry}, CacheOk l → Holds l h →
    CacheOk (us.foldl LexUse.apply l) ∧ Holds (us.foldl LexUse.apply l) ((LexUse.changes us).foldl heldStep h)
  | [], _, _, hc, H => ⟨hc, H⟩
  | u :: us, l, h, hc, H => by
    have same : ∀ {l' : Lexicon}, l'.lex = l.lex → Holds l' h := by
      intro l' e
      refine ⟨by rw [e]; exact H.sorted, by rw [e]; exact H.ne, ?_, H.nodup⟩
      intro w; rw [find_eq, e, ← find_eq]; exact H.find w
    rw [List.foldl_cons]
    cases u with
    | change op =>
      cases op with
      | ins e => exact use_inv us (hc.insert e) (H.insert e)
      | rem e => exact use_inv us (hc.remove e) (H.remove e)
    | regex => exact use_inv us hc.regex.2.1 (same hc.regex.2.2)
    | regexPrefixAtt => exact use_inv us hc.regexPrefixAtt.2.1 (same hc.regexPrefixAtt.2.2)
    | regexSuffixAtt => exact use_inv us hc.regexSuffixAtt.2.1 (same hc.regexSuffixAtt.2.2)

end Lexicon
end AS
