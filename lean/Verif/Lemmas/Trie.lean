import Verif.Model.Trie
import Verif.Spec.Trie
/-
Facts about tries.
-/
namespace AS

/-! ### The order of strings -/

theorem char_toNat_inj {a b : Char} (h : a.toNat = b.toNat) : a = b := by
  apply Char.ext; apply UInt32.toNat_inj.1; exact h

theorem strLt_irrefl : ∀ a : Str, strLt a a = false
  | [] => rfl
  | a :: as => by simp [strLt, strLt_irrefl as]

theorem strLt_trans : ∀ a b c : Str, strLt a b = true → strLt b c = true → strLt a c = true
  | [], [], _, h, _ => by simp [strLt] at h
  | [], _ :: _, [], _, h => by simp [strLt] at h
  | [], _ :: _, _ :: _, _, _ => rfl
  | _ :: _, [], _, h, _ => by simp [strLt] at h
  | _ :: _, _ :: _, [], _, h => by simp [strLt] at h
  | a :: as, b :: bs, c :: cs, h1, h2 => by
    simp only [strLt, Bool.or_eq_true, decide_eq_true_eq, Bool.and_eq_true] at h1 h2 ⊢
    rcases h1 with h1 | ⟨rfl, h1⟩
    · rcases h2 with h2 | ⟨rfl, h2⟩
      · left; omega
      · left; exact h1
    · rcases h2 with h2 | ⟨rfl, h2⟩
      · left; exact h2
      · right; exact ⟨rfl, strLt_trans as bs cs h1 h2⟩

theorem strLt_total : ∀ a b : Str, strLt a b = true ∨ a = b ∨ strLt b a = true
  | [], [] => Or.inr (Or.inl rfl)
  | [], _ :: _ => Or.inl rfl
  | _ :: _, [] => Or.inr (Or.inr rfl)
  | a :: as, b :: bs => by
    simp only [strLt, Bool.or_eq_true, decide_eq_true_eq, Bool.and_eq_true, List.cons.injEq]
    rcases Nat.lt_trichotomy a.toNat b.toNat with h | h | h
    · exact Or.inl (Or.inl h)
    · have := char_toNat_inj h
      subst this
      rcases strLt_total as bs with h | h | h
      · exact Or.inl (Or.inr ⟨rfl, h⟩)
      · exact Or.inr (Or.inl ⟨rfl, h⟩)
      · exact Or.inr (Or.inr (Or.inr ⟨rfl, h⟩))
    · exact Or.inr (Or.inr (Or.inl h))

theorem strLt_iff : ∀ a b : Str, strLt a b = true ↔ CodeLt a b
  | [], [] => by simp [strLt, CodeLt]
  | [], b :: bs => by
    simp only [strLt, true_iff]
    exact Or.inl ⟨b, bs, rfl⟩
  | a :: as, [] => by simp [strLt, CodeLt]
  | a :: as, b :: bs => by
    simp only [strLt, Bool.or_eq_true, decide_eq_true_eq, Bool.and_eq_true, strLt_iff as bs]
    constructor
    · rintro (h | ⟨rfl, ⟨x, xs, rfl⟩ | ⟨p, x, xs, y, ys, rfl, rfl, h⟩⟩)
      · exact Or.inr ⟨[], a, as, b, bs, rfl, rfl, h⟩
      · exact Or.inl ⟨x, xs, rfl⟩
      · exact Or.inr ⟨a :: p, x, xs, y, ys, rfl, rfl, h⟩
    · rintro (⟨x, xs, h⟩ | ⟨p, x, xs, y, ys, h1, h2, h⟩)
      · simp only [List.cons_append, List.cons.injEq] at h
        exact Or.inr ⟨h.1.symm, Or.inl ⟨x, xs, h.2⟩⟩
      · cases p with
        | nil =>
          simp only [List.nil_append, List.cons.injEq] at h1 h2
          left; rw [h1.1, h2.1]; exact h
        | cons q p =>
          simp only [List.cons_append, List.cons.injEq] at h1 h2
          exact Or.inr ⟨by rw [h1.1, h2.1], Or.inr ⟨p, x, xs, y, ys, h1.2, h2.2, h⟩⟩

/-- Increasing order of strings. -/
def StrSorted (l : List Str) : Prop := l.Pairwise (fun a b => strLt a b = true)

theorem mem_wordInsert (w x : Str) : ∀ l, x ∈ wordInsert w l ↔ x = w ∨ x ∈ l
  | [] => by simp [wordInsert]
  | y :: ys => by
    rw [wordInsert]
    split
    · rename_i h; subst h; simp
    · split
      · simp
      · simp only [List.mem_cons, mem_wordInsert w x ys]
        constructor
        · rintro (h | h | h)
          · exact Or.inr (Or.inl h)
          · exact Or.inl h
          · exact Or.inr (Or.inr h)
        · rintro (h | h | h)
          · exact Or.inr (Or.inl h)
          · exact Or.inl h
          · exact Or.inr (Or.inr h)

theorem sorted_wordInsert (w : Str) : ∀ l, StrSorted l → StrSorted (wordInsert w l)
  | [], _ => by simp [wordInsert, StrSorted]
  | y :: ys, h => by
    rw [wordInsert]
    have hy : (∀ z ∈ ys, strLt y z = true) ∧ StrSorted ys := by
      unfold StrSorted at h; rw [List.pairwise_cons] at h; exact h
    split
    · exact h
    · rename_i hne
      split
      · rename_i hlt
        unfold StrSorted
        rw [List.pairwise_cons]
        refine ⟨?_, h⟩
        intro z hz
        rcases List.mem_cons.1 hz with rfl | hz
        · exact hlt
        · exact strLt_trans _ _ _ hlt (hy.1 z hz)
      · rename_i hlt
        unfold StrSorted
        rw [List.pairwise_cons]
        refine ⟨?_, sorted_wordInsert w ys hy.2⟩
        intro z hz
        rcases (mem_wordInsert w z ys).1 hz with rfl | hz
        · rcases strLt_total z y with h1 | h1 | h1
          · exact absurd h1 hlt
          · exact absurd h1 hne
          · exact h1
        · exact hy.1 z hz

/-! ### Well-formed tries -/

/-- The keys of the children. -/
def Kids.keys : Kids → List Char
  | .nil => []
  | .cons c _ rest => c :: rest.keys

mutual
/-- Keys increase, satisfy `P`, and no child is a dead end. -/
def Trie.Ok (P : Char → Prop) : Trie → Prop
  | .node _ _ k => Kids.Ok P k
/-- The same for a sequence of children. -/
def Kids.Ok (P : Char → Prop) : Kids → Prop
  | .nil => True
  | .cons c t rest => P c ∧ Trie.Ok P t ∧ (t.isEnd = true ∨ t.kids.count ≠ 0) ∧
      (∀ d ∈ rest.keys, c.toNat < d.toNat) ∧ Kids.Ok P rest
end

theorem find_none_of_not_key {c : Char} : ∀ {k : Kids}, c ∉ k.keys → k.find c = none
  | .nil, _ => rfl
  | .cons d t rest, h => by
    simp only [Kids.keys, List.mem_cons, not_or] at h
    rw [Kids.find, if_neg (fun e => h.1 e.symm), find_none_of_not_key h.2]

theorem find_update {P : Char → Prop} (c c' : Char) (old : Trie → Trie) (fresh : Trie) : ∀ {k : Kids}, k.Ok P →
    (k.update c old fresh).find c' =
      if c' = c then some (match k.find c with | some t => old t | none => fresh) else k.find c'
  | .nil, _ => by
    rw [Kids.update]
    by_cases h : c' = c
    · simp [h, Kids.find]
    · have : ¬ c = c' := fun e => h e.symm
      simp [h, this, Kids.find]
  | .cons d t rest, hk => by
    rw [Kids.Ok] at hk
    rw [Kids.update]
    by_cases hd : d = c
    · subst hd
      rw [if_pos rfl]
      by_cases h : c' = d
      · subst h; simp [Kids.find]
      · have : ¬ d = c' := fun e => h e.symm
        simp [Kids.find, h, this]
    · rw [if_neg hd]
      by_cases hlt : c.toNat < d.toNat
      · rw [if_pos hlt]
        have hnone : (Kids.cons d t rest).find c = none := by
          apply find_none_of_not_key
          simp only [Kids.keys, List.mem_cons, not_or]
          refine ⟨fun e => hd e.symm, fun h => ?_⟩
          have := hk.2.2.2.1 c h
          omega
        rw [hnone]
        by_cases h : c' = c
        · subst h; simp [Kids.find]
        · have : ¬ c = c' := fun e => h e.symm
          rw [Kids.find, if_neg this, if_neg h]
      · rw [if_neg hlt]
        have ih := find_update c c' old fresh hk.2.2.2.2
        by_cases h : d = c'
        · subst h
          have : ¬ d = c := hd
          simp [Kids.find, this]
        · rw [Kids.find, if_neg h, ih, Kids.find, if_neg hd, Kids.find, if_neg h]

theorem keys_update (c : Char) (old : Trie → Trie) (fresh : Trie) (d : Char) : ∀ k : Kids,
    d ∈ (k.update c old fresh).keys → d = c ∨ d ∈ k.keys
  | .nil, h => by simpa [Kids.update, Kids.keys] using h
  | .cons e t rest, h => by
    rw [Kids.update] at h
    split at h
    · exact Or.inr (by simpa [Kids.keys] using h)
    · split at h
      · simp only [Kids.keys, List.mem_cons] at h ⊢; exact h
      · simp only [Kids.keys, List.mem_cons] at h ⊢
        rcases h with h | h
        · exact Or.inr (Or.inl h)
        · rcases keys_update c old fresh d rest h with h | h
          · exact Or.inl h
          · exact Or.inr (Or.inr h)

theorem update_count (c : Char) (old : Trie → Trie) (fresh : Trie) (k : Kids) : (k.update c old fresh).count ≠ 0 := by
  cases k with
  | nil => simp [Kids.update, Kids.count]
  | cons d t rest =>
    rw [Kids.update]
    split
    · simp [Kids.count]
    · split <;> simp [Kids.count]

theorem ok_update {P : Char → Prop} (c : Char) (hc : P c) (old : Trie → Trie) (fresh : Trie)
    (hold : ∀ t, Trie.Ok P t → (t.isEnd = true ∨ t.kids.count ≠ 0) →
      Trie.Ok P (old t) ∧ ((old t).isEnd = true ∨ (old t).kids.count ≠ 0))
    (hfresh : Trie.Ok P fresh ∧ (fresh.isEnd = true ∨ fresh.kids.count ≠ 0)) :
    ∀ {k : Kids}, k.Ok P → (k.update c old fresh).Ok P
  | .nil, _ => by
    rw [Kids.update, Kids.Ok]
    exact ⟨hc, hfresh.1, hfresh.2, by simp [Kids.keys], trivial⟩
  | .cons d t rest, hk => by
    have hk0 := hk
    rw [Kids.Ok] at hk
    rw [Kids.update]
    split
    · rw [Kids.Ok]
      obtain ⟨a, b⟩ := hold t hk.2.1 hk.2.2.1
      exact ⟨hk.1, a, b, hk.2.2.2.1, hk.2.2.2.2⟩
    · rename_i hd
      split
      · rename_i hlt
        rw [Kids.Ok]
        refine ⟨hc, hfresh.1, hfresh.2, ?_, hk0⟩
        intro e he
        simp only [Kids.keys, List.mem_cons] at he
        rcases he with rfl | he
        · exact hlt
        · have := hk.2.2.2.1 e he
          omega
      · rename_i hlt
        rw [Kids.Ok]
        refine ⟨hk.1, hk.2.1, hk.2.2.1, ?_, ok_update c hc old fresh hold hfresh hk.2.2.2.2⟩
        intro e he
        rcases keys_update c old fresh e rest he with rfl | he
        · have : e.toNat ≠ d.toNat := fun h => hd (char_toNat_inj h).symm
          omega
        · exact hk.2.2.2.1 e he

theorem addWord_isEnd (w : Str) (t : Trie) : (t.addWord w).isEnd = t.isEnd := by
  cases w with
  | nil => rfl
  | cons c w => cases t; rfl

theorem addWord_kids (c : Char) (w : Str) (t : Trie) : (t.addWord (c :: w)).kids.count ≠ 0 := by
  cases t
  simp only [Trie.addWord, Trie.kids]
  exact update_count _ _ _ _

theorem ok_addWord {P : Char → Prop} : ∀ (w : Str), (∀ c ∈ w, P c) → ∀ {t : Trie}, t.Ok P → (t.addWord w).Ok P
  | [], _, t, h => h
  | c :: sub, hw, .node e s k, h => by
    rw [Trie.Ok] at h
    rw [Trie.addWord, Trie.Ok]
    have hsub : ∀ c ∈ sub, P c := fun x hx => hw x (List.mem_cons_of_mem _ hx)
    refine ok_update c (hw c (List.mem_cons_self ..)) _ _ ?_ ?_ h
    · intro t ht hne
      split
      · cases t with
        | node e s k => exact ⟨by simpa [Trie.markEnd, Trie.Ok] using ht, Or.inl rfl⟩
      · refine ⟨ok_addWord sub hsub ht, ?_⟩
        rename_i hs
        obtain ⟨d, ds, rfl⟩ := List.exists_cons_of_ne_nil hs
        exact Or.inr (addWord_kids d ds t)
    · refine ⟨ok_addWord sub hsub (by simp [Trie.new, Trie.Ok, Kids.Ok]), ?_⟩
      by_cases hs : sub = []
      · subst hs; left; rfl
      · obtain ⟨d, ds, rfl⟩ := List.exists_cons_of_ne_nil hs
        exact Or.inr (addWord_kids d ds _)

theorem ok_new (P : Char → Prop) (e : Bool) : (Trie.new e).Ok P := by simp [Trie.new, Trie.Ok, Kids.Ok]

theorem isWord_new (e : Bool) (w : Str) : (Trie.new e).isWord w = (e && decide (w = [])) := by
  cases w with
  | nil => simp [Trie.isWord, Trie.new, Trie.isEnd]
  | cons c w => simp [Trie.isWord, Trie.new, Trie.kids, Kids.find]

theorem isWord_markEnd (t : Trie) (w : Str) : t.markEnd.isWord w = (decide (w = []) || t.isWord w) := by
  cases t with
  | node e s k =>
    cases w with
    | nil => simp [Trie.isWord, Trie.markEnd, Trie.isEnd]
    | cons c w => simp [Trie.isWord, Trie.markEnd, Trie.kids]

theorem isWord_addWord {P : Char → Prop} : ∀ (u : Str), (∀ c ∈ u, P c) → ∀ {t : Trie}, t.Ok P → ∀ (w : Str),
    (t.addWord u).isWord w = (t.isWord w || decide (u ≠ [] ∧ w = u))
  | [], _, t, _, w => by simp [Trie.addWord]
  | c :: sub, hu, .node e s k, h, w => by
    have hsub : ∀ c ∈ sub, P c := fun x hx => hu x (List.mem_cons_of_mem _ hx)
    cases w with
    | nil => simp [Trie.isWord, Trie.addWord, Trie.isEnd]
    | cons d w =>
      rw [Trie.Ok] at h
      simp only [Trie.isWord, Trie.addWord, Trie.kids]
      rw [find_update c d _ _ h]
      by_cases hd : d = c
      · subst hd
        rw [if_pos rfl]
        simp only [ne_eq, reduceCtorEq, not_false_eq_true, List.cons.injEq, true_and]
        cases hf : k.find d with
        | some t =>
          simp only
          by_cases hs : sub = []
          · subst hs
            rw [if_pos rfl, isWord_markEnd, Bool.or_comm]
          · have hok : t.Ok P := by
              clear hu hsub
              induction k using Kids.rec (motive_1 := fun _ => True) with
              | node => trivial
              | nil => cases hf
              | cons e t' rest _ ih =>
                rw [Kids.Ok] at h
                rw [Kids.find] at hf
                split at hf
                · cases hf; exact h.2.1
                · exact ih h.2.2.2.2 hf
            rw [if_neg hs, isWord_addWord sub hsub hok w]
            simp [hs]
        | none =>
          simp only
          rw [isWord_addWord sub hsub (ok_new P _) w, isWord_new]
          by_cases hs : sub = []
          · subst hs; simp
          · simp [hs]
      · rw [if_neg hd]
        simp [hd]

theorem ok_find {P : Char → Prop} : ∀ {k : Kids} {c : Char} {t : Trie}, k.Ok P → k.find c = some t →
    P c ∧ t.Ok P ∧ (t.isEnd = true ∨ t.kids.count ≠ 0)
  | .nil, _, _, _, h => by cases h
  | .cons d t' rest, c, t, hk, h => by
    rw [Kids.Ok] at hk
    rw [Kids.find] at h
    split at h
    · rename_i e; subst e; cases h; exact ⟨hk.1, hk.2.1, hk.2.2.1⟩
    · exact ok_find hk.2.2.2.2 h

/-- The trie of a list of words. -/
theorem trieOf_spec {P : Char → Prop} (words : List Str) (hw : ∀ w ∈ words, ∀ c ∈ w, P c) :
    (trieOf words).Ok P ∧ (trieOf words).isEnd = false ∧
    (∀ w, (trieOf words).isWord w = true ↔ w ≠ [] ∧ w ∈ words) ∧
    (trieOf words).size = (words.filter (fun w => w ≠ [])).length := by
  have gen : ∀ (words : List Str) (t : Trie), (∀ w ∈ words, ∀ c ∈ w, P c) → t.Ok P →
      (words.foldl (fun t w => t.addWord w) t).Ok P ∧
      (words.foldl (fun t w => t.addWord w) t).isEnd = t.isEnd ∧
      (∀ w, (words.foldl (fun t w => t.addWord w) t).isWord w = true ↔ t.isWord w = true ∨ (w ≠ [] ∧ w ∈ words)) ∧
      (words.foldl (fun t w => t.addWord w) t).size = t.size + (words.filter (fun w => w ≠ [])).length := by
    intro words
    induction words with
    | nil => intro t _ h; simp [h]
    | cons u words ih =>
      intro t hP h
      have hu := hP u (List.mem_cons_self ..)
      obtain ⟨i1, i2, i3, i4⟩ := ih (t.addWord u) (fun w hw => hP w (List.mem_cons_of_mem _ hw)) (ok_addWord u hu h)
      rw [List.foldl_cons]
      refine ⟨i1, i2.trans (addWord_isEnd u t), ?_, ?_⟩
      · intro w
        rw [i3, isWord_addWord u hu h w]
        simp only [Bool.or_eq_true, decide_eq_true_eq, List.mem_cons]
        constructor
        · rintro ((h | ⟨h1, rfl⟩) | ⟨h1, h2⟩)
          · exact Or.inl h
          · exact Or.inr ⟨h1, Or.inl rfl⟩
          · exact Or.inr ⟨h1, Or.inr h2⟩
        · rintro (h | ⟨h1, rfl | h2⟩)
          · exact Or.inl (Or.inl h)
          · exact Or.inl (Or.inr ⟨h1, rfl⟩)
          · exact Or.inr ⟨h1, h2⟩
      · rw [i4]
        cases u with
        | nil => simp [Trie.addWord]
        | cons c u =>
          cases t with
          | node e s k => simp [Trie.addWord, Trie.size]; omega
  obtain ⟨g1, g2, g3, g4⟩ := gen words (Trie.new false) hw (ok_new P false)
  refine ⟨g1, g2, ?_, by simpa [trieOf, Trie.new, Trie.size] using g4⟩
  intro w
  have := g3 w
  rw [isWord_new] at this
  simpa [trieOf] using this

theorem isPrefix_iff {P : Char → Prop} : ∀ (p : Str) {t : Trie}, t.Ok P →
    (t.isPrefix p = true ↔ p = [] ∨ ∃ w, t.isWord (p ++ w) = true)
  | [], t, _ => by simp [Trie.isPrefix]
  | c :: p, .node e s k, h => by
    simp only [Trie.isPrefix, Trie.kids, List.cons_append, Trie.isWord, reduceCtorEq, false_or]
    rw [Trie.Ok] at h
    cases hf : k.find c with
    | none => simp
    | some t =>
      simp only
      obtain ⟨_, h1, h2⟩ := ok_find h hf
      rw [isPrefix_iff p h1]
      constructor
      · rintro (rfl | h)
        · exact live t h1 h2
        · exact h
      · exact fun h => Or.inr h
where
  live : ∀ (t : Trie), t.Ok P → (t.isEnd = true ∨ t.kids.count ≠ 0) → ∃ w, t.isWord ([] ++ w) = true
    | .node e s .nil, _, hne => by
      rcases hne with h | h
      · exact ⟨[], h⟩
      · simp [Trie.kids, Kids.count] at h
    | .node e s (.cons c t rest), h, _ => by
      rw [Trie.Ok, Kids.Ok] at h
      obtain ⟨w, hw⟩ := live t h.2.1 h.2.2.1
      exact ⟨c :: w, by simpa [Trie.isWord, Trie.kids, Kids.find] using hw⟩

mutual
theorem mem_getWords {P : Char → Prop} : ∀ (t : Trie), t.Ok P → ∀ (sofar : Str) (ws : List Str) (x : Str),
    x ∈ t.getWords sofar ws ↔ x ∈ ws ∨ ∃ w, x = sofar ++ w ∧ t.isWord w = true
  | .node e s k, h, sofar, ws, x => by
    rw [Trie.Ok] at h
    rw [Trie.getWords, mem_kidsGetWords k h]
    have split_w : (∃ w, x = sofar ++ w ∧ (Trie.node e s k).isWord w = true) ↔
        (x = sofar ∧ e = true) ∨ ∃ c w t, k.find c = some t ∧ x = sofar ++ c :: w ∧ t.isWord w = true := by
      constructor
      · rintro ⟨w, rfl, hw⟩
        cases w with
        | nil => left; exact ⟨by simp, by simpa [Trie.isWord, Trie.isEnd] using hw⟩
        | cons c w =>
          right
          simp only [Trie.isWord, Trie.kids] at hw
          cases hf : k.find c with
          | none => rw [hf] at hw; simp at hw
          | some t => rw [hf] at hw; exact ⟨c, w, t, hf, rfl, hw⟩
      · rintro (⟨rfl, he⟩ | ⟨c, w, t, hf, rfl, hw⟩)
        · exact ⟨[], by simp, by simp [Trie.isWord, Trie.isEnd, he]⟩
        · exact ⟨c :: w, rfl, by simp [Trie.isWord, Trie.kids, hf, hw]⟩
    rw [split_w]
    by_cases he : e = true
    · rw [if_pos he, mem_wordInsert]
      simp only [he, and_true]
      constructor
      · rintro ((h | h) | h)
        · exact Or.inr (Or.inl h)
        · exact Or.inl h
        · exact Or.inr (Or.inr h)
      · rintro (h | h | h)
        · exact Or.inl (Or.inr h)
        · exact Or.inl (Or.inl h)
        · exact Or.inr h
    · simp [he]
theorem mem_kidsGetWords {P : Char → Prop} : ∀ (k : Kids), k.Ok P → ∀ (sofar : Str) (ws : List Str) (x : Str),
    x ∈ k.getWords sofar ws ↔ x ∈ ws ∨ ∃ c w t, k.find c = some t ∧ x = sofar ++ c :: w ∧ t.isWord w = true
  | .nil, _, sofar, ws, x => by simp [Kids.getWords, Kids.find]
  | .cons d t rest, h, sofar, ws, x => by
    rw [Kids.Ok] at h
    rw [Kids.getWords]
    rw [mem_kidsGetWords rest h.2.2.2.2, mem_getWords t h.2.1]
    have hw : ∀ y, y ∈ (if t.isEnd = true then wordInsert (sofar ++ [d]) ws else ws) ↔
        y ∈ ws ∨ (y = sofar ++ [d] ∧ t.isWord [] = true) := by
      intro y
      by_cases he : t.isEnd = true
      · rw [if_pos he, mem_wordInsert]
        simp only [Trie.isWord, he, and_true]
        exact Or.comm
      · simp [he, Trie.isWord]
    rw [hw]
    have hnd : d ∉ rest.keys := fun hd => Nat.lt_irrefl _ (h.2.2.2.1 d hd)
    constructor
    · rintro (((h1 | ⟨rfl, h1⟩) | ⟨w, rfl, h1⟩) | ⟨c, w, t', h1, h2, h3⟩)
      · exact Or.inl h1
      · exact Or.inr ⟨d, [], t, by simp [Kids.find], rfl, h1⟩
      · exact Or.inr ⟨d, w, t, by simp [Kids.find], by simp, h1⟩
      · refine Or.inr ⟨c, w, t', ?_, h2, h3⟩
        have : ¬ d = c := by
          rintro rfl
          rw [find_none_of_not_key hnd] at h1; cases h1
        rw [Kids.find, if_neg this, h1]
    · rintro (h1 | ⟨c, w, t', h1, h2, h3⟩)
      · exact Or.inl (Or.inl (Or.inl h1))
      · rw [Kids.find] at h1
        split at h1
        · rename_i e
          subst e
          cases h1
          exact Or.inl (Or.inr ⟨w, by simp [h2], h3⟩)
        · exact Or.inr ⟨c, w, t', h1, h2, h3⟩
end

mutual
theorem sorted_getWords : ∀ (t : Trie) (sofar : Str) (ws : List Str), StrSorted ws → StrSorted (t.getWords sofar ws)
  | .node e s k, sofar, ws, h => by
    rw [Trie.getWords]
    apply sorted_kidsGetWords
    split
    · exact sorted_wordInsert _ _ h
    · exact h
theorem sorted_kidsGetWords : ∀ (k : Kids) (sofar : Str) (ws : List Str), StrSorted ws → StrSorted (k.getWords sofar ws)
  | .nil, _, _, h => by simpa [Kids.getWords] using h
  | .cons d t rest, sofar, ws, h => by
    rw [Kids.getWords]
    apply sorted_kidsGetWords
    apply sorted_getWords
    split
    · exact sorted_wordInsert _ _ h
    · exact h
end

theorem mem_getWordsStartingWith {P : Char → Prop} : ∀ (p : Str) (t : Trie), t.Ok P → ∀ (sofar : Str) (ws : List Str) (x : Str),
    x ∈ t.getWordsStartingWith p sofar ws ↔ x ∈ ws ∨ ∃ w, x = sofar ++ (p ++ w) ∧ t.isWord (p ++ w) = true
  | [], t, h, sofar, ws, x => by
    rw [Trie.getWordsStartingWith, mem_getWords t h]; simp
  | c :: p, .node e s k, h, sofar, ws, x => by
    rw [Trie.Ok] at h
    rw [Trie.getWordsStartingWith]
    simp only [Trie.kids, List.cons_append, Trie.isWord]
    cases hf : k.find c with
    | none => simp
    | some t =>
      simp only
      rw [mem_getWordsStartingWith p t (ok_find h hf).2.1]
      simp

theorem sorted_getWordsStartingWith : ∀ (p : Str) (t : Trie) (sofar : Str) (ws : List Str), StrSorted ws →
    StrSorted (t.getWordsStartingWith p sofar ws)
  | [], t, sofar, ws, h => sorted_getWords t sofar ws h
  | c :: p, t, sofar, ws, h => by
    rw [Trie.getWordsStartingWith]
    split
    · exact sorted_getWordsStartingWith p _ _ _ h
    · exact h

end AS
