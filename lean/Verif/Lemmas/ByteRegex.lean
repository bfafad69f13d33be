import Verif.Lemmas.ByteTrie
import Verif.Lemmas.Trie
/-
When `Trie::getRegexp` is defined, and that it then is the expression of `TrieUtf8` on ASCII words.
-/
namespace AS.ByteTrie

mutual
theorem regexp_some : ∀ t : Trie, t.Ok (fun c => c ∉ special) → ∃ r, t.getRegexp = some r
  | .node e s k, h => by
    rw [Trie.Ok] at h
    rw [Trie.getRegexp]
    split
    · exact ⟨_, rfl⟩
    · obtain ⟨r, hr⟩ := regexps_some k h
      rw [hr]; exact ⟨_, rfl⟩
theorem regexps_some : ∀ k : Kids, k.Ok (fun c => c ∉ special) → ∃ r, k.regexps = some r
  | .nil, _ => ⟨_, rfl⟩
  | .cons c t rest, h => by
    rw [Kids.Ok] at h
    obtain ⟨r, hr⟩ := regexp_some t h.2.1
    obtain ⟨rs, hrs⟩ := regexps_some rest h.2.2.2.2
    rw [Kids.regexps, hr, hrs, quoteChar, if_neg h.1]
    simp only
    split
    · exact ⟨_, rfl⟩
    · exact ⟨_, rfl⟩
end

mutual
theorem plain_of_regexp : ∀ (t : Trie) (r : Bytes), t.getRegexp = some r → ∀ w, t.isWord w = true → ∀ c ∈ w, c ∉ special
  | .node e s k, r, h, w, hw, c, hc => by
    cases w with
    | nil => cases hc
    | cons d w =>
      rw [Trie.getRegexp] at h
      split at h
      · rename_i h0
        cases k with
        | nil => simp [Trie.isWord, Trie.kids, Kids.find] at hw
        | cons _ _ _ => simp [Kids.count] at h0
      · cases hk : k.regexps with
        | none => rw [hk] at h; simp at h
        | some p =>
          rw [Trie.isWord, Trie.kids] at hw
          cases hf : k.find d with
          | none => rw [hf] at hw; simp at hw
          | some t =>
            rw [hf] at hw
            obtain ⟨h1, hr'⟩ := plain_of_regexps k p hk d t hf
            rcases List.mem_cons.1 hc with rfl | hc
            · exact h1
            · exact hr' w hw c hc
theorem plain_of_regexps : ∀ (k : Kids) (p : List Bytes × List Bytes), k.regexps = some p →
    ∀ d t, k.find d = some t → d ∉ special ∧ ∀ w, t.isWord w = true → ∀ c ∈ w, c ∉ special
  | .nil, _, _, d, t, hf => by cases hf
  | .cons c t' rest, p, h, d, t, hf => by
    rw [Kids.regexps] at h
    by_cases hc : c ∈ special
    · rw [quoteChar, if_pos hc] at h; simp at h
    · rw [quoteChar, if_neg hc] at h
      cases hr : t'.getRegexp with
      | none => rw [hr] at h; simp at h
      | some r =>
        cases hrs : rest.regexps with
        | none => rw [hr, hrs] at h; simp at h
        | some q =>
          rw [Kids.find] at hf
          split at hf
          · rename_i e
            cases hf
            exact ⟨e ▸ hc, plain_of_regexp t' r hr⟩
          · exact plain_of_regexps rest q hrs d t hf
end

/-! ### ASCII words -/

/-- The byte of a character. -/
def byteOf (c : Char) : UInt8 := c.toNat.toUInt8

/-- An ASCII character. -/
def Asc (c : Char) : Prop := c.toNat < 128

theorem byteOf_toNat {c : Char} (h : Asc c) : (byteOf c).toNat = c.toNat := by
  unfold Asc at h
  unfold byteOf
  have : c.toNat.toUInt8.toNat = c.toNat % 256 := rfl
  omega

theorem byteOf_signed {c : Char} (h : Asc c) : signed (byteOf c) = c.toNat := by
  have := byteOf_toNat h
  unfold Asc at h
  unfold signed
  rw [if_pos (by omega), this]

theorem byteOf_inj {c d : Char} (hc : Asc c) (hd : Asc d) (h : byteOf c = byteOf d) : c = d := by
  apply char_toNat_inj
  rw [← byteOf_toNat hc, ← byteOf_toNat hd, h]

theorem ascii_eq (s : Str) : ascii s = s.map byteOf := rfl

mutual
/-- A trie over characters as one over bytes. -/
def up : AS.Trie → Trie
  | .node e s k => .node e s (upK k)
/-- The same for children. -/
def upK : AS.Kids → Kids
  | .nil => .nil
  | .cons c t rest => .cons (byteOf c) (up t) (upK rest)
end

theorem upK_count : ∀ k : AS.Kids, (upK k).count = k.count
  | .nil => rfl
  | .cons _ _ rest => by rw [upK, Kids.count, AS.Kids.count, upK_count rest]

theorem upK_update (c : Char) (hc : Asc c) (old : AS.Trie → AS.Trie) (old' : Trie → Trie) (fresh : AS.Trie)
    (hold : ∀ t : AS.Trie, t.Ok Asc → up (old t) = old' (up t)) : ∀ k : AS.Kids, k.Ok Asc →
    upK (k.update c old fresh) = (upK k).update (byteOf c) old' (up fresh)
  | .nil, _ => rfl
  | .cons d t rest, h => by
    rw [AS.Kids.Ok] at h
    rw [AS.Kids.update, upK, Kids.update]
    by_cases hd : d = c
    · subst hd
      rw [if_pos rfl, if_pos rfl, upK, hold t h.2.1]
    · rw [if_neg hd, if_neg (fun e => hd (byteOf_inj h.1 hc e)), byteOf_signed hc, byteOf_signed h.1]
      by_cases hlt : c.toNat < d.toNat
      · rw [if_pos hlt, if_pos (by omega), upK, upK]
      · rw [if_neg hlt, if_neg (by omega), upK, upK_update c hc old old' fresh hold rest h.2.2.2.2]

theorem up_markEnd (t : AS.Trie) : up t.markEnd = (up t).markEnd := by
  cases t; rw [AS.Trie.markEnd, up, up, Trie.markEnd]

theorem up_new (e : Bool) : up (AS.Trie.new e) = Trie.new e := by
  rw [AS.Trie.new, up, upK, Trie.new]

theorem up_addWord : ∀ (w : Str), (∀ c ∈ w, Asc c) → ∀ t : AS.Trie, t.Ok Asc →
    up (t.addWord w) = (up t).addWord (ascii w)
  | [], _, t, _ => rfl
  | c :: sub, hw, .node e s k, h => by
    have hsub : ∀ c ∈ sub, Asc c := fun x hx => hw x (List.mem_cons_of_mem _ hx)
    rw [AS.Trie.Ok] at h
    have hnil : (ascii sub = []) = (sub = []) := by simp [ascii_eq]
    rw [AS.Trie.addWord, up, up, ascii_eq, List.map_cons, ← ascii_eq, Trie.addWord]
    congr 1
    have e1 : decide (ascii sub = []) = decide (sub = []) := decide_eq_decide.2 (by rw [hnil])
    rw [e1, upK_update c (hw c (List.mem_cons_self ..)) _
      (fun child => if ascii sub = [] then child.markEnd else child.addWord (ascii sub)) _ ?_ k h,
      up_addWord sub hsub _ (AS.ok_new _ _), up_new]
    intro t ht
    by_cases hs : sub = []
    · rw [if_pos hs, if_pos (by rw [hnil]; exact hs), up_markEnd]
    · rw [if_neg hs, if_neg (by rw [hnil]; exact hs), up_addWord sub hsub t ht]

theorem up_trieOf (words : List Str) (h : ∀ w ∈ words, ∀ c ∈ w, Asc c) :
    up (AS.trieOf words) = trieOf (words.map ascii) := by
  have gen : ∀ (words : List Str) (t : AS.Trie), (∀ w ∈ words, ∀ c ∈ w, Asc c) → t.Ok Asc →
      up (words.foldl (fun t w => t.addWord w) t) = (words.map ascii).foldl (fun t w => t.addWord w) (up t) := by
    intro words
    induction words with
    | nil => intro t _ _; rfl
    | cons w ws ih =>
      intro t hw ht
      have h1 := hw w (List.mem_cons_self ..)
      rw [List.foldl_cons, List.map_cons, List.foldl_cons,
        ih _ (fun x hx => hw x (List.mem_cons_of_mem _ hx)) (AS.ok_addWord w h1 ht), up_addWord w h1 t ht]
  rw [AS.trieOf, gen words _ h (AS.ok_new _ _), up_new, trieOf]

theorem ascii_append (a b : Str) : ascii (a ++ b) = ascii a ++ ascii b := List.map_append

theorem ascii_joinBar : ∀ l : List Str, ascii (AS.joinBar l) = joinBar (l.map ascii)
  | [] => rfl
  | [x] => rfl
  | x :: y :: ys => by
    rw [AS.joinBar, ascii_append]
    have := ascii_joinBar (y :: ys)
    simp only [List.map_cons] at this ⊢
    rw [joinBar, ← this, List.append_assoc]
    rfl

theorem ascii_flatten (l : List Str) : ascii l.flatten = (l.map ascii).flatten := by
  induction l with
  | nil => rfl
  | cons x xs ih => rw [List.flatten_cons, ascii_append, ih, List.map_cons, List.flatten_cons]

theorem ascii_finish (alt cc : List Str) (q : Bool) :
    ascii (AS.finishRegexp alt cc q) = finishRegexp (alt.map ascii) (cc.map ascii) q := by
  have hhead : ∀ l : List Str, ascii (l.headD []) = (l.map ascii).headD [] := by
    intro l; cases l <;> rfl
  have hcc : ascii (if cc.length = 1 then cc.headD [] else c!"[" ++ cc.flatten ++ c!"]") =
      if (cc.map ascii).length = 1 then (cc.map ascii).headD []
      else ascii c!"[" ++ (cc.map ascii).flatten ++ ascii c!"]" := by
    rw [List.length_map]
    split
    · exact hhead cc
    · rw [ascii_append, ascii_append, ascii_flatten]
  have halt : (if cc.length > 0 then
      alt ++ [if cc.length = 1 then cc.headD [] else c!"[" ++ cc.flatten ++ c!"]"] else alt).map ascii =
      if (cc.map ascii).length > 0 then
        alt.map ascii ++ [if (cc.map ascii).length = 1 then (cc.map ascii).headD []
          else ascii c!"[" ++ (cc.map ascii).flatten ++ ascii c!"]"]
      else alt.map ascii := by
    have e : (cc.map ascii).length = cc.length := List.length_map ..
    rw [← hcc, e]
    split
    · rw [List.map_append]; rfl
    · rfl
  unfold AS.finishRegexp finishRegexp
  simp only
  rw [← halt]
  generalize (if cc.length > 0 then
      alt ++ [if cc.length = 1 then cc.headD [] else c!"[" ++ cc.flatten ++ c!"]"] else alt) = l
  have e1 : (l.map ascii).length = l.length := List.length_map ..
  have e2 : (alt.map ascii).length = alt.length := List.length_map ..
  have hres : ascii (if l.length = 1 then l.headD [] else c!"(?:" ++ AS.joinBar l ++ c!")") =
      if (l.map ascii).length = 1 then (l.map ascii).headD []
      else ascii c!"(?:" ++ joinBar (l.map ascii) ++ ascii c!")" := by
    rw [e1]
    split
    · exact hhead l
    · rw [ascii_append, ascii_append, ascii_joinBar]
  rw [← hres, e2]
  split
  · split
    · rw [ascii_append]
    · rw [ascii_append, ascii_append]
  · rfl

theorem special_iff {c : Char} (h : Asc c) : byteOf c ∈ special ↔ c ∈ quoteSpecial := by
  have hs : ∀ d ∈ quoteSpecial, Asc d := by unfold Asc; decide
  have : special = quoteSpecial.map byteOf := rfl
  rw [this, List.mem_map]
  constructor
  · rintro ⟨d, hd, e⟩
    rw [← byteOf_inj (hs d hd) h e]; exact hd
  · intro hc; exact ⟨c, hc, rfl⟩

mutual
theorem up_getRegexp : ∀ t : AS.Trie, t.Ok (fun c => Asc c ∧ c ∉ quoteSpecial) →
    (up t).getRegexp = some (ascii t.getRegexp)
  | .node e s k, h => by
    rw [AS.Trie.Ok] at h
    rw [up, Trie.getRegexp, AS.Trie.getRegexp, upK_count]
    split
    · rfl
    · rw [upK_regexps k h]
      simp only
      rw [ascii_finish]
theorem upK_regexps : ∀ k : AS.Kids, k.Ok (fun c => Asc c ∧ c ∉ quoteSpecial) →
    (upK k).regexps = some (k.regexps.1.map ascii, k.regexps.2.map ascii)
  | .nil, _ => rfl
  | .cons c t rest, h => by
    rw [AS.Kids.Ok] at h
    have hs : byteOf c ∉ special := fun hm => h.1.2 ((special_iff h.1.1).1 hm)
    rw [upK, Kids.regexps, up_getRegexp t h.2.1, upK_regexps rest h.2.2.2.2, quoteChar, if_neg hs, AS.Kids.regexps]
    have hq : AS.quoteMeta [c] = [c] := by rw [AS.quoteMeta, if_neg h.1.2]; rfl
    have hl : (ascii t.getRegexp).length = t.getRegexp.length := List.length_map ..
    simp only [hq, hl]
    split
    · rfl
    · rfl
end

end AS.ByteTrie
