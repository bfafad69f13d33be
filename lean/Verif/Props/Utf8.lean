import Verif.Lemmas.Utf8
/- Properties C24 and C25: UTF-8. -/
namespace AS.Props
open AS AS.Utf8

theorem ofNat_toNat32 (cp : UInt32) : UInt32.ofNat cp.toNat = cp := by
  apply UInt32.toNat_inj.mp
  rw [UInt32.toNat_ofNat', Nat.mod_eq_of_lt cp.toNat_lt]

/-! ### C24: encoding and decoding -/

/-- Every code point is encoded as RFC 3629 demands and decodes to itself, whatever follows. -/
theorem C24_round_trip (cp : UInt32) (h : cp.toNat < 0x110000) (post : List UInt8) :
    ∃ bs, ofCodePoint cp = some bs ∧ bs = utf8 cp.toNat ∧ decodeAt (bs ++ post) 0 = some cp := by
  refine ⟨utf8 cp.toNat, by rw [ofCodePoint_eq, if_pos h], rfl, ?_⟩
  rw [decodeAt_utf8 _ h, ofNat_toNat32]

/-- Every larger value is an error. -/
theorem C24_error (cp : UInt32) (h : 0x110000 ≤ cp.toNat) : ofCodePoint cp = none := by
  rw [ofCodePoint_eq, if_neg (by omega)]

example : ∃ cp : UInt32, 0x110000 ≤ cp.toNat := ⟨0x110000, by decide⟩

/-- The encoding of a character is that of Lean's own library. -/
theorem C24_lean (c : Char) : ofCodePoint c.val = some (String.utf8EncodeChar c) := by
  have hlt : c.val.toNat < 0x110000 := by
    rcases c.valid with h | h
    · exact Nat.lt_trans h (by decide)
    · exact h.2
  rw [ofCodePoint_eq, if_pos hlt]
  congr 1
  unfold utf8 String.utf8EncodeChar
  simp only
  by_cases h1 : c.val.toNat < 0x80
  · rw [if_pos h1, if_pos (by omega)]
  rw [if_neg h1, if_neg (by omega : ¬ c.val.toNat ≤ 127)]
  by_cases h2 : c.val.toNat < 0x800
  · rw [if_pos h2, if_pos (by omega), Nat.mod_eq_of_lt (a := _ / 64) (by omega), Nat.add_comm 0xC0,
      Nat.add_comm 0x80]
  rw [if_neg h2, if_neg (by omega : ¬ c.val.toNat ≤ 2047)]
  by_cases h3 : c.val.toNat < 0x10000
  · rw [if_pos h3, if_pos (by omega), Nat.mod_eq_of_lt (a := _ / 4096) (by omega), Nat.add_comm 0xE0,
      Nat.add_comm 0x80, Nat.add_comm 0x80]
  · rw [if_neg h3, if_neg (by omega : ¬ c.val.toNat ≤ 65535), Nat.mod_eq_of_lt (a := _ / 262144) (by omega), Nat.add_comm 0xF0,
      Nat.add_comm 0x80, Nat.add_comm 0x80, Nat.add_comm 0x80]

theorem ofNat_toNat8 (b : UInt8) : UInt8.ofNat b.toNat = b := by
  apply UInt8.toNat_inj.mp
  rw [UInt8.toNat_ofNat', Nat.mod_eq_of_lt b.toNat_lt]

theorem low_lt (b : UInt8) : (b &&& 0x1f).toUInt32.toNat < 32 ∧ (b &&& 0x0f).toUInt32.toNat < 16 ∧
    (b &&& 0x3f).toUInt32.toNat < 64 := by
  have hb := b.toNat_lt
  have h1 := low5 _ hb
  have h2 := low4 _ hb
  have h3 := low6 _ hb
  rw [ofNat_toNat8] at h1 h2 h3
  omega

/-- No byte string that decodes to the code point as a single character is shorter. -/
theorem C24_shortest (cp : UInt32) (h : cp.toNat < 0x110000) (bs : List UInt8) (it : Iter)
    (hd : decodeAt bs 0 = some cp) (hi : (Iter.at 0).inc bs = some it) (he : it.pos = bs.length) :
    ∃ e, ofCodePoint cp = some e ∧ e.length ≤ bs.length := by
  refine ⟨utf8 cp.toNat, by rw [ofCodePoint_eq, if_pos h], ?_⟩
  rw [length_utf8]
  simp only [Iter.inc, Iter.at, Nat.zero_add] at hi
  simp only [decodeAt, Nat.zero_add] at hd
  cases h0 : bs[0]? with
  | none => rw [h0] at hi; exact nomatch hi
  | some b0 =>
    rw [h0] at hi hd
    simp only at hi hd
    have hb0 := b0.toNat_lt
    have d0 := bit128 _ hb0
    rw [ofNat_toNat8] at d0
    have hl : ∀ off, (if off ≤ bs.length then some ({ pos := off, cur := 0, dirty := true } : Iter)
        else none) = some it → off = bs.length := by
      intro off ho
      split at ho
      · injection ho with ho; rw [← he, ← ho]
      · exact nomatch ho
    have hl := hl _ hi
    by_cases c0 : bit b0 128
    · rw [if_pos c0] at hl hd
      by_cases c1 : bit b0 32
      · rw [if_pos c1] at hl hd
        by_cases c2 : bit b0 16
        · rw [if_pos c2] at hl
          rw [← hl]; unfold size; split <;> (try split) <;> (try split) <;> omega
        · rw [if_neg c2] at hl hd
          rw [← hl]
          have : cp.toNat < 0x10000 := by
            cases e1 : bs[1]? with
            | none => rw [e1] at hd; exact nomatch hd
            | some b1 =>
              cases e2 : bs[2]? with
              | none => rw [e1, e2] at hd; exact nomatch hd
              | some b2 =>
                rw [e1, e2] at hd
                injection hd with hd
                have l0 := low_lt b0
                have l1 := low_lt b1
                have l2 := low_lt b2
                rw [← hd, UInt32.toNat_add, UInt32.toNat_add, shl _ 12 (by decide), shl _ 6 (by decide)]
                show (((b0 &&& 0x0f).toUInt32.toNat * 2 ^ 12 % 2 ^ 32 +
                  (b1 &&& 0x3f).toUInt32.toNat * 2 ^ 6 % 2 ^ 32) % 2 ^ 32 + _) % 2 ^ 32 < _
                omega
          unfold size; split <;> (try split) <;> (try split) <;> omega
      · rw [if_neg c1] at hl hd
        rw [← hl]
        have : cp.toNat < 0x800 := by
          cases e1 : bs[1]? with
          | none => rw [e1] at hd; exact nomatch hd
          | some b1 =>
            rw [e1] at hd
            injection hd with hd
            have l0 := low_lt b0
            have l1 := low_lt b1
            rw [← hd, UInt32.toNat_add, shl _ 6 (by decide)]
            show ((b0 &&& 0x1f).toUInt32.toNat * 2 ^ 6 % 2 ^ 32 + _) % 2 ^ 32 < _
            omega
        unfold size; split <;> (try split) <;> (try split) <;> omega
    · rw [if_neg c0] at hl hd
      rw [← hl]
      injection hd with hd
      have : cp.toNat < 0x80 := by
        rw [d0] at c0
        simp only [decide_eq_true_eq] at c0
        rw [← hd, UInt8.toNat_toUInt32]; omega
      unfold size; rw [if_pos this]; exact Nat.le_refl _

/-- An overlong form exists, and decodes. -/
example : decodeAt [0xC1, 0x81] 0 = some 0x41 ∧ (Iter.at 0).inc [0xC1, 0x81] = some ⟨2, 0, true⟩ := by
  decide

/-- Different code points have different encodings, and no encoding is a prefix of another. -/
theorem C24_prefix_free (c d : UInt32) (bs bt : List UInt8) (hc : ofCodePoint c = some bs)
    (hd : ofCodePoint d = some bt) (h : bs <+: bt) : c = d := by
  rw [ofCodePoint_eq] at hc hd
  split at hc
  · split at hd
    · rename_i h1 h2
      injection hc with hc
      injection hd with hd
      obtain ⟨r, hr⟩ := h
      have e1 := decodeAt_utf8 _ h1 r
      have e2 := decodeAt_utf8 _ h2 []
      rw [hc, hr] at e1
      rw [hd, List.append_nil, e1] at e2
      injection e2 with e2
      rw [ofNat_toNat32, ofNat_toNat32] at e2
      exact e2
    · exact nomatch hd
  · exact nomatch hc

/-! ### C24, byte order -/

theorem utf8_lt {a b : Nat} (hab : a < b) (hb : b < 0x110000) (x y : List UInt8) :
    utf8 a ++ x < utf8 b ++ y := by
  have lt : ∀ {m n : Nat}, m < n → n < 256 → UInt8.ofNat m < UInt8.ofNat n := by
    intro m n h1 h2
    rw [UInt8.lt_iff_toNat_lt, UInt8.toNat_ofNat', UInt8.toNat_ofNat']; omega
  unfold utf8
  by_cases b1 : b < 0x80
  · rw [if_pos b1, if_pos (by omega)]
    exact List.Lex.rel (lt hab (by omega))
  rw [if_neg b1]
  by_cases b2 : b < 0x800
  · rw [if_pos b2]
    by_cases a1 : a < 0x80
    · rw [if_pos a1]
      exact List.Lex.rel (lt (by omega) (by omega))
    rw [if_neg a1, if_pos (by omega)]
    by_cases e : a / 64 = b / 64
    · rw [e]
      exact List.Lex.cons (List.Lex.rel (lt (by omega) (by omega)))
    · exact List.Lex.rel (lt (by omega) (by omega))
  rw [if_neg b2]
  by_cases b3 : b < 0x10000
  · rw [if_pos b3]
    by_cases a1 : a < 0x80
    · rw [if_pos a1]
      exact List.Lex.rel (lt (by omega) (by omega))
    rw [if_neg a1]
    by_cases a2 : a < 0x800
    · rw [if_pos a2]
      exact List.Lex.rel (lt (by omega) (by omega))
    rw [if_neg a2, if_pos (by omega)]
    by_cases e : a / 4096 = b / 4096
    · rw [e]
      by_cases e' : a / 64 % 64 = b / 64 % 64
      · rw [e']
        exact List.Lex.cons (List.Lex.cons (List.Lex.rel (lt (by omega) (by omega))))
      · exact List.Lex.cons (List.Lex.rel (lt (by omega) (by omega)))
    · exact List.Lex.rel (lt (by omega) (by omega))
  · rw [if_neg b3]
    by_cases a1 : a < 0x80
    · rw [if_pos a1]
      exact List.Lex.rel (lt (by omega) (by omega))
    rw [if_neg a1]
    by_cases a2 : a < 0x800
    · rw [if_pos a2]
      exact List.Lex.rel (lt (by omega) (by omega))
    rw [if_neg a2]
    by_cases a3 : a < 0x10000
    · rw [if_pos a3]
      exact List.Lex.rel (lt (by omega) (by omega))
    rw [if_neg a3]
    by_cases e : a / 262144 = b / 262144
    · rw [e]
      by_cases e' : a / 4096 % 64 = b / 4096 % 64
      · rw [e']
        by_cases e'' : a / 64 % 64 = b / 64 % 64
        · rw [e'']
          exact List.Lex.cons (List.Lex.cons (List.Lex.cons (List.Lex.rel (lt (by omega) (by omega)))))
        · exact List.Lex.cons (List.Lex.cons (List.Lex.rel (lt (by omega) (by omega))))
      · exact List.Lex.cons (List.Lex.rel (lt (by omega) (by omega)))
    · exact List.Lex.rel (lt (by omega) (by omega))

theorem append_lt_append (p : List UInt8) {x y : List UInt8} (h : x < y) : p ++ x < p ++ y := by
  induction p with
  | nil => exact h
  | cons b p ih => exact List.Lex.cons ih

theorem encodeAll_lt : ∀ (s t : List Nat), (∀ c ∈ t, c < 0x110000) → s < t → encodeAll s < encodeAll t
  | [], [], _, h => absurd h (by simp)
  | [], c :: t, _, _ => by
    show encodeAll [] < utf8 c ++ encodeAll t
    have hl := length_utf8 c
    cases hu : utf8 c with
    | nil => rw [hu] at hl; unfold size at hl; simp at hl; split at hl <;> (try split at hl) <;> (try split at hl) <;> omega
    | cons b u => exact List.Lex.nil
  | _ :: _, [], _, h => absurd h (by simp)
  | a :: s, b :: t, ht, h => by
    show utf8 a ++ encodeAll s < utf8 b ++ encodeAll t
    rcases List.cons_lt_cons_iff.mp h with h | ⟨rfl, h'⟩
    · exact utf8_lt h (ht b List.mem_cons_self) _ _
    · exact append_lt_append _ (encodeAll_lt s t (fun c hc => ht c (List.mem_cons_of_mem _ hc)) h')

/-- Texts compare byte by byte as they compare code point by code point: the order of the
`std::set<std::string>` and `std::map<std::string, ..>` of the library. -/
theorem C24_order (s t : List Nat) (hs : ∀ c ∈ s, c < 0x110000) (ht : ∀ c ∈ t, c < 0x110000) :
    encodeAll s < encodeAll t ↔ s < t := by
  constructor
  · intro h
    rcases Classical.em (s < t) with h' | h'
    · exact h'
    · rcases Classical.em (t < s) with h'' | h''
      · exact absurd (List.lt_trans h (encodeAll_lt t s hs h'')) (List.lt_irrefl _)
      · have e : s = t := List.le_antisymm h'' h'
        rw [e] at h
        exact absurd h (List.lt_irrefl _)
  · exact encodeAll_lt s t ht

example : encodeAll [0x41, 0xFFFF] < encodeAll [0x41, 0x10000] :=
  (C24_order _ _ (by decide) (by decide)).mpr (by decide)

/-! ### C25: walks -/

/-- What can be done with an iterator. -/
inductive Move where
  | inc | dec | deref
deriving DecidableEq

/-- The effect on an index into the text: in bounds or nothing. -/
def walk (cs : List Nat) : Nat → List Move → Option (List Nat × Nat)
  | i, [] => some ([], i)
  | i, .inc :: ms => if i < cs.length then walk cs (i + 1) ms else none
  | i, .dec :: ms => if 0 < i then walk cs (i - 1) ms else none
  | i, .deref :: ms =>
    match cs[i]? with
    | none => none
    | some c =>
      match walk cs i ms with
      | none => none
      | some (r, j) => some (c :: r, j)

/-- The same with an iterator. -/
def walkIter (s : List UInt8) : Iter → List Move → Option (List UInt32 × Iter)
  | it, [] => some ([], it)
  | it, .inc :: ms =>
    match it.inc s with
    | none => none
    | some it => walkIter s it ms
  | it, .dec :: ms =>
    match it.dec s with
    | none => none
    | some it => walkIter s it ms
  | it, .deref :: ms =>
    match it.deref s with
    | none => none
    | some (c, it) =>
      match walkIter s it ms with
      | none => none
      | some (r, it) => some (c :: r, it)

/-- The byte offset of a character. -/
def offset (cs : List Nat) (i : Nat) : Nat := (encodeAll (cs.take i)).length

theorem encode_split (cs : List Nat) (i c : Nat) (h : cs[i]? = some c) :
    encodeAll cs = encodeAll (cs.take i) ++ (utf8 c ++ encodeAll (cs.drop (i + 1))) ∧
    offset cs (i + 1) = (encodeAll (cs.take i)).length + (utf8 c).length := by
  have hlt : i < cs.length := by
    rcases Nat.lt_or_ge i cs.length with hlt | hge
    · exact hlt
    · rw [List.getElem?_eq_none hge] at h; exact nomatch h
  have hc : cs[i] = c := by rw [List.getElem?_eq_getElem hlt] at h; injection h
  constructor
  · have : cs = cs.take i ++ c :: cs.drop (i + 1) := by
      rw [← hc, List.getElem_cons_drop, List.take_append_drop]
    conv => lhs; rw [this]
    simp only [encodeAll, List.flatMap_append, List.flatMap_cons]
  · rw [offset, List.take_add_one, h]
    simp [encodeAll]

/-- Every walk that stays in the text is defined behaviour, reads the characters of the text at the
positions walked to, and ends at the right byte. -/
theorem C25_walk (cs : List Nat) (hcs : ∀ c ∈ cs, c < 0x110000) (ms : List Move) :
    ∀ (i : Nat) (it : Iter) (r : List Nat) (j : Nat), i ≤ cs.length → it.pos = offset cs i → it.dirty = true →
    walk cs i ms = some (r, j) →
    ∃ it', walkIter (encodeAll cs) it ms = some (r.map UInt32.ofNat, it') ∧ it'.pos = offset cs j := by
  induction ms with
  | nil =>
    intro i it r j hle hp hd h
    simp only [walk, Option.some.injEq, Prod.mk.injEq] at h
    obtain ⟨rfl, rfl⟩ := h
    exact ⟨it, rfl, hp⟩
  | cons m ms ih =>
    intro i it r j hle hp hd h
    cases m with
    | inc =>
      simp only [walk] at h
      split at h
      · rename_i hlt
        obtain ⟨e1, e2⟩ := encode_split cs i cs[i] (List.getElem?_eq_getElem hlt)
        have := inc_utf8 (encodeAll (cs.take i)) cs[i] (hcs _ (List.getElem_mem hlt))
          (encodeAll (cs.drop (i + 1))) it hp
        rw [← e1] at this
        simp only [walkIter, this]
        exact ih (i + 1) _ r j hlt e2.symm hd h
      · exact nomatch h
    | dec =>
      simp only [walk] at h
      split at h
      · rename_i hpos
        have hlt : i - 1 < cs.length := by omega
        obtain ⟨e1, e2⟩ := encode_split cs (i - 1) cs[i - 1] (List.getElem?_eq_getElem hlt)
        rw [show i - 1 + 1 = i by omega] at e1 e2
        have := dec_utf8 (encodeAll (cs.take (i - 1))) cs[i - 1] (hcs _ (List.getElem_mem hlt))
          (encodeAll (cs.drop i)) it (hp.trans e2)
        rw [← e1] at this
        simp only [walkIter, this]
        exact ih (i - 1) _ r j (by omega) rfl rfl h
      · exact nomatch h
    | deref =>
      simp only [walk] at h
      split at h
      · exact nomatch h
      · rename_i c hc
        split at h
        · exact nomatch h
        · rename_i r' j' hw
          injection h with h
          injection h with h1 h2
          subst h1 h2
          obtain ⟨e1, _⟩ := encode_split cs i c hc
          have hd' : decodeAt (encodeAll cs) it.pos = some (UInt32.ofNat c) := by
            rw [hp, offset, e1, decodeAt_shift, decodeAt_utf8 c (hcs c (List.mem_of_getElem? hc))]
          simp only [walkIter, Iter.deref, hd, if_true, hd']
          obtain ⟨it', h1, h2⟩ := ih i { it with cur := UInt32.ofNat c } r' j' hle hp hd hw
          rw [hd] at h1
          rw [h1]
          exact ⟨it', rfl, h2⟩

example : walk [0x41, 0xE9, 0x1F600] 0 [.deref, .inc, .inc, .deref, .dec, .deref, .inc, .inc] =
    some ([0x41, 0x1F600, 0xE9], 3) := by decide

/-- `--` undoes `++` at every character. -/
theorem C25_dec_inc (cs : List Nat) (hcs : ∀ c ∈ cs, c < 0x110000) (i : Nat) (hi : i < cs.length) :
    ∃ it, (Iter.at (offset cs i)).inc (encodeAll cs) = some it ∧
      it.dec (encodeAll cs) = some (Iter.at (offset cs i)) := by
  obtain ⟨e1, e2⟩ := encode_split cs i cs[i] (List.getElem?_eq_getElem hi)
  have h1 := inc_utf8 (encodeAll (cs.take i)) cs[i] (hcs _ (List.getElem_mem hi))
    (encodeAll (cs.drop (i + 1))) (Iter.at (offset cs i)) rfl
  have h2 := dec_utf8 (encodeAll (cs.take i)) cs[i] (hcs _ (List.getElem_mem hi))
    (encodeAll (cs.drop (i + 1)))
    { Iter.at (offset cs i) with pos := (encodeAll (cs.take i)).length + (utf8 cs[i]).length } rfl
  rw [← e1] at h1 h2
  exact ⟨_, h1, h2⟩

example : 1 < [0x41, 0xE9, 0x1F600].length := by decide

/-- `for ( it = begin; it != end; ++it )` collecting `*it`; at most `fuel` rounds. -/
def forward (s : List UInt8) : Nat → Iter → Option (List UInt32)
  | 0, _ => none
  | fuel + 1, it =>
    if it.pos = s.length then some []
    else
      match it.deref s with
      | none => none
      | some (c, it) =>
        match it.inc s with
        | none => none
        | some it =>
          match forward s fuel it with
          | none => none
          | some r => some (c :: r)

/-- `for ( it = end; it != begin; )` collecting `*--it`; at most `fuel` rounds. -/
def backward (s : List UInt8) : Nat → Iter → Option (List UInt32)
  | 0, _ => none
  | fuel + 1, it =>
    if it.pos = 0 then some []
    else
      match it.dec s with
      | none => none
      | some it =>
        match it.deref s with
        | none => none
        | some (c, it) =>
          match backward s fuel it with
          | none => none
          | some r => some (c :: r)

theorem utf8_pos (n : Nat) : 0 < (utf8 n).length := by
  rw [length_utf8]; unfold size; split <;> (try split) <;> (try split) <;> omega

theorem forward_spec (post : List Nat) : ∀ (pre : List Nat) (fuel : Nat) (it : Iter),
    (∀ c ∈ post, c < 0x110000) → it.pos = (encodeAll pre).length → it.dirty = true →
    post.length < fuel →
    forward (encodeAll (pre ++ post)) fuel it = some (post.map UInt32.ofNat) := by
  induction post with
  | nil =>
    intro pre fuel it _ hp _ hf
    match fuel, hf with
    | fuel + 1, _ => simp [forward, hp]
  | cons c post ih =>
    intro pre fuel it hc hp hd hf
    match fuel, hf with
    | fuel + 1, hf =>
      have e : encodeAll (pre ++ c :: post) = encodeAll pre ++ (utf8 c ++ encodeAll post) := by
        simp [encodeAll]
      have hc' := hc c List.mem_cons_self
      have hpos := utf8_pos c
      have hne : ¬ it.pos = (encodeAll (pre ++ c :: post)).length := by
        rw [e, hp]; simp only [List.length_append]; omega
      have hdec : decodeAt (encodeAll (pre ++ c :: post)) it.pos = some (UInt32.ofNat c) := by
        rw [e, hp, decodeAt_shift, decodeAt_utf8 c hc']
      have hinc := inc_utf8 (encodeAll pre) c hc' (encodeAll post) { it with cur := UInt32.ofNat c } hp
      rw [← e] at hinc
      simp only [forward, if_neg hne, Iter.deref, hd, if_true, hdec]
      have hinc' : Iter.inc (encodeAll (pre ++ c :: post)) ⟨it.pos, UInt32.ofNat c, it.dirty⟩ = _ := hinc
      rw [hd] at hinc'
      rw [hinc']
      have := ih (pre ++ [c]) fuel ⟨(encodeAll pre).length + (utf8 c).length, UInt32.ofNat c, true⟩
        (fun x hx => hc x (List.mem_cons_of_mem _ hx)) (by simp [encodeAll]) rfl
        (by simp only [List.length_cons] at hf; omega)
      rw [List.append_assoc, List.singleton_append] at this
      simp only [this]
      rfl

theorem backward_spec : ∀ (n : Nat) (pre post : List Nat) (fuel : Nat) (it : Iter), pre.length = n →
    (∀ c ∈ pre, c < 0x110000) → it.pos = (encodeAll pre).length → it.dirty = true →
    pre.length < fuel →
    backward (encodeAll (pre ++ post)) fuel it = some (pre.reverse.map UInt32.ofNat) := by
  intro n
  induction n with
  | zero =>
    intro pre post fuel it hn _ hp _ hf
    have : pre = [] := List.eq_nil_of_length_eq_zero hn
    subst this
    match fuel, hf with
    | fuel + 1, _ => simp [backward, hp, encodeAll]
  | succ n ih =>
    intro pre post fuel it hn hc hp hd hf
    have hne : pre ≠ [] := by intro e; simp [e] at hn
    obtain ⟨q, c, rfl⟩ : ∃ q c, pre = q ++ [c] :=
      ⟨_, _, (List.dropLast_concat_getLast hne).symm⟩
    match fuel, hf with
    | fuel + 1, hf =>
      have e : encodeAll (q ++ [c] ++ post) = encodeAll q ++ (utf8 c ++ encodeAll post) := by
        simp [encodeAll]
      have ep : (encodeAll (q ++ [c])).length = (encodeAll q).length + (utf8 c).length := by
        simp [encodeAll]
      have hc' := hc c (by simp)
      have hpos := utf8_pos c
      have hdec := dec_utf8 (encodeAll q) c hc' (encodeAll post) it (hp.trans ep)
      rw [← e] at hdec
      have hval : decodeAt (encodeAll (q ++ [c] ++ post)) (encodeAll q).length = some (UInt32.ofNat c) := by
        rw [e, decodeAt_shift, decodeAt_utf8 c hc']
      simp only [backward, if_neg (show ¬ it.pos = 0 by omega), hdec, Iter.deref, if_true, hval]
      have := ih q ([c] ++ post) fuel ⟨(encodeAll q).length, UInt32.ofNat c, true⟩ (by simpa using hn)
        (fun x hx => hc x (List.mem_append_left _ hx)) rfl rfl (by simp at hf; omega)
      rw [← List.append_assoc] at this
      simp only [this, List.reverse_append, List.reverse_cons, List.reverse_nil, List.nil_append,
        List.singleton_append, List.map_cons]

theorem length_le_encodeAll (cs : List Nat) : cs.length ≤ (encodeAll cs).length := by
  induction cs with
  | nil => simp
  | cons c cs ih =>
    have := utf8_pos c
    simp only [encodeAll, List.flatMap_cons, List.length_append, List.length_cons] at ih ⊢
    omega

/-- The forward loop over a text yields its characters, ends at the end of the string, and takes at
most as many rounds as there are bytes. -/
theorem C25_forward (cs : List Nat) (hcs : ∀ c ∈ cs, c < 0x110000) :
    forward (encodeAll cs) ((encodeAll cs).length + 1) (Iter.at 0) = some (cs.map UInt32.ofNat) := by
  have := forward_spec cs [] ((encodeAll cs).length + 1) (Iter.at 0) hcs rfl rfl
    (by have := length_le_encodeAll cs; omega)
  simpa using this

/-- The backward loop yields them in reverse and ends at the beginning. -/
theorem C25_backward (cs : List Nat) (hcs : ∀ c ∈ cs, c < 0x110000) :
    backward (encodeAll cs) ((encodeAll cs).length + 1) (Iter.at (encodeAll cs).length) =
      some (cs.reverse.map UInt32.ofNat) := by
  have := backward_spec _ cs [] ((encodeAll cs).length + 1) (Iter.at (encodeAll cs).length) rfl hcs rfl
    rfl (by have := length_le_encodeAll cs; omega)
  simpa using this

example : ∀ c ∈ [0x41, 0xE9, 0x4E2D, 0x1F600], c < 0x110000 := by decide

end AS.Props
