import Verif.Lemmas.Md5
/- Properties C54-C57: the digest. -/
namespace AS.Props
open AS AS.Md5

/-- `update` with each piece in turn. -/
def feed (m : Md5) : List (List UInt8) → Option Md5
  | [] => some m
  | p :: ps =>
    match m.update p (UInt32.ofNat p.length) with
    | none => none
    | some m => feed m ps

/-- The digest of a text fed in pieces. -/
def digestOf (m : Md5) (ps : List (List UInt8)) : Option Str :=
  match feed m ps with
  | none => none
  | some m =>
    match m.finalize with
    | none => none
    | some m => some m.hexdigest

theorem ofNat_length {p : List UInt8} (h : p.length + 64 < 2 ^ 32) :
    (UInt32.ofNat p.length).toNat = p.length := by
  rw [UInt32.toNat_ofNat', Nat.mod_eq_of_lt (by omega)]

theorem feed_fed : ∀ (ps : List (List UInt8)) {m : Md5} {bs : List UInt8}, Fed m bs →
    (∀ p ∈ ps, p.length + 64 < 2 ^ 32) → ∃ m', feed m ps = some m' ∧ Fed m' (bs ++ ps.flatten)
  | [], m, bs, h, _ => ⟨m, rfl, by simpa using h⟩
  | p :: ps, m, bs, h, hp => by
    have hl := ofNat_length (hp p List.mem_cons_self)
    obtain ⟨m1, h1, hf, _⟩ := update_fed (input := p) (length := UInt32.ofNat p.length) h
      (by omega) (by have := hp p List.mem_cons_self; omega)
    rw [hl, List.take_length] at hf
    obtain ⟨m2, h2, hf2⟩ := feed_fed ps hf (fun q hq => hp q (List.mem_cons_of_mem _ hq))
    refine ⟨m2, by rw [feed, h1]; exact h2, ?_⟩
    rw [List.flatten_cons, ← List.append_assoc]
    exact hf2

/-- The hexadecimal form of the digest bytes. -/
theorem hexdigest_eq {m : Md5} {f g} {bs : List UInt8} (h : m.finalized = true)
    (hd : IsDigest f g bs m.digest) : m.hexdigest = m.digest.flatMap hexByte ∧ m.digest.length = 16 := by
  obtain ⟨bl, _, _, hd⟩ := hd
  have hl : m.digest.length = 16 := by rw [hd]; exact length_rfcOut _
  refine ⟨?_, hl⟩
  rw [hexdigest, h]
  simp only [Bool.not_true, Bool.false_eq_true, if_false]
  rw [List.take_of_length_le (by omega)]
  congr 1
  funext b
  have hb := b.toNat_lt
  simp only [hexByte, hexDigit]
  have key : ∀ n, n < 16 → (c!"0123456789abcdef").getD n '?' = (c!"0123456789abcdef").getD n '0' := by
    decide
  rw [key _ (by omega), key _ (by omega)]

theorem digestOf_spec (buffer digest : List UInt8) (h : buffer.length = 64) (ps : List (List UInt8))
    (hp : ∀ p ∈ ps, p.length + 64 < 2 ^ 32) :
    ∃ d, IsDigest F G ps.flatten d ∧ digestOf (init buffer digest) ps = some (d.flatMap hexByte) := by
  obtain ⟨m, hm, hf⟩ := feed_fed ps (init_fed buffer digest h) hp
  obtain ⟨m', hm', hfin, hd⟩ := finalize_fed hf
  refine ⟨m'.digest, by simpa using hd, ?_⟩
  rw [digestOf, hm]
  simp only
  rw [hm']
  simp only
  rw [(hexdigest_eq hfin hd).1]

/-! ### C54: the digest does not depend on how the text is fed -/

/-- Two ways of cutting the same text, whatever the uninitialised members contain, give the same
digest. -/
theorem C54_chunking (b1 d1 b2 d2 : List UInt8) (h1 : b1.length = 64) (h2 : b2.length = 64)
    (ps qs : List (List UInt8)) (hps : ∀ p ∈ ps, p.length + 64 < 2 ^ 32)
    (hqs : ∀ p ∈ qs, p.length + 64 < 2 ^ 32) (h : ps.flatten = qs.flatten) :
    digestOf (init b1 d1) ps = digestOf (init b2 d2) qs ∧ (digestOf (init b1 d1) ps).isSome := by
  obtain ⟨d, hd, e⟩ := digestOf_spec b1 d1 h1 ps hps
  obtain ⟨d', hd', e'⟩ := digestOf_spec b2 d2 h2 qs hqs
  rw [h] at hd
  rw [e, e', isDigest_unique hd hd']
  exact ⟨rfl, rfl⟩

/-- In particular pieces give what `md5` gives for the whole. -/
theorem C54_at_once (b1 d1 b2 d2 : List UInt8) (h1 : b1.length = 64) (h2 : b2.length = 64)
    (ps : List (List UInt8)) (hl : ps.flatten.length + 64 < 2 ^ 32) :
    digestOf (init b1 d1) ps = md5 b2 d2 ps.flatten := by
  have hone : md5 b2 d2 ps.flatten = digestOf (init b2 d2) [ps.flatten] := by
    simp only [md5, digestOf, feed]
    cases (init b2 d2).update ps.flatten (UInt32.ofNat ps.flatten.length) with
    | none => rfl
    | some m => rfl
  rw [hone]
  refine (C54_chunking b1 d1 b2 d2 h1 h2 ps [ps.flatten] ?_ ?_ (by simp)).1
  · intro p hp
    have := (List.sublist_flatten_of_mem hp).length_le
    omega
  · intro p hp
    rw [List.mem_singleton] at hp
    rw [hp]; exact hl

example : digestOf (init (List.replicate 64 7) []) [List.replicate 40 1, [], List.replicate 40 2] =
    md5 (List.replicate 64 0) [] (List.replicate 40 1 ++ List.replicate 40 2) :=
  C54_at_once _ _ _ _ (by simp) (by simp) [List.replicate 40 1, [], List.replicate 40 2] (by simp)

/-! ### C55: shape of the digest -/

/-- Before `finalize` the digest is the empty string. -/
theorem C55_empty_before (buffer digest : List UInt8) (h : buffer.length = 64) (ps : List (List UInt8))
    (hp : ∀ p ∈ ps, p.length + 64 < 2 ^ 32) :
    ∃ m, feed (init buffer digest) ps = some m ∧ m.hexdigest = [] := by
  obtain ⟨m, hm, hf⟩ := feed_fed ps (init_fed buffer digest h) hp
  exact ⟨m, hm, by simp [hexdigest, hf.open_]⟩

/-- Lower case hexadecimal digits. -/
def lowerHex (c : Char) : Prop := c ∈ c!"0123456789abcdef"

theorem hexByte_lower (b : UInt8) : ∀ c ∈ hexByte b, lowerHex c := by
  have hb := b.toNat_lt
  have key : ∀ n, n < 16 → (c!"0123456789abcdef").getD n '0' ∈ c!"0123456789abcdef" := by decide
  intro c hc
  simp only [hexByte, List.mem_cons, List.not_mem_nil, or_false] at hc
  rcases hc with rfl | rfl
  · exact key _ (by omega)
  · exact key _ (by omega)

theorem hexByte_inj (a b : UInt8) (h : hexByte a = hexByte b) : a = b := by
  have ha := a.toNat_lt
  have hb := b.toNat_lt
  have key : ∀ n, n < 16 → ∀ k, k < 16 →
      (c!"0123456789abcdef").getD n '0' = (c!"0123456789abcdef").getD k '0' → n = k := by decide
  simp only [hexByte, List.cons.injEq, and_true] at h
  have h1 := key _ (by omega) _ (by omega) h.1
  have h2 := key _ (by omega) _ (by omega) h.2
  apply UInt8.toNat_inj.mp
  omega

theorem flatMap_hexByte_inj : ∀ (a b : List UInt8), a.flatMap hexByte = b.flatMap hexByte → a = b
  | [], [], _ => rfl
  | [], y :: b, h => by simp [hexByte] at h
  | x :: a, [], h => by simp [hexByte] at h
  | x :: a, y :: b, h => by
    rw [List.flatMap_cons, List.flatMap_cons] at h
    have := List.append_inj h rfl
    rw [hexByte_inj x y this.1, flatMap_hexByte_inj a b this.2]

/-- Afterwards it is 32 lower case hexadecimal digits, two for each of the 16 bytes; the bytes can be
recovered from it; finalizing again changes nothing. -/
theorem C55_hexdigest (buffer digest : List UInt8) (h : buffer.length = 64) (ps : List (List UInt8))
    (hp : ∀ p ∈ ps, p.length + 64 < 2 ^ 32) :
    ∃ m m', feed (init buffer digest) ps = some m ∧ m.finalize = some m' ∧
      m'.hexdigest.length = 32 ∧ (∀ c ∈ m'.hexdigest, lowerHex c) ∧
      m'.digest.length = 16 ∧ m'.hexdigest = m'.digest.flatMap hexByte ∧
      (∀ d : List UInt8, d.flatMap hexByte = m'.hexdigest → d = m'.digest) ∧
      m'.finalize = some m' := by
  obtain ⟨m, hm, hf⟩ := feed_fed ps (init_fed buffer digest h) hp
  obtain ⟨m', hm', hfin, hd⟩ := finalize_fed hf
  obtain ⟨he, hl⟩ := hexdigest_eq hfin hd
  refine ⟨m, m', hm, hm', ?_, ?_, hl, he, ?_, by simp [finalize, hfin]⟩
  · rw [he]
    have : ∀ l : List UInt8, (l.flatMap hexByte).length = 2 * l.length := by
      intro l
      induction l with
      | nil => rfl
      | cons b l ih => rw [List.flatMap_cons, List.length_append, ih, List.length_cons]; simp [hexByte]; omega
    rw [this, hl]
  · rw [he]
    intro c hc
    obtain ⟨b, _, hc⟩ := List.mem_flatMap.mp hc
    exact hexByte_lower b c hc
  · rw [he]
    intro d hd'
    exact flatMap_hexByte_inj _ _ hd'

/-- Whatever is fed after `finalize` does not change the digest, finalized again or not. -/
theorem C55_stale (m m' : Md5) (hfin : m.finalized = true) (input : List UInt8) (length : UInt32)
    (h : m.update input length = some m') :
    m'.hexdigest = m.hexdigest ∧ m'.finalize = some m' := by
  have key : m'.finalized = m.finalized ∧ m'.digest = m.digest := by
    simp only [update] at h
    split at h
    · split at h
      · exact nomatch h
      · split at h
        · exact nomatch h
        · split at h
          · exact nomatch h
          · injection h with h; subst h; exact ⟨rfl, rfl⟩
    · split at h
      · exact nomatch h
      · injection h with h; subst h; exact ⟨rfl, rfl⟩
  refine ⟨by simp [hexdigest, key], by simp [finalize, key, hfin]⟩

example : ∃ m', ({ init (List.replicate 64 0) [] with finalized := true } : Md5).update [65] 1 = some m' :=
  Option.isSome_iff_exists.mp (by decide +kernel)

/-! ### C56: padding and blocks follow RFC 1321 -/

/-- The specification's padding is the RFC's: to 56 modulo 64 with the least number of zeros. -/
theorem C56_padding_least (n : Nat) :
    (n + 1 + rfcZeros n) % 64 = 56 ∧ ∀ k, (n + 1 + k) % 64 = 56 → rfcZeros n ≤ k := by
  unfold rfcZeros
  constructor
  · omega
  · intro k hk; omega

/-- For every text shorter than 2^32 - 64 bytes the digest is that of RFC 1321 with the two functions
`F` and `G` of the code; no access is out of bounds. -/
theorem C56_blocks (buffer digest : List UInt8) (h : buffer.length = 64) (text : List UInt8)
    (hl : text.length + 64 < 2 ^ 32) :
    ∃ d, IsDigest F G text d ∧ md5 buffer digest text = some (d.flatMap hexByte) := by
  have h1 := C54_at_once buffer digest buffer digest h h [text] (by simpa using hl)
  obtain ⟨d, hd, e⟩ := digestOf_spec buffer digest h [text] (by simpa using hl)
  simp only [List.flatten_cons, List.flatten_nil, List.append_nil] at hd h1
  exact ⟨d, hd, by rw [← h1, e]⟩

/-- The length is cut to 32 bits: of a longer text only the first bytes are hashed. -/
theorem C56_truncated (buffer digest : List UInt8) (h : buffer.length = 64) (text : List UInt8)
    (hl : text.length % 2 ^ 32 + 64 < 2 ^ 32) :
    md5 buffer digest text = md5 buffer digest (text.take (text.length % 2 ^ 32)) := by
  have hn : (UInt32.ofNat text.length).toNat = text.length % 2 ^ 32 := UInt32.toNat_ofNat' ..
  obtain ⟨m, hu, hf, _⟩ := update_fed (input := text) (length := UInt32.ofNat text.length)
    (init_fed buffer digest h) (by rw [hn]; exact Nat.mod_le _ _) (by omega)
  have hlen : (text.take (text.length % 2 ^ 32)).length = text.length % 2 ^ 32 := by
    rw [List.length_take]; exact Nat.min_eq_left (Nat.mod_le _ _)
  have hn' : (UInt32.ofNat (text.take (text.length % 2 ^ 32)).length).toNat = text.length % 2 ^ 32 := by
    rw [hlen, UInt32.toNat_ofNat']; omega
  obtain ⟨m2, hu2, hf2, _⟩ := update_fed (input := text.take (text.length % 2 ^ 32))
    (length := UInt32.ofNat (text.take (text.length % 2 ^ 32)).length)
    (init_fed buffer digest h) (by rw [hn', hlen]; exact Nat.le_refl _) (by omega)
  obtain ⟨m', hm, hfin, hd⟩ := finalize_fed hf
  obtain ⟨m2', hm2, hfin2, hd2⟩ := finalize_fed hf2
  rw [md5, md5, hu, hu2]
  simp only
  rw [hm, hm2]
  simp only
  rw [(hexdigest_eq hfin hd).1, (hexdigest_eq hfin2 hd2).1]
  rw [hn] at hd
  rw [hn', List.take_take, Nat.min_self] at hd2
  rw [isDigest_unique hd hd2]

/-- `blockLoop` reads beyond the input if the input has no room for `i + 64`. -/
theorem blockLoop_overrun (input : List UInt8) (length : UInt32) (hl : input.length = length.toNat)
    (hs : 2 ^ 32 ≤ length.toNat + 64) : ∀ (fuel : Nat) (i : UInt32) (s : State),
    i.toNat % 64 = 0 → blockLoop fuel input length i s = none
  | 0, _, _, _ => rfl
  | fuel + 1, i, s, hi => by
    have hll := length.toNat_lt
    have hil := i.toNat_lt
    have e64 : (64 : UInt32).toNat = 64 := rfl
    rw [blockLoop]
    by_cases hlt : i.toNat + 64 < 2 ^ 32
    · have ei : (i + 64).toNat = i.toNat + 64 := by
        rw [UInt32.toNat_add, e64, Nat.mod_eq_of_lt hlt]
      have hc : i + 64 ≤ length := by rw [UInt32.le_iff_toNat_le, ei]; omega
      rw [if_pos hc, if_pos (by omega)]
      exact blockLoop_overrun input length hl hs fuel _ _ (by omega)
    · have ei : (i + 64).toNat = 0 := by
        rw [UInt32.toNat_add, e64]; omega
      have hc : i + 64 ≤ length := by rw [UInt32.le_iff_toNat_le, ei]; omega
      rw [if_pos hc, if_neg (by omega)]

/-- The bound of C56 is sharp: for the 64 lengths below 2^32 the loop reads beyond the text. -/
theorem C56_bound_sharp (buffer digest : List UInt8) (text : List UInt8)
    (h1 : 2 ^ 32 ≤ text.length + 64) (h2 : text.length < 2 ^ 32) :
    md5 buffer digest text = none := by
  have hn : (UInt32.ofNat text.length).toNat = text.length := by
    rw [UInt32.toNat_ofNat', Nat.mod_eq_of_lt h2]
  have hu : (init buffer digest).update text (UInt32.ofNat text.length) = none := by
    simp only [update]
    have hfp : (64 : UInt32) - (init buffer digest).count0 / 8 % 64 = 64 := by
      show (64 : UInt32) - 0 / 8 % 64 = 64
      decide
    have hc : (64 : UInt32) ≤ UInt32.ofNat text.length := by
      rw [UInt32.le_iff_toNat_le, hn]
      show 64 ≤ _
      omega
    rw [hfp, if_pos hc]
    split
    · rfl
    · rw [blockLoop_overrun text _ hn.symm (by omega) _ 64 _ rfl]
  rw [md5, hu]

example : ∃ text : List UInt8, 2 ^ 32 ≤ text.length + 64 ∧ text.length < 2 ^ 32 :=
  ⟨List.replicate (2 ^ 32 - 3) 0, by rw [List.length_replicate]; omega,
    by rw [List.length_replicate]; omega⟩

example : ∃ text : List UInt8, text.length % 2 ^ 32 + 64 < 2 ^ 32 ∧ 2 ^ 32 ≤ text.length :=
  ⟨List.replicate (2 ^ 32 + 3) 0, by rw [List.length_replicate]; omega,
    by rw [List.length_replicate]; omega⟩

/-! ### C57: the digest is not MD5 -/

/-- `F` differs from RFC 1321 exactly in the bits set in `x` and `y` but not in `z`. -/
theorem C57_F (x y z : UInt32) :
    F x y z ^^^ rfcF x y z = x &&& y &&& ~~~z ∧
    (F x y z = rfcF x y z ↔ x &&& y &&& ~~~z = 0) := by
  refine ⟨F_diff x y z, ?_⟩
  rw [← F_diff x y z, UInt32.xor_eq_zero_iff]

/-- `G` differs from RFC 1321 exactly in the bits set in `x` and `z`; it does not depend on `x`. -/
theorem C57_G (x y z : UInt32) :
    G x y z ^^^ rfcG x y z = x &&& z ∧ (G x y z = rfcG x y z ↔ x &&& z = 0) ∧
    ∀ x', G x' y z = G x y z := by
  refine ⟨G_diff x y z, ?_, ?_⟩
  · rw [← G_diff x y z, UInt32.xor_eq_zero_iff]
  · intro x'; rw [G_eq, G_eq]

/-- Nothing else differs: with the RFC's functions in place of `F` and `G`, `transform` is the RFC's
block function. -/
theorem C57_rest_is_rfc (s : State) (block : List UInt8) (h : block.length = 64) :
    transformWith ⟨rfcF, rfcG, H, I⟩ s block = rfcBlock rfcF rfcG s block :=
  transformWith_rfc rfcF rfcG s block h

example : (List.replicate 64 (0x41 : UInt8)).length = 64 := by simp

/-- The RFC digest of the empty text (RFC 1321, appendix A.5). -/
theorem rfc_empty : IsDigest rfcF rfcG [] [0xd4, 0x1d, 0x8c, 0xd9, 0x8f, 0x00, 0xb2, 0x04,
    0xe9, 0x80, 0x09, 0x98, 0xec, 0xf8, 0x42, 0x7e] :=
  ⟨[rfcPad []], by decide +kernel, by decide +kernel, by decide +kernel⟩

/-- The RFC digest of "abc" (RFC 1321, appendix A.5). -/
theorem rfc_abc : IsDigest rfcF rfcG [0x61, 0x62, 0x63] [0x90, 0x01, 0x50, 0x98, 0x3c, 0xd2, 0x4f, 0xb0,
    0xd6, 0x96, 0x3f, 0x7d, 0x28, 0xe1, 0x7f, 0x72] :=
  ⟨[rfcPad [0x61, 0x62, 0x63]], by decide +kernel, by decide +kernel, by decide +kernel⟩

/-- The digest of the empty text is not its MD5 digest. -/
theorem C57_not_md5 (buffer digest : List UInt8) (h : buffer.length = 64) (d : List UInt8)
    (hd : IsDigest rfcF rfcG [] d) : md5 buffer digest [] ≠ some (d.flatMap hexByte) := by
  rw [isDigest_unique hd rfc_empty]
  obtain ⟨d', hd', e⟩ := C56_blocks buffer digest h [] (by simp)
  have hcode : IsDigest F G [] (rfcOut ([rfcPad []].foldl (rfcBlock F G) rfcInit)) :=
    ⟨[rfcPad []], by decide +kernel, by decide +kernel, rfl⟩
  rw [e, isDigest_unique hd' hcode]
  intro he
  injection he with he
  have := flatMap_hexByte_inj _ _ he
  exact absurd this (by decide +kernel)

example := C57_not_md5 (List.replicate 64 0) [] (by simp) _ rfc_empty

end AS.Props
