import Verif.Lemmas.Codec
import Verif.Spec.Codec
/-
Properties C01–C05: the textual and numeric encodings of classes, attachment kinds and languages.
-/
namespace AS.Props

/-! ## Specification vocabulary -/

/-- What one item of a comma separated class list stands for: an empty item for nothing; a name
with blanks around it for the class of that name, `BADTOKEN` if there is none; an item of blanks
only for `BADTOKEN`. -/
inductive ItemMeans : Str → Option InType → Prop
  | empty : ItemMeans [] none
  | blanks (n : Nat) : ItemMeans (List.replicate (n + 1) ' ') (some .BADTOKEN)
  | known (a b : Nat) (name : Str) (i : Int) (t : InType) : (name, i, t) ∈ inTable →
      ItemMeans (List.replicate a ' ' ++ name ++ List.replicate b ' ') (some t)
  | unknown (a b : Nat) (name : Str) (hne : name ≠ []) : name.head hne ≠ ' ' → name.getLast hne ≠ ' ' →
      (∀ e ∈ inTable, e.1 ≠ name) →
      ItemMeans (List.replicate a ' ' ++ name ++ List.replicate b ' ') (some .BADTOKEN)

/-! ## C01 -/

/-- Every documented class prints as its name and reads back from its name and number. -/
theorem C01_inclass_table : ∀ e ∈ inTable,
    e.2.2.asString = e.1 ∧ e.2.2.code = e.2.1 ∧ InType.asOneType e.1 = e.2.2 ∧ InType.ofInt e.2.1 = e.2.2 := by
  decide +kernel

/-- The table lists every class exactly once, with pairwise distinct names and numbers. -/
theorem C01_inclass_table_complete :
    (∀ t : InType, ∃ n i, (n, i, t) ∈ inTable) ∧
    (inTable.map (·.1)).Nodup ∧ (inTable.map (·.2.1)).Nodup ∧ (inTable.map (·.2.2)).Nodup := by
  refine ⟨?_, by decide +kernel, by decide +kernel, by decide +kernel⟩
  intro t
  exact ⟨t.asString, t.code, by cases t <;> decide +kernel⟩

/-- Round trip through the name and through the number; names and numbers are distinct. -/
theorem C01_inclass_roundtrip (t : InType) :
    InType.asOneType t.asString = t ∧ InType.ofInt t.code = t ∧
    (∀ u : InType, u.asString = t.asString → u = t) ∧ (∀ u : InType, u.code = t.code → u = t) :=
  ⟨asOneType_asString t, ofInt_code t,
   fun u h => by rw [← asOneType_asString u, ← asOneType_asString t, h],
   fun u h => by rw [← ofInt_code u, ← ofInt_code t, h]⟩

/-- Any other string reads as `BADTOKEN`. -/
theorem C01_inclass_other_string (s : Str) (h : ∀ e ∈ inTable, e.1 ≠ s) :
    InType.asOneType s = .BADTOKEN := by
  apply Classical.byContradiction
  intro hne
  have h1 := asString_asOneType s hne
  obtain ⟨n, i, hm⟩ := C01_inclass_table_complete.1 (InType.asOneType s)
  have h2 := (C01_inclass_table _ hm).1
  exact h _ hm (by rw [← h2]; exact h1)

/-- Any other integer reads as `BADTOKEN`. -/
theorem C01_inclass_other_int (i : Int) (h : ∀ e ∈ inTable, e.2.1 ≠ i) :
    InType.ofInt i = .BADTOKEN := by
  apply Classical.byContradiction
  intro hne
  have h1 := code_ofInt i hne
  obtain ⟨n, j, hm⟩ := C01_inclass_table_complete.1 (InType.ofInt i)
  have h2 := (C01_inclass_table _ hm).2.1
  exact h _ hm (by rw [← h2]; exact h1)

example : (c!"STREET", 5, InType.ROAD) ∉ inTable ∧ InType.asOneType c!"ROAD" = .ROAD
    ∧ (∀ e ∈ inTable, e.1 ≠ c!"road") ∧ (∀ e ∈ inTable, e.2.1 ≠ 4) := by decide +kernel

/-! ## C02 -/

private theorem blanks_bad (n : Nat) : InType.asOneType (List.replicate (n + 1) ' ') = .BADTOKEN := by
  apply C01_inclass_other_string
  intro e he heq
  have hnb : ∀ e ∈ inTable, e.1.head? ≠ some ' ' := by decide +kernel
  exact hnb e he (by rw [heq]; simp [List.replicate_succ])

private theorem itemType_iff (q : Str) (r : Option InType) : ItemMeans q r ↔ itemType q = r := by
  constructor
  · intro h
    unfold itemType
    cases h with
    | empty => rfl
    | blanks n =>
      rw [trimboth_blank, blanks_bad]
      simp
    | known a b name i t hm =>
      have hnb : ∀ e ∈ inTable, e.1 ≠ [] ∧ e.1.head? ≠ some ' ' ∧ e.1.getLast? ≠ some ' ' := by
        decide +kernel
      obtain ⟨h1, h2, h3⟩ := hnb _ hm
      simp only at h1 h2 h3
      rw [trimboth_core a b name h1 (fun e => h2 (by rw [List.head?_eq_some_head h1, e]))
        (fun e => h3 (by rw [List.getLast?_eq_some_getLast h1, e]))]
      have := (C01_inclass_table _ hm).2.2.1
      simp only at this
      simp [this, List.length_pos_iff, h1]
    | unknown a b name hne hh hl hu =>
      rw [trimboth_core a b name hne hh hl, C01_inclass_other_string name hu]
      simp [List.length_pos_iff, hne]
  · intro h
    unfold itemType at h
    rcases blank_or_core q with ⟨n, rfl⟩ | ⟨a, b, core, hne, hh, hl, rfl⟩
    · rw [trimboth_blank] at h
      cases n with
      | zero => subst h; exact .empty
      | succ n =>
        rw [blanks_bad] at h
        simp at h
        subst h
        exact .blanks n
    · rw [trimboth_core a b core hne hh hl] at h
      simp only [List.length_pos_iff, hne, ne_eq, not_false_eq_true, ↓reduceIte] at h
      subst h
      by_cases hk : ∀ e ∈ inTable, e.1 ≠ core
      · rw [C01_inclass_other_string core hk]
        exact .unknown a b core hne hh hl hk
      · simp only [Classical.not_forall, ne_eq, Classical.not_not] at hk
        obtain ⟨e, he, rfl⟩ := hk
        rw [(C01_inclass_table e he).2.2.1]
        exact .known a b e.1 e.2.1 e.2.2 he

/-- Every item means exactly one thing (so `ItemMeans` is a well-defined reading of items). -/
theorem C02_item_meaning (q : Str) : ∃ r, ItemMeans q r ∧ ∀ r', ItemMeans q r' → r' = r :=
  ⟨itemType q, (itemType_iff q _).2 rfl, fun _ h => ((itemType_iff q _).1 h).symm⟩

/-- What a comma separated class list reads as: exactly the classes its items stand for. Every
string is such a list (`exists_parts`). -/
theorem C02_read_class_list (p : Str) (ps : List Str) (hc : ∀ q ∈ p :: ps, ',' ∉ q) :
    ∃ S, InType.asType? (joinWith c!"," (p :: ps)) = some S ∧ IsSet InType.code S ∧
      ∀ t, t ∈ S ↔ ∃ q ∈ p :: ps, ItemMeans q (some t) := by
  refine ⟨_, asType?_join p ps hc, isSet_readItems _, fun t => ?_⟩
  rw [mem_readItems]
  simp only [itemType_iff]

/-- Reading always terminates with a set. -/
theorem C02_read_total (s : Str) : ∃ S, InType.asType? s = some S ∧ IsSet InType.code S := by
  obtain ⟨p, ps, hc, rfl⟩ := exists_parts ',' s
  obtain ⟨S, h1, h2, _⟩ := C02_read_class_list p ps hc
  exact ⟨S, h1, h2⟩

/-- Order, repetition and surrounding blanks of the items are irrelevant: two lists whose items
stand for the same classes read the same. -/
theorem C02_read_order_irrelevant (p : Str) (ps : List Str) (q : Str) (qs : List Str)
    (hp : ∀ x ∈ p :: ps, ',' ∉ x) (hq : ∀ x ∈ q :: qs, ',' ∉ x)
    (h : ∀ t, (∃ x ∈ p :: ps, ItemMeans x (some t)) ↔ (∃ x ∈ q :: qs, ItemMeans x (some t))) :
    InType.asType? (joinWith c!"," (p :: ps)) = InType.asType? (joinWith c!"," (q :: qs)) := by
  obtain ⟨S, h1, h2, h3⟩ := C02_read_class_list p ps hp
  obtain ⟨T, g1, g2, g3⟩ := C02_read_class_list q qs hq
  rw [h1, g1]
  congr 1
  exact h2.ext g2 (fun t => by rw [h3, g3, h])

/-- Printing a set lists the names of its members in number order, separated by commas. -/
theorem C02_print_class_list (S : List InType) :
    InType.setAsString S = joinWith c!"," (S.map InType.asString) := setAsString_eq S

/-- Print then parse is the identity on every set of classes. -/
theorem C02_class_list_roundtrip (S : List InType) (h : IsSet InType.code S) :
    InType.asType? (InType.setAsString S) = some S := by
  rw [C02_print_class_list]
  cases S with
  | nil => decide +kernel
  | cons t ts =>
    have hcomma : ∀ t : InType, ',' ∉ t.asString := by intro t; cases t <;> decide +kernel
    have hc : ∀ q ∈ t.asString :: ts.map InType.asString, ',' ∉ q := by
      intro q hq
      rw [← List.map_cons (f := InType.asString)] at hq
      obtain ⟨u, _, rfl⟩ := List.mem_map.1 hq
      exact hcomma u
    obtain ⟨S', h1, h2, h3⟩ := C02_read_class_list _ _ hc
    rw [List.map_cons, h1]
    congr 1
    apply IsSet.ext h2 h
    intro u
    rw [h3]
    have hm : ∀ v w : InType, ItemMeans v.asString (some w) ↔ w = v := by
      intro v w
      rw [itemType_iff]
      have : itemType v.asString = some v := by cases v <;> decide +kernel
      rw [this]
      simp [eq_comm]
    constructor
    · rintro ⟨q, hq, hi⟩
      rw [← List.map_cons (f := InType.asString)] at hq
      obtain ⟨v, hv, rfl⟩ := List.mem_map.1 hq
      rw [(hm v u).1 hi]; exact hv
    · intro hu
      exact ⟨u.asString, by rw [← List.map_cons (f := InType.asString)]; exact List.mem_map_of_mem hu,
        (hm u u).2 rfl⟩

example : IsSet InType.code [.WORD, .TYPE, .BADTOKEN] := by unfold IsSet; decide +kernel
example : InType.asType? c!" TYPE ,,WORD,  ,FOO" = some [.WORD, .TYPE, .BADTOKEN] := by decide +kernel
example : ItemMeans c!" TYPE " (some .TYPE) := .known 1 1 c!"TYPE" 2 .TYPE (by decide +kernel)

/-! ## C03 -/

/-- The documented attachment kinds. -/
def attachTable : List (Str × Attach) := [
  (c!"DET_PRE", .DET_PRE), (c!"DET_SUF", .DET_SUF), (c!"ATT_PRE", .ATT_PRE), (c!"ATT_SUF", .ATT_SUF)]

/-- What an attachment list reads as: exactly the kinds named (with blanks around) by its items;
all other items, such as `DETACHED` and `DETACH`, contribute nothing. -/
theorem C03_read_attach_list (p : Str) (ps : List Str) (hc : ∀ q ∈ p :: ps, ',' ∉ q) :
    ∃ S, Attach.asAttach? (joinWith c!"," (p :: ps)) = some S ∧ IsSet Attach.code S ∧
      ∀ t, t ∈ S ↔ ∃ q ∈ p :: ps, ∃ name a b, (name, t) ∈ attachTable ∧
        q = List.replicate a ' ' ++ name ++ List.replicate b ' ' := by
  refine ⟨_, asAttach?_join p ps hc, isSet_readAttach _, fun t => ?_⟩
  rw [mem_readAttach]
  have hnb : ∀ e ∈ attachTable, e.1 ≠ [] ∧ e.1.head? ≠ some ' ' ∧ e.1.getLast? ≠ some ' ' ∧
      Attach.ofWord e.1 = some e.2 := by decide +kernel
  have hw : ∀ q, (itemAttach q = some t ↔ ∃ name a b, (name, t) ∈ attachTable ∧
        q = List.replicate a ' ' ++ name ++ List.replicate b ' ') := by
    intro q
    constructor
    · intro h
      unfold itemAttach at h
      split at h
      · have hn := attach_asString_ofWord _ _ h
        rcases blank_or_core q with ⟨n, rfl⟩ | ⟨a, b, core, hne, hh, hl, rfl⟩
        · rw [trimboth_blank] at hn
          cases n with
          | zero => rw [trimboth_blank] at *; simp at *
          | succ n =>
            exfalso
            have : t.asString.head? = some ' ' := by rw [hn]; simp [List.replicate_succ]
            revert this
            cases t <;> decide +kernel
        · rw [trimboth_core a b core hne hh hl] at hn
          refine ⟨core, a, b, ?_, rfl⟩
          rw [← hn]
          cases t <;> decide +kernel
      · cases h
    · rintro ⟨name, a, b, hm, rfl⟩
      obtain ⟨h1, h2, h3, h4⟩ := hnb _ hm
      simp only at h1 h2 h3 h4
      unfold itemAttach
      rw [trimboth_core a b name h1 (fun e => h2 (by rw [List.head?_eq_some_head h1, e]))
        (fun e => h3 (by rw [List.getLast?_eq_some_getLast h1, e]))]
      simp [h4, List.length_pos_iff, h1]
  simp only [hw]

/-- Print then parse is the identity on every set of attachment kinds. -/
theorem C03_attach_list_roundtrip (S : List Attach) (h : IsSet Attach.code S) :
    Attach.asAttach? (Attach.setAsString S) = some S := by
  rw [attach_setAsString_eq]
  cases S with
  | nil => decide +kernel
  | cons t ts =>
    have hcomma : ∀ t : Attach, ',' ∉ t.asString := by intro t; cases t <;> decide +kernel
    have hc : ∀ q ∈ t.asString :: ts.map Attach.asString, ',' ∉ q := by
      intro q hq
      rw [← List.map_cons (f := Attach.asString)] at hq
      obtain ⟨u, _, rfl⟩ := List.mem_map.1 hq
      exact hcomma u
    rw [List.map_cons, asAttach?_join _ _ hc]
    congr 1
    apply IsSet.ext (isSet_readAttach _) h
    intro u
    rw [mem_readAttach]
    have hm : ∀ v : Attach, itemAttach v.asString = some v := by intro v; cases v <;> decide +kernel
    rw [← List.map_cons (f := Attach.asString)]
    constructor
    · rintro ⟨q, hq, hi⟩
      obtain ⟨v, hv, rfl⟩ := List.mem_map.1 hq
      rw [hm] at hi
      cases hi
      exact hv
    · intro hu
      exact ⟨u.asString, List.mem_map_of_mem hu, hm u⟩

/-- Items that name no attachment kind can be dropped without effect. -/
theorem C03_unknown_items_ignored (p : Str) (ps : List Str) (q : Str) (qs : List Str)
    (hp : ∀ x ∈ p :: ps, ',' ∉ x) (hq : ∀ x ∈ q :: qs, ',' ∉ x)
    (h : ∀ x name t a b, (name, t) ∈ attachTable → x = List.replicate a ' ' ++ name ++ List.replicate b ' ' →
      (x ∈ p :: ps ↔ x ∈ q :: qs)) :
    Attach.asAttach? (joinWith c!"," (p :: ps)) = Attach.asAttach? (joinWith c!"," (q :: qs)) := by
  obtain ⟨S, h1, h2, h3⟩ := C03_read_attach_list p ps hp
  obtain ⟨T, g1, g2, g3⟩ := C03_read_attach_list q qs hq
  rw [h1, g1]
  congr 1
  refine h2.ext g2 (fun t => ?_)
  rw [h3, g3]
  constructor
  · rintro ⟨x, hx, name, a, b, hm, he⟩
    exact ⟨x, (h x name t a b hm he).1 hx, name, a, b, hm, he⟩
  · rintro ⟨x, hx, name, a, b, hm, he⟩
    exact ⟨x, (h x name t a b hm he).2 hx, name, a, b, hm, he⟩

example : IsSet Attach.code [.DET_PRE, .ATT_SUF] := by unfold IsSet; decide +kernel
example : Attach.asAttach? c!"ATT_SUF, DET_PRE,DETACH" = some [.DET_PRE, .ATT_SUF] := by decide +kernel

/-! ## C04 -/

/-- Every language reads back from its three letter code and from its English name. -/
theorem C04_lang_roundtrip (l : Lang) : Lang.asLang l.asString = l ∧ Lang.asLang l.asName = l := by
  cases l <;> decide +kernel

/-- Codes (and names) of different languages differ. -/
theorem C04_lang_distinct (l m : Lang) :
    (l.asString = m.asString → l = m) ∧ (l.asName = m.asName → l = m) :=
  ⟨fun h => by rw [← (C04_lang_roundtrip l).1, ← (C04_lang_roundtrip m).1, h],
   fun h => by rw [← (C04_lang_roundtrip l).2, ← (C04_lang_roundtrip m).2, h]⟩

/-- A string that is neither the code nor the name of a language reads as `UNKNOWN`. -/
theorem C04_lang_other (s : Str) (h : ∀ l : Lang, l.asString ≠ s ∧ l.asName ≠ s) :
    Lang.asLang s = .UNKNOWN := by
  have ht : ∀ e ∈ Lang.langTable, e.2.asString = e.1 ∨ e.2.asName = e.1 := by decide +kernel
  unfold Lang.asLang
  have : ∀ t : List (Str × Lang), (∀ e ∈ t, e.2.asString = e.1 ∨ e.2.asName = e.1) →
      Lang.asLangIn s t = .UNKNOWN := by
    intro t
    induction t with
    | nil => intro _; rfl
    | cons e t ih =>
      intro he
      obtain ⟨n, l⟩ := e
      unfold Lang.asLangIn
      have hn : s ≠ n := by
        intro e
        subst e
        rcases he (s, l) (by simp) with h1 | h1
        · exact (h l).1 h1
        · exact (h l).2 h1
      rw [if_neg hn]
      exact ih (fun e' h' => he e' (by simp [h']))
  exact this _ ht

/-- Codes are three upper case letters, except for `UNKNOWN`. -/
theorem C04_lang_code_shape (l : Lang) :
    l = .UNKNOWN ∨ (l.asString.length = 3 ∧ ∀ c ∈ l.asString, 'A' ≤ c ∧ c ≤ 'Z') := by
  cases l <;> decide +kernel

example : Lang.asLang c!"ENG" = .ENG ∧ Lang.asLang c!"GERMAN" = .GER ∧ Lang.asLang c!"eng" = .UNKNOWN := by
  decide +kernel

/-! ## C05 -/

/-- Every documented output class prints as its name and reads back from its name and number. -/
theorem C05_outclass_table : ∀ e ∈ outTable,
    e.2.2.asString = e.1 ∧ e.2.2.code = e.2.1 ∧ OutType.asType e.1 = e.2.2 ∧ OutType.ofInt e.2.1 = e.2.2 := by
  decide +kernel

/-- The table lists every output class exactly once, with distinct names and numbers. -/
theorem C05_outclass_table_complete :
    (∀ t : OutType, ∃ n i, (n, i, t) ∈ outTable) ∧
    (outTable.map (·.1)).Nodup ∧ (outTable.map (·.2.1)).Nodup ∧ (outTable.map (·.2.2)).Nodup := by
  refine ⟨?_, by decide +kernel, by decide +kernel, by decide +kernel⟩
  intro t
  exact ⟨t.asString, t.code, by cases t <;> decide +kernel⟩

/-- Round trip through the name and through the number; names and numbers are distinct. -/
theorem C05_outclass_roundtrip (t : OutType) :
    OutType.asType t.asString = t ∧ OutType.ofInt t.code = t ∧
    (∀ u : OutType, u.asString = t.asString → u = t) ∧ (∀ u : OutType, u.code = t.code → u = t) :=
  ⟨outType_asString t, outOfInt_code t,
   fun u h => by rw [← outType_asString u, ← outType_asString t, h],
   fun u h => by rw [← outOfInt_code u, ← outOfInt_code t, h]⟩

/-- Any other string or integer reads as `BADTOKEN`. -/
theorem C05_outclass_other :
    (∀ s : Str, (∀ e ∈ outTable, e.1 ≠ s) → OutType.asType s = .BADTOKEN) ∧
    (∀ i : Int, (∀ e ∈ outTable, e.2.1 ≠ i) → OutType.ofInt i = .BADTOKEN) := by
  constructor
  · intro s h
    apply Classical.byContradiction
    intro hne
    have h1 := outAsString_asType s hne
    obtain ⟨n, i, hm⟩ := C05_outclass_table_complete.1 (OutType.asType s)
    have h2 := (C05_outclass_table _ hm).1
    exact h _ hm (by rw [← h2]; exact h1)
  · intro i h
    apply Classical.byContradiction
    intro hne
    have h1 := outCode_ofInt i hne
    obtain ⟨n, j, hm⟩ := C05_outclass_table_complete.1 (OutType.ofInt i)
    have h2 := (C05_outclass_table _ hm).2.1
    exact h _ hm (by rw [← h2]; exact h1)

example : (∀ e ∈ outTable, e.1 ≠ c!"TYPE") ∧ (∀ e ∈ outTable, e.2.1 ≠ 18) := by decide +kernel

end AS.Props
