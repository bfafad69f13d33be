import Verif.Spec.Best
import Verif.Lemmas.Search
import Verif.Lemmas.Rule
/-
Lemmas about reclassification and the selection of the best match.
-/
namespace AS
variable {F : Type}

/-! ### Selection -/

/-- The common shape of the two selection loops. -/
def pickLoop {α : Type} (fo : FloatOps F) (key : α → F) : Nat → F × Option (Nat × α) → List α → F × Option (Nat × α)
  | _, acc, [] => acc
  | i, acc, x :: xs => pickLoop fo key (i + 1) (if fo.lt acc.1 (key x) then (key x, some (i, x)) else acc) xs

theorem pickLoop_spec {α : Type} {fo : FloatOps F} (laws : LtLaws fo) (key : α → F) :
    ∀ (xs : List α) (i : Nat) (b : F) (o : Option (Nat × α)),
      (pickLoop fo key i (b, o) xs = (b, o) ∧ ∀ x ∈ xs, fo.lt b (key x) = false) ∨
      (∃ j x, pickLoop fo key i (b, o) xs = (key x, some (i + j, x)) ∧ xs[j]? = some x ∧ fo.lt b (key x) = true ∧
        (∀ y ∈ xs, fo.lt (key x) (key y) = false) ∧ (∀ j' < j, ∀ y, xs[j']? = some y → key y ≠ key x))
  | [], i, b, o => Or.inl ⟨rfl, by intro x hx; cases hx⟩
  | x :: xs, i, b, o => by
    rw [pickLoop]
    cases hlt : fo.lt b (key x) with
    | true =>
      simp only [↓reduceIte]
      right
      rcases pickLoop_spec laws key xs (i + 1) (key x) (some (i, x)) with ⟨h1, h2⟩ | ⟨j, x', h1, h2, h3, h4, h5⟩
      · refine ⟨0, x, by rw [h1]; rfl, rfl, hlt, ?_, by intro j' hj; omega⟩
        intro y hy
        rcases List.mem_cons.1 hy with rfl | hy
        · exact laws.irrefl _
        · exact h2 y hy
      · refine ⟨j + 1, x', by rw [h1]; simp; omega, h2, laws.trans _ _ _ hlt h3, ?_, ?_⟩
        · intro y hy
          rcases List.mem_cons.1 hy with rfl | hy
          · cases h : fo.lt (key x') (key y) with
            | false => rfl
            | true => 
              have h6 := laws.trans _ _ _ h3 h
              rw [laws.irrefl] at h6
              cases h6
          · exact h4 y hy
        · intro j' hj y hy e
          cases j' with
          | zero =>
            simp only [List.getElem?_cons_zero, Option.some.injEq] at hy
            subst hy
            rw [e, laws.irrefl] at h3
            cases h3
          | succ j' => exact h5 j' (by omega) y hy e
    | false =>
      simp only [Bool.false_eq_true, ↓reduceIte]
      rcases pickLoop_spec laws key xs (i + 1) b o with ⟨h1, h2⟩ | ⟨j, x', h1, h2, h3, h4, h5⟩
      · left
        refine ⟨h1, ?_⟩
        intro y hy
        rcases List.mem_cons.1 hy with rfl | hy
        · exact hlt
        · exact h2 y hy
      · right
        refine ⟨j + 1, x', by rw [h1]; simp; omega, h2, h3, ?_, ?_⟩
        · intro y hy
          rcases List.mem_cons.1 hy with rfl | hy
          · cases h : fo.lt (key x') (key y) with
            | false => rfl
            | true =>
              have h6 := laws.trans _ _ _ h3 h
              rw [hlt] at h6
              cases h6
          · exact h4 y hy
        · intro j' hj y hy e
          cases j' with
          | zero =>
            simp only [List.getElem?_cons_zero, Option.some.injEq] at hy
            subst hy
            rw [e, h3] at hlt
            cases hlt
          | succ j' => exact h5 j' (by omega) y hy e

theorem avgScore_eq (fo : FloatOps F) (p : SearchPath F) : avgScore fo p = average fo p.rules := by
  unfold avgScore average
  rw [List.foldl_map]

/-- State of the selection loop described by a picked element. -/
def bestOf (fo : FloatOps F) (acc : F × Option (Nat × SearchPath F)) : BestState F :=
  match acc.2 with
  | none => ⟨0, acc.1, fo.ofInt (-1)⟩
  | some (i, p) => ⟨i, acc.1, fo.ofInt p.rules.length⟩

theorem bestLoop_eq (fo : FloatOps F) : ∀ (ps : List (SearchPath F)) (i : Nat) (acc : F × Option (Nat × SearchPath F)),
    bestLoop fo i (bestOf fo acc) ps = bestOf fo (pickLoop fo (avgScore fo) i acc ps)
  | [], _, _ => rfl
  | p :: ps, i, acc => by
    rw [bestLoop, pickLoop, ← bestLoop_eq fo ps]
    have h : (bestOf fo acc).bestScore = acc.1 := by
      unfold bestOf; split <;> rfl
    rw [h]
    cases hlt : fo.lt acc.1 (avgScore fo p) <;> simp [bestOf]

/-! ### Reclassification -/

theorem reclassRule_ok : ∀ (is : List InType) (os : List OutType) (ts : List Token) (rest : List InType),
    is.length = os.length → Picks (is ++ rest) (ts.map (·.inclass)) →
    ∃ ts', reclassRule is os ts = some (true, retag ts is os, ts') ∧ Picks rest (ts'.map (·.inclass)) ∧
      (∀ is' os', retag ts (is ++ is') (os ++ os') = retag ts is os ++ retag ts' is' os')
  | [], [], ts, rest, _, h => ⟨ts, by cases ts <;> simp [reclassRule, retag], h, by intro is' os'; cases ts <;> simp [retag]⟩
  | i :: is, o :: os, [], rest, _, h => by cases h
  | i :: is, o :: os, t :: ts, rest, hl, h => by
    rw [List.cons_append, List.map_cons] at h
    cases h with
    | cons hx hp =>
      obtain ⟨ts', h1, h2, h3⟩ := reclassRule_ok is os ts rest (by simpa using hl) hp
      refine ⟨ts', ?_, h2, ?_⟩
      · rw [reclassRule]
        have : t.isInClass i = true := by simpa [Token.isInClass] using hx
        simp only [this, ↓reduceIte, h1, retag]
      · intro is' os'
        simp only [List.cons_append, retag, h3]

theorem reclassRules_ok : ∀ (rs : List (Rule F)) (ts : List Token),
    (∀ r ∈ rs, r.inClass.length = r.outClass.length) → Picks (inputs rs) (ts.map (·.inclass)) →
    reclassRules rs ts = some (true, retag ts (inputs rs) (outputs rs))
  | [], ts, _, h => by
    cases ts with
    | nil => rfl
    | cons t ts => cases h
  | r :: rs, ts, hb, h => by
    have hin : inputs (r :: rs) = r.inClass ++ inputs rs := by simp [inputs]
    have hout : outputs (r :: rs) = r.outClass ++ outputs rs := by simp [outputs]
    rw [hin] at h
    obtain ⟨ts', h1, h2, h3⟩ := reclassRule_ok r.inClass r.outClass ts (inputs rs) (hb r (List.mem_cons_self ..)) h
    have ih := reclassRules_ok rs ts' (fun x hx => hb x (List.mem_cons_of_mem _ hx)) h2
    rw [reclassRules, h1]
    simp only [ih]
    rw [hin, hout, h3]

theorem picks_length {α : Type} : ∀ {p : List α} {ss : List (List α)}, Picks p ss → p.length = ss.length
  | _, _, .nil => rfl
  | _, _, .cons _ h => by simp [picks_length h]

theorem foldl_count (rs : List (Rule F)) : ∀ n : Nat,
    rs.foldl (fun n r => n + r.inClass.length) n = n + (inputs rs).length := by
  induction rs with
  | nil => intro n; simp [inputs]
  | cons r rs ih =>
    intro n
    rw [List.foldl_cons, ih]
    simp [inputs]; omega

theorem reclassTokens_ok (phrase : List Token) (p : SearchPath F)
    (hb : ∀ r ∈ p.rules, r.inClass.length = r.outClass.length) (hp : Picks (inputs p.rules) (phrase.map (·.inclass))) :
    reclassTokens phrase p = some (true, retag phrase (inputs p.rules) (outputs p.rules)) := by
  unfold reclassTokens
  have hlen := picks_length hp
  rw [List.length_map] at hlen
  rw [foldl_count, Nat.zero_add, hlen, if_neg (by simp)]
  exact reclassRules_ok p.rules phrase hb hp

theorem reclassRule_append : ∀ (is : List InType) (os : List OutType) (is' : List InType) (os' : List OutType) (ts : List Token),
    is.length = os.length → reclassRule (is ++ is') (os ++ os') ts =
      match reclassRule is os ts with
      | none => none
      | some (false, d, r) => some (false, d, r)
      | some (true, d, r) =>
        match reclassRule is' os' r with
        | none => none
        | some (b, d', r') => some (b, d ++ d', r')
  | [], [], is', os', ts, _ => by
    simp only [List.nil_append]
    cases ts <;> simp only [reclassRule] <;> (split <;> simp_all)
  | i :: is, o :: os, is', os', [], _ => by simp [reclassRule]
  | i :: is, o :: os, is', os', t :: ts, hl => by
    rw [List.cons_append, List.cons_append, reclassRule, reclassRule]
    by_cases h : t.isInClass i = true
    · rw [if_pos h, if_pos h, reclassRule_append is os is' os' ts (by simpa using hl)]
      cases reclassRule is os ts with
      | none => rfl
      | some x =>
        obtain ⟨b, d, r⟩ := x
        cases b with
        | false => rfl
        | true =>
          simp only
          cases reclassRule is' os' r with
          | none => rfl
          | some y => rfl
    · rw [if_neg h, if_neg h]

theorem reclassRules_eq : ∀ (rs : List (Rule F)) (ts : List Token), (∀ r ∈ rs, r.inClass.length = r.outClass.length) →
    reclassRules rs ts = (reclassRule (inputs rs) (outputs rs) ts).map (fun x => (x.1, x.2.1 ++ x.2.2))
  | [], ts, _ => by cases ts <;> simp [reclassRules, inputs, outputs, reclassRule]
  | r :: rs, ts, hb => by
    have hin : inputs (r :: rs) = r.inClass ++ inputs rs := by simp [inputs]
    have hout : outputs (r :: rs) = r.outClass ++ outputs rs := by simp [outputs]
    rw [reclassRules, hin, hout, reclassRule_append _ _ _ _ _ (hb r (List.mem_cons_self ..))]
    split
    · next h => rw [h]; rfl
    · next h => rw [h]; rfl
    · next d rest h =>
      rw [h]
      simp only
      rw [reclassRules_eq rs rest (fun x hx => hb x (List.mem_cons_of_mem _ hx))]
      cases reclassRule (inputs rs) (outputs rs) rest with
      | none => rfl
      | some x => obtain ⟨b, d', r'⟩ := x; simp

theorem reclassRule_mismatch (n : Nat) : ∀ (is : List InType) (os : List OutType) (ts : List Token) (i : InType) (t : Token),
    is.length = os.length → Picks (is.take n) ((ts.take n).map (·.inclass)) → is[n]? = some i → ts[n]? = some t → i ∉ t.inclass →
    reclassRule is os ts = some (false, retag (ts.take n) (is.take n) (os.take n), ts.drop n) := by
  induction n with
  | zero =>
    intro is os ts i t hl hp h1 h2 h3
    match is, os, ts, hl, h1, h2 with
    | j :: is, o :: os, u :: ts, _, h1, h2 =>
      simp only [List.getElem?_cons_zero, Option.some.injEq] at h1 h2
      subst h1 h2
      have : u.isInClass j = false := by simpa [Token.isInClass] using h3
      rw [reclassRule]
      simp [this, retag]
  | succ n ih =>
    intro is os ts i t hl hp h1 h2 h3
    match is, os, ts, hl, hp, h1, h2 with
    | j :: is, o :: os, u :: ts, hl, hp, h1, h2 =>
      simp only [List.getElem?_cons_succ] at h1 h2
      simp only [List.take_succ_cons, List.map_cons] at hp
      cases hp with
      | cons hx hp =>
        have : u.isInClass j = true := by simpa [Token.isInClass] using hx
        rw [reclassRule]
        simp only [this, ↓reduceIte, ih is os ts i t (by simpa using hl) hp h1 h2 h3, List.take_succ_cons, retag,
          List.drop_succ_cons]

/-- All rules of a derivation are rules of the grammar. -/
theorem derives_rules {G : Grammar F} : ∀ {ss : List Str} {rs : List (Rule F)} {m : Nat},
    Derives G ss rs m → ∀ r ∈ rs, ∃ sec ∈ G.rules, r ∈ sec.rules
  | _, _, _, .done, r, hr => by cases hr
  | _, _, _, .rule h1 _ h3 hd, r, hr => by
    rcases List.mem_cons.1 hr with rfl | hr
    · exact ⟨_, h1, h3⟩
    · exact derives_rules hd r hr
  | _, _, _, .expand _ _ _ hd, r, hr => derives_rules hd r hr

theorem derives_nonempty {G : Grammar F} (wf : WfGrammar G) : ∀ {ss : List Str} {rs : List (Rule F)} {m : Nat},
    Derives G ss rs m → ss ≠ [] → rs ≠ []
  | _, _, _, .done, h => absurd rfl h
  | _, _, _, .rule _ _ _ _, _ => by simp
  | _, _, _, .expand h1 _ h3 hd, _ => by
    refine derives_nonempty wf hd ?_
    intro e
    have := (List.append_eq_nil_iff.1 e).1
    exact wf.nonempty _ h1 _ h3 (List.map_eq_nil_iff.1 this)

theorem search_balanced {G : Grammar F} (wf : WfGrammar G) (hb : Balanced G) (node : Str) (phrase : List Token)
    (results : List (SearchPath F)) (h : search G node phrase = .ok results) (p : SearchPath F) (hp : p ∈ results) :
    (∀ r ∈ p.rules, r.inClass.length = r.outClass.length) ∧ Picks (inputs p.rules) (phrase.map (·.inclass)) ∧ p.rules ≠ [] := by
  obtain ⟨ps, hps, hpick⟩ := Token.enumerate_picks phrase
  rcases search_spec wf node phrase ps hps with ⟨r, h', _, hmem⟩ | ⟨h', _⟩
  · rw [h] at h'
    cases h'
    obtain ⟨rs, m, hd, _, hin, rfl⟩ := (hmem p).1 hp
    refine ⟨?_, hpick _ hin, derives_nonempty wf hd (by simp)⟩
    intro r hr
    obtain ⟨sec, h1, h2⟩ := derives_rules hd r hr
    exact hb sec h1 r h2
  · rw [h] at h'; cases h'

/-! ### The pattern text -/

theorem toStringIn_eq : ∀ (ts : List Token) (out : Str),
    toStringIn out ts = out ++ ts.flatMap (fun t => InType.setAsString t.inclass ++ c!" ")
  | [], out => by simp [toStringIn]
  | t :: ts, out => by rw [toStringIn, toStringIn_eq ts]; simp

theorem toStringOut_eq : ∀ (ts : List Token) (out : Str),
    toStringOut out ts = out ++ ts.flatMap (fun t => t.outclass.asString ++ c!" ")
  | [], out => by simp [toStringOut]
  | t :: ts, out => by rw [toStringOut, toStringOut_eq ts]; simp

theorem joinWith_blank_cons (x : Str) : ∀ xs : List Str, xs ≠ [] →
    joinWith c!" " (x :: xs) = x ++ c!" " ++ joinWith c!" " xs
  | [], h => absurd rfl h
  | _ :: _, _ => rfl

theorem joinWith_blank : ∀ (xs : List Str), xs ≠ [] →
    joinWith c!" " xs ++ c!" " = xs.flatMap (fun x => x ++ c!" ")
  | [], h => absurd rfl h
  | [x], _ => by simp [joinWith]
  | x :: y :: ys, _ => by
    rw [joinWith_blank_cons x (y :: ys) (by simp), List.append_assoc, joinWith_blank (y :: ys) (by simp),
      List.flatMap_cons (x := x)]

theorem searchToString_eq (ts : List Token) : searchToString ts = patternText ts := by
  unfold searchToString patternText
  rw [toStringOut_eq, toStringIn_eq]
  have h := joinWith_blank (ts.map (fun t => InType.setAsString t.inclass) ++ [c!"->"] ++
    ts.map (fun t => t.outclass.asString)) (by simp)
  rw [← List.dropLast_concat (l₁ := joinWith _ _) (b := ' '), h]
  simp [List.flatMap_append, List.flatMap_map]

end AS
