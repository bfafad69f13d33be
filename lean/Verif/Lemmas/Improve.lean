import Verif.Lemmas.Simulate
import Verif.Lemmas.Best
import Verif.Lemmas.GrammarText
import Verif.Spec.Improve
/-
Searching in an improved grammar: what is found without new rules is found before, and what precedes it
precedes it, in improved form, also afterwards.
-/
namespace AS
open AS.Wrapper
variable {F : Type} {fo : FloatOps F} {New : Rule F → Prop}

/-- The rules, some of them replaced by new ones. -/
inductive RulesUp (fo : FloatOps F) (New : Rule F → Prop) : List (Rule F) → List (Rule F) → Prop
  | nil : RulesUp fo New [] []
  | same {r : Rule F} {rs rs' : List (Rule F)} : RulesUp fo New rs rs' → RulesUp fo New (r :: rs) (r :: rs')
  | changed {r r' : Rule F} {rs rs' : List (Rule F)} : New r' → AtMost fo r.score r'.score →
      RulesUp fo New rs rs' → RulesUp fo New (r :: rs) (r' :: rs')

theorem RulesUp.refl : ∀ rs : List (Rule F), RulesUp fo New rs rs
  | [] => .nil
  | _ :: rs => .same (RulesUp.refl rs)

theorem RulesUp.append {a a' b b' : List (Rule F)} (h : RulesUp fo New a a') (h' : RulesUp fo New b b') :
    RulesUp fo New (a ++ b) (a' ++ b') := by
  induction h with
  | nil => exact h'
  | same _ ih => exact .same ih
  | changed h1 h2 _ ih => exact .changed h1 h2 ih

theorem RulesUp.eq {a a' : List (Rule F)} (h : RulesUp fo New a a') (hk : ∀ r ∈ a', ¬ New r) : a = a' := by
  induction h with
  | nil => rfl
  | same _ ih => rw [ih (fun r hr => hk r (List.mem_cons_of_mem _ hr))]
  | changed h1 _ _ _ => exact absurd h1 (hk _ List.mem_cons_self)

theorem RulesUp.length {a a' : List (Rule F)} (h : RulesUp fo New a a') : a.length = a'.length := by
  induction h with
  | nil => rfl
  | same _ ih => simp [ih]
  | changed _ _ _ ih => simp [ih]

/-- The path, with some of its rules replaced by new ones. -/
def PathUp (fo : FloatOps F) (New : Rule F → Prop) (p p' : SearchPath F) : Prop :=
  p.next = p'.next ∧ p.remaining = p'.remaining ∧ RulesUp fo New p.rules p'.rules

theorem PathUp.refl (p : SearchPath F) : PathUp fo New p p := ⟨rfl, rfl, .refl _⟩

/-- Without new rules. -/
def Keep (New : Rule F → Prop) (p : SearchPath F) : Prop := ∀ r ∈ p.rules, ¬ New r

theorem PathUp.eq {p p' : SearchPath F} (h : PathUp fo New p p') (hk : Keep New p') : p = p' := by
  obtain ⟨h1, h2, h3⟩ := h
  have := h3.eq hk
  cases p; cases p'
  simp only at *
  rw [h1, h2, this]

/-- How the paths found in a grammar compare with those found in the improved one. -/
def Ranked (fo : FloatOps F) (New : Rule F → Prop) (l l' : List (SearchPath F)) : Prop :=
  (∀ q ∈ l, ∃ q' ∈ l', PathUp fo New q q') ∧
  ∀ a' p b', l' = a' ++ p :: b' → Keep New p → ∃ a b, l = a ++ p :: b ∧ ∀ q ∈ a, ∃ q' ∈ a', PathUp fo New q q'

theorem Ranked.nil : Ranked fo New [] [] := ⟨by simp, by intro a' p b' h; simp at h⟩

theorem Ranked.append {l1 l1' l2 l2' : List (SearchPath F)} (h1 : Ranked fo New l1 l1') (h2 : Ranked fo New l2 l2') :
    Ranked fo New (l1 ++ l2) (l1' ++ l2') := by
  constructor
  · intro q hq
    rcases List.mem_append.1 hq with hq | hq
    · obtain ⟨q', h, u⟩ := h1.1 q hq
      exact ⟨q', List.mem_append_left _ h, u⟩
    · obtain ⟨q', h, u⟩ := h2.1 q hq
      exact ⟨q', List.mem_append_right _ h, u⟩
  · intro a' p b' e hk
    rcases List.append_eq_append_iff.1 e with ⟨c, e1, e2⟩ | ⟨c, e1, e2⟩
    · obtain ⟨a, b, k1, k2⟩ := h2.2 c p b' e2 hk
      refine ⟨l1 ++ a, b, by rw [k1, List.append_assoc], ?_⟩
      intro q hq
      rw [e1]
      rcases List.mem_append.1 hq with hq | hq
      · obtain ⟨q', h, u⟩ := h1.1 q hq
        exact ⟨q', List.mem_append_left _ h, u⟩
      · obtain ⟨q', h, u⟩ := k2 q hq
        exact ⟨q', List.mem_append_right _ h, u⟩
    · cases c with
      | nil =>
        simp only [List.append_nil, List.nil_append] at e1 e2
        obtain ⟨a, b, k1, k2⟩ := h2.2 [] p b' e2.symm hk
        refine ⟨l1 ++ a, b, by rw [k1, List.append_assoc], ?_⟩
        intro q hq
        rcases List.mem_append.1 hq with hq | hq
        · rw [← e1]; exact h1.1 q hq
        · obtain ⟨q', h, _⟩ := k2 q hq
          cases h
      | cons x c =>
        simp only [List.cons_append, List.cons.injEq] at e2
        obtain ⟨rfl, rfl⟩ := e2
        obtain ⟨a, b, k1, k2⟩ := h1.2 a' p c e1 hk
        exact ⟨a, b ++ l2, by rw [k1, List.append_assoc]; rfl, k2⟩

theorem Ranked.single {x x' : SearchPath F} (h : PathUp fo New x x') : Ranked fo New [x] [x'] := by
  constructor
  · intro q hq
    rw [List.mem_singleton.1 hq]
    exact ⟨x', List.mem_singleton_self _, h⟩
  · intro a' p b' e hk
    cases a' with
    | nil =>
      simp only [List.nil_append, List.cons.injEq] at e
      obtain ⟨rfl, _⟩ := e
      exact ⟨[], [], by rw [h.eq hk]; rfl, by simp⟩
    | cons y a' => simp at e

theorem Ranked.new {l' : List (SearchPath F)} (h : ∀ p ∈ l', ¬ Keep New p) : Ranked fo New [] l' := by
  refine ⟨by simp, ?_⟩
  intro a' p b' e hk
  exact absurd hk (h p (by rw [e]; simp))

theorem Ranked.mem {l l' : List (SearchPath F)} (h : Ranked fo New l l') {p : SearchPath F} (hp : p ∈ l') (hk : Keep New p) :
    p ∈ l := by
  obtain ⟨a, b, e⟩ := List.append_of_mem hp
  obtain ⟨a', b', e', _⟩ := h.2 a p b e hk
  rw [e']; simp

/-- Collecting from the same things. -/
theorem Ranked.collect {α : Type} {f f' : α → Option (List (SearchPath F))} : ∀ {xs : List α} {l l' : List (SearchPath F)},
    (∀ x ∈ xs, ∀ z z', f x = some z → f' x = some z' → Ranked fo New z z') → flatMapM f xs = some l → flatMapM f' xs = some l' →
    Ranked fo New l l'
  | [], l, l', _, h, h' => by cases h; cases h'; exact .nil
  | x :: xs, l, l', hr, h, h' => by
    rw [flatMapM] at h h'
    cases hx : f x with
    | none => rw [hx] at h; cases h
    | some z =>
      cases hx' : f' x with
      | none => rw [hx'] at h'; cases h'
      | some z' =>
        rw [hx] at h
        rw [hx'] at h'
        simp only at h h'
        cases hz : flatMapM f xs with
        | none => rw [hz] at h; cases h
        | some y =>
          cases hz' : flatMapM f' xs with
          | none => rw [hz'] at h'; cases h'
          | some y' =>
            rw [hz] at h
            rw [hz'] at h'
            cases h
            cases h'
            exact (hr x List.mem_cons_self z z' hx hx').append
              (Ranked.collect (fun y hy => hr y (List.mem_cons_of_mem _ hy)) hz hz')

theorem flatMapM_split {α β : Type} {f : α → Option (List β)} : ∀ {xs : List α} {l : List β} {a : List β} {p : β} {b : List β},
    flatMapM f xs = some l → l = a ++ p :: b →
    ∃ u x v c d, xs = u ++ x :: v ∧ f x = some (c ++ p :: d) ∧ ∃ w, flatMapM f u = some w ∧ a = w ++ c
  | [], l, a, p, b, h, e => by cases h; simp at e
  | x :: xs, l, a, p, b, h, e => by
    rw [flatMapM] at h
    cases hx : f x with
    | none => rw [hx] at h; cases h
    | some z =>
      rw [hx] at h
      simp only at h
      cases hz : flatMapM f xs with
      | none => rw [hz] at h; cases h
      | some y =>
        rw [hz] at h
        cases h
        have later : ∀ c, a = z ++ c → y = c ++ p :: b → ∃ u x' v c d, x :: xs = u ++ x' :: v ∧ f x' = some (c ++ p :: d) ∧
            ∃ w, flatMapM f u = some w ∧ a = w ++ c := by
          intro c e1 e2
          obtain ⟨u, x', v, c', d, k1, k2, w, k3, k4⟩ := flatMapM_split hz e2
          refine ⟨x :: u, x', v, c', d, by rw [k1]; rfl, k2, z ++ w, ?_, ?_⟩
          · rw [flatMapM, hx]; simp only [k3]
          · rw [e1, k4, List.append_assoc]
        rcases List.append_eq_append_iff.1 e with ⟨c, e1, e2⟩ | ⟨c, e1, e2⟩
        · exact later c e1 e2
        · cases c with
          | nil =>
            simp only [List.append_nil, List.nil_append] at e1 e2
            exact later [] (by rw [List.append_nil]; exact e1.symm) e2.symm
          | cons t c =>
            simp only [List.cons_append, List.cons.injEq] at e2
            obtain ⟨rfl, rfl⟩ := e2
            exact ⟨[], x, xs, a, c, rfl, by rw [hx, e1], [], rfl, rfl⟩

/-- Collecting from ranked paths. -/
theorem Ranked.bind {f f' : SearchPath F → Option (List (SearchPath F))} {xs xs' l l' : List (SearchPath F)}
    (hx : Ranked fo New xs xs')
    (hr : ∀ x ∈ xs, ∀ x' ∈ xs', PathUp fo New x x' → ∀ z z', f x = some z → f' x' = some z' → Ranked fo New z z')
    (hk : ∀ x' ∈ xs', ∀ z', f' x' = some z' → ∀ p ∈ z', Keep New p → Keep New x')
    (h : flatMapM f xs = some l) (h' : flatMapM f' xs' = some l') : Ranked fo New l l' := by
  constructor
  · intro q hq
    obtain ⟨x, hx1, z, hz, hqz⟩ := (flatMapM_some h q).1 hq
    obtain ⟨x', hx', u⟩ := hx.1 x hx1
    obtain ⟨z', hz'⟩ := flatMapM_each h' x' hx'
    obtain ⟨q', hq', u'⟩ := (hr x hx1 x' hx' u z z' hz hz').1 q hqz
    exact ⟨q', (flatMapM_some h' q').2 ⟨x', hx', z', hz', hq'⟩, u'⟩
  · intro a' p b' e hkp
    obtain ⟨u, x', v, c', d', k1, k2, w', k3, k4⟩ := flatMapM_split h' e
    have hx' : x' ∈ xs' := by rw [k1]; simp
    have hkx := hk x' hx' _ k2 p (by simp) hkp
    obtain ⟨s, t, e1, e2⟩ := hx.2 u x' v k1 hkx
    have hxs : x' ∈ xs := by rw [e1]; simp
    obtain ⟨z, hz⟩ := flatMapM_each h x' hxs
    obtain ⟨c, d, j1, j2⟩ := (hr x' hxs x' hx' (.refl _) z _ hz k2).2 c' p d' rfl hkp
    -- what is collected from `s`, then `z`, then the rest
    obtain ⟨w, hw⟩ := flatMapM_isSome (f := f) s (fun y hy => flatMapM_each h y (by rw [e1]; simp [hy]))
    obtain ⟨y, hy⟩ := flatMapM_isSome (f := f) t (fun y hy => flatMapM_each h y (by rw [e1]; simp [hy]))
    have hl : l = w ++ (z ++ y) := by
      have : ∀ (s : List (SearchPath F)) (w : List (SearchPath F)), flatMapM f s = some w →
          flatMapM f (s ++ x' :: t) = some (w ++ (z ++ y)) := by
        intro s
        induction s with
        | nil =>
          intro w hw
          cases hw
          rw [List.nil_append, flatMapM, hz]
          simp only [hy, List.nil_append]
        | cons m s ih =>
          intro w hw
          rw [flatMapM] at hw
          rw [List.cons_append, flatMapM]
          cases hm : f m with
          | none => rw [hm] at hw; cases hw
          | some n =>
            rw [hm] at hw
            simp only at hw ⊢
            cases hs : flatMapM f s with
            | none => rw [hs] at hw; cases hw
            | some n' =>
              rw [hs] at hw
              cases hw
              rw [ih n' hs]
              simp
      have k := this s w hw
      rw [← e1, h] at k
      exact Option.some.inj k
    refine ⟨w ++ c, d ++ y, by rw [hl, j1]; simp, ?_⟩
    intro q hq
    rw [k4]
    rcases List.mem_append.1 hq with hq | hq
    · obtain ⟨m, hm, zm, hzm, hqm⟩ := (flatMapM_some hw q).1 hq
      obtain ⟨m', hm', um⟩ := e2 m hm
      obtain ⟨zm', hzm'⟩ := flatMapM_each k3 m' hm'
      obtain ⟨q', hq', u'⟩ := (hr m (by rw [e1]; simp [hm]) m' (by rw [k1]; simp [hm']) um zm zm' hzm hzm').1 q hqm
      exact ⟨q', List.mem_append_left _ ((flatMapM_some k3 q').2 ⟨m', hm', zm', hzm', hq'⟩), u'⟩
    · obtain ⟨q', hq', u'⟩ := j2 q hq
      exact ⟨q', List.mem_append_right _ hq', u'⟩

theorem first_prefix {α : Type} {p : α} : ∀ {c d a b : List α}, p ∉ c → c ++ p :: d = a ++ p :: b → ∀ x ∈ c, x ∈ a
  | [], _, _, _, _, _ => by simp
  | y :: c, d, [], b, hp, e => by
    simp only [List.cons_append, List.nil_append, List.cons.injEq] at e
    exact absurd (List.mem_cons.2 (Or.inl e.1.symm)) hp
  | y :: c, d, z :: a, b, hp, e => by
    simp only [List.cons_append, List.cons.injEq] at e
    obtain ⟨rfl, e⟩ := e
    have ih := first_prefix (fun h => hp (List.mem_cons_of_mem _ h)) e
    intro x hx
    rcases List.mem_cons.1 hx with rfl | hx
    · exact List.mem_cons_self
    · exact List.mem_cons_of_mem _ (ih x hx)

/-- Repetitions do not matter. -/
theorem Ranked.repeat {m m' s s' : List (SearchPath F)} (h : Ranked fo New m m') (hs : ∀ x ∈ s, x ∈ m) (hs' : ∀ x ∈ s', x ∈ m') :
    Ranked fo New (m ++ s) (m' ++ s') := by
  constructor
  · intro q hq
    have : q ∈ m := (List.mem_append.1 hq).elim id (hs q)
    obtain ⟨q', hq', u⟩ := h.1 q this
    exact ⟨q', List.mem_append_left _ hq', u⟩
  · intro a' p b' e hk
    have hp : p ∈ m' := by
      have : p ∈ m' ++ s' := by rw [e]; simp
      exact (List.mem_append.1 this).elim id (hs' p)
    obtain ⟨c', d', e1, hn⟩ := List.eq_append_cons_of_mem hp
    obtain ⟨a, b, k1, k2⟩ := h.2 c' p d' e1 hk
    refine ⟨a, b ++ s, by rw [k1]; simp, ?_⟩
    intro q hq
    obtain ⟨q', hq', u⟩ := k2 q hq
    exact ⟨q', first_prefix (d := d' ++ s') (b := b') hn (by rw [← e, e1]; simp) q' hq', u⟩

theorem Ranked.filter {l l' : List (SearchPath F)} (h : Ranked fo New l l') (f : SearchPath F → Bool)
    (hf : ∀ p p', PathUp fo New p p' → f p = f p') : Ranked fo New (l.filter f) (l'.filter f) := by
  constructor
  · intro q hq
    obtain ⟨h1, h2⟩ := List.mem_filter.1 hq
    obtain ⟨q', hq', u⟩ := h.1 q h1
    exact ⟨q', List.mem_filter.2 ⟨hq', by rw [← hf q q' u]; exact h2⟩, u⟩
  · intro a' p b' e hk
    obtain ⟨u, v, e1, e2, e3⟩ := List.filter_eq_append_iff.1 e
    obtain ⟨v1, v2, f1, f2, f3, f4⟩ := List.filter_eq_cons_iff.1 e3
    obtain ⟨a, b, k1, k2⟩ := h.2 (u ++ v1) p v2 (by rw [e1, f1]; simp) hk
    refine ⟨a.filter f, b.filter f, by rw [k1]; simp [f3], ?_⟩
    intro q hq
    obtain ⟨h1, h2⟩ := List.mem_filter.1 hq
    obtain ⟨q', hq', w⟩ := k2 q h1
    refine ⟨q', ?_, w⟩
    have hfq : f q' = true := by rw [← hf q q' w]; exact h2
    rcases List.mem_append.1 hq' with hq' | hq'
    · rw [← e2]; exact List.mem_filter.2 ⟨hq', hfq⟩
    · exact absurd hfq (f2 q' hq')

/-! ### Rules -/

theorem matchRules_cons (path : SearchPath F) (r : Rule F) (rs : List (Rule F)) :
    (∃ rest, path.remaining = r.inClass ++ rest ∧
      matchRules path (r :: rs) = { path with rules := path.rules ++ [r], remaining := rest } :: matchRules path rs) ∨
    ((∀ rest, path.remaining ≠ r.inClass ++ rest) ∧ matchRules path (r :: rs) = matchRules path rs) := by
  rw [matchRules]
  by_cases h : ∃ rest, path.remaining = r.inClass ++ rest
  · obtain ⟨rest, h⟩ := h
    left
    refine ⟨rest, h, ?_⟩
    have hm : matchRule r path = { path with rules := path.rules ++ [r], remaining := rest } := by
      unfold matchRule
      rw [if_neg (by rw [h]; simp), (matchPrefix_iff _ _ _).2 h]
    rw [hm]
    simp
  · right
    have h' : ∀ rest, path.remaining ≠ r.inClass ++ rest := fun rest e => h ⟨rest, e⟩
    refine ⟨h', ?_⟩
    have hm : matchRule r path = {} := by
      unfold matchRule
      split
      · rfl
      · cases hp : matchPrefix r.inClass path.remaining with
        | none => rfl
        | some rest => exact absurd ((matchPrefix_iff _ _ _).1 hp) (h' rest)
    rw [hm]
    simp

theorem Ranked.rules {rs rs' : List (Rule F)} (h : Improved fo New rs rs') {path path' : SearchPath F}
    (hp : PathUp fo New path path') : Ranked fo New (matchRules path rs) (matchRules path' rs') := by
  obtain ⟨h1, h2, h3⟩ := hp
  induction h with
  | nil => exact .nil
  | @same r rs rs' _ ih =>
    rcases matchRules_cons path r rs with ⟨rest, e1, e2⟩ | ⟨e1, e2⟩
    · rcases matchRules_cons path' r rs' with ⟨rest', e1', e2'⟩ | ⟨e1', e2'⟩
      · rw [e2, e2']
        have hrest : rest = rest' := by
          rw [h2, e1'] at e1
          exact (List.append_cancel_left e1).symm
        exact Ranked.append (l1 := [_]) (l1' := [_]) (.single ⟨h1, hrest, h3.append (.refl _)⟩) ih
      · exact absurd (h2 ▸ e1) (e1' rest)
    · rcases matchRules_cons path' r rs' with ⟨rest', e1', e2'⟩ | ⟨e1', e2'⟩
      · exact absurd (h2.symm ▸ e1') (e1 rest')
      · rw [e2, e2']; exact ih
  | @added r rs rs' hr _ ih =>
    rcases matchRules_cons path' r rs' with ⟨rest', e1', e2'⟩ | ⟨e1', e2'⟩
    · rw [e2']
      refine Ranked.append (l1 := []) (l1' := [_]) (.new ?_) ih
      intro p hp hk
      rw [List.mem_singleton.1 hp] at hk
      exact hk r (by simp) hr
    · rw [e2']; exact ih
  | @changed r r' rs rs' hr hc hs _ ih =>
    rcases matchRules_cons path r rs with ⟨rest, e1, e2⟩ | ⟨e1, e2⟩
    · rcases matchRules_cons path' r' rs' with ⟨rest', e1', e2'⟩ | ⟨e1', e2'⟩
      · rw [e2, e2']
        have hrest : rest = rest' := by
          rw [h2, e1', hc] at e1
          exact (List.append_cancel_left e1).symm
        exact Ranked.append (l1 := [_]) (l1' := [_]) (.single ⟨h1, hrest, h3.append (.changed hr hs .nil)⟩) ih
      · exact absurd (h2 ▸ hc ▸ e1) (e1' rest)
    · rcases matchRules_cons path' r' rs' with ⟨rest', e1', e2'⟩ | ⟨e1', e2'⟩
      · exact absurd (h2.symm ▸ hc ▸ e1') (e1 rest')
      · rw [e2, e2']; exact ih

/-! ### Searching by names -/

/-- The names stand for the same meta sections and for improved rule sections. -/
def LookUp (fo : FloatOps F) (New : Rule F → Prop) (L K : Look F) : Prop :=
  ∀ s, L.metas s = K.metas s ∧ ((L.rules s = none ∧ ∀ rs', K.rules s = some rs' → ∀ r ∈ rs', New r) ∨
    ∃ rs rs', L.rules s = some rs ∧ K.rules s = some rs' ∧ Improved fo New rs rs')

theorem nMatchPath_shape (L : Look F) (limit : Nat) (mnext : SearchPath F → Nat → Option (List (SearchPath F)))
    (hn : ∀ path level l, mnext path level = some l → ∀ p ∈ l, p.next = [] ∧ ∃ more, p.rules = path.rules ++ more)
    (s : Str) (path : SearchPath F) (level : Nat) (l : List (SearchPath F))
    (h : nMatchPath L limit mnext s path level = some l) :
    ∀ p ∈ l, p.next = (if (L.metas s).isSome then [] else path.next) ∧ ∃ more, p.rules = path.rules ++ more := by
  unfold nMatchPath at h
  split at h
  · cases h; simp
  · cases hm : L.metas s with
    | some v =>
      rw [hm] at h
      simp only at h
      intro p hp
      obtain ⟨refs, _, z, hz, hpz⟩ := (flatMapM_some h p).1 hp
      split at hz
      · obtain ⟨k1, k2⟩ := hn _ _ _ hz p hpz
        exact ⟨by simpa using k1, k2⟩
      · cases hz; cases hpz
    | none =>
      rw [hm] at h
      simp only at h
      cases hr : L.rules s with
      | none => rw [hr] at h; cases h; simp
      | some rs =>
        rw [hr] at h
        cases h
        intro p hp
        obtain ⟨r, _, rest, _, rfl⟩ := (mem_matchRules path rs p).1 hp
        exact ⟨by simp, [r], rfl⟩

theorem nMatchNext_shape (L : Look F) (limit : Nat) : ∀ (fuel : Nat) (path : SearchPath F) (level : Nat)
    (l : List (SearchPath F)), nMatchNext L limit fuel path level = some l →
    ∀ p ∈ l, p.next = [] ∧ ∃ more, p.rules = path.rules ++ more
  | 0, _, _, _, h => by cases h
  | fuel + 1, path, level, l, h => by
    have ih := nMatchNext_shape L limit fuel
    rw [nMatchNext] at h
    split at h
    · cases h; simp
    · rename_i ptr rest hnext
      split at h
      · cases h
      · rename_i mr hmr
        have hs := nMatchPath_shape L limit _ ih _ _ _ mr hmr
        intro p hp
        obtain ⟨x, hx, z, hz, hpz⟩ := (flatMapM_some h p).1 hp
        split at hz
        · unfold matchNextAll at hz
          obtain ⟨y, hy, w, hw, hpw⟩ := (flatMapM_some hz p).1 hpz
          split at hw
          · obtain ⟨k1, m1, k2⟩ := ih _ _ _ hw p hpw
            obtain ⟨_, m2, k3⟩ := hs y hy
            exact ⟨k1, m2 ++ m1, by rw [k2, k3]; simp⟩
          · cases hw; cases hpw
        · cases hz
          rename_i hlen
          rw [List.mem_singleton.1 hpz]
          refine ⟨?_, (hs x hx).2⟩
          exact List.length_eq_zero_iff.1 (by omega)

theorem keep_of_extends {p q : SearchPath F} (h : ∃ more, p.rules = q.rules ++ more) (hk : Keep New p) : Keep New q := by
  obtain ⟨more, e⟩ := h
  intro r hr
  exact hk r (by rw [e]; exact List.mem_append_left _ hr)

theorem Ranked.path {L K : Look F} (hl : LookUp fo New L K) (limit : Nat)
    {mL mK : SearchPath F → Nat → Option (List (SearchPath F))}
    (ih : ∀ p p' level l l', PathUp fo New p p' → mL p level = some l → mK p' level = some l' → Ranked fo New l l')
    (s : Str) {path path' : SearchPath F} (hp : PathUp fo New path path') (level : Nat) {l l' : List (SearchPath F)}
    (h : nMatchPath L limit mL s path level = some l) (h' : nMatchPath K limit mK s path' level = some l') :
    Ranked fo New l l' := by
  obtain ⟨hm, hr⟩ := hl s
  unfold nMatchPath at h h'
  by_cases hlev : level > limit
  · rw [if_pos hlev] at h h'
    cases h; cases h'; exact .nil
  · rw [if_neg hlev] at h h'
    rw [← hm] at h'
    cases hv : L.metas s with
    | some v =>
      rw [hv] at h h'
      simp only at h h'
      refine Ranked.collect ?_ h h'
      intro refs _ z z' hz hz'
      obtain ⟨h1, h2, h3⟩ := hp
      rw [← h1] at hz'
      split at hz
      · rename_i hlen
        rw [if_pos hlen] at hz'
        refine ih _ _ _ _ _ ?_ hz hz'
        exact ⟨rfl, h2, h3⟩
      · rename_i hlen
        rw [if_neg hlen] at hz'
        cases hz; cases hz'; exact .nil
    | none =>
      rw [hv] at h h'
      simp only at h h'
      rcases hr with ⟨e1, e2⟩ | ⟨rs, rs', e1, e2, hi⟩
      · rw [e1] at h
        cases h
        cases hk : K.rules s with
        | none => rw [hk] at h'; cases h'; exact .nil
        | some rs' =>
          rw [hk] at h'
          cases h'
          refine .new ?_
          intro p hp' hkeep
          obtain ⟨r, hr', rest, _, rfl⟩ := (mem_matchRules path' rs' p).1 hp'
          exact hkeep r (by simp) (e2 rs' hk r hr')
      · rw [e1] at h; rw [e2] at h'
        cases h; cases h'; exact .rules hi hp

theorem Ranked.next {L K : Look F} (hl : LookUp fo New L K) (limit : Nat) : ∀ (fuel : Nat) (path path' : SearchPath F)
    (level : Nat) (l l' : List (SearchPath F)), PathUp fo New path path' → nMatchNext L limit fuel path level = some l →
    nMatchNext K limit fuel path' level = some l' → Ranked fo New l l'
  | 0, _, _, _, _, _, _, h, _ => by cases h
  | fuel + 1, path, path', level, l, l', hp, h, h' => by
    have ih := Ranked.next hl limit fuel
    obtain ⟨h1, h2, h3⟩ := hp
    rw [nMatchNext] at h h'
    rw [← h1] at h'
    cases hn : path.next with
    | nil => rw [hn] at h h'; cases h; cases h'; exact .nil
    | cons ptr rest =>
      rw [hn] at h h'
      simp only at h h'
      split at h
      · cases h
      · rename_i mr hmr
        split at h'
        · cases h'
        · rename_i mr' hmr'
          have hR := Ranked.path hl limit ih ptr.name (path := { path with next := rest }) (path' := { path' with next := rest })
            ⟨rfl, h2, h3⟩ (level + 1) hmr hmr'
          have s1 := nMatchPath_shape L limit _ (nMatchNext_shape L limit fuel) _ _ _ mr hmr
          have s2 := nMatchPath_shape K limit _ (nMatchNext_shape K limit fuel) _ _ _ mr' hmr'
          rw [← (hl ptr.name).1] at s2
          simp only at s1 s2
          generalize hnx : (if (L.metas ptr.name).isSome = true then [] else rest) = nx at s1 s2
          cases nx with
          | nil =>
            have e1 : flatMapM (fun result => if result.next.length > 0 then
                matchNextAll (nMatchNext L limit fuel) mr level else some [result]) mr = some mr := by
              rw [← flatMapM_pure mr]
              refine flatMapM_congr _ ?_
              intro x hx
              rw [(s1 x hx).1]
              rfl
            have e2 : flatMapM (fun result => if result.next.length > 0 then
                matchNextAll (nMatchNext K limit fuel) mr' level else some [result]) mr' = some mr' := by
              rw [← flatMapM_pure mr']
              refine flatMapM_congr _ ?_
              intro x hx
              rw [(s2 x hx).1]
              rfl
            rw [e1] at h; rw [e2] at h'
            cases h; cases h'; exact hR
          | cons n nx =>
            have fromB : ∀ {A : Look F} {m z : List (SearchPath F)}, (∀ p ∈ m, p.next = n :: nx) →
                flatMapM (fun result => if result.next.length > 0 then
                  matchNextAll (nMatchNext A limit fuel) m level else some [result]) m = some z →
                (m = [] ∧ z = []) ∨ ∃ B more, matchNextAll (nMatchNext A limit fuel) m level = some B ∧ z = B ++ more ∧
                  ∀ x ∈ more, x ∈ B := by
              intro A m z hm hz
              cases m with
              | nil => cases hz; exact Or.inl ⟨rfl, rfl⟩
              | cons y m =>
                right
                have hall : ∀ p z', p ∈ y :: m → (if p.next.length > 0 then
                    matchNextAll (nMatchNext A limit fuel) (y :: m) level else some [p]) = some z' →
                    matchNextAll (nMatchNext A limit fuel) (y :: m) level = some z' := by
                  intro p z' hp hz'
                  rw [hm p hp] at hz'
                  exact hz'
                obtain ⟨B, hB⟩ := flatMapM_each hz y List.mem_cons_self
                have hBB := hall y B List.mem_cons_self hB
                rw [flatMapM, hB] at hz
                simp only at hz
                split at hz
                · cases hz
                · rename_i more hmore
                  cases hz
                  refine ⟨B, more, hBB, rfl, ?_⟩
                  intro x hx
                  obtain ⟨p, hp, z', hz', hxz⟩ := (flatMapM_some hmore x).1 hx
                  have := hall p z' (List.mem_cons_of_mem _ hp) hz'
                  rw [hBB] at this
                  cases this
                  exact hxz
            have keepB : ∀ x' ∈ mr', ∀ z', (if x'.next.length > 0 then nMatchNext K limit fuel x' level else some []) = some z' →
                ∀ p ∈ z', Keep New p → Keep New x' := by
              intro x' _ z' hz' p hp hk
              split at hz'
              · exact keep_of_extends (nMatchNext_shape K limit fuel _ _ _ hz' p hp).2 hk
              · cases hz'; cases hp
            rcases fromB (fun p hp => (s2 p hp).1) h' with ⟨em', el'⟩ | ⟨B', more', b1', b2', b3'⟩
            · have em : mr = [] := by
                cases mr with
                | nil => rfl
                | cons y m =>
                  obtain ⟨q', hq', _⟩ := hR.1 y List.mem_cons_self
                  rw [em'] at hq'; cases hq'
              rw [el']
              rw [em] at h
              cases h
              exact .nil
            · rcases fromB (fun p hp => (s1 p hp).1) h with ⟨em, el⟩ | ⟨B, more, b1, b2, b3⟩
              · rw [el]
                refine .new ?_
                intro p hp hk
                have hpB : p ∈ B' := by
                  rw [b2'] at hp
                  exact (List.mem_append.1 hp).elim id (b3' p)
                unfold matchNextAll at b1'
                obtain ⟨x', hx', z', hz', hpz⟩ := (flatMapM_some b1' p).1 hpB
                have := hR.mem hx' (keepB x' hx' z' hz' p hpz hk)
                rw [em] at this; cases this
              · rw [b2, b2']
                refine Ranked.repeat ?_ b3 b3'
                unfold matchNextAll at b1 b1'
                refine Ranked.bind hR ?_ keepB b1 b1'
                intro x _ x' _ u z z' hz hz'
                rw [← u.1] at hz'
                split at hz
                · rename_i hlen
                  rw [if_pos hlen] at hz'
                  exact ih _ _ _ _ _ u hz hz'
                · rename_i hlen
                  rw [if_neg hlen] at hz'
                  cases hz; cases hz'; exact .nil

/-! ### Searching -/

theorem lookUp {G H : Grammar F} (wfG : WfGrammar G) (wfH : WfGrammar H) (h : ImprovedIn fo New G H) :
    LookUp fo New G.look H.look := by
  obtain ⟨h1, h2, h3⟩ := h
  intro s
  constructor
  · apply Option.ext
    intro v
    rw [look_metas_mem wfG, look_metas_mem wfH, h1]
  · cases hg : G.look.rules s with
    | some rs =>
      obtain ⟨t, ht, e, hi⟩ := h2 _ ((look_rules_mem wfG s rs).1 hg)
      refine Or.inr ⟨rs, t.2, rfl, ?_, hi⟩
      rw [look_rules_mem wfH]
      have e' : t.1 = s := e
      rw [← e']
      exact ht
    | none =>
      refine Or.inl ⟨rfl, ?_⟩
      intro rs hh
      rcases h3 _ ((look_rules_mem wfH s rs).1 hh) with ⟨t, ht, e⟩ | h
      · have e' : t.1 = s := e
        have : G.look.rules s = some t.2 := by
          rw [look_rules_mem wfG, ← e']
          exact ht
        rw [hg] at this; cases this
      · exact h

/-- What is found in an improved grammar. -/
theorem search_ranked {G H : Grammar F} (wfG : WfGrammar G) (wfH : WfGrammar H) (h : ImprovedIn fo New G H)
    (node : Str) (phrase : List Token) {l l' : List (SearchPath F)} (hs : search G node phrase = .ok l)
    (hs' : search H node phrase = .ok l') : Ranked fo New l l' := by
  unfold search at hs hs'
  cases hen : Token.enumerate phrase with
  | none => rw [hen] at hs; cases hs
  | some ps =>
    rw [hen] at hs hs'
    simp only at hs hs'
    rcases stringToSectionPtr_ok wfG node with ⟨ptr, h1, h2, h3⟩ | ⟨h1, _⟩
    · rcases stringToSectionPtr_ok wfH node with ⟨ptr', h1', h2', h3'⟩ | ⟨h1', _⟩
      · rw [h1] at hs
        rw [h1'] at hs'
        simp only at hs hs'
        let fuel := max (searchFuel G (phrase.length + 2)) (searchFuel H (phrase.length + 2))
        obtain ⟨ms, k1, _, k2⟩ := matchAll_by_name wfG (phrase.length + 2) ptr h3 ps fuel (Nat.le_max_left _ _)
        obtain ⟨ms', k1', _, k2'⟩ := matchAll_by_name wfH (phrase.length + 2) ptr' h3' ps fuel (Nat.le_max_right _ _)
        rw [k1] at hs
        rw [k1'] at hs'
        cases hs
        cases hs'
        rw [h2] at k2
        rw [h2'] at k2'
        have lk := lookUp wfG wfH h
        refine Ranked.filter ?_ _ (fun p p' u => by rw [u.2.1])
        refine Ranked.collect ?_ k2 k2'
        intro path _ z z' hz hz'
        exact Ranked.path lk _ (fun p p' level l l' u a b => Ranked.next lk _ _ p p' level l l' u a b) node (.refl path) 0 hz hz'
      · rw [h1'] at hs'; cases hs'
    · rw [h1] at hs; cases hs

/-! ### Scores -/

theorem AtMost.refl (a : F) : AtMost fo a a := Or.inr rfl

theorem sum_up {nan : F → Prop} (laws : MonoLaws fo nan) {rs rs' : List (Rule F)} (h : RulesUp fo New rs rs') :
    (∀ r ∈ rs, fo.le0 r.score = false) → ∀ a a', nan a ∨ (AtMost fo fo.zero a ∧ AtMost fo a a') →
    nan ((rs.map (·.score)).foldl fo.add a) ∨ (AtMost fo fo.zero ((rs.map (·.score)).foldl fo.add a) ∧
      AtMost fo ((rs.map (·.score)).foldl fo.add a) ((rs'.map (·.score)).foldl fo.add a')) := by
  have step : ∀ (r r' : Rule F), fo.le0 r.score = false → AtMost fo r.score r'.score → ∀ a a',
      nan a ∨ (AtMost fo fo.zero a ∧ AtMost fo a a') →
      nan (fo.add a r.score) ∨ (AtMost fo fo.zero (fo.add a r.score) ∧ AtMost fo (fo.add a r.score) (fo.add a' r'.score)) := by
    intro r r' hr hle a a' ha
    rcases ha with ha | ⟨ha1, ha2⟩
    · exact Or.inl (laws.add_nan _ _ (Or.inl ha))
    · rcases laws.pos _ hr with hn | hp
      · exact Or.inl (laws.add_nan _ _ (Or.inr hn))
      · exact Or.inr ⟨laws.add_nonneg _ _ ha1 (Or.inl hp), laws.add_mono _ _ _ _ ha1 (Or.inl hp) ha2 hle⟩
  induction h with
  | nil => intro _ a a' ha; exact ha
  | @same r rs rs' _ ih =>
    intro hr a a' ha
    simp only [List.map_cons, List.foldl_cons]
    exact ih (fun x hx => hr x (List.mem_cons_of_mem _ hx)) _ _ (step r r (hr r List.mem_cons_self) (.refl _) a a' ha)
  | @changed r r' rs rs' _ hle _ ih =>
    intro hr a a' ha
    simp only [List.map_cons, List.foldl_cons]
    exact ih (fun x hx => hr x (List.mem_cons_of_mem _ hx)) _ _ (step r r' (hr r List.mem_cons_self) hle a a' ha)

theorem average_up {nan : F → Prop} (laws : MonoLaws fo nan) {rs rs' : List (Rule F)} (h : RulesUp fo New rs rs')
    (hne : rs ≠ []) (hr : ∀ r ∈ rs, fo.le0 r.score = false) :
    nan (average fo rs) ∨ AtMost fo (average fo rs) (average fo rs') := by
  unfold average
  rw [← h.length]
  rcases sum_up laws h hr fo.zero fo.zero (Or.inr ⟨.refl _, .refl _⟩) with hn | ⟨h1, h2⟩
  · exact Or.inl (laws.div_nan _ _ hn)
  · exact Or.inr (laws.div_mono _ _ _ (fun e => hne (List.length_eq_zero_iff.1 e)) h1 h2)

theorem AtMost.not_lt {nan : F → Prop} (laws : NanLaws fo nan) {a b c : F} (h : nan a ∨ AtMost fo a b) (hc : fo.lt c b = false) :
    fo.lt c a = false := by
  rcases h with h | h | rfl
  · exact laws.right _ _ h
  · cases hca : fo.lt c a with
    | false => rfl
    | true => rw [laws.trans _ _ _ hca h] at hc; cases hc
  · exact hc

theorem AtMost.lt {nan : F → Prop} (laws : NanLaws fo nan) {a b c : F} (h : nan a ∨ AtMost fo a b)
    (hc : nan b ∨ fo.lt b c = true) : nan a ∨ fo.lt a c = true := by
  rcases h with h | h | rfl
  · exact Or.inl h
  · rcases hc with hc | hc
    · rw [laws.right _ _ hc] at h; cases h
    · exact Or.inr (laws.trans _ _ _ h hc)
  · exact hc

/-! ### Selection -/

/-- The element that is chosen is the first that no other exceeds. -/
theorem pickLoop_first {α : Type} {nan : F → Prop} (laws : NanLaws fo nan) (key : α → F) : ∀ (xs : List α) (i : Nat) (b : F)
    (o : Option (Nat × α)), (pickLoop fo key i (b, o) xs = (b, o) ∧ ∀ x ∈ xs, fo.lt b (key x) = false) ∨
      ∃ u x v, xs = u ++ x :: v ∧ pickLoop fo key i (b, o) xs = (key x, some (i + u.length, x)) ∧
        fo.lt b (key x) = true ∧ (∀ y ∈ u, nan (key y) ∨ fo.lt (key y) (key x) = true) ∧
        (∀ y ∈ xs, fo.lt (key x) (key y) = false)
  | [], i, b, o => Or.inl ⟨rfl, by intro x hx; cases hx⟩
  | x :: xs, i, b, o => by
    rw [pickLoop]
    cases hlt : fo.lt b (key x) with
    | true =>
      simp only [↓reduceIte]
      right
      rcases pickLoop_first laws key xs (i + 1) (key x) (some (i, x)) with ⟨h1, h2⟩ | ⟨u, x', v, h1, h2, h3, h4, h5⟩
      · refine ⟨[], x, xs, rfl, by rw [h1]; rfl, hlt, by simp, ?_⟩
        intro y hy
        rcases List.mem_cons.1 hy with rfl | hy
        · exact laws.irrefl _
        · exact h2 y hy
      · refine ⟨x :: u, x', v, by rw [h1]; rfl, by rw [h2]; simp; omega, laws.trans _ _ _ hlt h3, ?_, ?_⟩
        · intro y hy
          rcases List.mem_cons.1 hy with rfl | hy
          · exact Or.inr h3
          · exact h4 y hy
        · intro y hy
          rcases List.mem_cons.1 hy with rfl | hy
          · cases h : fo.lt (key x') (key y) with
            | false => rfl
            | true =>
              have h6 := laws.trans _ _ _ h3 h
              rw [laws.irrefl] at h6
              cases h6
          · exact h5 y hy
    | false =>
      simp only [Bool.false_eq_true, ↓reduceIte]
      rcases pickLoop_first laws key xs (i + 1) b o with ⟨h1, h2⟩ | ⟨u, x', v, h1, h2, h3, h4, h5⟩
      · left
        refine ⟨h1, ?_⟩
        intro y hy
        rcases List.mem_cons.1 hy with rfl | hy
        · exact hlt
        · exact h2 y hy
      · right
        refine ⟨x :: u, x', v, by rw [h1]; rfl, by rw [h2]; simp; omega, h3, ?_, ?_⟩
        · intro y hy
          rcases List.mem_cons.1 hy with rfl | hy
          · by_cases hn : nan (key y)
            · exact Or.inl hn
            · rcases laws.total b (key y) (key x') hn h3 with h | h
              · rw [hlt] at h; cases h
              · exact Or.inr h
          · exact h4 y hy
        · intro y hy
          rcases List.mem_cons.1 hy with rfl | hy
          · cases h : fo.lt (key x') (key y) with
            | false => rfl
            | true =>
              have h6 := laws.trans _ _ _ h3 h
              rw [hlt] at h6
              cases h6
          · exact h5 y hy

/-- The first element that no other exceeds is chosen. -/
theorem pickLoop_select {α : Type} {nan : F → Prop} (laws : NanLaws fo nan) (key : α → F) {x : α} {v : List α} : ∀ (u : List α)
    (i : Nat) (b : F) (o : Option (Nat × α)), fo.lt b (key x) = true →
    (∀ y ∈ u, nan (key y) ∨ fo.lt (key y) (key x) = true) → (∀ y ∈ v, fo.lt (key x) (key y) = false) →
    pickLoop fo key i (b, o) (u ++ x :: v) = (key x, some (i + u.length, x))
  | [], i, b, o, h1, _, h3 => by
    rw [List.nil_append, pickLoop, h1]
    simp only [↓reduceIte]
    rcases pickLoop_spec laws.toLtLaws key v (i + 1) (key x) (some (i, x)) with ⟨k, _⟩ | ⟨j, y, _, k2, k3, _⟩
    · exact k
    · rw [h3 y (List.mem_of_getElem? k2)] at k3; cases k3
  | y :: u, i, b, o, h1, h2, h3 => by
    rw [List.cons_append, pickLoop]
    have hu := fun z hz => h2 z (List.mem_cons_of_mem y hz)
    cases hlt : fo.lt b (key y) with
    | true =>
      simp only [↓reduceIte]
      rw [pickLoop_select laws key u _ _ _ _ hu h3]
      · simp only [List.length_cons, Prod.mk.injEq, Option.some.injEq, and_true, true_and]; omega
      · rcases h2 y List.mem_cons_self with h | h
        · rw [laws.right _ _ h] at hlt; cases hlt
        · exact h
    | false =>
      simp only [Bool.false_eq_true, ↓reduceIte]
      rw [pickLoop_select laws key u _ _ _ h1 hu h3]
      simp only [List.length_cons, Prod.mk.injEq, Option.some.injEq, and_true, true_and]; omega

theorem pickLoop_none {α : Type} (laws : LtLaws fo) (key : α → F) (xs : List α) (i : Nat) (b : F) (o : Option (Nat × α))
    (h : ∀ x ∈ xs, fo.lt b (key x) = false) : pickLoop fo key i (b, o) xs = (b, o) := by
  rcases pickLoop_spec laws key xs i b o with ⟨k, _⟩ | ⟨j, y, _, k2, k3, _⟩
  · exact k
  · rw [h y (List.mem_of_getElem? k2)] at k3; cases k3

/-! ### Texts -/

section
variable {ct : CharTables}

/-- Groups of improved lines. -/
inductive GroupsUp (ct : CharTables) (fo : FloatOps F) (New : Rule F → Prop) :
    List (Str × List Str) → List (Str × List Str) → Prop
  | nil : GroupsUp ct fo New [] []
  | cons {n : Str} {ls ls' : List Str} {gs gs' : List (Str × List Str)} : ImprovedLines ct fo New ls ls' →
      GroupsUp ct fo New gs gs' → GroupsUp ct fo New ((n, ls) :: gs) ((n, ls') :: gs')

theorem ruleLine_data {l : Str} {r : Rule F} (h : IsRuleLine ct fo l r) (ls : List Str) :
    groupLines ct (l :: ls) = (l :: (groupLines ct ls).1, (groupLines ct ls).2) := by
  obtain ⟨h1, h2, _, _⟩ := h
  have hc : isCommentLine ct l = false := by
    cases hc : isCommentLine ct l with
    | false => rfl
    | true => exact absurd ((isCommentLine_iff ct l).1 hc) h1
  have hs : sectionName? ct l = none := by
    cases hs : sectionName? ct l with
    | none => rfl
    | some n => exact absurd ((sectionName?_iff ct l n).1 hs) (h2 n)
  rw [groupLines, hc, hs]
  rfl

theorem groupLines_up {ls ls' : List Str} (h : ImprovedLines ct fo New ls ls') :
    ImprovedLines ct fo New (groupLines ct ls).1 (groupLines ct ls').1 ∧
    GroupsUp ct fo New (groupLines ct ls).2 (groupLines ct ls').2 := by
  induction h with
  | nil => exact ⟨.nil, .nil⟩
  | @same l ls ls' _ ih =>
    rw [groupLines, groupLines]
    split
    · exact ih
    · cases hs : sectionName? ct l with
      | none => exact ⟨.same ih.1, ih.2⟩
      | some n => exact ⟨.nil, .cons ih.1 ih.2⟩
  | added h1 h2 _ ih =>
    rw [ruleLine_data h1]
    exact ⟨.added h1 h2 ih.1, ih.2⟩
  | changed h1 h2 h3 h4 h5 _ ih =>
    rw [ruleLine_data h1, ruleLine_data h2]
    exact ⟨.changed h1 h2 h3 h4 h5 ih.1, ih.2⟩

theorem improvedLines_refs {ls ls' : List Str} (h : ImprovedLines ct fo New ls ls') (hr : ∀ l ∈ ls', '@' ∈ l) : ls = ls' := by
  induction h with
  | nil => rfl
  | same _ ih => rw [ih (fun l hl => hr l (List.mem_cons_of_mem _ hl))]
  | added h1 _ _ _ => exact absurd (hr _ List.mem_cons_self) h1.2.2.1
  | changed _ h1 _ _ _ _ _ => exact absurd (hr _ List.mem_cons_self) h1.2.2.1

theorem improvedLines_mem {ls ls' : List Str} (h : ImprovedLines ct fo New ls ls') (hr : ∀ l ∈ ls', '@' ∉ l) :
    ∀ l ∈ ls, '@' ∉ l := by
  induction h with
  | nil => simp
  | same _ ih =>
    intro x hx
    rcases List.mem_cons.1 hx with rfl | hx
    · exact hr _ List.mem_cons_self
    · exact ih (fun l hl => hr l (List.mem_cons_of_mem _ hl)) x hx
  | added _ _ _ ih => exact ih (fun l hl => hr l (List.mem_cons_of_mem _ hl))
  | changed h1 _ _ _ _ _ ih =>
    intro x hx
    rcases List.mem_cons.1 hx with rfl | hx
    · exact h1.2.2.1
    · exact ih (fun l hl => hr l (List.mem_cons_of_mem _ hl)) x hx

theorem ruleMeans_unique (h0 : fo.le0 fo.zero = true) {l : Str} {r r' : Rule F} (h : RuleMeans fo l r) (h' : RuleMeans fo l r') :
    r = r' := by
  have e := (Props.C26_rule_line_meaning fo h0 l r).2 h
  rw [(Props.C26_rule_line_meaning fo h0 l r').2 h'] at e
  cases e
  rfl

theorem improvedLines_rules (h0 : fo.le0 fo.zero = true) {ls ls' : List Str} (h : ImprovedLines ct fo New ls ls') :
    ∀ {rr rr' : List (Rule F)}, RulesMean fo ls rr → RulesMean fo ls' rr' → Improved fo New rr rr' := by
  induction h with
  | nil => intro rr rr' h h'; cases h; cases h'; exact .nil
  | same _ ih =>
    intro rr rr' h h'
    cases h with
    | cons a b =>
      cases h' with
      | cons a' b' => rw [ruleMeans_unique h0 a a']; exact .same (ih b b')
  | added h1 h2 _ ih =>
    intro rr rr' h h'
    cases h' with
    | cons a' b' => rw [← ruleMeans_unique h0 h1.2.2.2 a']; exact .added h2 (ih h b')
  | changed h1 h2 h3 h4 h5 _ ih =>
    intro rr rr' h h'
    cases h with
    | cons a b =>
      cases h' with
      | cons a' b' =>
        rw [← ruleMeans_unique h0 h1.2.2.2 a, ← ruleMeans_unique h0 h2.2.2.2 a']
        exact .changed h3 h4 h5 (ih b b')

theorem improved_nil {rr : List (Rule F)} (h : Improved fo New [] rr) : ∀ r ∈ rr, New r := by
  generalize e : ([] : List (Rule F)) = l at h
  induction h with
  | nil => simp
  | same _ _ => cases e
  | added h1 _ ih =>
    intro r hr
    rcases List.mem_cons.1 hr with rfl | hr
    · exact h1
    · exact ih e r hr
  | changed _ _ _ _ _ => cases e

theorem sections_up (h0 : fo.le0 fo.zero = true) {gs gs' : List (Str × List Str)} (h : GroupsUp ct fo New gs gs') :
    ∀ {ms ms' : List (Str × List (List Str))} {rs rs' : List (Str × List (Rule F))}, Sections ct fo gs ms rs →
      Sections ct fo gs' ms' rs' → ms = ms' ∧
      (∀ s ∈ rs, ∃ t ∈ rs', t.1 = s.1 ∧ Improved fo New s.2 t.2) ∧
      (∀ t ∈ rs', (∃ s ∈ rs, s.1 = t.1) ∨ ∀ r ∈ t.2, New r) := by
  induction h with
  | nil => intro ms ms' rs rs' h h'; cases h; cases h'; simp
  | @cons n ls ls' gs gs' hl _ ih =>
    intro ms ms' rs rs' h h'
    cases h with
    | empty h =>
      cases h' with
      | empty h' => exact ih h h'
      | metas k1 k2 _ h' => exact absurd (improvedLines_refs hl k2).symm k1
      | @rules _ _ _ _ _ rr k1 k2 k3 h' =>
        obtain ⟨i1, i2, i3⟩ := ih h h'
        refine ⟨i1, ?_, ?_⟩
        · intro s hs
          obtain ⟨t, ht, e⟩ := i2 s hs
          exact ⟨t, List.mem_cons_of_mem _ ht, e⟩
        · intro t ht
          rcases List.mem_cons.1 ht with rfl | ht
          · exact Or.inr (improved_nil (improvedLines_rules h0 hl .nil k3))
          · exact i3 t ht
    | metas j1 j2 j3 h =>
      cases h' with
      | empty h' =>
        exact absurd (improvedLines_refs hl (by simp)) j1
      | metas k1 k2 k3 h' =>
        obtain ⟨i1, i2, i3⟩ := ih h h'
        refine ⟨?_, i2, i3⟩
        rw [improvedLines_refs hl k2, metasMean_iff] at j3
        rw [metasMean_iff] at k3
        rw [i1, j3, k3]
      | rules k1 k2 k3 h' =>
        obtain ⟨x, hx⟩ := List.exists_mem_of_ne_nil _ j1
        exact absurd (j2 x hx) (improvedLines_mem hl k2 x hx)
    | @rules _ _ _ _ _ rr j1 j2 j3 h =>
      cases h' with
      | empty h' =>
        exact absurd (improvedLines_refs hl (by simp)) j1
      | metas k1 k2 k3 h' =>
        obtain ⟨x, hx⟩ := List.exists_mem_of_ne_nil _ j1
        rw [improvedLines_refs hl k2] at j2 hx
        exact absurd (k2 x hx) (j2 x hx)
      | @rules _ _ _ _ _ rr' k1 k2 k3 h' =>
        obtain ⟨i1, i2, i3⟩ := ih h h'
        refine ⟨i1, ?_, ?_⟩
        · intro s hs
          rcases List.mem_cons.1 hs with rfl | hs
          · exact ⟨(n, rr'), List.mem_cons_self, rfl, improvedLines_rules h0 hl j3 k3⟩
          · obtain ⟨t, ht, e⟩ := i2 s hs
            exact ⟨t, List.mem_cons_of_mem _ ht, e⟩
        · intro t ht
          rcases List.mem_cons.1 ht with rfl | ht
          · exact Or.inl ⟨(n, rr), List.mem_cons_self, rfl⟩
          · rcases i3 t ht with ⟨s, hs, e⟩ | h
            · exact Or.inl ⟨s, List.mem_cons_of_mem _ hs, e⟩
            · exact Or.inr h

end

end AS
