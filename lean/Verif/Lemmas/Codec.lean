import Verif.Lemmas.Str
import Verif.Model.OutClass
/-
Helper lemmas for the codec properties.
-/
namespace AS

theorem ite_elim {α : Type} {P : α → Prop} {c : Prop} [Decidable c] {a b : α} (h1 : c → P a)
    (h2 : P b) : P (if c then a else b) := by
  split
  · exact h1 ‹c›
  · exact h2

theorem asOneType_asString (t : InType) : InType.asOneType t.asString = t := by
  cases t <;> decide +kernel

theorem ofInt_code (t : InType) : InType.ofInt t.code = t := by
  cases t <;> decide +kernel

theorem code_inj (a b : InType) (h : a.code = b.code) : a = b := by
  rw [← ofInt_code a, ← ofInt_code b, h]

theorem asString_asOneType (s : Str) (h : InType.asOneType s ≠ .BADTOKEN) :
    (InType.asOneType s).asString = s := by
  have : InType.asOneType s = .BADTOKEN ∨ (InType.asOneType s).asString = s := by
    unfold InType.asOneType
    repeat refine ite_elim (P := fun t => t = InType.BADTOKEN ∨ t.asString = s) (fun h => Or.inr h.symm) ?_
    exact Or.inl rfl
  exact this.resolve_left h

theorem code_ofInt (i : Int) (h : InType.ofInt i ≠ .BADTOKEN) : (InType.ofInt i).code = i := by
  have : InType.ofInt i = .BADTOKEN ∨ (InType.ofInt i).code = i := by
    unfold InType.ofInt
    repeat refine ite_elim (P := fun t => t = InType.BADTOKEN ∨ t.code = i) (fun h => Or.inr h.symm) ?_
    exact Or.inl rfl
  exact this.resolve_left h

/-- The class one item of a class list contributes. -/
def itemType (q : Str) : Option InType :=
  if 0 < (trimboth q).length then some (InType.asOneType (trimboth q)) else none

def readStep (acc : List InType) (q : Str) : List InType :=
  match itemType q with
  | some t => setInsert InType.code t acc
  | none => acc

def readItems (parts : List Str) : List InType := parts.foldl readStep []

theorem asTypeLoop_join (p : Str) (ps : List Str) (hc : ∀ q ∈ p :: ps, ',' ∉ q) (fuel : Nat)
    (hf : ps.length < fuel) (w : Str) (acc : List InType) :
    InType.asTypeLoop fuel (IStream.ofStr (joinWith c!"," (p :: ps))) w acc
      = some ((p :: ps).foldl readStep acc) := by
  induction ps generalizing p fuel w acc with
  | nil =>
    obtain ⟨f, rfl⟩ : ∃ f, fuel = f + 1 := ⟨fuel - 1, by simp at hf; omega⟩
    have h1 := getline_last ',' p w (hc p (by simp))
    simp only [joinWith, InType.asTypeLoop, h1]
    simp only [↓reduceIte, List.foldl_cons, List.foldl_nil, readStep, itemType, Option.some.injEq]
    split <;> rfl
  | cons q qs ih =>
    obtain ⟨f, rfl⟩ : ∃ f, fuel = f + 1 := ⟨fuel - 1, by simp at hf; omega⟩
    have h1 := getline_append ',' p (joinWith c!"," (q :: qs)) w (hc p (by simp))
    have h0 : joinWith c!"," (p :: q :: qs) = p ++ ',' :: joinWith c!"," (q :: qs) := by
      simp [joinWith]
    have h2 := ih q (fun x hx => hc x (by simp [hx])) f (by simp at hf; omega) (trimboth p)
      (readStep acc p)
    rw [h0]
    simp only [InType.asTypeLoop, h1]
    have h3 : (IStream.ofStr (joinWith c!"," (q :: qs))).eof = false := rfl
    rw [h3]
    simp only [Bool.false_eq_true, ↓reduceIte]
    have h4 : (if 0 < (trimboth p).length then
        setInsert InType.code (InType.asOneType (trimboth p)) acc else acc) = readStep acc p := by
      simp only [readStep, itemType]
      split <;> rfl
    rw [h4, h2]
    rfl

theorem asType?_join (p : Str) (ps : List Str) (hc : ∀ q ∈ p :: ps, ',' ∉ q) :
    InType.asType? (joinWith c!"," (p :: ps)) = some (readItems (p :: ps)) := by
  unfold InType.asType? readItems
  apply asTypeLoop_join p ps hc
  have := joinWith_length ',' p ps
  omega

theorem isSet_foldl_readStep (parts : List Str) (acc : List InType) (h : IsSet InType.code acc) :
    IsSet InType.code (parts.foldl readStep acc) := by
  induction parts generalizing acc with
  | nil => exact h
  | cons q qs ih =>
    apply ih
    unfold readStep
    split
    · exact isSet_setInsert _ code_inj _ _ h
    · exact h

theorem isSet_readItems (parts : List Str) : IsSet InType.code (readItems parts) :=
  isSet_foldl_readStep _ _ List.Pairwise.nil

theorem mem_foldl_readStep (parts : List Str) (acc : List InType) (t : InType) :
    t ∈ parts.foldl readStep acc ↔ t ∈ acc ∨ ∃ q ∈ parts, itemType q = some t := by
  induction parts generalizing acc with
  | nil => simp
  | cons q qs ih =>
    rw [List.foldl_cons, ih]
    have : t ∈ readStep acc q ↔ t ∈ acc ∨ itemType q = some t := by
      unfold readStep
      split
      · rename_i u hu
        rw [mem_setInsert _ code_inj, hu]
        simp only [Option.some.injEq]
        constructor
        · rintro (h | h) <;> simp [h]
        · rintro (h | h) <;> simp [h]
      · rename_i hu
        simp [hu]
    rw [this]
    simp only [List.mem_cons, exists_eq_or_imp, or_assoc]

theorem mem_readItems (parts : List Str) (t : InType) :
    t ∈ readItems parts ↔ ∃ q ∈ parts, itemType q = some t := by
  simp [readItems, mem_foldl_readStep]

theorem setAsStringLoop_false (str : Str) (ts : List InType) :
    InType.setAsStringLoop false str ts = str ++ (ts.map (fun t => ',' :: t.asString)).flatten := by
  induction ts generalizing str with
  | nil => simp [InType.setAsStringLoop]
  | cons t ts ih => simp [InType.setAsStringLoop, ih]

theorem joinWith_cons (d : Char) (x : Str) (xs : List Str) :
    joinWith [d] (x :: xs) = x ++ (xs.map (fun y => d :: y)).flatten := by
  induction xs generalizing x with
  | nil => simp [joinWith]
  | cons y ys ih => simp [joinWith, ih]

theorem setAsString_eq (S : List InType) :
    InType.setAsString S = joinWith c!"," (S.map InType.asString) := by
  cases S with
  | nil => rfl
  | cons t ts =>
    simp [InType.setAsString, InType.setAsStringLoop, setAsStringLoop_false, joinWith_cons,
      Function.comp_def]

/-! ### attachment kinds -/

theorem attach_code_inj (a b : Attach) (h : a.code = b.code) : a = b := by
  cases a <;> cases b <;> first | rfl | (revert h; decide)

theorem attach_asString_ofWord (w : Str) (t : Attach) (h : Attach.ofWord w = some t) :
    t.asString = w := by
  revert h
  unfold Attach.ofWord
  repeat refine ite_elim (P := fun x => x = some t → t.asString = w) (fun h e => by rw [h]; cases e; rfl) ?_
  intro h
  cases h

def itemAttach (q : Str) : Option Attach :=
  if 0 < (trimboth q).length then Attach.ofWord (trimboth q) else none

def attachStep (acc : List Attach) (q : Str) : List Attach :=
  match itemAttach q with
  | some t => setInsert Attach.code t acc
  | none => acc

def readAttach (parts : List Str) : List Attach := parts.foldl attachStep []

theorem attachStep_eq (acc : List Attach) (p : Str) :
    (if 0 < (trimboth p).length then
        match Attach.ofWord (trimboth p) with
        | some a => setInsert Attach.code a acc
        | none => acc
      else acc) = attachStep acc p := by
  simp only [attachStep, itemAttach]
  split <;> rfl

theorem asAttachLoop_join (p : Str) (ps : List Str) (hc : ∀ q ∈ p :: ps, ',' ∉ q) (fuel : Nat)
    (hf : ps.length < fuel) (w : Str) (acc : List Attach) :
    Attach.asAttachLoop fuel (IStream.ofStr (joinWith c!"," (p :: ps))) w acc
      = some ((p :: ps).foldl attachStep acc) := by
  induction ps generalizing p fuel w acc with
  | nil =>
    obtain ⟨f, rfl⟩ : ∃ f, fuel = f + 1 := ⟨fuel - 1, by simp at hf; omega⟩
    have h1 := getline_last ',' p w (hc p (by simp))
    simp only [joinWith, Attach.asAttachLoop, h1]
    simp only [↓reduceIte, List.foldl_cons, List.foldl_nil, Option.some.injEq]
    exact attachStep_eq acc p
  | cons q qs ih =>
    obtain ⟨f, rfl⟩ : ∃ f, fuel = f + 1 := ⟨fuel - 1, by simp at hf; omega⟩
    have h1 := getline_append ',' p (joinWith c!"," (q :: qs)) w (hc p (by simp))
    have h0 : joinWith c!"," (p :: q :: qs) = p ++ ',' :: joinWith c!"," (q :: qs) := by
      simp [joinWith]
    have h2 := ih q (fun x hx => hc x (by simp [hx])) f (by simp at hf; omega) (trimboth p)
      (attachStep acc p)
    rw [h0]
    simp only [Attach.asAttachLoop, h1]
    have h3 : (IStream.ofStr (joinWith c!"," (q :: qs))).eof = false := rfl
    rw [h3]
    simp only [Bool.false_eq_true, ↓reduceIte]
    exact (congrArg (Attach.asAttachLoop f _ _) (attachStep_eq acc p)).trans h2

theorem asAttach?_join (p : Str) (ps : List Str) (hc : ∀ q ∈ p :: ps, ',' ∉ q) :
    Attach.asAttach? (joinWith c!"," (p :: ps)) = some (readAttach (p :: ps)) := by
  unfold Attach.asAttach? readAttach
  apply asAttachLoop_join p ps hc
  have := joinWith_length ',' p ps
  omega

theorem isSet_readAttach (parts : List Str) : IsSet Attach.code (readAttach parts) := by
  have : ∀ acc, IsSet Attach.code acc → IsSet Attach.code (parts.foldl attachStep acc) := by
    induction parts with
    | nil => intro acc h; exact h
    | cons q qs ih =>
      intro acc h
      apply ih
      unfold attachStep
      split
      · exact isSet_setInsert _ attach_code_inj _ _ h
      · exact h
  exact this [] List.Pairwise.nil

theorem mem_readAttach (parts : List Str) (t : Attach) :
    t ∈ readAttach parts ↔ ∃ q ∈ parts, itemAttach q = some t := by
  have : ∀ acc, t ∈ parts.foldl attachStep acc ↔ t ∈ acc ∨ ∃ q ∈ parts, itemAttach q = some t := by
    induction parts with
    | nil => simp
    | cons q qs ih =>
      intro acc
      rw [List.foldl_cons, ih]
      have : t ∈ attachStep acc q ↔ t ∈ acc ∨ itemAttach q = some t := by
        unfold attachStep
        split
        · rename_i u hu
          rw [mem_setInsert _ attach_code_inj, hu]
          simp only [Option.some.injEq]
          constructor
          · rintro (h | h) <;> simp [h]
          · rintro (h | h) <;> simp [h]
        · rename_i hu
          simp [hu]
      rw [this]
      simp only [List.mem_cons, exists_eq_or_imp, or_assoc]
  simp [readAttach, this]

theorem attach_setAsStringLoop_false (str : Str) (ts : List Attach) :
    Attach.setAsStringLoop false str ts = str ++ (ts.map (fun t => ',' :: t.asString)).flatten := by
  induction ts generalizing str with
  | nil => simp [Attach.setAsStringLoop]
  | cons t ts ih => simp [Attach.setAsStringLoop, ih]

theorem attach_setAsString_eq (S : List Attach) :
    Attach.setAsString S = joinWith c!"," (S.map Attach.asString) := by
  cases S with
  | nil => rfl
  | cons t ts =>
    simp [Attach.setAsString, Attach.setAsStringLoop, attach_setAsStringLoop_false, joinWith_cons,
      Function.comp_def]

/-! ### output classes -/

theorem outType_asString (t : OutType) : OutType.asType t.asString = t := by
  cases t <;> decide +kernel

theorem outOfInt_code (t : OutType) : OutType.ofInt t.code = t := by
  cases t <;> decide +kernel

theorem outAsString_asType (s : Str) (h : OutType.asType s ≠ .BADTOKEN) :
    (OutType.asType s).asString = s := by
  have : OutType.asType s = .BADTOKEN ∨ (OutType.asType s).asString = s := by
    unfold OutType.asType
    repeat refine ite_elim (P := fun t => t = OutType.BADTOKEN ∨ t.asString = s) (fun h => Or.inr h.symm) ?_
    exact Or.inl rfl
  exact this.resolve_left h

theorem outCode_ofInt (i : Int) (h : OutType.ofInt i ≠ .BADTOKEN) : (OutType.ofInt i).code = i := by
  have : OutType.ofInt i = .BADTOKEN ∨ (OutType.ofInt i).code = i := by
    unfold OutType.ofInt
    repeat refine ite_elim (P := fun t => t = OutType.BADTOKEN ∨ t.code = i) (fun h => Or.inr h.symm) ?_
    exact Or.inl rfl
  exact this.resolve_left h

end AS
