import Verif.Model.Session
import Mathlib.Data.String.Basic

/- Lemmas on the names of files and keys. -/

set_option autoImplicit false

namespace Verif

/-! ### Numbers with leading zeros -/

theorem ofDigitChars_zeros (k : Nat) (l : List Char) :
    Nat.ofDigitChars 10 (List.replicate k '0' ++ l) 0 = Nat.ofDigitChars 10 l 0 := by
  induction k with
  | zero => simp
  | succ k ih =>
    rw [List.replicate_succ, List.cons_append]
    simpa [Nat.ofDigitChars] using ih

theorem pad_toList (w i : Nat) : (pad w i).toList =
    List.replicate (w - (Nat.toDigits 10 i).length) '0' ++ Nat.toDigits 10 i := by
  simp [pad]

theorem pad_value (w i : Nat) : Nat.ofDigitChars 10 (pad w i).toList 0 = i := by
  rw [pad_toList, ofDigitChars_zeros, Nat.ofDigitChars_toDigits (by norm_num) (by norm_num)]

theorem pad_inj {w i j : Nat} (h : pad w i = pad w j) : i = j := by
  rw [← pad_value w i, h, pad_value]

theorem pad_digit {w i : Nat} {c : Char} (h : c ∈ (pad w i).toList) : c.isDigit := by
  rw [pad_toList, List.mem_append] at h
  rcases h with h | h
  · rw [List.eq_of_mem_replicate h]; rfl
  · exact Nat.isDigit_of_mem_toDigits (by norm_num) (by norm_num) h

theorem pad_ne (w i : Nat) : (pad w i).toList ≠ [] := by
  rw [pad_toList]
  intro h
  have := (List.append_eq_nil_iff.mp h).2
  exact absurd this Nat.toDigits_ne_nil

theorem padInt_inj {w : Nat} {i j : Int} (h : padInt w i = padInt w j) : i = j := by
  cases i with
  | ofNat i =>
    cases j with
    | ofNat j => exact congrArg Int.ofNat (pad_inj h)
    | negSucc j =>
      exfalso
      simp only [padInt] at h
      have : '-' ∈ (pad w i).toList := by rw [h]; simp
      exact absurd (pad_digit this) (by decide)
  | negSucc i =>
    cases j with
    | ofNat j =>
      exfalso
      simp only [padInt] at h
      have : '-' ∈ (pad w j).toList := by rw [← h]; simp
      exact absurd (pad_digit this) (by decide)
    | negSucc j =>
      simp only [padInt] at h
      have h' : ("-" ++ pad (w - 1) (i + 1)).toList = ("-" ++ pad (w - 1) (j + 1)).toList := by rw [h]
      simp only [String.toList_append, List.append_cancel_left_eq] at h'
      have := pad_inj (String.toList_inj.mp h')
      congr 1
      omega

theorem padInt_char {w : Nat} {i : Int} {c : Char} (h : c ∈ (padInt w i).toList) :
    c.isDigit ∨ c = '-' := by
  cases i with
  | ofNat i => exact Or.inl (pad_digit h)
  | negSucc i =>
    simp only [padInt, String.toList_append, List.mem_append] at h
    rcases h with h | h
    · right; simpa using h
    · exact Or.inl (pad_digit h)

theorem padInt_ne (w : Nat) (i : Int) : padInt w i ≠ "" := by
  intro h
  have h' : (padInt w i).toList = [] := by rw [h]; rfl
  cases i with
  | ofNat i => exact pad_ne w i h'
  | negSucc i => simp [padInt] at h'

/-! ### Paths -/

theorem splitPath_single {s : String} (h : '/' ∉ s.toList) (h1 : s ≠ "") (h2 : s ≠ ".") :
    splitPath s = [s] := by
  unfold splitPath
  rw [List.splitOn_eq_singleton h]
  simp [h1, h2]

theorem updateDir_no_slash (i : Int) : '/' ∉ ("update" ++ padInt 5 i).toList := by
  rw [String.toList_append, List.mem_append]
  rintro (h | h)
  · revert h; decide
  · rcases padInt_char h with h | h <;> exact absurd h (by decide)

theorem updateDir_ne (i : Int) : "update" ++ padInt 5 i ≠ "" ∧ "update" ++ padInt 5 i ≠ "." := by
  constructor
  · intro h
    have := congrArg String.toList h
    rw [String.toList_append] at this
    simp at this
  · intro h
    have := congrArg String.toList h
    rw [String.toList_append] at this
    simp at this

theorem splitPath_update (i : Int) : splitPath ("update" ++ padInt 5 i) = ["update" ++ padInt 5 i] :=
  splitPath_single (updateDir_no_slash i) (updateDir_ne i).1 (updateDir_ne i).2

theorem updateDir_inj {i j : Int} (h : "update" ++ padInt 5 i = "update" ++ padInt 5 j) : i = j := by
  have := congrArg String.toList h
  rw [String.toList_append, String.toList_append, List.append_cancel_left_eq] at this
  exact padInt_inj (String.toList_inj.mp this)

/-- A name that is a single component of a path. -/
structure Simple (s : String) : Prop where
  slash : '/' ∉ s.toList
  ne : s ≠ ""
  dot : s ≠ "."

theorem Simple.split {s : String} (h : Simple s) : splitPath s = [s] :=
  splitPath_single h.slash h.ne h.dot

/-- The key of a name with update number. -/
theorem baseName_update (name : String) (i : Int) (s : Option Label)
    (h : Simple (sampleName name s)) :
    baseName name (some i) s = .path ["update" ++ padInt 5 i, sampleName name s] := by
  simp only [baseName]
  rw [splitPath_update, h.split]
  rfl

theorem baseName_none (name : String) (s : Option Label) :
    baseName name none s = .str (sampleName name s) := rfl

theorem baseName_inj {name name' : String} {u u' : Option Int} {s s' : Option Label}
    (h : Simple (sampleName name s)) (h' : Simple (sampleName name' s')) :
    baseName name u s = baseName name' u' s' ↔
      u = u' ∧ sampleName name s = sampleName name' s' := by
  refine ⟨fun e => ?_, fun e => ?_⟩
  · cases u with
    | none =>
      cases u' with
      | none => exact ⟨rfl, by simpa [baseName_none] using e⟩
      | some j => rw [baseName_none, baseName_update _ _ _ h'] at e; cases e
    | some i =>
      cases u' with
      | none => rw [baseName_none, baseName_update _ _ _ h] at e; cases e
      | some j =>
        rw [baseName_update _ _ _ h, baseName_update _ _ _ h'] at e
        simp only [Key.path.injEq, List.cons.injEq, and_true] at e
        exact ⟨congrArg some (updateDir_inj e.1), e.2⟩
  · simp only [baseName, e.1, e.2]

theorem parts_inj {name name' : String} {u u' : Option Int} {s s' : Option Label}
    (h : Simple (sampleName name s)) (h' : Simple (sampleName name' s')) :
    (baseName name u s).parts = (baseName name' u' s').parts ↔
      u = u' ∧ sampleName name s = sampleName name' s' := by
  rw [← baseName_inj h h']
  refine ⟨fun e => ?_, fun e => by rw [e]⟩
  cases u with
  | none =>
    cases u' with
    | none =>
      rw [baseName_none, baseName_none] at e ⊢
      simp only [Key.parts, h.split, h'.split, List.cons.injEq, and_true] at e
      rw [e]
    | some j =>
      rw [baseName_none, baseName_update _ _ _ h'] at e
      simp [Key.parts, h.split] at e
  | some i =>
    cases u' with
    | none =>
      rw [baseName_none, baseName_update _ _ _ h] at e
      simp [Key.parts, h'.split] at e
    | some j =>
      rw [baseName_update _ _ _ h, baseName_update _ _ _ h'] at e ⊢
      exact congrArg Key.path e

end Verif
