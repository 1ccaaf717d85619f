import Verif.Proofs.Loop

/- Lexicographic order of numbers with leading zeros, and the last entry of a sorted list. -/

set_option autoImplicit false

namespace Verif

theorem ofDigitChars_cons (c : Char) (l : List Char) (a : Nat) :
    Nat.ofDigitChars 10 (c :: l) a = Nat.ofDigitChars 10 l (10 * a + (c.toNat - '0'.toNat)) := by
  simp [Nat.ofDigitChars]

theorem ofDigitChars_init (l : List Char) (a : Nat) :
    Nat.ofDigitChars 10 l a = a * 10 ^ l.length + Nat.ofDigitChars 10 l 0 := by
  induction l generalizing a with
  | nil => simp [Nat.ofDigitChars]
  | cons c l ih =>
    rw [ofDigitChars_cons, ofDigitChars_cons, ih, ih (10 * 0 + _)]
    simp only [List.length_cons, pow_succ]
    ring

theorem digit_lt {c : Char} (h : c.isDigit = true) : c.toNat - '0'.toNat < 10 := by
  simp only [Char.isDigit, Bool.and_eq_true, decide_eq_true_eq] at h
  have h2 : c.toNat ≤ 57 := by
    have := h.2
    exact UInt32.le_iff_toNat_le.mp this
  have : '0'.toNat = 48 := rfl
  omega

theorem digit_ge {c : Char} (h : c.isDigit = true) : '0'.toNat ≤ c.toNat := by
  simp only [Char.isDigit, Bool.and_eq_true, decide_eq_true_eq] at h
  exact UInt32.le_iff_toNat_le.mp h.1

theorem ofDigitChars_lt (l : List Char) (h : ∀ c ∈ l, c.isDigit = true) :
    Nat.ofDigitChars 10 l 0 < 10 ^ l.length := by
  induction l with
  | nil => simp [Nat.ofDigitChars]
  | cons c l ih =>
    rw [ofDigitChars_cons, ofDigitChars_init]
    have h1 := digit_lt (h c (by simp))
    have h2 := ih fun c hc => h c (by simp [hc])
    simp only [List.length_cons, pow_succ, Nat.mul_zero, Nat.zero_add]
    nlinarith [Nat.mul_le_mul_right (10 ^ l.length) (show c.toNat - '0'.toNat ≤ 9 by omega)]

theorem char_lt_iff (a b : Char) : a < b ↔ a.toNat < b.toNat := UInt32.lt_iff_toNat_lt

/-- Of two sequences of digits of the same length, the one with smaller value comes first. -/
theorem lex_of_value_lt (l m : List Char) (hl : ∀ c ∈ l, c.isDigit = true)
    (hm : ∀ c ∈ m, c.isDigit = true) (hlen : l.length = m.length)
    (h : Nat.ofDigitChars 10 l 0 < Nat.ofDigitChars 10 m 0) : l < m := by
  induction l generalizing m with
  | nil => cases m with
    | nil => simp at h
    | cons c m => simp at hlen
  | cons a l ih =>
    cases m with
    | nil => simp at hlen
    | cons b m =>
      have hlen' : l.length = m.length := by simpa using hlen
      rw [ofDigitChars_cons, ofDigitChars_cons, ofDigitChars_init, ofDigitChars_init m] at h
      simp only [Nat.mul_zero, Nat.zero_add] at h
      have ha := digit_ge (hl a (by simp))
      have hb := digit_ge (hm b (by simp))
      have hl' := ofDigitChars_lt l fun c hc => hl c (by simp [hc])
      have hm' := ofDigitChars_lt m fun c hc => hm c (by simp [hc])
      rw [hlen'] at h hl'
      rcases Nat.lt_trichotomy a.toNat b.toNat with hab | hab | hab
      · exact List.cons_lt_cons_iff.mpr (Or.inl ((char_lt_iff a b).mpr hab))
      · have heq : a = b := Char.ext (UInt32.toNat_inj.mp hab)
        refine List.cons_lt_cons_iff.mpr (Or.inr ⟨heq, ih m (fun c hc => hl c (by simp [hc]))
          (fun c hc => hm c (by simp [hc])) hlen' ?_⟩)
        rw [hab] at h
        omega
      · exfalso
        have h1 : b.toNat - '0'.toNat + 1 ≤ a.toNat - '0'.toNat := by omega
        have h2 := Nat.mul_le_mul_right (10 ^ m.length) h1
        rw [Nat.add_mul, Nat.one_mul] at h2
        omega

theorem string_lt_iff (a b : String) : a < b ↔ a.toList < b.toList := String.lt_iff_toList_lt

theorem append_lt {p l m : List Char} (h : l < m) : p ++ l < p ++ m := by
  induction p with
  | nil => exact h
  | cons c p ih => exact List.cons_lt_cons_iff.mpr (Or.inr ⟨rfl, ih⟩)

/-- A smaller beginning of the same length makes a list smaller. -/
theorem lt_append {l m x : List Char} (hlen : l.length = m.length) (h : l < m) : l ++ x < m := by
  induction l generalizing m with
  | nil => cases m with
    | nil => exact absurd h (lt_irrefl _)
    | cons c m => simp at hlen
  | cons a l ih =>
    cases m with
    | nil => simp at hlen
    | cons b m =>
      rw [List.cons_append]
      rcases List.cons_lt_cons_iff.mp h with h | ⟨h1, h2⟩
      · exact List.cons_lt_cons_iff.mpr (Or.inl h)
      · exact List.cons_lt_cons_iff.mpr (Or.inr ⟨h1, ih (by simpa using hlen) h2⟩)

theorem pad_length {w i : Nat} (hw : 0 < w) (h : i < 10 ^ w) : (pad w i).toList.length = w := by
  rw [pad_toList, List.length_append, List.length_replicate]
  have : (Nat.toDigits 10 i).length ≤ w := (Nat.length_toDigits_le_iff (by norm_num) hw).mpr h
  omega

theorem pad_digits (w i : Nat) : ∀ c ∈ (pad w i).toList, c.isDigit = true := fun _ h => pad_digit h

theorem pad_lt {w i j : Nat} (hw : 0 < w) (hi : i < 10 ^ w) (hj : j < 10 ^ w) (h : i < j) :
    (pad w i).toList < (pad w j).toList :=
  lex_of_value_lt _ _ (pad_digits w i) (pad_digits w j)
    (by rw [pad_length hw hi, pad_length hw hj]) (by rw [pad_value, pad_value]; exact h)

/-- Numbers with one digit more than the width. -/
theorem pad_overflow {i : Nat} (h1 : 100000 ≤ i) (h2 : i < 1000000) :
    (pad 5 i).toList = (pad 5 (i / 10)).toList ++ [Nat.digitChar (i % 10)] := by
  have e : Nat.toDigits 10 i = Nat.toDigits 10 (i / 10) ++ [Nat.digitChar (i % 10)] := by
    rw [Nat.toDigits_of_base_le (by norm_num) (by omega)]
  have hl : (Nat.toDigits 10 (i / 10)).length = 5 := by
    have a1 := (Nat.length_toDigits_le_iff (b := 10) (n := i / 10) (k := 5) (by norm_num) (by norm_num)).mpr
      (by omega)
    have a2 : ¬ (Nat.toDigits 10 (i / 10)).length ≤ 4 := fun h => by
      have := (Nat.length_toDigits_le_iff (b := 10) (n := i / 10) (k := 4) (by norm_num) (by norm_num)).mp h
      omega
    omega
  rw [pad_toList, pad_toList, e, hl]
  simp [hl]

theorem lastSorted_fold (l : List String) (a : String) :
    ∃ m, l.foldl (fun acc s => match acc with
      | none => some s
      | some a => some (if a ≤ s then s else a)) (some a) = some m ∧ (m = a ∨ m ∈ l) ∧ a ≤ m ∧
        ∀ x ∈ l, x ≤ m := by
  induction l generalizing a with
  | nil => exact ⟨a, rfl, Or.inl rfl, le_refl a, by simp⟩
  | cons s l ih =>
    rw [List.foldl_cons]
    obtain ⟨m, h1, h2, h3, h4⟩ := ih (if a ≤ s then s else a)
    refine ⟨m, h1, ?_, ?_, ?_⟩
    · rcases h2 with h2 | h2
      · by_cases h : a ≤ s
        · rw [if_pos h] at h2; right; simp [h2]
        · rw [if_neg h] at h2; left; exact h2
      · right; simp [h2]
    · by_cases h : a ≤ s
      · rw [if_pos h] at h3; exact h.trans h3
      · rw [if_neg h] at h3; exact h3
    · intro x hx
      rcases List.mem_cons.mp hx with rfl | hx
      · by_cases h : a ≤ x
        · rw [if_pos h] at h3; exact h3
        · rw [if_neg h] at h3; exact (le_of_not_ge h).trans h3
      · exact h4 x hx

/-- The last of the sorted list is the maximum. -/
theorem lastSorted_eq {l : List String} {m : String} (hm : m ∈ l) (hmax : ∀ x ∈ l, x ≤ m) :
    lastSorted l = some m := by
  cases l with
  | nil => cases hm
  | cons a l =>
    obtain ⟨m', h1, h2, h3, h4⟩ := lastSorted_fold l a
    have : lastSorted (a :: l) = some m' := h1
    rw [this]
    congr 1
    apply le_antisymm
    · rcases h2 with rfl | h2
      · exact hmax _ (by simp)
      · exact hmax _ (by simp [h2])
    · rcases List.mem_cons.mp hm with rfl | hm
      · exact h3
      · exact h4 m hm

end Verif
