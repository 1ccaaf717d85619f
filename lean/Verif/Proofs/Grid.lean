import Verif.Model.BasisFunctions
import Mathlib.Algebra.BigOperators.Fin
import Mathlib.Tactic.Ring
import Mathlib.Tactic.Linarith

/- The loop over all combinations of centres (basis_functions.py:169-187). -/

set_option autoImplicit false

namespace Verif

/-- The digits of the `r`-th combination. -/
def digitsOf : List Nat → Nat → List Nat
  | [], _ => []
  | _ :: ns, r => r / ns.prod :: digitsOf ns (r % ns.prod)

@[simp] theorem digitsOf_length (ns : List Nat) (r : Nat) : (digitsOf ns r).length = ns.length := by
  induction ns generalizing r with
  | nil => rfl
  | cons n ns ih => simp [digitsOf, ih]

theorem digitsOf_zero (ns : List Nat) : digitsOf ns 0 = List.replicate ns.length 0 := by
  induction ns with
  | nil => rfl
  | cons n ns ih => simp [digitsOf, ih, List.replicate_succ]

/-- One step of the loop over the digits. -/
def carry (digitMax : List Nat) (dg : List Nat) (i : Nat) : List Nat :=
  if dg.getD i 0 ≥ digitMax.getD i 0 then (dg.set i 0).modify (i - 1) (· + 1) else dg

theorem nextDigits_eq (digitMax digit : List Nat) : nextDigits digitMax digit =
    (List.range' 1 (digit.length - 1)).reverse.foldl (carry digitMax)
      (digit.modify (digit.length - 1) (· + 1)) := rfl

theorem carry_shift (m d : Nat) (digitMax dg : List Nat) (i : Nat) (hi : 1 ≤ i) :
    carry (m :: digitMax) (d :: dg) (i + 1) = d :: carry digitMax dg i := by
  unfold carry
  simp only [List.getD_cons_succ]
  split
  · obtain ⟨j, rfl⟩ : ∃ j, i = j + 1 := ⟨i - 1, by omega⟩
    simp
  · rfl

theorem foldl_carry_shift (m d : Nat) (digitMax dg l : List Nat) (hl : ∀ i ∈ l, 1 ≤ i) :
    (l.map (· + 1)).foldl (carry (m :: digitMax)) (d :: dg) = d :: l.foldl (carry digitMax) dg := by
  induction l generalizing dg with
  | nil => rfl
  | cons i l ih =>
    rw [List.map_cons, List.foldl_cons, List.foldl_cons, carry_shift _ _ _ _ _ (hl i (by simp)),
      ih _ fun j hj => hl j (by simp [hj])]

/-- The first digit is increased if there is a carry from the others. -/
theorem nextDigits_cons (m d m1 d1 : Nat) (digitMax digit : List Nat) :
    nextDigits (m :: m1 :: digitMax) (d :: d1 :: digit) =
      carry (m :: m1 :: digitMax) (d :: nextDigits (m1 :: digitMax) (d1 :: digit)) 1 := by
  rw [nextDigits_eq, nextDigits_eq]
  have h1 : List.range' 1 ((d :: d1 :: digit).length - 1) =
      1 :: (List.range' 1 ((d1 :: digit).length - 1)).map (· + 1) := by
    rw [List.length_cons, Nat.add_sub_cancel, List.length_cons, Nat.add_sub_cancel,
      List.range'_succ]
    congr 1
    refine List.ext_getElem (by simp) fun i _ _ => ?_
    simp only [List.getElem_range', List.getElem_map]
    omega
  rw [h1, List.reverse_cons, List.foldl_append, ← List.map_reverse]
  have h2 : (d :: d1 :: digit).modify ((d :: d1 :: digit).length - 1) (· + 1) =
      d :: (d1 :: digit).modify ((d1 :: digit).length - 1) (· + 1) := by
    simp
  rw [h2, foldl_carry_shift _ _ _ _ _ (fun i hi => by
    rw [List.mem_reverse, List.mem_range'_1] at hi; exact hi.1)]
  rfl

theorem nextDigits_digitsOf (ns ext : List Nat) (r : Nat) (hr : r < ns.prod) :
    nextDigits (ns ++ ext) (digitsOf ns r) = digitsOf ns (r + 1) := by
  induction ns generalizing r with
  | nil => rfl
  | cons n ns ih =>
    cases ns with
    | nil => simp [nextDigits, digitsOf]
    | cons n1 ns =>
      have hpos : 0 < (n1 :: ns).prod := by
        rcases Nat.eq_zero_or_pos (n1 :: ns).prod with h | h
        · rw [List.prod_cons, h] at hr; omega
        · exact h
      have hlt : r % (n1 :: ns).prod < (n1 :: ns).prod := Nat.mod_lt _ hpos
      have hd : digitsOf (n1 :: ns) (r % (n1 :: ns).prod) =
          (r % (n1 :: ns).prod) / ns.prod :: digitsOf ns (r % (n1 :: ns).prod % ns.prod) := rfl
      have ih' := ih (r % (n1 :: ns).prod) hlt
      have e1 : digitsOf (n :: n1 :: ns) r =
          r / (n1 :: ns).prod :: digitsOf (n1 :: ns) (r % (n1 :: ns).prod) := rfl
      rw [e1, hd, List.cons_append, List.cons_append, nextDigits_cons, ← List.cons_append, ← hd, ih']
      have e2 : digitsOf (n :: n1 :: ns) (r + 1) =
          (r + 1) / (n1 :: ns).prod :: digitsOf (n1 :: ns) ((r + 1) % (n1 :: ns).prod) := rfl
      rw [e2]
      set P := (n1 :: ns).prod with hP
      have hPn : P = n1 * ns.prod := by rw [hP, List.prod_cons]
      have hns : 0 < ns.prod := Nat.pos_of_ne_zero fun h => by rw [hPn, h] at hpos; omega
      unfold carry
      by_cases hc : r % P + 1 = P
      · -- carry
        have h1 : digitsOf (n1 :: ns) (r % P + 1) = n1 :: digitsOf ns 0 := by
          rw [hc, digitsOf, hPn, Nat.mul_div_cancel _ hns, Nat.mul_mod_left]
        have h2 : r + 1 = (r / P + 1) * P := by
          have := Nat.div_add_mod r P
          rw [Nat.mul_comm] at this
          rw [Nat.add_mul]
          omega
        rw [h1, h2, Nat.mul_div_cancel _ hpos, Nat.mul_mod_left]
        simp [digitsOf]
      · have hlt' : r % P + 1 < P := by omega
        have h2 : r + 1 = P * (r / P) + (r % P + 1) := by
          have := Nat.div_add_mod r P
          omega
        have h3 : (r + 1) / P = r / P := by
          rw [h2, Nat.mul_add_div hpos, Nat.div_eq_of_lt hlt', Nat.add_zero]
        have h4 : (r + 1) % P = r % P + 1 := by
          conv_lhs => rw [h2]
          rw [Nat.mul_add_mod, Nat.mod_eq_of_lt hlt']
        rw [h3, h4]
        have h5 : (r % P + 1) / ns.prod < n1 := by
          rw [Nat.div_lt_iff_lt_mul hns, ← hPn]; exact hlt'
        have h6 : ¬ (n1 ≤ (r % P + 1) / ns.prod) := by omega
        simp [digitsOf, h6]

/-- The digits are within their limits. -/
theorem digitsOf_lt (ns : List Nat) (r : Nat) (hr : r < ns.prod) :
    List.Forall₂ (· < ·) (digitsOf ns r) ns := by
  induction ns generalizing r with
  | nil => exact .nil
  | cons n ns ih =>
    rw [List.prod_cons] at hr
    have hpos : 0 < ns.prod := Nat.pos_of_ne_zero fun h => by rw [h] at hr; omega
    exact .cons ((Nat.div_lt_iff_lt_mul hpos).mpr hr) (ih _ (Nat.mod_lt _ hpos))

/-- Position of a combination. -/
def radix : List Nat → List Nat → Nat
  | _ :: ns, d :: ds => d * ns.prod + radix ns ds
  | _, _ => 0

theorem radix_lt (ns ds : List Nat) (h : List.Forall₂ (· < ·) ds ns) : radix ns ds < ns.prod := by
  induction h with
  | nil => simp [radix]
  | @cons d n ds ns hd _ ih =>
    rw [radix, List.prod_cons]
    calc d * ns.prod + radix ns ds < d * ns.prod + ns.prod := by omega
      _ = (d + 1) * ns.prod := by rw [Nat.add_mul, Nat.one_mul]
      _ ≤ n * ns.prod := Nat.mul_le_mul_right _ hd

theorem digitsOf_radix (ns ds : List Nat) (h : List.Forall₂ (· < ·) ds ns) :
    digitsOf ns (radix ns ds) = ds := by
  induction h with
  | nil => rfl
  | @cons d n ds ns hd hds ih =>
    have := radix_lt ns ds hds
    rw [radix, digitsOf, Nat.mul_comm, Nat.mul_add_div (by omega), Nat.div_eq_of_lt this,
      Nat.mul_add_mod, Nat.mod_eq_of_lt this, ih, Nat.add_zero]

theorem radix_digitsOf (ns : List Nat) (r : Nat) (hr : r < ns.prod) :
    radix ns (digitsOf ns r) = r := by
  induction ns generalizing r with
  | nil => simp at hr; simp [digitsOf, radix, hr]
  | cons n ns ih =>
    rw [List.prod_cons] at hr
    have hpos : 0 < ns.prod := Nat.pos_of_ne_zero fun h => by rw [h] at hr; omega
    rw [digitsOf, radix, ih _ (Nat.mod_lt _ hpos), Nat.mul_comm, Nat.div_add_mod]

noncomputable section

/-- The entries selected by digits. -/
def pick (lists : List (List ℝ)) (ds : List Nat) : List ℝ :=
  List.zipWith (fun l k => l.getD k 0) lists ds

theorem pickRow_ok (lists : List (List ℝ)) (ds : List Nat)
    (h : List.Forall₂ (fun k (l : List ℝ) => k < l.length) ds lists) :
    pickRow lists ds = .ok (pick lists ds) := by
  induction h with
  | nil => rfl
  | @cons k l ds lists hk _ ih =>
    rw [pickRow]
    have : l[k]? = some (l.getD k 0) := by simp [hk]
    rw [this]
    simp only [ih]
    rfl

theorem gridLoop_eq (cs ws : List (List ℝ)) (ns ext : List Nat) (hc : cs.map List.length = ns)
    (hw : ws.map List.length = ns) (hd : ns ≠ []) (hpos : 0 < ns.prod)
    (rows r : Nat) (hle : r + rows ≥ ns.prod)
    (hr : r ≤ ns.prod) :
    gridLoop cs ws (ns ++ ext) rows (digitsOf ns r) = .ok
      ((List.range' r (ns.prod - r)).map
          (fun r => (pick cs (digitsOf ns r), pick ws (digitsOf ns r))) ++
        List.replicate (r + rows - ns.prod)
          (List.replicate ns.length 0, List.replicate ns.length 0)) := by
  have hcond : ∀ r, (digitsOf ns r).getD 0 0 < (ns ++ ext).getD 0 0 ↔ r < ns.prod := by
    intro r
    cases ns with
    | nil => exact absurd rfl hd
    | cons n ns =>
      simp only [digitsOf, List.getD_cons_zero, List.cons_append, List.prod_cons]
      have h : 0 < ns.prod := by
        rw [List.prod_cons] at hpos
        exact Nat.pos_of_mul_pos_left hpos
      rw [Nat.div_lt_iff_lt_mul h]
  induction rows generalizing r with
  | zero =>
    have : r = ns.prod := by omega
    subst this
    rw [gridLoop, if_neg (by rw [hcond]; omega)]
    simp
  | succ rows ih =>
    rw [gridLoop]
    by_cases hlt : r < ns.prod
    · rw [if_pos ((hcond r).mpr hlt)]
      have hd' := digitsOf_lt ns r hlt
      have hpc : ∀ ls : List (List ℝ), ls.map List.length = ns →
          List.Forall₂ (fun k (l : List ℝ) => k < l.length) (digitsOf ns r) ls := by
        intro ls hls
        rw [← hls, List.forall₂_map_right_iff] at hd'
        rw [← hls]
        exact hd'
      rw [pickRow_ok cs _ (hpc cs hc), pickRow_ok ws _ (hpc ws hw), nextDigits_digitsOf ns ext r hlt,
        ih (r + 1) (by omega) (by omega)]
      have e1 : ns.prod - r = (ns.prod - (r + 1)) + 1 := by omega
      have e2 : r + (rows + 1) - ns.prod = r + 1 + rows - ns.prod := by omega
      rw [e1, List.range'_succ, e2]
      rfl
    · have : r = ns.prod := by omega
      subst this
      rw [if_neg (by rw [hcond]; omega)]
      simp [List.map_const']

end

end Verif
