import Verif.Model.Vec
import Mathlib.Tactic.Ring
import Mathlib.Tactic.FieldSimp

/- Helper lemmas on vectors represented as lists. -/

set_option autoImplicit false

namespace Verif

section
variable {α β γ : Type*}

theorem getD_lt {l : List α} {i : Nat} (h : i < l.length) (d : α) : l.getD i d = l[i] := by
  simp [List.getD_eq_getElem?_getD, h]

theorem ext_getD {a b : List α} (d : α) (hl : a.length = b.length)
    (h : ∀ i < a.length, a.getD i d = b.getD i d) : a = b := by
  apply List.ext_getElem hl
  intro i h1 h2
  have := h i h1
  rwa [getD_lt h1, getD_lt h2] at this

theorem getD_map' {l : List α} {f : α → β} {i : Nat} (h : i < l.length) (d : β) (d' : α) :
    (l.map f).getD i d = f (l.getD i d') := by
  rw [getD_lt (by simpa using h), getD_lt h]; simp

theorem getD_zipWith' {a : List α} {b : List β} {f : α → β → γ} {i : Nat}
    (ha : i < a.length) (hb : i < b.length) (d : γ) (da : α) (db : β) :
    (List.zipWith f a b).getD i d = f (a.getD i da) (b.getD i db) := by
  rw [getD_lt (by simp; omega), getD_lt ha, getD_lt hb]; simp

@[simp] theorem getD_range_map {n i : Nat} {f : Nat → β} (h : i < n) (d : β) :
    ((List.range n).map f).getD i d = f i := by
  rw [getD_lt (by simpa using h)]; simp

theorem getD_append_left' {a b : List α} {i : Nat} (h : i < a.length) (d : α) :
    (a ++ b).getD i d = a.getD i d := by
  rw [getD_lt (by simp; omega), getD_lt h, List.getElem_append_left h]

theorem getD_append_right' {a b : List α} {i : Nat} (d : α) :
    (a ++ b).getD (a.length + i) d = b.getD i d := by
  rw [List.getD_eq_getElem?_getD, List.getD_eq_getElem?_getD,
    List.getElem?_append_right (by omega)]
  simp

theorem getD_take' {a : List α} {n i : Nat} (h : i < n) (d : α) :
    (a.take n).getD i d = a.getD i d := by
  simp [List.getD_eq_getElem?_getD, h]

theorem getD_drop' {a : List α} {n i : Nat} (d : α) :
    (a.drop n).getD i d = a.getD (n + i) d := by
  simp [List.getD_eq_getElem?_getD]

@[simp] theorem getD_replicate' {n i : Nat} {c : α} (h : i < n) (d : α) :
    (List.replicate n c).getD i d = c := by
  rw [getD_lt (by simpa using h)]; simp

end

variable {K : Type*} [Field K]

@[simp] theorem length_vadd (a b : List K) : (vadd a b).length = min a.length b.length := by
  simp [vadd]
@[simp] theorem length_vsub (a b : List K) : (vsub a b).length = min a.length b.length := by
  simp [vsub]
@[simp] theorem length_vmul (a b : List K) : (vmul a b).length = min a.length b.length := by
  simp [vmul]
@[simp] theorem length_vdiv (a b : List K) : (vdiv a b).length = min a.length b.length := by
  simp [vdiv]
@[simp] theorem length_vscale (c : K) (a : List K) : (vscale c a).length = a.length := by
  simp [vscale]
@[simp] theorem length_vdivs (c : K) (a : List K) : (vdivs a c).length = a.length := by
  simp [vdivs]
@[simp] theorem length_vzeros (n : Nat) : (vzeros n : List K).length = n := by
  simp [vzeros]

theorem getD_vadd {a b : List K} {i : Nat} (ha : i < a.length) (hb : i < b.length) :
    (vadd a b).getD i 0 = a.getD i 0 + b.getD i 0 := getD_zipWith' ha hb 0 0 0
theorem getD_vsub {a b : List K} {i : Nat} (ha : i < a.length) (hb : i < b.length) :
    (vsub a b).getD i 0 = a.getD i 0 - b.getD i 0 := getD_zipWith' ha hb 0 0 0
theorem getD_vmul {a b : List K} {i : Nat} (ha : i < a.length) (hb : i < b.length) :
    (vmul a b).getD i 0 = a.getD i 0 * b.getD i 0 := getD_zipWith' ha hb 0 0 0
theorem getD_vdiv {a b : List K} {i : Nat} (ha : i < a.length) (hb : i < b.length) :
    (vdiv a b).getD i 0 = a.getD i 0 / b.getD i 0 := getD_zipWith' ha hb 0 0 0
theorem getD_vscale {c : K} {a : List K} {i : Nat} :
    (vscale c a).getD i 0 = c * a.getD i 0 := by
  unfold vscale
  by_cases h : i < a.length
  · rw [getD_map' h 0 0]
  · simp [List.getD_eq_getElem?_getD, List.getElem?_eq_none (not_lt.mp h)]
theorem getD_vdivs {c : K} {a : List K} {i : Nat} :
    (vdivs a c).getD i 0 = a.getD i 0 / c := by
  unfold vdivs
  by_cases h : i < a.length
  · rw [getD_map' h 0 0]
  · simp [List.getD_eq_getElem?_getD, List.getElem?_eq_none (not_lt.mp h)]
@[simp] theorem getD_vzeros {n i : Nat} : (vzeros n : List K).getD i 0 = 0 := by
  unfold vzeros
  by_cases h : i < n
  · rw [getD_replicate' h]
  · simp [List.getD_eq_getElem?_getD, h]

namespace Par

@[simp] theorem at'_scalar (c : K) (i : Nat) : (scalar c).at' i = c := rfl
@[simp] theorem at'_array (l : List K) (i : Nat) : (array l).at' i = l.getD i 0 := rfl

theorem length_mul {p : Par K} {a : List K} (h : p.Fits a.length) :
    (p.mul a).length = a.length := by
  cases p with
  | scalar c => simp [mul]
  | array l => simp only [Fits] at h; simp [mul, h]

theorem getD_mul {p : Par K} {a : List K} {i : Nat} (h : p.Fits a.length) (hi : i < a.length) :
    (p.mul a).getD i 0 = p.at' i * a.getD i 0 := by
  cases p with
  | scalar c => exact getD_vscale
  | array l => simp only [Fits] at h; simp only [mul, at'_array]; rw [getD_vmul (by omega) hi]

omit [Field K] in
theorem fits_decouple {p : Par K} {n : Nat} (h : p.Fits n) : (p.decouple n).Fits n := by
  cases p with
  | scalar c => simp [decouple, Fits]
  | array l => exact h

@[simp] theorem at'_decouple (p : Par K) {n i : Nat} (hi : i < n) :
    (p.decouple n).at' i = p.at' i := by
  cases p with
  | scalar c => simp only [decouple, at'_array, at'_scalar]; exact getD_replicate' hi 0
  | array l => rfl

end Par

end Verif
