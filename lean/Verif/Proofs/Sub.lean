import Verif.Model.Dmp
import Verif.Props.Sigmoid
import Verif.Props.Richards

/- Helper lemmas about the subsystems of a Dmp and about index sets. -/

set_option autoImplicit false

namespace Verif

/-! ### Index sets -/

theorem pick_range (x : List ℝ) (a n : Nat) (h : a + n ≤ x.length) :
    pickAt x (List.range' a n) = (x.drop a).take n := by
  apply ext_getD 0
  · simp [pickAt]; omega
  · intro i hi
    have hi' : i < n := by simpa [pickAt] using hi
    have e : (List.range' a n)[i]'(by simpa using hi') = a + i := by simp
    rw [getD_take' hi', getD_drop', pickAt, getD_lt (by simpa using hi'), List.getElem_map, e]

theorem length_pick (x : List ℝ) (l : List Nat) : (pickAt x l).length = l.length := by simp [pickAt]

theorem length_put (l : List Nat) : ∀ (x v : List ℝ), (putAt x l v).length = x.length := by
  induction l with
  | nil => intro x v; rfl
  | cons i l ih =>
    intro x v
    cases v with
    | nil => rfl
    | cons c v => exact (ih (x.set i c) v).trans (by simp)

theorem put_cons (x : List ℝ) (i : Nat) (l : List Nat) (c : ℝ) (v : List ℝ) :
    putAt x (i :: l) (c :: v) = putAt (x.set i c) l v := rfl

theorem put_range (n : Nat) : ∀ (x v : List ℝ) (a : Nat), v.length = n → a + n ≤ x.length →
    putAt x (List.range' a n) v = x.take a ++ v ++ x.drop (a + n) := by
  induction n with
  | zero => intro x v a hv _; simp [putAt, List.length_eq_zero_iff.mp hv]
  | succ n ih =>
    intro x v a hv ha
    obtain ⟨c, v, rfl⟩ := List.exists_of_length_succ v hv
    rw [List.range'_succ, put_cons, ih (x.set a c) v (a + 1) (by simpa using hv)
      (by simp; omega)]
    have h1 : (x.set a c).take (a + 1) = x.take a ++ [c] := by
      rw [List.take_add_one, List.take_set]
      have : a < x.length := by omega
      rw [List.set_eq_of_length_le (by simp)]
      simp [this]
    have h2 : (x.set a c).drop (a + 1 + n) = x.drop (a + (n + 1)) := by
      rw [List.drop_set_of_lt (by omega)]
      congr 1; omega
    rw [h1, h2]; simp

/-! ### Subsystems -/

namespace Sub

/-- Sizes agree, and the cache of a sigmoid system is up to date. -/
def Wf : Sub → Prop
  | .time s => s.dimX = 1 ∧ s.xInit.length = 1 ∧ s.dimY = 1
  | .exponential s => s.Wf
  | .sigmoid s => s.Wf ∧ s.Coherent
  | .richards s => s.Wf

/-- The object after a query. -/
noncomputable def touch : Sub → Sub
  | .time s => .time s
  | .exponential s => .exponential s
  | .sigmoid s => .sigmoid s.filled
  | .richards s => .richards s.clipped

/-- The differential equation as a function. -/
noncomputable def rate (x : List ℝ) : Sub → List ℝ
  | .time s => ((s.diffEq x).toOption).getD []
  | .exponential s => s.diffEq x
  | .sigmoid s => Sigmoid.rate s.maxRate x s.ksNow
  | .richards s => s.rhs x

/-- Row of the analytical solution. -/
noncomputable def xAt (t : ℝ) : Sub → List ℝ
  | .time s => s.xAt t
  | .exponential s => s.xAt t
  | .sigmoid s => s.xAt t
  | .richards s => s.xAt t

/-- Row of the rates of change in the analytical solution. -/
noncomputable def xdAt (t : ℝ) : Sub → List ℝ
  | .time s => s.xdAt t
  | .exponential s => s.xdAt t
  | .sigmoid s => s.xdAt t
  | .richards s => s.xdAt t

@[simp] theorem base_touch (s : Sub) : s.touch.base = s.base := by cases s <;> rfl

@[simp] theorem touch_touch (s : Sub) : s.touch.touch = s.touch := by
  cases s with
  | time s => rfl
  | exponential s => rfl
  | sigmoid s => rfl
  | richards s => exact congrArg Sub.richards s.clipped_clipped

theorem wf_touch {s : Sub} (h : s.Wf) : s.touch.Wf := by
  cases s with
  | time s => exact h
  | exponential s => exact h
  | sigmoid s => exact ⟨⟨h.1.dim, h.1.xInit, h.1.maxRate, h.1.inflRatio⟩, s.filled_coherent⟩
  | richards s => exact Richards.clipped_wf h

@[simp] theorem rate_touch (s : Sub) (x : List ℝ) : s.touch.rate x = s.rate x := by
  cases s with
  | time s => rfl
  | exponential s => rfl
  | sigmoid s => rfl
  | richards s => simp [touch, rate, Richards.rhs, Richards.clipped_clipped, Richards.clipped_left]

@[simp] theorem xAt_touch (s : Sub) (t : ℝ) : s.touch.xAt t = s.xAt t := by
  cases s with
  | time s => rfl
  | exponential s => rfl
  | sigmoid s => rfl
  | richards s => simp [touch, xAt, Richards.xAt, Richards.clipped_clipped, Richards.clipped_left]

@[simp] theorem xdAt_touch (s : Sub) (t : ℝ) : s.touch.xdAt t = s.xdAt t := by
  cases s with
  | time s => rfl
  | exponential s => rfl
  | sigmoid s => rfl
  | richards s => simp [touch, xdAt, Richards.xdAt, Richards.clipped_clipped, Richards.clipped_left]

theorem Wf.dim {s : Sub} (h : s.Wf) : s.base.dimX = s.base.dimY := by
  cases s with
  | time s => exact h.1.trans h.2.2.symm
  | exponential s => exact Exponential.Wf.dim h
  | sigmoid s => exact h.1.dim
  | richards s => exact Richards.Wf.dim h

theorem Wf.xInit {s : Sub} (h : s.Wf) : s.base.xInit.length = s.base.dimX := by
  cases s with
  | time s => exact h.2.1.trans h.1.symm
  | exponential s => exact (Exponential.Wf.xInit h).trans (Exponential.Wf.dim h).symm
  | sigmoid s => exact h.1.xInit
  | richards s => exact Richards.Wf.xInit h

theorem time_diffEq (s : TimeSystem) (x : List ℝ) (h : x.length = 1) :
    ∃ c, s.diffEq x = .ok [c] := by
  obtain ⟨c, rfl⟩ := List.length_eq_one_iff.mp h
  change ∃ c', (if s.countDown then if c > 0 then Except.ok [-1 / s.tau] else .ok [0]
    else if c < 1 then .ok [1 / s.tau] else .ok [0]) = Except.ok [c']
  split_ifs <;> exact ⟨_, rfl⟩

theorem diffEq_run {s : Sub} (h : s.Wf) {x : List ℝ} (hx : x.length = s.base.dimX) :
    Sub.diffEq x s = (.ok (s.rate x), s.touch) := by
  cases s with
  | time s =>
    obtain ⟨c, hc⟩ := time_diffEq s x (hx.trans h.1)
    simp only [rate, touch, hc]
    change (s.diffEq x, Sub.time s) = _
    rw [hc]; rfl
  | exponential s => rfl
  | sigmoid s =>
    change ((Sigmoid.diffEq x s).1, Sub.sigmoid (Sigmoid.diffEq x s).2) = _
    rw [Sigmoid.diffEq_run h.2]; rfl
  | richards s =>
    change ((Richards.diffEq x s).1, Sub.richards (Richards.diffEq x s).2) = _
    rw [Richards.diffEq_run]; rfl

theorem analytical_run {s : Sub} (h : s.Wf) (ts : List ℝ) :
    Sub.analytical ts s = (.ok (ts.map fun t => s.xAt t, ts.map fun t => s.xdAt t), s.touch) := by
  cases s with
  | time s => rfl
  | exponential s => rfl
  | sigmoid s =>
    change ((Sigmoid.analytical ts s).1, Sub.sigmoid (Sigmoid.analytical ts s).2) = _
    rw [Sigmoid.analytical_run h.2]; rfl
  | richards s =>
    change ((Richards.analytical ts s).1, Sub.richards (Richards.analytical ts s).2) = _
    rw [Richards.analytical_run]; rfl

theorem integrateStart_run {s : Sub} (h : s.Wf) :
    DynSys.integrateStart none s = (.ok (s.base.xInit, s.rate s.base.xInit), s.touch) := by
  unfold DynSys.integrateStart
  simp only
  rw [PyM.self_bind]
  change ((Sub.diffEq s.base.xInit >>= _) : PyM Sub _) s = _
  rw [PyM.bind_ok (diffEq_run h h.xInit)]
  rfl

theorem length_rate {s : Sub} (h : s.Wf) {x : List ℝ} (hx : x.length = s.base.dimX) :
    (s.rate x).length = s.base.dimX := by
  cases s with
  | time s =>
    obtain ⟨c, hc⟩ := time_diffEq s x (hx.trans h.1)
    simp only [rate, hc]
    exact h.1.symm
  | exponential s =>
    have hx' : x.length = s.dimY := hx.trans (Exponential.Wf.dim h)
    have hl : (vsub s.xAttr x).length = s.dimY := by simp [Exponential.Wf.xAttr h, hx']
    have hf : s.alpha.Fits (vsub s.xAttr x).length := hl ▸ Exponential.Wf.alpha h
    change (vdivs (s.alpha.mul (vsub s.xAttr x)) s.tau).length = s.dimX
    rw [length_vdivs, Par.length_mul hf, hl, Exponential.Wf.dim h]
  | sigmoid s => exact Sigmoid.rate_length h.1 hx
  | richards s => simpa [rate, Richards.rhs] using hx

theorem length_xAt {s : Sub} (h : s.Wf) (t : ℝ) : (s.xAt t).length = s.base.dimX := by
  cases s with
  | time s =>
    change (s.xAt t).length = s.dimX
    rw [h.1]; unfold TimeSystem.xAt; split_ifs <;> rfl
  | exponential s => simpa [xAt, Exponential.xAt, base] using (Exponential.Wf.dim h).symm
  | sigmoid s => simp [xAt, Sigmoid.xAt, base]
  | richards s => simp [xAt, Richards.xAt, base]

theorem length_xdAt {s : Sub} (h : s.Wf) (t : ℝ) : (s.xdAt t).length = s.base.dimX := by
  cases s with
  | time s =>
    change (s.xdAt t).length = s.dimX
    rw [h.1]; unfold TimeSystem.xdAt; split_ifs <;> rfl
  | exponential s => simpa [xdAt, Exponential.xdAt, base] using (Exponential.Wf.dim h).symm
  | sigmoid s => simp [xdAt, Sigmoid.xdAt, base]
  | richards s => simp [xdAt, Richards.xdAt, base]

/-- The attractor that is set in an exponential system. -/
def withAttr (y : List ℝ) : Sub → Sub
  | .exponential s => .exponential { s with xAttr := y }
  | s => s

theorem setYAttr_run {s : Sub} (y : List ℝ) (hy : y.length = s.base.dimY) :
    Sub.setYAttr y s = (.ok (), s.withAttr y) := by
  cases s with
  | exponential s =>
    change ((Exponential.setYAttr y s).1, Sub.exponential (Exponential.setYAttr y s).2) = _
    unfold Exponential.setYAttr
    rw [PyM.self_bind, if_neg (by simpa [base] using hy)]
    rfl
  | time s => rfl
  | sigmoid s => rfl
  | richards s => rfl

theorem wf_withAttr {s : Sub} (h : s.Wf) {y : List ℝ} (hy : y.length = s.base.dimY) :
    (s.withAttr y).Wf := by
  cases s with
  | exponential s =>
    have h' : s.Wf := h
    exact ⟨h'.dim, h'.xInit, hy, h'.alpha⟩
  | time s => exact h
  | sigmoid s => exact h
  | richards s => exact h

@[simp] theorem base_withAttr (s : Sub) (y : List ℝ) : (s.withAttr y).base = s.base := by
  cases s <;> rfl

theorem touch_withAttr (s : Sub) (y : List ℝ) : (s.withAttr y).touch = s.touch.withAttr y := by
  cases s <;> rfl

end Sub

end Verif
