import Verif.Proofs.CppSteps
import Verif.Proofs.DmpSetters
import Verif.Props.Exponential
import Verif.Props.Spring
import Verif.Props.Time

/- C65: the dynamical systems of C++ and Python. -/

set_option autoImplicit false

namespace Verif

namespace Cpp

/-- Both programs succeed, with the same result. -/
def Same {α : Type} (a : CppResult α) (b : Except PyErr α) : Prop := ∃ r, a = .ok r ∧ b = .ok r

/-- The result of a C++ function without the new object. -/
def result {α σ : Type} (a : CppResult (α × σ)) : CppResult α := a.map Prod.fst

theorem same_result {α σ : Type} {a : CppResult (α × σ)} {b : Except PyErr α} {r : α} {c : σ}
    (h1 : a = .ok (r, c)) (h2 : b = .ok r) : Same (result a) b :=
  ⟨r, by rw [h1]; rfl, h2⟩

/-- The attributes of the base class agree. -/
structure SameBase (c : Base) (s : Verif.Base) : Prop where
  tau : c.tau = s.tau
  dimX : c.dimX = s.dimX
  dimY : c.dimY = s.dimY
  xInit : c.xInit = s.xInit

/-- A C++ object and a Python object have the same parameters. -/
def Twin : AnySystem → Sub → Prop
  | .time c, .time s => SameBase c.toBase s.toBase ∧ c.countDown = s.countDown
  | .exponential c, .exponential s =>
    SameBase c.toBase s.toBase ∧ c.xAttr = s.xAttr ∧ s.alpha = .scalar c.alpha
  | .sigmoid c, .sigmoid s =>
    SameBase c.toBase s.toBase ∧ s.maxRate = .scalar c.maxRate ∧ s.inflRatio = .scalar c.inflRatio ∧
      c.ks = s.ksNow
  | _, _ => False

/-- A C++ spring-damper system and one of Python have the same parameters. -/
structure SpringTwin (c : Spring) (s : SpringDamper) : Prop where
  base : SameBase c.toBase s.toBase
  yAttr : c.yAttr = s.yAttr
  damping : s.damping = .scalar c.damping
  spring : s.spring = .scalar c.spring
  mass : s.mass = .scalar c.mass

theorem Twin.base {c : AnySystem} {s : Sub} (h : Twin c s) : SameBase c.base s.base := by
  cases c <;> cases s <;> first | exact h.1 | exact h.elim

/-! ### Differential equations -/

theorem Twin.diffEq {c : AnySystem} {s : Sub} (w : s.Wf) (h : Twin c s) {x : List ℝ}
    (hx : x.length = s.base.dimX) :
    c.diffEq x = .ok (s.rate x) := by
  cases c <;> cases s <;> try exact h.elim
  · rename_i c s
    obtain ⟨hb, hc⟩ := h
    have hx1 : x.length = 1 := hx.trans w.1
    obtain ⟨x0, rfl⟩ := List.length_eq_one_iff.mp hx1
    simp only [AnySystem.diffEq, TimeSystem.diffEq, Sub.rate, Verif.TimeSystem.diffEq, hc, hb.tau]
    cases s.countDown
    · by_cases h : x0 < 1 <;> simp [h, Except.toOption]
    · by_cases h : x0 > 0 <;> simp [h, Except.toOption]
  · rename_i c s
    obtain ⟨hb, hc, ha⟩ := h
    have h1 : s.xAttr.length = x.length := by
      have w' : Verif.Exponential.Wf s := w
      have h1 := w'.xAttr
      rw [← w'.dim] at h1
      exact h1.trans hx.symm
    simp only [AnySystem.diffEq, Exponential.diffEq, Sub.rate, Verif.Exponential.diffEq, ha, hb.tau,
      hc, Par.mul]
    rw [if_neg (by simp [h1])]
  · rename_i c s
    obtain ⟨hb, hr, hi, hk⟩ := h
    have h1 : x.length = s.ksNow.length := by
      simp only [Sigmoid.ksNow, List.length_map, List.length_range]
      exact hx.trans w.1.xInit.symm
    simp only [AnySystem.diffEq, Sigmoid.diffEq, Sub.rate, Verif.Sigmoid.rate, hr, hk, Par.mul]
    rw [if_neg (by simp [h1])]

theorem SpringTwin.diffEq {c : Spring} {s : SpringDamper} (w : s.Wf) (h : SpringTwin c s) {x : List ℝ}
    (hx : x.length = s.dimX) : c.diffEq x = .ok (s.diffEq x) := by
  have hd : c.dimX / 2 = s.dimY := by rw [h.base.dimX, w.dim]; omega
  have hx' : x.length = s.dimY + s.dimY := hx.trans w.dim
  unfold Spring.diffEq
  simp only [hd, h.yAttr, h.base.tau]
  rw [if_neg (by omega), if_neg (by simp [w.yAttr])]
  congr 1
  apply ext_getD 0
  · simp [SpringDamper.diffEq, hx', w.yAttr]
  · intro j hj
    have hj' : j < s.dimY + s.dimY := by
      simp [hx', w.yAttr] at hj; omega
    rcases SpringDamper.index_cases hj' with h1 | ⟨i, hi, rfl⟩
    · rw [SpringDamper.diffEq_getD_y hx' h1, getD_append_left' (by simp [hx', h1]), getD_vdivs,
        getD_take' h1, getD_drop']
    · rw [SpringDamper.diffEq_getD_z hx' hi, h.spring, h.damping, h.mass]
      have hl : (vdivs ((x.drop s.dimY).take s.dimY) s.tau).length = s.dimY := by simp [hx']
      have := getD_append_right' (a := vdivs ((x.drop s.dimY).take s.dimY) s.tau)
        (b := vdivs (vsub (vscale (-c.spring) (vsub (x.take s.dimY) s.yAttr))
          (vscale c.damping ((x.drop s.dimY).take s.dimY))) (c.mass * s.tau)) (i := i) 0
      rw [hl] at this
      refine this.trans ?_
      rw [getD_vdivs, getD_vsub (by simp [hx', w.yAttr, hi]) (by simp [hx', hi]), getD_vscale, getD_vscale,
        getD_vsub (by simp [hx', hi]) (by simp [w.yAttr, hi]), getD_take' hi, getD_take' hi, getD_drop']
      rfl

theorem twin_mirror (n : Nat) :
    Mirror (fun (c : AnySystem) (s : Sub) => s.Wf ∧ Twin c s ∧ s.base.dimX = n) n n where
  dimC h := h.2.1.base.dimX.trans h.2.2
  dimP h := h.2.2
  le := le_rfl
  diffEq {c s s' x xd} h hx hs := by
    obtain ⟨w, ht, hn⟩ := h
    have hx' : x.length = s.base.dimX := hx.trans hn.symm
    change Sub.diffEq x s = _ at hs
    rw [Sub.diffEq_run w hx'] at hs
    cases hs
    have hl : (s.rate x).length = n := (Sub.length_rate w hx').trans hn
    refine ⟨hl, c, ?_, Sub.wf_touch w, ?_, by simpa using hn⟩
    · change (do return (← c.diffEq (x.take n), c) : CppResult _) = _
      rw [List.take_of_length_le hx.le, ht.diffEq w hx', List.take_of_length_le hl.le]
      rfl
    · cases c <;> cases s <;> first | exact ht | exact ht.elim

theorem spring_mirror (n : Nat) :
    Mirror (fun (c : Spring) (s : SpringDamper) => s.Wf ∧ SpringTwin c s ∧ s.dimX = n) n n where
  dimC h := h.2.1.base.dimX.trans h.2.2
  dimP h := h.2.2
  le := le_rfl
  diffEq {c s s' x xd} h hx hs := by
    obtain ⟨w, ht, hn⟩ := h
    cases hs
    have hl : (s.diffEq x).length = n := by
      rw [SpringDamper.diffEq_length (by rw [hx, ← hn, w.dim]), ← w.dim, hn]
    refine ⟨hl, c, ?_, w, ht, hn⟩
    change (do return (← c.diffEq (x.take n), c) : CppResult _) = _
    rw [List.take_of_length_le hx.le, ht.diffEq w (hx.trans hn.symm), List.take_of_length_le hl.le]
    rfl

/-! ### Analytical solutions -/

open Classical in
theorem stopIndex_sorted (tau : ℝ) : ∀ (ts : List ℝ), ts.Pairwise (· ≤ ·) →
    TimeSystem.stopIndex tau ts ≤ ts.length ∧
      (∀ t ∈ ts.take (TimeSystem.stopIndex tau ts), t ≤ tau) ∧
      (∀ t ∈ ts.drop (TimeSystem.stopIndex tau ts), tau < t)
  | [], _ => by simp [TimeSystem.stopIndex]
  | t :: ts, h => by
    rw [List.pairwise_cons] at h
    by_cases ht : t > tau
    · simp only [TimeSystem.stopIndex, if_pos ht]
      refine ⟨by simp, by simp, ?_⟩
      intro u hu
      rcases List.mem_cons.mp (by simpa using hu) with rfl | hu
      · exact ht
      · exact lt_of_lt_of_le ht (h.1 u hu)
    · obtain ⟨h1, h2, h3⟩ := stopIndex_sorted tau ts h.2
      simp only [TimeSystem.stopIndex, if_neg ht]
      refine ⟨by simpa using h1, ?_, by simpa using h3⟩
      intro u hu
      rcases List.mem_cons.mp (by simpa using hu) with rfl | hu
      · exact not_lt.mp ht
      · exact h2 u hu

theorem map_split {α : Type} (n : Nat) (ts : List ℝ) (f g : ℝ → α) (a : α)
    (h1 : ∀ t ∈ ts.take n, f t = g t) (h2 : ∀ t ∈ ts.drop n, f t = a) :
    ts.map f = (ts.take n).map g ++ List.replicate (ts.length - n) a := by
  conv_lhs => rw [← List.take_append_drop n ts, List.map_append]
  congr 1
  · exact List.map_congr_left h1
  · rw [List.eq_replicate_iff]
    refine ⟨by simp, ?_⟩
    intro b hb
    obtain ⟨t, ht, rfl⟩ := List.mem_map.mp hb
    exact h2 t ht

open Classical in
theorem time_analytical {c : TimeSystem} {s : Verif.TimeSystem} (hb : SameBase c.toBase s.toBase)
    (hc : c.countDown = s.countDown) (hτ : 0 < s.tau) {ts : List ℝ} (hts : ts.Pairwise (· ≤ ·)) :
    c.analytical ts = s.analytical ts := by
  obtain ⟨h0, h1, h2⟩ := stopIndex_sorted s.tau ts hts
  unfold TimeSystem.analytical Verif.TimeSystem.analytical
  simp only [hb.tau, hc]
  have hrep : ∀ a : List ℝ, List.replicate (TimeSystem.stopIndex s.tau ts) a =
      (ts.take (TimeSystem.stopIndex s.tau ts)).map fun _ => a := by
    intro a
    rw [List.map_const']
    simp [h0]
  cases hd : s.countDown with
  | true =>
    simp only [if_true]
    congr 1
    · symm
      refine map_split _ ts _ _ _ ?_ ?_
      · intro t ht
        have : ¬ 1 - t / s.tau < 0 := by
          have := (div_le_one hτ).mpr (h1 t ht)
          linarith
        simp only [Verif.TimeSystem.xAt, hd, if_true, if_neg this]
        congr 1; ring
      · intro t ht
        have : 1 - t / s.tau < 0 := by
          have := (one_lt_div hτ).mpr (h2 t ht)
          linarith
        simp [Verif.TimeSystem.xAt, hd, this]
    · symm
      rw [hrep]
      refine map_split _ ts _ _ _ ?_ ?_
      · intro t ht
        have : ¬ 1 - t / s.tau < 0 := by
          have := (div_le_one hτ).mpr (h1 t ht)
          linarith
        simp only [Verif.TimeSystem.xdAt, hd, if_true, if_neg this]
      · intro t ht
        have : 1 - t / s.tau < 0 := by
          have := (one_lt_div hτ).mpr (h2 t ht)
          linarith
        simp [Verif.TimeSystem.xdAt, hd, this]
  | false =>
    simp only [Bool.false_eq_true, if_false]
    congr 1
    · symm
      refine map_split _ ts _ _ _ ?_ ?_
      · intro t ht
        have : ¬ t / s.tau > 1 := not_lt.mpr ((div_le_one hτ).mpr (h1 t ht))
        simp [Verif.TimeSystem.xAt, hd, this]
      · intro t ht
        have : t / s.tau > 1 := (one_lt_div hτ).mpr (h2 t ht)
        simp [Verif.TimeSystem.xAt, hd, this]
    · symm
      rw [hrep]
      refine map_split _ ts _ _ _ ?_ ?_
      · intro t ht
        have : ¬ t / s.tau > 1 := not_lt.mpr ((div_le_one hτ).mpr (h1 t ht))
        simp [Verif.TimeSystem.xdAt, hd, this]
      · intro t ht
        have : t / s.tau > 1 := (one_lt_div hτ).mpr (h2 t ht)
        simp [Verif.TimeSystem.xdAt, hd, this]

theorem exponential_analytical {c : Exponential} {s : Verif.Exponential} (w : s.Wf)
    (hb : SameBase c.toBase s.toBase) (hc : c.xAttr = s.xAttr) (ha : s.alpha = .scalar c.alpha)
    (ts : List ℝ) : c.analytical ts = .ok (s.analytical ts) := by
  have hx : c.xInit.length = c.xAttr.length := by rw [hb.xInit, hc, w.xInit, w.xAttr]
  unfold Exponential.analytical Verif.Exponential.analytical
  rw [if_neg (by simp [hx])]
  congr 2
  · refine List.map_congr_left fun t _ => ?_
    apply ext_getD 0
    · simp [Exponential.xAt, hb.xInit, hc, w.xInit, w.xAttr]
    · intro i hi
      have hi' : i < s.dimY := by
        simp [Exponential.xAt, hb.xInit, hc, w.xInit, w.xAttr] at hi; exact hi
      rw [Verif.Exponential.getD_xAt s t hi']
      unfold Exponential.xAt Verif.Exponential.xComp
      simp only [hb.xInit, hc, hb.tau, ha, Par.at'_scalar]
      rw [getD_vadd (by simp [w.xInit, w.xAttr, hi']) (by simp [w.xAttr, hi']),
        getD_map' (by simp [w.xInit, w.xAttr, hi']) 0 0,
        getD_vsub (by simp [w.xInit, hi']) (by simp [w.xAttr, hi'])]
  · refine List.map_congr_left fun t _ => ?_
    apply ext_getD 0
    · simp [Exponential.xdAt, hb.xInit, hc, w.xInit, w.xAttr]
    · intro i hi
      have hi' : i < s.dimY := by
        simp [Exponential.xdAt, hb.xInit, hc, w.xInit, w.xAttr] at hi; exact hi
      rw [Verif.Exponential.getD_xdAt s t hi']
      unfold Exponential.xdAt Verif.Exponential.xdComp
      simp only [hb.xInit, hc, hb.tau, ha, Par.at'_scalar]
      rw [getD_map' (by simp [w.xInit, w.xAttr, hi']) 0 0,
        getD_vsub (by simp [w.xInit, hi']) (by simp [w.xAttr, hi'])]
      ring

/-- Times for which the analytical solutions agree: any, but for a TimeSystem they must be sorted. -/
def Timely (s : Sub) (ts : List ℝ) : Prop :=
  match s with
  | .time s => 0 < s.tau ∧ ts.Pairwise (· ≤ ·)
  | _ => True

theorem Twin.analytical {c : AnySystem} {s : Sub} (w : s.Wf) (h : Twin c s) {ts : List ℝ}
    (hts : Timely s ts) :
    c.analytical ts = .ok (ts.map fun t => s.xAt t, ts.map fun t => s.xdAt t) := by
  cases c <;> cases s <;> try exact h.elim
  · rename_i c s
    exact congrArg Except.ok (time_analytical h.1 h.2 hts.1 hts.2)
  · rename_i c s
    exact exponential_analytical w h.1 h.2.1 h.2.2 ts
  · rename_i c s
    obtain ⟨hb, hr, hi, hk⟩ := h
    change Except.ok (c.analytical ts) = _
    congr 1
    unfold Sigmoid.analytical
    simp only [Sub.xAt, Sub.xdAt, Verif.Sigmoid.xAt, Verif.Sigmoid.xdAt]
    have e1 : c.xComp = s.xComp s.ksNow := by
      funext t i
      simp only [Sigmoid.xComp, Verif.Sigmoid.xComp, hr, hk, hb.xInit, Par.at'_scalar]
    have e2 : c.xdComp = s.xdComp s.ksNow := by
      funext t i
      simp only [Sigmoid.xdComp, Verif.Sigmoid.xdComp, hr, hk, hb.xInit, Par.at'_scalar,
        div_eq_mul_inv]
    rw [e1, e2, hb.dimX]

theorem SpringTwin.analytical {c : Spring} {s : SpringDamper} (w : s.Wf) (h : SpringTwin c s)
    (ts : List ℝ) : c.analytical ts = .ok (s.analytical ts) := by
  unfold Spring.analytical SpringDamper.analytical
  rw [if_neg (by rw [h.yAttr, h.base.dimY, w.yAttr]; omega)]
  have ho : ∀ i, c.omega0 = s.omega0 i := by
    intro i
    simp [Spring.omega0, SpringDamper.omega0, h.spring, h.mass, h.base.tau]
  have hm : ∀ t i, c.motion t i = (s.yComp t i, s.ydComp t i, s.yddComp t i) := by
    intro t i
    simp only [Spring.motion, SpringDamper.yComp, SpringDamper.ydComp, SpringDamper.yddComp,
      SpringDamper.coefA, SpringDamper.coefB, ho i, h.base.xInit, h.base.dimY, h.yAttr]
  have h1 : c.xAt = s.xAt := by
    funext t
    simp [Spring.xAt, SpringDamper.xAt, hm, h.base.dimY, h.base.tau]
  have h2 : c.xdAt = s.xdAt := by
    funext t
    simp [Spring.xdAt, SpringDamper.xdAt, hm, h.base.dimY, h.base.tau]
  rw [h1, h2]

/-! ### Reading and setters -/

/-- The initial state of a TimeSystem is that of its direction. (It is not written for C++.) -/
def Started : Sub → Prop
  | .time s => s.xInit = [Verif.TimeSystem.start s.countDown]
  | _ => True

theorem ofOrder_one (tau : ℝ) (y : List ℝ) :
    Base.ofOrder 1 tau y = .ok { tau := tau, dimX := y.length, dimY := y.length, xInit := y } := by
  simp [Base.ofOrder, Base.setYInit]

theorem ofOrder_two (tau : ℝ) (y : List ℝ) :
    Base.ofOrder 2 tau y =
      .ok { tau := tau, dimX := y.length * 2, dimY := y.length, xInit := y ++ vzeros y.length } := by
  rw [Base.ofOrder, if_pos (.inr rfl), Base.setYInit, if_neg (by simp)]
  by_cases h : y.length = 0
  · rw [if_pos (by simp [h])]
    simp [h, vzeros]
  · have e : y.length * 2 - y.length = y.length := by omega
    simp only
    rw [if_neg (by omega), if_neg (by omega), e]

theorem read_exponential {s : Verif.Exponential} (w : s.Wf) {a : ℝ} (ha : s.alpha = .scalar a) :
    ∃ c, readSystem (.exponential s) = .ok (some c) ∧ Twin c (.exponential s) := by
  refine ⟨.exponential ⟨⟨s.tau, s.xInit.length, s.xInit.length, s.xInit⟩, s.xAttr, a⟩, ?_, ?_⟩
  · simp only [readSystem, readExponential, ha, readDouble, Exponential.make, ofOrder_one]
    rfl
  · exact ⟨⟨rfl, by simp [w.xInit, w.dim], by simp [w.xInit], rfl⟩, rfl, ha⟩

theorem read_time {s : Verif.TimeSystem} (w : (Sub.time s).Wf) (h0 : Started (.time s)) :
    ∃ c, readSystem (.time s) = .ok (some c) ∧ Twin c (.time s) := by
  refine ⟨.time ⟨⟨s.tau, 1, 1, [if s.countDown then 1 else 0]⟩, s.countDown⟩, ?_, ?_⟩
  · simp only [readSystem, readTime, TimeSystem.make, ofOrder_one]
    rfl
  · exact ⟨⟨rfl, w.1.symm, w.2.2.symm, Eq.symm h0⟩, rfl⟩

theorem ks_eq {s : Verif.Sigmoid} {r i : ℝ} (hr : s.maxRate = .scalar r) (hi : s.inflRatio = .scalar i) :
    Sigmoid.computeKs s.xInit r (i * s.tau) = s.ksNow := by
  unfold Sigmoid.computeKs Verif.Sigmoid.ksNow
  apply ext_getD 0
  · simp
  · intro j hj
    have hj' : j < s.xInit.length := by simpa using hj
    rw [getD_map' hj' 0 0, getD_range_map hj']
    simp only [Verif.Sigmoid.kComp, hr, hi, Par.at'_scalar]
    rw [mul_comm i s.tau]

theorem read_sigmoid {s : Verif.Sigmoid} (w : s.Wf) {r i : ℝ} (hr : s.maxRate = .scalar r)
    (hi : s.inflRatio = .scalar i) :
    ∃ c, readSystem (.sigmoid s) = .ok (some c) ∧ Twin c (.sigmoid s) := by
  refine ⟨.sigmoid ⟨⟨s.tau, s.xInit.length, s.xInit.length, s.xInit⟩, r, i,
    Sigmoid.computeKs s.xInit r (i * s.tau)⟩, ?_, ?_⟩
  · simp only [readSystem, readSigmoid, hr, hi, readDouble, Sigmoid.make, ofOrder_one]
    rfl
  · exact ⟨⟨rfl, w.xInit, w.xInit.trans w.dim, rfl⟩, hr, hi, ks_eq hr hi⟩

/-- The parameters of a system that C++ reads as numbers. -/
def Scalar : Sub → Prop
  | .time _ => True
  | .exponential s => ∃ a, s.alpha = .scalar a
  | .sigmoid s => ∃ r i, s.maxRate = .scalar r ∧ s.inflRatio = .scalar i
  | .richards _ => False

/-- A Richards system is read as NULL; a system whose parameters are arrays makes the json library
throw; all others are read and have the same parameters. -/
theorem C65_read {s : Sub} (w : s.Wf) (h0 : Started s) :
    (Scalar s → ∃ c, readSystem s = .ok (some c) ∧ Twin c s) ∧
    (¬ Scalar s → (∃ r, s = .richards r) → readSystem s = .ok none) ∧
    (¬ Scalar s → (¬ ∃ r, s = .richards r) → readSystem s = .error .json) := by
  cases s with
  | time s => exact ⟨fun _ => read_time w h0, fun h => (h trivial).elim, fun h => (h trivial).elim⟩
  | exponential s =>
    refine ⟨fun ⟨a, ha⟩ => read_exponential w ha, fun _ h => ?_, fun h _ => ?_⟩
    · obtain ⟨_, h⟩ := h; cases h
    cases ha : s.alpha with
    | scalar a => exact (h ⟨a, ha⟩).elim
    | array l => simp only [readSystem, readExponential, ha, readDouble]; rfl
  | sigmoid s =>
    refine ⟨fun ⟨r, i, hr, hi⟩ => read_sigmoid w.1 hr hi, fun _ h => ?_, fun h _ => ?_⟩
    · obtain ⟨_, h⟩ := h; cases h
    cases hr : s.maxRate with
    | array l => simp only [readSystem, readSigmoid, hr, readDouble]; rfl
    | scalar r =>
      cases hi : s.inflRatio with
      | scalar i => exact (h ⟨r, i, hr, hi⟩).elim
      | array l => simp only [readSystem, readSigmoid, hr, hi, readDouble]; rfl
  | richards r =>
    exact ⟨fun h => h.elim, fun _ _ => rfl, fun _ h => (h ⟨r, rfl⟩).elim⟩

theorem read_twin {s : Sub} (w : s.Wf) (h0 : Started s) {c : AnySystem}
    (hc : readSystem s = .ok (some c)) : Twin c s := by
  obtain ⟨h1, h2, h3⟩ := C65_read w h0
  by_cases hs : Scalar s
  · obtain ⟨c', h, t⟩ := h1 hs
    rw [h] at hc
    cases hc
    exact t
  · by_cases hr : ∃ r, s = .richards r
    · rw [h2 hs hr] at hc; cases hc
    · rw [h3 hs hr] at hc; cases hc

theorem Twin.setTau {c : AnySystem} {s : Sub} (h : Twin c s) (tau : ℝ) :
    Twin (c.setTau tau) (s.withTau tau) := by
  cases c <;> cases s <;> try exact h.elim
  · rename_i c s
    obtain ⟨hb, hc⟩ := h
    exact ⟨⟨rfl, hb.dimX, hb.dimY, hb.xInit⟩, hc⟩
  · rename_i c s
    obtain ⟨hb, hc⟩ := h
    exact ⟨⟨rfl, hb.dimX, hb.dimY, hb.xInit⟩, hc⟩
  · rename_i c s
    obtain ⟨hb, hr, hi, hk⟩ := h
    refine ⟨⟨rfl, hb.dimX, hb.dimY, hb.xInit⟩, hr, hi, ?_⟩
    refine Eq.trans ?_ (ks_eq (s := { s with tau := tau, ksCached := none }) hr hi)
    change Sigmoid.computeKs c.xInit _ _ = _
    rw [show c.xInit = s.xInit from hb.xInit]

theorem Twin.setInit {c : AnySystem} {s : Sub} (w : s.Wf) (h : Twin c s) {x : List ℝ}
    (hx : x.length = s.base.dimY) : ∃ c', c.setXInit x = .ok c' ∧ Twin c' (s.withInit x) := by
  have hb := h.base
  have hx' : x.length = c.base.dimX := by rw [hb.dimX, w.dim, hx]
  cases c <;> cases s <;> try exact h.elim
  · rename_i c s
    refine ⟨.time { c with xInit := x }, ?_, ⟨⟨hb.tau, hb.dimX, hb.dimY, rfl⟩, h.2⟩⟩
    change (do return AnySystem.time { c with toBase := ← c.toBase.setXInit x } : CppResult _) = _
    rw [Base.setXInit, if_neg (by simpa [AnySystem.base] using hx')]
    rfl
  · rename_i c s
    refine ⟨.exponential { c with xInit := x }, ?_, ⟨⟨hb.tau, hb.dimX, hb.dimY, rfl⟩, h.2⟩⟩
    change (do return AnySystem.exponential (← c.setXInit x) : CppResult _) = _
    rw [Exponential.setXInit, Base.setXInit, if_neg (by simpa [AnySystem.base] using hx')]
    rfl
  · rename_i c s
    obtain ⟨-, hr, hi, hk⟩ := h
    refine ⟨.sigmoid { c with xInit := x, ks := Sigmoid.computeKs x c.maxRate (c.inflRatio * c.tau) },
      ?_, ?_⟩
    · change (do return AnySystem.sigmoid (← c.setXInit x) : CppResult _) = _
      rw [Sigmoid.setXInit, Base.setXInit, if_neg (by simpa [AnySystem.base] using hx')]
      rfl
    · refine ⟨⟨hb.tau, hb.dimX, hb.dimY, rfl⟩, hr, hi, ?_⟩
      refine Eq.trans ?_ (ks_eq (s := { s with xInit := x, ksCached := none }) hr hi)
      change Sigmoid.computeKs x _ (_ * c.tau) = _
      rw [show c.tau = s.tau from hb.tau]

/-- Sizes that do not fit are rejected by both setters. -/
theorem Twin.setInit_reject {c : AnySystem} {s : Sub} (w : s.Wf) (h : Twin c s) {x : List ℝ}
    (hx : x.length ≠ s.base.dimY) :
    c.setXInit x = .error .assertion ∧ Sub.setYInit x s = (.error .valueError, s) := by
  have hd := w.dim
  have hb := h.base
  have hx' : x.length ≠ c.base.dimX := by rw [hb.dimX, hd]; exact hx
  cases c <;> cases s <;> try exact h.elim
  · rename_i c s
    change x.length ≠ s.dimY at hx
    constructor
    · change (do return AnySystem.time { c with toBase := ← c.toBase.setXInit x } : CppResult _) = _
      rw [Base.setXInit, if_pos (show x.length ≠ c.dimX from hx')]
      rfl
    · change ((Verif.TimeSystem.setYInit x s).1, Sub.time (Verif.TimeSystem.setYInit x s).2) = _
      unfold Verif.TimeSystem.setYInit Verif.TimeSystem.inherit Verif.Base.setYInit
      simp only [PyM.self_bind]
      rw [if_pos hx]
      rfl
  · rename_i c s
    change x.length ≠ s.dimY at hx
    constructor
    · change (do return AnySystem.exponential (← c.setXInit x) : CppResult _) = _
      rw [Exponential.setXInit, Base.setXInit, if_pos (show x.length ≠ c.dimX from hx')]
      rfl
    · change ((Verif.Exponential.setYInit x s).1, Sub.exponential (Verif.Exponential.setYInit x s).2) = _
      unfold Verif.Exponential.setYInit Verif.Exponential.inherit Verif.Base.setYInit
      simp only [PyM.self_bind]
      rw [if_pos hx]
      rfl
  · rename_i c s
    change x.length ≠ s.dimY at hx
    constructor
    · change (do return AnySystem.sigmoid (← c.setXInit x) : CppResult _) = _
      rw [Sigmoid.setXInit, Base.setXInit, if_pos (show x.length ≠ c.dimX from hx')]
      rfl
    · change ((Verif.Sigmoid.setYInit x s).1, Sub.sigmoid (Verif.Sigmoid.setYInit x s).2) = _
      unfold Verif.Sigmoid.setYInit Verif.Sigmoid.setXInit
      rw [bind_assoc, PyM.self_bind, if_pos (by rw [w.1.dim]; exact hx)]
      rfl

/-! ### Spring-damper systems: reading and setters -/

/-- The parameters are numbers, and the spring constant is not the number -1 that stands for
critical damping. -/
def Plain (s : SpringDamper) : Prop :=
  (∃ a, s.damping = .scalar a) ∧ (∃ k, s.spring = .scalar k ∧ k ≠ Spring.CRITICALLY_DAMPED) ∧
    ∃ m, s.mass = .scalar m

/-- The system starts at rest. (Only the initial position is written for C++.) -/
def AtRest (s : SpringDamper) : Prop := s.xInit = s.xInit.take s.dimY ++ vzeros s.dimY

open Classical in
theorem readSpring_eq {s : SpringDamper} (w : s.Wf) {a k m : ℝ} (ha : s.damping = .scalar a)
    (hk : s.spring = .scalar k) (hm : s.mass = .scalar m) :
    readSpring s = .ok ⟨⟨s.tau, s.dimY * 2, s.dimY, s.xInit.take s.dimY ++ vzeros s.dimY⟩, s.yAttr, a,
      if k = Spring.CRITICALLY_DAMPED then a * a / 4 else k, m⟩ := by
  have hl : (s.xInit.take s.dimY).length = s.dimY := by simp [w.xInit, w.dim]
  unfold readSpring
  simp only [ha, hk, hm, readDouble]
  have hle : ¬ s.xInit.length < s.yAttr.length := by rw [w.xInit, w.yAttr, w.dim]; omega
  change (if s.xInit.length < s.yAttr.length then _ else _ : CppResult Spring) = _
  rw [if_neg hle, Spring.make, w.yAttr, ofOrder_two, hl]
  rfl

theorem read_spring {s : SpringDamper} (w : s.Wf) (hp : Plain s) (h0 : AtRest s) :
    ∃ c, readSpring s = .ok c ∧ SpringTwin c s := by
  obtain ⟨⟨a, ha⟩, ⟨k, hk, hne⟩, ⟨m, hm⟩⟩ := hp
  refine ⟨_, readSpring_eq w ha hk hm, ?_⟩
  rw [if_neg hne]
  exact ⟨⟨rfl, by rw [w.dim]; simp only; omega, rfl, h0.symm⟩, rfl, ha, hk, hm⟩

/-- Spring-damper systems with arrays as parameters are not read. -/
theorem C65_read_spring_arrays {s : SpringDamper}
    (h : (∃ l, s.damping = .array l) ∨ (∃ l, s.spring = .array l) ∨ ∃ l, s.mass = .array l) :
    readSpring s = .error .json := by
  unfold readSpring
  cases ha : s.damping with
  | array l => rfl
  | scalar a =>
    cases hk : s.spring with
    | array l => rfl
    | scalar k =>
      cases hm : s.mass with
      | array l => rfl
      | scalar m =>
        rw [ha, hk, hm] at h
        rcases h with ⟨_, h⟩ | ⟨_, h⟩ | ⟨_, h⟩ <;> cases h

theorem start_state {σ : Type} [System σ] {c : σ} {r : List ℝ × List ℝ}
    (h : result (System.integrateStart c) = .ok r) : r.1 = (System.base c).xInit := by
  unfold result System.integrateStart at h
  simp only at h
  cases hd : System.diffEq (System.base c).xInit c with
  | error e => rw [hd] at h; cases h
  | ok p => rw [hd] at h; injection h with h; rw [← h]

theorem start_state_python {τ : Type} [DynSys τ] {s : τ} {r : List ℝ × List ℝ}
    (h : (DynSys.integrateStart none s).1 = .ok r) : r.1 = DynSys.xInit s := by
  have h' : DynSys.integrateStart none s = (.ok r, (DynSys.integrateStart none s).2) := by
    rw [← h]
  unfold DynSys.integrateStart at h'
  simp only at h'
  rw [PyM.self_bind] at h'
  obtain ⟨xd, s1, _, h2⟩ := PyM.bind_inv h'
  cases h2
  rfl

theorem spring_mul_two {c : Spring} {s : SpringDamper} (w : s.Wf) (h : SpringTwin c s) :
    c.dimX = c.dimY + c.dimY := by rw [h.base.dimX, h.base.dimY, w.dim]

theorem SpringTwin.setTau {c : Spring} {s : SpringDamper} (h : SpringTwin c s) (tau : ℝ) :
    SpringTwin (c.setTau tau) { s with tau := tau } :=
  ⟨⟨rfl, h.base.dimX, h.base.dimY, h.base.xInit⟩, h.yAttr, h.damping, h.spring, h.mass⟩

theorem SpringTwin.setYAttr {c : Spring} {s : SpringDamper} (w : s.Wf) (h : SpringTwin c s) {y : List ℝ}
    (hy : y.length = s.dimY) :
    ∃ c', c.setYAttr y = .ok c' ∧ SpringTwin c' { s with yAttr := y } := by
  refine ⟨{ c with yAttr := y }, ?_, ⟨h.base, rfl, h.damping, h.spring, h.mass⟩⟩
  rw [Spring.setYAttr, if_neg (by rw [spring_mul_two w h, h.base.dimY, hy]; omega)]

theorem SpringTwin.setYInit {c : Spring} {s : SpringDamper} (w : s.Wf) (h : SpringTwin c s) {y : List ℝ}
    (hy : y.length = s.dimY) :
    ∃ c', c.setYInit y = .ok c' ∧ SpringTwin c' { s with xInit := y ++ vzeros s.dimY } := by
  have hd := h.base.dimY
  have h2 := spring_mul_two w h
  have hy' : y.length = c.dimY := hy.trans hd.symm
  have hb : c.toBase.setYInit y = .ok { c.toBase with xInit := y ++ vzeros c.dimY } := by
    rw [Base.setYInit, if_neg (by simp [hy'])]
    by_cases h0 : c.dimY = 0
    · rw [if_pos (by omega)]
      simp [vzeros, h0]
    · rw [if_neg (by omega), if_neg (by omega), show c.dimX - c.dimY = c.dimY by omega]
  refine ⟨{ c with xInit := y ++ vzeros c.dimY }, ?_,
    ⟨⟨h.base.tau, h.base.dimX, hd, by rw [hd]⟩, h.yAttr, h.damping, h.spring, h.mass⟩⟩
  rw [Spring.setYInit, hb]
  rfl

/-! ### Agreement -/

/-- Whatever is computed with the C++ object and with the Python object, for times `T` and step sizes
`D`, is the same: initial state, rates of change, steps, analytical solutions (`solC`, `solP`), and
integration over increasing times. States of the wrong size are rejected by both. -/
structure Agree {σ τ : Type} [System σ] [DynSys τ]
    (solC : List ℝ → σ → CppResult (List (List ℝ) × List (List ℝ)))
    (solP : List ℝ → PyM τ (List (List ℝ) × List (List ℝ)))
    (T : List ℝ → Prop) (D : ℝ → Prop) (c : σ) (s : τ) : Prop where
  start : Same (result (System.integrateStart c)) (DynSys.integrateStart none s).1
  rate : ∀ x : List ℝ, x.length = DynSys.dimX s →
    Same (result (System.diffEq x c)) (DynSys.diffEq x s).1
  step : ∀ k dt (x : List ℝ), D dt → x.length = DynSys.dimX s →
    Same (result (Cpp.step k dt x c)) (DynSys.step k dt x s).1
  reject : ∀ k dt (x : List ℝ), x.length ≠ DynSys.dimX s →
    result (Cpp.step k dt x c) = .error .assertion ∧ (DynSys.step k dt x s).1 = .error .valueError
  solution : ∀ ts, T ts → Same (solC ts c) (solP ts s).1
  run : ∀ k (ts : List ℝ), ts ≠ [] → ts.Pairwise (fun t u => D (u - t)) →
    Same (result (Cpp.run k ts c)) (DynSys.integrate ts k s).1

theorem step_reject {σ τ : Type} [System σ] [DynSys τ] {c : σ} {s : τ} {n : Nat}
    (h1 : (System.base c).dimX = n) (h2 : DynSys.dimX s = n) (k : DynSys.Method) (dt : ℝ) {x : List ℝ}
    (hx : x.length ≠ DynSys.dimX s) :
    result (Cpp.step k dt x c) = .error .assertion ∧
      (DynSys.step k dt x s).1 = .error .valueError := by
  have hc : x.length ≠ (System.base c).dimX := by rw [h1, ← h2]; exact hx
  cases k with
  | euler =>
    constructor
    · change result (System.eulerStep dt x c) = _
      unfold System.eulerStep
      by_cases hd : dt ≤ 0
      · rw [if_pos hd]; rfl
      · rw [if_neg hd, if_pos hc]; rfl
    · change (DynSys.eulerStep dt x s).1 = _
      unfold DynSys.eulerStep
      rw [PyM.self_bind, if_pos hx]
      rfl
  | rungeKutta =>
    constructor
    · change result (System.rungeKuttaStep dt x c) = _
      unfold System.rungeKuttaStep
      by_cases hd : dt ≤ 0
      · rw [if_pos hd]; rfl
      · rw [if_neg hd, if_pos hc]; rfl
    · change (DynSys.rungeKuttaStep dt x s).1 = _
      unfold DynSys.rungeKuttaStep
      rw [PyM.self_bind, if_pos hx]
      rfl

/-- The differential equation succeeds in Python for all states of size `n`. -/
def Total {σ τ : Type} [DynSys τ] (R : σ → τ → Prop) (n : Nat) : Prop :=
  ∀ (c : σ) (s : τ) (x : List ℝ), R c s → x.length = n → ∃ xd s', DynSys.diffEq x s = (.ok xd, s')

section

variable {σ τ : Type} [System σ] [DynSys τ] {R : σ → τ → Prop} {n : Nat}

theorem total_step (h : Mirror R n n) (ht : Total R n) (k : DynSys.Method) (dt : ℝ) {c : σ} {s : τ}
    {x : List ℝ} (hR : R c s) (hx : x.length = n) :
    ∃ r s', DynSys.step k dt x s = (.ok r, s') ∧ r.1.length = n ∧ r.2.length = n ∧ ∃ c', R c' s' := by
  cases k with
  | euler =>
    obtain ⟨a, s1, p1⟩ := ht c s x hR hx
    obtain ⟨l1, c1, _, r1⟩ := h.diffEq hR hx p1
    refine ⟨(vadd x (vscale dt a), a), s1, ?_, by simp [hx, l1], l1, c1, r1⟩
    change DynSys.eulerStep dt x s = _
    unfold DynSys.eulerStep
    rw [PyM.self_bind, if_neg (by rw [h.dimP hR]; simpa using hx), PyM.bind_ok p1]
    rfl
  | rungeKutta =>
    obtain ⟨k1, s1, p1⟩ := ht c s x hR hx
    obtain ⟨l1, c1, _, r1⟩ := h.diffEq hR hx p1
    obtain ⟨k2, s2, p2⟩ := ht c1 s1 (vadd x (vscale (dt * 0.5) k1)) r1 (by simp [hx, l1])
    obtain ⟨l2, c2, _, r2⟩ := h.diffEq r1 (by simp [hx, l1]) p2
    obtain ⟨k3, s3, p3⟩ := ht c2 s2 (vadd x (vscale (dt * 0.5) k2)) r2 (by simp [hx, l2])
    obtain ⟨l3, c3, _, r3⟩ := h.diffEq r2 (by simp [hx, l2]) p3
    obtain ⟨k4, s4, p4⟩ := ht c3 s3 (vadd x (vscale dt k3)) r3 (by simp [hx, l3])
    obtain ⟨l4, c4, _, r4⟩ := h.diffEq r3 (by simp [hx, l3]) p4
    obtain ⟨xd, s5, p5⟩ := ht c4 s4
      (vadd x (vdivs (vscale dt (vadd (vadd k1 (vscale 2 (vadd k2 k3))) k4)) 6)) r4
      (by simp [hx, l1, l2, l3, l4])
    obtain ⟨l5, c5, _, r5⟩ := h.diffEq r4 (by simp [hx, l1, l2, l3, l4]) p5
    refine ⟨(vadd x (vdivs (vscale dt (vadd (vadd k1 (vscale 2 (vadd k2 k3))) k4)) 6), xd), s5, ?_, ?_,
      l5, c5, r5⟩
    · change DynSys.rungeKuttaStep dt x s = _
      unfold DynSys.rungeKuttaStep
      rw [PyM.self_bind, if_neg (by rw [h.dimP hR]; simpa using hx), PyM.bind_ok p1, PyM.bind_ok p2,
        PyM.bind_ok p3, PyM.bind_ok p4]
      simp only
      rw [PyM.bind_ok p5]
      rfl
    · simp [hx, l1, l2, l3, l4]

theorem total_loop (h : Mirror R n n) (ht : Total R n) (k : DynSys.Method) (ts : List ℝ) :
    ∀ (t0 : ℝ) (c : σ) (s : τ) (x : List ℝ), R c s → x.length = n →
      ∃ rows s', DynSys.integrateLoop k t0 x ts s = (.ok rows, s') ∧
        ∀ r ∈ rows, r.1.length = n ∧ r.2.length = n := by
  induction ts with
  | nil => intro t0 c s x _ _; exact ⟨[], s, rfl, by simp⟩
  | cons t ts ih =>
    intro t0 c s x hR hx
    obtain ⟨r, s1, p1, l1, l2, c1, r1⟩ := total_step h ht k (t - t0) hR hx
    obtain ⟨rows, s2, p2, l3⟩ := ih t c1 s1 r.1 r1 l1
    refine ⟨r :: rows, s2, ?_, by simpa [l1, l2] using l3⟩
    unfold DynSys.integrateLoop
    rw [PyM.bind_ok p1, PyM.bind_ok p2]
    rfl

theorem agree_of (h : Mirror R n n) (ht : Total R n) {c : σ} {s : τ} (hR : R c s)
    (hi : (System.base c).xInit = DynSys.xInit s) (hx : (DynSys.xInit s).length = n)
    {solC : List ℝ → σ → CppResult (List (List ℝ) × List (List ℝ))}
    {solP : List ℝ → PyM τ (List (List ℝ) × List (List ℝ))} {T : List ℝ → Prop}
    (hs : ∀ ts, T ts → Same (solC ts c) (solP ts s).1) :
    Agree solC solP T (0 < ·) c s := by
  have hn := h.dimP hR
  have hi' : (System.base c).xInit = (DynSys.xInit s).take n := by
    rw [List.take_of_length_le hx.le, hi]
  obtain ⟨xd0, s0, p0⟩ := ht c s _ hR hx
  have st : DynSys.integrateStart none s = (.ok (DynSys.xInit s, xd0), s0) := by
    unfold DynSys.integrateStart
    simp only
    rw [PyM.self_bind, PyM.bind_ok p0]
    rfl
  have l0 := (h.diffEq hR hx p0).1
  obtain ⟨c0, q0, r0⟩ := h.start hR hx hi' st
  refine ⟨?_, ?_, ?_, ?_, hs, ?_⟩
  · rw [List.take_of_length_le hx.le, List.take_of_length_le l0.le] at q0
    exact same_result q0 (by rw [st])
  · intro x hx
    have hx' := hx.trans hn
    obtain ⟨xd, s', p⟩ := ht c s x hR hx'
    obtain ⟨l, c', q, _⟩ := h.diffEq hR hx' p
    rw [List.take_of_length_le hx'.le, List.take_of_length_le l.le] at q
    exact same_result q (by rw [p])
  · intro k dt x hdt hx
    have hx' := hx.trans hn
    obtain ⟨r, s', p, _⟩ := total_step h ht k dt hR hx'
    obtain ⟨l1, l2, c', q, _⟩ := h.step k hdt hR p
    rw [List.take_of_length_le hx'.le, List.take_of_length_le l1.le, List.take_of_length_le l2.le] at q
    exact same_result q (by rw [p])
  · intro k dt x hx
    exact step_reject (h.dimC hR) hn k dt hx
  · intro k ts hne hp
    obtain ⟨t0, ts, rfl⟩ := List.exists_cons_of_ne_nil hne
    have hp' : (t0 :: ts).Pairwise (· < ·) := hp.imp fun h => sub_pos.mp h
    obtain ⟨rows, s', p, hl⟩ := total_loop h ht k ts t0 c0 s0 (DynSys.xInit s) r0 hx
    have e : DynSys.integrate (t0 :: ts) k s = (.ok ((DynSys.xInit s, xd0) :: rows), s') := by
      unfold DynSys.integrate
      rw [PyM.bind_ok st]
      simp only
      rw [PyM.bind_ok p]
      rfl
    obtain ⟨c', q, _⟩ := h.run k hR hx hi' hp' e
    have l : ((DynSys.xInit s, xd0) :: rows).map (fun r => (r.1.take n, r.2.take n)) =
        (DynSys.xInit s, xd0) :: rows := by
      refine (List.map_congr_left fun r hr => ?_).trans (List.map_id _)
      have : r.1.length = n ∧ r.2.length = n := by
        rcases List.mem_cons.mp hr with rfl | hr
        · exact ⟨hx, l0⟩
        · exact hl r hr
      rw [List.take_of_length_le this.1.le, List.take_of_length_le this.2.le]
      rfl
    rw [l] at q
    exact same_result q (by rw [e])

end

/-! ### The claim -/

/-- A C++ object read from what was written for a Python object, and both objects changed in the same
way since then. -/
inductive Session : AnySystem → Sub → Prop
  | read {s : Sub} {c : AnySystem} : s.Wf → Started s → readSystem s = .ok (some c) → Session c s
  | setTau {c : AnySystem} {s s' : Sub} (tau : ℝ) : Session c s → Sub.setTau tau s = (.ok (), s') →
    Session (c.setTau tau) s'
  | setInit {c c' : AnySystem} {s s' : Sub} (x : List ℝ) : Session c s → c.setXInit x = .ok c' →
    Sub.setYInit x s = (.ok (), s') → Session c' s'

theorem Session.twin {c : AnySystem} {s : Sub} (h : Session c s) : s.Wf ∧ Twin c s := by
  induction h with
  | read w h0 hc => exact ⟨w, read_twin w h0 hc⟩
  | setTau tau h hs ih =>
    rw [Sub.setTau_run] at hs
    cases hs
    exact ⟨Sub.wf_withTau ih.1 tau, ih.2.setTau tau⟩
  | @setInit c c' s s' x h hc hs ih =>
    by_cases hx : x.length = s.base.dimY
    · rw [Sub.setYInit_run ih.1 hx] at hs
      cases hs
      obtain ⟨c'', h1, h2⟩ := ih.2.setInit ih.1 hx
      rw [h1] at hc
      cases hc
      exact ⟨Sub.wf_withInit ih.1 hx, h2⟩
    · rw [(ih.2.setInit_reject ih.1 hx).1] at hc
      cases hc

/-- The same for spring-damper systems. -/
inductive SpringSession : Spring → SpringDamper → Prop
  | read {s : SpringDamper} {c : Spring} : s.Wf → Plain s → AtRest s → readSpring s = .ok c →
    SpringSession c s
  | setTau {c : Spring} {s s' : SpringDamper} (tau : ℝ) : SpringSession c s →
    SpringDamper.setTau tau s = (.ok (), s') → SpringSession (c.setTau tau) s'
  | setYInit {c c' : Spring} {s s' : SpringDamper} (y : List ℝ) : SpringSession c s →
    c.setYInit y = .ok c' → SpringDamper.setYInit y s = (.ok (), s') → SpringSession c' s'
  | setYAttr {c c' : Spring} {s s' : SpringDamper} (y : List ℝ) : SpringSession c s →
    c.setYAttr y = .ok c' → SpringDamper.setYAttr y s = (.ok (), s') → SpringSession c' s'

theorem setYInit_run {s : SpringDamper} (w : s.Wf) {y : List ℝ} (hy : y.length = s.dimY) :
    SpringDamper.setYInit y s = (.ok (), { s with xInit := y ++ vzeros s.dimY }) := by
  have h := Verif.Base.setYInit_run s.toBase (by rw [w.dim]; omega) y hy
  change ((Verif.Base.setYInit y s.toBase).1, _) = _
  have e : SpringDamper.setYInit y s = ((Verif.Base.setYInit y s.toBase).1,
    { s with toBase := (Verif.Base.setYInit y s.toBase).2 }) := rfl
  refine e.trans ?_
  rw [h, w.dim, Nat.add_sub_cancel]

theorem SpringSession.twin {c : Spring} {s : SpringDamper} (h : SpringSession c s) :
    s.Wf ∧ SpringTwin c s := by
  induction h with
  | read w hp h0 hc =>
    obtain ⟨c', h1, h2⟩ := read_spring w hp h0
    rw [h1] at hc
    cases hc
    exact ⟨w, h2⟩
  | setTau tau h hs ih =>
    cases hs
    obtain ⟨w, t⟩ := ih
    exact ⟨⟨w.dim, w.xInit, w.yAttr, w.damping, w.spring, w.mass⟩, t.setTau tau⟩
  | @setYInit c c' s s' y h hc hs ih =>
    obtain ⟨w, t⟩ := ih
    by_cases hy : y.length = s.dimY
    · rw [setYInit_run w hy] at hs
      cases hs
      obtain ⟨c'', h1, h2⟩ := t.setYInit w hy
      rw [h1] at hc
      cases hc
      exact ⟨⟨w.dim, by simp [hy, w.dim], w.yAttr, w.damping, w.spring, w.mass⟩, h2⟩
    · unfold SpringDamper.setYInit SpringDamper.inherit Verif.Base.setYInit at hs
      simp only [PyM.self_bind, if_pos hy] at hs
      cases hs
  | @setYAttr c c' s s' y h hc hs ih =>
    obtain ⟨w, t⟩ := ih
    unfold SpringDamper.setYAttr at hs
    rw [PyM.self_bind] at hs
    by_cases hy : y.length = s.dimY
    · rw [if_neg (by simpa using hy)] at hs
      cases hs
      obtain ⟨c'', h1, h2⟩ := t.setYAttr w hy
      rw [h1] at hc
      cases hc
      exact ⟨⟨w.dim, w.xInit, hy, w.damping, w.spring, w.mass⟩, h2⟩
    · rw [if_pos hy] at hs
      cases hs

/-- The analytical solution of a spring-damper system in Python. -/
noncomputable def springAnalytical (ts : List ℝ) :
    PyM SpringDamper (List (List ℝ) × List (List ℝ)) := PyM.reads fun s => s.analytical ts

/-- C65 for dynamical systems: a C++ object read from what was written for a Python object agrees with
that, for all times and all step sizes. -/
def C65_statement : Prop :=
  (∀ (c : AnySystem) (s : Sub), s.Wf → readSystem s = .ok (some c) →
    Agree AnySystem.analytical Sub.analytical (fun _ => True) (fun _ => True) c s) ∧
  (∀ (c : Spring) (s : SpringDamper), s.Wf → readSpring s = .ok c →
    Agree Spring.analytical springAnalytical (fun _ => True) (fun _ => True) c s)

/-- C65: for positive step sizes, and times which for time systems are sorted, the objects agree, also
after changes of time constant and initial state. -/
theorem C65_systems_partial {c : AnySystem} {s : Sub} (h : Session c s) :
    Agree AnySystem.analytical Sub.analytical (Timely s) (0 < ·) c s := by
  obtain ⟨w, t⟩ := h.twin
  refine agree_of (twin_mirror s.base.dimX) ?_ ⟨w, t, rfl⟩ t.base.xInit w.xInit ?_
  · intro c s x h hx
    exact ⟨_, _, Sub.diffEq_run h.1 (hx.trans h.2.2.symm)⟩
  · intro ts hts
    exact ⟨_, t.analytical w hts, by rw [Sub.analytical_run w]⟩

/-- C65: the same for spring-damper systems. -/
theorem C65_spring_partial {c : Spring} {s : SpringDamper} (h : SpringSession c s) :
    Agree Spring.analytical springAnalytical (fun _ => True) (0 < ·) c s := by
  obtain ⟨w, t⟩ := h.twin
  refine agree_of (spring_mirror s.dimX) ?_ ⟨w, t, rfl⟩ t.base.xInit w.xInit ?_
  · intro c s x h hx
    exact ⟨_, _, rfl⟩
  · intro ts _
    exact ⟨_, t.analytical w ts, rfl⟩

/-- Steps with a step size that is not positive violate an assertion in C++. -/
theorem C65_step_size {σ : Type} [System σ] (k : DynSys.Method) {dt : ℝ} (hdt : dt ≤ 0) (x : List ℝ)
    (c : σ) : result (Cpp.step k dt x c) = .error .assertion := by
  cases k with
  | euler =>
    change result (System.eulerStep dt x c) = _
    unfold System.eulerStep
    rw [if_pos hdt]; rfl
  | rungeKutta =>
    change result (System.rungeKuttaStep dt x c) = _
    unfold System.rungeKuttaStep
    rw [if_pos hdt]; rfl

/-- C65 does not hold: for times that are not sorted, the C++ TimeSystem stays at its end once a time
is after the end. -/
theorem C65_refuted : ¬ C65_statement := by
  intro h
  have w : (Sub.time (Verif.TimeSystem.init 1)).Wf := ⟨rfl, rfl, rfl⟩
  obtain ⟨c, hc, t⟩ := read_time w rfl
  obtain ⟨r, h1, h2⟩ := (h.1 c _ w hc).solution [2, 0] trivial
  cases c with
  | exponential c => exact t.elim
  | sigmoid c => exact t.elim
  | spring c => exact t.elim
  | time c =>
    obtain ⟨tb, tc⟩ := t
    have ht : c.tau = 1 := tb.tau
    have hd : c.countDown = false := tc
    have e1 : Except.ok (c.analytical [2, 0]) = Except.ok r := h1
    have e2 : (Except.ok ((Verif.TimeSystem.init 1).analytical [2, 0]) : Except PyErr _) = .ok r := h2
    injection e1 with e1
    injection e2 with e2
    have e := congrArg (fun p : List (List ℝ) × List (List ℝ) => p.1) (e1.trans e2.symm)
    have s0 : TimeSystem.stopIndex (1 : ℝ) [2, 0] = 0 := by
      simp [TimeSystem.stopIndex]
    simp [TimeSystem.analytical, ht, hd, s0, Verif.TimeSystem.analytical, Verif.TimeSystem.xAt,
      Verif.TimeSystem.init] at e

/-- The initial state of a TimeSystem that was changed in Python is not read in C++. -/
theorem C65_time_init : ∃ (s : Sub) (c : AnySystem), s.Wf ∧ readSystem s = .ok (some c) ∧
    ¬ Same (result (System.integrateStart c)) (DynSys.integrateStart none s).1 := by
  refine ⟨.time { Verif.TimeSystem.init 1 with xInit := [1 / 2] },
    .time ⟨⟨1, 1, 1, [0]⟩, false⟩, ⟨rfl, rfl, rfl⟩, ?_, ?_⟩
  · simp only [readSystem, readTime, TimeSystem.make, ofOrder_one]
    rfl
  · rintro ⟨r, h1, h2⟩
    have h3 := (start_state h1).symm.trans (start_state_python h2)
    change [0] = [1 / 2] at h3
    norm_num at h3

/-- The initial velocity of a spring-damper system is not read in C++. -/
theorem C65_spring_velocity {s : SpringDamper} (w : s.Wf) (h : ¬ AtRest s) {c : Spring}
    (hc : readSpring s = .ok c) :
    ¬ Same (result (System.integrateStart c)) (DynSys.integrateStart none s).1 := by
  rintro ⟨r, h1, h2⟩
  have h3 := (start_state h1).symm.trans (start_state_python h2)
  change c.xInit = s.xInit at h3
  by_cases ha : (∃ l, s.damping = .array l) ∨ (∃ l, s.spring = .array l) ∨ ∃ l, s.mass = .array l
  · rw [C65_read_spring_arrays ha] at hc
    cases hc
  push Not at ha
  have sc : ∀ p : Par ℝ, (∀ l, p ≠ .array l) → ∃ a, p = .scalar a := by
    intro p hp
    cases p with
    | scalar a => exact ⟨a, rfl⟩
    | array l => exact (hp l rfl).elim
  obtain ⟨a, ha'⟩ := sc _ ha.1
  obtain ⟨k, hk⟩ := sc _ ha.2.1
  obtain ⟨m, hm⟩ := sc _ ha.2.2
  rw [readSpring_eq w ha' hk hm] at hc
  cases hc
  exact h h3.symm

/-- A spring constant of -1 in Python becomes that of critical damping in C++. -/
theorem C65_spring_constant {s : SpringDamper} (w : s.Wf) {a m : ℝ} (ha : s.damping = .scalar a)
    (hk : s.spring = .scalar (-1)) (hm : s.mass = .scalar m) :
    ∃ c, readSpring s = .ok c ∧ c.spring = a ^ 2 / 4 := by
  refine ⟨_, readSpring_eq w ha hk hm, ?_⟩
  have h : (-1 : ℝ) = Spring.CRITICALLY_DAMPED := rfl
  rw [if_pos h]
  ring

/-- If the initial state of a sigmoid system is changed with set_y_init instead of set_x_init, the rates
of change in C++ are not those in Python. -/
theorem C65_sigmoid_setYInit : ∃ (s s' : Sub) (c c' : AnySystem), s.Wf ∧
    readSystem s = .ok (some c) ∧ Sub.setYInit [2] s = (.ok (), s') ∧ c.setYInit [2] = .ok c' ∧
    ¬ Same (result (System.diffEq [1] c')) (DynSys.diffEq [1] s').1 := by
  have w : (Sub.sigmoid (Verif.Sigmoid.init 1 [1] (.scalar 1) (.scalar 0))).Wf :=
    ⟨⟨rfl, rfl, trivial, trivial⟩, .inl rfl⟩
  refine ⟨_, _, .sigmoid ⟨⟨1, 1, 1, [1]⟩, 1, 0, [2]⟩, .sigmoid ⟨⟨1, 1, 1, [2]⟩, 1, 0, [2]⟩, w, ?_,
    Sub.setYInit_run w rfl, rfl, ?_⟩
  · simp only [readSystem, readSigmoid, Verif.Sigmoid.init, readDouble, Sigmoid.make, ofOrder_one]
    change Except.ok (ε := CppErr) _ = _
    norm_num [Sigmoid.computeKs]
  · rintro ⟨r, h1, h2⟩
    change (Sub.diffEq [1] _).1 = _ at h2
    rw [Sub.diffEq_run (Sub.wf_withInit w (y := [2]) rfl) rfl] at h2
    have e2 : r = [1 - 1 / 4] := by
      injection h2 with h2
      rw [← h2]
      norm_num [Sub.rate, Sub.withInit, Verif.Sigmoid.rate, Verif.Sigmoid.init, Verif.Sigmoid.ksNow,
        Verif.Sigmoid.kComp, Par.mul, Par.at', vmul, vdiv, vscale, List.range_succ]
    have e1 : r = [1 - 1 / 2] := by
      injection h1 with h1
      rw [← h1]
      norm_num [vmul, vdiv, vscale]
    rw [e1] at e2
    norm_num at e2

/-- A sigmoid system with two dimensions, read and then changed, meets the hypothesis; so does a
TimeSystem, for sorted times that pass its end. -/
example : ∃ (c : AnySystem) (s : Sub), Session c s ∧ s.base.tau = 3 ∧ s.base.xInit = [5, 6] ∧
    c.base.xInit = [5, 6] := by
  have w : (Sub.sigmoid (Verif.Sigmoid.init 2 [1, 4] (.scalar (-7)) (.scalar 0.8))).Wf :=
    ⟨⟨rfl, rfl, trivial, trivial⟩, .inl rfl⟩
  obtain ⟨c, hc, t⟩ := read_sigmoid w.1 rfl rfl
  have s1 := Session.setTau 3 (Session.read w trivial hc) (Sub.setTau_run _ 3)
  have w1 := Sub.wf_withTau w 3
  obtain ⟨c', hc', t'⟩ := (t.setTau 3).setInit w1 (x := [5, 6]) rfl
  refine ⟨_, _, Session.setInit [5, 6] s1 hc' (Sub.setYInit_run w1 rfl), rfl, rfl, ?_⟩
  exact t'.base.xInit

example : Timely (.time (Verif.TimeSystem.init 2 true)) [0, 1, 2, 3] := by
  refine ⟨by norm_num [Verif.TimeSystem.init], ?_⟩
  norm_num

/-- A system with a velocity at the start. -/
example : let s : SpringDamper := { SpringDamper.init 1 [0] [1] (.scalar 20) with xInit := [0, 1] }
    s.Wf ∧ ¬ AtRest s ∧ ∃ c, readSpring s = .ok c := by
  have w : SpringDamper.Wf { SpringDamper.init 1 [0] [1] (.scalar 20) with xInit := [0, 1] } :=
    ⟨rfl, rfl, rfl, trivial, trivial, trivial⟩
  refine ⟨w, ?_, _, readSpring_eq w rfl rfl rfl⟩
  intro h
  norm_num [AtRest, SpringDamper.init, vzeros] at h

/-- A spring-damper system that is not critically damped meets the hypothesis. -/
example : ∃ c : Spring, SpringSession c
    (SpringDamper.init 2 [1, 4] [0, 3] (.scalar 20) (some (.scalar 30)) (.scalar 2)) := by
  have w : (SpringDamper.init 2 [1, 4] [0, 3] (.scalar 20) (some (.scalar 30)) (.scalar 2)).Wf :=
    ⟨rfl, rfl, rfl, trivial, trivial, trivial⟩
  have hp : Plain (SpringDamper.init 2 [1, 4] [0, 3] (.scalar 20) (some (.scalar 30)) (.scalar 2)) :=
    ⟨⟨_, rfl⟩, ⟨30, rfl, by norm_num [Spring.CRITICALLY_DAMPED]⟩, ⟨_, rfl⟩⟩
  obtain ⟨c, h, _⟩ := read_spring w hp rfl
  exact ⟨c, .read w hp rfl h⟩

end Cpp

end Verif
