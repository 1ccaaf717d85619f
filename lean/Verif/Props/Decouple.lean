import Verif.Props.Exponential
import Verif.Props.Spring
import Verif.Props.Sigmoid
import Verif.Props.Richards
import Verif.Props.Base

/- C14: decouple_parameters does not change behaviour. -/

set_option autoImplicit false

namespace Verif

/-- Two parameters with the same value in each of `n` dimensions. -/
structure Par.Same (n : Nat) (p q : Par ℝ) : Prop where
  left : p.Fits n
  right : q.Fits n
  eq : ∀ i < n, p.at' i = q.at' i

theorem Par.Same.refl {n : Nat} {p : Par ℝ} (h : p.Fits n) : Par.Same n p p :=
  ⟨h, h, fun _ _ => rfl⟩

theorem Par.Same.decouple_left {n : Nat} {p q : Par ℝ} (h : Par.Same n p q) :
    Par.Same n (p.decouple n) q :=
  ⟨Par.fits_decouple h.left, h.right, fun i hi => by rw [Par.at'_decouple p hi]; exact h.eq i hi⟩

theorem Par.Same.mul {n : Nat} {p q : Par ℝ} (h : Par.Same n p q) {a : List ℝ}
    (ha : a.length = n) : p.mul a = q.mul a := by
  have h1 : p.Fits a.length := by rw [ha]; exact h.left
  have h2 : q.Fits a.length := by rw [ha]; exact h.right
  apply ext_getD 0 (by rw [Par.length_mul h1, Par.length_mul h2])
  intro i hi
  rw [Par.length_mul h1] at hi
  rw [Par.getD_mul h1 hi, Par.getD_mul h2 hi, h.eq i (by omega)]

/-- Calls between which `decouple_parameters` may be called. -/
inductive DecOp
  | setTau (tau : ℝ)
  | setXInit (x : List ℝ)
  | setYInit (y : List ℝ)
  | setYAttr (y : List ℝ)
  | decouple

/-- The same calls without `decouple_parameters`. -/
def withoutDecouple (ops : List DecOp) : List DecOp :=
  ops.filter fun op => match op with
    | .decouple => false
    | _ => true

/-- If a relation is kept by all calls made on both sides and by `decouple` made on the left side
only, it holds after any sequence of calls. -/
theorem decouple_simulation {σ : Type} (after : DecOp → σ → σ) (R : σ → σ → Prop)
    (hboth : ∀ op s s', op ≠ .decouple → R s s' → R (after op s) (after op s'))
    (hleft : ∀ s s', R s s' → R (after .decouple s) s') (ops : List DecOp) :
    ∀ s s', R s s' → R (ops.foldl (fun s op => after op s) s)
      ((withoutDecouple ops).foldl (fun s op => after op s) s') := by
  induction ops with
  | nil => intro s s' h; exact h
  | cons op ops ih =>
    intro s s' h
    cases op with
    | decouple => exact ih _ _ (hleft _ _ h)
    | setTau t => exact ih _ _ (hboth _ _ _ (by simp) h)
    | setXInit t => exact ih _ _ (hboth _ _ _ (by simp) h)
    | setYInit t => exact ih _ _ (hboth _ _ _ (by simp) h)
    | setYAttr t => exact ih _ _ (hboth _ _ _ (by simp) h)

/-- Size of the initial state under the base class setters. -/
theorem Base.setXInit_keeps (s : Base) (x : List ℝ) (h : s.xInit.length = s.dimX) :
    (Base.setXInit x s).2.xInit.length = s.dimX ∧ (Base.setXInit x s).2.dimX = s.dimX ∧
      (Base.setXInit x s).2.dimY = s.dimY := by
  by_cases hx : x.length = s.dimX
  · rw [(Base.C15_setXInit s x).2 hx]; exact ⟨hx, rfl, rfl⟩
  · rw [(Base.C15_setXInit s x).1 hx]; exact ⟨h, rfl, rfl⟩

theorem Base.setYInit_keeps (s : Base) (y : List ℝ) (h : s.xInit.length = s.dimX)
    (hle : s.dimY ≤ s.dimX) :
    (Base.setYInit y s).2.xInit.length = s.dimX ∧ (Base.setYInit y s).2.dimX = s.dimX ∧
      (Base.setYInit y s).2.dimY = s.dimY := by
  by_cases hy : y.length = s.dimY
  · rw [Base.setYInit_run s hle y hy]
    refine ⟨?_, rfl, rfl⟩
    simp only [List.length_append, length_vzeros, hy]; omega
  · have : Base.setYInit y s = (.error .valueError, s) := by simp [Base.setYInit, hy]
    rw [this]; exact ⟨h, rfl, rfl⟩

/-! ### Exponential system -/

namespace Exponential

/-- The object after a call. -/
noncomputable def afterOp : DecOp → Exponential → Exponential
  | .setTau t, s => (setTau t s).2
  | .setXInit x, s => (setXInit x s).2
  | .setYInit y, s => (setYInit y s).2
  | .setYAttr y, s => (setYAttr y s).2
  | .decouple, s => s.decouple

/-- Equal up to decoupling. -/
structure Sim (s s' : Exponential) : Prop where
  wf : s.Wf
  wf' : s'.Wf
  base : s.toBase = s'.toBase
  xAttr : s.xAttr = s'.xAttr
  alpha : Par.Same s.dimY s.alpha s'.alpha

theorem Sim.of_base {s s' : Exponential} (h : Sim s s') {b : Base}
    (h1 : b.xInit.length = s.dimX) (h2 : b.dimX = s.dimX) (h3 : b.dimY = s.dimY) :
    Sim { s with toBase := b } { s' with toBase := b } := by
  have hd : s'.dimY = s.dimY := congrArg Base.dimY h.base.symm
  have hdim : b.dimX = b.dimY := h2.trans (h.wf.dim.trans h3.symm)
  have hx : b.xInit.length = b.dimY := (h1.trans h2.symm).trans hdim
  refine ⟨⟨hdim, hx, h.wf.xAttr.trans h3.symm, ?_⟩,
    ⟨hdim, hx, h.wf'.xAttr.trans (hd.trans h3.symm), ?_⟩, rfl, h.xAttr, ?_⟩
  · show s.alpha.Fits b.dimY; rw [h3]; exact h.wf.alpha
  · show s'.alpha.Fits b.dimY; rw [h3, ← hd]; exact h.wf'.alpha
  · show Par.Same b.dimY _ _; rw [h3]; exact h.alpha

theorem Sim.both {s s' : Exponential} (h : Sim s s') (op : DecOp) (hop : op ≠ .decouple) :
    Sim (afterOp op s) (afterOp op s') ∧ (afterOp op s).dimX = s.dimX := by
  have e : s'.toBase = s.toBase := h.base.symm
  have hl : s.xInit.length = s.dimX := h.wf.xInit.trans h.wf.dim.symm
  cases op with
  | decouple => exact absurd rfl hop
  | setTau t =>
    refine ⟨?_, rfl⟩
    simp only [afterOp, setTau, inherit, e]
    exact h.of_base (b := (Base.setTau t s.toBase).2) hl rfl rfl
  | setXInit x =>
    obtain ⟨k1, k2, k3⟩ := Base.setXInit_keeps s.toBase x hl
    refine ⟨?_, k2⟩
    simp only [afterOp, setXInit, inherit, e]
    exact h.of_base k1 k2 k3
  | setYInit x =>
    obtain ⟨k1, k2, k3⟩ := Base.setYInit_keeps s.toBase x hl h.wf.dim.ge
    refine ⟨?_, k2⟩
    simp only [afterOp, setYInit, inherit, e]
    exact h.of_base k1 k2 k3
  | setYAttr y =>
    have hd : s'.dimY = s.dimY := congrArg Base.dimY h.base.symm
    by_cases hy : y.length = s.dimY
    · simp only [afterOp, setYAttr, PyM.self_bind, hd, hy, ne_eq, not_true_eq_false, if_false,
        PyM.modify_apply]
      exact ⟨⟨⟨h.wf.dim, h.wf.xInit, hy, h.wf.alpha⟩, ⟨h.wf'.dim, h.wf'.xInit, hy.trans hd.symm,
        h.wf'.alpha⟩, h.base, rfl, h.alpha⟩, trivial⟩
    · simp only [afterOp, setYAttr, PyM.self_bind, hd, hy, ne_eq, not_false_eq_true, if_true,
        PyM.raise_apply]
      exact ⟨h, trivial⟩

theorem Sim.decouple_left {s s' : Exponential} (h : Sim s s') : Sim s.decouple s' := by
  have hd : s.alpha.decouple s.dimX = s.alpha.decouple s.dimY := by rw [h.wf.dim]
  refine ⟨⟨h.wf.dim, h.wf.xInit, h.wf.xAttr, ?_⟩, h.wf', h.base, h.xAttr, ?_⟩
  · show (s.alpha.decouple s.dimX).Fits _
    rw [hd]; exact Par.fits_decouple h.wf.alpha
  · show Par.Same _ (s.alpha.decouple s.dimX) _
    rw [hd]; exact h.alpha.decouple_left

theorem Sim.diffEq {s s' : Exponential} (h : Sim s s') {x : List ℝ} (hx : x.length = s.dimX) :
    s.diffEq x = s'.diffEq x := by
  unfold Exponential.diffEq
  have hl : (vsub s.xAttr x).length = s.dimY := by simp [h.wf.xAttr, hx, h.wf.dim]
  rw [h.alpha.mul hl, h.xAttr, show s.tau = s'.tau from congrArg Base.tau h.base]

theorem Sim.analytical {s s' : Exponential} (h : Sim s s') (ts : List ℝ) :
    s.analytical ts = s'.analytical ts := by
  have hd : s.dimY = s'.dimY := congrArg Base.dimY h.base
  have h1 : ∀ t, s.xAt t = s'.xAt t := fun t => by
    unfold xAt; rw [← hd]
    refine List.map_congr_left fun i hi => ?_
    simp only [xComp, h.alpha.eq i (List.mem_range.mp hi), h.xAttr,
      show s.tau = s'.tau from congrArg Base.tau h.base,
      show s.xInit = s'.xInit from congrArg Base.xInit h.base]
  have h2 : ∀ t, s.xdAt t = s'.xdAt t := fun t => by
    unfold xdAt; rw [← hd]
    refine List.map_congr_left fun i hi => ?_
    simp only [xdComp, h.alpha.eq i (List.mem_range.mp hi), h.xAttr,
      show s.tau = s'.tau from congrArg Base.tau h.base,
      show s.xInit = s'.xInit from congrArg Base.xInit h.base]
  unfold Exponential.analytical
  rw [funext h1, funext h2]

/-- C14, exponential system: removing all calls of `decouple_parameters` from any sequence of calls
changes no later answer. -/
theorem C14_decouple (s : Exponential) (h : s.Wf) (ops : List DecOp) :
    (∀ x, x.length = s.dimX →
      (ops.foldl (fun s op => afterOp op s) s).diffEq x =
        ((withoutDecouple ops).foldl (fun s op => afterOp op s) s).diffEq x) ∧
    (∀ ts, (ops.foldl (fun s op => afterOp op s) s).analytical ts =
        ((withoutDecouple ops).foldl (fun s op => afterOp op s) s).analytical ts) := by
  have hs := decouple_simulation afterOp
    (fun a b => Sim a b ∧ a.dimX = s.dimX)
    (fun op a b hop hab => ⟨(hab.1.both op hop).1, (hab.1.both op hop).2.trans hab.2⟩)
    (fun a b hab => ⟨hab.1.decouple_left, hab.2⟩) ops s s
    ⟨⟨h, h, rfl, rfl, Par.Same.refl h.alpha⟩, rfl⟩
  exact ⟨fun x hx => hs.1.diffEq (hx.trans hs.2.symm), fun ts => hs.1.analytical ts⟩

/-- A system that changes representation when decoupled. -/
example : (init 2 [1, 5] [0, 3] (.scalar 4)).Wf ∧
    (init 2 [1, 5] [0, 3] (.scalar 4)).decouple.alpha = .array [4, 4] :=
  ⟨⟨rfl, rfl, rfl, trivial⟩, rfl⟩

end Exponential

/-! ### Spring-damper system -/

namespace SpringDamper

/-- The object after a call. -/
noncomputable def afterOp : DecOp → SpringDamper → SpringDamper
  | .setTau t, s => (setTau t s).2
  | .setXInit x, s => (setXInit x s).2
  | .setYInit y, s => (setYInit y s).2
  | .setYAttr y, s => (setYAttr y s).2
  | .decouple, s => s.decouple

/-- Equal up to decoupling. -/
structure Sim (s s' : SpringDamper) : Prop where
  wf : s.Wf
  base : s.toBase = s'.toBase
  yAttr : s.yAttr = s'.yAttr
  damping : Par.Same s.dimY s.damping s'.damping
  spring : Par.Same s.dimY s.spring s'.spring
  mass : Par.Same s.dimY s.mass s'.mass

theorem Sim.of_base {s s' : SpringDamper} (h : Sim s s') {b : Base}
    (h1 : b.xInit.length = s.dimX) (h2 : b.dimX = s.dimX) (h3 : b.dimY = s.dimY) :
    Sim { s with toBase := b } { s' with toBase := b } := by
  have hw := h.wf
  refine ⟨⟨?_, h1.trans h2.symm, hw.yAttr.trans h3.symm, ?_, ?_, ?_⟩, rfl, h.yAttr, ?_, ?_, ?_⟩
  · show b.dimX = b.dimY + b.dimY
    rw [h2, h3]; exact hw.dim
  · show s.damping.Fits b.dimY; rw [h3]; exact hw.damping
  · show s.spring.Fits b.dimY; rw [h3]; exact hw.spring
  · show s.mass.Fits b.dimY; rw [h3]; exact hw.mass
  · show Par.Same b.dimY _ _; rw [h3]; exact h.damping
  · show Par.Same b.dimY _ _; rw [h3]; exact h.spring
  · show Par.Same b.dimY _ _; rw [h3]; exact h.mass

theorem Sim.both {s s' : SpringDamper} (h : Sim s s') (op : DecOp) (hop : op ≠ .decouple) :
    Sim (afterOp op s) (afterOp op s') ∧ (afterOp op s).dimX = s.dimX := by
  have hw := h.wf
  have hle : s.dimY ≤ s.dimX := by rw [hw.dim]; omega
  cases op with
  | decouple => exact absurd rfl hop
  | setTau t =>
    have := h.of_base (b := (Base.setTau t s.toBase).2) hw.xInit rfl rfl
    refine ⟨?_, rfl⟩
    have e : s'.toBase = s.toBase := h.base.symm
    simp only [afterOp, setTau, inherit, e]
    exact this
  | setXInit x =>
    obtain ⟨k1, k2, k3⟩ := Base.setXInit_keeps s.toBase x hw.xInit
    refine ⟨?_, k2⟩
    have e : s'.toBase = s.toBase := h.base.symm
    simp only [afterOp, setXInit, inherit, e]
    exact h.of_base k1 k2 k3
  | setYInit x =>
    obtain ⟨k1, k2, k3⟩ := Base.setYInit_keeps s.toBase x hw.xInit hle
    refine ⟨?_, k2⟩
    have e : s'.toBase = s.toBase := h.base.symm
    simp only [afterOp, setYInit, inherit, e]
    exact h.of_base k1 k2 k3
  | setYAttr y =>
    have hd : s'.dimY = s.dimY := congrArg Base.dimY h.base.symm
    by_cases hy : y.length = s.dimY
    · simp only [afterOp, setYAttr, PyM.self_bind, hd, hy, ne_eq, not_true_eq_false, if_false,
        PyM.modify_apply]
      exact ⟨⟨⟨hw.dim, hw.xInit, hy, hw.damping, hw.spring, hw.mass⟩, h.base, rfl, h.damping,
        h.spring, h.mass⟩, trivial⟩
    · simp only [afterOp, setYAttr, PyM.self_bind, hd, hy, ne_eq, not_false_eq_true, if_true,
        PyM.raise_apply]
      exact ⟨h, trivial⟩

theorem Sim.decouple_left {s s' : SpringDamper} (h : Sim s s') : Sim s.decouple s' :=
  ⟨⟨h.wf.dim, h.wf.xInit, h.wf.yAttr, Par.fits_decouple h.wf.damping,
    Par.fits_decouple h.wf.spring, Par.fits_decouple h.wf.mass⟩, h.base, h.yAttr,
    h.damping.decouple_left, h.spring.decouple_left, h.mass.decouple_left⟩

theorem Sim.diffEq {s s' : SpringDamper} (h : Sim s s') (x : List ℝ) :
    s.diffEq x = s'.diffEq x := by
  have hd : s'.dimY = s.dimY := congrArg Base.dimY h.base.symm
  have ht : s'.tau = s.tau := congrArg Base.tau h.base.symm
  unfold SpringDamper.diffEq
  simp only [hd, ht]
  congr 1
  refine List.map_congr_left fun i hi => ?_
  have hi := List.mem_range.mp hi
  simp only [zdComp, h.damping.eq i hi, h.spring.eq i hi, h.mass.eq i hi, h.yAttr, ht]

theorem Sim.analytical {s s' : SpringDamper} (h : Sim s s') (ts : List ℝ) :
    s.analytical ts = s'.analytical ts := by
  have hd : s'.dimY = s.dimY := congrArg Base.dimY h.base.symm
  have ht : s'.tau = s.tau := congrArg Base.tau h.base.symm
  have hx : s'.xInit = s.xInit := congrArg Base.xInit h.base.symm
  have hom : ∀ i < s.dimY, s'.omega0 i = s.omega0 i := fun i hi => by
    simp only [omega0, h.spring.eq i hi, h.mass.eq i hi, ht]
  have hA : ∀ i < s.dimY, s'.coefA i = s.coefA i := fun i hi => by
    simp only [coefA, hx, h.yAttr]
  have hB : ∀ i < s.dimY, s'.coefB i = s.coefB i := fun i hi => by
    simp only [coefB, hx, hd, hom i hi, hA i hi]
  have h1 : s.xAt = s'.xAt := funext fun t => by
    unfold xAt; rw [hd, ht]
    congr 1
    · refine List.map_congr_left fun i hi => ?_
      have hi := List.mem_range.mp hi
      simp only [yComp, hom i hi, hA i hi, hB i hi, h.yAttr]
    · refine List.map_congr_left fun i hi => ?_
      have hi := List.mem_range.mp hi
      simp only [ydComp, hom i hi, hA i hi, hB i hi]
  have h2 : s.xdAt = s'.xdAt := funext fun t => by
    unfold xdAt; rw [hd, ht]
    congr 1
    · refine List.map_congr_left fun i hi => ?_
      have hi := List.mem_range.mp hi
      simp only [ydComp, hom i hi, hA i hi, hB i hi]
    · refine List.map_congr_left fun i hi => ?_
      have hi := List.mem_range.mp hi
      simp only [yddComp, hom i hi, hA i hi, hB i hi]
  unfold SpringDamper.analytical
  rw [h1, h2]

/-- C14, spring-damper system. -/
theorem C14_decouple (s : SpringDamper) (h : s.Wf) (ops : List DecOp) :
    (∀ x, (ops.foldl (fun s op => afterOp op s) s).diffEq x =
        ((withoutDecouple ops).foldl (fun s op => afterOp op s) s).diffEq x) ∧
    (∀ ts, (ops.foldl (fun s op => afterOp op s) s).analytical ts =
        ((withoutDecouple ops).foldl (fun s op => afterOp op s) s).analytical ts) := by
  have hs := decouple_simulation afterOp Sim (fun op a b hop hab => (hab.both op hop).1)
    (fun a b hab => hab.decouple_left) ops s s
    ⟨h, rfl, rfl, .refl h.damping, .refl h.spring, .refl h.mass⟩
  exact ⟨fun x => hs.diffEq x, fun ts => hs.analytical ts⟩

/-- A system that changes representation when decoupled. -/
example : (init 2 [1, 5] [0, 3] (.scalar 4)).Wf ∧
    (init 2 [1, 5] [0, 3] (.scalar 4)).decouple.damping = .array [4, 4] ∧
    (init 2 [1, 5] [0, 3] (.scalar 4)).decouple.mass = .array [1, 1] :=
  ⟨⟨rfl, rfl, rfl, trivial, trivial, trivial⟩, rfl, rfl⟩

end SpringDamper

/-! ### Sigmoid system -/

namespace Sigmoid

/-- The object after a call (there is no attractor to set). -/
noncomputable def afterOp : DecOp → Sigmoid → Sigmoid
  | .setTau t, s => (setTau t s).2
  | .setXInit x, s => (setXInit x s).2
  | .setYInit y, s => (setYInit y s).2
  | .setYAttr _, s => s
  | .decouple, s => (decouple s).2

/-- Equal up to decoupling. -/
structure Sim (s s' : Sigmoid) : Prop where
  wf : s.Wf
  coherent : s.Coherent
  coherent' : s'.Coherent
  base : s.toBase = s'.toBase
  maxRate : Par.Same s.dimX s.maxRate s'.maxRate
  inflRatio : Par.Same s.dimX s.inflRatio s'.inflRatio

theorem Sim.both {s s' : Sigmoid} (h : Sim s s') (op : DecOp) (hop : op ≠ .decouple) :
    Sim (afterOp op s) (afterOp op s') ∧ (afterOp op s).dimX = s.dimX := by
  obtain ⟨⟨tau, dy, dx, x0⟩, r, ir, c⟩ := s
  obtain ⟨⟨tau', dy', dx', x0'⟩, r', ir', c'⟩ := s'
  obtain ⟨hw, hc, hc', hb, hr, hi⟩ := h
  cases hb
  cases op with
  | decouple => exact absurd rfl hop
  | setTau t => exact ⟨⟨⟨hw.dim, hw.xInit, hw.maxRate, hw.inflRatio⟩, .inl rfl, .inl rfl, rfl, hr,
      hi⟩, rfl⟩
  | setXInit x =>
    by_cases hx : x.length = dx
    · simp only [afterOp, setXInit, PyM.self_bind, hx, ne_eq, not_true_eq_false, if_false,
        PyM.modify_apply]
      exact ⟨⟨⟨hw.dim, hx, hw.maxRate, hw.inflRatio⟩, .inl rfl, .inl rfl, rfl, hr, hi⟩, trivial⟩
    · simp only [afterOp, setXInit, PyM.self_bind, hx, ne_eq, not_false_eq_true, if_true,
        PyM.raise_apply]
      exact ⟨⟨hw, hc, hc', rfl, hr, hi⟩, trivial⟩
  | setYInit x =>
    by_cases hx : x.length = dx
    · simp only [afterOp, setYInit, setXInit, PyM.bind_apply, PyM.self_apply, hx, ne_eq,
        not_true_eq_false, if_false, PyM.modify_apply]
      exact ⟨⟨⟨hw.dim, hx, hw.maxRate, hw.inflRatio⟩, .inl rfl, .inl rfl, rfl, hr, hi⟩, trivial⟩
    · simp only [afterOp, setYInit, setXInit, PyM.bind_apply, PyM.self_apply, hx, ne_eq,
        not_false_eq_true, if_true, PyM.raise_apply]
      exact ⟨⟨hw, hc, hc', rfl, hr, hi⟩, trivial⟩
  | setYAttr y => exact ⟨⟨hw, hc, hc', rfl, hr, hi⟩, rfl⟩

theorem Sim.decouple_left {s s' : Sigmoid} (h : Sim s s') : Sim (decouple s).2 s' :=
  ⟨⟨h.wf.dim, h.wf.xInit, Par.fits_decouple h.wf.maxRate, Par.fits_decouple h.wf.inflRatio⟩,
    .inl rfl, h.coherent', h.base, h.maxRate.decouple_left, h.inflRatio.decouple_left⟩

theorem Sim.ksNow {s s' : Sigmoid} (h : Sim s s') : s.ksNow = s'.ksNow := by
  have hx : s'.xInit = s.xInit := congrArg Base.xInit h.base.symm
  have ht : s'.tau = s.tau := congrArg Base.tau h.base.symm
  unfold Sigmoid.ksNow
  rw [hx, h.wf.xInit]
  refine List.map_congr_left fun i hi => ?_
  have hi := List.mem_range.mp hi
  simp only [kComp, h.maxRate.eq i hi, h.inflRatio.eq i hi, hx, ht]

theorem Sim.diffEq {s s' : Sigmoid} (h : Sim s s') {x : List ℝ} (hx : x.length = s.dimX) :
    (Sigmoid.diffEq x s).1 = (Sigmoid.diffEq x s').1 := by
  rw [diffEq_run h.coherent, diffEq_run h.coherent', h.ksNow]
  simp only [rate]
  rw [h.maxRate.mul hx]

theorem Sim.analytical {s s' : Sigmoid} (h : Sim s s') (ts : List ℝ) :
    (Sigmoid.analytical ts s).1 = (Sigmoid.analytical ts s').1 := by
  have hx : s'.xInit = s.xInit := congrArg Base.xInit h.base.symm
  have hd : s'.dimX = s.dimX := congrArg Base.dimX h.base.symm
  rw [analytical_run h.coherent, analytical_run h.coherent', h.ksNow, hd]
  have e1 : (fun t => (List.range s.dimX).map (s.xComp s'.ksNow t)) =
      fun t => (List.range s.dimX).map (s'.xComp s'.ksNow t) := by
    funext t
    refine List.map_congr_left fun i hi => ?_
    simp only [xComp, h.maxRate.eq i (List.mem_range.mp hi), hx]
  have e2 : (fun t => (List.range s.dimX).map (s.xdComp s'.ksNow t)) =
      fun t => (List.range s.dimX).map (s'.xdComp s'.ksNow t) := by
    funext t
    refine List.map_congr_left fun i hi => ?_
    simp only [xdComp, h.maxRate.eq i (List.mem_range.mp hi), hx]
  rw [e1, e2]

/-- C14, sigmoid system. -/
theorem C14_decouple (s : Sigmoid) (h : Reachable s) (ops : List DecOp) :
    (∀ x, x.length = s.dimX →
      (diffEq x (ops.foldl (fun s op => afterOp op s) s)).1 =
        (diffEq x ((withoutDecouple ops).foldl (fun s op => afterOp op s) s)).1) ∧
    (∀ ts, (analytical ts (ops.foldl (fun s op => afterOp op s) s)).1 =
        (analytical ts ((withoutDecouple ops).foldl (fun s op => afterOp op s) s)).1) := by
  obtain ⟨hw, hc⟩ := h.wf
  have hs := decouple_simulation afterOp (fun a b => Sim a b ∧ a.dimX = s.dimX)
    (fun op a b hop hab => ⟨(hab.1.both op hop).1, (hab.1.both op hop).2.trans hab.2⟩)
    (fun a b hab => ⟨hab.1.decouple_left, hab.2⟩) ops s s
    ⟨⟨hw, hc, hc, rfl, .refl hw.maxRate, .refl hw.inflRatio⟩, rfl⟩
  exact ⟨fun x hx => hs.1.diffEq (hx.trans hs.2.symm), fun ts => hs.1.analytical ts⟩

/-- A system that changes representation when decoupled. -/
example : Reachable (init 2 [1, 5] (.scalar (-4)) (.array [0.5, 0.9])) ∧
    (decouple (init 2 [1, 5] (.scalar (-4)) (.array [0.5, 0.9]))).2.maxRate = .array [-4, -4] :=
  ⟨⟨2, [1, 5], .scalar (-4), .array [0.5, 0.9], [], trivial, rfl, rfl⟩, rfl⟩

end Sigmoid

/-! ### Richards system -/

namespace Richards

/-- The object after a call (the attractor has no setter). -/
noncomputable def afterOp : DecOp → Richards → Richards
  | .setTau t, s => (setTau t s).2
  | .setXInit x, s => (setXInit x s).2
  | .setYInit y, s => (setYInit y s).2
  | .setYAttr _, s => s
  | .decouple, s => s.decouple

/-- Equal up to decoupling. -/
structure Sim (s s' : Richards) : Prop where
  len : s.xInit.length = s.dimX
  dim : s.dimX = s.dimY
  base : s.toBase = s'.toBase
  rightAsymp : s.rightAsymp = s'.rightAsymp
  leftAsymp : s.leftAsymp = s'.leftAsymp
  alpha : Par.Same s.dimX s.alpha s'.alpha
  v : Par.Same s.dimX s.v s'.v
  tInflRatio : Par.Same s.dimX s.tInflRatio s'.tInflRatio

theorem Sim.of_base {s s' : Richards} (h : Sim s s') {b : Base}
    (h1 : b.xInit.length = s.dimX) (h2 : b.dimX = s.dimX) (h3 : b.dimY = s.dimY) :
    Sim { s with toBase := b } { s' with toBase := b } := by
  refine ⟨h1.trans h2.symm, h2.trans (h.dim.trans h3.symm), rfl, h.rightAsymp, h.leftAsymp,
    ?_, ?_, ?_⟩
  · show Par.Same b.dimX _ _; rw [h2]; exact h.alpha
  · show Par.Same b.dimX _ _; rw [h2]; exact h.v
  · show Par.Same b.dimX _ _; rw [h2]; exact h.tInflRatio

theorem Sim.both {s s' : Richards} (h : Sim s s') (op : DecOp) (hop : op ≠ .decouple) :
    Sim (afterOp op s) (afterOp op s') ∧ (afterOp op s).dimX = s.dimX := by
  have e : s'.toBase = s.toBase := h.base.symm
  cases op with
  | decouple => exact absurd rfl hop
  | setTau t =>
    refine ⟨?_, rfl⟩
    simp only [afterOp, setTau, inherit, e]
    exact h.of_base (b := (Base.setTau t s.toBase).2) h.len rfl rfl
  | setXInit x =>
    obtain ⟨k1, k2, k3⟩ := Base.setXInit_keeps s.toBase x h.len
    refine ⟨?_, k2⟩
    simp only [afterOp, setXInit, inherit, e]
    exact h.of_base k1 k2 k3
  | setYInit x =>
    obtain ⟨k1, k2, k3⟩ := Base.setYInit_keeps s.toBase x h.len h.dim.ge
    refine ⟨?_, k2⟩
    simp only [afterOp, setYInit, inherit, e]
    exact h.of_base k1 k2 k3
  | setYAttr y => exact ⟨h, rfl⟩

theorem Sim.decouple_left {s s' : Richards} (h : Sim s s') : Sim s.decouple s' :=
  ⟨h.len, h.dim, h.base, h.rightAsymp, h.leftAsymp, h.alpha.decouple_left, h.v.decouple_left,
    h.tInflRatio.decouple_left⟩

theorem same_clipMin {n : Nat} {p q : Par ℝ} (lo : ℝ) (h : Par.Same n p q) :
    Par.Same n (clipMin lo p) (clipMin lo q) :=
  ⟨fits_clipMin lo h.left, fits_clipMin lo h.right, fun i hi => by
    rw [at'_clipMin lo p h.left hi, at'_clipMin lo q h.right hi, h.eq i hi]⟩

theorem Sim.clippedV {s s' : Richards} (h : Sim s s') :
    Par.Same s.dimX s.clipped.v s'.clipped.v := by
  simp only [clipped, ← h.leftAsymp]
  cases s.leftAsymp with
  | some a => exact h.v
  | none => exact same_clipMin 0.5 h.v

theorem Sim.left {s s' : Richards} (h : Sim s s') : s.left = s'.left := by
  have hx : s'.xInit = s.xInit := congrArg Base.xInit h.base.symm
  have ht : s'.tau = s.tau := congrArg Base.tau h.base.symm
  unfold Richards.left
  rw [← h.leftAsymp]
  cases s.leftAsymp with
  | some a => rfl
  | none =>
    simp only [hx, h.len]
    congr 1
    refine List.map_congr_left fun i hi => ?_
    have hi := List.mem_range.mp hi
    simp only [leftComp, clipped_tau, clipped_alpha, clipped_tInflRatio, clipped_xInit,
      clipped_rightAsymp, h.clippedV.eq i hi, h.alpha.eq i hi, h.tInflRatio.eq i hi, hx, ht,
      h.rightAsymp]

theorem Sim.diffEq {s s' : Richards} (h : Sim s s') {x : List ℝ} (hx : x.length = s.dimX) :
    (Richards.diffEq x s).1 = (Richards.diffEq x s').1 := by
  have ht : s'.tau = s.tau := congrArg Base.tau h.base.symm
  rw [diffEq_run, diffEq_run, h.left, hx]
  simp only [Except.ok.injEq]
  refine List.map_congr_left fun i hi => ?_
  have hi := List.mem_range.mp hi
  simp only [rateComp, clipped_tau, clipped_alpha, clipped_rightAsymp, h.clippedV.eq i hi,
    h.alpha.eq i hi, ht, h.rightAsymp]

theorem Sim.analytical {s s' : Richards} (h : Sim s s') (ts : List ℝ) :
    (Richards.analytical ts s).1 = (Richards.analytical ts s').1 := by
  have hx : s'.xInit = s.xInit := congrArg Base.xInit h.base.symm
  have ht : s'.tau = s.tau := congrArg Base.tau h.base.symm
  have hd : s'.dimX = s.dimX := congrArg Base.dimX h.base.symm
  rw [analytical_run, analytical_run, h.left, hd]
  have hq : ∀ i < s.dimX, s.clipped.qComp s'.left i = s'.clipped.qComp s'.left i := fun i hi => by
    simp only [qComp, clipped_rightAsymp, clipped_xInit, h.clippedV.eq i hi, hx, h.rightAsymp]
  have e1 : (fun t => (List.range s.dimX).map (s.clipped.xComp s'.left t)) =
      fun t => (List.range s.dimX).map (s'.clipped.xComp s'.left t) := by
    funext t
    refine List.map_congr_left fun i hi => ?_
    have hi := List.mem_range.mp hi
    simp only [xComp, clipped_tau, clipped_alpha, clipped_rightAsymp, h.clippedV.eq i hi,
      h.alpha.eq i hi, ht, h.rightAsymp, hq i hi]
  have e2 : (fun t => (List.range s.dimX).map (s.clipped.xdComp s'.left t)) =
      fun t => (List.range s.dimX).map (s'.clipped.xdComp s'.left t) := by
    funext t
    refine List.map_congr_left fun i hi => ?_
    have hi := List.mem_range.mp hi
    simp only [xdComp, clipped_tau, clipped_alpha, clipped_rightAsymp, h.clippedV.eq i hi,
      h.alpha.eq i hi, ht, h.rightAsymp, hq i hi]
  rw [e1, e2]

/-- C14, Richards system. -/
theorem C14_decouple (s : Richards) (hw : s.Wf) (ops : List DecOp) :
    (∀ x, x.length = s.dimX →
      (diffEq x (ops.foldl (fun s op => afterOp op s) s)).1 =
        (diffEq x ((withoutDecouple ops).foldl (fun s op => afterOp op s) s)).1) ∧
    (∀ ts, (analytical ts (ops.foldl (fun s op => afterOp op s) s)).1 =
        (analytical ts ((withoutDecouple ops).foldl (fun s op => afterOp op s) s)).1) := by
  have hs := decouple_simulation afterOp (fun a b => Sim a b ∧ a.dimX = s.dimX)
    (fun op a b hop hab => ⟨(hab.1.both op hop).1, (hab.1.both op hop).2.trans hab.2⟩)
    (fun a b hab => ⟨hab.1.decouple_left, hab.2⟩) ops s s
    ⟨⟨hw.xInit, hw.dim, rfl, rfl, rfl, .refl hw.alpha, .refl hw.v, .refl hw.tInflRatio⟩, rfl⟩
  exact ⟨fun x hx => hs.1.diffEq (hx.trans hs.2.symm), fun ts => hs.1.analytical ts⟩

/-- A system that changes representation when decoupled. -/
example : (init 2 [1, 5] (.array [0, 3]) (.scalar 0.3) (.scalar 4)).Wf ∧
    (init 2 [1, 5] (.array [0, 3]) (.scalar 0.3) (.scalar 4)).decouple.alpha = .array [4, 4] :=
  ⟨⟨rfl, rfl, trivial, trivial, rfl, trivial, fun _ ha => by cases ha⟩, rfl⟩

end Richards

end Verif
