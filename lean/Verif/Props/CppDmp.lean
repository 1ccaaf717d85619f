import Verif.Proofs.CppDmpRead
import Verif.Proofs.ParamVector
import Verif.Props.DmpConverges

/-
C70: a Dmp that Python has written can be read by C++. C71: the Dmp that was read makes the same motion.
-/

set_option autoImplicit false

namespace Verif

namespace Cpp

namespace Dmp

open Verif.Dmp (Inv Kept Options Reachable Change)

/-! ### Dmps with the default subsystems -/

/-- A subsystem for which C++ has a class, as the constructor makes it, with time constant `tau`. -/
def Plain1 (tau : ℝ) (s : Sub) : Prop := Started s ∧ Scalar s ∧ s.base.tau = tau

theorem plain1_touch {tau : ℝ} {s : Sub} : Plain1 tau s.touch ↔ Plain1 tau s := by cases s <;> rfl

theorem plain1_withTau {tau t : ℝ} {s : Sub} (h : Plain1 tau s) : Plain1 t (s.withTau t) := by
  cases s <;> exact ⟨h.1, h.2.1, rfl⟩

/-- What all Dmps with default subsystems of the types of 2012 and 2013 have in common, whatever
was done with them. -/
structure Common (d : Nat) (s : Verif.Dmp) : Prop where
  inv : Inv d s
  tau : 0 < s.tau
  noDamping : s.damping = none
  noScaling : s.requiresScaling = false
  springTau : s.spring.tau = s.tau
  critical : ∀ a, s.spring.damping = .scalar a →
    s.spring.spring = .scalar (a * a / 4) ∧ s.spring.mass = .scalar 1
  rest : ∀ y, s.yInit? = some y → s.spring.xInit = y ++ vzeros s.dimY
  goal : ∃ g, s.goal = some (.exponential g) ∧ g.tau = s.tau ∧ (∀ y, s.yInit? = some y → g.xInit = y) ∧
    ((∃ a, s.spring.damping = .scalar a) → ∃ a, g.alpha = .scalar a)
  phase : Plain1 s.tau s.phase
  gating : Plain1 s.tau s.gating

theorem common_core {d : Nat} {s t : Verif.Dmp} (h : Common d s) (i : Inv d t) (hc : t.core = s.core) :
    Common d t := by
  have h1 : t.core.requiresScaling = s.core.requiresScaling := by rw [hc]
  change t.requiresScaling = s.requiresScaling at h1
  have h3 : t.goal.map Sub.touch = s.goal.map Sub.touch :=
    congrArg (fun r : Verif.Dmp => r.goal) hc
  have h4 : t.damping.map Sub.touch = s.damping.map Sub.touch :=
    congrArg (fun r : Verif.Dmp => r.damping) hc
  have h5 : t.gating.touch = s.gating.touch := congrArg (fun r : Verif.Dmp => r.gating) hc
  have h9 : t.phase.touch = s.phase.touch := congrArg (fun r : Verif.Dmp => r.phase) hc
  have h6 : t.core.spring.spring = s.core.spring.spring := by rw [hc]
  change t.spring.spring = s.spring.spring at h6
  have h7 : t.core.spring.mass = s.core.spring.mass := by rw [hc]
  change t.spring.mass = s.spring.mass at h7
  have hx : t.core.spring.xInit = s.core.spring.xInit := by rw [hc]
  change t.spring.xInit = s.spring.xInit at hx
  have hy : t.core.yInit? = s.core.yInit? := by rw [hc]
  change t.yInit? = s.yInit? at hy
  have hd : t.core.dimY = s.core.dimY := by rw [hc]
  change t.dimY = s.dimY at hd
  have ht : t.tau = s.tau := Verif.Dmp.core_tau hc
  have hst : t.spring.tau = s.spring.tau := Verif.Dmp.core_springTau hc
  have h8 : (match t.damping with | none => t.spring.damping | some _ => .scalar 0) =
      (match s.damping with | none => s.spring.damping | some _ => .scalar 0) :=
    congrArg (fun r : Verif.Dmp => r.spring.damping) hc
  have hn : t.damping = none := by
    rw [h.noDamping] at h4
    cases e : t.damping with
    | none => rfl
    | some g => rw [e] at h4; cases h4
  have h8 : t.spring.damping = s.spring.damping := by
    rw [hn, h.noDamping] at h8
    exact h8
  have hg : t.goal = s.goal := by
    obtain ⟨g, hg, -⟩ := h.goal
    rw [hg] at h3 ⊢
    cases e : t.goal with
    | none => rw [e] at h3; cases h3
    | some g' =>
      rw [e] at h3
      cases g' with
      | exponential g' => exact h3
      | time _ => cases h3
      | sigmoid _ => cases h3
      | richards _ => cases h3
  exact {
    inv := i
    tau := ht ▸ h.tau
    noDamping := hn
    noScaling := h1.trans h.noScaling
    springTau := by rw [hst, ht]; exact h.springTau
    critical := by rw [h6, h7, h8]; exact h.critical
    rest := by rw [hy, hx, hd]; exact h.rest
    goal := by rw [hg, ht, hy, h8]; exact h.goal
    phase := by rw [ht, ← plain1_touch, h9, plain1_touch]; exact h.phase
    gating := by rw [ht, ← plain1_touch, h5, plain1_touch]; exact h.gating }

theorem decouple_array (p : Par ℝ) (n : Nat) (a : ℝ) : p.decouple n ≠ .scalar a := by
  cases p <;> exact fun h => nomatch h

theorem kept_common (d : Nat) : Kept d (Common d) where
  inv _ h := h.inv
  core _ _ h i hc := common_core h i hc
  tau s t h ht := by
    obtain ⟨g, hg, gtau, gi, ga⟩ := h.goal
    have h0 : s.tau * (t / s.tau) = t := by
      have := h.tau.ne'
      field_simp
    exact {
      inv := Verif.Dmp.inv_retimed h.inv t
      tau := ht
      noDamping := h.noDamping
      noScaling := h.noScaling
      springTau := by
        change s.spring.tau * (t / s.tau) = t
        rw [h.springTau, h0]
      critical := h.critical
      rest := h.rest
      goal := by
        refine ⟨{ g with tau := t }, ?_, rfl, gi, ga⟩
        change s.goal.map _ = _
        rw [hg, Option.map_some]
        change some (Sub.exponential { g with tau := g.tau * (t / s.tau) }) = _
        rw [gtau, h0]
      phase := by
        change Plain1 t (s.phase.withTau (s.phase.base.tau * (t / s.tau)))
        rw [h.phase.2.2, h0]
        exact plain1_withTau h.phase
      gating := by
        change Plain1 t (s.gating.withTau (s.gating.base.tau * (t / s.tau)))
        rw [h.gating.2.2, h0]
        exact plain1_withTau h.gating }
  place s y h hy := by
    obtain ⟨g, hg, gtau, gi, ga⟩ := h.goal
    exact {
      inv := Verif.Dmp.inv_placed h.inv hy
      tau := h.tau
      noDamping := h.noDamping
      noScaling := h.noScaling
      springTau := h.springTau
      critical := h.critical
      rest := by rintro _ ⟨⟩; rfl
      goal := by
        refine ⟨{ g with xInit := y }, ?_, gtau, by rintro _ ⟨⟩; rfl, ga⟩
        change (if s.requiresScaling then s.goal else s.goal.map (Sub.withInit y)) = _
        rw [if_neg (by simp [h.noScaling]), hg]
        rfl
      phase := h.phase
      gating := h.gating }
  aim s y h hy := by
    obtain ⟨g, hg, gtau, gi, ga⟩ := h.goal
    exact {
      inv := Verif.Dmp.inv_aimed h.inv hy
      tau := h.tau
      noDamping := h.noDamping
      noScaling := h.noScaling
      springTau := h.springTau
      critical := h.critical
      rest := h.rest
      goal := by
        refine ⟨{ g with xAttr := y }, ?_, gtau, gi, ga⟩
        change (if s.requiresScaling then s.goal else s.goal.map (Sub.withAttr y)) = _
        rw [if_neg (by simp [h.noScaling]), hg]
        rfl
      phase := h.phase
      gating := h.gating }
  other s f a ts sel h i := ⟨i, h.tau, h.noDamping, h.noScaling, h.springTau, h.critical, h.rest, h.goal,
    h.phase, h.gating⟩
  decouple s h := by
    obtain ⟨g, hg, gtau, gi, ga⟩ := h.goal
    exact {
      inv := Verif.Dmp.inv_decoupled h.inv
      tau := h.tau
      noDamping := by
        change s.damping.map _ = none
        rw [h.noDamping]
        rfl
      noScaling := h.noScaling
      springTau := h.springTau
      critical := fun a ha => (decouple_array _ _ _ ha).elim
      rest := h.rest
      goal := by
        refine ⟨g.decouple, ?_, gtau, gi, fun ⟨a, ha⟩ => (decouple_array _ _ _ ha).elim⟩
        change s.goal.map _ = _
        rw [hg]
        rfl
      phase := h.phase
      gating := h.gating }

/-- Constructor arguments: positive time constant, a type for which C++ has the subsystems, no
subsystems passed. -/
def Known (tau : ℝ) (_ _ : List ℝ) (o : Options) (_ : Verif.Dmp) : Prop :=
  0 < tau ∧ o.dmpType ∈ ["KULVICIUS_2012_JOINING", "Kul12", "COUNTDOWN_2013"] ∧ o.transformation = none ∧
    o.goal = none ∧ o.gating = none ∧ o.phase = none ∧ o.damping = none

theorem init_common {tau : ℝ} {yInit yAttr : List ℝ} {fas : Option (List Fa)} {o : Options}
    {s : Verif.Dmp} (h : Verif.Dmp.init tau yInit yAttr fas o = .ok s)
    (ha : yAttr.length = yInit.length) (ho : o.Fits yInit.length) (hk : Known tau yInit yAttr o s) :
    Common yInit.length s := by
  obtain ⟨hτ, hty, htr, hgo, hga, hph, hda⟩ := hk
  have hinv : Inv yInit.length s := Verif.Dmp.init_inv h ha ho fun e he => by rw [hgo] at he; cases he
  obtain ⟨dflt, hd, rfl⟩ := Verif.Dmp.init_eq h
  have hne : ¬ (o.dmpType = "IJSPEERT_2002_MOVEMENT" ∨ o.dmpType = "Ijs02") := by
    simp only [List.mem_cons, List.not_mem_nil, or_false] at hty
    rcases hty with e | e | e <;> rw [e] <;> decide
  have hty' : o.dmpType = "KULVICIUS_2012_JOINING" ∨ o.dmpType = "Kul12" ∨ o.dmpType = "COUNTDOWN_2013" := by
    simpa using hty
  unfold Verif.Dmp.defaults at hd
  simp only at hd
  rw [if_neg hne, if_pos hty'] at hd
  cases hd
  simp only [htr, hgo, hga, hph, hda, Option.getD_none] at hinv ⊢
  exact {
    inv := hinv
    tau := hτ
    noDamping := rfl
    noScaling := rfl
    springTau := rfl
    critical := by
      intro a e
      have e : o.alphaSpring = .scalar a := e
      refine ⟨?_, rfl⟩
      change SpringDamper.criticalSpring o.alphaSpring = _
      rw [e]
      rfl
    rest := fun _ h => nomatch h
    goal := ⟨_, rfl, rfl, (fun _ h => nomatch h), fun _ => ⟨_, rfl⟩⟩
    phase := ⟨rfl, trivial, rfl⟩
    gating := ⟨trivial, ⟨_, _, rfl, rfl⟩, rfl⟩ }

theorem reachable_common {d : Nat} {s : Verif.Dmp} (h : Reachable Known Change.Forward d s) :
    Common d s :=
  (kept_common d).reachable (fun _ _ _ _ _ _ hi hy ha ho hk => by
    subst hy
    exact init_common hi ha ho hk) h

/-! ### Reading -/

theorem cmapM_ok {α β : Type} {f : α → CppResult β} : ∀ {l : List α} {r : List β},
    l.mapM f = .ok r ↔ List.Forall₂ (fun a b => f a = .ok b) l r
  | [], r => by
    constructor
    · intro h; cases h; exact .nil
    · intro h; cases h; rfl
  | a :: l, r => by
    rw [List.mapM_cons]
    constructor
    · intro h
      cases e : f a with
      | error _ => rw [e] at h; cases h
      | ok b =>
        cases e2 : l.mapM f with
        | error _ => rw [e, e2] at h; cases h
        | ok bs =>
          rw [e, e2] at h
          cases h
          exact .cons e (cmapM_ok.mp e2)
    · intro h
      cases h with
      | cons h1 h2 =>
        rw [h1, cmapM_ok.mpr h2]
        rfl

/-- A function approximator that C++ can evaluate: a trained RBFN or LWR with at least one basis
function, whose parameters have the right sizes. -/
def Trained (fa : Fa) : Prop :=
  match fa.model with
  | some ⟨_, .rbfn m⟩ => 0 < m.kernels.n ∧ m.rows = m.kernels.n ∧ m.cols = 1
  | some ⟨_, .lwr m⟩ => 0 < m.kernels.n ∧ m.lines = m.kernels.n
  | _ => False

theorem readFa_iff (fa : Fa) : (∃ c, readFa fa = .ok (some c)) ↔ Trained fa := by
  unfold readFa Trained
  match fa.model with
  | none =>
    cases fa.params <;> simp only [iff_false] <;> rintro ⟨c, hc⟩ <;> cases hc
  | some ⟨_, .wls _⟩ => simp only [iff_false]; rintro ⟨c, hc⟩; cases hc
  | some ⟨_, .gpr _⟩ => simp only [iff_false]; rintro ⟨c, hc⟩; cases hc
  | some ⟨_, .rbfn m⟩ =>
    simp only
    by_cases h : 0 < m.kernels.n ∧ m.rows = m.kernels.n ∧ m.cols = 1
    · simp only [h, and_self, iff_true]
      unfold readRbfn
      rw [if_neg (by omega), dif_pos h.2]
      exact ⟨_, rfl⟩
    · simp only [h, iff_false]
      rintro ⟨c, hc⟩
      unfold readRbfn at hc
      by_cases h1 : m.kernels.n = 0 ∨ m.rows = 0
      · rw [if_pos h1] at hc; cases hc
      · rw [if_neg h1] at hc
        by_cases h2 : m.rows = m.kernels.n ∧ m.cols = 1
        · exact h ⟨by omega, h2⟩
        · rw [dif_neg h2] at hc; cases hc
  | some ⟨_, .lwr m⟩ =>
    simp only
    by_cases h : 0 < m.kernels.n ∧ m.lines = m.kernels.n
    · simp only [h, and_self, iff_true]
      unfold readLwr
      rw [if_neg (by omega), dif_pos h.2]
      exact ⟨_, rfl⟩
    · simp only [h, iff_false]
      rintro ⟨c, hc⟩
      unfold readLwr at hc
      by_cases h1 : m.kernels.n = 0 ∨ m.lines = 0
      · rw [if_pos h1] at hc; cases hc
      · rw [if_neg h1] at hc
        by_cases h2 : m.lines = m.kernels.n
        · exact h ⟨by omega, h2⟩
        · rw [dif_neg h2] at hc; cases hc

/-- What the constructor makes. -/
theorem make_eq (tau : ℝ) (y a : List ℝ) (fas : List (Option AnyFa)) (alpha : ℝ) (g : Exponential)
    (phase gating : Option AnySystem) (scaling : ForcingScaling) (amps : List ℝ)
    (hg : g.dimX = y.length) :
    make tau y a fas alpha (some g) phase gating scaling amps =
      if scaling = .amplitude ∧ amps.length ≠ y.length then .error .assertion
      else if fas.length ≠ 0 ∧ y.length ≠ fas.length then .error .assertion
      else .ok {
        tau := tau
        dimX := 3 * y.length + 2
        dimY := y.length
        xInit := y ++ vzeros (2 * y.length + 2)
        yAttr := a
        spring := ⟨⟨tau, y.length * 2, y.length, y ++ vzeros y.length⟩, a, alpha, alpha * alpha / 4, 1⟩
        goal := some { g with xInit := y }
        phase := phase
        gating := gating
        fas := fas
        scaling := scaling
        amplitudes := amps } := by
  have hb : Base.ofDims tau y (3 * y.length + 2) =
      .ok ⟨tau, 3 * y.length + 2, y.length, y ++ vzeros (2 * y.length + 2)⟩ := by
    unfold Base.ofDims Base.setYInit
    simp only
    rw [if_neg (by simp), if_neg (by omega), if_neg (by omega)]
    congr 4
    omega
  unfold make build
  rw [hb]
  simp only [ok_bind, List.take_left' rfl]
  have hs : Spring.make tau y a alpha =
      .ok ⟨⟨tau, y.length * 2, y.length, y ++ vzeros y.length⟩, a, alpha, alpha * alpha / 4, 1⟩ := by
    unfold Spring.make
    rw [ofOrder_two, ok_bind, if_pos rfl]
    rfl
  have hx : g.setXInit y = .ok { g with xInit := y } := by
    unfold Exponential.setXInit Base.setXInit
    rw [if_neg (by rw [hg]; simp)]
    rfl
  rw [hs]
  simp only [ok_bind, hg, hx, ne_eq, not_true_eq_false, if_false, pure_bind]
  by_cases h1 : scaling = .amplitude ∧ ¬ amps.length = y.length
  · rw [if_pos h1, if_pos h1]; rfl
  · rw [if_neg h1, if_neg h1]
    by_cases h2 : ¬ fas.length = 0 ∧ ¬ y.length = fas.length
    · rw [if_pos h2, if_pos h2]; rfl
    · rw [if_neg h2, if_neg h2]; rfl

/-- None of the pointers of a Dmp is null. -/
def Usable (c : Dmp) : Prop :=
  c.goal.isSome ∧ c.phase.isSome ∧ c.gating.isSome ∧ ∀ i, i < c.dimY → (c.fas.getD i none).isSome

/-- What Python must have done before the Dmp is written: start set, parameters not decoupled, function
approximators trained, amplitudes given where they are used. -/
structure Prepared (s : Verif.Dmp) : Prop where
  damping : ∃ a, s.spring.damping = .scalar a
  yInit : s.yInit?.isSome
  fas : ∀ i, i < s.dimY → ∃ l fa, s.fas = some l ∧ l[i]? = some fa ∧ Trained fa
  amplitudes : s.scaling = .amplitude → 0 < s.dimY → s.amplitudes.isSome

theorem readFas_length {n : Nat} {l : List Fa} {r : List (Option AnyFa)}
    (h : readFas n (some l) = .ok r) : r.length = n ∧ ∀ i, i < n → ∃ fa c, l[i]? = some fa ∧
      r[i]? = some c ∧ readFa fa = .ok c := by
  have h := cmapM_ok.mp h
  have hl : r.length = n := by rw [← h.length_eq]; simp
  refine ⟨hl, fun i hi => ?_⟩
  have h1 := (List.forall₂_iff_get.mp h).2 i (by simpa using hi) (by omega)
  simp only [List.get_eq_getElem, List.getElem_range] at h1
  cases e : l[i]? with
  | none => rw [e] at h1; cases h1
  | some fa =>
    rw [e] at h1
    exact ⟨fa, r[i], rfl, List.getElem?_eq_getElem (by omega), h1⟩

theorem readFas_of {n : Nat} {l : List Fa} (h : ∀ i, i < n → ∃ fa, l[i]? = some fa ∧ Trained fa) :
    ∃ r, readFas n (some l) = .ok r ∧ SameFas n r l := by
  have : ∀ i, i < n → ∃ c, (match l[i]? with
      | none => .error .json
      | some fa => readFa fa : CppResult (Option AnyFa)) = .ok c ∧ ∃ c', c = some c' := by
    intro i hi
    obtain ⟨fa, h1, h2⟩ := h i hi
    obtain ⟨c, hc⟩ := (readFa_iff fa).mpr h2
    exact ⟨some c, by rw [h1]; exact hc, c, rfl⟩
  choose! f hf using this
  have hr : readFas n (some l) = .ok ((List.range n).map f) := by
    apply cmapM_ok.mpr
    rw [List.forall₂_map_right_iff]
    apply List.forall₂_same.mpr
    intro i hi
    exact (hf i (List.mem_range.mp hi)).1
  refine ⟨_, hr, fun i hi => ?_⟩
  obtain ⟨fa, h1, h2⟩ := h i hi
  obtain ⟨h3, c, hc⟩ := hf i hi
  rw [h1, hc] at h3
  exact ⟨fa, c, h1, by simp [hi, hc], h3⟩

/-- What is read from a Dmp with default subsystems. -/
theorem read_prepared {d : Nat} {s : Verif.Dmp} (h : Common d s) (hp : Prepared s) (hd : 0 < d) :
    ∃ c, read s = .ok c ∧ Matches c s := by
  have w := h.inv.wf
  obtain ⟨a, ha⟩ := hp.damping
  obtain ⟨y, hy⟩ := Option.isSome_iff_exists.mp hp.yInit
  obtain ⟨g, hg, gtau, gi, ga⟩ := h.goal
  obtain ⟨al, hal⟩ := ga ⟨a, ha⟩
  obtain ⟨hcs, hcm⟩ := h.critical a ha
  have hyl : y.length = s.dimY := w.yInit y hy
  have hal' : s.yAttr.length = s.dimY := w.yAttr
  have hdim : 0 < s.dimY := h.inv.dim ▸ hd
  obtain ⟨l, hl⟩ : ∃ l, s.fas = some l := by
    obtain ⟨l, _, h1, _⟩ := hp.fas 0 hdim
    exact ⟨l, h1⟩
  obtain ⟨r, hr, hsame⟩ := readFas_of (n := s.dimY) (l := l) fun i hi => by
    obtain ⟨l', fa, h1, h2, h3⟩ := hp.fas i hi
    rw [hl] at h1
    cases h1
    exact ⟨fa, h2, h3⟩
  obtain ⟨cp, hcp, tp⟩ := (C65_read w.phase h.phase.1).1 h.phase.2.1
  obtain ⟨cq, hcq, tq⟩ := (C65_read w.gating h.gating.1).1 h.gating.2.1
  have hgw : Verif.Exponential.Wf g := w.goal _ hg
  have hgl : g.xInit = y := gi y hy
  have hrg : readGoal s.goal =
      .ok ⟨⟨g.tau, g.xInit.length, g.xInit.length, g.xInit⟩, g.xAttr, al⟩ := by
    rw [hg]
    simp only [readGoal, readExponential, hal, readDouble, Exponential.make, ofOrder_one]
    rfl
  have hrl : r.length = s.dimY := (readFas_length hr).1
  have hread : read s = make s.tau y s.yAttr r a
      (some ⟨⟨g.tau, g.xInit.length, g.xInit.length, g.xInit⟩, g.xAttr, al⟩) (some cp) (some cq)
      s.scaling (s.amplitudes.getD []) := by
    unfold read
    rw [ha, hrg, hcp, hcq, hl, hal', hr, hy]
    rfl
  have hamp : ¬ (s.scaling = .amplitude ∧ (s.amplitudes.getD []).length ≠ y.length) := by
    rintro ⟨h1, h2⟩
    obtain ⟨v, hv⟩ := Option.isSome_iff_exists.mp (hp.amplitudes h1 hdim)
    apply h2
    rw [hv, hyl]
    exact w.amplitudes v hv
  rw [make_eq _ _ _ _ _ _ _ _ _ _ (by rw [hgl]), if_neg hamp, if_neg (by omega)] at hread
  refine ⟨_, hread, ?_⟩
  have hsd := w.springDim
  have hsw := w.spring
  exact {
    wf := w
    tau := rfl
    dimX := by change 3 * y.length + 2 = _; rw [hyl]
    dimY := hyl
    yAttr := rfl
    yInit := ⟨y, hy, by change y ++ vzeros (2 * y.length + 2) = _; rw [hyl], h.rest y hy⟩
    noDamping := h.noDamping
    noScaling := h.noScaling
    spring := by
      refine ⟨⟨h.springTau.symm, ?_, ?_, ?_⟩, rfl, ha, hcs, hcm⟩
      · change y.length * 2 = s.spring.dimX
        rw [hsw.dim, hsd, hyl]
        omega
      · change y.length = s.spring.dimY
        rw [hsd, hyl]
      · change y ++ vzeros y.length = s.spring.xInit
        rw [h.rest y hy, hyl]
    springAttr := hal'
    springTau := h.springTau
    goal := by
      refine ⟨_, g, rfl, hg, ⟨⟨rfl, ?_, ?_, hgl.symm⟩, rfl, hal⟩, gtau, by rw [hgl]; exact hy,
        (h.inv.plain g hg).2⟩
      · change g.xInit.length = g.dimX
        rw [hgw.xInit, hgw.dim]
      · change g.xInit.length = g.dimY
        rw [hgw.xInit]
    phase := ⟨cp, rfl, tp⟩
    phaseTau := h.phase.2.2
    gating := ⟨cq, rfl, tq⟩
    gatingTau := h.gating.2.2
    fas := ⟨l, hl, hsame⟩
    scaling := rfl
    amplitudes := rfl }

theorem bind_inv {α β : Type} {x : CppResult α} {f : α → CppResult β} {b : β} (h : (x >>= f) = .ok b) :
    ∃ a, x = .ok a ∧ f a = .ok b := by
  cases x with
  | error e => cases h
  | ok a => exact ⟨a, rfl, h⟩

/-- Only what has been prepared can be read. -/
theorem prepared_of_read {d : Nat} {s : Verif.Dmp} (h : Common d s) {c : Dmp} (hr : read s = .ok c)
    (hu : Usable c) : Prepared s := by
  have w := h.inv.wf
  unfold read at hr
  obtain ⟨a, h1, hr⟩ := bind_inv hr
  obtain ⟨y, hy, hr⟩ : ∃ y, s.yInit? = some y ∧ (do
      let goal ← readGoal s.goal
      let phase ← readSystem s.phase
      let gating ← readSystem s.gating
      let fas ← readFas s.yAttr.length s.fas
      make s.tau y s.yAttr fas a (some goal) phase gating s.scaling (s.amplitudes.getD [])) = .ok c := by
    cases e : s.yInit? with
    | none => rw [e] at hr; cases hr
    | some y => rw [e] at hr; exact ⟨y, rfl, hr⟩
  obtain ⟨g, h3, hr⟩ := bind_inv hr
  obtain ⟨cp, h4, hr⟩ := bind_inv hr
  obtain ⟨cq, h5, hr⟩ := bind_inv hr
  obtain ⟨fas, h6, hr⟩ := bind_inv hr
  have ha : s.spring.damping = .scalar a := by
    cases e : s.spring.damping with
    | scalar b => rw [e] at h1; cases h1; rfl
    | array l => rw [e] at h1; cases h1
  have hyl : y.length = s.dimY := w.yInit y hy
  obtain ⟨sg, hsg, gtau, gi, ga⟩ := h.goal
  have hgd : g.dimX = y.length := by
    rw [hsg] at h3
    obtain ⟨al, -, h3⟩ := bind_inv h3
    rw [Exponential.make, ofOrder_one, ok_bind] at h3
    cases h3
    change sg.xInit.length = _
    rw [gi y hy]
  rw [make_eq _ _ _ _ _ _ _ _ _ _ hgd] at hr
  by_cases e1 : s.scaling = .amplitude ∧ (s.amplitudes.getD []).length ≠ y.length
  · rw [if_pos e1] at hr; cases hr
  rw [if_neg e1] at hr
  by_cases e2 : fas.length ≠ 0 ∧ y.length ≠ fas.length
  · rw [if_pos e2] at hr; cases hr
  rw [if_neg e2] at hr
  cases hr
  refine ⟨⟨a, ha⟩, by rw [hy]; rfl, ?_, ?_⟩
  · intro i hi
    have hi2 := hu.2.2.2 i (by change i < y.length; omega)
    change (fas.getD i none).isSome at hi2
    rw [w.yAttr] at h6
    cases e : s.fas with
    | none =>
      rw [e] at h6
      cases h6
      simp at hi2
    | some l =>
      rw [e] at h6
      obtain ⟨fa, ca, k1, k2, k3⟩ := (readFas_length h6).2 i hi
      rw [List.getD_eq_getElem?_getD, k2] at hi2
      obtain ⟨ca', rfl⟩ := Option.isSome_iff_exists.mp hi2
      exact ⟨l, fa, rfl, k1, (readFa_iff fa).mp ⟨ca', k3⟩⟩
  · intro e3 hd
    by_contra h0
    have h0 : s.amplitudes = none := by simpa using h0
    refine e1 ⟨e3, ?_⟩
    rw [h0, hyl]
    exact hd.ne

/-! ### C70 -/

/-- C70 for all objects: what has function approximators that C++ can evaluate, and a start, and
amplitudes where they are used, can be read and used in C++. -/
def C70_statement : Prop :=
  ∀ (d : Nat) (s : Verif.Dmp), 0 < d → Reachable (fun _ _ _ _ _ => True) Change.Valid d s →
    s.yInit?.isSome → (∀ i, i < d → ∃ l fa, s.fas = some l ∧ l[i]? = some fa ∧ Trained fa) →
    (s.scaling = .amplitude → s.amplitudes.isSome) → ∃ c, read s = .ok c ∧ Usable c

/-- C70, for objects with the default subsystems of the types of 2012 and 2013, after any sequence of
changes and queries: they are read and can be used exactly if they have been prepared. Missing: the
other types, and subsystems passed to the constructor. -/
theorem C70_partial {d : Nat} {s : Verif.Dmp} (h : Reachable Known Change.Forward d s) (hd : 0 < d) :
    (∃ c, read s = .ok c ∧ Usable c) ↔ Prepared s := by
  have hc := reachable_common h
  constructor
  · rintro ⟨c, hr, hu⟩
    exact prepared_of_read hc hr hu
  · intro hp
    obtain ⟨c, hr, m⟩ := read_prepared hc hp hd
    refine ⟨c, hr, ?_, ?_, ?_, ?_⟩
    · obtain ⟨_, _, e, _⟩ := m.goal; rw [e]; rfl
    · obtain ⟨_, e, _⟩ := m.phase; rw [e]; rfl
    · obtain ⟨_, e, _⟩ := m.gating; rw [e]; rfl
    · intro i hi
      obtain ⟨l, -, hl⟩ := m.fas
      obtain ⟨fa, ca, -, e, -⟩ := hl i (by rw [← m.dimY]; exact hi)
      rw [List.getD_eq_getElem?_getD, e]
      rfl

/-! ### C71 -/

/-- C++ gives the first 3 d + 2 entries of the states and rates of change of Python (those for damping
are missing), and the same positions, velocities and accelerations: numerical integration. -/
structure SameSteps (d : Nat) (c : Dmp) (s : Verif.Dmp) : Prop where
  rates : ∀ {x xd : List ℝ} {s' : Verif.Dmp}, x.length = 4 * d + 2 →
    Verif.Dmp.diffEq x s = (.ok xd, s') →
    ∃ c', diffEq (x.take (3 * d + 2)) c = .ok (xd.take (3 * d + 2), c')
  step : ∀ (m : DynSys.Method) {dt : ℝ} {x : List ℝ} {r : List ℝ × List ℝ} {s' : Verif.Dmp}, 0 < dt →
    DynSys.step m dt x s = (.ok r, s') →
    ∃ c', Cpp.step m dt (x.take (3 * d + 2)) c = .ok ((r.1.take (3 * d + 2), r.2.take (3 * d + 2)), c')
  run : ∀ {ts : List ℝ} {rows : List (List ℝ × List ℝ)} {s' : Verif.Dmp}, ts.Pairwise (· < ·) →
    Verif.Dmp.integrate ts .rungeKutta s = (.ok rows, s') →
    ∃ c', run ts c = .ok (rows.map fun r => (r.1.take (3 * d + 2), r.2.take (3 * d + 2)), c')
  execute : ∀ {dt t0 : ℝ} {n : Nat} {rows : List (List ℝ × List ℝ)} {s' : Verif.Dmp}, 0 < dt →
    Verif.Dmp.integrate (evenly dt t0 (n + 1)) .rungeKutta s = (.ok rows, s') →
    execute dt n c = .ok ((rows.take n).map fun r => s.posVelAcc r.1 r.2)

/-- The same, and analytical solutions. -/
structure SameMotions (d : Nat) (c : Dmp) (s : Verif.Dmp) : Prop extends SameSteps d c s where
  analytical : ∀ {ts : List ℝ} {sol : Verif.Dmp.Solution}, ts.Pairwise (· ≤ ·) →
    (Verif.Dmp.analytical (some ts) false s).1 = .ok sol →
    analytical ts c = .ok (cut (3 * d + 2) sol)

theorem Matches.sameSteps {c : Dmp} {s : Verif.Dmp} (h : Matches c s) : SameSteps s.dimY c s where
  rates hx hs := by
    obtain ⟨-, c', e, -⟩ := (dmp_mirror s.dimY s.tau).diffEq ⟨h, rfl, rfl⟩ hx hs
    exact ⟨c', e⟩
  step m _ _ _ _ hdt hs := by
    obtain ⟨-, -, c', e, -⟩ := (dmp_mirror s.dimY s.tau).step m hdt ⟨h, rfl, rfl⟩ hs
    exact ⟨c', e⟩
  run hts hs := by
    obtain ⟨c', e, -⟩ := run_eq h hts hs
    exact ⟨c', e⟩
  execute hdt hs := execute_eq h hdt hs

theorem Matches.sameMotions {c : Dmp} {s : Verif.Dmp} (h : Matches c s) (hk : Critical c) (ht : 0 < s.tau) :
    SameMotions s.dimY c s where
  toSameSteps := h.sameSteps
  analytical {ts _} hts hs := by
    have timely : ∀ g : Sub, g.base.tau = s.tau → Timely g ts := by
      intro g hg
      cases g with
      | time u => exact ⟨by change 0 < (Sub.time u).base.tau; rw [hg]; exact ht, hts⟩
      | _ => trivial
    exact analytical_eq h hk (timely _ h.phaseTau) (timely _ h.gatingTau) hs

/-- C71 for all objects that can be read. -/
def C71_statement : Prop :=
  ∀ (d : Nat) (s : Verif.Dmp) (c : Dmp), 0 < d →
    Reachable (fun tau _ _ _ _ => 0 < tau) Change.Forward d s → read s = .ok c → Usable c →
    SameMotions d c s

/-- Setters that both implementations have. -/
inductive Setting
  | tau (t : ℝ)
  | yInit (y : List ℝ)
  | yAttr (y : List ℝ)

/-- Positive time constant, right size. -/
def Setting.Fits (d : Nat) : Setting → Prop
  | .tau t => 0 < t
  | .yInit y => y.length = d
  | .yAttr y => y.length = d

/-- Execution in C++. -/
noncomputable def Setting.cpp : Setting → Dmp → CppResult Dmp
  | .tau t => Dmp.setTau t
  | .yInit y => Dmp.setYInit y
  | .yAttr y => Dmp.setYAttr y

/-- The same in Python. -/
def Setting.py : Setting → Change
  | .tau t => .tau t
  | .yInit y => .yInit y
  | .yAttr y => .yAttr y

/-- A sequence of setters in C++. -/
noncomputable def setAll : List Setting → Dmp → CppResult Dmp
  | [], c => .ok c
  | o :: os, c => do setAll os (← o.cpp c)

/-- A sequence of setters in Python. -/
noncomputable def setAllPy : List Setting → Verif.Dmp → Verif.Dmp
  | [], s => s
  | o :: os, s => setAllPy os (o.py.run s).2

theorem setting_eq {c : Dmp} {s : Verif.Dmp} (h : Matches c s) (ht : 0 < s.tau) (o : Setting)
    (ho : o.Fits s.dimY) :
    ∃ c', o.cpp c = .ok c' ∧ (o.py.run s).1 = .ok () ∧ Matches c' (o.py.run s).2 ∧
      (o.py.run s).2.dimY = s.dimY ∧ 0 < (o.py.run s).2.tau := by
  cases o with
  | tau t =>
    obtain ⟨c', e, m⟩ := setTau_eq h ht.ne' t
    change ∃ c', setTau t c = .ok c' ∧ (Verif.Dmp.setTau t s).1 = .ok () ∧
      Matches c' (Verif.Dmp.setTau t s).2 ∧ (Verif.Dmp.setTau t s).2.dimY = s.dimY ∧
      0 < (Verif.Dmp.setTau t s).2.tau
    rw [Verif.Dmp.setTau_run]
    exact ⟨c', e, rfl, m, rfl, ho⟩
  | yInit y =>
    have hy : y.length = s.dimY := ho
    obtain ⟨c', e, m⟩ := setYInit_eq h hy
    change ∃ c', setYInit y c = .ok c' ∧ (Verif.Dmp.setYInit y s).1 = .ok () ∧
      Matches c' (Verif.Dmp.setYInit y s).2 ∧ (Verif.Dmp.setYInit y s).2.dimY = s.dimY ∧
      0 < (Verif.Dmp.setYInit y s).2.tau
    rw [Verif.Dmp.setYInit_run h.wf hy]
    exact ⟨c', e, rfl, m, rfl, ht⟩
  | yAttr y =>
    have hy : y.length = s.dimY := ho
    obtain ⟨c', e, m⟩ := setYAttr_eq h hy
    change ∃ c', setYAttr y c = .ok c' ∧ (Verif.Dmp.setYAttr y s).1 = .ok () ∧
      Matches c' (Verif.Dmp.setYAttr y s).2 ∧ (Verif.Dmp.setYAttr y s).2.dimY = s.dimY ∧
      0 < (Verif.Dmp.setYAttr y s).2.tau
    rw [Verif.Dmp.setYAttr_run h.wf hy]
    exact ⟨c', e, rfl, m, rfl, ht⟩

theorem setAll_eq : ∀ (os : List Setting) {c : Dmp} {s : Verif.Dmp}, Matches c s → 0 < s.tau →
    (∀ o ∈ os, o.Fits s.dimY) →
    ∃ c', setAll os c = .ok c' ∧ Matches c' (setAllPy os s) ∧ (setAllPy os s).dimY = s.dimY ∧
      0 < (setAllPy os s).tau
  | [], c, s, h, ht, _ => ⟨c, rfl, h, rfl, ht⟩
  | o :: os, c, s, h, ht, ho => by
    obtain ⟨c1, e1, -, m1, d1, t1⟩ := setting_eq h ht o (ho o (by simp))
    obtain ⟨c2, e2, m2, d2, t2⟩ := setAll_eq os m1 t1 fun o' h' => by
      rw [d1]; exact ho o' (by simp [h'])
    refine ⟨c2, ?_, m2, d2.trans d1, t2⟩
    change (o.cpp c >>= setAll os) = _
    rw [e1]
    exact e2

theorem cpp_bind_inv {α β : Type} {m : CppResult α} {f : α → CppResult β} {b : β} (h : (m >>= f) = .ok b) :
    ∃ a, m = .ok a ∧ f a = .ok b := by
  cases m with
  | error e => cases h
  | ok a => exact ⟨a, rfl, h⟩

theorem build_critical {b : Base} {yAttr : List ℝ} {fas : List (Option AnyFa)} {alpha : ℝ}
    {goal : Option Exponential} {phase gating : Option AnySystem} {scaling : ForcingScaling}
    {amplitudes : List ℝ} {c : Dmp}
    (h : build b yAttr fas alpha goal phase gating scaling amplitudes = .ok c) : Critical c := by
  unfold build at h
  obtain ⟨sp, h1, h⟩ := cpp_bind_inv h
  have hc : c.spring = sp := by
    dsimp only at h
    cases goal with
    | none =>
      dsimp only at h
      obtain ⟨g, -, h⟩ := cpp_bind_inv h
      split_ifs at h <;> first | (cases h; done) | (cases h; rfl)
    | some g0 =>
      dsimp only at h
      split_ifs at h
      all_goals first
        | (cases h; done)
        | (obtain ⟨g1, -, h⟩ := cpp_bind_inv h
           obtain ⟨g, -, h⟩ := cpp_bind_inv h
           first | (cases h; done) | (cases h; rfl))
  unfold Spring.make at h1
  obtain ⟨b2, -, h1⟩ := cpp_bind_inv h1
  rw [if_pos rfl] at h1
  cases h1
  constructor <;> rw [hc]

/-- What is read has a critically damped spring-damper system with mass 1. -/
theorem read_critical {s : Verif.Dmp} {c : Dmp} (h : read s = .ok c) : Critical c := by
  unfold read at h
  obtain ⟨_, -, h⟩ := cpp_bind_inv h
  dsimp only at h
  cases hy : s.yInit? with
  | none => rw [hy] at h; cases h
  | some y =>
  rw [hy] at h
  dsimp only at h
  obtain ⟨_, -, h⟩ := cpp_bind_inv h
  obtain ⟨_, -, h⟩ := cpp_bind_inv h
  obtain ⟨_, -, h⟩ := cpp_bind_inv h
  obtain ⟨_, -, h⟩ := cpp_bind_inv h
  obtain ⟨_, -, h⟩ := cpp_bind_inv h
  unfold make at h
  obtain ⟨_, -, h⟩ := cpp_bind_inv h
  exact build_critical h

/-- Damping coefficient, spring constant and mass. -/
def SameSprings (c c' : Dmp) : Prop :=
  c'.spring.damping = c.spring.damping ∧ c'.spring.spring = c.spring.spring ∧ c'.spring.mass = c.spring.mass

theorem setting_springs {o : Setting} {c c' : Dmp} (h : o.cpp c = .ok c') : SameSprings c c' := by
  cases o with
  | tau t =>
    change setTau t c = .ok c' at h
    unfold setTau at h
    obtain ⟨_, -, h⟩ := cpp_bind_inv h
    obtain ⟨_, -, h⟩ := cpp_bind_inv h
    cases h
    exact ⟨rfl, rfl, rfl⟩
  | yInit y =>
    change setYInit y c = .ok c' at h
    unfold setYInit at h
    split_ifs at h
    · cases h
    · obtain ⟨b, -, h⟩ := cpp_bind_inv h
      obtain ⟨sp, h1, h⟩ := cpp_bind_inv h
      unfold Spring.setYInit at h1
      obtain ⟨_, -, h1⟩ := cpp_bind_inv h1
      cases h1
      dsimp only at h
      cases hg : c.goal with
      | none =>
        rw [hg] at h
        cases h
        exact ⟨rfl, rfl, rfl⟩
      | some g0 =>
        rw [hg] at h
        dsimp only at h
        obtain ⟨g1, -, h⟩ := cpp_bind_inv h
        cases h
        exact ⟨rfl, rfl, rfl⟩
  | yAttr y =>
    change setYAttr y c = .ok c' at h
    unfold setYAttr at h
    dsimp only at h
    cases hg : c.goal with
    | none =>
      rw [hg] at h
      cases h
      exact ⟨rfl, rfl, rfl⟩
    | some g0 =>
      rw [hg] at h
      dsimp only at h
      obtain ⟨g1, -, h⟩ := cpp_bind_inv h
      cases h
      exact ⟨rfl, rfl, rfl⟩

theorem setAll_springs : ∀ (os : List Setting) {c c' : Dmp}, setAll os c = .ok c' → SameSprings c c'
  | [], c, c', h => by cases h; exact ⟨rfl, rfl, rfl⟩
  | o :: os, c, c', h => by
    obtain ⟨c1, h1, h2⟩ := cpp_bind_inv h
    have a := setting_springs h1
    have b := setAll_springs os h2
    exact ⟨b.1.trans a.1, b.2.1.trans a.2.1, b.2.2.trans a.2.2⟩

theorem setAll_critical (os : List Setting) {c c' : Dmp} (hk : Critical c) (h : setAll os c = .ok c') :
    Critical c' := by
  obtain ⟨h1, h2, h3⟩ := setAll_springs os h
  exact ⟨by rw [h1, h2]; exact hk.spring, h3.trans hk.mass⟩

/-- C71, for objects with the default subsystems of the types of 2012 and 2013, after any sequence of
changes and queries in Python: the object that C++ reads makes the same motions; also if then the same
setters are called in both implementations. Missing: the other types, and subsystems passed to the
constructor. -/
theorem C71_partial {d : Nat} {s : Verif.Dmp} (h : Reachable Known Change.Forward d s) (hd : 0 < d)
    {c : Dmp} (hr : read s = .ok c) (hu : Usable c) {os : List Setting} (ho : ∀ o ∈ os, o.Fits d) :
    ∃ c', setAll os c = .ok c' ∧ SameMotions d c' (setAllPy os s) := by
  have hc := reachable_common h
  obtain ⟨c1, hr1, m⟩ := read_prepared hc (prepared_of_read hc hr hu) hd
  rw [hr] at hr1
  cases hr1
  have hdim : s.dimY = d := hc.inv.dim
  obtain ⟨c', e, m', d', t'⟩ := setAll_eq os m hc.tau (by rw [hdim]; exact ho)
  have := m'.sameMotions (setAll_critical os (read_critical hr) e) t'
  rw [d', hdim] at this
  exact ⟨c', e, this⟩

/-- C71: a start or an attractor of the wrong size is rejected by both. -/
theorem C71_reject {d : Nat} {s : Verif.Dmp} (h : Reachable Known Change.Forward d s) (hd : 0 < d)
    {c : Dmp} (hr : read s = .ok c) (hu : Usable c) {y : List ℝ} (hy : y.length ≠ d) :
    setYInit y c = .error .assertion ∧ setYAttr y c = .error .assertion ∧
      Verif.Dmp.setYInit y s = (.error .valueError, s) ∧
      Verif.Dmp.setYAttr y s = (.error .valueError, s) := by
  have hc := reachable_common h
  obtain ⟨c1, hr1, m⟩ := read_prepared hc (prepared_of_read hc hr hu) hd
  rw [hr] at hr1
  cases hr1
  have hdim : s.dimY = d := hc.inv.dim
  rw [← hdim] at hy
  exact ⟨setYInit_reject m hy, setYAttr_reject m hy, Verif.Dmp.setYInit_reject hy,
    Verif.Dmp.setYAttr_reject hy⟩

/-! ### Execution does not fail -/

/-- The function approximator has one input, and no width of a basis function is zero. -/
def Smooth (fa : Fa) : Prop :=
  match fa.model with
  | some ⟨dim, .rbfn m⟩ => dim = 1 ∧ ∀ b i, m.kernels.widths b i ≠ 0
  | some ⟨dim, .lwr m⟩ => dim = 1 ∧ ∀ b i, m.kernels.widths b i ≠ 0
  | _ => True

theorem activations_total {d N : Nat} (k : Kernels d) (n : Bool) (inputs : Fin N → Fin d → ℝ)
    (h : ∀ b i, k.widths b i ≠ 0) : ∃ a, k.activations n inputs = .ok a := by
  unfold Kernels.activations
  by_cases h1 : n = true ∧ k.n = 1
  · rw [if_pos h1]; exact ⟨_, rfl⟩
  · rw [if_neg h1, if_neg (by rintro ⟨_, b, i, e, _⟩; exact h b i e)]
    cases n <;> exact ⟨_, rfl⟩

theorem predict_total {fa : Fa} (ht : Trained fa) (hs : Smooth fa) {N : Nat} (hN : N ≠ 0)
    (inputs : Fin N → Fin 1 → ℝ) : ∃ r, fa.predict inputs = .ok r := by
  unfold Trained at ht
  unfold Smooth at hs
  unfold Fa.predict
  match h : fa.model with
  | none => rw [h] at ht; exact ht.elim
  | some ⟨_, .wls _⟩ => rw [h] at ht; exact ht.elim
  | some ⟨_, .gpr _⟩ => rw [h] at ht; exact ht.elim
  | some ⟨dim, .rbfn m⟩ =>
    rw [h] at ht hs
    obtain ⟨rfl, hw⟩ := hs
    simp only
    rw [if_neg hN, dif_pos trivial]
    obtain ⟨a, ha⟩ := activations_total m.kernels false (fun s => inputs s ∘ Fin.cast rfl) hw
    change ∃ r, m.predict _ = .ok r
    unfold RbfnModel.predict
    rw [ha]
    change ∃ r, (if h : m.cols = 1 ∧ m.rows = m.kernels.n then _ else _ : Except PyErr _) = .ok r
    rw [dif_pos ⟨ht.2.2, ht.2.1⟩]
    exact ⟨_, rfl⟩
  | some ⟨dim, .lwr m⟩ =>
    rw [h] at ht hs
    obtain ⟨rfl, hw⟩ := hs
    simp only
    rw [if_neg hN, dif_pos trivial]
    obtain ⟨a, ha⟩ := activations_total m.kernels true (fun s => inputs s ∘ Fin.cast rfl) hw
    change ∃ r, m.predict _ = .ok r
    unfold LwrModel.predict
    rw [ha]
    change ∃ r, (if h : m.lines = m.kernels.n then _ else _ : Except PyErr _) = .ok r
    rw [dif_pos ht.2]
    exact ⟨_, rfl⟩

theorem forced_of {s : Verif.Dmp} (w : s.Wf) (hp : Prepared s) (hd : 0 < s.dimY)
    (hs : ∀ l, s.fas = some l → ∀ fa ∈ l, Smooth fa) : Forced s := by
  intro p q hpl
  have hcf : s.CanForce := by
    unfold Verif.Dmp.CanForce
    cases e : s.scaling with
    | noScaling => trivial
    | gMinusY0 => exact Option.isSome_iff_ne_none.mp hp.yInit
    | amplitude => exact Option.isSome_iff_ne_none.mp (hp.amplitudes e hd)
  obtain ⟨rows, hr⟩ : ∃ rows, s.predictions p = .ok rows := by
    unfold Verif.Dmp.predictions
    obtain ⟨l, _, hl, -⟩ := hp.fas 0 hd
    rw [hl]
    have hcol : ∀ i, i < s.dimY → ∃ r, Verif.Dmp.faColumn l p i = .ok r := by
      intro i hi
      obtain ⟨l', fa, h1, h2, h3⟩ := hp.fas i hi
      rw [hl] at h1
      cases h1
      unfold Verif.Dmp.faColumn
      rw [h2]
      simp only
      obtain ⟨r, hr⟩ := predict_total h3 (hs l hl fa (List.mem_of_getElem? h2)) (N := p.length) (by omega)
        (fun t _ => p[t])
      by_cases e : fa.model.isSome = true
      · rw [if_pos e, hr]; exact ⟨_, rfl⟩
      · rw [if_neg e]; exact ⟨_, rfl⟩
    choose! f hf using hcol
    have := Fa.mapM_ok_of (f := Verif.Dmp.faColumn l p) (g := f) (l := List.range s.dimY)
      fun i hi => hf i (List.mem_range.mp hi)
    cases l with
    | nil => exact ⟨_, rfl⟩
    | cons a l => simp only [this]; exact ⟨_, rfl⟩
  unfold Verif.Dmp.forcing
  rw [hr]
  obtain ⟨l1, l2⟩ := Verif.Dmp.predictions_length hr
  rw [hpl] at l1
  obtain ⟨r, rfl⟩ := List.length_eq_one_iff.mp l1
  have lr : r.length = s.dimY := l2 r (by simp)
  exact ⟨_, Verif.Dmp.scaleForcing_ok w hcf (by simpa using lr)⟩

/-- C70: what was read can be executed, for as many steps as one likes, if the function approximators
have one input (the phase) and no basis function has width zero. -/
theorem C70_executes {d : Nat} {s : Verif.Dmp} (h : Reachable Known Change.Forward d s) (hd : 0 < d)
    {c : Dmp} (hr : read s = .ok c) (hu : Usable c)
    (hs : ∀ l, s.fas = some l → ∀ fa ∈ l, Smooth fa) :
    (∀ {dt : ℝ} (n : Nat), 0 < dt → ∃ r, execute dt n c = .ok r ∧ r.length = n) ∧
    ∀ {t0 : ℝ} {ts : List ℝ}, (t0 :: ts).Pairwise (· < ·) →
      ∃ r c', run (t0 :: ts) c = .ok (r, c') ∧ r.length = (t0 :: ts).length := by
  have hc := reachable_common h
  have hp := prepared_of_read hc hr hu
  obtain ⟨c1, hr1, m⟩ := read_prepared hc hp hd
  rw [hr] at hr1
  cases hr1
  have hf := forced_of hc.inv.wf hp (by rw [hc.inv.dim]; exact hd) hs
  have hlen : ∀ {ts : List ℝ} {rows : List (List ℝ × List ℝ)} {s' : Verif.Dmp},
      Verif.Dmp.integrate ts .rungeKutta s = (.ok rows, s') → rows.length = ts.length := by
    intro ts rows s' e
    unfold Verif.Dmp.integrate at e
    obtain ⟨r0, s1, -, e⟩ := PyM.bind_inv e
    cases ts with
    | nil => cases e
    | cons t0 ts =>
      obtain ⟨rest, s2, p, e⟩ := PyM.bind_inv e
      cases e
      have : ∀ (ts : List ℝ) (t : ℝ) (x : List ℝ) (u u' : Verif.Dmp) (rest : List (List ℝ × List ℝ)),
          DynSys.integrateLoop .rungeKutta t x ts u = (.ok rest, u') → rest.length = ts.length := by
        intro ts
        induction ts with
        | nil => intro t x u u' rest e; cases e; rfl
        | cons t1 ts ih =>
          intro t x u u' rest e
          unfold DynSys.integrateLoop at e
          obtain ⟨r, u1, -, e⟩ := PyM.bind_inv e
          obtain ⟨rest', u2, e2, e⟩ := PyM.bind_inv e
          cases e
          simp [ih _ _ _ _ _ e2]
      simp [this _ _ _ _ _ _ p]
  constructor
  · intro dt n hdt
    obtain ⟨rows, s', e⟩ := integrate_total m hf .rungeKutta 0 (evenly dt (0 + dt) n)
    rw [← evenly_succ] at e
    refine ⟨_, execute_eq m hdt e, ?_⟩
    have := hlen e
    simp [this, evenly]
  · intro t0 ts hts
    obtain ⟨rows, s', e⟩ := integrate_total m hf .rungeKutta t0 ts
    obtain ⟨c', e', -⟩ := run_eq m hts e
    exact ⟨_, c', e', by simpa using hlen e⟩

/-! ### Other types -/

/-- C70: objects of the other types (with their default goal systems) can never be read. -/
theorem C70_other_types {d : Nat} {s : Verif.Dmp}
    (h : Reachable (fun _ _ _ o _ => o.dmpType ∉ ["KULVICIUS_2012_JOINING", "Kul12", "COUNTDOWN_2013"] ∧
      o.goal = none) Change.Forward d s) (c : Dmp) : read s ≠ .ok c := by
  have key : Inv d s ∧ ∀ e, s.goal ≠ some (.exponential e) := by
    have K : Kept d fun s => Inv d s ∧ ∀ e, s.goal ≠ some (.exponential e) := {
      inv := fun _ h => h.1
      core := by
        intro s t h i hc
        refine ⟨i, fun e he => ?_⟩
        have h3 : t.goal.map Sub.touch = s.goal.map Sub.touch :=
          congrArg (fun r : Verif.Dmp => r.goal) hc
        rw [he] at h3
        cases e2 : s.goal with
        | none => rw [e2] at h3; cases h3
        | some g =>
          rw [e2] at h3
          cases g with
          | exponential g => exact h.2 g e2
          | time _ => cases h3
          | sigmoid _ => cases h3
          | richards _ => cases h3
      tau := by
        intro s t h _
        refine ⟨Verif.Dmp.inv_retimed h.1 t, fun e he => ?_⟩
        obtain ⟨g, hg, e2⟩ := Option.map_eq_some_iff.mp he
        cases g with
        | exponential g => exact h.2 g hg
        | time _ => cases e2
        | sigmoid _ => cases e2
        | richards _ => cases e2
      place := by
        intro s y h hy
        refine ⟨Verif.Dmp.inv_placed h.1 hy, fun e he => ?_⟩
        change (if s.requiresScaling then s.goal else s.goal.map (Sub.withInit y)) = _ at he
        by_cases hq : s.requiresScaling = true
        · rw [if_pos hq] at he; exact h.2 e he
        · rw [if_neg hq] at he
          obtain ⟨g, hg, e2⟩ := Option.map_eq_some_iff.mp he
          cases g with
          | exponential g => exact h.2 g hg
          | time _ => cases e2
          | sigmoid _ => cases e2
          | richards _ => cases e2
      aim := by
        intro s y h hy
        refine ⟨Verif.Dmp.inv_aimed h.1 hy, fun e he => ?_⟩
        change (if s.requiresScaling then s.goal else s.goal.map (Sub.withAttr y)) = _ at he
        by_cases hq : s.requiresScaling = true
        · rw [if_pos hq] at he; exact h.2 e he
        · rw [if_neg hq] at he
          obtain ⟨g, hg, e2⟩ := Option.map_eq_some_iff.mp he
          cases g with
          | exponential g => exact h.2 g hg
          | time _ => cases e2
          | sigmoid _ => cases e2
          | richards _ => cases e2
      other := fun s f a ts sel h i => ⟨i, h.2⟩
      decouple := by
        intro s h
        refine ⟨Verif.Dmp.inv_decoupled h.1, fun e he => ?_⟩
        obtain ⟨g, hg, e2⟩ := Option.map_eq_some_iff.mp he
        cases g with
        | exponential g => exact h.2 g hg
        | time _ => cases e2
        | sigmoid _ => cases e2
        | richards _ => cases e2 }
    refine K.reachable ?_ h
    rintro tau yInit yAttr fas o s hi rfl ha ho ⟨ht, hg⟩
    refine ⟨Verif.Dmp.init_inv hi ha ho (fun e he => by rw [hg] at he; cases he), ?_⟩
    obtain ⟨dflt, hd, rfl⟩ := Verif.Dmp.init_eq hi
    rw [hg]
    change ∀ e, dflt.goal ≠ _
    intro e he
    unfold Verif.Dmp.defaults at hd
    simp only at hd
    by_cases h1 : o.dmpType = "IJSPEERT_2002_MOVEMENT" ∨ o.dmpType = "Ijs02"
    · rw [if_pos h1] at hd; cases hd; cases he
    rw [if_neg h1, if_neg (by simpa using ht)] at hd
    by_cases h2 : (Verif.Dmp.isIn "2022" o.dmpType || Verif.Dmp.isIn "SCT23" o.dmpType) = true
    · rw [if_pos h2] at hd; cases hd; cases he
    · rw [if_neg h2] at hd; cases hd
  intro hr
  unfold read at hr
  obtain ⟨a, -, hr⟩ := bind_inv hr
  have : ∀ r, readGoal s.goal ≠ .ok r := by
    intro r
    cases e : s.goal with
    | none => exact fun h => nomatch h
    | some g =>
      cases g with
      | exponential g => exact (key.2 g e).elim
      | time _ => exact fun h => nomatch h
      | sigmoid _ => exact fun h => nomatch h
      | richards _ => exact fun h => nomatch h
  cases e : s.yInit? with
  | none => rw [e] at hr; cases hr
  | some y =>
    rw [e] at hr
    obtain ⟨g, hg, -⟩ := bind_inv (x := readGoal s.goal) hr
    exact this g hg

/-! ### Examples, and what is not true -/

/-- A function approximator with output `b`. -/
noncomputable def level (b : ℝ) : Fa :=
  ⟨.lwr [1] 0.5 0, some ⟨1, .lwr ⟨⟨1, fun _ _ => 0, fun _ _ => 1⟩, 1, fun _ _ => 0, fun _ => b⟩⟩, none⟩

theorem level_trained (b : ℝ) : Trained (level b) := ⟨Nat.one_pos, rfl⟩

theorem level_smooth (b : ℝ) : Smooth (level b) := ⟨rfl, fun _ _ => one_ne_zero⟩

/-- The object after the constructor with such a function approximator, and the setter of y_init. -/
theorem sample_reachable (G : ℝ → List ℝ → List ℝ → Options → Verif.Dmp → Prop) (o : Options)
    (hk : Verif.Dmp.known o.dmpType) (ho : o.Fits 1)
    (hG : ∀ s, Verif.Dmp.init 1 [0] [1] (some [level 3]) o = .ok s → G 1 [0] [1] o s) :
    ∃ s0, Verif.Dmp.init 1 [0] [1] (some [level 3]) o = .ok s0 ∧
      Reachable G Change.Forward 1 (s0.placed [0]) := by
  obtain ⟨s0, h0⟩ := (Verif.Dmp.C16_types 1 [0] [1] (some [level 3]) o).1 hk
  refine ⟨s0, h0, ?_⟩
  have r0 : Reachable G Change.Forward 1 s0 := .init h0 rfl rfl ho (hG s0 h0)
  have r1 := r0.change (.yInit [0]) trivial
  have w : s0.Wf := Verif.Dmp.init_wf h0 rfl ho
  have hd : s0.dimY = 1 := (Verif.Dmp.C16_size _ _ _ _ _ _ h0).1
  have e : (Change.run (.yInit [0]) s0).2 = s0.placed [0] := by
    change (Verif.Dmp.setYInit [0] s0).2 = _
    rw [Verif.Dmp.setYInit_run w (by rw [hd]; rfl)]
  rw [e] at r1
  exact r1

/-- The default object. -/
theorem default_sample : ∃ s : Verif.Dmp, Reachable Known Change.Forward 1 s ∧ Prepared s ∧
    (∀ l, s.fas = some l → ∀ fa ∈ l, Smooth fa) ∧
    s.spring = SpringDamper.init 1 [0] [1] (.scalar 20) ∧ s.requiresScaling = false := by
  obtain ⟨s0, h0, hr⟩ := sample_reachable Known {} (.inl (by simp))
    ⟨(fun _ h => nomatch h), trivial, (fun _ h => nomatch h), (fun _ h => nomatch h),
      (fun _ h => nomatch h), (fun _ h => nomatch h), (fun _ h => nomatch h)⟩
    fun s _ => ⟨one_pos, by simp, rfl, rfl, rfl, rfl, rfl⟩
  have hc := reachable_common hr
  refine ⟨_, hr, ?_, ?_, ?_, hc.noScaling⟩
  all_goals obtain ⟨dflt, hd, rfl⟩ := Verif.Dmp.init_eq h0
  · refine ⟨⟨20, rfl⟩, rfl, fun i hi => ?_, fun e => nomatch e⟩
    have hi : i < 1 := hi
    obtain rfl : i = 0 := by omega
    exact ⟨_, _, rfl, rfl, level_trained 3⟩
  · rintro l ⟨⟩ fa hfa
    obtain rfl : fa = level 3 := by simpa using hfa
    exact level_smooth 3
  · rfl

/-- The hypotheses of C70 and C71 can be met, also with further setters. -/
example : ∃ (s : Verif.Dmp) (c : Dmp), Reachable Known Change.Forward 1 s ∧ read s = .ok c ∧ Usable c ∧
    (∀ l, s.fas = some l → ∀ fa ∈ l, Smooth fa) ∧
    (∀ o ∈ [Setting.tau 2, .yInit [5], .yAttr [6]], o.Fits 1) ∧ (∃ r, execute 0.01 100 c = .ok r ∧ r.length = 100) ∧
    ∃ c', setAll [Setting.tau 2, .yInit [5], .yAttr [6]] c = .ok c' ∧
      SameMotions 1 c' (setAllPy [Setting.tau 2, .yInit [5], .yAttr [6]] s) := by
  obtain ⟨s, hr, hp, hs, -⟩ := default_sample
  obtain ⟨c, hc, hu⟩ := (C70_partial hr one_pos).mpr hp
  have hf : ∀ o ∈ [Setting.tau 2, .yInit [5], .yAttr [6]], o.Fits 1 := by
    intro o ho
    simp only [List.mem_cons, List.not_mem_nil, or_false] at ho
    rcases ho with rfl | rfl | rfl
    · exact two_pos
    · rfl
    · rfl
  exact ⟨s, c, hr, hc, hu, hs, hf, (C70_executes hr one_pos hc hu hs).1 100 (by norm_num),
    C71_partial hr one_pos hc hu hf⟩

/-- The hypothesis of C70_other_types can be met. -/
example : ∃ s : Verif.Dmp, Reachable (fun _ _ _ o _ =>
    o.dmpType ∉ ["KULVICIUS_2012_JOINING", "Kul12", "COUNTDOWN_2013"] ∧ o.goal = none)
    Change.Forward 1 s ∧ s.yInit?.isSome := by
  obtain ⟨s0, h0, hr⟩ := sample_reachable (fun _ _ _ o _ =>
    o.dmpType ∉ ["KULVICIUS_2012_JOINING", "Kul12", "COUNTDOWN_2013"] ∧ o.goal = none)
    { dmpType := "IJSPEERT_2002_MOVEMENT" } (.inl (by simp))
    ⟨(fun _ h => nomatch h), trivial, (fun _ h => nomatch h), (fun _ h => nomatch h),
      (fun _ h => nomatch h), (fun _ h => nomatch h), (fun _ h => nomatch h)⟩
    fun s _ => ⟨by decide, rfl⟩
  exact ⟨_, hr, rfl⟩

theorem forward_valid {G : ℝ → List ℝ → List ℝ → Options → Verif.Dmp → Prop} {d : Nat} {s : Verif.Dmp}
    (h : Reachable G Change.Forward d s) : Reachable (fun _ _ _ _ _ => True) Change.Valid d s := by
  induction h with
  | init h hi ha ho _ => exact .init h hi ha ho trivial
  | change _ c hc ih =>
    refine .change ih c ?_
    cases c <;> first | trivial | exact hc.1
  | query _ c hc ih => exact .query ih c hc

/-- C70 is not true: a Dmp of type IJSPEERT_2002_MOVEMENT has no goal system, but C++ wants one. -/
theorem C70_refuted : ¬ C70_statement := by
  intro H
  obtain ⟨s0, h0, hr⟩ := sample_reachable (fun _ _ _ o _ =>
    o.dmpType ∉ ["KULVICIUS_2012_JOINING", "Kul12", "COUNTDOWN_2013"] ∧ o.goal = none)
    { dmpType := "IJSPEERT_2002_MOVEMENT" } (.inl (by simp))
    ⟨(fun _ h => nomatch h), trivial, (fun _ h => nomatch h), (fun _ h => nomatch h),
      (fun _ h => nomatch h), (fun _ h => nomatch h), (fun _ h => nomatch h)⟩
    fun s _ => ⟨by decide, rfl⟩
  obtain ⟨c, hc, -⟩ := H 1 _ one_pos (forward_valid hr) rfl (by
      obtain ⟨dflt, hd, rfl⟩ := Verif.Dmp.init_eq h0
      intro i hi
      obtain rfl : i = 0 := by omega
      exact ⟨_, _, rfl, rfl, level_trained 3⟩) (by
      obtain ⟨dflt, hd, rfl⟩ := Verif.Dmp.init_eq h0
      exact fun e => nomatch e)
  exact C70_other_types hr c hc

/-- C70 is not true either for the default type, once decouple_parameters was called. -/
theorem C70_decoupled_refuted : ∃ s : Verif.Dmp, Reachable Known Change.Forward 1 s ∧ s.yInit?.isSome ∧
    (∀ i, i < 1 → ∃ l fa, s.fas = some l ∧ l[i]? = some fa ∧ Trained fa) ∧
    (s.scaling = .amplitude → s.amplitudes.isSome) ∧ read s = .error .json := by
  obtain ⟨s, hr, hp, -, -, -⟩ := default_sample
  have hd : s.dimY = 1 := (reachable_common hr).inv.dim
  have r1 := hr.change .decouple trivial
  have e : (Change.run .decouple s).2 = s.decoupled := by
    change (Verif.Dmp.decouple s).2 = _
    rw [Verif.Dmp.decouple_run]
  rw [e] at r1
  refine ⟨s.decoupled, r1, hp.yInit, fun i hi => hp.fas i (by omega),
    fun h => hp.amplitudes h (by omega), ?_⟩
  have : ∃ l, s.decoupled.spring.damping = .array l := by
    change ∃ l, s.spring.damping.decouple s.spring.dimY = .array l
    cases h : s.spring.damping.decouple s.spring.dimY with
    | scalar a => exact (decouple_array _ _ _ h).elim
    | array l => exact ⟨l, rfl⟩
  obtain ⟨l, hl⟩ := this
  unfold read
  rw [hl]
  rfl

/-- C71 is not true: the spring constant of a transformation system that is passed to the constructor is
not read; C++ uses that for critical damping. -/
theorem C71_refuted : ¬ C71_statement := by
  intro H
  have ho : Options.Fits
      { transformation := some (SpringDamper.init 1 [0] [1] (.scalar 20) (some (.scalar 50))) } 1 :=
    ⟨by rintro t ⟨⟩; exact ⟨⟨rfl, rfl, rfl, trivial, trivial, trivial⟩, rfl⟩, trivial,
      (fun _ h => nomatch h), (fun _ h => nomatch h), (fun _ h => nomatch h), (fun _ h => nomatch h),
      (fun _ h => nomatch h)⟩
  obtain ⟨s0, h0, hr⟩ := sample_reachable (fun tau _ _ _ _ => 0 < tau) _ (.inl (by simp)) ho
    fun s _ => one_pos
  obtain ⟨t0, k0, kr⟩ := sample_reachable Known {} (.inl (by simp))
    ⟨(fun _ h => nomatch h), trivial, (fun _ h => nomatch h), (fun _ h => nomatch h),
      (fun _ h => nomatch h), (fun _ h => nomatch h), (fun _ h => nomatch h)⟩
    fun s _ => ⟨one_pos, by simp, rfl, rfl, rfl, rfl, rfl⟩
  -- the two objects differ only in the spring constant
  have hs0 : s0 = { t0 with
      spring := SpringDamper.init 1 [0] [1] (.scalar 20) (some (.scalar 50)) } := by
    obtain ⟨d1, e1, rfl⟩ := Verif.Dmp.init_eq h0
    obtain ⟨d2, e2, rfl⟩ := Verif.Dmp.init_eq k0
    have : d1 = d2 := Except.ok.inj (e1.symm.trans e2)
    rw [this]
    rfl
  have ht : (t0.placed [0]).spring = SpringDamper.init 1 [0] [1] (.scalar 20) := by
    obtain ⟨d2, e2, rfl⟩ := Verif.Dmp.init_eq k0
    rfl
  have hfas : (t0.placed [0]).fas = some [level 3] := by
    obtain ⟨d2, e2, rfl⟩ := Verif.Dmp.init_eq k0
    rfl
  have hsc : (t0.placed [0]).scaling = .noScaling := by
    obtain ⟨d2, e2, rfl⟩ := Verif.Dmp.init_eq k0
    rfl
  have hc := reachable_common kr
  have hd : (t0.placed [0]).dimY = 1 := hc.inv.dim
  have hp : Prepared (t0.placed [0]) := by
    refine ⟨⟨20, by rw [ht]; rfl⟩, rfl, fun i hi => ?_, fun e => by rw [hsc] at e; cases e⟩
    obtain rfl : i = 0 := by omega
    exact ⟨_, _, hfas, rfl, level_trained 3⟩
  obtain ⟨c, e, m⟩ := read_prepared hc hp one_pos
  have hu : Usable c := by
    obtain ⟨c', e', u⟩ := (C70_partial kr one_pos).mpr hp
    rw [e] at e'
    cases e'
    exact u
  have hread : read (s0.placed [0]) = .ok c := by
    rw [hs0, ← e]
    have : (t0.placed [0]).spring.damping = .scalar 20 := by rw [ht]; rfl
    unfold read
    rw [this]
    rfl
  have same := H 1 _ c one_pos hr hread hu
  -- rates of change for a state where the goal is not the position
  have hf : Forced (t0.placed [0]) := forced_of hc.inv.wf hp (by omega) (by
    intro l hl fa hfa
    rw [hfas] at hl
    cases hl
    obtain rfl : fa = level 3 := by simpa using hfa
    exact level_smooth 3)
  obtain ⟨f, hf⟩ := hf [0] [0] rfl
  have sz : Verif.Dmp.Sizes 1 [0] [0] [1] [0] [0] ([0] : List ℝ) := ⟨rfl, rfl, rfl, rfl, rfl, rfl⟩
  have hsw : (s0.placed [0]).Wf := by
    have i0 : Verif.Dmp.Inv 1 s0 := Verif.Dmp.init_inv h0 rfl ho (fun e he => nomatch he)
    exact (Verif.Dmp.inv_placed i0 (by rw [i0.dim]; rfl)).wf
  have hsd : (s0.placed [0]).dimY = 1 := by rw [hs0]; exact hd
  have hga : (t0.placed [0]).springGoal [1] = .ok [1] := m.springGoal _
  have hv1 : ∃ xd, (t0.placed [0]).vf [0] [0] [1] [0] [0] [0] = .ok xd ∧
      xd.getD 1 0 = (t0.placed [0]).zRate [1] ((t0.placed [0]).dampingAt [0]) f [0] [0] 0 := by
    refine ⟨_, by unfold Verif.Dmp.vf; rw [hga, hf]; rfl, ?_⟩
    rw [hd]
    rfl
  have hv2 : ∃ xd, (s0.placed [0]).vf [0] [0] [1] [0] [0] [0] = .ok xd ∧
      xd.getD 1 0 = (s0.placed [0]).zRate [1] ((s0.placed [0]).dampingAt [0]) f [0] [0] 0 := by
    have hga' : (s0.placed [0]).springGoal [1] = .ok [1] := by rw [hs0]; exact hga
    have hf' : (s0.placed [0]).forcing [0] [0] = .ok f := by rw [hs0]; exact hf
    refine ⟨_, by unfold Verif.Dmp.vf; rw [hga', hf']; rfl, ?_⟩
    rw [hsd]
    rfl
  obtain ⟨x1, v1, r1⟩ := hv1
  obtain ⟨x2, v2, r2⟩ := hv2
  obtain ⟨-, k1⟩ := diffEq_eq m (by rw [hd]; exact sz) v1
  have k2 := Verif.Dmp.diffEq_run hsw (by rw [hsd]; exact sz)
  rw [v2] at k2
  obtain ⟨c', k3⟩ := same.rates (x := Verif.Dmp.pack [0] [0] [1] [0] [0] [0]) rfl k2
  have k4 : (x1.take 5).getD 1 0 = (x2.take 5).getD 1 0 := by
    have : diffEq ((Verif.Dmp.pack [0] [0] [1] [0] [0] [0]).take 5) c =
        .ok (x1.take (3 * (t0.placed [0]).dimY + 2), c.stepped [1]) := k1
    rw [this, hd] at k3
    have := congrArg Prod.fst (Except.ok.inj k3)
    exact congrArg (fun l => l.getD 1 0) this
  have k5 : x1.getD 1 0 = x2.getD 1 0 := by
    have t : ∀ x : List ℝ, (x.take 5).getD 1 0 = x.getD 1 0 := by
      intro x
      simp [List.getD_eq_getElem?_getD]
    rw [← t x1, ← t x2, k4]
  rw [r1, r2] at k5
  unfold Verif.Dmp.zRate at k5
  have p1 : (s0.placed [0]).spring = (SpringDamper.init 1 [0] [1] (.scalar 20) (some (.scalar 50))) := by
    obtain ⟨d1, e1, rfl⟩ := Verif.Dmp.init_eq h0
    obtain ⟨d2, e2, rfl⟩ := Verif.Dmp.init_eq k0
    have : d1 = d2 := Except.ok.inj (e1.symm.trans e2)
    subst this
    cases e2
    rfl
  have p2 : (s0.placed [0]).tau = (t0.placed [0]).tau := by rw [hs0]; rfl
  rw [ht, p1, p2] at k5
  simp [SpringDamper.init, SpringDamper.criticalSpring, Par.at'] at k5
  norm_num at k5

end Dmp

end Cpp

end Verif
