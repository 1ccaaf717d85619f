import Verif.Props.RaisesCpp
import Verif.Proofs.CppDmp
import Verif.Spec.CppConstructors

/-
C89: the constructors of the C++ Dmp. Only the one that from_json uses makes room for the state.
-/

noncomputable section

set_option autoImplicit false

namespace Verif.Cpp.Dmp

/-! ### The parts -/

theorem ofOrder_one (tau : ℝ) (y : List ℝ) : Base.ofOrder 1 tau y = .ok ⟨tau, y.length, y.length, y⟩ := by
  unfold Base.ofOrder Base.setYInit
  simp

theorem ofOrder_two (tau : ℝ) (y : List ℝ) :
    Base.ofOrder 2 tau y = .ok ⟨tau, y.length * 2, y.length, y ++ vzeros y.length⟩ := by
  unfold Base.ofOrder Base.setYInit
  simp only [or_true, if_true, ne_eq, not_true_eq_false, if_false]
  split_ifs with h h2
  · have : y = [] := List.eq_nil_of_length_eq_zero (by omega)
    subst this
    rfl
  · omega
  · rw [show y.length * 2 - y.length = y.length by omega]

theorem expo_make (tau : ℝ) (x a : List ℝ) (alpha : ℝ) :
    Exponential.make tau x a alpha = .ok ⟨⟨tau, x.length, x.length, x⟩, a, alpha⟩ := by
  unfold Exponential.make
  rw [ofOrder_one]
  rfl

/-- What the constructor makes of a vector of members with its sizes `dimX` and `dimY`. -/
theorem build_eq (b : Base) (yAttr : List ℝ) (fas : List (Option AnyFa)) (alpha : ℝ)
    (goal : Option Exponential) (phase gating : Option AnySystem) (scaling : ForcingScaling)
    (amplitudes : List ℝ) (hx : b.dimY ≤ b.xInit.length)
    (hg : ∀ g, goal = some g → g.dimX = b.dimY)
    (ha : scaling = .amplitude → amplitudes.length = b.dimY) (hf : fas = [] ∨ fas.length = b.dimY) :
    build b yAttr fas alpha goal phase gating scaling amplitudes = .ok
      { toBase := b
        yAttr := yAttr
        spring :=
          { tau := b.tau
            dimX := b.dimY * 2
            dimY := b.dimY
            xInit := b.xInit.take b.dimY ++ vzeros b.dimY
            yAttr := yAttr
            damping := alpha
            spring := alpha * alpha / 4
            mass := 1 }
        goal := goal.map fun g => { g with xInit := b.xInit.take b.dimY }
        phase := phase
        gating := gating
        fas := fas
        scaling := scaling
        amplitudes := amplitudes } := by
  have hl : (b.xInit.take b.dimY).length = b.dimY := by rw [List.length_take]; omega
  have hs : Spring.make b.tau (b.xInit.take b.dimY) yAttr alpha = .ok
      { tau := b.tau
        dimX := b.dimY * 2
        dimY := b.dimY
        xInit := b.xInit.take b.dimY ++ vzeros b.dimY
        yAttr := yAttr
        damping := alpha
        spring := alpha * alpha / 4
        mass := 1 } := by
    unfold Spring.make
    rw [ofOrder_two, hl]
    simp only [ok_bind, if_true]
    rfl
  have h1 : ¬(scaling = .amplitude ∧ amplitudes.length ≠ b.dimY) := fun h => h.2 (ha h.1)
  have h2 : ¬(fas.length ≠ 0 ∧ b.dimY ≠ fas.length) := by
    rintro ⟨h, h'⟩
    rcases hf with rfl | hf
    · exact h rfl
    · exact h' hf.symm
  unfold build
  simp only
  rw [hs, ok_bind]
  cases goal with
  | none =>
    simp only [pure_bind]
    rw [if_neg h1, if_neg h2]
    rfl
  | some g =>
    have hgd := hg g rfl
    have hgx : g.setXInit (b.xInit.take b.dimY) = .ok { g with xInit := b.xInit.take b.dimY } := by
      unfold Exponential.setXInit Base.setXInit
      rw [if_neg (not_not.mpr (hl.trans hgd.symm))]
      rfl
    simp only
    rw [if_neg (not_not.mpr hgd), hgx]
    simp only [ok_bind, pure_bind]
    rw [if_neg h1, if_neg h2]
    rfl

theorem inv {α β : Type} {m : CppResult α} {f : α → CppResult β} {b : β} (h : (m >>= f) = .ok b) :
    ∃ a, m = .ok a ∧ f a = .ok b := by
  cases m with
  | error e => cases h
  | ok a => exact ⟨a, rfl, h⟩

open Spec

/-- The sizes that the constructors assert. -/
theorem isDmp_of_build {size : Nat} {tau : ℝ} {yInit yAttr : List ℝ} {fas : List (Option AnyFa)} {alpha : ℝ}
    {goal : Option Exponential} {phase gating : Option AnySystem} {scaling : ForcingScaling}
    {amplitudes : List ℝ} (hg : ∀ g, goal = some g → g.dimX = yInit.length)
    (ha : scaling = .amplitude → amplitudes.length = yInit.length)
    (hf : fas = [] ∨ fas.length = yInit.length) :
    ∃ s, build ⟨tau, size, yInit.length, yInit ++ vzeros (size - yInit.length)⟩ yAttr fas alpha goal phase
        gating scaling amplitudes = .ok s ∧
      IsDmp s size tau yInit yAttr fas alpha scaling amplitudes ∧
      s.goal = goal.map (fun g => { g with xInit := yInit }) ∧ s.phase = phase ∧ s.gating = gating := by
  refine ⟨_, build_eq _ yAttr fas alpha goal phase gating scaling amplitudes ?_ hg ha hf, ?_, ?_, rfl, rfl⟩
  · simp
  · have e : List.take yInit.length (yInit ++ vzeros (size - yInit.length)) = yInit := by simp
    refine ⟨rfl, rfl, rfl, rfl, rfl, rfl, rfl, rfl, rfl, Nat.mul_comm _ _, rfl, ?_, rfl, rfl, ?_, rfl⟩
    · change List.take yInit.length (yInit ++ vzeros (size - yInit.length)) ++ _ = _
      rw [e]
      rfl
    · change alpha * alpha / 4 = _
      ring
  · have e : List.take yInit.length (yInit ++ vzeros (size - yInit.length)) = yInit := by simp
    simp only [e]

/-- C89: the constructor for all systems, which from_json uses, makes room for 3n + 2 values: position,
velocity, goal, phase and gating. -/
theorem C89_make (tau : ℝ) (yInit yAttr : List ℝ) (fas : List (Option AnyFa)) (alpha : ℝ)
    (goal : Option Exponential) (phase gating : Option AnySystem) (scaling : ForcingScaling)
    (amplitudes : List ℝ) (hg : ∀ g, goal = some g → g.dimX = yInit.length)
    (ha : scaling = .amplitude → amplitudes.length = yInit.length)
    (hf : fas = [] ∨ fas.length = yInit.length) :
    ∃ s, make tau yInit yAttr fas alpha goal phase gating scaling amplitudes = .ok s ∧
      IsDmp s (3 * yInit.length + 2) tau yInit yAttr fas alpha scaling amplitudes ∧
      s.goal = goal.map (fun g => { g with xInit := yInit }) ∧ s.phase = phase ∧ s.gating = gating := by
  have hb : Base.ofDims tau yInit (3 * yInit.length + 2) = .ok
      ⟨tau, 3 * yInit.length + 2, yInit.length, yInit ++ vzeros (3 * yInit.length + 2 - yInit.length)⟩ := by
    unfold Base.ofDims Base.setYInit
    simp only [ne_eq, not_true_eq_false, if_false]
    rw [if_neg (by omega), if_neg (by omega)]
  unfold make
  rw [then_ok hb]
  exact isDmp_of_build hg ha hf

theorem first_order (tau : ℝ) (y : List ℝ) :
    Base.ofOrder 1 tau y = .ok ⟨tau, y.length, y.length, y ++ vzeros (y.length - y.length)⟩ := by
  rw [ofOrder_one]
  simp [vzeros]

/-- C89: the constructor for the number of dimensions and all systems has tau = 1, moves from 0 to 1 and
makes room for the position only. -/
theorem C89_make_dims (n : Nat) (fas : List (Option AnyFa)) (alpha : ℝ)
    (goal : Option Exponential) (phase gating : Option AnySystem) (scaling : ForcingScaling)
    (amplitudes : List ℝ) (hg : ∀ g, goal = some g → g.dimX = n)
    (ha : scaling = .amplitude → amplitudes.length = n) (hf : fas = [] ∨ fas.length = n) :
    ∃ s, makeDims n fas alpha goal phase gating scaling amplitudes = .ok s ∧
      IsDmp s n 1 (List.replicate n 0) (List.replicate n 1) fas alpha scaling amplitudes ∧
      s.goal = goal.map (fun g => { g with xInit := List.replicate n 0 }) ∧ s.phase = phase ∧
      s.gating = gating := by
  have hl : (vzeros n : List ℝ).length = n := List.length_replicate
  unfold makeDims
  rw [then_ok (first_order 1 (vzeros n))]
  have h := isDmp_of_build (size := (vzeros n : List ℝ).length) (tau := 1) (yInit := vzeros n)
    (yAttr := List.replicate n 1) (fas := fas) (alpha := alpha) (goal := goal) (phase := phase)
    (gating := gating) (scaling := scaling) (amplitudes := amplitudes)
    (by rwa [hl]) (by rwa [hl]) (by rwa [hl])
  rw [hl] at h ⊢
  exact h

/-- The systems for the types. -/
theorem typeSystems_ijspeert (tau : ℝ) (y a : List ℝ) :
    typeSystems "IJSPEERT_2002_MOVEMENT" tau y a = .ok (none,
      some (.exponential ⟨⟨tau, 1, 1, [1]⟩, [0], 4⟩), some (.exponential ⟨⟨tau, 1, 1, [1]⟩, [0], 4⟩)) := by
  unfold typeSystems
  rw [if_pos rfl, expo_make]
  rfl

theorem ks_gate (tau : ℝ) : Sigmoid.computeKs [1] (-10) (0.9 * tau * tau) = [1 + Real.exp (-9 * tau ^ 2)] := by
  unfold Sigmoid.computeKs
  rw [List.map_cons, List.map_nil, one_div, ← Real.exp_neg, one_mul]
  congr 3
  ring

theorem typeSystems_time (dmpType : String) (tau : ℝ) (y a : List ℝ)
    (h : dmpType = "KULVICIUS_2012_JOINING" ∨ dmpType = "COUNTDOWN_2013") :
    typeSystems dmpType tau y a = .ok (some ⟨⟨tau, y.length, y.length, y⟩, a, 15⟩,
      some (.time ⟨⟨tau, 1, 1, if dmpType = "COUNTDOWN_2013" then [1] else [0]⟩, dmpType = "COUNTDOWN_2013"⟩),
      some (.sigmoid ⟨⟨tau, 1, 1, [1]⟩, -10, 0.9 * tau, [1 + Real.exp (-9 * tau ^ 2)]⟩)) := by
  have hn : dmpType ≠ "IJSPEERT_2002_MOVEMENT" := by
    rcases h with rfl | rfl <;> decide
  have ht : TimeSystem.make tau (dmpType = "COUNTDOWN_2013") = .ok
      ⟨⟨tau, 1, 1, if dmpType = "COUNTDOWN_2013" then [1] else [0]⟩, dmpType = "COUNTDOWN_2013"⟩ := by
    unfold TimeSystem.make
    rw [ofOrder_one]
    by_cases hc : dmpType = "COUNTDOWN_2013"
    · simp [hc]
    · simp [hc]
  have hs : Sigmoid.make tau [1] (-10) (0.9 * tau) = .ok
      ⟨⟨tau, 1, 1, [1]⟩, -10, 0.9 * tau, [1 + Real.exp (-9 * tau ^ 2)]⟩ := by
    unfold Sigmoid.make
    rw [ofOrder_one, ks_gate]
    rfl
  unfold typeSystems
  rw [if_neg hn, if_pos h, expo_make, ht, hs]
  rfl

theorem typeSystems_other (dmpType : String) (tau : ℝ) (y a : List ℝ)
    (h1 : dmpType ≠ "IJSPEERT_2002_MOVEMENT") (h2 : dmpType ≠ "KULVICIUS_2012_JOINING")
    (h3 : dmpType ≠ "COUNTDOWN_2013") : typeSystems dmpType tau y a = .ok (none, none, none) := by
  unfold typeSystems
  rw [if_neg h1, if_neg (by tauto)]
  rfl

theorem hasSystems_of {s : Dmp} {dmpType : String} {tau : ℝ} {y a : List ℝ}
    {r : Option Exponential × Option AnySystem × Option AnySystem}
    (hr : typeSystems dmpType tau y a = .ok r) (hg : s.goal = r.1.map (fun g => { g with xInit := y }))
    (hp : s.phase = r.2.1) (hq : s.gating = r.2.2) : HasSystems s dmpType tau y a := by
  refine ⟨fun h => ?_, fun h => ?_, fun h1 h2 h3 => ?_⟩
  · subst h
    rw [typeSystems_ijspeert] at hr
    obtain rfl := Except.ok.inj hr
    exact ⟨hg, ⟨_, hp, rfl, rfl, rfl, rfl, rfl, rfl⟩, _, hq, rfl, rfl, rfl, rfl, rfl, rfl⟩
  · rw [typeSystems_time _ _ _ _ h] at hr
    obtain rfl := Except.ok.inj hr
    exact ⟨⟨_, hg, rfl, rfl, rfl, rfl, rfl, rfl⟩, ⟨_, hp, rfl, rfl, rfl, decide_eq_true_iff, rfl⟩,
      _, hq, rfl, rfl, rfl, rfl, rfl, rfl, rfl⟩
  · rw [typeSystems_other _ _ _ _ h1 h2 h3] at hr
    obtain rfl := Except.ok.inj hr
    exact ⟨hg, hp, hq⟩

theorem typeSystems_ok (dmpType : String) (tau : ℝ) (y a : List ℝ) :
    ∃ r, typeSystems dmpType tau y a = .ok r ∧ ∀ g, r.1 = some g → g.dimX = y.length := by
  by_cases h1 : dmpType = "IJSPEERT_2002_MOVEMENT"
  · subst h1
    exact ⟨_, typeSystems_ijspeert tau y a, fun g h => by cases h⟩
  by_cases h2 : dmpType = "KULVICIUS_2012_JOINING" ∨ dmpType = "COUNTDOWN_2013"
  · refine ⟨_, typeSystems_time dmpType tau y a h2, fun g h => ?_⟩
    obtain rfl := Option.some.inj h
    rfl
  · push Not at h2
    exact ⟨_, typeSystems_other dmpType tau y a h1 h2.1 h2.2, fun g h => by cases h⟩

/-- C89: the constructor for a type has damping 20, the systems of the type, and makes room for the position
only. -/
theorem C89_make_type (tau : ℝ) (yInit yAttr : List ℝ) (fas : List (Option AnyFa)) (dmpType : String)
    (scaling : ForcingScaling) (amplitudes : List ℝ)
    (ha : scaling = .amplitude → amplitudes.length = yInit.length)
    (hf : fas = [] ∨ fas.length = yInit.length) :
    ∃ s, makeType tau yInit yAttr fas dmpType scaling amplitudes = .ok s ∧
      IsDmp s yInit.length tau yInit yAttr fas 20 scaling amplitudes ∧
      HasSystems s dmpType tau yInit yAttr := by
  obtain ⟨r, hr, hd⟩ := typeSystems_ok dmpType tau yInit yAttr
  unfold makeType
  rw [then_ok (first_order tau yInit)]
  have e : List.take yInit.length (yInit ++ vzeros (yInit.length - yInit.length)) = yInit := by simp
  simp only [e]
  rw [then_ok hr]
  obtain ⟨s, h1, h2, h3, h4, h5⟩ := isDmp_of_build (size := yInit.length) (tau := tau) (yAttr := yAttr)
    (alpha := 20) (phase := r.2.1) (gating := r.2.2) hd ha hf
  exact ⟨s, h1, h2, hasSystems_of hr h3 h4 h5⟩

/-- C89: the constructor for the number of dimensions and a type. -/
theorem C89_make_type_dims (n : Nat) (fas : List (Option AnyFa)) (dmpType : String)
    (scaling : ForcingScaling) (amplitudes : List ℝ)
    (ha : scaling = .amplitude → amplitudes.length = n) (hf : fas = [] ∨ fas.length = n) :
    ∃ s, makeTypeDims n fas dmpType scaling amplitudes = .ok s ∧
      IsDmp s n 1 (List.replicate n 0) (List.replicate n 1) fas 20 scaling amplitudes ∧
      HasSystems s dmpType 1 (List.replicate n 0) (List.replicate n 1) := by
  have hl : (vzeros n : List ℝ).length = n := List.length_replicate
  have h := C89_make_type 1 (vzeros n) (List.replicate n 1) fas dmpType scaling amplitudes
    (by rwa [hl]) (by rwa [hl])
  rw [hl] at h
  exact h

/-- C89: the constructor without forcing term has NULL as function approximators, no scaling, and phase and
gating as IJSPEERT_2002_MOVEMENT. -/
theorem C89_make_plain (tau : ℝ) (yInit yAttr : List ℝ) (alpha : ℝ) (goal : Option Exponential)
    (hg : ∀ g, goal = some g → g.dimX = yInit.length) :
    ∃ s, makePlain tau yInit yAttr alpha goal = .ok s ∧
      IsDmp s yInit.length tau yInit yAttr (List.replicate yInit.length none) alpha .noScaling [] ∧
      s.goal = goal.map (fun g => { g with xInit := yInit }) ∧
      (∃ p, s.phase = some (.exponential p) ∧ IsDecay p tau [1] [0] 4) ∧
      ∃ q, s.gating = some (.exponential q) ∧ IsDecay q tau [1] [0] 4 := by
  unfold makePlain
  rw [then_ok (first_order tau yInit), then_ok (expo_make tau [1] [0] 4), then_ok (expo_make tau [1] [0] 4)]
  obtain ⟨s, h1, h2, h3, h4, h5⟩ := isDmp_of_build (size := yInit.length) (tau := tau) (yAttr := yAttr)
    (alpha := alpha) (scaling := .noScaling) (amplitudes := [])
    (fas := List.replicate yInit.length none)
    (phase := some (.exponential ⟨⟨tau, [(1 : ℝ)].length, [(1 : ℝ)].length, [1]⟩, [0], 4⟩))
    (gating := some (.exponential ⟨⟨tau, [(1 : ℝ)].length, [(1 : ℝ)].length, [1]⟩, [0], 4⟩)) hg
    (fun h => by cases h) (.inr List.length_replicate)
  exact ⟨s, h1, h2, h3, ⟨_, h4, rfl, rfl, rfl, rfl, rfl, rfl⟩, _, h5, rfl, rfl, rfl, rfl, rfl, rfl⟩

/-! ### What the size is needed for -/

theorem putSeg_room {x v y : List ℝ} {i n : Nat} (h : putSeg x i n v = .ok y) :
    i + n ≤ x.length ∧ y.length = x.length := by
  refine ⟨?_, ((C88_segments x v i n).2.2 y h).1⟩
  by_contra hc
  rw [(C88_segments x v i n).2.1.mpr (.inl (by omega))] at h
  cases h

/-- C89: a rate of change exists only if there is room for 3n + 2 values. -/
theorem C89_needs_room (x : List ℝ) (s : Dmp) (r : List ℝ × Dmp) (h : diffEq x s = .ok r) :
    3 * s.dimY + 2 ≤ s.dimX := by
  unfold diffEq at h
  simp only at h
  have hz : (vzeros s.dimX : List ℝ).length = s.dimX := List.length_replicate
  have key : ∀ (xd : List ℝ) (spring : Spring) {β : Type} (k : List ℝ → CppResult β) (b : β),
      xd.length = s.dimX → (do
        let xd ← putSeg xd (0 * s.dimY + 0) (2 * s.dimY)
          (← spring.diffEq (← seg x (0 * s.dimY + 0) (2 * s.dimY)))
        let phase ← deref s.phase
        let xd ← putSeg xd (3 * s.dimY + 0) 1 (← phase.diffEq (← seg x (3 * s.dimY + 0) 1))
        let gating ← deref s.gating
        let xd ← putSeg xd (3 * s.dimY + 1) 1 (← gating.diffEq (← seg x (3 * s.dimY + 1) 1))
        k xd) = .ok b → 3 * s.dimY + 2 ≤ s.dimX := by
    intro xd spring β k b hl h
    obtain ⟨_, -, h⟩ := inv h
    obtain ⟨_, -, h⟩ := inv h
    obtain ⟨x1, h1, h⟩ := inv h
    obtain ⟨_, -, h⟩ := inv h
    obtain ⟨_, -, h⟩ := inv h
    obtain ⟨_, -, h⟩ := inv h
    obtain ⟨x2, h2, h⟩ := inv h
    obtain ⟨_, -, h⟩ := inv h
    obtain ⟨_, -, h⟩ := inv h
    obtain ⟨_, -, h⟩ := inv h
    obtain ⟨x3, h3, h⟩ := inv h
    have l1 := (putSeg_room h1).2
    have l2 := (putSeg_room h2).2
    have l3 := (putSeg_room h3).1
    omega
  cases hg : s.goal with
  | none =>
    simp only [hg] at h
    simp only [bind_assoc, pure_bind] at h
    obtain ⟨sp, -, h⟩ := inv h
    obtain ⟨x1, h1, h⟩ := inv h
    exact key x1 sp _ r ((putSeg_room h1).2.trans hz) h
  | some g =>
    simp only [hg] at h
    simp only [bind_assoc, pure_bind] at h
    obtain ⟨g', -, h⟩ := inv h
    obtain ⟨_, -, h⟩ := inv h
    obtain ⟨_, -, h⟩ := inv h
    obtain ⟨x1, h1, h⟩ := inv h
    obtain ⟨_, -, h⟩ := inv h
    obtain ⟨sp, -, h⟩ := inv h
    exact key x1 sp _ r ((putSeg_room h1).2.trans hz) h

/-- C89: so does the start of an integration. -/
theorem C89_start_needs_room (s : Dmp) (r : (List ℝ × List ℝ) × Dmp) (h : integrateStart s = .ok r) :
    3 * s.dimY + 2 ≤ s.dimX := by
  unfold integrateStart at h
  simp only at h
  cases hg : s.goal with
  | none =>
    simp only [hg] at h
    simp only [bind_assoc, pure_bind] at h
    obtain ⟨_, -, h⟩ := inv h
    obtain ⟨_, -, h⟩ := inv h
    obtain ⟨_, -, h⟩ := inv h
    obtain ⟨_, -, h⟩ := inv h
    obtain ⟨_, -, h⟩ := inv h
    obtain ⟨_, -, h⟩ := inv h
    obtain ⟨_, -, h⟩ := inv h
    obtain ⟨_, -, h⟩ := inv h
    obtain ⟨_, -, h⟩ := inv h
    obtain ⟨_, -, h⟩ := inv h
    obtain ⟨_, -, h⟩ := inv h
    obtain ⟨_, h1, -⟩ := inv h
    have := C89_needs_room _ _ _ h1
    exact this
  | some g =>
    simp only [hg] at h
    simp only [bind_assoc, pure_bind] at h
    obtain ⟨_, -, h⟩ := inv h
    obtain ⟨_, -, h⟩ := inv h
    obtain ⟨_, -, h⟩ := inv h
    obtain ⟨_, -, h⟩ := inv h
    obtain ⟨_, -, h⟩ := inv h
    obtain ⟨_, -, h⟩ := inv h
    obtain ⟨_, -, h⟩ := inv h
    obtain ⟨_, -, h⟩ := inv h
    obtain ⟨_, -, h⟩ := inv h
    obtain ⟨_, -, h⟩ := inv h
    obtain ⟨_, -, h⟩ := inv h
    obtain ⟨_, -, h⟩ := inv h
    obtain ⟨_, h1, -⟩ := inv h
    have := C89_needs_room _ _ _ h1
    exact this

/-- C89: and the analytical solution. -/
theorem C89_solution_needs_room (ts : List ℝ) (s : Dmp) (r : Solution) (h : analytical ts s = .ok r) :
    3 * s.dimY + 2 ≤ s.dimX := by
  unfold analytical at h
  simp only at h
  split_ifs at h with hn
  · cases h
  have hz : (vzeros s.dimX : List ℝ).length = s.dimX := List.length_replicate
  obtain ⟨_, -, h⟩ := inv h
  obtain ⟨_, -, h⟩ := inv h
  obtain ⟨_, -, h⟩ := inv h
  obtain ⟨_, -, h⟩ := inv h
  obtain ⟨_, -, h⟩ := inv h
  obtain ⟨_, -, h⟩ := inv h
  obtain ⟨m, hm⟩ := Nat.exists_eq_succ_of_ne_zero hn
  split at h
  all_goals
    obtain ⟨_, -, h⟩ := inv h
    obtain ⟨_, -, h⟩ := inv h
    obtain ⟨_, -, h⟩ := inv h
    obtain ⟨_, -, h⟩ := inv h
    obtain ⟨_, -, h⟩ := inv h
    obtain ⟨_, -, h⟩ := inv h
    obtain ⟨_, -, h⟩ := inv h
    obtain ⟨_, h1, -⟩ := inv h
    rw [hm, List.range_succ_eq_map, List.mapM_cons] at h1
    obtain ⟨_, h2, -⟩ := inv h1
    obtain ⟨x1, h3, h2⟩ := inv h2
    obtain ⟨x2, h4, h2⟩ := inv h2
    obtain ⟨x3, h5, h2⟩ := inv h2
    have l1 := putSeg_room h3
    have l2 := putSeg_room h4
    have l3 := putSeg_room h5
    omega

/-- C89: with room for the positions only, the start of the integration violates an assertion, and so do
the loops of the demo and of the test. -/
theorem C89_assertion (s : Dmp) (h : s.dimX = s.dimY) (h0 : 0 < s.dimY) (dt : ℝ) (n : Nat) (ts : List ℝ) :
    integrateStart s = .error .assertion ∧ execute dt n s = .error .assertion ∧
    run ts s = .error .assertion := by
  have hp : ∀ v, putSeg (vzeros s.dimX) (2 * s.dimY + 0) s.dimY v = .error .assertion := fun v => by
    rw [(C88_segments _ _ _ _).2.1]
    left
    rw [show (vzeros s.dimX : List ℝ).length = s.dimX from List.length_replicate]
    omega
  have hi : integrateStart s = .error .assertion := by
    unfold integrateStart
    simp only
    cases hg : s.goal with
    | none =>
      simp only [hp]
      rfl
    | some g =>
      simp only [hp]
      have hx : (∃ r, System.integrateStartFrom s.yInit g = .ok r) ∨
          System.integrateStartFrom s.yInit g = .error .assertion := by
        unfold System.integrateStartFrom System.setYInit
        simp only [Exponential.instSystem]
        unfold Base.setYInit
        split_ifs
        · exact .inr rfl
        all_goals
          first
          | exact .inr rfl
          | (simp only [ok_bind, pure_bind]
             unfold System.integrateStart System.diffEq
             simp only [Exponential.instSystem]
             unfold Exponential.diffEq
             split_ifs
             · exact .inr rfl
             · exact .inl ⟨_, rfl⟩)
      rcases hx with ⟨r, hx⟩ | hx
      · rw [hx]
        rfl
      · rw [hx]
        rfl
  refine ⟨hi, ?_, ?_⟩
  · unfold execute
    rw [hi]
    rfl
  · unfold run
    rw [hi]
    rfl

/-! ### With room -/

/-- The rate of change of the goal, and the systems after it has been computed. -/
theorem diffEq_room {s : Dmp} {n : Nat} {y z g p q pd qd out f : List ℝ} (hc : CSizes n y z g p q)
    (hx : s.dimX = 3 * n + 2) (hy : s.dimY = n) (ha : s.yAttr.length = n) (hsx : s.spring.dimX = 2 * n)
    {P Q : AnySystem} (hP : s.phase = some P) (hp : P.diffEq p = .ok pd) (lp : pd.length = 1)
    (hQ : s.gating = some Q) (hq : Q.diffEq q = .ok qd) (lq : qd.length = 1)
    (ho : ((List.range n).mapM fun i => do (← s.fa i).predictRealTime fun j : Fin 1 => p.getD j 0) = .ok out)
    (hf : s.scaleForcing (vscale (q.getD 0 0) out) = .ok f) (lf : f.length = n) :
    (s.goal = none → ∃ s', diffEq (cpack y z g p q) s = .ok (cpack (vdivs z s.spring.tau)
      (vadd (vdivs (vsub (vscale (-s.spring.spring) (vsub y s.yAttr)) (vscale s.spring.damping z))
        (s.spring.mass * s.spring.tau)) (vdivs f s.tau)) (vzeros n) pd qd, s')) ∧
    (∀ e, s.goal = some e → e.dimX = n → ∃ s', diffEq (cpack y z g p q) s = .ok (cpack (vdivs z s.spring.tau)
      (vadd (vdivs (vsub (vscale (-s.spring.spring) (vsub y g)) (vscale s.spring.damping z))
        (s.spring.mass * s.spring.tau)) (vdivs f s.tau))
      (vdivs (vscale e.alpha (vsub s.yAttr g)) e.tau) pd qd, s')) := by
  have h0 := zeros_csizes n
  have hset : ∀ a : List ℝ, a.length = n → s.spring.setYAttr a = .ok { s.spring with yAttr := a } :=
    fun a h => by
      unfold Spring.setYAttr
      rw [if_neg (by omega)]
  have hsp : ∀ a : List ℝ, a.length = n → Spring.diffEq (y ++ z) { s.spring with yAttr := a } =
      .ok (vdivs z s.spring.tau ++ vdivs (vsub (vscale (-s.spring.spring) (vsub y a))
        (vscale s.spring.damping z)) (s.spring.mass * s.spring.tau)) := fun a h => by
    unfold Spring.diffEq
    have e : s.spring.dimX / 2 = n := by omega
    simp only [e]
    have ey : (y ++ z).take n = y := List.take_left' hc.y
    have ez : ((y ++ z).drop n).take n = z := by
      rw [List.drop_left' hc.y, List.take_of_length_le hc.z.le]
    rw [if_neg (by rw [List.length_append, hc.y, hc.z]; omega), if_neg (not_not.mpr h), ey, ez]
  have lz : (vdivs z s.spring.tau).length = n := by simp [hc.z]
  have main : ∀ (gd a : List ℝ), gd.length = n → a.length = n →
      putSeg (cpack (vzeros n) (vzeros n) gd (vzeros 1) (vzeros 1)) (0 * n + 0) (2 * n)
          (vdivs z s.spring.tau ++ vdivs (vsub (vscale (-s.spring.spring) (vsub y a))
            (vscale s.spring.damping z)) (s.spring.mass * s.spring.tau)) =
        .ok (cpack (vdivs z s.spring.tau) (vdivs (vsub (vscale (-s.spring.spring) (vsub y a))
            (vscale s.spring.damping z)) (s.spring.mass * s.spring.tau)) gd (vzeros 1) (vzeros 1)) ∧
      CSizes n (vdivs z s.spring.tau) (vdivs (vsub (vscale (-s.spring.spring) (vsub y a))
            (vscale s.spring.damping z)) (s.spring.mass * s.spring.tau)) gd (vzeros 1) (vzeros 1) := by
    intro gd a hg ha
    have l : (vdivs (vsub (vscale (-s.spring.spring) (vsub y a)) (vscale s.spring.damping z))
        (s.spring.mass * s.spring.tau)).length = n := by simp [hc.y, ha, hc.z]
    have h1 : CSizes n (vzeros n) (vzeros n) gd (vzeros 1) (vzeros 1) := ⟨h0.y, h0.z, hg, h0.p, h0.q⟩
    exact ⟨h1.put_spring lz l, ⟨lz, l, hg, h0.p, h0.q⟩⟩
  constructor
  · intro hgoal
    obtain ⟨m1, m2⟩ := main (vzeros n) s.yAttr h0.g ha
    have m3 : CSizes n _ _ _ pd (vzeros 1) := ⟨m2.y, m2.z, m2.g, lp, m2.q⟩
    have m4 : CSizes n _ _ _ pd qd := ⟨m2.y, m2.z, m2.g, lp, lq⟩
    have m5 := m4.put_z (v := vadd (vdivs (vsub (vscale (-s.spring.spring) (vsub y s.yAttr))
      (vscale s.spring.damping z)) (s.spring.mass * s.spring.tau)) (vdivs f s.tau)) (by simp [hc.y, ha, hc.z, lf])
    unfold diffEq
    simp only [hx, hy, hgoal, hset _ ha, zeros_cpack, h0.put_goal h0.g, hc.seg_spring, hsp _ ha, m1,
      hP, hQ, deref, hc.seg_phase, hc.seg_gating, hp, hq, m2.put_phase lp, m3.put_gating lq, ho, hf, m4.seg_z,
      m5, ok_bind, pure_bind]
    exact ⟨_, rfl⟩
  · intro e hgoal hd
    have lg : (vdivs (vscale e.alpha (vsub s.yAttr g)) e.tau).length = n := by simp [ha, hc.g]
    have ex : e.setXAttr s.yAttr = .ok { e with xAttr := s.yAttr } := by
      unfold Exponential.setXAttr
      rw [if_neg (by omega)]
    have ed : Exponential.diffEq g { e with xAttr := s.yAttr } =
        .ok (vdivs (vscale e.alpha (vsub s.yAttr g)) e.tau) := by
      unfold Exponential.diffEq
      rw [if_neg (not_not.mpr (ha.trans hc.g.symm))]
    obtain ⟨m1, m2⟩ := main _ g lg hc.g
    have m3 : CSizes n _ _ _ pd (vzeros 1) := ⟨m2.y, m2.z, m2.g, lp, m2.q⟩
    have m4 : CSizes n _ _ _ pd qd := ⟨m2.y, m2.z, m2.g, lp, lq⟩
    have m5 := m4.put_z (v := vadd (vdivs (vsub (vscale (-s.spring.spring) (vsub y g))
      (vscale s.spring.damping z)) (s.spring.mass * s.spring.tau)) (vdivs f s.tau))
      (by simp [hc.y, hc.g, hc.z, lf])
    unfold diffEq
    simp only [hx, hy, hgoal, ex, hc.seg_goal, ed, hset _ hc.g, zeros_cpack, h0.put_goal lg, hc.seg_spring,
      hsp _ hc.g, m1,
      hP, hQ, deref, hc.seg_phase, hc.seg_gating, hp, hq, m2.put_phase lp, m3.put_gating lq, ho, hf, m4.seg_z,
      m5, ok_bind, pure_bind]
    exact ⟨_, rfl⟩

theorem spring_starts (sp : Spring) : System.integrateStart sp =
    (Spring.diffEq sp.xInit sp >>= fun r => .ok ((sp.xInit, r), sp)) := by
  change ((Spring.diffEq sp.xInit sp >>= fun r => pure (r, sp)) >>= fun r => pure ((sp.xInit, r.1), r.2)) = _
  rw [bind_assoc]
  rfl

theorem expo_starts (e : Exponential) : System.integrateStart e =
    (Exponential.diffEq e.xInit e >>= fun r => .ok ((e.xInit, r), e)) := by
  change ((Exponential.diffEq e.xInit e >>= fun r => pure (r, e)) >>= fun r => pure ((e.xInit, r.1), r.2)) = _
  rw [bind_assoc]
  rfl

theorem spring_start {sp : Spring} {n : Nat} {y a : List ℝ} (hx : sp.dimX = 2 * n) (hy : sp.dimY = n)
    (hl : y.length = n) (ha : a.length = n) :
    ∃ xd, System.integrateStartFrom y { sp with yAttr := a } =
      .ok ((y ++ vzeros n, xd), { sp with yAttr := a, xInit := y ++ vzeros n }) := by
  have h1 : Base.setYInit y sp.toBase = .ok { sp.toBase with xInit := y ++ vzeros n } := by
    unfold Base.setYInit
    rw [if_neg (by omega)]
    split_ifs with h h2
    · have e : n = 0 := by omega
      subst e
      rw [show (vzeros 0 : List ℝ) = [] from rfl, List.append_nil]
    · omega
    · rw [show sp.dimX - sp.dimY = n by omega]
  have h2 : ∃ r, Spring.diffEq (y ++ vzeros n) { sp with yAttr := a, xInit := y ++ vzeros n } = .ok r := by
    unfold Spring.diffEq
    have e : sp.dimX / 2 = n := by omega
    simp only [e]
    rw [if_neg (by rw [List.length_append, hl, show (vzeros n : List ℝ).length = n from List.length_replicate]; omega),
      if_neg (not_not.mpr ha)]
    exact ⟨_, rfl⟩
  obtain ⟨r, h2⟩ := h2
  refine ⟨r, ?_⟩
  unfold System.integrateStartFrom System.setYInit
  simp only [Spring.instSystem]
  rw [h1]
  simp only [ok_bind, pure_bind]
  rw [spring_starts]
  exact then_ok h2 _

theorem any_start {P : AnySystem} {p pd : List ℝ} (hb : P.base.xInit = p) (h : P.diffEq p = .ok pd) :
    System.integrateStart P = .ok ((p, pd), P) := by
  unfold System.integrateStart System.base System.diffEq
  simp only [AnySystem.instSystem]
  rw [hb, h]
  rfl

theorem expo_start {e : Exponential} {n : Nat} {y : List ℝ} (hx : e.dimX = n) (hy : e.dimY = n)
    (hl : y.length = n) (ha : e.xAttr.length = n) :
    ∃ xd, System.integrateStartFrom y e = .ok ((y, xd), { e with xInit := y }) := by
  have h1 : Base.setYInit y e.toBase = .ok { e.toBase with xInit := y } := by
    unfold Base.setYInit
    rw [if_neg (by omega), if_pos (by omega)]
  refine ⟨vdivs (vscale e.alpha (vsub e.xAttr y)) e.tau, ?_⟩
  unfold System.integrateStartFrom System.setYInit
  simp only [Exponential.instSystem]
  rw [h1]
  simp only [ok_bind, pure_bind]
  rw [expo_starts]
  unfold Exponential.diffEq
  simp only
  rw [if_neg (by omega)]
  rfl

/-- The start of an integration of a Dmp with room. -/
theorem start_room {s : Dmp} {n : Nat} {y out f : List ℝ} {p pd q qd : ℝ} (hx : s.dimX = 3 * n + 2)
    (hy : s.dimY = n) (hi : s.yInit = y) (hl : y.length = n) (ha : s.yAttr.length = n)
    (hsx : s.spring.dimX = 2 * n) (hsy : s.spring.dimY = n)
    {P Q : AnySystem} (hP : s.phase = some P) (hPi : P.base.xInit = [p]) (hp : P.diffEq [p] = .ok [pd])
    (hQ : s.gating = some Q) (hQi : Q.base.xInit = [q]) (hq : Q.diffEq [q] = .ok [qd])
    (ho : ((List.range n).mapM fun i => do (← s.fa i).predictRealTime fun _ : Fin 1 => p) = .ok out)
    (hf : s.scaleForcing (vscale q out) = .ok f) (lf : f.length = n) :
    (s.goal = none → ∃ s', integrateStart s = .ok ((cpack y (vzeros n) s.yAttr [p] [q],
      cpack (vdivs (vzeros n) s.spring.tau)
      (vadd (vdivs (vsub (vscale (-s.spring.spring) (vsub y s.yAttr)) (vscale s.spring.damping (vzeros n)))
        (s.spring.mass * s.spring.tau)) (vdivs f s.tau)) (vzeros n) [pd] [qd]), s')) ∧
    (∀ e, s.goal = some e → e.dimX = n → e.dimY = n → e.xAttr.length = n →
      ∃ s', integrateStart s = .ok ((cpack y (vzeros n) y [p] [q],
      cpack (vdivs (vzeros n) s.spring.tau)
      (vadd (vdivs (vsub (vscale (-s.spring.spring) (vsub y y)) (vscale s.spring.damping (vzeros n)))
        (s.spring.mass * s.spring.tau)) (vdivs f s.tau))
      (vdivs (vscale e.alpha (vsub s.yAttr y)) e.tau) [pd] [qd]), s')) := by
  have h0 := zeros_csizes n
  have hset : ∀ a : List ℝ, a.length = n → s.spring.setYAttr a = .ok { s.spring with yAttr := a } :=
    fun a h => by
      unfold Spring.setYAttr
      rw [if_neg (by omega)]
  have eo : (fun j : Fin 1 => [p].getD j 0) = fun _ : Fin 1 => p := by
    funext j
    rw [Subsingleton.elim j 0]
    rfl
  constructor
  · intro hg
    have m1 : CSizes n (vzeros n) (vzeros n) s.yAttr (vzeros 1) (vzeros 1) := ⟨h0.y, h0.z, ha, h0.p, h0.q⟩
    have m2 : CSizes n y (vzeros n) s.yAttr (vzeros 1) (vzeros 1) := ⟨hl, h0.z, ha, h0.p, h0.q⟩
    have m3 : CSizes n y (vzeros n) s.yAttr [p] (vzeros 1) := ⟨hl, h0.z, ha, rfl, h0.q⟩
    have m4 : CSizes n y (vzeros n) s.yAttr [p] [q] := ⟨hl, h0.z, ha, rfl, rfl⟩
    obtain ⟨xs, hs⟩ := spring_start hsx hsy hl ha
    obtain ⟨s', hd⟩ := (diffEq_room (s := { s with
        spring := { s.spring with yAttr := s.yAttr, xInit := y ++ vzeros n } }) m4 hx hy ha hsx hP hp rfl hQ hq
        rfl (by rw [eo]; exact ho) hf lf).1 hg
    refine ⟨s', ?_⟩
    unfold integrateStart
    simp only [hx, hy, hg, hi, zeros_cpack, h0.put_goal ha, m1.seg_goal, hset _ ha, hs, m1.put_spring hl h0.z,
      hP, hQ, deref, any_start hPi hp, any_start hQi hq, m2.put_phase (v := [p]) rfl,
      m3.put_gating (v := [q]) rfl, ok_bind, pure_bind]
    simp only [hg, hP, hQ] at hd
    rw [hd]
    rfl
  · intro e hg hex hey hea
    have m1 : CSizes n (vzeros n) (vzeros n) y (vzeros 1) (vzeros 1) := ⟨h0.y, h0.z, hl, h0.p, h0.q⟩
    have m2 : CSizes n y (vzeros n) y (vzeros 1) (vzeros 1) := ⟨hl, h0.z, hl, h0.p, h0.q⟩
    have m3 : CSizes n y (vzeros n) y [p] (vzeros 1) := ⟨hl, h0.z, hl, rfl, h0.q⟩
    have m4 : CSizes n y (vzeros n) y [p] [q] := ⟨hl, h0.z, hl, rfl, rfl⟩
    obtain ⟨xs, hs⟩ := spring_start hsx hsy hl hl
    obtain ⟨xe, he⟩ := expo_start hex hey hl hea
    obtain ⟨s', hd⟩ := (diffEq_room (s := { s with
        goal := some { e with xInit := y }
        spring := { s.spring with yAttr := y, xInit := y ++ vzeros n } }) m4 hx hy ha hsx hP hp rfl hQ hq
        rfl (by rw [eo]; exact ho) hf lf).2 _ rfl hex
    refine ⟨s', ?_⟩
    unfold integrateStart
    simp only [hx, hy, hg, hi, he, zeros_cpack, h0.put_goal hl, m1.seg_goal, hset _ hl, hs,
      m1.put_spring hl h0.z,
      hP, hQ, deref, any_start hPi hp, any_start hQi hq, m2.put_phase (v := [p]) rfl,
      m3.put_gating (v := [q]) rfl, ok_bind, pure_bind]
    simp only [hP, hQ] at hd
    rw [hd]
    rfl

theorem mapM_all {α β : Type} {f : α → CppResult β} {g : α → β} :
    ∀ {l : List α}, (∀ a ∈ l, f a = .ok (g a)) → l.mapM f = .ok (l.map g)
  | [], _ => rfl
  | a :: l, h => by
    rw [List.mapM_cons, h a List.mem_cons_self, mapM_all fun a ha => h a (List.mem_cons_of_mem _ ha)]
    rfl

theorem CSizes.entries {n : Nat} {y z g p q : List ℝ} (h : CSizes n y z g p q) :
    (∀ i, i < n → (cpack y z g p q).getD i 0 = y.getD i 0 ∧ (cpack y z g p q).getD (n + i) 0 = z.getD i 0 ∧
      (cpack y z g p q).getD (2 * n + i) 0 = g.getD i 0) ∧
    (cpack y z g p q).getD (3 * n) 0 = p.getD 0 0 ∧ (cpack y z g p q).getD (3 * n + 1) 0 = q.getD 0 0 := by
  obtain ⟨hy, hz, hg, hp, hq⟩ := h
  unfold cpack
  simp only [List.append_assoc, List.getD_eq_getElem?_getD]
  refine ⟨fun i hi => ⟨?_, ?_, ?_⟩, ?_, ?_⟩
  · rw [List.getElem?_append_left (by omega)]
  · rw [List.getElem?_append_right (by omega), List.getElem?_append_left (by omega),
      show n + i - y.length = i by omega]
  · rw [List.getElem?_append_right (by omega), List.getElem?_append_right (by omega),
      List.getElem?_append_left (by omega), show 2 * n + i - y.length - z.length = i by omega]
  · rw [List.getElem?_append_right (by omega), List.getElem?_append_right (by omega),
      List.getElem?_append_right (by omega), List.getElem?_append_left (by omega),
      show 3 * n - y.length - z.length - g.length = 0 by omega]
  · rw [List.getElem?_append_right (by omega), List.getElem?_append_right (by omega),
      List.getElem?_append_right (by omega), List.getElem?_append_right (by omega),
      show 3 * n + 1 - y.length - z.length - g.length - p.length = 0 by omega]

/-- Part of C89: with room for the state, the Dmps of the three types can be integrated; this is where they
start, and how. What is missing is that the constructors for a type make this room, see `C89_refuted`. -/
theorem C89_with_room_partial (s : Dmp) (n : Nat) (tau alpha : ℝ) (y0 y1 am : List ℝ)
    (fas : List (Option AnyFa)) (sc : ForcingScaling) (dmpType : String) (out : Nat → ℝ)
    (hs : IsDmp s (3 * n + 2) tau y0 y1 fas alpha sc am) (ht : HasSystems s dmpType tau y0 y1)
    (hT : dmpType = "IJSPEERT_2002_MOVEMENT" ∨ dmpType = "KULVICIUS_2012_JOINING" ∨ dmpType = "COUNTDOWN_2013")
    (h0 : y0.length = n) (h1 : y1.length = n) (ha : sc = .amplitude → am.length = n)
    (hf : ∀ i, i < n → ∃ f, fas.getD i none = some f ∧
      f.predictRealTime (fun _ : Fin 1 => if dmpType = "KULVICIUS_2012_JOINING" then (0 : ℝ) else 1) = .ok (out i)) :
    ∃ x xd s', integrateStart s = .ok ((x, xd), s') ∧
      Starts x xd n tau dmpType y0 y1 (alpha ^ 2 / 4) fun i => out i * factor sc y0 y1 am i := by
  have hi : s.yInit = y0 := by
    unfold yInit
    rw [hs.start, hs.dims, List.take_left]
  have hdy : s.dimY = n := hs.dims.trans h0
  have hya : s.yAttr.length = n := by rw [hs.goal, h1]
  have hsx : s.spring.dimX = 2 * n := by rw [hs.springSize, h0]
  have hsy : s.spring.dimY = n := by rw [hs.springDims, h0]
  -- the forcing term
  have ho : ∀ p : ℝ, p = (if dmpType = "KULVICIUS_2012_JOINING" then 0 else 1) →
      ((List.range n).mapM fun i => do (← s.fa i).predictRealTime fun _ : Fin 1 => p) =
        .ok ((List.range n).map out) := by
    rintro p rfl
    refine mapM_all fun i h => ?_
    obtain ⟨f, f1, f2⟩ := hf i (List.mem_range.mp h)
    unfold fa
    rw [hs.fas, f1]
    exact f2
  have hlen : ((List.range n).map out).length = n := by simp
  have hforce : ∃ f, s.scaleForcing (vscale 1 ((List.range n).map out)) = .ok f ∧ f.length = n ∧
      ∀ i, i < n → f.getD i 0 = out i * factor sc y0 y1 am i := by
    have hget : ∀ i, i < n → (vscale 1 ((List.range n).map out)).getD i 0 = out i := fun i h => by
      rw [getD_vscale, one_mul, List.getD_eq_getElem?_getD, List.getElem?_map, List.getElem?_range h]
      rfl
    have hvl : (vscale 1 ((List.range n).map out)).length = n := by simp
    unfold scaleForcing
    rw [hs.scaling, hi, hs.goal, hs.amplitudes]
    cases sc with
    | noScaling => exact ⟨_, rfl, hvl, fun i h => by rw [hget i h]; simp [factor]⟩
    | gMinusY0 =>
      simp only
      rw [if_neg (by omega)]
      refine ⟨_, rfl, by simp [h0, h1], fun i h => ?_⟩
      rw [getD_vmul (by omega) (by simp [h0, h1]; omega), hget i h, getD_vsub (by omega) (by omega)]
      rfl
    | amplitude =>
      have ha := ha rfl
      simp only
      rw [if_neg (by omega)]
      refine ⟨_, rfl, by simp [ha], fun i h => ?_⟩
      rw [getD_vmul (by omega) (by omega), hget i h]
      rfl
  obtain ⟨f, hf1, hf2, hf3⟩ := hforce
  have hz := zeros_csizes n
  by_cases hI : dmpType = "IJSPEERT_2002_MOVEMENT"
  · obtain ⟨hg, ⟨P, hP, dP⟩, Q, hQ, dQ⟩ := ht.1 hI
    have hK : dmpType ≠ "KULVICIUS_2012_JOINING" := by rw [hI]; decide
    have hrate : ∀ e : Exponential, IsDecay e tau [1] [0] 4 →
        (AnySystem.exponential e).diffEq [1] = .ok [-4 / tau] := fun e d => by
      change Exponential.diffEq [1] e = _
      unfold Exponential.diffEq
      rw [d.goal, d.tau, d.rate, if_neg (by simp)]
      simp [vsub, vscale, vdivs]
    obtain ⟨s', hs'⟩ := (start_room hs.size hdy hi h0 hya hsx hsy hP dP.start (hrate P dP) hQ dQ.start
      (hrate Q dQ) (ho 1 (if_neg hK).symm) hf1 hf2).1 hg
    refine ⟨_, _, s', hs', ?_⟩
    have c1 : CSizes n y0 (vzeros n) s.yAttr [1] [1] := ⟨h0, hz.z, hya, rfl, rfl⟩
    have c2 : CSizes n (vdivs (vzeros n) s.spring.tau) (vadd (vdivs (vsub (vscale (-s.spring.spring)
        (vsub y0 s.yAttr)) (vscale s.spring.damping (vzeros n))) (s.spring.mass * s.spring.tau)) (vdivs f s.tau))
        (vzeros n) [-4 / tau] [-4 / tau] :=
      ⟨by simp, by simp [h0, hya, hf2], hz.g, rfl, rfl⟩
    obtain ⟨e1, e2, e3⟩ := c1.entries
    obtain ⟨r1, r2, r3⟩ := c2.entries
    refine ⟨c1.length, c2.length, fun i h => (e1 i h).1, fun i h => ?_, fun i h => ?_, ?_, e3, fun i h => ?_,
      fun i h => ?_, fun i h => ?_, ?_, ?_⟩
    · rw [(e1 i h).2.1, getD_vzeros]
    · rw [(e1 i h).2.2, if_pos hI, hs.goal]
    · rw [e2, if_neg hK]
      rfl
    · rw [(r1 i h).1, getD_vdivs, getD_vzeros, zero_div]
    · rw [(r1 i h).2.1, if_pos hI, getD_vadd (by simp [h0, hya]; omega) (by simp [hf2]; omega), getD_vdivs,
        getD_vdivs, getD_vsub (by simp [h0, hya]; omega) (by simp; omega), getD_vscale, getD_vscale,
        getD_vsub (by omega) (by omega), getD_vzeros, hf3 i h, hs.mass, hs.springTau, hs.tau, hs.stiffness,
        hs.goal]
      ring
    · rw [(r1 i h).2.2, if_pos hI, getD_vzeros]
    · rw [r2, if_pos hI]
      rfl
    · rw [r3, if_pos hI]
      rfl
  · have hT2 : dmpType = "KULVICIUS_2012_JOINING" ∨ dmpType = "COUNTDOWN_2013" := hT.resolve_left hI
    obtain ⟨⟨g, hg, dg⟩, ⟨P, hP, Pt, -, -, Pc, Pi⟩, Q, hQ, Qt, -, -, Qi, Qr, -, Qk⟩ := ht.2.1 hT2
    have hne : "KULVICIUS_2012_JOINING" ≠ "COUNTDOWN_2013" := by decide
    obtain ⟨p, pd, hp0, hp1, hp2, hp3⟩ : ∃ p pd : ℝ, p = (if dmpType = "KULVICIUS_2012_JOINING" then 0 else 1) ∧
        P.xInit = [p] ∧ P.diffEq [p] = .ok [pd] ∧
        pd = if dmpType = "KULVICIUS_2012_JOINING" then 1 / tau else -1 / tau := by
      rcases hT2 with h | h
      · have hc : P.countDown = false := by
          rw [Bool.eq_false_iff]
          intro hc
          exact hne (h.symm.trans (Pc.mp hc))
        refine ⟨0, 1 / tau, (if_pos h).symm, ?_, ?_, (if_pos h).symm⟩
        · rw [Pi, if_neg (by rw [h]; exact hne)]
        · unfold TimeSystem.diffEq
          simp [hc, Pt]
      · have hc : P.countDown = true := Pc.mpr h
        have hk : dmpType ≠ "KULVICIUS_2012_JOINING" := by rw [h]; exact hne.symm
        refine ⟨1, -1 / tau, (if_neg hk).symm, ?_, ?_, (if_neg hk).symm⟩
        · rw [Pi, if_pos h]
        · unfold TimeSystem.diffEq
          simp [hc, Pt]
    have hq : (AnySystem.sigmoid Q).diffEq [1] = .ok [-10 * (1 - 1 / (1 + Real.exp (-9 * tau ^ 2)))] := by
      change Sigmoid.diffEq [1] Q = _
      unfold Sigmoid.diffEq
      rw [Qk, Qr, if_neg (by simp)]
      simp [vmul, vscale, vdiv]
    obtain ⟨s', hs'⟩ := (start_room hs.size hdy hi h0 hya hsx hsy hP hp1 hp2 hQ Qi
      hq (ho p hp0) hf1 hf2).2 g hg (dg.sizeX.trans h0) (dg.sizeY.trans h0) (by rw [dg.goal, h1])
    refine ⟨_, _, s', hs', ?_⟩
    have c1 : CSizes n y0 (vzeros n) y0 [p] [1] := ⟨h0, hz.z, h0, rfl, rfl⟩
    have c2 : CSizes n (vdivs (vzeros n) s.spring.tau) (vadd (vdivs (vsub (vscale (-s.spring.spring)
        (vsub y0 y0)) (vscale s.spring.damping (vzeros n))) (s.spring.mass * s.spring.tau)) (vdivs f s.tau))
        (vdivs (vscale g.alpha (vsub s.yAttr y0)) g.tau) [pd]
        [-10 * (1 - 1 / (1 + Real.exp (-9 * tau ^ 2)))] :=
      ⟨by simp, by simp [h0, hf2], by simp [h0, hya], rfl, rfl⟩
    obtain ⟨e1, e2, e3⟩ := c1.entries
    obtain ⟨r1, r2, r3⟩ := c2.entries
    refine ⟨c1.length, c2.length, fun i h => (e1 i h).1, fun i h => ?_, fun i h => ?_, ?_, e3, fun i h => ?_,
      fun i h => ?_, fun i h => ?_, ?_, ?_⟩
    · rw [(e1 i h).2.1, getD_vzeros]
    · rw [(e1 i h).2.2, if_neg hI]
    · rw [e2]
      exact hp0
    · rw [(r1 i h).1, getD_vdivs, getD_vzeros, zero_div]
    · rw [(r1 i h).2.1, if_neg hI, getD_vadd (by simp [h0]; omega) (by simp [hf2]; omega), getD_vdivs,
        getD_vdivs, getD_vsub (by simp [h0]; omega) (by simp; omega), getD_vscale, getD_vscale,
        getD_vsub (by omega) (by omega), getD_vzeros, hf3 i h, hs.mass, hs.springTau, hs.tau, hs.stiffness]
      ring
    · rw [(r1 i h).2.2, if_neg hI, getD_vdivs, getD_vscale, getD_vsub (by omega) (by omega), dg.rate, dg.tau,
        hs.goal]
    · rw [r2, if_neg hI]
      exact hp3
    · rw [r3, if_neg hI]
      rfl

/-- C89, in full: a Dmp that has been constructed for a type, with function approximators that make
predictions, can be integrated. -/
def C89_statement : Prop :=
  ∀ (tau : ℝ) (y0 y1 : List ℝ) (fas : List (Option AnyFa)) (dmpType : String) (s : Dmp), 0 < tau →
    y0 ≠ [] → y1.length = y0.length →
    (dmpType = "IJSPEERT_2002_MOVEMENT" ∨ dmpType = "KULVICIUS_2012_JOINING" ∨ dmpType = "COUNTDOWN_2013") →
    (∀ i, i < y0.length → ∃ f, fas.getD i none = some f ∧
      ∀ p : ℝ, ∃ o, f.predictRealTime (fun _ : Fin 1 => p) = .ok o) →
    makeType tau y0 y1 fas dmpType .noScaling [] = .ok s → ∃ r, integrateStart s = .ok r

/-- A function approximator with one line, which has the values 2x + 1. -/
def line : AnyFa := .lwr ⟨1, 1, fun _ _ => 0, fun _ _ => 1, fun _ _ => 2, fun _ => 1⟩

theorem line_predicts (p : ℝ) : line.predictRealTime (fun _ : Fin 1 => p) = .ok (p * 2 + 1) := by
  change Lwr.predictRealTime _ _ = _
  unfold Lwr.predictRealTime activations
  simp only [and_self, if_true]
  rw [ok_bind]
  simp [Lwr.getLines]
  rfl

/-- C89: no Dmp with room for the positions only can be integrated: this is what the four other constructors
make, see `C89_make_type`, `C89_make_type_dims`, `C89_make_dims` and `C89_make_plain`. -/
theorem C89_no_room (s : Dmp) (tau alpha : ℝ) (y0 y1 am : List ℝ) (fas : List (Option AnyFa))
    (sc : ForcingScaling) (hs : IsDmp s y0.length tau y0 y1 fas alpha sc am) (h0 : y0 ≠ []) (x ts : List ℝ) :
    integrateStart s = .error .assertion ∧ (∀ r, diffEq x s ≠ .ok r) ∧ ∀ r, analytical ts s ≠ .ok r := by
  have hd : s.dimX = s.dimY := hs.size.trans hs.dims.symm
  have hp : 0 < s.dimY := by rw [hs.dims]; exact List.length_pos_of_ne_nil h0
  refine ⟨(C89_assertion s hd hp 1 0 []).1, fun r hr => ?_, fun r hr => ?_⟩
  · have := C89_needs_room x s r hr
    omega
  · have := C89_solution_needs_room ts s r hr
    omega

/-- Example: a Dmp without forcing term. -/
example : ∃ s, makePlain 2 [0, 0] [1, 3] 20 none = .ok s ∧ integrateStart s = .error .assertion := by
  obtain ⟨s, h1, h2, -⟩ := C89_make_plain 2 [0, 0] [1, 3] 20 none (fun g h => by cases h)
  exact ⟨s, h1, (C89_no_room s _ _ _ _ _ _ _ h2 (by simp) [] []).1⟩

/-- Example: a Dmp with three dimensions, made from their number. -/
example : ∃ s, makeDims 3 [] 20 none none none .noScaling [] = .ok s ∧ s.yAttr = [1, 1, 1] ∧
    integrateStart s = .error .assertion := by
  obtain ⟨s, h1, h2, -⟩ := C89_make_dims 3 [] 20 none none none .noScaling [] (fun g h => by cases h)
    (fun h => by cases h) (.inl rfl)
  refine ⟨s, h1, h2.goal, (C89_no_room s 1 20 (List.replicate 3 0) (List.replicate 3 1) [] []
    .noScaling ?_ (by simp) [] []).1⟩
  simpa using h2

/-- C89 is false: for any type, the constructor makes room for the positions only, and the start of the
integration violates an assertion. -/
theorem C89_never (tau : ℝ) (y0 y1 : List ℝ) (fas : List (Option AnyFa)) (dmpType : String)
    (sc : ForcingScaling) (am : List ℝ) (s : Dmp) (h0 : y0 ≠ [])
    (ha : sc = .amplitude → am.length = y0.length) (hf : fas = [] ∨ fas.length = y0.length)
    (h : makeType tau y0 y1 fas dmpType sc am = .ok s) (x ts : List ℝ) :
    integrateStart s = .error .assertion ∧ (∀ r, diffEq x s ≠ .ok r) ∧ ∀ r, analytical ts s ≠ .ok r := by
  obtain ⟨s', e, hs, -⟩ := C89_make_type tau y0 y1 fas dmpType sc am ha hf
  obtain rfl := Except.ok.inj (h.symm.trans e)
  exact C89_no_room s _ _ _ _ _ _ _ hs h0 x ts

theorem C89_refuted : ¬C89_statement := fun h => by
  obtain ⟨s, hs, -, -⟩ := C89_make_type 1 [0] [1] [some line] "KULVICIUS_2012_JOINING" .noScaling []
    (fun h => by cases h) (.inr rfl)
  have hf : ∀ i, i < [(0 : ℝ)].length → ∃ f, [some line].getD i none = some f ∧
      ∀ p : ℝ, ∃ o, f.predictRealTime (fun _ : Fin 1 => p) = .ok o := fun i hi => by
    obtain rfl : i = 0 := by simpa using hi
    exact ⟨line, rfl, fun p => ⟨_, line_predicts p⟩⟩
  obtain ⟨r, hr⟩ := h 1 [0] [1] [some line] "KULVICIUS_2012_JOINING" s one_pos (by simp) rfl
    (.inr (.inl rfl)) hf hs
  rw [(C89_never 1 [0] [1] [some line] "KULVICIUS_2012_JOINING" .noScaling [] s (by simp)
    (fun h => by cases h) (.inr rfl) hs [] []).1] at hr
  cases hr

/-- Example: a Dmp with room, made with the systems of the type KULVICIUS_2012_JOINING, starts with the
acceleration that the function approximator gives. -/
example : ∃ s x xd s', make 2 [0] [3] [some line] 20 (some ⟨⟨2, 1, 1, [0]⟩, [3], 15⟩)
      (some (.time ⟨⟨2, 1, 1, [0]⟩, false⟩))
      (some (.sigmoid ⟨⟨2, 1, 1, [1]⟩, -10, 0.9 * 2, [1 + Real.exp (-9 * 2 ^ 2)]⟩)) .gMinusY0 [] = .ok s ∧
    integrateStart s = .ok ((x, xd), s') ∧ xd.getD 1 0 = 3 / 2 := by
  obtain ⟨s, hs, hd, hg, hp, hq⟩ := C89_make 2 [0] [3] [some line] 20 (some ⟨⟨2, 1, 1, [0]⟩, [3], 15⟩)
    (some (.time ⟨⟨2, 1, 1, [0]⟩, false⟩))
    (some (.sigmoid ⟨⟨2, 1, 1, [1]⟩, -10, 0.9 * 2, [1 + Real.exp (-9 * 2 ^ 2)]⟩)) .gMinusY0 []
    (fun g h => by obtain rfl := Option.some.inj h; rfl) (fun h => by cases h) (.inr rfl)
  have hne : "KULVICIUS_2012_JOINING" ≠ "COUNTDOWN_2013" := by decide
  have ht : HasSystems s "KULVICIUS_2012_JOINING" 2 [0] [3] := by
    refine ⟨fun h => absurd h (by decide), fun _ => ⟨⟨_, hg, rfl, rfl, rfl, rfl, rfl, rfl⟩,
      ⟨_, hp, rfl, rfl, rfl, ⟨fun h => absurd h Bool.false_ne_true, fun h => absurd h hne⟩, (if_neg hne).symm⟩,
      _, hq, rfl, rfl, rfl, rfl, rfl, rfl, rfl⟩, fun _ h => absurd rfl h⟩
  obtain ⟨x, xd, s', h1, h2⟩ := C89_with_room_partial s 1 2 20 [0] [3] [] [some line] .gMinusY0
    "KULVICIUS_2012_JOINING" (fun _ => 1) hd ht (.inr (.inl rfl)) rfl rfl (fun h => by cases h)
    (fun i hi => by
      obtain rfl : i = 0 := by omega
      refine ⟨line, rfl, ?_⟩
      rw [if_pos rfl, line_predicts]
      norm_num)
  refine ⟨s, x, xd, s', hs, h1, ?_⟩
  have h3 := h2.acceleration 0 one_pos
  rw [if_neg (by decide)] at h3
  refine h3.trans ?_
  simp [factor]

/-! ### The gating system -/

/-- C89: the gate of the types with a time system closes as a sigmoid with the absolute rate 10 that is half
closed at the time 0.9 tau², so that when the movement ends at tau, the gate is more than half open if and
only if tau is larger than 10/9. -/
theorem C89_gate (s : Dmp) (dmpType : String) (tau t : ℝ) (y0 y1 : List ℝ) (q : Sigmoid)
    (ht : HasSystems s dmpType tau y0 y1)
    (hT : dmpType = "KULVICIUS_2012_JOINING" ∨ dmpType = "COUNTDOWN_2013")
    (hq : s.gating = some (.sigmoid q)) :
    q.xComp t 0 = (1 + Real.exp (-9 * tau ^ 2)) / (1 + Real.exp (10 * t - 9 * tau ^ 2)) ∧
    (q.xComp t 0 = q.ks.getD 0 0 / 2 ↔ t = 0.9 * tau ^ 2) ∧
    (0 < tau → (q.ks.getD 0 0 / 2 < q.xComp tau 0 ↔ 10 / 9 < tau)) := by
  obtain ⟨-, -, q', hq', -, -, -, Qi, Qr, -, Qk⟩ := ht.2.1 hT
  obtain rfl : q = q' := by
    have := hq.symm.trans hq'
    injection this with h
    injection h
  have curve : ∀ t, q.xComp t 0 =
      (1 + Real.exp (-9 * tau ^ 2)) / (1 + Real.exp (10 * t - 9 * tau ^ 2)) := fun t => by
    unfold Sigmoid.xComp
    simp only [Qi, Qr, Qk, List.getD_cons_zero, div_one, add_sub_cancel_left, ← Real.exp_add]
    congr 3
    ring
  have hk : q.ks.getD 0 0 = 1 + Real.exp (-9 * tau ^ 2) := by rw [Qk]; rfl
  have hpos : 0 < 1 + Real.exp (-9 * tau ^ 2) := by positivity
  refine ⟨curve t, ?_, fun h0 => ?_⟩
  · rw [curve, hk, div_eq_div_iff (by positivity) two_ne_zero]
    constructor
    · intro h
      have h1 := mul_left_cancel₀ hpos.ne' h
      have h2 : Real.exp (10 * t - 9 * tau ^ 2) = 1 := by linarith
      have h3 := (Real.exp_eq_one_iff _).mp h2
      linarith
    · rintro rfl
      rw [show 10 * (0.9 * tau ^ 2) - 9 * tau ^ 2 = 0 by ring, Real.exp_zero]
      ring
  · rw [curve, hk, div_lt_div_iff_of_pos_left hpos two_pos (by positivity)]
    have e : 1 + Real.exp (10 * tau - 9 * tau ^ 2) < 2 ↔ Real.exp (10 * tau - 9 * tau ^ 2) < 1 := by
      constructor <;> intro h <;> linarith
    rw [e, Real.exp_lt_one_iff]
    constructor
    · intro h
      nlinarith
    · intro h
      nlinarith

/-- Example: a movement of two seconds; when it ends, the gate is still open. -/
example : ∃ s q, makeType 2 [0] [1] [] "COUNTDOWN_2013" .noScaling [] = .ok s ∧
    s.gating = some (.sigmoid q) ∧ q.ks.getD 0 0 / 2 < q.xComp 2 0 := by
  obtain ⟨s, h1, -, h2⟩ := C89_make_type 2 [0] [1] [] "COUNTDOWN_2013" .noScaling [] (fun h => by cases h) (.inl rfl)
  obtain ⟨-, -, q, hq, -⟩ := h2.2.1 (.inr rfl)
  exact ⟨s, q, h1, hq, ((C89_gate s _ 2 2 _ _ q h2 (.inr rfl) hq).2.2 two_pos).mpr (by norm_num)⟩

/-- C89, in full: when the movement ends, the gate is closed to a tenth, as that of Python's Dmps. -/
def C89_gate_statement : Prop :=
  ∀ (tau : ℝ) (y0 y1 : List ℝ) (s : Dmp) (q : Sigmoid), 0 < tau →
    makeType tau y0 y1 [] "KULVICIUS_2012_JOINING" .noScaling [] = .ok s → s.gating = some (.sigmoid q) →
    q.xComp tau 0 = 0.1

theorem C89_gate_refuted : ¬C89_gate_statement := fun h => by
  obtain ⟨s, hs, -, ht⟩ := C89_make_type 2 [0] [1] [] "KULVICIUS_2012_JOINING" .noScaling []
    (fun h => by cases h) (.inl rfl)
  obtain ⟨-, -, q, hq, -, -, -, -, -, -, hk⟩ := ht.2.1 (.inl rfl)
  have h1 := h 2 [0] [1] s q two_pos hs hq
  have h2 := ((C89_gate s _ 2 2 [0] [1] q ht (.inl rfl) hq).2.2 two_pos).mpr (by norm_num)
  rw [h1, hk, List.getD_cons_zero] at h2
  norm_num at h2
  have := Real.exp_pos (-36)
  linarith

/-- C89: after set_tau, the gate is not that of a Dmp made with the new tau. -/
theorem C89_gate_set_tau (s s' : Dmp) (dmpType : String) (tau tau' : ℝ) (y0 y1 : List ℝ) (q q' : Sigmoid)
    (ht : HasSystems s dmpType tau y0 y1) (ht' : HasSystems s' dmpType tau' y0 y1)
    (hT : dmpType = "KULVICIUS_2012_JOINING" ∨ dmpType = "COUNTDOWN_2013") (h0 : tau' ≠ 0)
    (hq : s.gating = some (.sigmoid q)) (hq' : s'.gating = some (.sigmoid q')) :
    (q.setTau tau').ks = [1 + Real.exp (-9 * tau * tau')] ∧ ((q.setTau tau').ks = q'.ks ↔ tau = tau') := by
  obtain ⟨-, -, r, hr, -, -, -, Qi, Qr, Qf, -⟩ := ht.2.1 hT
  obtain ⟨-, -, r', hr', -, -, -, -, -, -, Qk⟩ := ht'.2.1 hT
  obtain rfl : q = r := by
    have := hq.symm.trans hr
    injection this with h
    injection h
  obtain rfl : q' = r' := by
    have := hq'.symm.trans hr'
    injection this with h
    injection h
  have e : (q.setTau tau').ks = [1 + Real.exp (-9 * tau * tau')] := by
    unfold Sigmoid.setTau Sigmoid.computeKs
    simp only [Qi, Qr, Qf, List.map_cons, List.map_nil, one_div, ← Real.exp_neg, one_mul]
    congr 3
    ring
  refine ⟨e, ?_⟩
  rw [e, Qk]
  constructor
  · intro h
    have h1 := (List.cons.inj h).1
    have h2 := Real.exp_injective (add_left_cancel h1)
    have h3 : tau * tau' = tau' * tau' := by linarith
    exact mul_right_cancel₀ h0 h3
  · rintro rfl
    congr 3
    ring

/-- Example: from one second to two. -/
example : ∃ s s' q q', makeType 1 [0] [1] [] "COUNTDOWN_2013" .noScaling [] = .ok s ∧
    makeType 2 [0] [1] [] "COUNTDOWN_2013" .noScaling [] = .ok s' ∧
    s.gating = some (.sigmoid q) ∧ s'.gating = some (.sigmoid q') ∧ (q.setTau 2).ks ≠ q'.ks := by
  obtain ⟨s, h1, -, h2⟩ := C89_make_type 1 [0] [1] [] "COUNTDOWN_2013" .noScaling [] (fun h => by cases h) (.inl rfl)
  obtain ⟨s', h1', -, h2'⟩ := C89_make_type 2 [0] [1] [] "COUNTDOWN_2013" .noScaling [] (fun h => by cases h)
    (.inl rfl)
  obtain ⟨-, -, q, hq, -⟩ := h2.2.1 (.inr rfl)
  obtain ⟨-, -, q', hq', -⟩ := h2'.2.1 (.inr rfl)
  refine ⟨s, s', q, q', h1, h1', hq, hq', fun h => ?_⟩
  have := (C89_gate_set_tau s s' _ 1 2 _ _ q q' h2 h2' (.inr rfl) two_ne_zero hq hq').2.mp h
  norm_num at this

/-- C89: phase systems, goal system and the gating of IJSPEERT_2002_MOVEMENT are those that C++ reads from a
Python Dmp of the same type. -/
theorem C89_same_as_python (dmpType : String) (tau : ℝ) (y0 y1 : List ℝ) (damping : Par ℝ) (D : Verif.Dmp.Defaults)
    (r : Option Exponential × Option AnySystem × Option AnySystem)
    (hT : dmpType = "IJSPEERT_2002_MOVEMENT" ∨ dmpType = "KULVICIUS_2012_JOINING" ∨ dmpType = "COUNTDOWN_2013")
    (hD : Verif.Dmp.defaults dmpType tau y0 y1 damping = .ok D) (hr : typeSystems dmpType tau y0 y1 = .ok r) :
    readSystem D.phase = .ok r.2.1 ∧ (dmpType = "IJSPEERT_2002_MOVEMENT" → readSystem D.gating = .ok r.2.2) ∧
    (D.goal = none ↔ r.1 = none) ∧ ∀ g, r.1 = some g → readGoal D.goal = .ok g := by
  rcases hT with h | h
  · subst h
    rw [typeSystems_ijspeert] at hr
    obtain rfl := Except.ok.inj hr
    unfold Verif.Dmp.defaults at hD
    rw [if_pos (.inl rfl)] at hD
    obtain rfl := Except.ok.inj hD
    have e : readSystem (.exponential (.init tau [1] [0] (.scalar 4))) =
        .ok (some (.exponential ⟨⟨tau, 1, 1, [1]⟩, [0], 4⟩)) := by
      change (readExponential _ >>= fun r => pure (some (AnySystem.exponential r))) = _
      have : readExponential (.init tau [1] [0] (.scalar 4)) = Exponential.make tau [1] [0] 4 := rfl
      rw [this, expo_make]
      rfl
    exact ⟨e, fun _ => e, ⟨fun _ => rfl, fun _ => rfl⟩, fun g h => by cases h⟩
  · have hn : dmpType ≠ "IJSPEERT_2002_MOVEMENT" := by rcases h with rfl | rfl <;> decide
    have hn2 : dmpType ≠ "Ijs02" := by rcases h with rfl | rfl <;> decide
    rw [typeSystems_time _ _ _ _ h] at hr
    obtain rfl := Except.ok.inj hr
    unfold Verif.Dmp.defaults at hD
    simp only at hD
    rw [if_neg (by tauto), if_pos (by tauto)] at hD
    obtain rfl := Except.ok.inj hD
    refine ⟨?_, fun h => absurd h hn, ⟨fun h => (Option.some_ne_none _ h).elim, fun h => (Option.some_ne_none _ h).elim⟩,
      fun g hg => ?_⟩
    · change (readTime _ >>= fun r => pure (some (AnySystem.time r))) = _
      unfold readTime TimeSystem.make
      rw [ofOrder_one]
      by_cases hc : dmpType = "COUNTDOWN_2013"
      · simp [hc, Verif.TimeSystem.init]
      · simp [hc, Verif.TimeSystem.init]
    · obtain rfl := Option.some.inj hg
      exact expo_make tau y0 y1 15

/-- Example: the goal system of a Python Dmp with two dimensions. -/
example (D : Verif.Dmp.Defaults) (h : Verif.Dmp.defaults "COUNTDOWN_2013" 1 [0, 0] [1, 2] (.scalar 20) = .ok D) :
    readGoal D.goal = .ok ⟨⟨1, 2, 2, [0, 0]⟩, [1, 2], 15⟩ :=
  (C89_same_as_python "COUNTDOWN_2013" 1 [0, 0] [1, 2] (.scalar 20) D _ (.inr (.inr rfl)) h
    (typeSystems_time _ _ _ _ (.inr rfl))).2.2.2 _ rfl

end Verif.Cpp.Dmp
