import Verif.Proofs.StepRelation
import Verif.Proofs.Vec
import Verif.Model.CppSystems

/- Helper lemmas: if the differential equations of C++ and Python agree, then so do the steps. -/

set_option autoImplicit false

namespace Verif

namespace Cpp

theorem take_vadd (m : Nat) (a b : List ℝ) : (vadd a b).take m = vadd (a.take m) (b.take m) := by
  simp [vadd, List.take_zipWith]

theorem take_vscale (m : Nat) (c : ℝ) (a : List ℝ) : (vscale c a).take m = vscale c (a.take m) := by
  simp [vscale, List.map_take]

theorem take_vdivs (m : Nat) (c : ℝ) (a : List ℝ) : (vdivs a c).take m = vdivs (a.take m) c := by
  simp [vdivs, List.map_take]

variable {σ τ : Type} [System σ] [DynSys τ]

/-- Objects related by `R` have states of sizes `m` and `n`. The differential equation in C++ yields
the first entries of what that in Python yields (if that succeeds), and the objects stay related. -/
structure Mirror (R : σ → τ → Prop) (m n : Nat) : Prop where
  dimC : ∀ {c : σ} {s : τ}, R c s → (System.base c).dimX = m
  dimP : ∀ {c : σ} {s : τ}, R c s → DynSys.dimX s = n
  le : m ≤ n
  diffEq : ∀ {c : σ} {s s' : τ} {x xd : List ℝ}, R c s → x.length = n →
    DynSys.diffEq x s = (.ok xd, s') →
    xd.length = n ∧ ∃ c', System.diffEq (x.take m) c = .ok (xd.take m, c') ∧ R c' s'

theorem Mirror.step {R : σ → τ → Prop} {m n : Nat} (h : Mirror R m n) (k : DynSys.Method) {c : σ}
    {s s' : τ} {x : List ℝ} {r : List ℝ × List ℝ} {dt : ℝ} (hdt : 0 < dt) (hR : R c s)
    (hs : DynSys.step k dt x s = (.ok r, s')) :
    r.1.length = n ∧ r.2.length = n ∧
      ∃ c', step k dt (x.take m) c = .ok ((r.1.take m, r.2.take m), c') ∧ R c' s' := by
  have hm := h.le
  cases k with
  | euler =>
    change DynSys.eulerStep dt x s = _ at hs
    unfold DynSys.eulerStep at hs
    rw [PyM.self_bind] at hs
    by_cases e1 : x.length ≠ DynSys.dimX s
    · rw [if_pos e1] at hs; cases hs
    rw [if_neg e1] at hs
    have hx : x.length = n := by push Not at e1; rw [e1, h.dimP hR]
    obtain ⟨a, s1, p1, hs⟩ := PyM.bind_inv hs
    cases hs
    obtain ⟨l1, c1, q1, r1⟩ := h.diffEq hR hx p1
    refine ⟨by simp [hx, l1], l1, c1, ?_, r1⟩
    change System.eulerStep dt (x.take m) c = _
    unfold System.eulerStep
    rw [if_neg (not_le.mpr hdt), if_neg (by rw [h.dimC hR]; simp [hx, hm])]
    simp only [pure_bind]
    rw [q1]
    simp only [take_vadd, take_vscale]
    rfl
  | rungeKutta =>
    change DynSys.rungeKuttaStep dt x s = _ at hs
    unfold DynSys.rungeKuttaStep at hs
    rw [PyM.self_bind] at hs
    by_cases e1 : x.length ≠ DynSys.dimX s
    · rw [if_pos e1] at hs; cases hs
    rw [if_neg e1] at hs
    have hx : x.length = n := by push Not at e1; rw [e1, h.dimP hR]
    obtain ⟨k1, s1, p1, hs⟩ := PyM.bind_inv hs
    obtain ⟨k2, s2, p2, hs⟩ := PyM.bind_inv hs
    obtain ⟨k3, s3, p3, hs⟩ := PyM.bind_inv hs
    obtain ⟨k4, s4, p4, hs⟩ := PyM.bind_inv hs
    obtain ⟨xd, s5, p5, hs⟩ := PyM.bind_inv hs
    cases hs
    obtain ⟨l1, c1, q1, r1⟩ := h.diffEq hR hx p1
    obtain ⟨l2, c2, q2, r2⟩ := h.diffEq r1 (by simp [hx, l1]) p2
    obtain ⟨l3, c3, q3, r3⟩ := h.diffEq r2 (by simp [hx, l2]) p3
    obtain ⟨l4, c4, q4, r4⟩ := h.diffEq r3 (by simp [hx, l3]) p4
    obtain ⟨l5, c5, q5, r5⟩ := h.diffEq r4 (by simp [hx, l1, l2, l3, l4]) p5
    refine ⟨by simp [hx, l1, l2, l3, l4], l5, c5, ?_, r5⟩
    change System.rungeKuttaStep dt (x.take m) c = _
    unfold System.rungeKuttaStep
    rw [if_neg (not_le.mpr hdt), if_neg (by rw [h.dimC hR]; simp [hx, hm])]
    simp only [pure_bind]
    simp only [take_vadd, take_vscale, take_vdivs] at q2 q3 q4 q5 ⊢
    rw [q1]
    change (System.diffEq _ c1 >>= _) = _
    rw [q2]
    change (System.diffEq _ c2 >>= _) = _
    rw [q3]
    change (System.diffEq _ c3 >>= _) = _
    rw [q4]
    change (System.diffEq _ c4 >>= _) = _
    rw [q5]
    rfl

theorem Mirror.start {R : σ → τ → Prop} {m n : Nat} (h : Mirror R m n) {c : σ} {s s' : τ}
    {r : List ℝ × List ℝ} (hR : R c s) (hx : (DynSys.xInit s).length = n)
    (hi : (System.base c).xInit = (DynSys.xInit s).take m)
    (hs : DynSys.integrateStart none s = (.ok r, s')) :
    ∃ c', System.integrateStart c = .ok ((r.1.take m, r.2.take m), c') ∧ R c' s' := by
  unfold DynSys.integrateStart at hs
  simp only [pure_bind] at hs
  rw [PyM.self_bind] at hs
  obtain ⟨xd, s1, p1, hs⟩ := PyM.bind_inv hs
  cases hs
  obtain ⟨_, c1, q1, r1⟩ := h.diffEq hR hx p1
  refine ⟨c1, ?_, r1⟩
  unfold System.integrateStart
  simp only [hi]
  rw [q1]
  rfl

theorem Mirror.steps {R : σ → τ → Prop} {m n : Nat} (h : Mirror R m n) (k : DynSys.Method) :
    ∀ (ts : List ℝ) (t0 : ℝ) (c : σ) (s s' : τ) (x : List ℝ) (rows : List (List ℝ × List ℝ)),
    (t0 :: ts).Pairwise (· < ·) → R c s →
    DynSys.integrateLoop k t0 x ts s = (.ok rows, s') →
    ∃ c', steps k t0 (x.take m) c ts = .ok (rows.map fun r => (r.1.take m, r.2.take m), c') ∧
      R c' s' := by
  intro ts
  induction ts with
  | nil =>
    intro t0 c s s' x rows _ hR hs
    cases hs
    exact ⟨c, rfl, hR⟩
  | cons t ts ih =>
    intro t0 c s s' x rows hp hR hs
    unfold DynSys.integrateLoop at hs
    obtain ⟨r, s1, p1, hs⟩ := PyM.bind_inv hs
    obtain ⟨rest, s2, p2, hs⟩ := PyM.bind_inv hs
    cases hs
    rw [List.pairwise_cons] at hp
    have hdt : 0 < t - t0 := sub_pos.mpr (hp.1 t List.mem_cons_self)
    obtain ⟨_, _, c1, q1, r1⟩ := h.step k hdt hR p1
    obtain ⟨c2, q2, r2⟩ := ih t c1 s1 _ r.1 rest hp.2 r1 p2
    refine ⟨c2, ?_, r2⟩
    unfold Cpp.steps
    rw [q1]
    change (Cpp.steps k t (r.1.take m) c1 ts >>= _) = _
    rw [q2]
    rfl

theorem Mirror.run {R : σ → τ → Prop} {m n : Nat} (h : Mirror R m n) (k : DynSys.Method) {t0 : ℝ}
    {ts : List ℝ} {c : σ} {s s' : τ} {rows : List (List ℝ × List ℝ)} (hR : R c s)
    (hx : (DynSys.xInit s).length = n) (hi : (System.base c).xInit = (DynSys.xInit s).take m)
    (hp : (t0 :: ts).Pairwise (· < ·)) (hs : DynSys.integrate (t0 :: ts) k s = (.ok rows, s')) :
    ∃ c', run k (t0 :: ts) c = .ok (rows.map fun r => (r.1.take m, r.2.take m), c') ∧ R c' s' := by
  unfold DynSys.integrate at hs
  obtain ⟨r0, s1, p1, hs⟩ := PyM.bind_inv hs
  obtain ⟨rest, s2, p2, hs⟩ := PyM.bind_inv hs
  cases hs
  obtain ⟨c1, q1, r1⟩ := h.start hR hx hi p1
  obtain ⟨c2, q2, r2⟩ := h.steps k ts t0 c1 s1 _ r0.1 rest hp r1 p2
  refine ⟨c2, ?_, r2⟩
  unfold Cpp.run
  rw [q1]
  change (Cpp.steps k t0 (r0.1.take m) c1 ts >>= _) = _
  rw [q2]
  rfl

end Cpp

end Verif
