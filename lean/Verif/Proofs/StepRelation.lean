import Verif.Proofs.Integration

/- Helper lemmas: integration steps of related objects with related states are related. -/

set_option autoImplicit false

namespace Verif

theorem PyM.bind_inv {σ A B : Type} {m : PyM σ A} {f : A → PyM σ B} {s s' : σ} {b : B}
    (h : (m >>= f) s = (.ok b, s')) : ∃ a s1, m s = (.ok a, s1) ∧ f a s1 = (.ok b, s') := by
  rw [PyM.bind_apply] at h
  rcases hm : m s with ⟨r, s1⟩
  rw [hm] at h
  cases r with
  | ok a => exact ⟨a, s1, rfl, h⟩
  | error e => cases h

namespace DynSys

variable {σ τ : Type} [DynSys σ] [DynSys τ]

/-- A relation between vectors that linear combinations keep. -/
structure Linear (R : List ℝ → List ℝ → Prop) : Prop where
  add : ∀ {a b a' b' : List ℝ}, R a b → R a' b' → R (vadd a a') (vadd b b')
  scale : ∀ {a b : List ℝ} (c : ℝ), R a b → R (vscale c a) (vscale c b)
  divs : ∀ {a b : List ℝ} (c : ℝ), R a b → R (vdivs a c) (vdivs b c)

/-- For objects that are related by `I` and related vectors, the differential equations yield related
vectors (if both succeed), and the objects stay related. -/
def Simulates (I : σ → τ → Prop) (R : List ℝ → List ℝ → Prop) : Prop :=
  ∀ s t x y a b s' t', I s t → R x y → diffEq x s = (.ok a, s') → diffEq y t = (.ok b, t') →
    R a b ∧ I s' t'

variable {I : σ → τ → Prop} {R : List ℝ → List ℝ → Prop}

theorem step_related (hR : Linear R) (hI : Simulates I R) {s s' : σ} {t t' : τ} (h0 : I s t)
    {x y : List ℝ} (hxy : R x y) (m : Method) (dt : ℝ) {r q : List ℝ × List ℝ}
    (h1 : step m dt x s = (.ok r, s')) (h2 : step m dt y t = (.ok q, t')) :
    (R r.1 q.1 ∧ R r.2 q.2) ∧ I s' t' := by
  cases m with
  | euler =>
    change eulerStep dt x s = _ at h1
    change eulerStep dt y t = _ at h2
    unfold eulerStep at h1 h2
    rw [PyM.self_bind] at h1 h2
    by_cases e1 : x.length ≠ dimX s
    · rw [if_pos e1] at h1; cases h1
    by_cases e2 : y.length ≠ dimX t
    · rw [if_pos e2] at h2; cases h2
    rw [if_neg e1] at h1
    rw [if_neg e2] at h2
    obtain ⟨a, s1, p1, h1⟩ := PyM.bind_inv h1
    obtain ⟨b, t1, p2, h2⟩ := PyM.bind_inv h2
    cases h1; cases h2
    obtain ⟨k1, k2⟩ := hI _ _ _ _ _ _ _ _ h0 hxy p1 p2
    exact ⟨⟨hR.add hxy (hR.scale dt k1), k1⟩, k2⟩
  | rungeKutta =>
    change rungeKuttaStep dt x s = _ at h1
    change rungeKuttaStep dt y t = _ at h2
    unfold rungeKuttaStep at h1 h2
    rw [PyM.self_bind] at h1 h2
    by_cases e1 : x.length ≠ dimX s
    · rw [if_pos e1] at h1; cases h1
    by_cases e2 : y.length ≠ dimX t
    · rw [if_pos e2] at h2; cases h2
    rw [if_neg e1] at h1
    rw [if_neg e2] at h2
    obtain ⟨a1, s1, p1, h1⟩ := PyM.bind_inv h1
    obtain ⟨b1, t1, q1, h2⟩ := PyM.bind_inv h2
    obtain ⟨r1, i1⟩ := hI _ _ _ _ _ _ _ _ h0 hxy p1 q1
    obtain ⟨a2, s2, p2, h1⟩ := PyM.bind_inv h1
    obtain ⟨b2, t2, q2, h2⟩ := PyM.bind_inv h2
    obtain ⟨r2, i2⟩ := hI _ _ _ _ _ _ _ _ i1 (hR.add hxy (hR.scale _ r1)) p2 q2
    obtain ⟨a3, s3, p3, h1⟩ := PyM.bind_inv h1
    obtain ⟨b3, t3, q3, h2⟩ := PyM.bind_inv h2
    obtain ⟨r3, i3⟩ := hI _ _ _ _ _ _ _ _ i2 (hR.add hxy (hR.scale _ r2)) p3 q3
    obtain ⟨a4, s4, p4, h1⟩ := PyM.bind_inv h1
    obtain ⟨b4, t4, q4, h2⟩ := PyM.bind_inv h2
    obtain ⟨r4, i4⟩ := hI _ _ _ _ _ _ _ _ i3 (hR.add hxy (hR.scale _ r3)) p4 q4
    have hn := hR.add hxy (hR.divs 6 (hR.scale dt (hR.add (hR.add r1 (hR.scale 2 (hR.add r2 r3))) r4)))
    obtain ⟨a5, s5, p5, h1⟩ := PyM.bind_inv h1
    obtain ⟨b5, t5, q5, h2⟩ := PyM.bind_inv h2
    obtain ⟨r5, i5⟩ := hI _ _ _ _ _ _ _ _ i4 hn p5 q5
    cases h1; cases h2
    exact ⟨⟨hn, r5⟩, i5⟩

theorem loop_related (hR : Linear R) (hI : Simulates I R) (m : Method) (ts : List ℝ) :
    ∀ {s s' : σ} {t t' : τ} (_ : I s t) {x y : List ℝ} (_ : R x y) (t0 : ℝ)
      {r q : List (List ℝ × List ℝ)} (_ : integrateLoop m t0 x ts s = (.ok r, s'))
      (_ : integrateLoop m t0 y ts t = (.ok q, t')),
      List.Forall₂ (fun a b => R a.1 b.1 ∧ R a.2 b.2) r q ∧ I s' t' := by
  induction ts with
  | nil =>
    intro s s' t t' h0 x y _ t0 r q h1 h2
    cases h1; cases h2
    exact ⟨.nil, h0⟩
  | cons u ts ih =>
    intro s s' t t' h0 x y hxy t0 r q h1 h2
    unfold integrateLoop at h1 h2
    obtain ⟨a, s1, p1, h1⟩ := PyM.bind_inv h1
    obtain ⟨b, t1, p2, h2⟩ := PyM.bind_inv h2
    obtain ⟨k1, i1⟩ := step_related hR hI h0 hxy m _ p1 p2
    obtain ⟨ra, s2, q1, h1⟩ := PyM.bind_inv h1
    obtain ⟨rb, t2, q2, h2⟩ := PyM.bind_inv h2
    obtain ⟨k2, i2⟩ := ih i1 k1.1 u q1 q2
    cases h1; cases h2
    exact ⟨.cons k1 k2, i2⟩

end DynSys

end Verif
