import Verif.Model.CppDmp
import Verif.Proofs.DmpAnalytical
import Verif.Proofs.DmpKept
import Verif.Props.CppApproximators
import Verif.Props.CppSystems

/- Helper lemmas: a Dmp in C++ and in Python. -/

set_option autoImplicit false

namespace Verif

namespace Cpp

namespace Dmp

/-! ### Segments -/

theorem seg_mid {a b c : List ℝ} {i n : Nat} (ha : a.length = i) (hb : b.length = n) :
    seg (a ++ b ++ c) i n = .ok b := by
  subst ha hb
  rw [seg, if_neg (by simp)]
  simp

theorem putSeg_mid {a b c v : List ℝ} {i n : Nat} (ha : a.length = i) (hb : b.length = n)
    (hv : v.length = n) : putSeg (a ++ b ++ c) i n v = .ok (a ++ v ++ c) := by
  subst ha hb
  rw [putSeg, if_neg (by simp), if_neg (by simpa using hv)]
  simp [List.drop_append, List.take_append]

/-- The state of a Dmp in C++ from its parts. -/
def cpack (y z g p q : List ℝ) : List ℝ := y ++ z ++ g ++ p ++ q

/-- The parts have the right sizes. -/
structure CSizes (d : Nat) (y z g p q : List ℝ) : Prop where
  y : y.length = d
  z : z.length = d
  g : g.length = d
  p : p.length = 1
  q : q.length = 1

theorem _root_.Verif.Dmp.Sizes.csizes {d : Nat} {y z g p q c : List ℝ}
    (h : Verif.Dmp.Sizes d y z g p q c) : CSizes d y z g p q := ⟨h.y, h.z, h.g, h.p, h.q⟩

theorem CSizes.length {d : Nat} {y z g p q : List ℝ} (h : CSizes d y z g p q) :
    (cpack y z g p q).length = 3 * d + 2 := by
  obtain ⟨h1, h2, h3, h4, h5⟩ := h
  simp only [cpack, List.length_append]; omega

theorem take_pack {d : Nat} {y z g p q c : List ℝ} (h : CSizes d y z g p q) :
    (Verif.Dmp.pack y z g p q c).take (3 * d + 2) = cpack y z g p q := by
  have e : Verif.Dmp.pack y z g p q c = cpack y z g p q ++ c := rfl
  rw [e, List.take_left' h.length]

theorem zeros_cpack (d : Nat) : (vzeros (3 * d + 2) : List ℝ) =
    cpack (vzeros d) (vzeros d) (vzeros d) (vzeros 1) (vzeros 1) := by
  simp only [cpack, vzeros, List.replicate_append_replicate]
  congr 1; omega

theorem zeros_csizes (d : Nat) :
    CSizes d (vzeros d) (vzeros d) (vzeros d) (vzeros 1) (vzeros 1) := by
  constructor <;> simp

section
variable {d : Nat} {y z g p q : List ℝ} (h : CSizes d y z g p q)
include h

theorem CSizes.seg_spring : seg (cpack y z g p q) (0 * d + 0) (2 * d) = .ok (y ++ z) := by
  have e : cpack y z g p q = [] ++ (y ++ z) ++ (g ++ p ++ q) := by simp [cpack]
  rw [e]; exact seg_mid (by simp) (by simp [h.y, h.z]; omega)

theorem CSizes.seg_y : seg (cpack y z g p q) (0 * d + 0) d = .ok y := by
  have e : cpack y z g p q = [] ++ y ++ (z ++ g ++ p ++ q) := by simp [cpack]
  rw [e]; exact seg_mid (by simp) h.y

theorem CSizes.seg_z : seg (cpack y z g p q) (1 * d + 0) d = .ok z := by
  have e : cpack y z g p q = y ++ z ++ (g ++ p ++ q) := by simp [cpack]
  rw [e]; exact seg_mid (by simp [h.y]) h.z

theorem CSizes.seg_goal : seg (cpack y z g p q) (2 * d + 0) d = .ok g := by
  have e : cpack y z g p q = (y ++ z) ++ g ++ (p ++ q) := by simp [cpack]
  rw [e]; exact seg_mid (by simp [h.y, h.z]; omega) h.g

theorem CSizes.seg_phase : seg (cpack y z g p q) (3 * d + 0) 1 = .ok p := by
  have e : cpack y z g p q = (y ++ z ++ g) ++ p ++ q := by simp [cpack]
  rw [e]; exact seg_mid (by simp [h.y, h.z, h.g]; omega) h.p

theorem CSizes.seg_gating : seg (cpack y z g p q) (3 * d + 1) 1 = .ok q := by
  have e : cpack y z g p q = (y ++ z ++ g ++ p) ++ q ++ [] := by simp [cpack]
  rw [e]; exact seg_mid (by simp [h.y, h.z, h.g, h.p]; omega) h.q

theorem CSizes.put_spring {u v : List ℝ} (hu : u.length = d) (hv : v.length = d) :
    putSeg (cpack y z g p q) (0 * d + 0) (2 * d) (u ++ v) = .ok (cpack u v g p q) := by
  have e : cpack y z g p q = [] ++ (y ++ z) ++ (g ++ p ++ q) := by simp [cpack]
  rw [e]
  refine (putSeg_mid (by simp) (by simp [h.y, h.z]; omega) (by simp [hu, hv]; omega)).trans ?_
  simp [cpack]

theorem CSizes.put_z {v : List ℝ} (hv : v.length = d) :
    putSeg (cpack y z g p q) (1 * d + 0) d v = .ok (cpack y v g p q) := by
  have e : cpack y z g p q = y ++ z ++ (g ++ p ++ q) := by simp [cpack]
  rw [e]
  refine (putSeg_mid (by simp [h.y]) h.z hv).trans ?_
  simp [cpack]

theorem CSizes.put_goal {v : List ℝ} (hv : v.length = d) :
    putSeg (cpack y z g p q) (2 * d + 0) d v = .ok (cpack y z v p q) := by
  have e : cpack y z g p q = (y ++ z) ++ g ++ (p ++ q) := by simp [cpack]
  rw [e]
  refine (putSeg_mid (by simp [h.y, h.z]; omega) h.g hv).trans ?_
  simp [cpack]

theorem CSizes.put_phase {v : List ℝ} (hv : v.length = 1) :
    putSeg (cpack y z g p q) (3 * d + 0) 1 v = .ok (cpack y z g v q) := by
  have e : cpack y z g p q = (y ++ z ++ g) ++ p ++ q := by simp [cpack]
  rw [e]
  refine (putSeg_mid (by simp [h.y, h.z, h.g]; omega) h.p hv).trans ?_
  simp [cpack]

theorem CSizes.put_gating {v : List ℝ} (hv : v.length = 1) :
    putSeg (cpack y z g p q) (3 * d + 1) 1 v = .ok (cpack y z g p v) := by
  have e : cpack y z g p q = (y ++ z ++ g ++ p) ++ q ++ [] := by simp [cpack]
  rw [e]
  refine (putSeg_mid (by simp [h.y, h.z, h.g, h.p]; omega) h.q hv).trans ?_
  simp [cpack]

end

/-! ### Objects with the same parameters -/

/-- The function approximators for the first `n` dimensions have been read. -/
def SameFas (n : Nat) (c : List (Option AnyFa)) (l : List Fa) : Prop :=
  ∀ i, i < n → ∃ fa ca, l[i]? = some fa ∧ c[i]? = some (some ca) ∧ readFa fa = .ok (some ca)

/-- A C++ Dmp and a Python Dmp have the same parameters, and the Python Dmp has no features that C++ does
not have. The goal of the spring-damper systems is set before it is used. -/
structure Matches (c : Dmp) (s : Verif.Dmp) : Prop where
  wf : s.Wf
  tau : c.tau = s.tau
  dimX : c.dimX = 3 * s.dimY + 2
  dimY : c.dimY = s.dimY
  yAttr : c.yAttr = s.yAttr
  yInit : ∃ y, s.yInit? = some y ∧ c.xInit = y ++ vzeros (2 * s.dimY + 2) ∧
    s.spring.xInit = y ++ vzeros s.dimY
  noDamping : s.damping = none
  noScaling : s.requiresScaling = false
  spring : SpringTwin c.spring { s.spring with yAttr := c.spring.yAttr }
  springAttr : c.spring.yAttr.length = s.dimY
  springTau : s.spring.tau = s.tau
  goal : ∃ cg sg, c.goal = some cg ∧ s.goal = some (.exponential sg) ∧
    Twin (.exponential cg) (.exponential sg) ∧ sg.tau = s.tau ∧ s.yInit? = some sg.xInit ∧
    sg.xAttr = s.yAttr
  phase : ∃ cp, c.phase = some cp ∧ Twin cp s.phase
  phaseTau : s.phase.base.tau = s.tau
  gating : ∃ cq, c.gating = some cq ∧ Twin cq s.gating
  gatingTau : s.gating.base.tau = s.tau
  fas : ∃ l, s.fas = some l ∧ SameFas s.dimY c.fas l
  scaling : c.scaling = s.scaling
  amplitudes : c.amplitudes = s.amplitudes.getD []

/-- The spring-damper system of a C++ Dmp is the one that `analyticalSolution` makes from the damping
coefficient. -/
structure Critical (c : Dmp) : Prop where
  spring : c.spring.spring = c.spring.damping * c.spring.damping / 4
  mass : c.spring.mass = 1

theorem Matches.yInit_eq {c : Dmp} {s : Verif.Dmp} (h : Matches c s) : s.yInit? = some c.yInit := by
  obtain ⟨y, h1, h2, _⟩ := h.yInit
  have hl := h.wf.yInit y h1
  rw [h1, Cpp.Dmp.yInit, h2, h.dimY, List.take_left' hl]

theorem scaleForcing_eq {c : Dmp} {s : Verif.Dmp} (h : Matches c s) {f r : List ℝ}
    (hf : f.length = s.dimY) (hr : s.scaleForcing f = .ok r) : c.scaleForcing f = .ok r := by
  have hy := h.yInit_eq
  unfold Verif.Dmp.scaleForcing at hr
  unfold scaleForcing
  rw [h.scaling]
  cases e : s.scaling with
  | noScaling => rw [e] at hr; cases hr; rfl
  | gMinusY0 =>
    rw [e] at hr
    simp only [Verif.Dmp.getYInit, hy] at hr
    cases hr
    simp only [h.yAttr]
    rw [if_neg (by rw [h.wf.yAttr, h.wf.yInit _ hy]; simp)]
  | amplitude =>
    rw [e] at hr
    cases e2 : s.amplitudes with
    | none => rw [e2] at hr; cases hr
    | some a =>
      rw [e2] at hr
      cases hr
      simp only [h.amplitudes, e2, Option.getD_some]
      rw [if_neg (by rw [hf, h.wf.amplitudes a e2]; simp)]

/-! ### Function approximators -/

theorem predictions_some {s : Verif.Dmp} {c : List (Option AnyFa)} {l : List Fa} (hl : s.fas = some l)
    (h : SameFas s.dimY c l) (ps : List ℝ) : s.predictions ps = (do
      let cols ← (List.range s.dimY).mapM (Verif.Dmp.faColumn l ps)
      return (List.range ps.length).map fun t => cols.map fun c => c.getD t 0) := by
  unfold Verif.Dmp.predictions
  rw [hl]
  cases l with
  | cons a l => rfl
  | nil =>
    have h0 : s.dimY = 0 := by
      by_contra hne
      obtain ⟨fa, _, h1, _⟩ := h 0 (Nat.pos_of_ne_zero hne)
      simp at h1
    simp only [h0, List.range_zero]
    change _ = Except.ok _
    congr 1
    apply List.ext_getElem
    · simp
    · intro i h1 h2
      simp [vzeros]

theorem mapM_match {α β γ : Type} {f : α → CppResult β} {g : α → Except PyErr γ} {F : γ → β} :
    ∀ (l : List α) (r : List γ),
    (∀ a ∈ l, ∀ r, g a = .ok r → f a = .ok (F r)) → l.mapM g = .ok r → l.mapM f = .ok (r.map F) := by
  intro l
  induction l with
  | nil => intro r _ hr; cases hr; rfl
  | cons a l ih =>
    intro r hm hr
    rw [List.mapM_cons] at hr ⊢
    obtain ⟨b, h1, hr⟩ := except_bind_ok hr
    obtain ⟨rs, h2, hr⟩ := except_bind_ok hr
    cases hr
    rw [hm a List.mem_cons_self b h1, ih rs (fun a ha => hm a (List.mem_cons_of_mem _ ha)) h2]
    rfl

theorem ok_bind {α β : Type} (a : α) (f : α → CppResult β) : (Except.ok a >>= f) = f a := rfl

/-- Outputs of the function approximators for one phase. -/
theorem outputs_eq {c : Dmp} {s : Verif.Dmp} (h : Matches c s) {p : List ℝ} (hp : p.length = 1)
    {fa : List (List ℝ)} (hf : s.predictions p = .ok fa) :
    ((List.range s.dimY).mapM fun i => do (← c.fa i).predictRealTime fun j : Fin 1 => p.getD j 0) =
      .ok (fa.getD 0 []) := by
  obtain ⟨p0, rfl⟩ := List.length_eq_one_iff.mp hp
  obtain ⟨l, hl, hsame⟩ := h.fas
  rw [predictions_some hl hsame] at hf
  obtain ⟨cols, h1, h2⟩ := except_bind_ok hf
  cases h2
  refine (mapM_match (F := fun c : List ℝ => c.getD 0 0) _ _ ?_ h1).trans ?_
  · intro i hi r hr
    obtain ⟨fa, ca, e1, e2, e3⟩ := hsame i (List.mem_range.mp hi)
    have hm : fa.model.isSome := by
      cases hm : fa.model with
      | some m => rfl
      | none => exact ((C65_read_fa fa (fun (_ : Fin 1) (_ : Fin 1) => (0 : ℝ))).2 hm ca e3).elim
    unfold Verif.Dmp.faColumn at hr
    simp only [e1, hm, if_true] at hr
    obtain ⟨out, h3, h4⟩ := except_bind_ok hr
    cases h4
    have e4 : c.fa i = .ok ca := by
      unfold Cpp.Dmp.fa
      rw [List.getD_eq_getElem?_getD, e2]
      rfl
    rw [e4]
    refine (C65_predictRealTime e3 _ _).mpr ?_
    have hin : (fun _ : Fin 1 => fun j : Fin 1 => [p0].getD j 0) =
        fun (t : Fin [p0].length) (_ : Fin 1) => [p0][t] := by
      funext t j
      have hj : j = (0 : Fin 1) := Subsingleton.elim (α := Fin 1) j 0
      have ht : t = (0 : Fin 1) := Subsingleton.elim (α := Fin 1) t 0
      subst hj ht
      rfl
    refine (congrArg (fun i => fa.predict (N := 1) (d := 1) i) hin).trans (h3.trans ?_)
    congr 1
    funext t
    have ht : t = (0 : Fin 1) := Subsingleton.elim (α := Fin 1) t 0
    subst ht
    rfl
  · rfl

theorem forcing_parts {s : Verif.Dmp} {p q f : List ℝ} (hf : s.forcing p q = .ok f) :
    ∃ fa, s.predictions p = .ok fa ∧ s.scaleForcing (vscale (q.getD 0 0) (fa.getD 0 [])) = .ok f :=
  except_bind_ok hf

/-! ### The differential equation -/

/-- The C++ object after differentialEquation: `g` is the goal. -/
def stepped (c : Dmp) (g : List ℝ) : Dmp :=
  { c with
    goal := c.goal.map fun e => { e with xAttr := c.yAttr }
    spring := { c.spring with yAttr := g } }

theorem Matches.springGoal {c : Dmp} {s : Verif.Dmp} (h : Matches c s) (g : List ℝ) :
    s.springGoal g = .ok g := by
  obtain ⟨cg, sg, _, h2, _⟩ := h.goal
  simp [Verif.Dmp.springGoal, h2, Verif.Dmp.scaleGoal, h.noScaling]

theorem zRates {c : Dmp} {s : Verif.Dmp} (h : Matches c s) {y z g f : List ℝ} (cc : List ℝ)
    (hy : y.length = s.dimY) (hf : f.length = s.dimY) :
    ({ s.spring with yAttr := g } : SpringDamper).diffEq (y ++ z) =
      vdivs z s.spring.tau ++ (List.range s.dimY).map
        (({ s.spring with yAttr := g } : SpringDamper).zdComp y z) ∧
    vadd ((List.range s.dimY).map (({ s.spring with yAttr := g } : SpringDamper).zdComp y z))
        (vdivs f s.tau) =
      (List.range s.dimY).map (s.zRate g (s.dampingAt cc) f y z) := by
  have hd := h.wf.springDim
  constructor
  · rw [Verif.Dmp.spring_diffEq (by rw [hy]; exact hd.symm)]
    simp only [hd]
  · apply ext_getD 0
    · simp [hf]
    · intro j hj
      have hj' : j < s.dimY := by simpa [hf] using hj
      rw [getD_vadd (by simpa using hj') (by simpa [hf] using hj'), getD_range_map hj',
        getD_range_map hj', getD_vdivs]
      simp only [SpringDamper.zdComp, Verif.Dmp.zRate, Verif.Dmp.dampingAt, h.noDamping]

theorem SpringTwin.aim {c : Spring} {s : SpringDamper} {a : List ℝ}
    (h : SpringTwin c { s with yAttr := a }) (g : List ℝ) :
    SpringTwin { c with yAttr := g } { s with yAttr := g } :=
  ⟨h.base, rfl, h.damping, h.spring, h.mass⟩

theorem spring_aim {c : Dmp} {s : Verif.Dmp} (h : Matches c s) {g : List ℝ} (hg : g.length = s.dimY) :
    c.spring.setYAttr g = .ok { c.spring with yAttr := g } := by
  rw [Spring.setYAttr, if_neg]
  have h1 : c.spring.dimX = s.spring.dimX := h.spring.base.dimX
  rw [h1, h.wf.spring.dim, h.wf.springDim, hg]
  omega

theorem spring_wf {c : Dmp} {s : Verif.Dmp} (h : Matches c s) {g : List ℝ} (hg : g.length = s.dimY) :
    ({ s.spring with yAttr := g } : SpringDamper).Wf :=
  ⟨h.wf.spring.dim, h.wf.spring.xInit, hg.trans h.wf.springDim.symm, h.wf.spring.damping,
    h.wf.spring.spring, h.wf.spring.mass⟩

theorem spring_rate {c : Dmp} {s : Verif.Dmp} (h : Matches c s) {y z g : List ℝ}
    (hy : y.length = s.dimY) (hz : z.length = s.dimY) (hg : g.length = s.dimY) :
    Spring.diffEq (y ++ z) { c.spring with yAttr := g } =
      .ok (({ s.spring with yAttr := g } : SpringDamper).diffEq (y ++ z)) := by
  refine SpringTwin.diffEq (spring_wf h hg) (SpringTwin.aim h.spring g) ?_
  simp [hy, hz, h.wf.spring.dim, h.wf.springDim]

theorem goal_rate {c : Exponential} {s : Verif.Dmp} {sg : Verif.Exponential} (w : s.Wf)
    (hsg : s.goal = some (.exponential sg)) (ht : Twin (.exponential c) (.exponential sg)) {g : List ℝ}
    (hg : g.length = s.dimY) :
    c.setXAttr s.yAttr = .ok { c with xAttr := s.yAttr } ∧
    Exponential.diffEq g { c with xAttr := s.yAttr } = .ok (s.goalRate g) := by
  have hx := w.goalDim _ hsg
  have hd := (w.goal _ hsg).dim
  constructor
  · rw [Exponential.setXAttr, if_neg]
    have : c.dimX = sg.dimX := ht.1.dimX
    rw [this, w.yAttr]
    exact fun hn => hn hx.symm
  · have ht' : Twin (.exponential { c with xAttr := s.yAttr })
        ((Sub.exponential sg).withAttr s.yAttr) := ⟨ht.1, rfl, ht.2.2⟩
    have hw := Sub.wf_withAttr (w.goal _ hsg) (y := s.yAttr) (by rw [w.yAttr, ← hd, hx])
    have := ht'.diffEq hw (x := g) (by simpa [hx] using hg)
    simp only [Verif.Dmp.goalRate, hsg]
    exact this

theorem diffEq_eq {c : Dmp} {s : Verif.Dmp} (h : Matches c s) {y z g p q cc xd : List ℝ}
    (hs : Verif.Dmp.Sizes s.dimY y z g p q cc) (hv : s.vf y z g p q cc = .ok xd) :
    xd.length = 4 * s.dimY + 2 ∧
      diffEq (cpack y z g p q) c = .ok (xd.take (3 * s.dimY + 2), c.stepped g) := by
  have w := h.wf
  refine ⟨(Verif.Dmp.vf_length w hs hv).trans w.dimX, ?_⟩
  obtain ⟨ga, e1, hv⟩ := except_bind_ok hv
  rw [h.springGoal] at e1
  cases e1
  obtain ⟨f, e2, hv⟩ := except_bind_ok hv
  cases hv
  have lf := Verif.Dmp.forcing_length w hs.p e2
  obtain ⟨fa, e3, e4⟩ := forcing_parts e2
  have lfa : (fa.getD 0 []).length = s.dimY := by
    obtain ⟨l1, l2⟩ := Verif.Dmp.predictions_length e3
    rw [hs.p] at l1
    obtain ⟨r, rfl⟩ := List.length_eq_one_iff.mp l1
    simpa using l2
  obtain ⟨cg, sg, hcg, hsg, tg, _⟩ := h.goal
  obtain ⟨cp, hcp, tp⟩ := h.phase
  obtain ⟨cq, hcq, tq⟩ := h.gating
  have lp : (s.phase.rate p).length = 1 := by
    rw [Sub.length_rate w.phase (hs.p.trans w.phaseDim.symm), w.phaseDim]
  have lq : (s.gating.rate q).length = 1 := by
    rw [Sub.length_rate w.gating (hs.q.trans w.gatingDim.symm), w.gatingDim]
  have lg := Verif.Dmp.goalRate_length w hs.g
  obtain ⟨g1, g2⟩ := goal_rate w hsg tg hs.g
  obtain ⟨z1, z2⟩ := zRates (z := z) (g := g) h cc hs.y lf
  have lz : (vdivs z s.spring.tau).length = s.dimY := by simp [hs.z]
  have hc := hs.csizes
  have h0 := zeros_csizes s.dimY
  have h1 : CSizes s.dimY (vzeros s.dimY) (vzeros s.dimY) (s.goalRate g) (vzeros 1) (vzeros 1) :=
    ⟨h0.y, h0.z, lg, h0.p, h0.q⟩
  have h2 : CSizes s.dimY (vdivs z s.spring.tau) ((List.range s.dimY).map
      (({ s.spring with yAttr := g } : SpringDamper).zdComp y z)) (s.goalRate g) (vzeros 1) (vzeros 1) :=
    ⟨lz, by simp, lg, h0.p, h0.q⟩
  have h3 : CSizes s.dimY (vdivs z s.spring.tau) ((List.range s.dimY).map
      (({ s.spring with yAttr := g } : SpringDamper).zdComp y z)) (s.goalRate g) (s.phase.rate p)
      (vzeros 1) := ⟨lz, by simp, lg, lp, h0.q⟩
  have h4 : CSizes s.dimY (vdivs z s.spring.tau) ((List.range s.dimY).map
      (({ s.spring with yAttr := g } : SpringDamper).zdComp y z)) (s.goalRate g) (s.phase.rate p)
      (s.gating.rate q) := ⟨lz, by simp, lg, lp, lq⟩
  have h5 : CSizes s.dimY (vdivs z s.spring.tau) ((List.range s.dimY).map
      (s.zRate g (s.dampingAt cc) f y z)) (s.goalRate g) (s.phase.rate p)
      (s.gating.rate q) := ⟨lz, by simp, lg, lp, lq⟩
  rw [take_pack h5]
  have hput := h1.put_spring lz (v := (List.range s.dimY).map
      (({ s.spring with yAttr := g } : SpringDamper).zdComp y z)) (by simp)
  unfold diffEq
  simp only [h.dimX, h.dimY, hcg, h.yAttr, g1, zeros_cpack, hc.seg_goal, hc.seg_spring, hc.seg_phase,
    hc.seg_gating, g2, h0.put_goal lg, spring_aim h hs.g, spring_rate h hs.y hs.z hs.g, z1,
    hput, hcp, hcq, deref,
    tp.diffEq w.phase (hs.p.trans w.phaseDim.symm), tq.diffEq w.gating (hs.q.trans w.gatingDim.symm),
    h2.put_phase lp, h3.put_gating lq, h4.seg_z, ok_bind, pure_bind,
    outputs_eq h hs.p e3]
  have hputz := h4.put_z (v := (List.range s.dimY).map (s.zRate g (s.dampingAt cc) f y z)) (by simp)
  rw [scaleForcing_eq h (by simpa using lfa) e4]
  simp only [ok_bind, h.tau, z2, hputz, stepped, hcg, hcp, hcq, h.yAttr]
  rfl

/-- Attractors of the goal system and the spring-damper system change during integration. -/
theorem Matches.update {c : Dmp} {s : Verif.Dmp} (h : Matches c s) {cg : Exponential}
    {sg : Verif.Exponential} (hcg : c.goal = some cg) (hsg : s.goal = some (.exponential sg))
    {a g : List ℝ} (ha : a = s.yAttr) (hg : g.length = s.dimY) :
    Matches { c with goal := some { cg with xAttr := a }, spring := { c.spring with yAttr := g } }
      { s with
        goal := some (.exponential { sg with xAttr := a })
        phase := s.phase.touch
        gating := s.gating.touch
        spring := { s.spring with yAttr := g } } := by
  have w := h.wf
  obtain ⟨cg', sg', hcg', hsg', tg, htau, hinit, hattr⟩ := h.goal
  rw [hcg] at hcg'
  rw [hsg] at hsg'
  cases hcg'
  cases hsg'
  have hx := w.goalDim _ hsg
  have hy : a.length = (Sub.exponential sg).base.dimY := by
    rw [ha, w.yAttr, ← (w.goal _ hsg).dim, hx]
  refine ⟨?_, h.tau, h.dimX, h.dimY, h.yAttr, h.yInit, h.noDamping, h.noScaling, SpringTwin.aim h.spring g,
    hg, h.springTau, ?_, ?_, ?_, ?_, ?_, h.fas, h.scaling, h.amplitudes⟩
  · refine ⟨w.dimX, w.yAttr, w.yInit, ?_, w.springDim, Sub.wf_touch w.phase, ?_, Sub.wf_touch w.gating, ?_,
      ?_, ?_, ?_, ?_, w.amplitudes⟩
    · exact spring_wf h hg
    · simpa using w.phaseDim
    · simpa using w.gatingDim
    · rintro g' ⟨⟩
      exact Sub.wf_withAttr (w.goal _ hsg) hy
    · rintro g' ⟨⟩
      exact hx
    · intro g' hg'
      simp [h.noDamping] at hg'
    · intro g' hg'
      simp [h.noDamping] at hg'
  · exact ⟨{ cg with xAttr := a }, { sg with xAttr := a }, rfl, rfl, ⟨tg.1, rfl, tg.2.2⟩, htau, hinit, ha⟩
  · obtain ⟨cp, hcp, tp⟩ := h.phase
    refine ⟨cp, hcp, ?_⟩
    change Twin cp s.phase.touch
    revert tp
    cases cp <;> cases s.phase <;> exact id
  · simpa using h.phaseTau
  · obtain ⟨cp, hcp, tp⟩ := h.gating
    refine ⟨cp, hcp, ?_⟩
    change Twin cp s.gating.touch
    revert tp
    cases cp <;> cases s.gating <;> exact id
  · simpa using h.gatingTau

theorem Matches.stepped {c : Dmp} {s : Verif.Dmp} (h : Matches c s) {g : List ℝ} (cc : List ℝ)
    (hg : g.length = s.dimY) : Matches (c.stepped g) (s.touched g cc) := by
  obtain ⟨cg, sg, hcg, hsg, -⟩ := h.goal
  have e1 : c.stepped g =
      { c with goal := some { cg with xAttr := s.yAttr }, spring := { c.spring with yAttr := g } } := by
    simp [Dmp.stepped, hcg, h.yAttr]
  have e2 : s.touched g cc = { s with
        goal := some (.exponential { sg with xAttr := s.yAttr })
        phase := s.phase.touch
        gating := s.gating.touch
        spring := { s.spring with yAttr := g } } := by
    simp [Verif.Dmp.touched, hsg, h.noDamping, Verif.Dmp.dampingAt, Sub.touch, Sub.withAttr]
  rw [e1, e2]
  exact h.update hcg hsg rfl hg

/-! ### Steps -/

theorem dmp_mirror (d : Nat) (tau : ℝ) :
    Mirror (fun (c : Dmp) (s : Verif.Dmp) => Matches c s ∧ s.dimY = d ∧ s.tau = tau) (3 * d + 2)
      (4 * d + 2) where
  dimC h := by rw [← h.2.1]; exact h.1.dimX
  dimP h := by rw [← h.2.1]; exact h.1.wf.dimX
  le := by omega
  diffEq {c s s' x xd} h hx hs := by
    obtain ⟨h, rfl, ht⟩ := h
    obtain ⟨y, z, g, p, q, cc, sz, rfl⟩ := Verif.Dmp.exists_pack hx
    change Verif.Dmp.diffEq _ s = _ at hs
    rw [Verif.Dmp.diffEq_run h.wf sz, h.springGoal] at hs
    have hv : s.vf y z g p q cc = .ok xd := congrArg Prod.fst hs
    have hs' : s.touched g cc = s' := congrArg Prod.snd hs
    obtain ⟨l, e⟩ := diffEq_eq h sz hv
    refine ⟨l, c.stepped g, ?_, ?_⟩
    · rw [take_pack sz.csizes]; exact e
    · rw [← hs']
      exact ⟨h.stepped cc sz.g, rfl, ht⟩


/-- The object when integrateStart calls differentialEquation; `g` is the first goal. -/
def started (c : Dmp) (g : List ℝ) : Dmp := { c with spring := { c.spring with yAttr := g } }

theorem Matches.started {c : Dmp} {s : Verif.Dmp} (h : Matches c s) {g : List ℝ}
    (hg : g.length = s.dimY) : Matches (c.started g) (s.started g) := by
  obtain ⟨cg, sg, hcg, hsg, tg, -, -, hattr⟩ := h.goal
  have w : Verif.Exponential.Wf sg := h.wf.goal _ hsg
  have hx : sg.dimX = s.dimY := h.wf.goalDim _ hsg
  have e1 : c.started g =
      { c with goal := some { cg with xAttr := sg.xAttr }, spring := { c.spring with yAttr := g } } := by
    rw [Dmp.started, ← tg.2.1, ← hcg]
  have e2 : s.started g = { s with
        goal := some (.exponential { sg with xAttr := sg.xAttr })
        phase := s.phase.touch
        gating := s.gating.touch
        spring := { s.spring with yAttr := g } } := by
    simp [Verif.Dmp.started, hsg, h.noDamping, Verif.Dmp.dampingAt, Sub.touch]
  rw [e1, e2]
  exact h.update hcg hsg hattr hg

theorem start_twin {c : AnySystem} {s : Sub} (w : s.Wf) (h : Twin c s) :
    System.integrateStart c = .ok ((s.base.xInit, s.rate s.base.xInit), c) := by
  have hb : (System.base c).xInit = s.base.xInit := h.base.xInit
  unfold System.integrateStart
  simp only [hb]
  change ((do return (← c.diffEq s.base.xInit, c) : CppResult (List ℝ × AnySystem)) >>= _) = _
  rw [h.diffEq w w.xInit]
  rfl

theorem start_goal {c : Exponential} {s : Verif.Exponential} (w : s.Wf)
    (h : Twin (.exponential c) (.exponential s)) :
    ∃ xd, System.integrateStartFrom s.xInit c = .ok ((s.xInit, xd), c) := by
  have hd := w.dim
  have hc : c.toBase = { tau := s.tau, dimX := s.dimX, dimY := s.dimY, xInit := s.xInit } := by
    obtain ⟨⟨h1, h2, h3, h4⟩, -⟩ := h
    cases hb : c.toBase
    simp only [hb] at h1 h2 h3 h4
    subst h1 h2 h3 h4
    rfl
  have e : (System.setYInit s.xInit c : CppResult Exponential) = .ok c := by
    change (do return { c with toBase := ← c.toBase.setYInit s.xInit } : CppResult Exponential) = _
    rw [Base.setYInit, hc, if_neg (by simp [w.xInit, hd]), if_pos hd]
    change Except.ok { c with toBase := _ } = _
    rw [← hc]
  unfold System.integrateStartFrom
  rw [e, ok_bind]
  have hr := Twin.diffEq (c := .exponential c) (s := .exponential s) w h (x := s.xInit)
    (w.xInit.trans hd.symm)
  refine ⟨(Sub.exponential s).rate s.xInit, ?_⟩
  have hb : (System.base c).xInit = s.xInit := by
    change c.toBase.xInit = _
    rw [hc]
  unfold System.integrateStart
  simp only [hb]
  change ((do return (← c.diffEq s.xInit, c) : CppResult (List ℝ × Exponential)) >>= _) = _
  change c.diffEq s.xInit = _ at hr
  rw [hr]
  rfl

theorem start_spring {c : Dmp} {s : Verif.Dmp} (h : Matches c s) {g : List ℝ}
    (hg : g.length = s.dimY) :
    ∃ xd, System.integrateStartFrom c.yInit ({ c.spring with yAttr := g } : Spring) =
      .ok ((s.spring.xInit, xd), { c.spring with yAttr := g }) := by
  obtain ⟨y, h1, h2, h3⟩ := h.yInit
  have hy : c.yInit = y := by have := h.yInit_eq; rw [h1] at this; cases this; rfl
  have ly := h.wf.yInit y h1
  have w := h.wf.spring
  have hd := h.wf.springDim
  obtain ⟨b1, b2, b3, b4⟩ := h.spring.base
  have hdx : c.spring.dimX = s.dimY + s.dimY := by rw [b2]; exact w.dim.trans (by rw [hd])
  have hdy : c.spring.dimY = s.dimY := b3.trans hd
  have e : (System.setYInit c.yInit ({ c.spring with yAttr := g } : Spring) : CppResult Spring) =
      .ok { c.spring with yAttr := g } := by
    change (do return { ({ c.spring with yAttr := g } : Spring) with
      toBase := ← c.spring.toBase.setYInit c.yInit } : CppResult Spring) = _
    have : c.spring.toBase.setYInit c.yInit = .ok c.spring.toBase := by
      rw [Base.setYInit, if_neg (by rw [hy, ly, hdy]; simp)]
      by_cases h0 : c.spring.dimX = c.spring.dimY
      · rw [if_pos h0]
        have : s.dimY = 0 := by omega
        have hx : c.spring.xInit = c.yInit := by
          rw [b4, hy]; exact h3.trans (by simp [this, vzeros])
        rw [← hx]
      · rw [if_neg h0, if_neg (by omega)]
        have hx : c.spring.xInit = c.yInit ++ vzeros (c.spring.dimX - c.spring.dimY) := by
          rw [b4, hy]; exact h3.trans (by rw [hdx, hdy]; simp)
        rw [← hx]
    rw [this]
    rfl
  unfold System.integrateStartFrom
  rw [e, ok_bind]
  have hr := spring_rate h (y := y) (z := vzeros s.dimY) (g := g) ly (by simp) hg
  refine ⟨({ s.spring with yAttr := g } : SpringDamper).diffEq (y ++ vzeros s.dimY), ?_⟩
  have hb : (System.base ({ c.spring with yAttr := g } : Spring)).xInit = y ++ vzeros s.dimY := b4.trans h3
  unfold System.integrateStart
  simp only [hb, h3]
  change ((do return (← Spring.diffEq (y ++ vzeros s.dimY) { c.spring with yAttr := g },
    ({ c.spring with yAttr := g } : Spring)) : CppResult (List ℝ × Spring)) >>= _) = _
  rw [hr]
  rfl

theorem integrateStart_eq {c : Dmp} {s s' : Verif.Dmp} (h : Matches c s) {r : List ℝ × List ℝ}
    (hs : Verif.Dmp.integrateStart none s = (.ok r, s')) :
    ∃ c', integrateStart c =
      .ok ((r.1.take (3 * s.dimY + 2), r.2.take (3 * s.dimY + 2)), c') ∧ Matches c' s' ∧
      s'.dimY = s.dimY ∧ s'.tau = s.tau ∧ r.1.length = 4 * s.dimY + 2 ∧ r.2.length = 4 * s.dimY + 2 := by
  have w := h.wf
  obtain ⟨cg, sg, hcg, hsg, tg, htau, hinit, -⟩ := h.goal
  obtain ⟨cp, hcp, tp⟩ := h.phase
  obtain ⟨cq, hcq, tq⟩ := h.gating
  have hcy : c.yInit = sg.xInit := Option.some.inj (h.yInit_eq.symm.trans hinit)
  have hgs : s.goalStart = sg.xInit := by
    simp only [Verif.Dmp.goalStart, hsg]
    rfl
  have hgl := Verif.Dmp.goalStart_length w
  rw [Verif.Dmp.integrateStart_run w, Verif.Dmp.scaleGoal, h.noScaling] at hs
  simp only [Bool.false_eq_true, if_false] at hs
  obtain ⟨xd, s1, p1, hs⟩ := PyM.bind_inv hs
  cases hs
  have hm := h.started hgl
  have hst := Verif.Dmp.startX_sizes w
  obtain ⟨l, c', q1, r1⟩ := (dmp_mirror s.dimY s.tau).diffEq ⟨hm, rfl, rfl⟩ hst.length p1
  refine ⟨c', ?_, r1.1, r1.2.1, r1.2.2, hst.length, l⟩
  obtain ⟨xdg, eg⟩ := start_goal (w.goal _ hsg) tg
  obtain ⟨xds, es⟩ := start_spring h hgl
  have h0 := zeros_csizes s.dimY
  have h1 : CSizes s.dimY (vzeros s.dimY) (vzeros s.dimY) s.goalStart (vzeros 1) (vzeros 1) :=
    ⟨h0.y, h0.z, hgl, h0.p, h0.q⟩
  have h2 : CSizes s.dimY (s.spring.xInit.take s.dimY) (s.spring.xInit.drop s.dimY) s.goalStart
      (vzeros 1) (vzeros 1) := ⟨hst.y, hst.z, hgl, h0.p, h0.q⟩
  have h3 : CSizes s.dimY (s.spring.xInit.take s.dimY) (s.spring.xInit.drop s.dimY) s.goalStart
      s.phase.base.xInit (vzeros 1) := ⟨hst.y, hst.z, hgl, hst.p, h0.q⟩
  have hput := h1.put_spring hst.y hst.z
  rw [List.take_append_drop] at hput
  have etake : s.startX.take (3 * s.dimY + 2) = cpack (s.spring.xInit.take s.dimY)
      (s.spring.xInit.drop s.dimY) s.goalStart s.phase.base.xInit s.gating.base.xInit :=
    take_pack hst.csizes
  rw [take_pack hst.csizes] at q1
  change _ = Except.ok ((s.startX.take (3 * s.dimY + 2), xd.take (3 * s.dimY + 2)), c')
  rw [etake]
  change diffEq _ _ = _ at q1
  rw [← hgs] at eg hcy
  unfold integrateStart
  rw [hcy] at es
  simp only [h.dimX, h.dimY, hcg, hcy, zeros_cpack, eg, ok_bind, pure_bind, h0.put_goal hgl, h1.seg_goal,
    spring_aim h hgl, es, hput, hcp, hcq, deref, start_twin w.phase tp, start_twin w.gating tq,
    h2.put_phase hst.p, h3.put_gating hst.q]
  have e3 : ({ c with
      goal := some cg
      phase := some cp
      gating := some cq
      spring := { c.spring with yAttr := s.goalStart } } : Dmp) = c.started s.goalStart := by
    simp [Dmp.started, hcg, hcp, hcq]
  rw [e3, q1]
  rfl

end Dmp

end Cpp

end Verif
