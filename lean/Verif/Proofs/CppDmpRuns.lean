import Verif.Proofs.CppDmp
import Verif.Proofs.DmpMotion

/- Helper lemmas: motions of a Dmp in C++ and in Python. -/

set_option autoImplicit false

namespace Verif

namespace Cpp

namespace Dmp

/-! ### Integration -/

theorem run_eq {c : Dmp} {s s' : Verif.Dmp} (h : Matches c s) {ts : List ℝ}
    (hts : ts.Pairwise (· < ·)) {rows : List (List ℝ × List ℝ)}
    (hs : Verif.Dmp.integrate ts .rungeKutta s = (.ok rows, s')) :
    ∃ c', run ts c =
      .ok (rows.map fun r => (r.1.take (3 * s.dimY + 2), r.2.take (3 * s.dimY + 2)), c') ∧
      Matches c' s' := by
  unfold Verif.Dmp.integrate at hs
  obtain ⟨r0, s1, p1, hs⟩ := PyM.bind_inv hs
  cases ts with
  | nil => cases hs
  | cons t0 ts =>
    simp only at hs
    obtain ⟨rest, s2, p2, hs⟩ := PyM.bind_inv hs
    cases hs
    obtain ⟨c1, q1, m1, hd, ht, -⟩ := integrateStart_eq h p1
    obtain ⟨c2, q2, m2⟩ := (dmp_mirror s.dimY s.tau).steps .rungeKutta ts t0 c1 s1 _ r0.1 rest hts
      ⟨m1, hd, ht⟩ p2
    refine ⟨c2, ?_, m2.1⟩
    unfold run
    rw [q1]
    change (Cpp.steps .rungeKutta t0 (r0.1.take _) c1 ts >>= _) = _
    rw [q2]
    rfl

theorem posVelAcc_eq {c : Dmp} {s : Verif.Dmp} (h : Matches c s) {x xd : List ℝ}
    (hx : x.length = 4 * s.dimY + 2) (hxd : xd.length = 4 * s.dimY + 2) :
    c.posVelAcc (x.take (3 * s.dimY + 2)) (xd.take (3 * s.dimY + 2)) = .ok (s.posVelAcc x xd) := by
  obtain ⟨y, z, g, p, q, cc, sz, rfl⟩ := Verif.Dmp.exists_pack hx
  obtain ⟨y', z', g', p', q', cc', sz', rfl⟩ := Verif.Dmp.exists_pack hxd
  unfold posVelAcc Verif.Dmp.posVelAcc
  simp only [h.dimY, h.tau, take_pack sz.csizes, take_pack sz'.csizes, sz.csizes.seg_y,
    sz'.csizes.seg_y, sz'.csizes.seg_z, sz.pick_SPRING_Y, sz'.pick_SPRING_Y, sz'.pick_SPRING_Z]
  rfl

/-- Times with distance `dt`. -/
noncomputable def evenly (dt t0 : ℝ) (n : Nat) : List ℝ := (List.range n).map fun (k : ℕ) => t0 + k * dt

theorem evenly_succ (dt t0 : ℝ) (n : Nat) : evenly dt t0 (n + 1) = t0 :: evenly dt (t0 + dt) n := by
  unfold evenly
  rw [List.range_succ_eq_map, List.map_cons, List.map_map]
  congr 1
  · simp
  · refine List.map_congr_left fun k _ => ?_
    simp only [Function.comp, Nat.cast_succ]
    ring

theorem executeLoop_eq {d : Nat} {dt tau : ℝ} (hdt : 0 < dt) : ∀ (n : Nat) (t0 : ℝ) (c : Dmp)
    (s s' : Verif.Dmp) (x xd : List ℝ) (rows : List (List ℝ × List ℝ)), Matches c s → s.dimY = d →
    s.tau = tau → x.length = 4 * d + 2 → xd.length = 4 * d + 2 →
    DynSys.integrateLoop .rungeKutta t0 x (evenly dt (t0 + dt) n) s = (.ok rows, s') →
    executeLoop dt n (x.take (3 * d + 2)) (xd.take (3 * d + 2)) c =
      .ok ((((x, xd) :: rows).take n).map fun r =>
        (pickAt r.1 (Verif.Dmp.SPRING_Y d), pickAt r.2 (Verif.Dmp.SPRING_Y d),
          vdivs (pickAt r.2 (Verif.Dmp.SPRING_Z d)) tau)) := by
  intro n
  induction n with
  | zero => intros; rfl
  | succ n ih =>
    intro t0 c s s' x xd rows h hd ht hx hxd hs
    subst hd ht
    rw [evenly_succ] at hs
    unfold DynSys.integrateLoop at hs
    obtain ⟨r, s1, p1, hs⟩ := PyM.bind_inv hs
    obtain ⟨rest, s2, p2, hs⟩ := PyM.bind_inv hs
    cases hs
    have e : t0 + dt - t0 = dt := by ring
    rw [e] at p1
    obtain ⟨l1, l2, c1, q1, m1, hd1, htau⟩ :=
      (dmp_mirror s.dimY s.tau).step .rungeKutta hdt ⟨h, rfl, rfl⟩ p1
    have := ih (t0 + dt) c1 s1 _ r.1 r.2 rest m1 hd1 htau l1 l2 p2
    unfold executeLoop
    rw [posVelAcc_eq h hx hxd, ok_bind]
    change (step .rungeKutta dt (x.take _) c >>= _) = _
    rw [q1, ok_bind]
    change (executeLoop dt n (r.1.take _) (r.2.take _) c1 >>= _) = _
    rw [this]
    rfl

theorem execute_eq {c : Dmp} {s s' : Verif.Dmp} (h : Matches c s) {dt t0 : ℝ} (hdt : 0 < dt) {n : Nat}
    {rows : List (List ℝ × List ℝ)}
    (hs : Verif.Dmp.integrate (evenly dt t0 (n + 1)) .rungeKutta s = (.ok rows, s')) :
    execute dt n c = .ok ((rows.take n).map fun r => s.posVelAcc r.1 r.2) := by
  unfold Verif.Dmp.integrate at hs
  obtain ⟨r0, s1, p1, hs⟩ := PyM.bind_inv hs
  rw [evenly_succ] at hs
  simp only at hs
  obtain ⟨rest, s2, p2, hs⟩ := PyM.bind_inv hs
  cases hs
  obtain ⟨c1, q1, m1, hd, ht, l1, l2⟩ := integrateStart_eq h p1
  have := executeLoop_eq hdt n t0 c1 s1 _ r0.1 r0.2 rest m1 hd ht l1 l2 p2
  unfold execute
  rw [q1, ok_bind]
  exact this

/-! ### Analytical solution -/

theorem column_eq {fa : Fa} {ca : AnyFa} (hc : readFa fa = .ok (some ca)) {n : Nat} (hn : n ≠ 0)
    {ps r : List ℝ} (hps : ps.length = n) {f : Fin n → Fin 1 → ℝ}
    (hf : ∀ i j, f i j = ps.getD i 0)
    (hr : (do return List.ofFn (← fa.predict fun (t : Fin ps.length) (_ : Fin 1) => ps[t]) :
      Except PyErr (List ℝ)) = .ok r) :
    (do return List.ofFn (← ca.predict f) : CppResult (List ℝ)) = .ok r := by
  subst hps
  have e : f = fun (t : Fin ps.length) (_ : Fin 1) => ps[t] := by
    funext i j
    rw [hf, getD_lt i.2]
    rfl
  obtain ⟨out, h1, h2⟩ := except_bind_ok hr
  cases h2
  have := (C65_predict hc hn f out)
  rw [e] at this ⊢
  rw [this.mpr h1]
  rfl

theorem rebuilt_spring {c : Dmp} {s : Verif.Dmp} (h : Matches c s) (hk : Critical c) :
    Spring.make c.tau c.yInit c.yAttr c.spring.damping = .ok { c.spring with yAttr := c.yAttr } := by
  obtain ⟨y, h1, h2, h3⟩ := h.yInit
  have hy : c.yInit = y := Option.some.inj (h.yInit_eq.symm.trans h1)
  have ly := h.wf.yInit y h1
  obtain ⟨b1, b2, b3, b4⟩ := h.spring.base
  have hdx : c.spring.dimX = s.dimY * 2 := by
    rw [b2]; exact h.wf.spring.dim.trans (by rw [h.wf.springDim]; omega)
  have hdy : c.spring.dimY = s.dimY := b3.trans h.wf.springDim
  have hτ : c.spring.tau = c.tau := by rw [b1, h.tau]; exact h.springTau
  have hx : c.spring.xInit = y ++ vzeros s.dimY := b4.trans h3
  unfold Spring.make
  rw [ofOrder_two, ok_bind, hy, ly]
  simp only [if_true]
  rw [← hk.spring, ← hk.mass, ← hτ, ← hdx, ← hx, ← hdy]
  rfl

theorem dampAt_at {c : Dmp} {s : Verif.Dmp} (h : Matches c s) (t : ℝ) {j : Nat} (hj : j < s.dimY) :
    (s.dampAt t).getD j 0 = s.spring.damping.at' j := by
  simp only [Verif.Dmp.dampAt, h.noDamping, Verif.Dmp.full]
  rw [getD_range_map hj]

theorem motAcc_eq {c : Dmp} {s : Verif.Dmp} (h : Matches c s) (ts : List ℝ) (F : List (List ℝ)) (k : Nat)
    (hF : (F.getD k []).length = s.dimY) :
    vadd ((List.range s.dimY).map (({ s.spring with yAttr := s.goalAt (ts.getD k 0) } :
        SpringDamper).zdComp ((List.range s.dimY).map fun j => (s.mot ts F j k).1)
          ((List.range s.dimY).map fun j => (s.mot ts F j k).2))) (vdivs (F.getD k []) s.tau) =
      (List.range s.dimY).map fun j => s.motAcc ts F j k := by
  have lF : (F[k]?.getD []).length = s.dimY := by simpa using hF
  apply ext_getD 0
  · simp [lF]
  · intro j hj
    have hj' : j < s.dimY := by simpa [lF] using hj
    rw [getD_vadd (by simpa using hj') (by simpa [lF] using hj'), getD_range_map hj', getD_range_map hj',
      getD_vdivs]
    simp only [SpringDamper.zdComp, Verif.Dmp.motAcc, Verif.Dmp.acc, dampAt_at h _ hj', Verif.Dmp.scaled,
      h.noScaling]
    rw [getD_range_map hj', getD_range_map hj']
    rfl

/-- The columns of the spring system in row `k`. -/
noncomputable def springX (s : Verif.Dmp) (ts : List ℝ) (F : List (List ℝ)) (k : Nat) : List ℝ :=
  (List.range s.dimY).map (fun j => (s.mot ts F j k).1) ++ (List.range s.dimY).map fun j => (s.mot ts F j k).2

/-- Their rates of change. -/
noncomputable def springXd (s : Verif.Dmp) (ts : List ℝ) (F : List (List ℝ)) (k : Nat) : List ℝ :=
  (List.range s.dimY).map (fun j => (s.mot ts F j k).2 / s.tau) ++
    (List.range s.dimY).map fun j => s.motAcc ts F j k

theorem seg_second {a b : List ℝ} {d : Nat} (ha : a.length = d) (hb : b.length = d) :
    seg (a ++ b) d d = .ok b := by
  have := seg_mid (c := []) ha hb
  rwa [List.append_nil] at this

theorem put_second {a b v : List ℝ} {d : Nat} (ha : a.length = d) (hb : b.length = d) (hv : v.length = d) :
    putSeg (a ++ b) d d v = .ok (a ++ v) := by
  have := putSeg_mid (c := []) ha hb hv
  rwa [List.append_nil, List.append_nil] at this

theorem put_first {a b v : List ℝ} {d : Nat} (ha : a.length = d) (hv : v.length = d) :
    putSeg (a ++ b) 0 d v = .ok (v ++ b) :=
  putSeg_mid (a := []) rfl ha hv

theorem springLoop_eq {c : Dmp} {s : Verif.Dmp} (h : Matches c s) (ts : List ℝ) (F : List (List ℝ))
    (m : Nat) : ∀ (k : Nat) (a : List ℝ), (∀ i, k < i → i < k + 1 + m → (F.getD i []).length = s.dimY) →
    c.springLoop { c.spring with yAttr := a } (ts.getD k 0) (springX s ts F k) (springXd s ts F k)
      ((List.range' (k + 1) m).map fun i => (ts.getD i 0, s.goalAt (ts.getD i 0), F.getD i [])) =
    .ok ((List.range' (k + 1) m).map fun i => (springX s ts F i, springXd s ts F i)) := by
  induction m with
  | zero => intro k _ _; rfl
  | succ m ih =>
    intro k a hF
    rw [List.range'_succ, List.map_cons, List.map_cons]
    have hg := Verif.Dmp.goalAt_length h.wf (ts.getD (k + 1) 0)
    have lF := hF (k + 1) (by omega) (by omega)
    have hset : Spring.setYAttr (s.goalAt (ts.getD (k + 1) 0)) { c.spring with yAttr := a } =
        .ok { c.spring with yAttr := s.goalAt (ts.getD (k + 1) 0) } := spring_aim h hg
    have hx : vadd (springX s ts F k) (vscale (ts.getD (k + 1) 0 - ts.getD k 0) (springXd s ts F k)) =
        springX s ts F (k + 1) := Verif.Dmp.map_append_add.symm
    have hr : Spring.diffEq (springX s ts F (k + 1))
        { c.spring with yAttr := s.goalAt (ts.getD (k + 1) 0) } = _ :=
      spring_rate h (by simp) (by simp) hg
    have hz := (zRates (c := c) (s := s) h (y := (List.range s.dimY).map fun j => (s.mot ts F j (k + 1)).1)
      (z := (List.range s.dimY).map fun j => (s.mot ts F j (k + 1)).2)
      (g := s.goalAt (ts.getD (k + 1) 0)) (f := F.getD (k + 1) []) [] (by simp) lF).1
    have := ih (k + 1) (s.goalAt (ts.getD (k + 1) 0)) (fun i h1 h2 => hF i (by omega) (by omega))
    unfold springLoop
    simp only [hx, hset, ok_bind, hr, hz, h.dimY, h.tau]
    rw [seg_second (by simp) (by simp), ok_bind, motAcc_eq h ts F (k + 1) lF,
      put_second (by simp) (by simp) (by simp), ok_bind]
    have hs2 : seg (springX s ts F (k + 1)) s.dimY s.dimY =
      .ok ((List.range s.dimY).map fun j => (s.mot ts F j (k + 1)).2) := seg_second (by simp) (by simp)
    rw [hs2, ok_bind, put_first (by simp) (by simp), ok_bind]
    have hy : vdivs ((List.range s.dimY).map fun j => (s.mot ts F j (k + 1)).2) s.tau =
        (List.range s.dimY).map fun j => (s.mot ts F j (k + 1)).2 / s.tau := by
      unfold vdivs; rw [List.map_map]; rfl
    rw [hy]
    change (c.springLoop _ _ _ (springXd s ts F (k + 1)) _ >>= _) = _
    rw [this]
    rfl

theorem mapM_pure {α β : Type} {f : α → CppResult β} {g : α → β} :
    ∀ (l : List α), (∀ a ∈ l, f a = .ok (g a)) → l.mapM f = .ok (l.map g) := by
  intro l
  induction l with
  | nil => intro _; rfl
  | cons a l ih =>
    intro h
    rw [List.mapM_cons, h a List.mem_cons_self, ih fun a ha => h a (List.mem_cons_of_mem _ ha)]
    rfl

theorem springX_zero {c : Dmp} {s : Verif.Dmp} (h : Matches c s) (ts : List ℝ) (F : List (List ℝ)) :
    s.spring.xInit = springX s ts F 0 := by
  have li := Verif.Dmp.springInit_length h.wf
  apply ext_getD 0
  · simp [springX, li]; omega
  · intro i hi
    unfold springX
    by_cases hd : i < s.dimY
    · rw [getD_append_left' (by simpa using hd), getD_range_map hd]
      rfl
    · obtain ⟨l, rfl⟩ := Nat.exists_eq_add_of_le (not_lt.mp hd)
      have e : s.dimY + l = ((List.range s.dimY).map fun j => (s.mot ts F j 0).1).length + l := by
        simp
      conv_rhs => rw [e]
      rw [getD_append_right', getD_range_map (by omega)]
      rfl

theorem firstRow {c : Dmp} {s : Verif.Dmp} (h : Matches c s) (ts : List ℝ) (F : List (List ℝ))
    (hF : (F.getD 0 []).length = s.dimY) :
    System.integrateStart ({ c.spring with yAttr := s.goalAt (ts.getD 0 0) } : Spring) =
      .ok ((springX s ts F 0, ({ s.spring with yAttr := s.goalAt (ts.getD 0 0) } :
        SpringDamper).diffEq (springX s ts F 0)), { c.spring with yAttr := s.goalAt (ts.getD 0 0) }) ∧
    ∃ a, seg (({ s.spring with yAttr := s.goalAt (ts.getD 0 0) } :
        SpringDamper).diffEq (springX s ts F 0)) s.dimY s.dimY = .ok a ∧
      putSeg (({ s.spring with yAttr := s.goalAt (ts.getD 0 0) } :
        SpringDamper).diffEq (springX s ts F 0)) s.dimY s.dimY (vadd a (vdivs (F.getD 0 []) s.tau)) =
      .ok (springXd s ts F 0) := by
  have hg := Verif.Dmp.goalAt_length h.wf (ts.getD 0 0)
  constructor
  · have hb : (System.base ({ c.spring with yAttr := s.goalAt (ts.getD 0 0) } : Spring)).xInit =
      springX s ts F 0 := h.spring.base.xInit.trans (springX_zero h ts F)
    unfold System.integrateStart
    simp only [hb]
    change ((do return (← Spring.diffEq (springX s ts F 0) { c.spring with yAttr := s.goalAt (ts.getD 0 0) },
      ({ c.spring with yAttr := s.goalAt (ts.getD 0 0) } : Spring)) : CppResult (List ℝ × Spring)) >>= _) = _
    have hr : Spring.diffEq (springX s ts F 0)
        { c.spring with yAttr := s.goalAt (ts.getD 0 0) } = _ :=
      spring_rate h (by simp) (by simp) hg
    rw [hr]
    rfl
  · have hz : ({ s.spring with yAttr := s.goalAt (ts.getD 0 0) } : SpringDamper).diffEq
        (springX s ts F 0) = _ :=
      (zRates (c := c) (s := s) h (y := (List.range s.dimY).map fun j => (s.mot ts F j 0).1)
      (z := (List.range s.dimY).map fun j => (s.mot ts F j 0).2)
      (g := s.goalAt (ts.getD 0 0)) (f := F.getD 0 []) [] (by simp) hF).1
    refine ⟨_, by rw [hz]; exact seg_second (by simp) (by simp), ?_⟩
    rw [hz, motAcc_eq h ts F 0 hF, put_second (by simp) (by simp) (by simp), h.springTau]
    congr 2
    unfold vdivs; rw [List.map_map]; rfl

theorem columns_eq {c : Dmp} {s : Verif.Dmp} (h : Matches c s) {ts : List ℝ} (hts : ts ≠ [])
    {fa : List (List ℝ)} (hfa : s.faUsed ts false = .ok fa) :
    ∃ cols, ((List.range s.dimY).mapM fun i => do
      let out ← (← c.fa i).predict fun (t : Fin ts.length) (_ : Fin 1) =>
        ((ts.map fun t => s.phase.xAt t).getD t []).getD 0 0
      pure (List.ofFn out)) = .ok cols ∧
      fa = (List.range ts.length).map fun t => cols.map fun c => c.getD t 0 := by
  obtain ⟨l, hl, hsame⟩ := h.fas
  obtain ⟨fa', h1, h2⟩ := except_bind_ok hfa
  cases h2
  rw [predictions_some hl hsame] at h1
  obtain ⟨cols, h3, h4⟩ := except_bind_ok h1
  cases h4
  refine ⟨cols, ?_, by simp⟩
  refine (mapM_match (F := id) _ _ ?_ h3).trans (by rw [List.map_id])
  intro i hi r hr
  obtain ⟨fa, ca, e1, e2, e3⟩ := hsame i (List.mem_range.mp hi)
  have hm : fa.model.isSome := by
    cases hm : fa.model with
    | some m => rfl
    | none => exact ((C65_read_fa fa (fun (_ : Fin 1) (_ : Fin 1) => (0 : ℝ))).2 hm ca e3).elim
  unfold Verif.Dmp.faColumn at hr
  simp only [e1, hm, if_true] at hr
  have e4 : c.fa i = .ok ca := by
    unfold Cpp.Dmp.fa
    rw [List.getD_eq_getElem?_getD, e2]
    rfl
  rw [e4]
  refine column_eq e3 (by simpa using hts) (by simp) ?_ hr
  intro i j
  rw [getD_map' i.2 [] 0, getD_map' i.2 0 0]

theorem assemble_eq {d : Nat} {y z g p q : List ℝ} (h : CSizes d y z g p q) :
    (do
      let r ← putSeg (vzeros (3 * d + 2)) (2 * d + 0) d g
      let r ← putSeg r (3 * d + 0) 1 p
      let r ← putSeg r (3 * d + 1) 1 q
      putSeg r (0 * d + 0) (2 * d) (y ++ z)) = .ok (cpack y z g p q) := by
  have h0 := zeros_csizes d
  have h1 : CSizes d (vzeros d) (vzeros d) g (vzeros 1) (vzeros 1) := ⟨h0.y, h0.z, h.g, h0.p, h0.q⟩
  have h2 : CSizes d (vzeros d) (vzeros d) g p (vzeros 1) := ⟨h0.y, h0.z, h.g, h.p, h0.q⟩
  have h3 : CSizes d (vzeros d) (vzeros d) g p q := ⟨h0.y, h0.z, h.g, h.p, h.q⟩
  rw [zeros_cpack, h0.put_goal h.g, ok_bind, h1.put_phase h.p, ok_bind, h2.put_gating h.q, ok_bind,
    h3.put_spring h.y h.z]

/-- The result of the analytical solution, without the columns of the damping system. -/
def cut (n : Nat) (r : Verif.Dmp.Solution) : Solution :=
  { xs := r.xs.map (List.take n)
    xds := r.xds.map (List.take n)
    forcing := r.forcing
    fa := r.fa }

theorem analytical_eq {c : Dmp} {s : Verif.Dmp} (h : Matches c s) (hk : Critical c) {ts : List ℝ}
    (hp : Timely s.phase ts) (hq : Timely s.gating ts) {sol : Verif.Dmp.Solution}
    (hs : (Verif.Dmp.analytical (some ts) false s).1 = .ok sol) :
    c.analytical ts = .ok (cut (3 * s.dimY + 2) sol) := by
  have w := h.wf
  obtain ⟨-, hf, hts, fa, hfa, rfl⟩ :=
    (Verif.Dmp.analytical_iff w (Verif.Dmp.sameStart_of_tau h.springTau)).mp hs
  obtain ⟨l1, l2⟩ := Verif.Dmp.faUsed_length hfa
  obtain ⟨cp, hcp, tp⟩ := h.phase
  obtain ⟨cq, hcq, tq⟩ := h.gating
  obtain ⟨cg, sg, hcg, hsg, tg, -, -⟩ := h.goal
  obtain ⟨cols, hcols, hfa2⟩ := columns_eq h hts hfa
  have hga : s.goalAt = fun t => (Sub.exponential sg).xAt t := by
    funext t; simp [Verif.Dmp.goalAt, hsg]
  have hgd : s.goalDotAt = fun t => (Sub.exponential sg).xdAt t := by
    funext t; simp [Verif.Dmp.goalDotAt, hsg]
  have hgoal : cg.analytical ts = .ok (ts.map s.goalAt, ts.map s.goalDotAt) := by
    rw [hga, hgd]
    exact Twin.analytical (c := .exponential cg) (s := .exponential sg) (w.goal _ hsg) tg trivial
  have hforce : (List.zipWith (fun (f g : List ℝ) => f.map (· * g.getD 0 0)) fa
      (ts.map fun t => s.gating.xAt t)).mapM c.scaleForcing = .ok (s.gated ts fa) := by
    have e : List.zipWith (fun (f g : List ℝ) => f.map (· * g.getD 0 0)) fa
        (ts.map fun t => s.gating.xAt t) =
        List.zipWith (fun f t => vscale ((s.gating.xAt t).getD 0 0) f) fa ts := by
      rw [List.zipWith_map_right]
      congr 1
      funext f t
      unfold vscale
      congr 1
      funext a
      ring
    rw [e, Verif.Dmp.gated]
    refine mapM_pure _ ?_
    intro f hm
    have lf : f.length = s.dimY := by
      obtain ⟨i, hi, rfl⟩ := List.getElem_of_mem hm
      simp only [List.getElem_zipWith, length_vscale]
      exact l2 _ (List.getElem_mem _)
    exact scaleForcing_eq h lf (Verif.Dmp.scaleForcing_ok w hf lf)
  have hF : ∀ i, i < ts.length → ((s.gated ts fa).getD i []).length = s.dimY :=
    fun i hi => Verif.Dmp.gated_row_length l1 hi
  obtain ⟨m, hm⟩ : ∃ m, ts.length = m + 1 :=
    ⟨ts.length - 1, by have := List.length_pos_iff.mpr hts; omega⟩
  have hg0 := Verif.Dmp.goalAt_length w (ts.getD 0 0)
  obtain ⟨hst, a0, hrow1, hrow2⟩ := firstRow h ts (s.gated ts fa) (hF 0 (by omega))
  have hloop := springLoop_eq h ts (s.gated ts fa) m 0 (s.goalAt (ts.getD 0 0))
    (fun i _ _ => hF i (by omega))
  have hdrop : (List.range ts.length).drop 1 = List.range' (0 + 1) m := by
    rw [hm, List.range_eq_range', List.range'_succ]; rfl
  have hrows : (springX s ts (s.gated ts fa) 0, springXd s ts (s.gated ts fa) 0) ::
      ((List.range' (0 + 1) m).map fun i => (springX s ts (s.gated ts fa) i,
        springXd s ts (s.gated ts fa) i)) =
      (List.range ts.length).map fun i => (springX s ts (s.gated ts fa) i,
        springXd s ts (s.gated ts fa) i) := by
    rw [hm, List.range_eq_range', List.range'_succ]; rfl
  have haim : Spring.setYAttr (s.goalAt (ts.getD 0 0)) { c.spring with yAttr := c.yAttr } =
      .ok { c.spring with yAttr := s.goalAt (ts.getD 0 0) } := spring_aim h hg0
  have hre := rebuilt_spring h hk
  rw [h.tau] at hre
  have h0 : (ts.map s.goalAt).getD 0 [] = s.goalAt (ts.getD 0 0) := getD_map' (by omega) [] 0
  have hin : ((List.range' (0 + 1) m).map fun i => (ts.getD i 0, (ts.map s.goalAt).getD i [],
      (s.gated ts fa).getD i [])) = (List.range' (0 + 1) m).map fun i => (ts.getD i 0,
        s.goalAt (ts.getD i 0), (s.gated ts fa).getD i []) := by
    refine List.map_congr_left fun i hi => ?_
    rw [List.mem_range'_1] at hi
    rw [getD_map' (by omega) [] 0]
  unfold analytical
  simp only [h.dimY, h.dimX, hcp, hcq, hcg, deref, ok_bind, tp.analytical w.phase hp,
    tq.analytical w.gating hq]
  rw [if_neg (by simpa using hts)]
  rw [hcols]
  simp only [ok_bind, ← hfa2, hforce, hgoal, hre, h0, haim, hst, h.tau, hrow1, hrow2, hdrop, hin,
    hloop, hrows]
  rw [mapM_pure (g := fun i => (s.xRow ts (s.gated ts fa) i).take (3 * s.dimY + 2)), ok_bind,
    mapM_pure (g := fun i => (s.xdRow ts (s.gated ts fa) i).take (3 * s.dimY + 2))]
  · simp only [cut, List.map_map]
    rfl
  · intro i hi
    have hi := List.mem_range.mp hi
    have sz := (Verif.Dmp.xdRow_sizes w ts (s.gated ts fa) i).csizes
    rw [Verif.Dmp.xdRow, take_pack sz, getD_range_map hi, getD_map' hi [] 0, getD_map' hi [] 0,
      getD_map' hi [] 0]
    exact assemble_eq sz
  · intro i hi
    have hi := List.mem_range.mp hi
    have sz := (Verif.Dmp.xRow_sizes w ts (s.gated ts fa) i).csizes
    rw [Verif.Dmp.xRow, take_pack sz, getD_range_map hi, getD_map' hi [] 0, getD_map' hi [] 0,
      getD_map' hi [] 0]
    exact assemble_eq sz

end Dmp

end Cpp

end Verif
