import Verif.Props.DmpClose
import Verif.Props.DmpStepsBound
import Verif.Props.DmpStepsRates

/- Dmp: what `integrate` returns for closely spaced times is close to the exact motion (C84). -/

set_option autoImplicit false

namespace Verif

namespace Spec

/-- Times that do not decrease, with distances of at most `δ`, over a duration of at most `T`. -/
structure Spaced (T δ : ℝ) (ts : List ℝ) : Prop where
  forward : ∀ i, i + 1 < ts.length → ts.getD i 0 ≤ ts.getD (i + 1) 0
  fine : ∀ i, i + 1 < ts.length → ts.getD (i + 1) 0 - ts.getD i 0 ≤ δ
  upto : ∀ i, i < ts.length → ts.getD i 0 - ts.getD 0 0 ≤ T

theorem Spaced.grid {T δ : ℝ} {ts : List ℝ} (h : Spaced T δ ts) (hT : 0 ≤ T) :
    Grid T δ (ts.length - 1) (fun i => ts.getD i 0 - ts.getD 0 0) where
  start := sub_self _
  forward i hi := by
    have := h.forward i (by omega)
    linarith
  fine i hi := by
    have := h.fine i (by omega)
    linarith
  upto := by
    cases ts with
    | nil => simpa using hT
    | cons t ts => exact h.upto _ (by simp)

end Spec

namespace Dmp

open Filter Topology Set Spec
open DynSys (Method)

variable {d : Nat}

/-! ### The rows of `integrate` result from each other by steps -/

theorem loop_rows {s : Dmp} (g : Good d s) {m : Method} : ∀ (ts : List ℝ) (t0 : ℝ) (x xd : List ℝ) (t : Dmp)
    (rows : List (List ℝ × List ℝ)), Good d t → t.core = s.core →
    (DynSys.integrateLoop m t0 x ts t).1 = .ok rows →
    rows.length = ts.length ∧ ∀ i, i < ts.length →
      (DynSys.step m ((t0 :: ts).getD (i + 1) 0 - (t0 :: ts).getD i 0) (((x, xd) :: rows).getD i ([], [])).1 s).1 =
        .ok (((x, xd) :: rows).getD (i + 1) ([], []))
  | [], _, _, _, _, _, _, _, h => by
    cases h
    exact ⟨rfl, fun i hi => absurd hi (by simp)⟩
  | t1 :: ts, t0, x, xd, t, rows, gt, ct, h => by
    obtain ⟨t', h⟩ : ∃ t', DynSys.integrateLoop m t0 x (t1 :: ts) t = (.ok rows, t') := ⟨_, Prod.ext h rfl⟩
    unfold DynSys.integrateLoop at h
    obtain ⟨r, u1, p1, h⟩ := PyM.bind_inv h
    obtain ⟨rest, u2, p2, h⟩ := PyM.bind_inv h
    cases h
    obtain ⟨q1, q2, q3⟩ := stable_step m (t1 - t0) x t s gt g ct
    rw [p1] at q1 q2 q3
    obtain ⟨l, key⟩ := loop_rows g ts t1 r.1 r.2 u1 rest q3 (q2.trans ct) (by rw [p2])
    refine ⟨by simp [l], fun i hi => ?_⟩
    cases i with
    | zero => exact q1.symm
    | succ i => exact key i (by simpa using hi)

theorem integrate_rows {s : Dmp} (g : Good d s) {m : Method} {ts : List ℝ} {rows : List (List ℝ × List ℝ)}
    (h : (integrate ts m s).1 = .ok rows) : ts ≠ [] ∧ rows.length = ts.length ∧
      (integrateStart none s).1 = .ok (rows.getD 0 ([], [])) ∧
      ∀ i, i + 1 < ts.length →
        (DynSys.step m (ts.getD (i + 1) 0 - ts.getD i 0) (rows.getD i ([], [])).1 s).1 =
          .ok (rows.getD (i + 1) ([], [])) := by
  obtain ⟨t', h⟩ : ∃ t', integrate ts m s = (.ok rows, t') := ⟨_, Prod.ext h rfl⟩
  unfold integrate at h
  obtain ⟨r, u1, p1, h⟩ := PyM.bind_inv h
  cases ts with
  | nil => cases h
  | cons t0 ts =>
    obtain ⟨rest, u2, p2, h⟩ := PyM.bind_inv h
    cases h
    obtain ⟨-, q2, q3⟩ := stable_integrateStart s s g g rfl
    rw [p1] at q2 q3
    obtain ⟨l, key⟩ := loop_rows g ts t0 r.1 r.2 u1 rest q3 q2 (by rw [p2])
    exact ⟨by simp, by simp [l], by rw [p1]; rfl, fun i hi => key i (by simpa using hi)⟩

/-- Euler's method returns the rate of change at the state before the step, the method of Runge and Kutta that at the
state after it. -/
theorem step_rate_euler {s : Dmp} {dt : ℝ} {x : List ℝ} {r : List ℝ × List ℝ}
    (h : (DynSys.step .euler dt x s).1 = .ok r) : (diffEq x s).1 = .ok r.2 := by
  obtain ⟨s', h⟩ : ∃ s', DynSys.step .euler dt x s = (.ok r, s') := ⟨_, Prod.ext h rfl⟩
  change DynSys.eulerStep dt x s = _ at h
  unfold DynSys.eulerStep at h
  rw [PyM.self_bind] at h
  by_cases ne : x.length ≠ DynSys.dimX s
  · rw [if_pos ne] at h
    cases h
  · rw [if_neg ne] at h
    obtain ⟨k1, s1, p1, h⟩ := PyM.bind_inv h
    cases h
    change diffEq x s = _ at p1
    rw [p1]

theorem integrate_run {s : Dmp} (g : Good d s) {m : Method} {ts : List ℝ} {rows : List (List ℝ × List ℝ)}
    (h : (integrate ts m s).1 = .ok rows) :
    ∃ u, StepsOn s m (ts.length - 1) (fun i => ts.getD i 0 - ts.getD 0 0) (fun i => (rows.getD i ([], [])).1) u := by
  obtain ⟨-, l, h0, hn⟩ := integrate_rows g h
  have hl : ∀ n, n ≤ ts.length - 1 → (rows.getD n ([], [])).1.length = 4 * d + 2 := by
    intro n
    induction n with
    | zero =>
      intro _
      obtain ⟨e, -⟩ := integrateStart_ok g (x := (rows.getD 0 ([], [])).1) (xd := (rows.getD 0 ([], [])).2) h0
      rw [e, ← g.dim]
      exact (startX_sizes g.wf).length
    | succ n ih => exact fun h => (step_stages g (ih (by omega)) (hn n (by omega))).1
  have hs := fun n (h : n < ts.length - 1) => (step_stages g (hl n h.le) (hn n (by omega))).2
  choose! u k h1 h2 h3 using hs
  refine ⟨u, fun n h => (hl n h).trans (good_length g).symm, fun n h j => (h1 n h j).trans (good_length g).symm,
    fun n h => ⟨k n, h2 n h, fun a ha => ?_⟩⟩
  rw [good_length g] at ha
  have := h3 n h a ha
  rwa [← sub_sub_sub_cancel_right _ _ (ts.getD 0 0)] at this

/-! ### Closeness of the rows -/

/-- Continuity of a motion up to a time, for all entries at once. -/
theorem motion_uniform {s : Dmp} {x : ℝ → List ℝ} (hx : Obeys s x) (T : ℝ) {ε : ℝ} (hε : 0 < ε) :
    ∃ δ : ℝ, 0 < δ ∧ ∀ i, i < s.dimX → ∀ a b, 0 ≤ a → a ≤ T → 0 ≤ b → b ≤ T → |a - b| ≤ δ →
      |(x a).getD i 0 - (x b).getD i 0| ≤ ε := by
  refine Sub.exists_fine (fun i hi => ?_) fun i δ δ' h1 h2 a b a0 a1 b0 b1 h => h2 a b a0 a1 b0 b1 (h.trans h1)
  have u := isCompact_Icc.uniformContinuousOn_of_continuous ((hx.cont i hi).mono fun t (h : t ∈ Icc 0 T) => h.1)
  obtain ⟨δ, δ0, hδ⟩ := Metric.uniformContinuousOn_iff.mp u ε hε
  refine ⟨δ / 2, by positivity, fun a b a0 a1 b0 b1 h => ?_⟩
  have := hδ a ⟨a0, a1⟩ b ⟨b0, b1⟩ (by rw [Real.dist_eq]; linarith)
  rw [Real.dist_eq] at this
  exact this.le

/-- Rates of change of positions and velocities at states close to a motion. -/
theorem rates_close {s : Dmp} (good : Good d s) {x : ℝ → List ℝ} (hx : Obeys s x) (T : ℝ) {ε : ℝ} (hε : 0 < ε) :
    ∃ η : ℝ, 0 < η ∧ ∀ t, 0 ≤ t → t ≤ T → ∀ y, y.length = s.dimX →
      (∀ i, i < s.dimX → |y.getD i 0 - (x t).getD i 0| ≤ η) → ∀ v w, (diffEq y s).1 = .ok v →
      (diffEq (x t) s).1 = .ok w → ∀ i, i < s.dimY →
      |v.getD i 0 - w.getD i 0| ≤ ε ∧ |v.getD (s.dimY + i) 0 - w.getD (s.dimY + i) 0| ≤ ε := by
  have wf := good.wf
  have dx := wf.dimX
  obtain ⟨G, hG, hG2⟩ := s.predictions_smooth
  obtain ⟨η, η0, hη⟩ := Sub.exists_fine (d := s.dimY) (P := fun i η => ∀ t, 0 ≤ t → t ≤ T → ∀ y : List ℝ,
      y.length = s.dimX → (∀ i, i < s.dimX → |y.getD i 0 - (x t).getD i 0| ≤ η) → ∀ v w, (diffEq y s).1 = .ok v →
      (diffEq (x t) s).1 = .ok w →
      |v.getD i 0 - w.getD i 0| ≤ ε ∧ |v.getD (s.dimY + i) 0 - w.getD (s.dimY + i) 0| ≤ ε) (fun i hi => by
    obtain ⟨L, r, L0, r0, key⟩ := tube_lipschitz (F := s.pairRate i (G i))
      (x := fun t => ((x t).getD i 0, (x t).getD (s.dimY + i) 0)) (p := fun t => inputsOf s.dimY i (x t)) (T := T)
      (s.pairRate_smooth i (hG i)).locallyLipschitz
      (((hx.cont i (by omega)).prodMk (hx.cont (s.dimY + i) (by omega))).mono fun t h => h.1)
      (((hx.cont _ (by omega)).prodMk ((hx.cont _ (by omega)).prodMk
        ((hx.cont _ (by omega)).prodMk (hx.cont _ (by omega))))).mono fun t h => h.1)
    refine ⟨min r (ε / (2 * (L + 1))), by positivity, fun t t0 t1 y ly hy v w hv hw => ?_⟩
    set η := min r (ε / (2 * (L + 1)))
    have e1 : ‖((y.getD i 0, y.getD (s.dimY + i) 0) : ℝ × ℝ) - ((x t).getD i 0, (x t).getD (s.dimY + i) 0)‖ ≤ η :=
      norm_prod_le_iff.mpr ⟨hy i (by omega), hy _ (by omega)⟩
    have e2 : ‖inputsOf s.dimY i y - inputsOf s.dimY i (x t)‖ ≤ η :=
      norm_prod_le_iff.mpr ⟨hy _ (by omega), norm_prod_le_iff.mpr ⟨hy _ (by omega),
        norm_prod_le_iff.mpr ⟨hy _ (by omega), hy _ (by omega)⟩⟩⟩
    have e3 := key t ⟨t0, t1⟩ _ _ (e1.trans (min_le_left _ _)) (e2.trans (min_le_left _ _))
    rw [← pair_rates wf hG2 ly hv hi, ← pair_rates wf hG2 (hx.len t t0) hw hi] at e3
    have e4 : L * (‖((y.getD i 0, y.getD (s.dimY + i) 0) : ℝ × ℝ) - ((x t).getD i 0, (x t).getD (s.dimY + i) 0)‖ +
        ‖inputsOf s.dimY i y - inputsOf s.dimY i (x t)‖) ≤ ε := by
      have h1 : η ≤ ε / (2 * (L + 1)) := min_le_right _ _
      have h2 : (L + 1) * (2 * (ε / (2 * (L + 1)))) = ε := by field_simp
      calc _ ≤ (L + 1) * (2 * (ε / (2 * (L + 1)))) := by
            refine mul_le_mul (by linarith) (by linarith) (by positivity) (by linarith)
        _ = ε := h2
    have e5 := e3.trans e4
    exact ⟨(norm_fst_le _).trans e5, (norm_snd_le _).trans e5⟩)
    (fun i δ δ' h1 h2 t t0 t1 y ly hy => h2 t t0 t1 y ly fun i hi => (hy i hi).trans h1)
  exact ⟨η, η0, fun t t0 t1 y ly hy v w hv hw i hi => hη i hi t t0 t1 y ly hy v w hv hw⟩

/-- The rows of `integrate` for closely spaced times. -/
theorem integrate_close {s : Dmp} (good : Good d s) (sm : SmoothParts d s) {x : ℝ → List ℝ} (hx : Obeys s x)
    (h0 : ∃ xd, (integrateStart none s).1 = .ok (x 0, xd)) {T : ℝ} (hT : 0 ≤ T) (m : Method) {ε : ℝ} (hε : 0 < ε) :
    ∃ δ : ℝ, 0 < δ ∧ ∀ ts rows, Spaced T δ ts → (integrate ts m s).1 = .ok rows →
      rows.length = ts.length ∧ ∀ i, i < ts.length →
        (∀ j, j < s.dimX →
          |(rows.getD i ([], [])).1.getD j 0 - (x (ts.getD i 0 - ts.getD 0 0)).getD j 0| ≤ ε) ∧
        ∀ v, (diffEq (x (ts.getD i 0 - ts.getD 0 0)) s).1 = .ok v → ∀ j, j < s.dimY →
          |(rows.getD i ([], [])).2.getD j 0 - v.getD j 0| ≤ ε ∧
          |(rows.getD i ([], [])).2.getD (s.dimY + j) 0 - v.getD (s.dimY + j) 0| ≤ ε := by
  obtain ⟨η, η0, hη⟩ := rates_close good hx T hε
  obtain ⟨δ1, p1, h1⟩ := all_close good sm hx hT m (lt_min (half_pos η0) hε)
  obtain ⟨δ2, p2, h2⟩ := motion_uniform hx T (half_pos η0)
  refine ⟨min δ1 δ2, by positivity, fun ts rows sp hr => ?_⟩
  obtain ⟨ne, l, hst, hn⟩ := integrate_rows good hr
  obtain ⟨u, hu⟩ := integrate_run good hr
  obtain ⟨xd0, h0⟩ := h0
  have e0 : (rows.getD 0 ([], [])).1 = x 0 := by
    rw [h0] at hst
    rw [← Except.ok.inj hst]
  have grid := sp.grid hT
  have near := h1 _ _ _ u (grid.finer (min_le_left _ _)) hu e0
  refine ⟨l, fun i hi => ⟨fun j hj => ((near j hj).1 i (by omega)).trans (min_le_right _ _),
    fun v hv j hj => ?_⟩⟩
  have ti := grid.nonneg (n := i) (by omega)
  have tT := grid.le (n := i) (by omega)
  have close : ∀ k, k ≤ i → ts.getD i 0 - ts.getD k 0 ≤ δ2 → ∀ j, j < s.dimX →
      |(rows.getD k ([], [])).1.getD j 0 - (x (ts.getD i 0 - ts.getD 0 0)).getD j 0| ≤ η := by
    intro k hk hd j hj
    have a1 := ((near j hj).1 k (by omega)).trans (min_le_left _ _)
    have mono := grid.mono hk (by omega)
    have a2 := h2 j hj (ts.getD k 0 - ts.getD 0 0) (ts.getD i 0 - ts.getD 0 0) (grid.nonneg (by omega))
      (grid.le (by omega)) ti tT (by rw [abs_sub_comm, abs_of_nonneg (by linarith)]; linarith)
    have a3 := abs_sub_le ((rows.getD k ([], [])).1.getD j 0) ((x (ts.getD k 0 - ts.getD 0 0)).getD j 0)
      ((x (ts.getD i 0 - ts.getD 0 0)).getD j 0)
    linarith
  -- the state at which the rates of the row are taken
  obtain ⟨k, k1, k2, k3⟩ : ∃ k, k ≤ i ∧ ts.getD i 0 - ts.getD k 0 ≤ δ2 ∧
      (diffEq (rows.getD k ([], [])).1 s).1 = .ok (rows.getD i ([], [])).2 := by
    cases i with
    | zero => exact ⟨0, le_rfl, by linarith, start_rate good hst⟩
    | succ i =>
      have st := hn i hi
      cases m with
      | euler =>
        exact ⟨i, by omega, (sp.fine i hi).trans (min_le_right _ _), step_rate_euler st⟩
      | rungeKutta =>
        exact ⟨i + 1, le_rfl, by linarith,
          step_rate good ((hu.len i (by omega)).trans (good_length good)) st⟩
  exact hη _ ti tT _ (hu.len k (by omega)) (close k k1 k2) _ _ k3 hv j hj

/-- C84: up to any time, and for any precision, all rows of `integrate` are that close to the exact motion from the
same start if the times are sufficiently close to each other: its states, and the rates of change of positions and
velocities that come with them, with either method, and also at times that are not evenly spaced. -/
theorem C84_integrate (d : Nat) (s : Dmp) (h : Reachable DefaultScaled Change.Forward d s) (x : ℝ → List ℝ)
    (hx : Obeys s x) (h0 : ∃ xd, (integrateStart none s).1 = .ok (x 0, xd)) (T : ℝ) (hT : 0 ≤ T) (m : Method) (ε : ℝ)
    (hε : 0 < ε) :
    ∃ δ : ℝ, 0 < δ ∧ ∀ ts rows, Spaced T δ ts → (integrate ts m s).1 = .ok rows →
      rows.length = ts.length ∧ ∀ i, i < ts.length →
        (∀ j, j < 4 * d + 2 →
          |(rows.getD i ([], [])).1.getD j 0 - (x (ts.getD i 0 - ts.getD 0 0)).getD j 0| ≤ ε) ∧
        ∀ v, (diffEq (x (ts.getD i 0 - ts.getD 0 0)) s).1 = .ok v → ∀ j, j < d + d →
          |(rows.getD i ([], [])).2.getD j 0 - v.getD j 0| ≤ ε := by
  have hs := (kept_standard.reachable init_standard h).toSettles
  have g := hs.inv.good
  obtain ⟨δ, δ0, hδ⟩ := integrate_close g hs.smooth hx h0 hT m hε
  refine ⟨δ, δ0, fun ts rows sp hr => ?_⟩
  obtain ⟨l, key⟩ := hδ ts rows sp hr
  refine ⟨l, fun i hi => ⟨fun j hj => (key i hi).1 j (by rw [good_length g]; exact hj), fun v hv j hj => ?_⟩⟩
  have dd : s.dimY = d := g.dim
  rcases lt_or_ge j d with c | c
  · exact ((key i hi).2 v hv j (by omega)).1
  · have := ((key i hi).2 v hv (j - d) (by omega)).2
    rwa [dd, Nat.add_sub_of_le c] at this

end Dmp

end Verif
