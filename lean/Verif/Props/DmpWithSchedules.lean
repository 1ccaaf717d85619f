import Verif.Model.DmpWithSchedules
import Verif.Spec.Schedules
import Verif.Props.Predictions
import Verif.Props.DmpTraining
import Verif.Proofs.ParamVector

/- DmpWithSchedules: bounds of the schedules (C30). -/

set_option autoImplicit false

namespace Verif

/-- The bound for schedule `i` that the user asked for. -/
def BoundArg.value : Option BoundArg → Nat → Option ℝ
  | none, _ => none
  | some (.scalar x), _ => some x
  | some (.list v), i => v[i]?
  | some (.array v), i => v[i]?

/-- A number, or one bound for each of the `n` schedules. -/
def BoundArg.Fits (n : Nat) : Option BoundArg → Prop
  | none => True
  | some (.scalar _) => True
  | some (.list v) => v.length = n
  | some (.array v) => v.length = n

/-- The lower bounds are not above the upper bounds. -/
def BoundArg.Ordered (n : Nat) (lo hi : Option BoundArg) : Prop :=
  ∀ i l h, i < n → BoundArg.value lo i = some l → BoundArg.value hi i = some h → l ≤ h

/-- The bounds that the code takes for None: the number 0 or an array of one 0, for one schedule. -/
def BoundArg.Ignored (n : Nat) : Option BoundArg → Prop
  | some (.scalar x) => n = 1 ∧ x = 0
  | some (.array v) => v = [0]
  | _ => False

theorem clipTo_spec {lo hi : Option ℝ} (h : ∀ a b, lo = some a → hi = some b → a ≤ b) (x : ℝ) :
    Spec.Clipped lo hi x (clipTo lo hi x) := by
  cases lo with
  | none =>
    cases hi with
    | none => exact ⟨⟨(fun _ h => nomatch h), (fun _ h => nomatch h)⟩, fun _ => rfl, fun z _ => by
        change |x - x| ≤ _
        rw [sub_self, abs_zero]
        exact abs_nonneg _⟩
    | some b =>
      change Spec.Clipped none (some b) x (min x b)
      refine ⟨⟨(fun _ h => nomatch h), fun c hc => by cases hc; exact min_le_right _ _⟩,
        fun hx => min_eq_left (hx.2 b rfl), fun z hz => ?_⟩
      have := hz.2 b rfl
      rcases le_total x b with hb | hb
      · rw [min_eq_left hb, sub_self, abs_zero]
        exact abs_nonneg _
      · rw [min_eq_right hb, abs_of_nonpos (by linarith), abs_of_nonpos (by linarith)]
        linarith
  | some a =>
    cases hi with
    | none =>
      change Spec.Clipped (some a) none x (max x a)
      refine ⟨⟨fun c hc => by cases hc; exact le_max_right _ _, (fun _ h => nomatch h)⟩,
        fun hx => max_eq_left (hx.1 a rfl), fun z hz => ?_⟩
      have := hz.1 a rfl
      rcases le_total x a with hb | hb
      · rw [max_eq_right hb, abs_of_nonneg (by linarith), abs_of_nonneg (by linarith)]
        linarith
      · rw [max_eq_left hb, sub_self, abs_zero]
        exact abs_nonneg _
    | some b =>
      have hab := h a b rfl rfl
      change Spec.Clipped (some a) (some b) x (min (max x a) b)
      refine ⟨⟨fun c hc => by cases hc; exact le_min (le_max_right _ _) hab,
          fun c hc => by cases hc; exact min_le_right _ _⟩,
        fun hx => by rw [max_eq_left (hx.1 a rfl), min_eq_left (hx.2 b rfl)], fun z hz => ?_⟩
      have h1 := hz.1 a rfl
      have h2 := hz.2 b rfl
      rcases le_total x a with hx | hx
      · rw [max_eq_right hx, min_eq_left hab, abs_of_nonneg (by linarith), abs_of_nonneg (by linarith)]
        linarith
      · rw [max_eq_left hx]
        rcases le_total x b with hb | hb
        · rw [min_eq_left hb, sub_self, abs_zero]
          exact abs_nonneg _
        · rw [min_eq_right hb, abs_of_nonpos (by linarith), abs_of_nonpos (by linarith)]
          linarith

/-- The bound used in the loop is the bound that was asked for, except if it is ignored. -/
theorem Bounds.pick_stored {n i : Nat} {b : Option BoundArg} (hb : BoundArg.Fits n b) (hi : i < n)
    (hg : ¬ BoundArg.Ignored n b) {v : Option ℝ} (h : Bounds.pick (b.map (BoundArg.stored n)) i = .ok v) :
    v = BoundArg.value b i := by
  cases b with
  | none => exact (Except.ok.inj h).symm
  | some b =>
    have key (l : List ℝ) (hl : l.length = n) (w : Option ℝ)
        (h' : (do return some (← (match l[i]? with
          | none => .error .indexError
          | some x => .ok x : Except PyErr ℝ)) : Except PyErr (Option ℝ)) = .ok w) : w = l[i]? := by
      rw [List.getElem?_eq_getElem (by omega)] at h' ⊢
      exact (Except.ok.inj h').symm
    have karr (l : List ℝ) (hl : l.length = n) (h0 : l ≠ [0])
        (h' : Bounds.pick (some (.array l)) i = .ok v) : v = l[i]? := by
      rcases l with _ | ⟨x, _ | ⟨y, l⟩⟩
      · simp at hl
        omega
      · have hx : x ≠ 0 := fun hx => h0 (by rw [hx])
        refine key [x] hl v (Eq.trans ?_ h')
        simp only [Bounds.pick, Bounds.truthy, hx, ne_eq, not_false_eq_true, decide_true]
        rfl
      · cases h'
    cases b with
    | scalar x =>
      have := karr (List.replicate n x) (by simp) (fun h0 => ?_) h
      · rw [this]
        simp [BoundArg.value, hi]
      · have hn : n = 1 := by simpa using congrArg List.length h0
        subst hn
        exact hg ⟨rfl, by simpa using h0⟩
    | list l =>
      have hl : l.length = n := hb
      refine key l hl v (Eq.trans ?_ h)
      have : l.isEmpty = false := by
        cases l with
        | nil => simp at hl; omega
        | cons => rfl
      simp only [Option.map_some, BoundArg.stored, Bounds.pick, Bounds.truthy, this, Bool.not_false]
      rfl
    | array l => exact karr l hb hg h

namespace DmpWithSchedules

theorem clipColumns_ok {s : DmpWithSchedules} {idx : List Nat} {a a' : Arr2 ℝ}
    (h : s.clipColumns idx a = .ok a') (hd : idx.Nodup) :
    a'.cols = a.cols ∧ a'.rows.length = a.rows.length ∧
    (∀ t, (a'.rows.getD t []).length = (a.rows.getD t []).length) ∧
    (∀ t j, j ∉ idx → (a'.rows.getD t []).getD j 0 = (a.rows.getD t []).getD j 0) ∧
    ∀ j ∈ idx, j < a.cols ∧ ∃ lo hi, Bounds.pick s.lo j = .ok lo ∧ Bounds.pick s.hi j = .ok hi ∧
      ∀ t, j < (a.rows.getD t []).length →
        (a'.rows.getD t []).getD j 0 = clipTo lo hi ((a.rows.getD t []).getD j 0) := by
  induction idx generalizing a with
  | nil =>
    obtain rfl := Except.ok.inj h
    exact ⟨rfl, rfl, fun _ => rfl, fun _ _ _ => rfl, fun _ hj => absurd hj (by simp)⟩
  | cons i rest ih =>
    obtain ⟨lo, hlo, h⟩ := except_bind_ok h
    obtain ⟨hi, hhi, h⟩ := except_bind_ok h
    obtain ⟨b, hb, h⟩ := except_bind_ok h
    obtain ⟨hni, hd⟩ := List.nodup_cons.mp hd
    unfold clipColumn at hb
    by_cases hc : a.cols ≤ i
    · rw [if_pos hc] at hb
      cases hb
    rw [if_neg hc] at hb
    by_cases hn : lo = none ∧ hi = none
    · rw [if_pos hn] at hb
      cases hb
    rw [if_neg hn] at hb
    have hb := Except.ok.inj hb
    obtain ⟨h1, h2, h3, h4, h5⟩ := ih h hd
    have hrow (t : Nat) : b.rows.getD t [] =
        (a.rows.getD t []).set i (clipTo lo hi ((a.rows.getD t []).getD i 0)) := by
      rw [← hb]
      by_cases ht : t < a.rows.length
      · simp [ht]
      · simp [ht]
    have hset (t j : Nat) (hji : j ≠ i) : (b.rows.getD t []).getD j 0 = (a.rows.getD t []).getD j 0 := by
      simp only [hrow, List.getD_eq_getElem?_getD, List.getElem?_set_ne (Ne.symm hji)]
    have hcols : b.cols = a.cols := by rw [← hb]
    have hlen : b.rows.length = a.rows.length := by rw [← hb]; simp
    refine ⟨h1.trans hcols, h2.trans hlen, fun t => ?_, fun t j hj => ?_, fun j hj => ?_⟩
    · rw [h3, hrow, List.length_set]
    · rw [h4 t j fun hm => hj (List.mem_cons_of_mem _ hm), hset t j fun e => hj (e ▸ List.mem_cons_self)]
    · rcases List.mem_cons.mp hj with rfl | hj
      · refine ⟨by omega, lo, hi, hlo, hhi, fun t ht => ?_⟩
        rw [h4 t j hni, hrow, List.getD_eq_getElem?_getD, List.getElem?_set_self ht]
        rfl
      · obtain ⟨g1, lo', hi', g2, g3, g4⟩ := h5 j hj
        refine ⟨hcols ▸ g1, lo', hi', g2, g3, fun t ht => ?_⟩
        have hji : j ≠ i := fun e => hni (e ▸ hj)
        rw [g4 t (by rw [hrow, List.length_set]; exact ht), hset t j hji]

/-- The object has the bounds that the user asked for. -/
structure Bounded (lo hi : Option BoundArg) (s : DmpWithSchedules) : Prop where
  lower : s.lo = lo.map (BoundArg.stored s.sched.length)
  upper : s.hi = hi.map (BoundArg.stored s.sched.length)
  fits : BoundArg.Fits s.sched.length lo ∧ BoundArg.Fits s.sched.length hi
  ordered : BoundArg.Ordered s.sched.length lo hi

variable {lo hi : Option BoundArg} {s : DmpWithSchedules}

theorem enforce_two (hs : Bounded lo hi s) (h1 : ¬ BoundArg.Ignored s.sched.length lo)
    (h2 : ¬ BoundArg.Ignored s.sched.length hi) {a : Arr2 ℝ} (ha : a.cols = s.sched.length)
    (hw : a.Wf) {r : Arr ℝ} (h : s.enforce (.two a) = .ok r) :
    ∃ rows, r = .two ⟨s.sched.length, rows⟩ ∧ rows.length = a.rows.length ∧ ∀ t, t < a.rows.length →
      (rows.getD t []).length = s.sched.length ∧ ∀ i, i < s.sched.length →
        Spec.Clipped (BoundArg.value lo i) (BoundArg.value hi i) ((a.rows.getD t []).getD i 0)
          ((rows.getD t []).getD i 0) := by
  have hlen (t : Nat) (ht : t < a.rows.length) : (a.rows.getD t []).length = s.sched.length := by
    rw [← ha]
    refine hw _ ?_
    rw [getD_lt ht]
    exact List.getElem_mem ht
  unfold enforce at h
  by_cases hn : s.lo.isNone = true ∧ s.hi.isNone = true
  · rw [if_pos hn] at h
    obtain rfl := Except.ok.inj h
    have e1 : lo = none := by
      have := hn.1
      rw [hs.lower] at this
      cases lo with
      | none => rfl
      | some _ => cases this
    have e2 : hi = none := by
      have := hn.2
      rw [hs.upper] at this
      cases hi with
      | none => rfl
      | some _ => cases this
    subst e1 e2
    refine ⟨a.rows, by rw [← ha], rfl, fun t ht => ⟨hlen t ht, fun i _ => ?_⟩⟩
    exact clipTo_spec (lo := none) (hi := none) (fun _ _ h => nomatch h) _
  · rw [if_neg hn] at h
    obtain ⟨b, hb, h⟩ := except_bind_ok h
    obtain rfl := Except.ok.inj h
    obtain ⟨g1, g2, g3, _, g5⟩ := clipColumns_ok hb List.nodup_range
    refine ⟨b.rows, ?_, g2, fun t ht => ⟨(g3 t).trans (hlen t ht), fun i hi' => ?_⟩⟩
    · rw [← ha, ← g1]
    obtain ⟨_, l, u, hl, hu, he⟩ := g5 i (List.mem_range.mpr hi')
    rw [hs.lower] at hl
    rw [hs.upper] at hu
    obtain rfl := Bounds.pick_stored hs.fits.1 hi' h1 hl
    obtain rfl := Bounds.pick_stored hs.fits.2 hi' h2 hu
    rw [he t (by rw [hlen t ht]; exact hi')]
    exact clipTo_spec (fun x y hx hy => hs.ordered i x y hi' hx hy) _

/-- The entries of an array. -/
def entries : Arr ℝ → List ℝ
  | .one v => v
  | .two a => a.rows.flatten

theorem enforce_one (hs : Bounded lo hi s) (h1 : ¬ BoundArg.Ignored s.sched.length lo)
    (h2 : ¬ BoundArg.Ignored s.sched.length hi) {v : List ℝ} (hv : v.length = s.sched.length)
    {r : Arr ℝ} (h : s.enforce (.one v) = .ok r) :
    (entries r).length = s.sched.length ∧ ∀ i, i < s.sched.length →
      Spec.Clipped (BoundArg.value lo i) (BoundArg.value hi i) (v.getD i 0) ((entries r).getD i 0) := by
  by_cases hn : s.lo.isNone = true ∧ s.hi.isNone = true
  · have h' : s.enforce (.two ⟨s.sched.length, [v]⟩) = .ok (.two ⟨s.sched.length, [v]⟩) := by
      unfold enforce
      rw [if_pos hn]
    obtain ⟨rows, e, _, g⟩ := enforce_two hs h1 h2 rfl
      (fun r hr => by rw [List.mem_singleton.mp hr, hv]) h'
    obtain rfl : [v] = rows := by cases e; rfl
    unfold enforce at h
    rw [if_pos hn] at h
    obtain rfl := Except.ok.inj h
    exact ⟨hv, (g 0 (by simp)).2⟩
  · have h' := h
    unfold enforce at h
    rw [if_neg hn] at h
    obtain ⟨b, hb, h⟩ := except_bind_ok h
    obtain rfl := Except.ok.inj h
    obtain ⟨g1, g2, g3, _, g5⟩ := clipColumns_ok hb List.nodup_range
    have hle : s.sched.length ≤ 1 := by
      by_contra hc
      have := (g5 1 (List.mem_range.mpr (by omega))).1
      simp at this
    rcases v with _ | ⟨x, _ | ⟨y, v⟩⟩
    · have : b.rows = [] := List.length_eq_zero_iff.mp (by rw [g2]; rfl)
      refine ⟨?_, fun i hi => ?_⟩
      · rw [← hv]
        simp [entries, this]
      · rw [← hv] at hi
        simp at hi
    · have hn1 : s.sched.length = 1 := hv.symm
      have e : s.enforce (.two ⟨s.sched.length, [[x]]⟩) = .ok (.two b) := by
        rw [hn1, ← h']
        unfold enforce
        rw [if_neg hn, if_neg hn]
        rfl
      obtain ⟨rows, e, g, g'⟩ := enforce_two hs h1 h2 rfl (fun r hr => by
        rw [List.mem_singleton.mp hr, hn1]; rfl) e
      obtain ⟨k1, k2⟩ := g' 0 (by simp)
      have er : b = ⟨s.sched.length, rows⟩ := by cases e; rfl
      rcases rows with _ | ⟨r, _ | ⟨r', rows⟩⟩
      · simp at g
      · rw [er]
        have : entries (.two ⟨s.sched.length, [r]⟩) = r := by simp [entries]
        rw [this]
        exact ⟨k1, k2⟩
      · simp at g
    · simp at hv
      omega

/-- The output of function approximator `i` for one phase. -/
def Predicts (s : DmpWithSchedules) (i : Nat) (phase p : ℝ) : Prop :=
  ∃ fa, s.sched[i]? = some fa ∧ fa.predict (fun (_ : Fin 1) (_ : Fin 1) => phase) = .ok fun _ => p

theorem predictAt_ok {phases col : List ℝ} {fa : Fa} (h : predictAt phases fa = .ok col) :
    col.length = phases.length ∧ ∀ t, t < phases.length →
      fa.predict (fun (_ : Fin 1) (_ : Fin 1) => phases.getD t 0) = .ok fun _ => col.getD t 0 := by
  obtain ⟨p, hp, h⟩ := except_bind_ok h
  obtain rfl := Except.ok.inj h
  refine ⟨by simp, fun t ht => ?_⟩
  have := (C39_batch fa (by omega) _ p).mp hp ⟨t, ht⟩
  rw [getD_lt ht, getD_lt (by simpa using ht)]
  simpa using this

theorem columns {phases : List ℝ} {cols : List (List ℝ)} (h : s.sched.mapM (predictAt phases) = .ok cols) :
    cols.length = s.sched.length ∧ ∀ i, i < s.sched.length → ∀ t, t < phases.length →
      s.Predicts i (phases.getD t 0) ((cols.getD i []).getD t 0) := by
  have hf := mapM_ok.mp h
  have hl : cols.length = s.sched.length := hf.length_eq.symm
  refine ⟨hl, fun i hi t ht => ⟨s.sched[i], by simp [hi], ?_⟩⟩
  have := (predictAt_ok (List.Forall₂.get hf hi (hl ▸ hi))).2 t ht
  have hi' : i < cols.length := by omega
  rw [getD_lt hi' []]
  exact this

theorem schedulesAt_ok (hs : Bounded lo hi s) (h1 : ¬ BoundArg.Ignored s.sched.length lo)
    (h2 : ¬ BoundArg.Ignored s.sched.length hi) {phases : List ℝ} {r : Arr ℝ}
    (h : s.schedulesAt phases = .ok r) :
    ∃ rows, r = .two ⟨s.sched.length, rows⟩ ∧ rows.length = phases.length ∧ ∀ t, t < phases.length →
      (rows.getD t []).length = s.sched.length ∧ ∀ i, i < s.sched.length → ∃ p,
        s.Predicts i (phases.getD t 0) p ∧
        Spec.Clipped (BoundArg.value lo i) (BoundArg.value hi i) p ((rows.getD t []).getD i 0) := by
  obtain ⟨cols, hc, h⟩ := except_bind_ok h
  obtain ⟨hl, hp⟩ := columns hc
  obtain ⟨rows, e, g, g'⟩ := enforce_two hs h1 h2 rfl (fun r hr => by
    obtain ⟨t, _, rfl⟩ := List.mem_map.mp hr
    simpa using hl) h
  refine ⟨rows, e, by rw [g]; simp, fun t ht => ?_⟩
  obtain ⟨k1, k2⟩ := g' t (by simpa using ht)
  refine ⟨k1, fun i hi => ⟨_, hp i hi t ht, ?_⟩⟩
  have := k2 i hi
  rw [getD_range_map ht, getD_map' (hl.symm ▸ hi) 0 []] at this
  exact this

theorem pickPhase (x : List ℝ) (d : Nat) : pickAt x (Dmp.PHASE d) = [x.getD (3 * d) 0] := by
  have : d + d + d = 3 * d := by ring
  simp [pickAt, Dmp.PHASE, this]

theorem schedulesNow_ok (hs : Bounded lo hi s) (h1 : ¬ BoundArg.Ignored s.sched.length lo)
    (h2 : ¬ BoundArg.Ignored s.sched.length hi) {x : List ℝ} {r : Arr ℝ} (h : s.schedulesNow x = .ok r) :
    (entries r).length = s.sched.length ∧ ∀ i, i < s.sched.length → ∃ p,
      s.Predicts i (x.getD (3 * s.dmp.dimY) 0) p ∧
      Spec.Clipped (BoundArg.value lo i) (BoundArg.value hi i) p ((entries r).getD i 0) := by
  unfold schedulesNow at h
  rw [pickPhase] at h
  obtain ⟨cols, hc, h⟩ := except_bind_ok h
  obtain ⟨hl, hp⟩ := columns hc
  obtain ⟨g1, g2⟩ := enforce_one hs h1 h2 (by simpa using hl) h
  refine ⟨g1, fun i hi => ⟨_, hp i hi 0 (by simp), ?_⟩⟩
  have := g2 i hi
  rw [getD_map' (hl.symm ▸ hi) 0 []] at this
  exact this

/-! ### The methods -/

/-- What the three methods have in common: the method of the superclass, then the schedules. -/
theorem after_super {α β γ : Type} (m : PyM Dmp α) (f : DmpWithSchedules → α → Except PyErr β)
    (g : α → β → γ) (s : DmpWithSchedules) :
    (do
      let a ← onDmp m
      let s ← PyM.self
      let b ← PyM.lift (f s a)
      return g a b : PyM DmpWithSchedules γ) s =
    (((m s.dmp).1.bind fun a => (f { s with dmp := (m s.dmp).2 } a).map (g a)),
      { s with dmp := (m s.dmp).2 }) := by
  rcases e : m s.dmp with ⟨x, d⟩
  have e' : onDmp m s = (x, { s with dmp := d }) := by
    change ((m s.dmp).1, ({ s with dmp := (m s.dmp).2 } : DmpWithSchedules)) = _
    rw [e]
  cases x with
  | error er => rw [PyM.bind_error e']; rfl
  | ok a =>
    rw [PyM.bind_ok e', PyM.self_bind]
    change _ = (Except.map (g a) (f { s with dmp := d } a), _)
    cases f { s with dmp := d } a with
    | error er => rfl
    | ok b => rfl

theorem after_super_ok {α β γ : Type} {m : PyM Dmp α} {f : DmpWithSchedules → α → Except PyErr β}
    {g : α → β → γ} {s s' : DmpWithSchedules} {c : γ}
    (h : (((m s.dmp).1.bind fun a => (f { s with dmp := (m s.dmp).2 } a).map (g a)),
      ({ s with dmp := (m s.dmp).2 } : DmpWithSchedules)) = (.ok c, s')) :
    s' = { s with dmp := (m s.dmp).2 } ∧ ∃ a b, m s.dmp = (.ok a, s'.dmp) ∧ f s' a = .ok b ∧ c = g a b := by
  obtain ⟨h1, h2⟩ := Prod.mk.inj h
  subst h2
  refine ⟨rfl, ?_⟩
  obtain ⟨a, ha, h1⟩ := except_bind_ok (f := fun a => (f { s with dmp := (m s.dmp).2 } a).map (g a)) h1
  cases hb : f { s with dmp := (m s.dmp).2 } a with
  | error e => rw [hb] at h1; cases h1
  | ok b =>
    rw [hb] at h1
    exact ⟨a, b, by rw [← ha], hb, (Except.ok.inj h1).symm⟩

/-- The times of the analytical solution. -/
def timesOf (s : DmpWithSchedules) (ts? : Option (List ℝ)) : Option (List ℝ) := ts?.orElse fun _ => s.dmp.tsTrain

theorem analyticalSched_run (ts? : Option (List ℝ)) (s : DmpWithSchedules) :
    analyticalSched ts? s =
      match s.timesOf ts? with
      | none => (.error .valueError, s)
      | some ts =>
        ((((Dmp.analytical (some ts)) s.dmp).1.bind fun sol =>
          (({ s with dmp := (Dmp.analytical (some ts) false s.dmp).2 } : DmpWithSchedules).schedulesAt
            (sol.xs.map fun x => x.getD (3 * (Dmp.analytical (some ts) false s.dmp).2.dimY) 0)).map (sol, ·)),
          { s with dmp := (Dmp.analytical (some ts) false s.dmp).2 }) := by
  have key (ts : List ℝ) := after_super (Dmp.analytical (some ts))
    (fun s sol => s.schedulesAt (sol.xs.map fun x => (pickAt x (Dmp.PHASE s.dmp.dimY)).getD 0 0))
    (fun sol r => (sol, r)) s
  simp only [pickPhase, List.getD_cons_zero] at key
  unfold analyticalSched
  rw [PyM.self_bind]
  simp only [pickPhase, List.getD_cons_zero]
  cases ts? with
  | some ts => exact key ts
  | none =>
    cases hT : s.dmp.tsTrain with
    | none =>
      simp only [timesOf, hT]
      rfl
    | some ts =>
      simp only [timesOf, hT]
      exact key ts

theorem integrateStartSched_run (y : Option (List ℝ)) (s : DmpWithSchedules) :
    integrateStartSched y s =
      (((Dmp.integrateStart y s.dmp).1.bind fun r =>
        (({ s with dmp := (Dmp.integrateStart y s.dmp).2 } : DmpWithSchedules).schedulesNow r.1).map
          fun v => (r.1, r.2, v)),
        { s with dmp := (Dmp.integrateStart y s.dmp).2 }) :=
  after_super (Dmp.integrateStart y) (fun s r => s.schedulesNow r.1) (fun r v => (r.1, r.2, v)) s

theorem integrateStepSched_run (m : DynSys.Method) (dt : ℝ) (x : List ℝ) (s : DmpWithSchedules) :
    integrateStepSched m dt x s =
      (((DynSys.step m dt x : PyM Dmp _) s.dmp).1.bind fun r =>
        (({ s with dmp := (DynSys.step m dt x s.dmp).2 } : DmpWithSchedules).schedulesNow r.1).map
          fun v => (r.1, r.2, v),
        { s with dmp := (DynSys.step m dt x s.dmp).2 }) :=
  after_super (DynSys.step m dt x) (fun s r => s.schedulesNow r.1) (fun r v => (r.1, r.2, v)) s

/-! ### Bounds -/

/-- Calls of methods that change the object. -/
inductive Op
  | train (traj : Trajectory ℝ) (schedules : Option (Arr2 ℝ))
  | analytical (ts? : Option (List ℝ))
  | start (y : Option (List ℝ))
  | step (m : DynSys.Method) (dt : ℝ) (x : List ℝ)
  | select (names : List String)
  | params (values : List ℝ)
  | super (m : PyM Dmp Unit)

noncomputable def Op.run : Op → PyM DmpWithSchedules Unit
  | .train traj schedules => trainSched traj schedules
  | .analytical ts? => do let _ ← analyticalSched ts?
  | .start y => do let _ ← integrateStartSched y
  | .step m dt x => do let _ ← integrateStepSched m dt x
  | .select names => setSelected names
  | .params values => setParamVector values
  | .super m => onDmp m

/-- The state after calls of methods, which may raise exceptions. -/
noncomputable def after (s : DmpWithSchedules) (ops : List Op) : DmpWithSchedules := ops.foldl (fun s o => (o.run s).2) s

/-- The method leaves the bounds and the number of schedules unchanged. -/
def Same {α : Type} (m : PyM DmpWithSchedules α) : Prop :=
  ∀ s, (m s).2.lo = s.lo ∧ (m s).2.hi = s.hi ∧ (m s).2.sched.length = s.sched.length

namespace Same

variable {α β : Type}

theorem pure (a : α) : Same (Pure.pure a) := fun _ => ⟨rfl, rfl, rfl⟩
theorem raise (e : PyErr) : Same (PyM.raise e : PyM DmpWithSchedules α) := fun _ => ⟨rfl, rfl, rfl⟩
theorem self : Same (PyM.self : PyM DmpWithSchedules _) := fun _ => ⟨rfl, rfl, rfl⟩
theorem lift (e : Except PyErr α) : Same (PyM.lift e) := fun s => by
  cases e <;> exact ⟨rfl, rfl, rfl⟩
theorem super (m : PyM Dmp α) : Same (onDmp m) := fun _ => ⟨rfl, rfl, rfl⟩
theorem sched {m : PyM (List Fa) α} (h : ∀ l, (m l).2.length = l.length) : Same (onSched m) :=
  fun _ => ⟨rfl, rfl, h _⟩
theorem bind {m : PyM DmpWithSchedules α} {f : α → PyM DmpWithSchedules β} (hm : Same m)
    (hf : ∀ a, Same (f a)) : Same (m >>= f) := fun s => by
  rw [PyM.bind_apply]
  have h1 := hm s
  rcases e : m s with ⟨x, t⟩
  rw [e] at h1
  cases x with
  | error er => exact h1
  | ok a =>
    obtain ⟨g1, g2, g3⟩ := hf a t
    exact ⟨g1.trans h1.1, g2.trans h1.2.1, g3.trans h1.2.2⟩

end Same

theorem length_trainFas (phases : List ℝ) (targets : List (List ℝ)) (idx : List Nat) (l : List Fa) :
    (Dmp.trainFas phases targets idx l).2.length = l.length := by
  induction idx generalizing l with
  | nil => rfl
  | cons i rest ih =>
    have h1 : (Dmp.trainFa phases targets i l).2.length = l.length := by
      unfold Dmp.trainFa
      simp only
      split
      · rfl
      · simp
    change ((Dmp.trainFa phases targets i >>= fun _ => Dmp.trainFas phases targets rest) l).2.length = _
    rw [PyM.bind_apply]
    rcases e : Dmp.trainFa phases targets i l with ⟨x, t⟩
    rw [e] at h1
    cases x with
    | error er => exact h1
    | ok a => exact (ih t).trans h1

theorem length_setFas (v : List ℝ) (l : List Fa) : (Dmp.setFas v l).2.length = l.length := by
  induction l generalizing v with
  | nil => rfl
  | cons fa l ih =>
    unfold Dmp.setFas
    (repeat' split) <;> simp [ih]

theorem same_run (o : Op) : Same o.run := by
  cases o with
  | train traj schedules =>
    refine .bind (.super _) fun _ => .bind (.super _) fun sol => .bind .self fun s =>
      .bind (.lift _) fun t => ?_
    cases t with
    | none => exact .raise _
    | some t =>
      simp only
      by_cases h1 : t.cols ≠ s.sched.length
      · rw [if_pos h1]; exact .raise _
      · rw [if_neg h1]
        split
        · exact .raise _
        · exact .sched fun l => length_trainFas _ _ _ l
  | analytical ts? =>
    refine .bind (fun s => ?_) fun _ => .pure _
    rw [analyticalSched_run]
    split <;> exact ⟨rfl, rfl, rfl⟩
  | start y =>
    exact .bind (.bind (.super _) fun r => .bind .self fun s => .bind (.lift _) fun v => .pure _)
      fun _ => .pure _
  | step m dt x =>
    exact .bind (.bind (.super _) fun r => .bind .self fun s => .bind (.lift _) fun v => .pure _)
      fun _ => .pure _
  | select names =>
    refine .bind (.sched fun l => ?_) fun _ => .super _
    rw [PyM.modify_apply]
    simp
  | params values =>
    refine .bind .self fun s => .bind (.lift _) fun size => ?_
    split
    · exact .raise _
    refine .bind (.lift _) fun n => ?_
    split
    · exact .raise _
    have h (r : Unit) : Same (onSched ⟨Dmp.setFas (values.drop n)⟩ >>= fun _ => Pure.pure r) :=
      .bind (.sched (m := ⟨Dmp.setFas _⟩) fun l => length_setFas _ l) fun _ => .pure _
    simp only
    split
    · exact .bind (.super _) fun _ => h ()
    · exact h ()
  | super m => exact .super m

/-- C30: the constructor stores the bounds, and no method changes them. -/
theorem C30_bounds {tau : ℝ} {yInit yAttr : List ℝ} {fas : Option (List Fa)} {sched : List Fa}
    {lo hi : Option BoundArg} {o : Dmp.Options} {s : DmpWithSchedules}
    (hs : init tau yInit yAttr fas sched lo hi o = .ok s)
    (hf : BoundArg.Fits sched.length lo ∧ BoundArg.Fits sched.length hi)
    (ho : BoundArg.Ordered sched.length lo hi) (ops : List Op) :
    (s.after ops).sched.length = sched.length ∧ Bounded lo hi (s.after ops) := by
  obtain ⟨d, _, h⟩ := except_bind_ok hs
  obtain rfl := Except.ok.inj h
  suffices h : ∀ s : DmpWithSchedules, s.sched.length = sched.length → Bounded lo hi s →
      (s.after ops).sched.length = sched.length ∧ Bounded lo hi (s.after ops) from
    h _ rfl ⟨rfl, rfl, hf, ho⟩
  induction ops with
  | nil => exact fun s h1 h2 => ⟨h1, h2⟩
  | cons o ops ih =>
    intro s h1 h2
    obtain ⟨g1, g2, g3⟩ := same_run o s
    refine ih (o.run s).2 (g3.trans h1) ⟨?_, ?_, ?_, ?_⟩
    · rw [g1, g3, h2.lower]
    · rw [g2, g3, h2.upper]
    · rw [g3]; exact h2.fits
    · rw [g3]; exact h2.ordered

/-- The schedules for the states `xs`, one row for each state. -/
def RowsClipped (lo hi : Option BoundArg) (s : DmpWithSchedules) (xs : List (List ℝ)) (r : Arr ℝ) : Prop :=
  ∃ rows, r = .two ⟨s.sched.length, rows⟩ ∧ rows.length = xs.length ∧ ∀ t, t < xs.length →
    (rows.getD t []).length = s.sched.length ∧ ∀ i, i < s.sched.length → ∃ p,
      s.Predicts i ((xs.getD t []).getD (3 * s.dmp.dimY) 0) p ∧
      Spec.Clipped (BoundArg.value lo i) (BoundArg.value hi i) p ((rows.getD t []).getD i 0)

/-- The schedules for the state `x`. -/
def NowClipped (lo hi : Option BoundArg) (s : DmpWithSchedules) (x : List ℝ) (r : Arr ℝ) : Prop :=
  (entries r).length = s.sched.length ∧ ∀ i, i < s.sched.length → ∃ p,
    s.Predicts i (x.getD (3 * s.dmp.dimY) 0) p ∧
    Spec.Clipped (BoundArg.value lo i) (BoundArg.value hi i) p ((entries r).getD i 0)

/-- Statement C30 for an object in the state `s`. -/
def RespectsBounds (lo hi : Option BoundArg) (s : DmpWithSchedules) : Prop :=
  (∀ ts? sol r s', analyticalSched ts? s = (.ok (sol, r), s') → RowsClipped lo hi s' sol.xs r) ∧
  (∀ y x xd r s', integrateStartSched y s = (.ok (x, xd, r), s') → NowClipped lo hi s' x r) ∧
  (∀ m dt x₀ x xd r s', integrateStepSched m dt x₀ s = (.ok (x, xd, r), s') → NowClipped lo hi s' x r)

/-- Statement C30: all values of schedules are in the bounds, and values in the bounds are not
changed. -/
def C30_statement : Prop :=
  ∀ tau yInit yAttr fas sched lo hi o s, init tau yInit yAttr fas sched lo hi o = .ok s →
    BoundArg.Fits sched.length lo → BoundArg.Fits sched.length hi → BoundArg.Ordered sched.length lo hi →
    ∀ ops, RespectsBounds lo hi (s.after ops)

/-- C30, except for bounds that are the number 0 or an array with the single entry 0 for one schedule
(see `C30_refuted`). The methods raise exceptions in many cases for more than one schedule, see
`C30_arrays` and `C30_single`. -/
theorem C30_partial {tau : ℝ} {yInit yAttr : List ℝ} {fas : Option (List Fa)} {sched : List Fa}
    {lo hi : Option BoundArg} {o : Dmp.Options} {s : DmpWithSchedules}
    (hs : init tau yInit yAttr fas sched lo hi o = .ok s)
    (h1 : BoundArg.Fits sched.length lo) (h2 : BoundArg.Fits sched.length hi)
    (ho : BoundArg.Ordered sched.length lo hi)
    (g1 : ¬ BoundArg.Ignored sched.length lo) (g2 : ¬ BoundArg.Ignored sched.length hi) (ops : List Op) :
    RespectsBounds lo hi (s.after ops) := by
  obtain ⟨hn, hb⟩ := C30_bounds hs ⟨h1, h2⟩ ho ops
  generalize s.after ops = s at hn hb
  rw [← hn] at g1 g2
  have hb' (d : Dmp) : Bounded lo hi { s with dmp := d } := ⟨hb.lower, hb.upper, hb.fits, hb.ordered⟩
  refine ⟨fun ts? sol r s' h => ?_, fun y x xd r s' h => ?_, fun m dt x₀ x xd r s' h => ?_⟩
  · rw [analyticalSched_run] at h
    cases hT : s.timesOf ts? with
    | none => rw [hT] at h; cases h
    | some ts =>
      rw [hT] at h
      obtain ⟨rfl, a, b, _, hc, e⟩ := after_super_ok (m := Dmp.analytical (some ts))
        (f := fun s sol => s.schedulesAt (sol.xs.map fun x => x.getD (3 * s.dmp.dimY) 0))
        (g := fun sol r => (sol, r)) h
      obtain ⟨rfl, rfl⟩ := Prod.mk.inj e
      obtain ⟨rows, e, g, g'⟩ := schedulesAt_ok (hb' (Dmp.analytical (some ts) false s.dmp).2) g1 g2 hc
      rw [List.length_map] at g g'
      refine ⟨rows, e, g, fun t ht => ⟨(g' t ht).1, fun i hi => ?_⟩⟩
      obtain ⟨p, hp, hk⟩ := (g' t ht).2 i hi
      rw [getD_map' ht 0 []] at hp
      exact ⟨p, hp, hk⟩
  · rw [integrateStartSched_run] at h
    obtain ⟨rfl, a, b, _, hc, e⟩ := after_super_ok (m := Dmp.integrateStart y)
      (f := fun s r => s.schedulesNow r.1) (g := fun r v => (r.1, r.2, v)) h
    obtain ⟨rfl, rfl, rfl⟩ : x = a.1 ∧ xd = a.2 ∧ r = b := by
      cases e; exact ⟨rfl, rfl, rfl⟩
    exact schedulesNow_ok (hb' (Dmp.integrateStart y s.dmp).2) g1 g2 hc
  · rw [integrateStepSched_run] at h
    obtain ⟨rfl, a, b, _, hc, e⟩ := after_super_ok (m := DynSys.step m dt x₀)
      (f := fun s r => s.schedulesNow r.1) (g := fun r v => (r.1, r.2, v)) h
    obtain ⟨rfl, rfl, rfl⟩ : x = a.1 ∧ xd = a.2 ∧ r = b := by
      cases e; exact ⟨rfl, rfl, rfl⟩
    exact schedulesNow_ok (hb' (DynSys.step m dt x₀ s.dmp).2) g1 g2 hc

/-! ### When values are returned -/

/-- None or a Python list. -/
def BoundArg.isList : Option BoundArg → Prop
  | none => True
  | some (.list _) => True
  | _ => False

theorem pick_list {n i : Nat} {b : Option BoundArg} (hb : BoundArg.Fits n b) (hi : i < n)
    (hl : BoundArg.isList b) : Bounds.pick (b.map (BoundArg.stored n)) i = .ok (BoundArg.value b i) ∧
      (BoundArg.value b i = none ↔ b = none) := by
  cases b with
  | none => exact ⟨rfl, Iff.intro (fun _ => rfl) fun _ => rfl⟩
  | some b =>
    cases b with
    | scalar => exact hl.elim
    | array => exact hl.elim
    | list l =>
      have hl : l.length = n := hb
      have h0 : l.isEmpty = false := by
        cases l with
        | nil => simp at hl; omega
        | cons => rfl
      have hv : l[i]? = some (l[i]'(by omega)) := List.getElem?_eq_getElem (by omega)
      refine ⟨?_, ?_⟩
      · simp only [Option.map_some, BoundArg.stored, Bounds.pick, Bounds.truthy, h0, Bool.not_false,
          BoundArg.value, Bounds.get, hv]
        rfl
      · simp [BoundArg.value, hv]

theorem pick_array {n : Nat} {b : Option BoundArg} (hb : BoundArg.Fits n b) (hn : 2 ≤ n)
    (hl : ¬ BoundArg.isList b) (i : Nat) :
    Bounds.pick (b.map (BoundArg.stored n)) i = .error .valueError := by
  have key (l : List ℝ) (hl : l.length = n) : Bounds.pick (some (.array l)) i = .error .valueError := by
    rcases l with _ | ⟨x, _ | ⟨y, l⟩⟩
    · simp at hl; omega
    · simp at hl; omega
    · rfl
  cases b with
  | none => exact absurd trivial hl
  | some b =>
    cases b with
    | scalar x => exact key (List.replicate n x) (by simp)
    | array l => exact key l hb
    | list => exact absurd trivial hl

theorem clipColumns_list (hs : Bounded lo hi s) (hl : BoundArg.isList lo) (hh : BoundArg.isList hi)
    (hne : lo ≠ none ∨ hi ≠ none) (idx : List Nat) (a : Arr2 ℝ) (ha : ∀ i ∈ idx, i < s.sched.length)
    (hc : s.sched.length ≤ a.cols) : ∃ b, s.clipColumns idx a = .ok b := by
  induction idx generalizing a with
  | nil => exact ⟨a, rfl⟩
  | cons i rest ih =>
    have hi' := ha i List.mem_cons_self
    obtain ⟨p1, q1⟩ := pick_list hs.fits.1 hi' hl
    obtain ⟨p2, q2⟩ := pick_list hs.fits.2 hi' hh
    rw [← hs.lower] at p1
    rw [← hs.upper] at p2
    unfold clipColumns
    rw [p1, p2]
    simp only [Dmp.except_ok_bind]
    unfold clipColumn
    rw [if_neg (by omega), if_neg (by rw [q1, q2]; tauto), Dmp.except_ok_bind]
    exact ih _ (fun j hj => ha j (List.mem_cons_of_mem _ hj)) hc

theorem bounds_none (hs : Bounded lo hi s) :
    (s.lo.isNone = true ∧ s.hi.isNone = true) ↔ (lo = none ∧ hi = none) := by
  rw [hs.lower, hs.upper]
  cases lo <;> cases hi <;> simp

theorem enforce_list (hs : Bounded lo hi s) (hl : BoundArg.isList lo) (hh : BoundArg.isList hi) (a : Arr2 ℝ)
    (ha : a.cols = s.sched.length) : ∃ r, s.enforce (.two a) = .ok r := by
  unfold enforce
  by_cases hn : s.lo.isNone = true ∧ s.hi.isNone = true
  · rw [if_pos hn]
    exact ⟨_, rfl⟩
  · rw [if_neg hn]
    obtain ⟨b, hb⟩ := clipColumns_list hs hl hh (by rw [bounds_none hs] at hn; tauto)
      (List.range s.sched.length) a (fun i hi => List.mem_range.mp hi) ha.ge
    refine ⟨.two b, ?_⟩
    simp only
    rw [hb]
    rfl

theorem enforce_array (hs : Bounded lo hi s) (hn : 2 ≤ s.sched.length)
    (hb : ¬ BoundArg.isList lo ∨ ¬ BoundArg.isList hi) (a : Arr ℝ) : s.enforce a = .error .valueError := by
  have hne : ¬ (s.lo.isNone = true ∧ s.hi.isNone = true) := by
    rw [bounds_none hs]
    rintro ⟨rfl, rfl⟩
    rcases hb with hb | hb <;> exact hb trivial
  have key (b : Arr2 ℝ) : s.clipColumns (List.range s.sched.length) b = .error .valueError := by
    obtain ⟨n, e⟩ : ∃ n, s.sched.length = n + 1 := ⟨s.sched.length - 1, by omega⟩
    rw [e, List.range_succ_eq_map]
    unfold clipColumns
    by_cases hl : BoundArg.isList lo
    · obtain ⟨p1, _⟩ := pick_list hs.fits.1 (show 0 < s.sched.length by omega) hl
      have p2 := pick_array hs.fits.2 hn (hb.resolve_left fun h => h hl) 0
      rw [← hs.lower] at p1
      rw [← hs.upper] at p2
      rw [p1, p2]
      rfl
    · have p1 := pick_array hs.fits.1 hn hl 0
      rw [← hs.lower] at p1
      rw [p1]
      rfl
  unfold enforce
  rw [if_neg hne]
  simp only
  rw [key]
  rfl

theorem enforce_single (hs : Bounded lo hi s) (hn : 2 ≤ s.sched.length) (hl : BoundArg.isList lo)
    (hh : BoundArg.isList hi) (hne : lo ≠ none ∨ hi ≠ none) (v : List ℝ) :
    s.enforce (.one v) = .error .indexError := by
  have hne' : ¬ (s.lo.isNone = true ∧ s.hi.isNone = true) := by
    rw [bounds_none hs]
    tauto
  have key (b : Arr2 ℝ) (hb : b.cols = 1) :
      s.clipColumns (List.range s.sched.length) b = .error .indexError := by
    obtain ⟨n, e⟩ : ∃ n, s.sched.length = n + 2 := ⟨s.sched.length - 2, by omega⟩
    rw [e, List.range_succ_eq_map, List.range_succ_eq_map]
    obtain ⟨p1, q1⟩ := pick_list hs.fits.1 (show 0 < s.sched.length by omega) hl
    obtain ⟨p2, q2⟩ := pick_list hs.fits.2 (show 0 < s.sched.length by omega) hh
    obtain ⟨p1', _⟩ := pick_list hs.fits.1 (show 1 < s.sched.length by omega) hl
    obtain ⟨p2', _⟩ := pick_list hs.fits.2 (show 1 < s.sched.length by omega) hh
    rw [← hs.lower] at p1 p1'
    rw [← hs.upper] at p2 p2'
    unfold clipColumns
    rw [p1, p2]
    simp only [Dmp.except_ok_bind]
    unfold clipColumn
    rw [if_neg (by omega), if_neg (by rw [q1, q2]; tauto), Dmp.except_ok_bind]
    simp only [List.map_cons]
    unfold clipColumns
    rw [p1', p2']
    simp only [Dmp.except_ok_bind]
    unfold clipColumn
    rw [if_pos (by simp [hb])]
    rfl
  unfold enforce
  rw [if_neg hne']
  simp only
  rw [key _ rfl]
  rfl

/-- The function approximators can predict for all these phases. -/
def Trained (s : DmpWithSchedules) (phases : List ℝ) : Prop :=
  ∀ fa ∈ s.sched, ∃ p, fa.predict (fun (t : Fin phases.length) (_ : Fin 1) => phases[t]) = .ok p

theorem Trained.columns {phases : List ℝ} (h : s.Trained phases) :
    ∃ cols, s.sched.mapM (predictAt phases) = .ok cols := by
  have : ∀ l : List Fa, (∀ fa ∈ l, fa ∈ s.sched) → ∃ cols, l.mapM (predictAt phases) = .ok cols := by
    intro l hl
    induction l with
    | nil => exact ⟨[], rfl⟩
    | cons fa l ih =>
      obtain ⟨p, hp⟩ := h fa (hl fa List.mem_cons_self)
      obtain ⟨cols, hc⟩ := ih fun fa hf => hl fa (List.mem_cons_of_mem _ hf)
      refine ⟨List.ofFn p :: cols, ?_⟩
      have e : predictAt phases fa = .ok (List.ofFn p) := by
        unfold predictAt
        rw [hp]
        rfl
      rw [List.mapM_cons, e, hc]
      rfl
  exact this _ fun _ h => h

/-- C30: with bounds that are lists, analytical_solution_sched returns schedules whenever
analytical_solution returns states and the function approximators can predict. -/
theorem C30_lists (hs : Bounded lo hi s) (hl : BoundArg.isList lo) (hh : BoundArg.isList hi)
    {ts : List ℝ} {sol : Dmp.Solution} {d : Dmp} (ha : Dmp.analytical (some ts) false s.dmp = (.ok sol, d))
    (ht : s.Trained (sol.xs.map fun x => x.getD (3 * d.dimY) 0)) :
    ∃ r, analyticalSched (some ts) s = (.ok (sol, r), { s with dmp := d }) := by
  obtain ⟨cols, hc⟩ := ht.columns
  rw [analyticalSched_run]
  simp only [timesOf, Option.orElse_some, ha, Except.bind]
  obtain ⟨r, hr⟩ := enforce_list (s := { s with dmp := d }) ⟨hs.lower, hs.upper, hs.fits, hs.ordered⟩ hl hh
    ⟨s.sched.length, (List.range (sol.xs.map fun x => x.getD (3 * d.dimY) 0).length).map
      fun t => cols.map fun c => c.getD t 0⟩ rfl
  refine ⟨r, ?_⟩
  unfold schedulesAt
  simp only
  rw [hc, Dmp.except_ok_bind, hr]
  rfl

/-- C30: for several schedules with bounds that are numbers or arrays, ValueError is raised, because the
truth value of an array is ambiguous. -/
theorem C30_arrays (hs : Bounded lo hi s) (hn : 2 ≤ s.sched.length)
    (hb : ¬ BoundArg.isList lo ∨ ¬ BoundArg.isList hi) :
    (∀ ts sol d, Dmp.analytical (some ts) false s.dmp = (.ok sol, d) →
      s.Trained (sol.xs.map fun x => x.getD (3 * d.dimY) 0) →
      analyticalSched (some ts) s = (.error .valueError, { s with dmp := d })) ∧
    (∀ y x xd d, Dmp.integrateStart y s.dmp = (.ok (x, xd), d) → s.Trained [x.getD (3 * d.dimY) 0] →
      integrateStartSched y s = (.error .valueError, { s with dmp := d })) ∧
    (∀ m dt x₀ x xd d, DynSys.step m dt x₀ s.dmp = (.ok (x, xd), d) → s.Trained [x.getD (3 * d.dimY) 0] →
      integrateStepSched m dt x₀ s = (.error .valueError, { s with dmp := d })) := by
  have he (d : Dmp) (a : Arr ℝ) : ({ s with dmp := d } : DmpWithSchedules).enforce a = .error .valueError :=
    enforce_array (lo := lo) (hi := hi) (s := { s with dmp := d }) ⟨hs.lower, hs.upper, hs.fits, hs.ordered⟩ hn hb a
  refine ⟨fun ts sol d ha ht => ?_, fun y x xd d ha ht => ?_, fun m dt x₀ x xd d ha ht => ?_⟩
  · obtain ⟨cols, hc⟩ := ht.columns
    rw [analyticalSched_run]
    simp only [timesOf, Option.orElse_some, ha, Except.bind]
    unfold schedulesAt
    simp only
    rw [hc, Dmp.except_ok_bind, he]
    rfl
  · obtain ⟨cols, hc⟩ := ht.columns
    rw [integrateStartSched_run, ha]
    simp only [Except.bind]
    unfold schedulesNow
    simp only
    rw [pickPhase, hc, Dmp.except_ok_bind, he]
    rfl
  · obtain ⟨cols, hc⟩ := ht.columns
    rw [integrateStepSched_run, ha]
    simp only [Except.bind]
    unfold schedulesNow
    simp only
    rw [pickPhase, hc, Dmp.except_ok_bind, he]
    rfl

/-- C30: for several schedules with bounds that are lists, integrate_start_sched and
integrate_step_sched raise IndexError. -/
theorem C30_single (hs : Bounded lo hi s) (hn : 2 ≤ s.sched.length)
    (hl : BoundArg.isList lo) (hh : BoundArg.isList hi) (hne : lo ≠ none ∨ hi ≠ none) :
    (∀ y x xd d, Dmp.integrateStart y s.dmp = (.ok (x, xd), d) → s.Trained [x.getD (3 * d.dimY) 0] →
      integrateStartSched y s = (.error .indexError, { s with dmp := d })) ∧
    (∀ m dt x₀ x xd d, DynSys.step m dt x₀ s.dmp = (.ok (x, xd), d) → s.Trained [x.getD (3 * d.dimY) 0] →
      integrateStepSched m dt x₀ s = (.error .indexError, { s with dmp := d })) := by
  have he (d : Dmp) (v : List ℝ) :
      ({ s with dmp := d } : DmpWithSchedules).enforce (.one v) = .error .indexError :=
    enforce_single (lo := lo) (hi := hi) (s := { s with dmp := d }) ⟨hs.lower, hs.upper, hs.fits, hs.ordered⟩ hn hl hh hne v
  refine ⟨fun y x xd d ha ht => ?_, fun m dt x₀ x xd d ha ht => ?_⟩
  · obtain ⟨cols, hc⟩ := ht.columns
    rw [integrateStartSched_run, ha]
    simp only [Except.bind]
    unfold schedulesNow
    simp only
    rw [pickPhase, hc, Dmp.except_ok_bind, he]
    rfl
  · obtain ⟨cols, hc⟩ := ht.columns
    rw [integrateStepSched_run, ha]
    simp only [Except.bind]
    unfold schedulesNow
    simp only
    rw [pickPhase, hc, Dmp.except_ok_bind, he]
    rfl

/-! ### A bound that is ignored -/

/-- A default Dmp has an analytical solution. -/
theorem default_analytical : ∃ s, Dmp.init 1 [0] [2] none = .ok s ∧ s.dimY = 1 ∧ ∀ ts : List ℝ, ts ≠ [] →
    ∃ sol d, Dmp.analytical (some ts) false s = (.ok sol, d) ∧ sol.xs.length = ts.length := by
  obtain ⟨s, hs⟩ := (Dmp.C16_types 1 [0] [2] none {}).1 (by simp [Dmp.known])
  have hr : Dmp.Reachable Dmp.Consistent Dmp.Change.Forward 1 s := .init hs rfl rfl
    ⟨(fun _ h => nomatch h), trivial, (fun _ h => nomatch h), (fun _ h => nomatch h),
      (fun _ h => nomatch h), (fun _ h => nomatch h), (fun _ h => nomatch h)⟩
    ⟨(fun _ h => nomatch h), one_pos, (fun _ h => nomatch h)⟩
  have hT := Dmp.kept_timed.reachable Dmp.init_timed hr
  obtain ⟨D, hD, hseq⟩ := Dmp.init_eq hs
  unfold Dmp.defaults at hD
  rw [if_neg (by simp only; decide), if_pos (by simp only; decide)] at hD
  have hD := Except.ok.inj hD
  refine ⟨s, hs, hT.inv.dim, fun ts hne => ?_⟩
  have hfas : s.fas = none := by rw [hseq]
  have hreq : s.requiresScaling = false := by rw [hseq, ← hD]
  have hsca : s.scaling = .noScaling := by rw [hseq]
  have hfa : s.faUsed ts false = .ok (List.replicate ts.length (vzeros 1)) := by
    unfold Dmp.faUsed Dmp.predictions
    rw [hfas, hT.inv.dim]
    simp only [List.length_map]
    rfl
  have hcf : s.CanForce := by
    unfold Dmp.CanForce
    rw [hsca]
    trivial
  have hcs : s.CanScale := by
    intro h
    rw [hreq] at h
    cases h
  have han := (Dmp.analytical_iff hT.inv.wf (Dmp.sameStart_of_tau hT.springTau)).mpr
    ⟨hcs, hcf, hne, _, hfa, rfl⟩
  exact ⟨_, _, Prod.ext han rfl, by simp⟩

/-- A function approximator that always predicts `c`. -/
def constFa (c : ℝ) : Fa := ⟨.wls true 0, some ⟨1, .wls ⟨fun _ => 0, some c⟩⟩, none⟩

theorem predictAt_const (c : ℝ) {phases : List ℝ} (h : phases ≠ []) :
    predictAt phases (constFa c) = .ok (List.replicate phases.length c) := by
  have h0 : phases.length ≠ 0 := by simpa using h
  have : (constFa c).predict (fun (t : Fin phases.length) (_ : Fin 1) => phases[t]) = .ok fun _ => c := by
    rw [predict_model (m := .wls ⟨fun _ => 0, some c⟩) rfl h0]
    simp only [FaModel.predict, WlsModel.predict]
    exact congrArg Except.ok (funext fun t => by simp [WlsModel.predict])
  unfold predictAt
  rw [this, ← List.ofFn_const]
  rfl

/-- The bound 0 of a single schedule is not respected. -/
theorem C30_refuted : ¬ C30_statement := by
  intro h
  obtain ⟨d, hd, hdim, han⟩ := default_analytical
  obtain ⟨sol, d', ha, hlen⟩ := han [0] (by simp)
  have hi : init 1 [0] [2] none [constFa (-1)] (some (.scalar 0)) (some (.scalar 1)) =
      .ok ⟨d, [constFa (-1)], some (.array [0]), some (.array [1])⟩ := by
    unfold init
    rw [hd]
    rfl
  have hr := (h _ _ _ _ _ _ _ _ _ hi trivial trivial
    (fun i l u _ hl hu => by cases hl; cases hu; norm_num) []).1 (some [0]) sol (.two ⟨1, [[-1]]⟩)
      ⟨d', [constFa (-1)], some (.array [0]), some (.array [1])⟩ ?_
  · obtain ⟨rows, e, h1, h2⟩ := hr
    obtain rfl : [[(-1 : ℝ)]] = rows := by cases e; rfl
    obtain ⟨p, _, hc⟩ := (h2 0 (by rw [← h1]; simp)).2 0 (by simp)
    have := hc.within.1 0 rfl
    norm_num at this
  · change analyticalSched (some [0]) ⟨d, [constFa (-1)], some (.array [0]), some (.array [1])⟩ = _
    rw [analyticalSched_run]
    simp only [timesOf, Option.orElse_some, ha, Except.bind]
    have hne : (sol.xs.map fun x => x.getD (3 * d'.dimY) 0) ≠ [] := by
      intro h0
      rw [List.map_eq_nil_iff.mp h0] at hlen
      simp at hlen
    unfold schedulesAt
    simp only [List.mapM_cons, List.mapM_nil, predictAt_const _ hne, List.length_map, hlen]
    have e1 : Bounds.pick (some (.array [(0 : ℝ)])) 0 = .ok none := by
      simp only [Bounds.pick, Bounds.truthy, ne_eq, not_true_eq_false, decide_false]
      rfl
    have e2 : Bounds.pick (some (.array [(1 : ℝ)])) 0 = .ok (some 1) := by
      simp only [Bounds.pick, Bounds.truthy, ne_eq, one_ne_zero, not_false_eq_true, decide_true]
      rfl
    change ((Except.map (Prod.mk sol) (do
      let a ← (do
        let lo ← Bounds.pick (some (.array [0])) 0
        let hi ← Bounds.pick (some (.array [1])) 0
        let a ← clipColumn lo hi 0 ⟨1, [[-1]]⟩
        .ok a : Except PyErr (Arr2 ℝ))
      return Arr.two a)), _) = _
    rw [e1, e2]
    simp only [Dmp.except_ok_bind]
    unfold clipColumn
    rw [if_neg (by simp), if_neg (by simp)]
    have : min (-1 : ℝ) 1 = -1 := by norm_num
    simp only [clipTo, List.map_cons, List.map_nil, List.getD_cons_zero, List.set_cons_zero, this]
    rfl

theorem trained_const (d : Dmp) (cs : List ℝ) (lo hi : Option Bounds) {phases : List ℝ} (h : phases ≠ []) :
    Trained ⟨d, cs.map constFa, lo, hi⟩ phases := by
  intro fa hfa
  obtain ⟨c, _, rfl⟩ := List.mem_map.mp hfa
  obtain ⟨p, hp, _⟩ := except_bind_ok (predictAt_const c h)
  exact ⟨p, hp⟩

/-- Two schedules with bounds for each of them: analytical_solution_sched returns values, and
`C30_partial` applies to them. -/
example : ∃ s ts sol r s', init 1 [0] [2] none [constFa (-1), constFa 3] (some (.list [0, 1])) none = .ok s ∧
    analyticalSched (some ts) s = (.ok (sol, r), s') ∧
    RespectsBounds (some (.list [0, 1])) none (s.after [.analytical (some ts), .select ["goal"]]) := by
  obtain ⟨d, hd, hdim, han⟩ := default_analytical
  obtain ⟨sol, d', ha, hlen⟩ := han [0, 1 / 2] (by simp)
  have hi : init 1 [0] [2] none [constFa (-1), constFa 3] (some (.list [0, 1])) none =
      .ok ⟨d, [-1, 3].map constFa, some (.list [0, 1]), none⟩ := by
    unfold init
    rw [hd]
    rfl
  have ho : BoundArg.Ordered 2 (some (.list [0, 1])) none := fun _ _ _ _ _ h => nomatch h
  have hb := (C30_bounds hi ⟨rfl, trivial⟩ ho []).2
  have hne : (sol.xs.map fun x => x.getD (3 * d'.dimY) 0) ≠ [] := by
    intro h0
    rw [List.map_eq_nil_iff.mp h0] at hlen
    simp at hlen
  obtain ⟨r, hr⟩ := C30_lists hb trivial trivial ha (trained_const _ _ _ _ hne)
  exact ⟨_, _, sol, r, _, hi, hr, C30_partial hi rfl trivial ho (fun h => h) (fun h => h) _⟩

/-- Two schedules with a number as bound, as in `C30_arrays`. -/
example : ∃ s ts s', init 1 [0] [2] none [constFa (-1), constFa 3] (some (.scalar 1)) none = .ok s ∧
    analyticalSched (some ts) s = (.error .valueError, s') := by
  obtain ⟨d, hd, hdim, han⟩ := default_analytical
  obtain ⟨sol, d', ha, hlen⟩ := han [0, 1 / 2] (by simp)
  have hi : init 1 [0] [2] none [constFa (-1), constFa 3] (some (.scalar 1)) none =
      .ok ⟨d, [-1, 3].map constFa, some (.array [1, 1]), none⟩ := by
    unfold init
    rw [hd]
    rfl
  have hb := (C30_bounds hi ⟨trivial, trivial⟩ (fun _ _ _ _ _ h => nomatch h) []).2
  have hne : (sol.xs.map fun x => x.getD (3 * d'.dimY) 0) ≠ [] := by
    intro h0
    rw [List.map_eq_nil_iff.mp h0] at hlen
    simp at hlen
  exact ⟨_, _, _, hi, (C30_arrays hb (by rfl) (.inl fun h => h)).1 _ _ _ ha (trained_const _ _ _ _ hne)⟩

end DmpWithSchedules

end Verif
