import Mathlib.Analysis.InnerProductSpace.PiL2
import Mathlib.Analysis.Convex.StrictConvexBetween
import Mathlib.Analysis.InnerProductSpace.Convex
import Verif.Model.DemoBbo
import Verif.Props.BasisFunctions
import Verif.Props.Updates
import Verif.Props.Optimization
import Verif.Props.Exploration

/-
C105: keyword arguments of the updaters, and what the demos do with them. C106: cost functions of the demos.
-/

set_option autoImplicit false

noncomputable section

namespace Verif

open Spec

/-! ### C105: the arguments -/

/-- The value of an argument: what is given in the call, or the default. -/
def Given (kw : Kwargs) (name : String) (dflt v : Arg) : Prop :=
  (name, v) ∈ kw ∨ name ∉ kw.map Prod.fst ∧ v = dflt

theorem get_given : ∀ {kw : Kwargs} {name : String} {dflt v : Arg}, (kw.map Prod.fst).Nodup → Given kw name dflt v →
    kw.get name dflt = v
  | [], name, dflt, v, _, h => by
    rcases h with h | ⟨-, h⟩
    · cases h
    · exact h.symm
  | (k, a) :: kw, name, dflt, v, hn, h => by
    unfold Kwargs.get
    rw [List.lookup_cons]
    have hn' : k ∉ kw.map Prod.fst ∧ (kw.map Prod.fst).Nodup := by simpa using hn
    rcases h with h | ⟨h1, h2⟩
    · rcases List.mem_cons.mp h with e | hv
      · cases e
        simp
      · have : name ≠ k := by
          rintro rfl
          exact hn'.1 (List.mem_map.mpr ⟨(name, v), hv, rfl⟩)
        rw [beq_false_of_ne this]
        exact get_given hn'.2 (.inl hv)
    · have h1' : name ≠ k ∧ name ∉ kw.map Prod.fst := by simpa using h1
      rw [beq_false_of_ne h1'.1]
      exact get_given hn'.2 (.inr ⟨h1'.2, h2⟩)

/-- Numbers that can be used as eliteness. -/
inductive IsElite : Arg → Elite → Prop
  | true : IsElite (.bool true) (.int 1)
  | false : IsElite (.bool false) (.int 0)
  | int (z : Int) : IsElite (.int z) (.int z)
  | float (x : ℝ) : IsElite (.float x) (.float x)

/-- Values that can be used as numbers. -/
inductive IsReal : Arg → ℝ → Prop
  | true : IsReal (.bool true) 1
  | false : IsReal (.bool false) 0
  | int (z : Int) : IsReal (.int z) z
  | float (x : ℝ) : IsReal (.float x) x

/-- Values that can be used as limits of the diagonal. -/
inductive IsLimit : Arg → Option Limit → Prop
  | none : IsLimit .none none
  | real (a : Arg) (x : ℝ) : IsReal a x → IsLimit a (some (.scalar x))
  | array (l : List ℝ) : IsLimit (.array l) (some (.vector l))

theorem elite_iff (a : Arg) (e : Elite) : a.asElite = .ok e ↔ IsElite a e := by
  constructor
  · intro h
    cases a with
    | bool b => cases b <;> cases h; exacts [.false, .true]
    | int z => cases h; exact .int z
    | float x => cases h; exact .float x
    | _ => cases h
  · rintro (_ | _ | _ | _) <;> rfl

theorem real_iff (a : Arg) (x : ℝ) : a.asReal = .ok x ↔ IsReal a x := by
  constructor
  · intro h
    cases a with
    | bool b => cases b <;> cases h; exacts [.false, .true]
    | int z => cases h; exact .int z
    | float x => cases h; exact .float x
    | _ => cases h
  · rintro (_ | _ | _ | _) <;> rfl

theorem limit_iff (a : Arg) (l : Option Limit) : a.asLimit = .ok l ↔ IsLimit a l := by
  constructor
  · intro h
    cases a with
    | none => cases h; exact .none
    | bool b => cases b <;> cases h; exacts [.real _ _ .false, .real _ _ .true]
    | int z => cases h; exact .real _ _ (.int z)
    | float x => cases h; exact .real _ _ (.float x)
    | array l => cases h; exact .array l
    | str s => cases h
  · rintro (_ | ⟨a, x, (_ | _ | _ | _)⟩ | _) <;> rfl

theorem not_real {a : Arg} (h : ¬ ∃ x, IsReal a x) : a.asReal = .error .typeError := by
  cases a with
  | bool b => cases b; exacts [absurd ⟨_, .false⟩ h, absurd ⟨_, .true⟩ h]
  | int z => exact absurd ⟨_, .int z⟩ h
  | float x => exact absurd ⟨_, .float x⟩ h
  | _ => rfl

theorem not_elite {a : Arg} (h : ¬ ∃ e, IsElite a e) : a.asElite = .error .typeError := by
  cases a with
  | bool b => cases b; exacts [absurd ⟨_, .false⟩ h, absurd ⟨_, .true⟩ h]
  | int z => exact absurd ⟨_, .int z⟩ h
  | float x => exact absurd ⟨_, .float x⟩ h
  | _ => rfl

theorem not_limit {a : Arg} (h : ¬ ∃ l, IsLimit a l) : a.asLimit = .error .typeError := by
  cases ha : a.asLimit with
  | ok l => exact absurd ⟨l, (limit_iff a l).mp ha⟩ h
  | error e =>
    cases a with
    | str s => exact ha.symm
    | _ => cases ha

/-- C105: UpdaterMean uses the arguments `eliteness` and `weighting_method`; defaults are 10 and "PI-BB". -/
theorem C105_mean {kw : Kwargs} (hn : (kw.map Prod.fst).Nodup) {ae : Arg} {method : String}
    (he : Given kw "eliteness" (.int 10) ae) (hm : Given kw "weighting_method" (.str "PI-BB") (.str method)) :
    (∀ e, IsElite ae e → Updater.initMean kw = .ok ⟨e, method, .mean⟩) ∧
    ((¬ ∃ e, IsElite ae e) → Updater.initMean kw = .error .typeError) := by
  unfold Updater.initMean
  rw [get_given hn he, get_given hn hm]
  refine ⟨fun e h => ?_, fun h => ?_⟩
  · rw [(elite_iff ae e).mpr h]
    rfl
  · rw [not_elite h]
    rfl

/-- C105: UpdaterCovarDecay also uses `covar_decay_factor`; its default is 0.8. -/
theorem C105_decay {kw : Kwargs} (hn : (kw.map Prod.fst).Nodup) {ae af : Arg} {method : String}
    (he : Given kw "eliteness" (.int 10) ae) (hm : Given kw "weighting_method" (.str "PI-BB") (.str method))
    (hf : Given kw "covar_decay_factor" (.float 0.8) af) :
    (∀ e x, IsElite ae e → IsReal af x → Updater.initDecay kw = .ok ⟨e, method, .decay x⟩) ∧
    (((¬ ∃ e, IsElite ae e) ∨ ¬ ∃ x, IsReal af x) → Updater.initDecay kw = .error .typeError) := by
  unfold Updater.initDecay
  rw [get_given hn he, get_given hn hm, get_given hn hf]
  refine ⟨fun e x h1 h2 => ?_, fun h => ?_⟩
  · rw [(elite_iff ae e).mpr h1, (real_iff af x).mpr h2]
    rfl
  · by_cases h1 : ∃ e, IsElite ae e
    · obtain ⟨e, h1'⟩ := h1
      rw [(elite_iff ae e).mpr h1', not_real (h.resolve_left fun h => h ⟨e, h1'⟩)]
      rfl
    · rw [not_elite h1]
      rfl

/-- Values with the truth value false. -/
def Falsy : Arg → Prop
  | .none => True
  | .bool b => b = false
  | .int z => z = 0
  | .float x => x = 0
  | .str s => s = ""
  | .array l => l = []

/-- C105: UpdaterCovarAdaptation uses `diagonal_max`, `diagonal_min` (by default there are no limits), `diag_only`
(default false) and `learning_rate` (default 1), which must be between 0 and 1. -/
theorem C105_adaptation {kw : Kwargs} (hn : (kw.map Prod.fst).Nodup) {ae amax amin ad alr : Arg} {method : String}
    (he : Given kw "eliteness" (.int 10) ae) (hm : Given kw "weighting_method" (.str "PI-BB") (.str method))
    (hmax : Given kw "diagonal_max" .none amax) (hmin : Given kw "diagonal_min" .none amin)
    (hd : Given kw "diag_only" (.bool false) ad) (hlr : Given kw "learning_rate" (.float 1) alr) :
    (∀ e dmax dmin lr, IsElite ae e → IsLimit amax dmax → IsLimit amin dmin → IsReal alr lr → 0 ≤ lr → lr ≤ 1 →
      ∃ b : Bool, (b = false ↔ Falsy ad) ∧
        Updater.initAdaptation kw = .ok ⟨e, method, .adapt ⟨dmax, dmin, b, lr⟩⟩) ∧
    (∀ lr, IsReal alr lr → lr < 0 ∨ 1 < lr → Updater.initAdaptation kw = .error .valueError) ∧
    ((¬ ∃ lr, IsReal alr lr) → Updater.initAdaptation kw = .error .typeError) ∧
    (∀ lr, IsReal alr lr → 0 ≤ lr → lr ≤ 1 →
      ((¬ ∃ e, IsElite ae e) ∨ (¬ ∃ l, IsLimit amax l) ∨ ¬ ∃ l, IsLimit amin l) →
      Updater.initAdaptation kw = .error .typeError) := by
  have run : ∀ lr, IsReal alr lr → 0 ≤ lr → lr ≤ 1 → Updater.initAdaptation kw = (do
      let e ← ae.asElite
      let dmax ← amax.asLimit
      let dmin ← amin.asLimit
      return ⟨e, method, .adapt ⟨dmax, dmin, ad.asBool, lr⟩⟩) := by
    intro lr h a b
    unfold Updater.initAdaptation
    rw [get_given hn he, get_given hn hm, get_given hn hmax, get_given hn hmin, get_given hn hd, get_given hn hlr,
      (real_iff _ _).mpr h]
    have : ¬ (lr > 1 ∨ lr < 0) := by
      rintro (h | h) <;> linarith
    change (if lr > 1 ∨ lr < 0 then throw PyErr.valueError else _) = _
    rw [if_neg this]
    rfl
  refine ⟨fun e dmax dmin lr h1 h2 h3 h4 a b => ⟨ad.asBool, ?_, ?_⟩, fun lr h h' => ?_, fun h => ?_,
    fun lr h a b h' => ?_⟩
  · cases ad <;> simp [Arg.asBool, Falsy]
  · rw [run lr h4 a b, (elite_iff _ _).mpr h1, (limit_iff _ _).mpr h2, (limit_iff _ _).mpr h3]
    rfl
  · unfold Updater.initAdaptation
    rw [get_given hn hlr, (real_iff _ _).mpr h]
    change (if lr > 1 ∨ lr < 0 then throw PyErr.valueError else _) = _
    rw [if_pos (by tauto)]
    rfl
  · unfold Updater.initAdaptation
    rw [get_given hn hlr, not_real h]
    rfl
  · rw [run lr h a b]
    cases q1 : ae.asElite with
    | error e =>
      by_cases hx : ∃ e, IsElite ae e
      · obtain ⟨e', hx⟩ := hx
        rw [(elite_iff _ _).mpr hx] at q1
        cases q1
      · rw [not_elite hx] at q1
        cases q1
        rfl
    | ok e =>
      have h2 := h'.resolve_left fun h => h ⟨e, (elite_iff _ _).mp q1⟩
      by_cases hx : ∃ l, IsLimit amax l
      · obtain ⟨l, hx'⟩ := hx
        rw [(limit_iff _ _).mpr hx', not_limit (h2.resolve_left fun h => h ⟨l, hx'⟩)]
        rfl
      · rw [not_limit hx]
        rfl

/-- C105: a weighting method that is not a string is an unknown method (which is treated as "PI-BB", see C48). -/
theorem C105_no_method {kw : Kwargs} (hn : (kw.map Prod.fst).Nodup) {am : Arg} (hm : ("weighting_method", am) ∈ kw)
    (hs : ∀ s, am ≠ .str s) {u : Updater}
    (h : Updater.initMean kw = .ok u ∨ Updater.initDecay kw = .ok u ∨ Updater.initAdaptation kw = .ok u) :
    u.method ∉ ["PI-BB", "CEM", "CMA-ES"] := by
  have e : am.asMethod = "" := by
    cases am with
    | str s => exact absurd rfl (hs s)
    | _ => rfl
  suffices u.method = "" by rw [this]; simp
  rcases h with h | h | h
  · unfold Updater.initMean at h
    rw [get_given hn (.inl hm), e] at h
    obtain ⟨_, -, h⟩ := except_bind_ok h
    cases h
    rfl
  · unfold Updater.initDecay at h
    rw [get_given hn (.inl hm), e] at h
    obtain ⟨_, -, h⟩ := except_bind_ok h
    obtain ⟨_, -, h⟩ := except_bind_ok h
    cases h
    rfl
  · unfold Updater.initAdaptation at h
    rw [get_given hn (.inl hm), e] at h
    obtain ⟨lr, -, h⟩ := except_bind_ok h
    by_cases hlr : lr > 1 ∨ lr < 0
    · rw [if_pos hlr] at h
      cases h
    · rw [if_neg hlr] at h
      obtain ⟨_, -, h⟩ := except_bind_ok h
      obtain ⟨_, -, h⟩ := except_bind_ok h
      obtain ⟨_, -, h⟩ := except_bind_ok h
      cases h
      rfl

/-- The hypotheses can be met. -/
example : Updater.initMean [("weighting_method", .none)] = .ok ⟨.int 10, "", .mean⟩ ∧
    ("" : String) ∉ ["PI-BB", "CEM", "CMA-ES"] :=
  ⟨rfl, C105_no_method (kw := [("weighting_method", .none)]) (am := .none) (u := ⟨.int 10, "", .mean⟩) (by simp) (by simp)
    (by simp) (.inl rfl)⟩

theorem get_filter (kw : Kwargs) (known : List String) {name : String} (h : name ∈ known) (dflt : Arg) :
    Kwargs.get (kw.filter fun p => decide (p.1 ∈ known)) name dflt = kw.get name dflt := by
  induction kw with
  | nil => rfl
  | cons p kw ih =>
    obtain ⟨k, a⟩ := p
    unfold Kwargs.get at ih ⊢
    by_cases hk : k ∈ known
    · rw [List.filter_cons_of_pos (by simpa using hk), List.lookup_cons, List.lookup_cons]
      cases name == k
      · exact ih
      · rfl
    · have hne : name ≠ k := by rintro rfl; exact hk h
      rw [List.filter_cons_of_neg (by simpa using hk), List.lookup_cons, beq_false_of_ne hne]
      exact ih

/-- C105: arguments with other names are ignored, without a message. -/
theorem C105_ignored (kw : Kwargs) :
    Updater.initMean (kw.filter fun p => decide (p.1 ∈ ["eliteness", "weighting_method"])) = Updater.initMean kw ∧
    Updater.initDecay (kw.filter fun p => decide (p.1 ∈ ["eliteness", "weighting_method", "covar_decay_factor"])) =
      Updater.initDecay kw ∧
    Updater.initAdaptation (kw.filter fun p => decide (p.1 ∈
        ["eliteness", "weighting_method", "diagonal_max", "diagonal_min", "diag_only", "learning_rate"])) =
      Updater.initAdaptation kw := by
  refine ⟨?_, ?_, ?_⟩
  · unfold Updater.initMean
    rw [get_filter _ _ (by simp), get_filter _ _ (by simp)]
  · unfold Updater.initDecay
    rw [get_filter _ _ (by simp), get_filter _ _ (by simp), get_filter _ _ (by simp)]
  · unfold Updater.initAdaptation
    rw [get_filter _ _ (by simp), get_filter _ _ (by simp), get_filter _ _ (by simp), get_filter _ _ (by simp),
      get_filter _ _ (by simp), get_filter _ _ (by simp)]

/-- The hypotheses can be met: a call with some of the arguments, in any order, and an unknown one. -/
example : Updater.initMean [("min_level", .float 1), ("eliteness", .float 5)] = .ok ⟨.float 5, "PI-BB", .mean⟩ ∧
    Updater.initMean [("eliteness", .str "10")] = .error .typeError ∧
    Updater.initDecay [("covar_decay_factor", .int 1), ("weighting_method", .str "CEM")] = .ok ⟨.int 10, "CEM", .decay 1⟩ ∧
    Updater.initAdaptation [("learning_rate", .float 2)] = .error .valueError := by
  refine ⟨?_, ?_, ?_, ?_⟩
  · exact (C105_mean (ae := .float 5) (by simp) (.inl (by simp)) (.inr (by simp))).1 _ (.float 5)
  · exact (C105_mean (ae := .str "10") (method := "PI-BB") (by simp) (.inl (by simp)) (.inr (by simp))).2
      (by rintro ⟨e, h⟩; cases h)
  · have := (C105_decay (kw := [("covar_decay_factor", .int 1), ("weighting_method", .str "CEM")]) (ae := .int 10)
      (af := .int 1) (method := "CEM") (by simp) (.inr (by simp)) (.inl (by simp)) (.inl (by simp))).1 _ _ (.int 10) (.int 1)
    simpa using this
  · exact (C105_adaptation (ae := .int 10) (amax := .none) (amin := .none) (ad := .bool false) (alr := .float 2)
      (method := "PI-BB") (by simp) (.inr (by simp)) (.inr (by simp)) (.inr (by simp)) (.inr (by simp)) (.inr (by simp))
      (.inl (by simp))).2.1 _ (.float 2) (.inr (by norm_num))

/-! ### C105: the demos -/

/-- C105: the updaters of the demos. Those with covariance adaptation have no limits, though `min_level` is passed; and
the one of the robot demo has the default weighting, though `weighting` is passed. -/
theorem C105_demos :
    demoUpdaters = .ok [("fixed_exploration", ⟨.int 10, "PI-BB", .mean⟩),
      ("covar_decay", ⟨.int 10, "PI-BB", .decay 0.8⟩),
      ("covar_adaptation", ⟨.int 10, "PI-BB", .adapt ⟨none, none, false, 0.8⟩⟩)] ∧
    Updater.initAdaptation demoDmpArgs = .ok ⟨.int 10, "PI-BB", .adapt ⟨none, none, false, 0.5⟩⟩ ∧
    Updater.initDecay demoRobotArgs = .ok ⟨.int 10, "PI-BB", .decay 0.8⟩ ∧
    ∀ method, Updater.initDecay [("eliteness", .int 10), ("weighting", .str method), ("covar_decay_factor", .float 0.8)] =
      Updater.initDecay demoRobotArgs := by
  have a1 : Updater.initAdaptation demoAdaptationArgs = .ok ⟨.int 10, "PI-BB", .adapt ⟨none, none, false, 0.8⟩⟩ := by
    change (if (0.8 : ℝ) > 1 ∨ (0.8 : ℝ) < 0 then throw PyErr.valueError else _) = _
    rw [if_neg (by norm_num)]
    rfl
  refine ⟨?_, ?_, rfl, fun _ => rfl⟩
  · unfold demoUpdaters
    rw [a1]
    rfl
  · change (if (0.5 : ℝ) > 1 ∨ (0.5 : ℝ) < 0 then throw PyErr.valueError else _) = _
    rw [if_neg (by norm_num)]
    rfl

variable {D : Type}

theorem start_ok (v : ℝ) : Dist.init (fun _ : Fin 2 => (5 : ℝ)) (v • (1 : Matrix (Fin 2) (Fin 2) ℝ)) none =
    .ok ⟨fun _ => 5, v • 1, none⟩ := rfl

theorem demoBbo_eq (argsort : List ℝ → List Nat) (u : Updater) (hasDir : Bool) (draws : Nat → Fin 20 → Fin 2 → ℝ) :
    demoBbo (D := D) argsort u hasDir draws =
      runOptimization (distanceCost fun _ => 2) argsort u ⟨fun _ => 5, (1 : ℝ) • 1, none⟩ 40 hasDir draws := by
  unfold demoBbo
  rw [start_ok]
  rfl

/-- The updaters of the demo succeed. -/
theorem demo_covar {u : Updater} (h : u = ⟨.int 10, "PI-BB", .mean⟩ ∨ (∃ x, u = ⟨.int 10, "PI-BB", .decay x⟩) ∨
    ∃ lr, u = ⟨.int 10, "PI-BB", .adapt ⟨none, none, false, lr⟩⟩) (samples : List (Fin 2 → ℝ)) (w : List ℝ) (d : Dist 2) :
    ∃ c, u.covarNew samples w d = .ok c := by
  rcases h with rfl | ⟨x, rfl⟩ | ⟨lr, rfl⟩ <;> exact ⟨_, rfl⟩

/-- C105: the optimisations of the demos succeed, whatever is drawn. Exploration is constant, decays, or is adapted. -/
theorem C105_runs (argsort : List ℝ → List Nat) (hasDir : Bool) (draws : Nat → Fin 20 → Fin 2 → ℝ)
    (w0 : World (Obj 2 D)) :
    (∃ dN w, demoBbo argsort ⟨.int 10, "PI-BB", .mean⟩ hasDir draws w0 = (.ok dN, w) ∧ dN.covar = 1) ∧
    (∃ dN w, demoBbo argsort ⟨.int 10, "PI-BB", .decay 0.8⟩ hasDir draws w0 = (.ok dN, w) ∧
      dN.covar = (0.8 : ℝ) ^ 80 • 1) ∧
    (∃ dN w, demoBbo argsort ⟨.int 10, "PI-BB", .adapt ⟨none, none, false, 0.8⟩⟩ hasDir draws w0 = (.ok dN, w)) ∧
    (∃ dN w, demoBboComponents argsort draws w0 = (.ok dN, w) ∧ dN.covar = (4 * (0.8 : ℝ) ^ 80) • 1) := by
  have run : ∀ (f : (Fin 2 → ℝ) → List ℝ) (v : ℝ) (b : Bool) (u : Updater), (∀ x, f x ≠ []) →
      (u = ⟨.int 10, "PI-BB", .mean⟩ ∨ (∃ x, u = ⟨.int 10, "PI-BB", .decay x⟩) ∨
        ∃ lr, u = ⟨.int 10, "PI-BB", .adapt ⟨none, none, false, lr⟩⟩) →
      ∃ dN w, runOptimization f argsort u ⟨fun _ => 5, v • 1, none⟩ 40 b draws w0 = (.ok dN, w) ∧
        Updates u 40 ⟨fun _ => 5, v • 1, none⟩ dN := by
    intro f v b u hf hu
    obtain ⟨dN, w, h⟩ := C55_succeeds f argsort u ⟨fun _ => 5, v • 1, none⟩ 40 b draws w0 (by omega) hf
      (by simp) (by rcases hu with rfl | ⟨x, rfl⟩ | ⟨lr, rfl⟩ <;> simp)
      (by rcases hu with rfl | ⟨x, rfl⟩ | ⟨lr, rfl⟩ <;> simp) (demo_covar hu)
    obtain ⟨d, samples, weights, h0, hN, hs, -⟩ := C55_history f argsort u _ dN 40 b draws w0 w h
    refine ⟨dN, w, h, ?_⟩
    rw [← h0, ← hN]
    exact history_updates (fun i hi => (hs i hi).2.1) 40 le_rfl
  refine ⟨?_, ?_, ?_, ?_⟩
  · obtain ⟨dN, w, h, hu⟩ := run (distanceCost fun _ => 2) 1 hasDir _ (by simp [distanceCost]) (.inl rfl)
    refine ⟨dN, w, by rw [demoBbo_eq]; exact h, ?_⟩
    have key (k : Nat) (d d' : Dist 2) (h : Updates ⟨.int 10, "PI-BB", .mean⟩ k d d') : d'.covar = d.covar := by
      generalize hu : (⟨.int 10, "PI-BB", .mean⟩ : Updater) = u at h
      induction h with
      | zero d => rfl
      | succ k d d1 d0 d2 argsort samples costs w h1 h2 ih =>
        subst hu
        obtain ⟨-, -, -, h3, -⟩ := update_ok h2
        rw [← ih]
        change Except.ok _ = Except.ok _ at h3
        injection h3 with h3
        exact h3.symm
    rw [key _ _ _ hu]
    exact one_smul _ _
  · obtain ⟨dN, w, h, hu⟩ := run (distanceCost fun _ => 2) 1 hasDir _ (by simp [distanceCost]) (.inr (.inl ⟨0.8, rfl⟩))
    refine ⟨dN, w, by rw [demoBbo_eq]; exact h, ?_⟩
    rw [(C51_decay _ _ _ _ _ _ hu).1, one_smul]
  · obtain ⟨dN, w, h, hu⟩ := run (distanceCost fun _ => 2) 1 hasDir _ (by simp [distanceCost]) (.inr (.inr ⟨0.8, rfl⟩))
    exact ⟨dN, w, by rw [demoBbo_eq]; exact h⟩
  · obtain ⟨dN, w, h, hu⟩ := run (regularizedCost (fun _ => 2) 1) 4 true _ (by simp [regularizedCost])
      (.inr (.inl ⟨0.8, rfl⟩))
    refine ⟨dN, w, ?_, ?_⟩
    · unfold demoBboComponents
      rw [start_ok, PyM.lift_ok_bind]
      exact h
    · rw [(C51_decay _ _ _ _ _ _ hu).1]
      change _ • ((4 : ℝ) • (1 : Matrix (Fin 2) (Fin 2) ℝ)) = _
      rw [smul_smul, mul_comm]

/-- C105: what is optimised, according to the sessions: 40 updates with 20 samples each, from the mean (5, 5), where costs are
the distance to the point (2, 2), and (demo_bbo_multiple_cost_components.py) the distance to the origin. -/
theorem C105_sessions (argsort : List ℝ → List Nat) (u : Updater) (hasDir : Bool) (draws : Nat → Fin 20 → Fin 2 → ℝ)
    (w0 w : World (Obj 2 D)) (dN : Dist 2) :
    (demoBbo argsort u hasDir draws w0 = (.ok dN, w) →
      asked w "distribution" (some 0) none = .ok (.dist ⟨fun _ => 5, 1, none⟩) ∧
      asked w "distribution_new" (some 39) none = .ok (.dist dN) ∧
      asked w "n_samples_per_update" none none = .ok (.int 20) ∧ asked w "updater" none none = .ok (.updater u) ∧
      ∀ i : Nat, i < 40 → ∃ samples, asked w "samples" (some i) none = .ok (.samples samples) ∧
        asked w "costs" (some i) none = .ok (.costs (samples.map fun x => [Real.sqrt ((x 0 - 2) ^ 2 + (x 1 - 2) ^ 2)]))) ∧
    (demoBboComponents argsort draws w0 = (.ok dN, w) →
      asked w "distribution" (some 0) none = .ok (.dist ⟨fun _ => 5, (4 : ℝ) • 1, none⟩) ∧
      asked w "distribution_new" (some 39) none = .ok (.dist dN) ∧
      asked w "n_samples_per_update" none none = .ok (.int 20) ∧
      asked w "updater" none none = .ok (.updater ⟨.int 10, "PI-BB", .decay 0.8⟩) ∧
      ∀ i : Nat, i < 40 → ∃ samples, asked w "samples" (some i) none = .ok (.samples samples) ∧
        asked w "costs" (some i) none = .ok (.costs (samples.map fun x =>
          [Real.sqrt ((x 0 - 2) ^ 2 + (x 1 - 2) ^ 2) + Real.sqrt (x 0 ^ 2 + x 1 ^ 2),
            Real.sqrt ((x 0 - 2) ^ 2 + (x 1 - 2) ^ 2), Real.sqrt (x 0 ^ 2 + x 1 ^ 2)]))) := by
  constructor
  · intro h
    rw [demoBbo_eq] at h
    obtain ⟨d, samples, weights, h0, hN, hs, h1, -, h2⟩ := C55_history _ argsort u _ dN 40 hasDir draws w0 w h
    refine ⟨?_, ?_, h1, h2, fun i hi => ⟨samples i, (hs i hi).2.2.2.1, ?_⟩⟩
    · have := (hs 0 (by omega)).2.2.1
      rw [h0, one_smul] at this
      exact this
    · rw [← hN]
      exact (hs 39 (by omega)).2.2.2.2.2.2.1
    · rw [(hs i hi).2.2.2.2.1]
      simp [distanceCost, norm2, Fin.sum_univ_two]
  · intro h
    unfold demoBboComponents at h
    rw [start_ok, PyM.lift_ok_bind] at h
    change runOptimization (regularizedCost (fun _ => 2) 1) argsort ⟨.int 10, "PI-BB", .decay 0.8⟩ _ 40 true draws w0 = _ at h
    obtain ⟨d, samples, weights, h0, hN, hs, h1, -, h2⟩ := C55_history _ argsort _ _ dN 40 true draws w0 w h
    refine ⟨?_, ?_, h1, h2, fun i hi => ⟨samples i, (hs i hi).2.2.2.1, ?_⟩⟩
    · have := (hs 0 (by omega)).2.2.1
      rw [h0] at this
      exact this
    · rw [← hN]
      exact (hs 39 (by omega)).2.2.2.2.2.2.1
    · rw [(hs i hi).2.2.2.2.1]
      simp [regularizedCost, norm2, Fin.sum_univ_two]

/-- The hypotheses are met by every run (C105_runs). -/
example (w0 : World (Obj 2 D)) : ∃ samples w dN, demoBbo (fun _ => []) ⟨.int 10, "PI-BB", .decay 0.8⟩ true
    (fun i a j => i + a * j) w0 = (.ok dN, w) ∧ asked w "samples" (some 7) none = .ok (.samples samples) ∧
    asked w "costs" (some 7) none = .ok (.costs (samples.map fun x => [Real.sqrt ((x 0 - 2) ^ 2 + (x 1 - 2) ^ 2)])) := by
  obtain ⟨-, ⟨dN, w, h, -⟩, -⟩ := C105_runs (fun _ => []) true (fun i a j => (i + a * j : ℝ)) w0
  obtain ⟨samples, h1, h2⟩ := ((C105_sessions _ _ _ _ w0 w dN).1 h).2.2.2.2 7 (by omega)
  exact ⟨samples, w, dN, h, h1, h2⟩

/-- C105: `min_level` bounds the exploration of demo_bbo.py from below. -/
def C105_min_statement : Prop :=
  ∀ (argsort : List ℝ → List Nat) (hasDir : Bool) (draws : Nat → Fin 20 → Fin 2 → ℝ) (w0 w : World (Obj 2 Unit))
    (u : Updater) (dN : Dist 2), Updater.initAdaptation demoAdaptationArgs = .ok u →
    demoBbo argsort u hasDir draws w0 = (.ok dN, w) → ∀ a, (0.000001 : ℝ) ^ 2 ≤ dN.covar a a

/-- C105: if all samples are at the mean, the covariance matrix shrinks by the same factor in each update. -/
theorem C105_shrinks (argsort : List ℝ → List Nat) (hasDir : Bool) (w0 : World (Obj 2 D)) :
    ∃ dN w, demoBbo argsort ⟨.int 10, "PI-BB", .adapt ⟨none, none, false, 0.8⟩⟩ hasDir (fun _ _ _ => 5) w0 = (.ok dN, w) ∧
      ∀ a b, dN.covar a b = 0.2 ^ 40 * (1 : Matrix (Fin 2) (Fin 2) ℝ) a b := by
  obtain ⟨-, -, ⟨dN, w, h⟩, -⟩ := C105_runs argsort hasDir (fun _ _ _ => 5) w0
  refine ⟨dN, w, h, ?_⟩
  rw [demoBbo_eq] at h
  obtain ⟨d, samples, weights, h0, hN, hs, -⟩ := C55_history _ argsort _ _ dN 40 hasDir _ w0 w h
  have key : ∀ i, i ≤ 40 → (d i).bounds = none ∧ (∀ j, (d i).mean j = 5) ∧
      ∀ a b, (d i).covar a b = 0.2 ^ i * (1 : Matrix (Fin 2) (Fin 2) ℝ) a b := by
    intro i
    induction i with
    | zero =>
      intro _
      rw [h0]
      exact ⟨rfl, fun _ => rfl, fun a b => by simp⟩
    | succ i ih =>
      intro hi
      obtain ⟨b1, b2, b3⟩ := ih (by omega)
      obtain ⟨g1, g2, -⟩ := hs i (by omega)
      unfold Dist.generateSamples at g1
      rw [b1] at g1
      injection g1 with g1
      have hc : ∀ s ∈ samples i, ∀ j, s j = 5 := by
        intro s hs j
        rw [← g1] at hs
        obtain ⟨k, rfl⟩ := (List.mem_ofFn' _ _).mp hs
        rfl
      have hz : ∀ (w : List ℝ) (l : List (Fin 2 → ℝ)), (∀ s ∈ l, ∀ j, s j = 5) → ∀ a b,
          (List.zipWith (fun x s => x * (s a - (d i).mean a) * (s b - (d i).mean b)) w l).sum = 0 := by
        intro w
        induction w with
        | nil => intros; simp
        | cons x w ih =>
          intro l hl a b
          cases l with
          | nil => simp
          | cons s l =>
            rw [List.zipWith_cons_cons, List.sum_cons, ih l (fun s hs => hl s (List.mem_cons_of_mem _ hs)) a b,
              hl s List.mem_cons_self a, b2 a]
            simp
      obtain ⟨-, -, -, -, -, hm, hb⟩ := C50_convex _ _ _ _ _ _ _ _ g2
      obtain ⟨-, -, c3, c4⟩ := C53_limits argsort (.int 10) "PI-BB" ⟨none, none, false, 0.8⟩ (samples i) _ (d i) (d i) (d (i + 1)) (weights i) (by norm_num)
        trivial trivial g2
      refine ⟨hb.trans b1, ?_, fun a b => ?_⟩
      · intro j
        rw [hm (fun _ => 5) fun s hs => funext (hc s hs)]
      · by_cases hab : a = b
        · subst hab
          rw [c4 a _ rfl (fun x hx => nomatch hx) (fun x hx => nomatch hx), hz _ _ hc, b3]
          norm_num
          ring
        · rw [c3 a b hab, b3]
          simp [hab, hz _ _ hc]
  rw [← hN]
  exact (key 40 le_rfl).2.2

/-- C105 is not true of `min_level`: it is not the name of an argument. -/
theorem C105_min_refuted : ¬ C105_min_statement := by
  intro h
  have hu : Updater.initAdaptation demoAdaptationArgs = .ok ⟨.int 10, "PI-BB", .adapt ⟨none, none, false, 0.8⟩⟩ := by
    change (if (0.8 : ℝ) > 1 ∨ (0.8 : ℝ) < 0 then throw PyErr.valueError else _) = _
    rw [if_neg (by norm_num)]
    rfl
  obtain ⟨dN, w, h1, h2⟩ := C105_shrinks (D := Unit) (fun _ => []) false ⟨0, false, false, [], none, [], []⟩
  have := h _ _ _ _ _ _ _ hu h1 0
  rw [h2] at this
  norm_num at this

variable {n : Nat}

/-- C105: `diagonal_min` does bound the exploration from below, in all updates. -/
theorem C105_min_partial {kw : Kwargs} (hn : (kw.map Prod.fst).Nodup) {x : ℝ} (hx : ("diagonal_min", .float x) ∈ kw)
    {amax : Arg} {dmax : Option Limit} (hmax : Given kw "diagonal_max" .none amax) (hl : IsLimit amax dmax)
    (hf : LimitFits n dmax) {u : Updater} (hu : Updater.initAdaptation kw = .ok u) {k : Nat} {d d' : Dist n}
    (h : Updates u (k + 1) d d') (a : Fin n) : x ^ 2 ≤ d'.covar a a := by
  unfold Updater.initAdaptation at hu
  rw [get_given hn hmax, get_given hn (.inl hx), (limit_iff _ _).mpr hl] at hu
  obtain ⟨lr, -, hu⟩ := except_bind_ok hu
  by_cases hlr : lr > 1 ∨ lr < 0
  · rw [if_pos hlr] at hu
    cases hu
  · rw [if_neg hlr] at hu
    obtain ⟨e, -, hu⟩ := except_bind_ok hu
    obtain ⟨m1, e1, hu⟩ := except_bind_ok hu
    cases e1
    obtain ⟨m2, e2, hu⟩ := except_bind_ok hu
    cases e2
    cases hu
    cases h with
    | succ _ _ d1 d0 _ argsort samples costs w h1 h2 =>
      have hlr' : lr ≤ 1 := by
        by_contra hc
        exact hlr (.inl (not_le.mp hc))
      exact (C53_limits argsort e _ ⟨dmax, some (.scalar x), _, lr⟩ samples costs d1 d0 d' w hlr' hf trivial h2).1 a _ rfl

/-- The updater of demo_bbo.py with the names of the constructor. -/
example : ∃ u : Updater, Updater.initAdaptation [("eliteness", .int 10), ("diagonal_max", .none),
      ("diagonal_min", .float 0.000001), ("learning_rate", .float 0.8)] = .ok u ∧
    ∃ d' : Dist 2, Updates u 1 ⟨fun _ => 5, 0, none⟩ d' ∧ ∀ a, (0.000001 : ℝ) ^ 2 ≤ d'.covar a a := by
  have hn : (([("eliteness", .int 10), ("diagonal_max", .none), ("diagonal_min", .float 0.000001),
      ("learning_rate", .float 0.8)] : Kwargs).map Prod.fst).Nodup := by simp
  obtain ⟨b, -, hu⟩ := (C105_adaptation (ae := .int 10) (amax := .none) (amin := .float 0.000001) (ad := .bool false)
    (alr := .float 0.8) (method := "PI-BB") hn (.inl (by simp)) (.inr (by simp)) (.inl (by simp)) (.inl (by simp))
    (.inr (by simp)) (.inl (by simp))).1 _ _ _ _ (.int 10) .none (.real _ _ (.float _)) (.float _) (by norm_num)
    (by norm_num)
  refine ⟨_, hu, ?_⟩
  obtain ⟨d', w, h⟩ := C50_succeeds (fun _ => []) ⟨.int 10, "PI-BB", .adapt ⟨none, some (.scalar 0.000001), b, 0.8⟩⟩
    [fun _ => 5, fun _ => 5] [[1], [2]] (⟨fun _ => 5, 0, none⟩ : Dist 2) (by simp) (by simp) rfl (by simp) (by simp)
    (fun w => by
      obtain ⟨c, hc, -⟩ := raiseDiag_ok (l := some (.scalar 0.000001)) (n := 2) trivial
        (Adaptation.raw ⟨none, some (.scalar 0.000001), b, 0.8⟩ [fun _ => 5, fun _ => 5] w ⟨fun _ => 5, 0, none⟩)
      refine ⟨c, ?_⟩
      change Adaptation.covar _ _ _ _ = _
      rw [adaptation_covar _ _ _ _ (by norm_num)]
      exact hc)
  have hU := Updates.succ 0 _ _ _ _ _ _ _ _ (.zero _) h
  exact ⟨d', hU, fun a => C105_min_partial hn (by simp) (.inl (by simp)) .none trivial hu hU a⟩

/-! ### C106: cost functions -/

theorem norm2_eq (v : Fin n → ℝ) : norm2 v = ‖WithLp.toLp 2 v‖ := by
  rw [EuclideanSpace.norm_eq]
  simp [norm2]

/-- C106: the cost is the Euclidean distance; it is zero at the point only. -/
theorem C106_distance (point sample : Fin n → ℝ) :
    ∃ c, distanceCost point sample = [c] ∧ c = dist (WithLp.toLp 2 sample) (WithLp.toLp 2 point) ∧ 0 ≤ c ∧
      (c = 0 ↔ sample = point) := by
  have e : norm2 (fun j => sample j - point j) = dist (WithLp.toLp 2 sample) (WithLp.toLp 2 point) := by
    rw [norm2_eq, dist_eq_norm]
    rfl
  refine ⟨_, rfl, e, ?_, ?_⟩
  · rw [e]; exact dist_nonneg
  · rw [e, dist_eq_zero]
    exact (WithLp.toLp_injective 2).eq_iff

/-- C106: the first cost is the sum of the others, which are distance and weighted norm; there is a label for each of
the others. -/
theorem C106_components (point sample : Fin n → ℝ) (weight : ℝ) :
    ∃ c a b, regularizedCost point weight sample = [c, a, b] ∧ c = [a, b].sum ∧
      a = dist (WithLp.toLp 2 sample) (WithLp.toLp 2 point) ∧ b = weight * dist (WithLp.toLp 2 sample) 0 ∧
      regularizedLabels.length = [a, b].length := by
  refine ⟨_, _, _, rfl, by simp, ?_, ?_, rfl⟩
  · rw [norm2_eq, dist_eq_norm]
    rfl
  · rw [norm2_eq, dist_zero_right]

/-- C106: where the total cost is smallest. With weights below 1 at the point, with weights above 1 at zero, and with
weight 1 (that of the demo) everywhere on the segment between them. -/
theorem C106_minimum (point sample : Fin n → ℝ) (weight : ℝ) (h0 : 0 ≤ weight) :
    ∃ c, (regularizedCost point weight sample).head? = some c ∧
      (weight < 1 → weight * norm2 point ≤ c ∧ (c = weight * norm2 point ↔ sample = point)) ∧
      (weight = 1 → norm2 point ≤ c ∧ (c = norm2 point ↔ ∃ t : ℝ, 0 ≤ t ∧ t ≤ 1 ∧ ∀ j, sample j = t * point j)) ∧
      (1 < weight → norm2 point ≤ c ∧ (c = norm2 point ↔ ∀ j, sample j = 0)) := by
  refine ⟨_, rfl, ?_⟩
  have e1 : norm2 (fun j => sample j - point j) = dist (WithLp.toLp 2 sample) (WithLp.toLp 2 point) := by
    rw [norm2_eq, dist_eq_norm]
    rfl
  rw [e1, norm2_eq, norm2_eq]
  set s : EuclideanSpace ℝ (Fin n) := WithLp.toLp 2 sample with hs
  set p : EuclideanSpace ℝ (Fin n) := WithLp.toLp 2 point with hp
  have tri : ‖p‖ ≤ dist s p + ‖s‖ := by
    have := norm_le_norm_add_norm_sub' p s
    rw [dist_comm, dist_eq_norm]
    linarith
  have hd : 0 ≤ dist s p := dist_nonneg
  have hn : 0 ≤ ‖s‖ := norm_nonneg s
  have hsp : sample = point ↔ dist s p = 0 := by
    rw [dist_eq_zero]
    exact ((WithLp.toLp_injective 2).eq_iff).symm
  have hz : (∀ j, sample j = 0) ↔ ‖s‖ = 0 := by
    rw [norm_eq_zero]
    constructor
    · intro h
      ext j
      exact h j
    · intro h j
      have := congrArg (fun v : EuclideanSpace ℝ (Fin n) => v j) h
      exact this
  refine ⟨fun hw => ⟨by nlinarith, ?_⟩, fun hw => ⟨by rw [hw]; linarith, ?_⟩, fun hw => ⟨by nlinarith, ?_⟩⟩
  · rw [hsp]
    constructor
    · intro h
      nlinarith
    · intro h
      have : s = p := dist_eq_zero.mp h
      rw [h, this, zero_add]
  · subst hw
    rw [one_mul]
    have : dist s p + ‖s‖ = ‖p‖ ↔ dist 0 s + dist s p = dist 0 p := by
      rw [dist_zero_left, dist_zero_left, add_comm]
    rw [this, dist_add_dist_eq_iff]
    constructor
    · rintro ⟨t, ⟨t0, t1⟩, ht⟩
      refine ⟨t, t0, t1, fun j => ?_⟩
      have := congrArg (fun v : EuclideanSpace ℝ (Fin n) => v j) ht
      simp [AffineMap.lineMap_apply] at this
      exact this.symm
    · rintro ⟨t, t0, t1, ht⟩
      refine ⟨t, ⟨t0, t1⟩, ?_⟩
      ext j
      simp [AffineMap.lineMap_apply]
      exact (ht j).symm
  · rw [hz]
    constructor
    · intro h
      nlinarith
    · intro h
      rw [h, mul_zero, add_zero]
      have h' : s = 0 := norm_eq_zero.mp h
      rw [h', dist_zero_left]

/-- The demo: the cost of (1, 1), which is not the point (2, 2), is minimal. -/
example : ∃ c, (regularizedCost (fun _ : Fin 2 => (2 : ℝ)) 1 fun _ => 1).head? = some c ∧ c = norm2 fun _ : Fin 2 => (2 : ℝ) := by
  obtain ⟨c, h1, -, h2, -⟩ := C106_minimum (fun _ : Fin 2 => (2 : ℝ)) (fun _ => 1) 1 zero_le_one
  exact ⟨c, h1, (h2 rfl).2.mpr ⟨1 / 2, by norm_num, by norm_num, fun _ => by norm_num⟩⟩

end Verif
