import Verif.Proofs.DmpDynParams
import Verif.Props.DmpMotions

/- Properties C85: Dmp.set_params_dyn_sys. -/

noncomputable section

set_option autoImplicit false

namespace Verif

open Spec

namespace Dmp

variable {d : Nat} {params : List (String × List Setting)}

theorem three_names : (three params).map Prod.fst = order := rfl

theorem order_nodup : order.Nodup := by decide

/-! ### When it succeeds, and what it does -/

theorem C85_cases (hp : IsParams params) (s : Dmp) :
    (∃ t, (∀ n ∈ order, Fine params s n) ∧ OnlySystems s t ∧
      (∀ n, n ∉ order → system t n = system s n) ∧ (∀ n ∈ order, Done params s t n) ∧
      ((setParamsDynSys params s = (.ok (), t) ∧ ∀ n ∈ params.map Prod.fst, IsAttribute s n) ∨
       (setParamsDynSys params s = (.error .runtimeError, t) ∧
        ∃ n ∈ params.map Prod.fst, ¬IsAttribute s n))) ∨
    ∃ before n after t, order = before ++ n :: after ∧ (∀ m ∈ before, Fine params s m) ∧
      ¬Fine params s n ∧ setParamsDynSys params s = (.error .runtimeError, t) ∧ OnlySystems s t ∧
      (∀ m ∈ before, Done params s t m) ∧ Stopped params s t n ∧
      ∀ m, m ∉ before → m ≠ n → system t m = system s m := by
  by_cases hf : ∀ n ∈ order, Fine params s n
  · left
    obtain ⟨t, h1, h2, h3, h4⟩ := rounds_fine hp (three params) (three_rounds hp) order_nodup
      (checkNames (params.map Prod.fst)) s hf
    refine ⟨t, hf, h2, h3, h4, ?_⟩
    rw [setParams_eq, h1]
    have ha : ∀ n, IsAttribute t n ↔ IsAttribute s n := by
      intro n
      unfold IsAttribute
      have : t.yInit? = s.yInit? := by rw [h2]
      rw [this]
    rcases checkNames_run (params.map Prod.fst) t with ⟨h5, h6⟩ | ⟨h5, n, hn, h6⟩
    · exact .inl ⟨h5, fun n hn => (ha n).1 (h6 n hn)⟩
    · exact .inr ⟨h5, n, hn, fun h => h6 ((ha n).2 h)⟩
  · right
    have : ∃ before n after, order = before ++ n :: after ∧ (∀ m ∈ before, Fine params s m) ∧
        ¬Fine params s n := by
      by_cases h1 : Fine params s "spring_system"
      · by_cases h2 : Fine params s "goal_system"
        · by_cases h3 : Fine params s "damping_system"
          · exact absurd (by simp [order, h1, h2, h3]) hf
          · exact ⟨["spring_system", "goal_system"], _, [], rfl, by simp [h1, h2], h3⟩
        · exact ⟨["spring_system"], _, ["damping_system"], rfl, by simp [h1], h2⟩
      · exact ⟨[], _, ["goal_system", "damping_system"], rfl, by simp, h1⟩
    obtain ⟨before, n, after, ho, hb, hn⟩ := this
    obtain ⟨t, h1, h2, h3, h4, h5⟩ := rounds_stop hp (three params) (three_rounds hp) order_nodup
      (checkNames (params.map Prod.fst)) s (three_names.trans ho) hb hn
    exact ⟨before, n, after, t, ho, hb, hn, h1, h2, h3, h4, h5⟩

/-- C85: the call succeeds if and only if each name in `params` is that of an attribute, each of the
subsystems spring_system, goal_system and damping_system that is named is there, and each parameter
given for it is an attribute of it; otherwise an exception is raised. -/
theorem C85_succeeds (hp : IsParams params) (s : Dmp) :
    ((setParamsDynSys params s).1 = .ok () ↔
      (∀ n ∈ params.map Prod.fst, IsAttribute s n) ∧
      ∀ n ∈ order, ∀ ps, (n, ps) ∈ params → ∃ dict, system s n = some dict ∧ Known dict ps) ∧
    ∀ e, (setParamsDynSys params s).1 = .error e → e = .runtimeError := by
  rcases C85_cases hp s with ⟨t, h1, _, _, _, ⟨h5, h6⟩ | ⟨h5, n, hn, h6⟩⟩ |
    ⟨before, n, after, t, ho, _, hn, h, _⟩
  · rw [h5]
    exact ⟨⟨fun _ => ⟨h6, h1⟩, fun _ => rfl⟩, fun e h => nomatch h⟩
  · rw [h5]
    refine ⟨⟨fun h => (nomatch h), fun h => absurd (h.1 n hn) h6⟩, fun e h => ?_⟩
    cases h; rfl
  · rw [h]
    refine ⟨⟨fun h => (nomatch h), fun h => absurd (h.2 n (by rw [ho]; simp)) hn⟩, fun e h => ?_⟩
    cases h; rfl

/-- C85: if the call succeeds, each parameter given for spring_system, goal_system and damping_system has
the given value, and each attribute of a subsystem for which no value was given has the value it had. -/
theorem C85_sets_partial (hp : IsParams params) {s t : Dmp} (h : setParamsDynSys params s = (.ok (), t)) :
    (∀ n ∈ order, ∀ ps, (n, ps) ∈ params → ∀ p ∈ ps, attr t n (settingName p) = some (settingValue p)) ∧
    (∀ n a, (∀ ps, (n, ps) ∈ params → ∀ p ∈ ps, settingName p ≠ a) → attr t n a = attr s n a) ∧
    OnlySystems s t := by
  rcases C85_cases hp s with ⟨t', _, h2, h3, h4, ⟨h5, _⟩ | ⟨h5, _⟩⟩ | ⟨_, _, _, _, _, _, _, h5, _⟩
  · obtain rfl : t' = t := by rw [h] at h5; cases h5; rfl
    refine ⟨?_, ?_, h2⟩
    · intro n hn ps hps p hpp
      obtain ⟨e, e', _, he', ho⟩ := (h4 n hn).1 ps hps
      unfold attr
      rw [he']
      exact ho.new p hpp
    · intro n a ha
      by_cases hn : n ∈ order
      · by_cases hps : ∃ ps, (n, ps) ∈ params
        · obtain ⟨ps, hps⟩ := hps
          obtain ⟨e, e', he, he', ho⟩ := (h4 n hn).1 ps hps
          unfold attr
          rw [he, he']
          exact ho.old a (ha ps hps)
        · unfold attr
          rw [(h4 n hn).2 fun ps hps' => hps ⟨ps, hps'⟩]
      · unfold attr
        rw [h3 n hn]
  · rw [h] at h5; cases h5
  · rw [h] at h5; cases h5

/-- C85: whether or not an exception is raised, an attribute of a subsystem either has the value it had
or one that was given for it; nothing but the three subsystems changes. -/
theorem C85_keeps (hp : IsParams params) (s : Dmp) :
    OnlySystems s (setParamsDynSys params s).2 ∧
    ∀ n a, attr (setParamsDynSys params s).2 n a = attr s n a ∨
      n ∈ order ∧ ∃ ps p, (n, ps) ∈ params ∧ p ∈ ps ∧ settingName p = a ∧
        attr (setParamsDynSys params s).2 n a = some (settingValue p) := by
  have done : ∀ t n, n ∈ order → Done params s t n → ∀ a, attr t n a = attr s n a ∨
      n ∈ order ∧ ∃ ps p, (n, ps) ∈ params ∧ p ∈ ps ∧ settingName p = a ∧
        attr t n a = some (settingValue p) := by
    intro t n hn hd a
    by_cases hps : ∃ ps, (n, ps) ∈ params
    · obtain ⟨ps, hps⟩ := hps
      obtain ⟨e, e', he, he', ho⟩ := hd.1 ps hps
      by_cases hp' : ∃ p ∈ ps, settingName p = a
      · obtain ⟨p, hpp, rfl⟩ := hp'
        refine .inr ⟨hn, ps, p, hps, hpp, rfl, ?_⟩
        unfold attr; rw [he']; exact ho.new p hpp
      · left
        unfold attr; rw [he, he']
        exact ho.old a fun p hpp h => hp' ⟨p, hpp, h⟩
    · left
      unfold attr
      rw [hd.2 fun ps hps' => hps ⟨ps, hps'⟩]
  rcases C85_cases hp s with ⟨t, _, h2, h3, h4, h5⟩ | ⟨before, n, after, t, ho, _, _, h5, h2, h3, h4, h6⟩
  · have ht : (setParamsDynSys params s).2 = t := by
      rcases h5 with h5 | h5 <;> rw [h5.1]
    rw [ht]
    refine ⟨h2, fun n a => ?_⟩
    by_cases hn : n ∈ order
    · exact done t n hn (h4 n hn) a
    · left; unfold attr; rw [h3 n hn]
  · rw [h5]
    refine ⟨h2, fun m a => ?_⟩
    by_cases hm : m ∈ before
    · exact done t m (by rw [ho]; simp [hm]) (h3 m hm) a
    by_cases hmn : m = n
    · subst hmn
      obtain ⟨ps, hps, ⟨h7, h8⟩ | ⟨pre, p, post, e, e', rfl, he, _, _, he', hov⟩⟩ := h4
      · left; unfold attr; rw [h7, h8]
      · by_cases hp' : ∃ p ∈ pre, settingName p = a
        · obtain ⟨q, hq, rfl⟩ := hp'
          refine .inr ⟨by rw [ho]; simp, _, q, hps, by simp [hq], rfl, ?_⟩
          unfold attr; rw [he']; exact hov.new q hq
        · left
          unfold attr; rw [he, he']
          exact hov.old a fun p hpp h => hp' ⟨p, hpp, h⟩
    · left; unfold attr; rw [h6 m hm hmn]

/-- C85: where an exception stops the call. For the first of the three subsystems for which a parameter is
given that is not one of its attributes, the parameters before that one have been set; those of the
subsystems before it have all been set; the subsystems after it are as they were. -/
theorem C85_stops (hp : IsParams params) (s : Dmp) {before after : List String} {n : String}
    (ho : order = before ++ n :: after)
    (hb : ∀ m ∈ before, ∀ ps, (m, ps) ∈ params → ∃ dict, system s m = some dict ∧ Known dict ps)
    {pre post : List Setting} {p : Setting} (hm : (n, pre ++ p :: post) ∈ params) {dict : Dict}
    (hd : system s n = some dict) (hpre : Known dict pre)
    (hno : dict.lookup (settingName p) = none) :
    (setParamsDynSys params s).1 = .error .runtimeError ∧
    (∃ dict', system (setParamsDynSys params s).2 n = some dict' ∧ Overwritten dict pre dict') ∧
    (∀ m ∈ before, ∀ ps, (m, ps) ∈ params → ∃ e e', system s m = some e ∧
      system (setParamsDynSys params s).2 m = some e' ∧ Overwritten e ps e') ∧
    ∀ m ∈ after, system (setParamsDynSys params s).2 m = system s m := by
  have hf : ¬Fine params s n := by
    intro h
    obtain ⟨e, he, hk⟩ := h _ hm
    rw [hd] at he; cases he
    exact hk p (by simp) hno
  obtain ⟨t, h1, h2, h3, h4, h5⟩ := rounds_stop hp (three params) (three_rounds hp) order_nodup
    (checkNames (params.map Prod.fst)) s (three_names.trans ho) hb hf
  rw [setParams_eq, h1]
  refine ⟨rfl, ?_, fun m hm => (h3 m hm).1, ?_⟩
  · obtain ⟨ps, hps, ⟨h7, _⟩ | ⟨pre', p', post', e, e', hsp, he, hk, hno', he', hov⟩⟩ := h4
    · rw [hd] at h7; cases h7
    · rw [hd] at he; cases he
      refine ⟨e', he', ?_⟩
      have hps' : ps = pre ++ p :: post := by
        have h1 := lookup_of_mem hp.systems hm
        rw [lookup_of_mem hp.systems hps] at h1
        cases h1; rfl
      rw [hps'] at hsp
      have : pre = pre' := by
        rcases List.append_eq_append_iff.1 hsp with ⟨as, h1, h2⟩ | ⟨as, h1, h2⟩
        · cases as with
          | nil => simpa using h1.symm
          | cons a as =>
            obtain rfl : p = a := by simpa using (List.cons.inj h2).1
            exact absurd hno (hk p (by rw [h1]; simp))
        · cases as with
          | nil => simpa using h1
          | cons a as =>
            obtain rfl : p' = a := by simpa using (List.cons.inj h2).1
            exact absurd hno' (hpre p' (by rw [h1]; simp))
      rw [this]; exact hov
  · intro m hma
    have hnd : (before ++ n :: after).Nodup := ho ▸ order_nodup
    rw [List.nodup_append] at hnd
    refine h5 m (fun hmb => hnd.2.2 m hmb m (by simp [hma]) rfl) ?_
    rintro rfl
    exact (List.nodup_cons.1 hnd.2.1).1 hma

/-- C85: a subsystem that is None is reported before anything of it or of the subsystems after it is
set. -/
theorem C85_missing (hp : IsParams params) (s : Dmp) {before after : List String} {n : String}
    (ho : order = before ++ n :: after)
    (hb : ∀ m ∈ before, ∀ ps, (m, ps) ∈ params → ∃ dict, system s m = some dict ∧ Known dict ps)
    {ps : List Setting} (hm : (n, ps) ∈ params) (hd : system s n = none) :
    (setParamsDynSys params s).1 = .error .runtimeError ∧
    ∀ m, m ∉ before → system (setParamsDynSys params s).2 m = system s m := by
  have hf : ¬Fine params s n := by
    intro h
    obtain ⟨e, he, hk⟩ := h _ hm
    rw [hd] at he; cases he
  obtain ⟨t, h1, h2, h3, h4, h5⟩ := rounds_stop hp (three params) (three_rounds hp) order_nodup
    (checkNames (params.map Prod.fst)) s (three_names.trans ho) hb hf
  rw [setParams_eq, h1]
  refine ⟨rfl, fun m hm' => ?_⟩
  by_cases hmn : m = n
  · subst hmn
    obtain ⟨ps, hps, ⟨_, h8⟩ | ⟨pre', p', post', e, e', hsp, he, _⟩⟩ := h4
    · rw [h8, hd]
    · rw [hd] at he; cases he
  · exact h5 m hm' hmn

/-! ### What it does not do -/

/-- C85, full statement: the call either sets every parameter that is given, or raises an exception and
leaves the Dmp as it was. -/
def C85_statement : Prop :=
  ∀ (params : List (String × List Setting)) (s : Dmp), IsParams params →
    ((setParamsDynSys params s).1 = .ok () → ∀ n ps, (n, ps) ∈ params → ∀ p ∈ ps,
      attr (setParamsDynSys params s).2 n (settingName p) = some (settingValue p)) ∧
    ∀ e, (setParamsDynSys params s).1 = .error e → (setParamsDynSys params s).2 = s

/-- The Dmp from 0 to 1 that the constructor makes. -/
theorem exists_default : ∃ s, init 1 [0] [1] none {} = .ok s ∧
    s.spring = SpringDamper.init 1 [0] [1] (.scalar 20) ∧
    s.phase = .time (.init 1 false) ∧
    s.goal = some (.exponential (.init 1 [0] [1] (.scalar 15))) ∧ s.damping = none ∧ Inv 1 s := by
  obtain ⟨s, hs⟩ := (C16_types 1 [0] [1] none {}).1 (by simp [known])
  have hfit : Options.Fits {} 1 :=
    ⟨(fun _ h => nomatch h), trivial, (fun _ h => nomatch h),
      (fun _ h => nomatch h), (fun _ h => nomatch h), (fun _ h => nomatch h), (fun _ h => nomatch h)⟩
  have hinv : Inv 1 s := init_inv hs rfl hfit (fun e he => nomatch he)
  obtain ⟨dflt, hdf, e⟩ := init_eq hs
  unfold defaults at hdf
  simp only at hdf
  rw [if_neg (by decide), if_pos (by decide)] at hdf
  cases hdf
  refine ⟨s, hs, ?_, ?_, ?_, ?_, hinv⟩ <;> rw [e] <;> simp

/-- A parameter of the phase system is accepted and ignored, so the full statement does not hold. -/
theorem C85_ignored : ∃ s, init 1 [0] [1] none {} = .ok s ∧
    IsParams [("phase_system", [.countDown true])] ∧
    setParamsDynSys [("phase_system", [.countDown true])] s = (.ok (), s) ∧
    attr s "phase_system" "_count_down" = some (.bool false) := by
  obtain ⟨s, hs, _, hph, _⟩ := exists_default
  refine ⟨s, hs, ⟨by simp, by simp, ?_⟩, rfl, ?_⟩
  · intro n ps h p hp
    simp only [List.mem_singleton, Prod.mk.injEq] at h
    obtain ⟨_, rfl⟩ := h
    simp only [List.mem_singleton] at hp
    subst hp; trivial
  · simp [attr, system, hph, subDict, baseDict, lookup_cons_if, TimeSystem.init]

theorem C85_refuted : ¬C85_statement := by
  intro h
  obtain ⟨s, _, hp, hrun, ha⟩ := C85_ignored
  have := (h _ s hp).1 (by rw [hrun]) "phase_system" [.countDown true] (by simp) (.countDown true) (by simp)
  rw [hrun] at this
  change attr s "phase_system" "_count_down" = _ at this
  rw [ha] at this
  simp [settingValue] at this

/-- An exception can leave the Dmp changed: the parameter before the one with the wrong name is set. -/
theorem C85_changed : ∃ s, init 1 [0] [1] none {} = .ok s ∧
    IsParams [("spring_system", [.mass (.scalar 2), .other "stiffness"])] ∧
    (setParamsDynSys [("spring_system", [.mass (.scalar 2), .other "stiffness"])] s).1 =
      .error .runtimeError ∧
    attr s "spring_system" "mass" = some (.par (.scalar 1)) ∧
    attr (setParamsDynSys [("spring_system", [.mass (.scalar 2), .other "stiffness"])] s).2
      "spring_system" "mass" = some (.par (.scalar 2)) := by
  obtain ⟨s, hs, hsp, _⟩ := exists_default
  refine ⟨s, hs, ⟨by simp, ?_, ?_⟩, rfl, ?_, ?_⟩
  · intro n ps h
    simp only [List.mem_singleton, Prod.mk.injEq] at h
    obtain ⟨_, rfl⟩ := h
    simp [settingName]
  · intro n ps h p hp
    simp only [List.mem_singleton, Prod.mk.injEq] at h
    obtain ⟨_, rfl⟩ := h
    simp only [List.mem_cons, List.not_mem_nil, or_false] at hp
    rcases hp with rfl | rfl
    · trivial
    · simp [Named]
  · simp [attr, system, hsp, springDict, baseDict, lookup_cons_if, SpringDamper.init]
  · change attr { s with spring := { s.spring with mass := .scalar 2 } } "spring_system" "mass" = _
    simp [attr, system, springDict, baseDict, lookup_cons_if]

/-- A successful call can leave a Dmp whose subsystems have different time constants. -/
theorem C85_desynchronised : ∃ s, init 1 [0] [1] none {} = .ok s ∧ s.spring.tau = s.tau ∧
    ∃ t, setParamsDynSys [("spring_system", [.tau 2])] s = (.ok (), t) ∧ t.tau = 1 ∧ t.spring.tau = 2 := by
  obtain ⟨s, hs, hsp, _⟩ := exists_default
  have ht : s.tau = 1 := by
    obtain ⟨_, _, e⟩ := init_eq hs
    rw [e]
  refine ⟨s, hs, ?_, _, rfl, ht, rfl⟩
  rw [hsp, ht]; rfl

/-- The subsystem without the values it cached. -/
def forget : Sub → Sub
  | .sigmoid g => .sigmoid { g with ksCached := none }
  | g => g

/-- C85, second statement: after a successful call, the goal system moves according to the parameters it
has, in a Dmp whose sizes and cached values were all right. -/
def C85_fresh_statement : Prop :=
  ∀ (params : List (String × List Setting)) (s t : Dmp), IsParams params → Inv s.dimY s →
    setParamsDynSys params s = (.ok (), t) → ∀ g, t.goal = some g → ∀ x,
      (Sub.diffEq x g).1 = (Sub.diffEq x (forget g)).1

/-- A SigmoidSystem whose carrying capacities have been computed. -/
def queried : Sigmoid := { Sigmoid.init 1 [1] (.scalar 0) (.scalar 1) with ksCached := some [2] }

/-- After `_max_rate` of a SigmoidSystem has been set, the carrying capacities for the old rate are
used. -/
theorem C85_fresh_refuted : ¬C85_fresh_statement := by
  intro h
  obtain ⟨s, hs⟩ := (C16_types 1 [0] [1] none { goal := some (some (.sigmoid queried)) }).1 (by simp [known])
  have hw : (Sub.sigmoid queried).Wf := by
    refine ⟨⟨rfl, rfl, trivial, trivial⟩, .inr ?_⟩
    norm_num [queried, Sigmoid.init, Sigmoid.ksNow, Sigmoid.kComp, Par.at', List.range_succ]
  have hfit : Options.Fits { goal := some (some (.sigmoid queried)) } 1 :=
    ⟨(fun _ h => nomatch h), trivial, (fun _ h => nomatch h), (fun _ h => nomatch h),
      (fun t h => by cases h; exact ⟨hw, rfl⟩), (fun _ h => nomatch h), (fun _ h => nomatch h)⟩
  have hinv : Inv 1 s := init_inv hs rfl hfit (fun e he => nomatch he)
  have hgo : s.goal = some (.sigmoid queried) := by
    obtain ⟨_, _, e⟩ := init_eq hs
    rw [e]; rfl
  have hp : IsParams [("goal_system", [.maxRate (.scalar 1)])] := by
    refine ⟨by simp, ?_, ?_⟩
    · intro n ps h
      simp only [List.mem_singleton, Prod.mk.injEq] at h
      obtain ⟨_, rfl⟩ := h
      simp
    · intro n ps h p hp
      simp only [List.mem_singleton, Prod.mk.injEq] at h
      obtain ⟨_, rfl⟩ := h
      simp only [List.mem_singleton] at hp
      subst hp; trivial
  have hrun : setParamsDynSys [("goal_system", [.maxRate (.scalar 1)])] s =
      (.ok (), { s with goal := some (.sigmoid { queried with maxRate := .scalar 1 }) }) := by
    have : s = { s with goal := some (.sigmoid queried) } := by rw [← hgo]
    rw [this]; rfl
  have := h _ s _ hp (hinv.dim.symm ▸ hinv) hrun _ rfl [1]
  have e1 : (Sub.diffEq [1] (.sigmoid { queried with maxRate := .scalar 1 })).1 = .ok [1 / 2] := by
    change (Except.ok (Sigmoid.rate (.scalar 1) [1] [2]) : Except PyErr (List ℝ)) = _
    norm_num [Sigmoid.rate, Par.mul, vmul, vdiv, vscale]
  have e2 : (Sub.diffEq [1] (forget (.sigmoid { queried with maxRate := .scalar 1 }))).1 =
      .ok [1 - 1 / (1 + Real.exp 1)] := by
    change (Except.ok (Sigmoid.rate (.scalar 1) [1] ((List.range 1).map
      (Sigmoid.kComp { queried with maxRate := .scalar 1, ksCached := none }))) :
        Except PyErr (List ℝ)) = _
    norm_num [Sigmoid.rate, Par.mul, vmul, vdiv, vscale, Sigmoid.kComp, queried, Sigmoid.init, Par.at',
      List.range_succ, Real.exp_neg]
  rw [e1, e2] at this
  simp only [Except.ok.injEq, List.cons.injEq, and_true] at this
  have h1 : (1 : ℝ) < Real.exp 1 := Real.one_lt_exp_iff.2 one_pos
  have h2 : 1 / (1 + Real.exp 1) < (1 : ℝ) / 2 := by
    apply one_div_lt_one_div_of_lt <;> linarith
  linarith

/-! ### Tuning -/

/-- A parameter of the movement, with as many values as there are dimensions. -/
def Tunes (d : Nat) : Setting → Prop
  | .alpha a => a.Fits d
  | .v a => a.Fits d
  | .rightAsymp a => a.Fits d
  | .tInflRatio a => a.Fits d
  | .leftAsymp a => ∀ b, a = some b → b.Fits d
  | .damping a => a.Fits d
  | .spring a => a.Fits d
  | .mass a => a.Fits d
  | _ => False

theorem loop_inv {σ : Type} {set : Setting → σ → Option σ} {P : σ → Prop} {ps : List Setting}
    (h : ∀ p ∈ ps, ∀ s t, P s → set p s = some t → P t) {s : σ} (hs : P s) :
    P (Setting.loop set ps s).2 := by
  induction ps generalizing s with
  | nil => exact hs
  | cons p ps ih =>
    rw [Setting.loop.eq_2, PyM.self_bind]
    cases hset : set p s with
    | none => exact hs
    | some t =>
      simp only
      rw [PyM.modify_bind]
      exact ih (fun q hq => h q (by simp [hq])) (h p (by simp) s t hs hset)

theorem toSpring_tunes {p : Setting} {s t : SpringDamper} (hp : Tunes s.dimY p) (hs : s.Wf)
    (h : p.toSpring s = some t) : t.Wf ∧ t.dimY = s.dimY := by
  obtain ⟨h1, h2, h3, h4, h5, h6⟩ := hs
  cases p <;> simp only [Setting.toSpring, Setting.toBase, Option.some.injEq, Option.map_some,
    Option.map_none, reduceCtorEq] at h <;> first | exact hp.elim | skip
  all_goals
    subst h
    refine ⟨⟨h1, h2, h3, ?_, ?_, ?_⟩, rfl⟩ <;> first | exact hp | assumption

/-- What the invariant says about a goal or damping system. -/
def SubOk (d : Nat) (plain : Exponential → Prop) (g : Sub) : Prop :=
  g.Wf ∧ g.base.dimX = d ∧ ∀ e, g = .exponential e → plain e

theorem toSub_tunes {plain : Exponential → Prop} (hpl : ∀ e e', plain e → e'.xAttr = e.xAttr → plain e')
    {p : Setting} {s t : Sub} (hp : Tunes d p) (hs : SubOk d plain s) (h : p.toSub s = some t) :
    SubOk d plain t := by
  obtain ⟨hw, hd, he⟩ := hs
  cases s with
  | time s =>
    cases p <;> simp only [Setting.toSub, Setting.toTime, Setting.toBase, Option.map_none,
      reduceCtorEq] at h <;> exact hp.elim
  | sigmoid s =>
    cases p <;> simp only [Setting.toSub, Setting.toSigmoid, Setting.toBase, Option.map_none,
      reduceCtorEq] at h <;> exact hp.elim
  | exponential s =>
    have hw' : s.Wf := hw
    have hdd : s.dimY = d := hw'.dim.symm.trans hd
    cases p <;> simp only [Setting.toSub, Setting.toExponential, Setting.toBase, Option.some.injEq,
      Option.map_some, Option.map_none, reduceCtorEq] at h <;> first | exact hp.elim | skip
    subst h
    refine ⟨⟨hw'.dim, hw'.xInit, hw'.xAttr, ?_⟩, hd, ?_⟩
    · change Par.Fits _ s.dimY
      rw [hdd]; exact hp
    · intro e h
      cases h
      exact hpl s _ (he s rfl) rfl
  | richards s =>
    have hw' : s.Wf := hw
    have hd' : s.dimX = d := hd
    obtain ⟨h1, h2, h3, h4, h5, h6, h7⟩ := hw'
    cases p <;> simp only [Setting.toSub, Setting.toRichards, Setting.toBase, Option.some.injEq,
      Option.map_some, Option.map_none, reduceCtorEq] at h <;> first | exact hp.elim | skip
    all_goals
      subst h
      refine ⟨⟨h1, h2, ?_, ?_, ?_, ?_, ?_⟩, hd, fun e h => nomatch h⟩ <;>
        first | assumption | (simp only [hd']; exact hp)

theorem bind_keeps {σ : Type} {P : σ → Prop} {m : PyM σ Unit} {k : Unit → PyM σ Unit}
    (hm : ∀ s, P s → P (m s).2) (hk : ∀ s, P s → P (k () s).2) {s : σ} (h : P s) :
    P ((m >>= k) s).2 := by
  rw [PyM.bind_apply]
  have h1 := hm s h
  rcases hms : m s with ⟨r, s'⟩
  rw [hms] at h1
  cases r with
  | ok a => exact hk s' h1
  | error e => exact h1

/-- C85: setting parameters of the movement, with values of the right size, keeps a Dmp in working order,
whether or not an exception is raised: sizes and cached values stay all right, and the differential
equation has a value wherever it had one because the function approximators and the scaling do. -/
theorem C85_tuned {s : Dmp} (hs : Inv d s) (hp : ∀ n ps, (n, ps) ∈ params → ∀ p ∈ ps, Tunes d p) :
    Inv d (setParamsDynSys params s).2 ∧
    (s.Answers → s.CanScale → s.CanForce → IsParams params → ∀ x : List ℝ, x.length = 4 * d + 2 →
      ∃ xd, (diffEq x (setParamsDynSys params s).2).1 = .ok xd) := by
  have inv : Inv d (setParamsDynSys params s).2 := by
    refine bind_keeps (P := Inv d) ?_ (fun s hs => bind_keeps (P := Inv d) ?_
      (fun s hs => bind_keeps (P := Inv d) ?_ ?_ hs) hs) hs
    · intro s hs
      unfold setSpringParams
      cases hl : params.lookup "spring_system" with
      | none => exact hs
      | some ps =>
        have hps := hp _ _ (mem_of_lookup hl)
        have key : (Setting.loop Setting.toSpring ps s.spring).2.Wf ∧
            (Setting.loop Setting.toSpring ps s.spring).2.dimY = d := by
          refine loop_inv (P := fun g : SpringDamper => g.Wf ∧ g.dimY = d) ?_
            ⟨hs.wf.spring, hs.wf.springDim.trans hs.dim⟩
          intro p hpp g g' hg hset
          have := toSpring_tunes (hg.2.symm ▸ hps p hpp) hg.1 hset
          exact ⟨this.1, this.2.trans hg.2⟩
        obtain ⟨w, pl, di⟩ := hs
        exact ⟨⟨w.dimX, w.yAttr, w.yInit, key.1, key.2.trans di.symm, w.phase, w.phaseDim, w.gating,
          w.gatingDim, w.goal, w.goalDim, w.damping, w.dampingDim, w.amplitudes⟩, pl, di⟩
    · intro s hs
      unfold setGoalParams
      cases hl : params.lookup "goal_system" with
      | none => exact hs
      | some ps =>
        have hps := hp _ _ (mem_of_lookup hl)
        simp only
        rw [PyM.self_bind]
        cases hg : s.goal with
        | none => exact hs
        | some g =>
          have key : SubOk d (fun e => s.requiresScaling = false ∧ e.xAttr = s.yAttr)
              (Setting.loop Setting.toSub ps g).2 := by
            refine loop_inv ?_ ⟨hs.wf.goal g hg, (hs.wf.goalDim g hg).trans hs.dim,
              fun e he => hs.plain e (by rw [hg, he])⟩
            intro p hpp g g' hg hset
            exact toSub_tunes (fun e e' he h => ⟨he.1, h.trans he.2⟩) (hps p hpp) hg hset
          obtain ⟨w, pl, di⟩ := hs
          simp only [onGoal, hg]
          refine ⟨⟨w.dimX, w.yAttr, w.yInit, w.spring, w.springDim, w.phase, w.phaseDim, w.gating,
            w.gatingDim, ?_, ?_, w.damping, w.dampingDim, w.amplitudes⟩, ?_, di⟩
          · intro g' h; cases h; exact key.1
          · intro g' h; cases h; exact key.2.1.trans di.symm
          · intro e h
            exact key.2.2 e (Option.some.inj h)
    · intro s hs
      unfold setDampingParams
      cases hl : params.lookup "damping_system" with
      | none => exact hs
      | some ps =>
        have hps := hp _ _ (mem_of_lookup hl)
        simp only
        rw [PyM.self_bind]
        cases hg : s.damping with
        | none => exact hs
        | some g =>
          have key : SubOk d (fun _ => True) (Setting.loop Setting.toSub ps g).2 := by
            refine loop_inv ?_ ⟨hs.wf.damping g hg, (hs.wf.dampingDim g hg).trans hs.dim,
              fun _ _ => trivial⟩
            intro p hpp g g' hg hset
            exact toSub_tunes (fun _ _ _ _ => trivial) (hps p hpp) hg hset
          obtain ⟨w, pl, di⟩ := hs
          simp only [onDamping, hg]
          refine ⟨⟨w.dimX, w.yAttr, w.yInit, w.spring, w.springDim, w.phase, w.phaseDim, w.gating,
            w.gatingDim, w.goal, w.goalDim, ?_, ?_, w.amplitudes⟩, pl, di⟩
          · intro g' h; cases h; exact key.1
          · intro g' h; cases h; exact key.2.1.trans di.symm
    · intro s hs
      rcases checkNames_run (params.map Prod.fst) s with ⟨h, _⟩ | ⟨h, _⟩ <;> rw [h] <;> exact hs
  refine ⟨inv, fun ha hcs hcf hpar x hx => total_of_can inv.good ?_ ?_ ?_ hx⟩ <;>
    have ho := (C85_keeps hpar s).1 <;> unfold OnlySystems at ho <;> rw [ho]
  · exact ha
  · exact hcs
  · exact hcf

/-! ### Examples -/

/-- A call that sets three parameters of two subsystems. -/
def someParams : List (String × List Setting) :=
  [("goal_system", [.alpha (.scalar 10)]), ("spring_system", [.damping (.scalar 30), .spring (.scalar 225)])]

theorem someParams_ok : IsParams someParams ∧ ∀ n ps, (n, ps) ∈ someParams → ∀ p ∈ ps, Tunes 1 p := by
  refine ⟨⟨by simp [someParams], ?_, ?_⟩, ?_⟩ <;> intro n ps h <;>
    simp only [someParams, List.mem_cons, List.not_mem_nil, or_false, Prod.mk.injEq] at h <;>
    rcases h with ⟨_, rfl⟩ | ⟨_, rfl⟩ <;> simp [settingName, Named, Tunes, Par.Fits]

/-- The hypotheses of C85_sets_partial and C85_tuned are met: it succeeds. -/
example : ∃ s t, init 1 [0] [1] none {} = .ok s ∧ Inv 1 s ∧ IsParams someParams ∧
    (∀ n ps, (n, ps) ∈ someParams → ∀ p ∈ ps, Tunes 1 p) ∧
    setParamsDynSys someParams s = (.ok (), t) ∧
    t.goal = some (.exponential (.init 1 [0] [1] (.scalar 10))) ∧ t.spring.damping = .scalar 30 := by
  obtain ⟨s, hs, _, _, hgo, _, hi⟩ := exists_default
  have e : s = { s with goal := some (.exponential (.init 1 [0] [1] (.scalar 15))) } := by rw [← hgo]
  refine ⟨s, (setParamsDynSys someParams s).2, hs, hi, someParams_ok.1, someParams_ok.2, ?_, ?_, ?_⟩ <;>
    rw [e] <;> rfl

/-- The hypotheses of C85_stops are met: the second parameter of the goal system has a wrong name. -/
example : ∃ s, init 1 [0] [1] none {} = .ok s ∧
    ∃ dict, system s "goal_system" = some dict ∧ Known dict [.alpha (.scalar 10)] ∧
      dict.lookup (settingName (.mass (.scalar 1))) = none ∧
      order = ["spring_system"] ++ "goal_system" :: ["damping_system"] := by
  obtain ⟨s, hs, _, _, hgo, _, _⟩ := exists_default
  refine ⟨s, hs, subDict (.exponential (.init 1 [0] [1] (.scalar 15))), by simp [system, hgo], ?_, ?_, rfl⟩
  · simp [Known, subDict, baseDict, settingName, lookup_cons_if]
  · simp [subDict, baseDict, settingName, lookup_cons_if]

/-- The hypotheses of C85_missing are met: the default Dmp has no damping system. -/
example : ∃ s, init 1 [0] [1] none {} = .ok s ∧ system s "damping_system" = none ∧
    order = ["spring_system", "goal_system"] ++ "damping_system" :: [] := by
  obtain ⟨s, hs, _, _, _, hda, _⟩ := exists_default
  exact ⟨s, hs, by simp [system, hda], rfl⟩

end Dmp

end Verif
