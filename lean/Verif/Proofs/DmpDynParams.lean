import Verif.Spec.Attributes

/- Dmp.set_params_dyn_sys as an operation on dictionaries. -/

set_option autoImplicit false

namespace Verif

open Spec

theorem lookup_cons_if {β : Type} (n a : String) (b : β) (l : List (String × β)) :
    ((a, b) :: l).lookup n = if n = a then some b else l.lookup n := by
  rw [List.lookup_cons]
  by_cases h : n = a
  · simp [h]
  · rw [if_neg h, beq_false_of_ne h]

theorem toSpring_none {p : Setting} (hp : Named p) (s : SpringDamper) :
    p.toSpring s = none ↔ (springDict s).lookup (settingName p) = none := by
  cases p <;> simp [Setting.toSpring, Setting.toBase, springDict, baseDict, settingName,
    lookup_cons_if, Named] at hp ⊢
  simp [hp]

theorem toSpring_some {p : Setting} {s t : SpringDamper} (h : p.toSpring s = some t) (n : String) :
    (springDict t).lookup n =
      if n = settingName p then some (settingValue p) else (springDict s).lookup n := by
  cases p <;> simp only [Setting.toSpring, Setting.toBase, Option.some.injEq, Option.map_some,
    Option.map_none, reduceCtorEq] at h <;> subst h <;> simp only [settingName, settingValue] <;>
    split_ifs with h <;> (try subst h) <;>
    simp [springDict, baseDict, lookup_cons_if, *]

theorem toSub_none {p : Setting} (hp : Named p) (s : Sub) :
    p.toSub s = none ↔ (subDict s).lookup (settingName p) = none := by
  cases s <;> cases p <;> simp [Setting.toSub, Setting.toTime, Setting.toExponential,
    Setting.toSigmoid, Setting.toRichards, Setting.toBase, subDict, baseDict, settingName,
    lookup_cons_if, Named] at hp ⊢
  all_goals simp [hp]

theorem toSub_some {p : Setting} {s t : Sub} (h : p.toSub s = some t) (n : String) :
    (subDict t).lookup n =
      if n = settingName p then some (settingValue p) else (subDict s).lookup n := by
  cases s <;> cases p <;> simp only [Setting.toSub, Setting.toTime, Setting.toExponential,
    Setting.toSigmoid, Setting.toRichards, Setting.toBase, Option.some.injEq, Option.map_some,
    Option.map_none, reduceCtorEq] at h <;> subst h <;> simp only [settingName, settingValue] <;>
    split_ifs with h <;> (try subst h) <;>
    simp [subDict, baseDict, lookup_cons_if, *]

/-- What one pass of the loop over the parameters of a system does to its dictionary. -/
def LoopSpec (ps : List Setting) (d : Dict) (r : Except PyErr Unit) (d' : Dict) : Prop :=
  (r = .ok () ∧ Known d ps ∧ Overwritten d ps d') ∨
  ∃ pre p post, ps = pre ++ p :: post ∧ r = .error .runtimeError ∧ Known d pre ∧
    d.lookup (settingName p) = none ∧ Overwritten d pre d'

theorem loop_spec {σ : Type} {set : Setting → σ → Option σ} {dict : σ → Dict}
    (h0 : ∀ p, Named p → ∀ s, set p s = none ↔ (dict s).lookup (settingName p) = none)
    (h1 : ∀ p s t, set p s = some t → ∀ n, (dict t).lookup n =
      if n = settingName p then some (settingValue p) else (dict s).lookup n)
    (ps : List Setting) (hn : ∀ p ∈ ps, Named p) (hd : (ps.map settingName).Nodup) (s : σ) :
    LoopSpec ps (dict s) (Setting.loop set ps s).1 (dict (Setting.loop set ps s).2) := by
  induction ps generalizing s with
  | nil =>
    exact .inl ⟨rfl, by simp [Known], by simp, fun _ _ => rfl⟩
  | cons p ps ih =>
    have hp := hn p (by simp)
    have hnd : settingName p ∉ ps.map settingName ∧ (ps.map settingName).Nodup := by
      simpa using hd
    cases hset : set p s with
    | none =>
      have hrun : Setting.loop set (p :: ps) s = (.error .runtimeError, s) := by
        unfold Setting.loop
        rw [PyM.self_bind, hset]; rfl
      rw [hrun]
      exact .inr ⟨[], p, ps, rfl, rfl, by simp [Known], (h0 p hp s).1 hset, by simp, fun _ _ => rfl⟩
    | some u =>
      have hrun : Setting.loop set (p :: ps) s = Setting.loop set ps u := by
        rw [Setting.loop.eq_2, PyM.self_bind, hset]
        simp only
        rw [PyM.modify_bind]
      have hl := h1 p s u hset
      have hk : (dict s).lookup (settingName p) ≠ none := fun h => by
        have := (h0 p hp s).2 h
        rw [hset] at this; cases this
      rw [hrun]
      have back : ∀ q ∈ ps, (dict u).lookup (settingName q) = (dict s).lookup (settingName q) := by
        intro q hq
        rw [hl, if_neg]
        intro he
        exact hnd.1 (List.mem_map.2 ⟨q, hq, he⟩)
      have over : ∀ qs d', (∀ q ∈ qs, q ∈ ps) → Overwritten (dict u) qs d' →
          Overwritten (dict s) (p :: qs) d' := by
        intro qs d' hqs ho
        refine ⟨?_, ?_⟩
        · intro q hq
          rcases List.mem_cons.1 hq with rfl | hq
          · rw [ho.old, hl, if_pos rfl]
            intro q' hq' he
            exact hnd.1 (List.mem_map.2 ⟨q', hqs q' hq', he⟩)
          · exact ho.new q hq
        · intro a ha
          rw [ho.old a fun q hq => ha q (by simp [hq]), hl, if_neg]
          exact fun he => ha p (by simp) he.symm
      rcases ih (fun q hq => hn q (by simp [hq])) hnd.2 u with ⟨hr, hkn, ho⟩ |
        ⟨pre, q, post, hps, hr, hkn, hq, ho⟩
      · refine .inl ⟨hr, ?_, over ps _ (fun _ h => h) ho⟩
        intro q hq
        rcases List.mem_cons.1 hq with rfl | hq
        · exact hk
        · rw [← back q hq]; exact hkn q hq
      · refine .inr ⟨p :: pre, q, post, by rw [hps]; rfl, hr, ?_, ?_, over pre _ ?_ ho⟩
        · intro q' hq'
          rcases List.mem_cons.1 hq' with rfl | hq'
          · exact hk
          · rw [← back q' (by rw [hps]; simp [hq'])]; exact hkn q' hq'
        · rw [← back q (by rw [hps]; simp)]; exact hq
        · intro q' hq'; rw [hps]; simp [hq']

/-- What one of the three rounds of Dmp.py:658 does. -/
structure Round (params : List (String × List Setting)) (n : String) (m : PyM Dmp Unit) (s : Dmp) :
    Prop where
  only : OnlySystems s (m s).2
  others : ∀ n', n' ≠ n → system (m s).2 n' = system s n'
  absent : params.lookup n = none → m s = (.ok (), s)
  missing : ∀ ps, params.lookup n = some ps → system s n = none → m s = (.error .runtimeError, s)
  present : ∀ ps d, params.lookup n = some ps → system s n = some d →
    ∃ d', system (m s).2 n = some d' ∧ LoopSpec ps d (m s).1 d'

theorem mem_of_lookup {β : Type} {l : List (String × β)} {n : String} {b : β}
    (h : l.lookup n = some b) : (n, b) ∈ l := by
  induction l with
  | nil => cases h
  | cons e l ih =>
    rw [show e = (e.1, e.2) from rfl, lookup_cons_if] at h
    by_cases he : n = e.1
    · rw [if_pos he] at h
      cases h; subst he; simp
    · rw [if_neg he] at h
      exact List.mem_cons_of_mem _ (ih h)

theorem lookup_of_mem {β : Type} {l : List (String × β)} (hd : (l.map Prod.fst).Nodup) {n : String}
    {b : β} (h : (n, b) ∈ l) : l.lookup n = some b := by
  induction l with
  | nil => cases h
  | cons e l ih =>
    rw [show e = (e.1, e.2) from rfl, lookup_cons_if]
    have hd' : e.1 ∉ l.map Prod.fst ∧ (l.map Prod.fst).Nodup := by simpa using hd
    rcases List.mem_cons.1 h with he | h
    · rw [← he]; simp
    · rw [if_neg, ih hd'.2 h]
      rintro rfl
      exact hd'.1 (List.mem_map.2 ⟨_, h, rfl⟩)

theorem spring_round {params : List (String × List Setting)} (hp : IsParams params) (s : Dmp) :
    Round params "spring_system" (Dmp.setSpringParams params) s := by
  cases hl : params.lookup "spring_system" with
  | none =>
    have hrun : Dmp.setSpringParams params s = (.ok (), s) := by
      unfold Dmp.setSpringParams; rw [hl]; rfl
    refine ⟨?_, ?_, fun _ => hrun, ?_, ?_⟩
    · rw [hrun]; rfl
    · rw [hrun]; exact fun _ _ => rfl
    · intro ps h; rw [hl] at h; cases h
    · intro ps d h; rw [hl] at h; cases h
  | some ps =>
    have hrun : Dmp.setSpringParams params s =
        ((Setting.loop Setting.toSpring ps s.spring).1,
          { s with spring := (Setting.loop Setting.toSpring ps s.spring).2 }) := by
      unfold Dmp.setSpringParams; rw [hl]; rfl
    refine ⟨?_, ?_, ?_, ?_, ?_⟩
    · rw [hrun]; rfl
    · intro n' hn'
      rw [hrun]
      simp only [system, if_neg hn']
    · intro h; rw [hl] at h; cases h
    · intro ps _ h; simp [system] at h
    · intro ps' d h hd
      rw [hl] at h; cases h
      have hm := mem_of_lookup hl
      simp only [system, if_pos, Option.some.injEq] at hd
      subst hd
      rw [hrun]
      exact ⟨_, rfl, loop_spec (fun p hp s => toSpring_none hp s) (fun p s t h n => toSpring_some h n)
        ps (hp.named _ _ hm) (hp.settings _ _ hm) _⟩

theorem goal_round {params : List (String × List Setting)} (hp : IsParams params) (s : Dmp) :
    Round params "goal_system" (Dmp.setGoalParams params) s := by
  cases hl : params.lookup "goal_system" with
  | none =>
    have hrun : Dmp.setGoalParams params s = (.ok (), s) := by
      unfold Dmp.setGoalParams; rw [hl]; rfl
    refine ⟨?_, ?_, fun _ => hrun, ?_, ?_⟩
    · rw [hrun]; rfl
    · rw [hrun]; exact fun _ _ => rfl
    · intro ps h; rw [hl] at h; cases h
    · intro ps d h; rw [hl] at h; cases h
  | some ps =>
    cases hg : s.goal with
    | none =>
      have hrun : Dmp.setGoalParams params s = (.error .runtimeError, s) := by
        unfold Dmp.setGoalParams; rw [hl]
        simp only
        rw [PyM.self_bind, hg]; rfl
      refine ⟨?_, ?_, ?_, fun _ _ _ => hrun, ?_⟩
      · rw [hrun]; rfl
      · rw [hrun]; exact fun _ _ => rfl
      · intro h; rw [hl] at h; cases h
      · intro ps d _ h; simp [system, hg] at h
    | some g =>
      have hrun : Dmp.setGoalParams params s =
          ((Setting.loop Setting.toSub ps g).1,
            { s with goal := some (Setting.loop Setting.toSub ps g).2 }) := by
        unfold Dmp.setGoalParams; rw [hl]
        simp only
        rw [PyM.self_bind]
        simp only [Dmp.onGoal, hg]
      refine ⟨?_, ?_, ?_, ?_, ?_⟩
      · rw [hrun]; rfl
      · intro n' hn'
        rw [hrun]
        simp only [system, if_neg hn']
      · intro h; rw [hl] at h; cases h
      · intro ps _ h; simp [system, hg] at h
      · intro ps' d h hd
        rw [hl] at h; cases h
        have hm := mem_of_lookup hl
        have hd : subDict g = d := by simpa [system, hg] using hd
        subst hd
        rw [hrun]
        exact ⟨_, rfl, loop_spec (fun p hp s => toSub_none hp s) (fun p s t h n => toSub_some h n)
          ps (hp.named _ _ hm) (hp.settings _ _ hm) _⟩

theorem damping_round {params : List (String × List Setting)} (hp : IsParams params) (s : Dmp) :
    Round params "damping_system" (Dmp.setDampingParams params) s := by
  cases hl : params.lookup "damping_system" with
  | none =>
    have hrun : Dmp.setDampingParams params s = (.ok (), s) := by
      unfold Dmp.setDampingParams; rw [hl]; rfl
    refine ⟨?_, ?_, fun _ => hrun, ?_, ?_⟩
    · rw [hrun]; rfl
    · rw [hrun]; exact fun _ _ => rfl
    · intro ps h; rw [hl] at h; cases h
    · intro ps d h; rw [hl] at h; cases h
  | some ps =>
    cases hg : s.damping with
    | none =>
      have hrun : Dmp.setDampingParams params s = (.error .runtimeError, s) := by
        unfold Dmp.setDampingParams; rw [hl]
        simp only
        rw [PyM.self_bind, hg]; rfl
      refine ⟨?_, ?_, ?_, fun _ _ _ => hrun, ?_⟩
      · rw [hrun]; rfl
      · rw [hrun]; exact fun _ _ => rfl
      · intro h; rw [hl] at h; cases h
      · intro ps d _ h; simp [system, hg] at h
    | some g =>
      have hrun : Dmp.setDampingParams params s =
          ((Setting.loop Setting.toSub ps g).1,
            { s with damping := some (Setting.loop Setting.toSub ps g).2 }) := by
        unfold Dmp.setDampingParams; rw [hl]
        simp only
        rw [PyM.self_bind]
        simp only [Dmp.onDamping, hg]
      refine ⟨?_, ?_, ?_, ?_, ?_⟩
      · rw [hrun]; rfl
      · intro n' hn'
        rw [hrun]
        simp only [system, if_neg hn']
      · intro h; rw [hl] at h; cases h
      · intro ps _ h; simp [system, hg] at h
      · intro ps' d h hd
        rw [hl] at h; cases h
        have hm := mem_of_lookup hl
        have hd : subDict g = d := by simpa [system, hg] using hd
        subst hd
        rw [hrun]
        exact ⟨_, rfl, loop_spec (fun p hp s => toSub_none hp s) (fun p s t h n => toSub_some h n)
          ps (hp.named _ _ hm) (hp.settings _ _ hm) _⟩

theorem checkNames_run (ns : List String) (s : Dmp) :
    (Dmp.checkNames ns s = (.ok (), s) ∧ ∀ n ∈ ns, IsAttribute s n) ∨
    (Dmp.checkNames ns s = (.error .runtimeError, s) ∧ ∃ n ∈ ns, ¬IsAttribute s n) := by
  have hattr : ∀ n, s.hasAttr n = true ↔ IsAttribute s n := by
    intro n
    unfold Dmp.hasAttr IsAttribute
    rw [Bool.or_eq_true, List.contains_iff_mem, Bool.and_eq_true, beq_iff_eq, Option.isSome_iff_exists]
  induction ns with
  | nil => exact .inl ⟨rfl, by simp⟩
  | cons n ns ih =>
    by_cases h : s.hasAttr n = true
    · have hrun : Dmp.checkNames (n :: ns) s = Dmp.checkNames ns s := by
        rw [Dmp.checkNames.eq_2, PyM.self_bind, if_pos h]
      rw [hrun]
      rcases ih with ⟨h1, h2⟩ | ⟨h1, m, hm, h2⟩
      · refine .inl ⟨h1, fun m hm => ?_⟩
        rcases List.mem_cons.1 hm with rfl | hm
        · exact (hattr _).1 h
        · exact h2 m hm
      · exact .inr ⟨h1, m, by simp [hm], h2⟩
    · have hrun : Dmp.checkNames (n :: ns) s = (.error .runtimeError, s) := by
        rw [Dmp.checkNames.eq_2, PyM.self_bind, if_neg h]; rfl
      exact .inr ⟨hrun, n, by simp, fun h' => h ((hattr n).2 h')⟩

theorem LoopSpec.ok_iff {ps : List Setting} {d d' : Dict} {r : Except PyErr Unit}
    (h : LoopSpec ps d r d') : r = .ok () ↔ Known d ps := by
  rcases h with ⟨h1, h2, _⟩ | ⟨pre, p, post, rfl, h1, _, h3, _⟩
  · exact ⟨fun _ => h2, fun _ => h1⟩
  · refine ⟨fun h => (by rw [h1] at h; cases h), fun h => ?_⟩
    exact absurd h3 (h p (by simp))

theorem OnlySystems.refl (s : Dmp) : OnlySystems s s := rfl

theorem OnlySystems.trans {s t u : Dmp} (h1 : OnlySystems s t) (h2 : OnlySystems t u) :
    OnlySystems s u := by
  unfold OnlySystems at *
  rw [h1] at h2
  exact h2

theorem Round.fine {params : List (String × List Setting)} (hp : IsParams params) {n : String}
    {m : PyM Dmp Unit} {s : Dmp} (h : Round params n m s) (hf : Fine params s n) :
    (m s).1 = .ok () ∧ Done params s (m s).2 n := by
  cases hl : params.lookup n with
  | none =>
    have := h.absent hl
    rw [this]
    refine ⟨rfl, fun ps hps => ?_, fun _ => rfl⟩
    rw [lookup_of_mem hp.systems hps] at hl; cases hl
  | some ps =>
    obtain ⟨d, hd, hk⟩ := hf ps (mem_of_lookup hl)
    obtain ⟨d', hd', hs⟩ := h.present ps d hl hd
    refine ⟨hs.ok_iff.2 hk, fun ps' hps' => ?_, fun h => absurd (mem_of_lookup hl) (h ps)⟩
    rw [lookup_of_mem hp.systems hps'] at hl; cases hl
    rcases hs with ⟨_, _, ho⟩ | ⟨pre, p, post, rfl, _, _, h3, _⟩
    · exact ⟨d, d', hd, hd', ho⟩
    · exact absurd h3 (hk p (by simp))

theorem Round.stop {params : List (String × List Setting)} {n : String}
    {m : PyM Dmp Unit} {s : Dmp} (hp : IsParams params) (h : Round params n m s)
    (hf : ¬Fine params s n) :
    (m s).1 = .error .runtimeError ∧ Stopped params s (m s).2 n := by
  obtain ⟨ps, hps, hno⟩ : ∃ ps, (n, ps) ∈ params ∧ ¬∃ d, system s n = some d ∧ Known d ps := by
    by_contra hc
    exact hf fun ps hps => by
      by_contra hc'
      exact hc ⟨ps, hps, hc'⟩
  have hl := lookup_of_mem hp.systems hps
  cases hd : system s n with
  | none =>
    rw [h.missing ps hl hd]
    exact ⟨rfl, ps, hps, .inl ⟨hd, hd⟩⟩
  | some d =>
    obtain ⟨d', hd', hs⟩ := h.present ps d hl hd
    rcases hs with ⟨_, hk, _⟩ | ⟨pre, p, post, h0, h1, h2, h3, h4⟩
    · exact absurd ⟨d, hd, hk⟩ hno
    · exact ⟨h1, ps, hps, .inr ⟨pre, p, post, d, d', h0, hd, h2, h3, hd', h4⟩⟩

/-- Rounds one after the other. -/
def rounds : List (String × PyM Dmp Unit) → PyM Dmp Unit → PyM Dmp Unit
  | [], k => k
  | e :: es, k => e.2 >>= fun _ => rounds es k

theorem Spec.Done.congr {params : List (String × List Setting)} {s s' t t' : Dmp} {n : String}
    (h : Done params s t n) (h1 : system s' n = system s n) (h2 : system t' n = system t n) :
    Done params s' t' n := by
  unfold Done at *
  rw [h1, h2]; exact h

theorem Spec.Stopped.congr {params : List (String × List Setting)} {s s' t t' : Dmp} {n : String}
    (h : Stopped params s t n) (h1 : system s' n = system s n) (h2 : system t' n = system t n) :
    Stopped params s' t' n := by
  unfold Stopped at *
  rw [h1, h2]; exact h

theorem rounds_fine {params : List (String × List Setting)} (hp : IsParams params)
    (es : List (String × PyM Dmp Unit)) (hr : ∀ e ∈ es, ∀ s, Round params e.1 e.2 s)
    (hnd : (es.map Prod.fst).Nodup) (k : PyM Dmp Unit) (s : Dmp)
    (hf : ∀ n ∈ es.map Prod.fst, Fine params s n) :
    ∃ t, rounds es k s = k t ∧ OnlySystems s t ∧
      (∀ n, n ∉ es.map Prod.fst → system t n = system s n) ∧
      ∀ n ∈ es.map Prod.fst, Done params s t n := by
  induction es generalizing s with
  | nil => exact ⟨s, rfl, rfl, fun _ _ => rfl, by simp⟩
  | cons e es ih =>
    have hnd' : e.1 ∉ es.map Prod.fst ∧ (es.map Prod.fst).Nodup := by simpa using hnd
    have r := hr e (by simp) s
    obtain ⟨hok, hdone⟩ := r.fine hp (hf e.1 (by simp))
    have sys : ∀ n ∈ es.map Prod.fst, system (e.2 s).2 n = system s n := fun n hn =>
      r.others n (by rintro rfl; exact hnd'.1 hn)
    obtain ⟨t, h1, h2, h3, h4⟩ := ih (fun e' he' => hr e' (by simp [he'])) hnd'.2 (e.2 s).2
      (fun n hn => by
        unfold Fine
        rw [sys n hn]
        exact hf n (by simp only [List.map_cons, List.mem_cons]; exact .inr hn))
    refine ⟨t, ?_, OnlySystems.trans r.only h2, ?_, ?_⟩
    · rw [rounds, PyM.bind_ok (s' := (e.2 s).2) (a := ()) (by rw [← hok]), h1]
    · intro n hn
      simp only [List.map_cons, List.mem_cons, not_or] at hn
      rw [h3 n hn.2, r.others n hn.1]
    · intro n hn
      simp only [List.map_cons, List.mem_cons] at hn
      rcases hn with rfl | hn
      · exact hdone.congr rfl (h3 _ hnd'.1)
      · exact (h4 n hn).congr (sys n hn).symm rfl

theorem rounds_stop {params : List (String × List Setting)} (hp : IsParams params)
    (es : List (String × PyM Dmp Unit)) (hr : ∀ e ∈ es, ∀ s, Round params e.1 e.2 s)
    (hnd : (es.map Prod.fst).Nodup) (k : PyM Dmp Unit) (s : Dmp) {before after : List String}
    {n : String} (hsplit : es.map Prod.fst = before ++ n :: after)
    (hb : ∀ m ∈ before, Fine params s m) (hn : ¬Fine params s n) :
    ∃ t, rounds es k s = (.error .runtimeError, t) ∧ OnlySystems s t ∧
      (∀ m ∈ before, Done params s t m) ∧ Stopped params s t n ∧
      ∀ m, m ∉ before → m ≠ n → system t m = system s m := by
  induction before generalizing es s with
  | nil =>
    cases es with
    | nil => cases hsplit
    | cons e es =>
      obtain ⟨rfl, rfl⟩ : e.1 = n ∧ es.map Prod.fst = after := by simpa using hsplit
      have r := hr e (by simp) s
      obtain ⟨he, hst⟩ := r.stop hp hn
      refine ⟨(e.2 s).2, ?_, r.only, by simp, hst, fun m _ hm => r.others m hm⟩
      rw [rounds, PyM.bind_error (s' := (e.2 s).2) (by rw [← he])]
  | cons b before ih =>
    cases es with
    | nil => cases hsplit
    | cons e es =>
      obtain ⟨rfl, hes⟩ : e.1 = b ∧ es.map Prod.fst = before ++ n :: after := by simpa using hsplit
      have hnd' : e.1 ∉ es.map Prod.fst ∧ (es.map Prod.fst).Nodup := by simpa using hnd
      have hnb : e.1 ∉ before ∧ e.1 ≠ n := by
        have := hnd'.1
        rw [hes] at this
        simp only [List.mem_append, List.mem_cons, not_or] at this
        exact ⟨this.1, this.2.1⟩
      have r := hr e (by simp) s
      obtain ⟨hok, hdone⟩ := r.fine hp (hb e.1 (by simp))
      have sys : ∀ m, m ≠ e.1 → system (e.2 s).2 m = system s m := fun m hm => r.others m hm
      obtain ⟨t, h1, h2, h3, h4, h5⟩ := ih es (fun e' he' => hr e' (by simp [he'])) hnd'.2 (e.2 s).2
        hes (fun m hm => by
          unfold Fine
          rw [sys m (by rintro rfl; exact hnb.1 hm)]
          exact hb m (by simp [hm]))
        (fun hc => hn (by
          unfold Fine at hc
          rw [sys n hnb.2.symm] at hc
          exact hc))
      refine ⟨t, ?_, OnlySystems.trans r.only h2, ?_, ?_, ?_⟩
      · rw [rounds, PyM.bind_ok (s' := (e.2 s).2) (a := ()) (by rw [← hok]), h1]
      · intro m hm
        rcases List.mem_cons.1 hm with rfl | hm
        · exact hdone.congr rfl (h5 _ hnb.1 hnb.2)
        · exact (h3 m hm).congr (sys m (by rintro rfl; exact hnb.1 hm)).symm rfl
      · exact h4.congr (sys n hnb.2.symm).symm rfl
      · intro m hm hmn
        simp only [List.mem_cons, not_or] at hm
        rw [h5 m hm.2 hmn, sys m hm.1]

/-- The three rounds of Dmp.py:658. -/
def three (params : List (String × List Setting)) : List (String × PyM Dmp Unit) :=
  [("spring_system", Dmp.setSpringParams params), ("goal_system", Dmp.setGoalParams params),
    ("damping_system", Dmp.setDampingParams params)]

theorem three_rounds {params : List (String × List Setting)} (hp : IsParams params) :
    ∀ e ∈ three params, ∀ s, Round params e.1 e.2 s := by
  intro e he s
  simp only [three, List.mem_cons, List.not_mem_nil, or_false] at he
  rcases he with rfl | rfl | rfl
  · exact spring_round hp s
  · exact goal_round hp s
  · exact damping_round hp s

theorem setParams_eq (params : List (String × List Setting)) :
    Dmp.setParamsDynSys params = rounds (three params) (Dmp.checkNames (params.map Prod.fst)) := rfl

end Verif
