import Verif.Props.StepByStep

/- C61: update_step can be repeated after a crash. -/

set_option autoImplicit false

namespace Verif

open Spec

section
variable {V : Type} [Storable V]

theorem askValue_taskDir {w : World V} (h : TaskDir w) (name : String) (u : Option Int)
    (s : Option Label) : ∃ w', World.askValue name u s w = (w.answer (baseName name u s), w') ∧
      SameAnswers w w' ∧ TaskDir w' := by
  obtain ⟨w', h1, h2⟩ := askValue_answer h.cacheOk name u s
  refine ⟨w', h1, h2, h2.cacheOk, h2.hasDir.trans h.hasDir, ?_⟩
  cases hv : w.answer (baseName name u s) with
  | ok v =>
    obtain ⟨w2, e1, e2, _⟩ := Runs.askValue h hv
    rw [h1] at e1
    rw [(Prod.mk.inj e1).2]
    exact e2.task
  | error e =>
    cases hc : w.cache.lookup (baseName name u s) with
    | some r =>
      have hr := h.cacheOk _ r hc
      simp [World.answer, hc, World.deref, List.getElem?_eq_getElem hr] at hv
    | none =>
      have hl : w.load (baseName name u s) = .error e := by
        simpa [World.answer, hc, h.hasDir] using hv
      have : World.askValue name u s w = (.error e, w) := by
        unfold World.askValue
        rw [PyM.bind_error]
        exact World.ask_dir_missing hc h.hasDir hl
      rw [h1] at this
      rw [(Prod.mk.inj this).2]
      exact h.task

/-- Two sessions with the same answers, except for the keys in `W`. -/
structure Alike (W : SKey → Prop) (w w' : World V) : Prop where
  left : TaskDir w
  right : TaskDir w'
  same : ∀ k, GoodKey (· = "eval") k → ¬ W k → w.answer k.base = w'.answer k.base

/-- Files of the keys in `W`. -/
def FileOf (W : SKey → Prop) (f : File) : Prop :=
  ∃ k, W k ∧ GoodKey (· = "eval") k ∧ (f.parts = k.base.parts ∨ f.parts = forCppParts k.base.parts)

/-- A program that does the same in sessions which are alike, and only writes files of `W`. `P` is
what is assumed, `Q` holds if the program ends without exception. -/
def Sim {α : Type} (W : SKey → Prop) (P Q : World V → Prop) (m : PyM (World V) α) : Prop :=
  ∀ w w', Alike W w w' → P w → P w' → ∃ r w1 w1' log, m w = (r, w1) ∧ m w' = (r, w1') ∧
    Alike W w1 w1' ∧ ((∃ a, r = .ok a) → Q w1 ∧ Q w1') ∧ w1.files = log ++ w.files ∧
    w1'.files = log ++ w'.files ∧ ∀ e ∈ log, FileOf W e.1

theorem Sim.bind {α β : Type} {W : SKey → Prop} {P Q R : World V → Prop} {m : PyM (World V) α}
    {f : α → PyM (World V) β} (hm : Sim W P Q m) (hf : ∀ a, Sim W Q R (f a)) :
    Sim W P R (m >>= f) := by
  intro w w' h hp hp'
  obtain ⟨r, w1, w1', log, e1, e2, e3, e4, e5, e6, e7⟩ := hm w w' h hp hp'
  cases r with
  | error e =>
    exact ⟨.error e, w1, w1', log, by rw [PyM.bind_error e1], by rw [PyM.bind_error e2], e3,
      (by rintro ⟨a, ha⟩; cases ha), e5, e6, e7⟩
  | ok a =>
    obtain ⟨q, q'⟩ := e4 ⟨a, rfl⟩
    obtain ⟨r, w2, w2', log', g1, g2, g3, g4, g5, g6, g7⟩ := hf a w1 w1' e3 q q'
    refine ⟨r, w2, w2', log' ++ log, by rw [PyM.bind_ok e1, g1], by rw [PyM.bind_ok e2, g2], g3, g4,
      by rw [g5, e5, List.append_assoc], by rw [g6, e6, List.append_assoc], ?_⟩
    intro e he
    rcases List.mem_append.mp he with he | he
    · exact g7 e he
    · exact e7 e he

theorem Sim.pure {α : Type} {W : SKey → Prop} {P : World V → Prop} (a : α) :
    Sim W P P (Pure.pure a : PyM (World V) α) := fun w w' h hp hp' =>
  ⟨.ok a, w, w', [], rfl, rfl, h, fun _ => ⟨hp, hp'⟩, rfl, rfl, by simp⟩

theorem Sim.raise {α : Type} {W : SKey → Prop} {P Q : World V → Prop} (e : PyErr) :
    Sim W P Q (PyM.raise e : PyM (World V) α) := fun w w' h _ _ =>
  ⟨.error e, w, w', [], rfl, rfl, h, (by rintro ⟨a, ha⟩; cases ha), rfl, rfl, by simp⟩

theorem Sim.lift {α : Type} {W : SKey → Prop} {P : World V → Prop} (x : Except PyErr α) :
    Sim W P P (PyM.lift x : PyM (World V) α) := fun w w' h hp hp' =>
  ⟨x, w, w', [], by rw [PyM.lift_apply], by rw [PyM.lift_apply], h, fun _ => ⟨hp, hp'⟩, rfl, rfl,
    by simp⟩

/-- The files only grow. -/
def Monotone' (P : World V → Prop) : Prop :=
  ∀ (w w' : World V) log, w'.files = log ++ w.files → P w → P w'

theorem Sim.askValue {W : SKey → Prop} {P : World V → Prop} (hP : Monotone' P) (name : String)
    (u : Option Int) (s : Option Label) (hk : GoodKey (· = "eval") (name, u, s))
    (hW : ¬ W (name, u, s)) : Sim W P P (World.askValue (V := V) name u s) := by
  intro w w' h hp hp'
  obtain ⟨w1, e1, e2, e3⟩ := askValue_taskDir h.left name u s
  obtain ⟨w1', g1, g2, g3⟩ := askValue_taskDir h.right name u s
  refine ⟨w.answer (baseName name u s), w1, w1', [], e1, ?_, ⟨e3, g3, ?_⟩, fun _ => ⟨?_, ?_⟩, ?_, ?_,
    by simp⟩
  · rw [g1]
    congr 1
    exact (h.same (name, u, s) hk hW).symm
  · intro k hgk hWk
    rw [e2.answer, g2.answer]
    exact h.same k hgk hWk
  · exact hP w w1 [] (by simpa using e2.files) hp
  · exact hP w' w1' [] (by simpa using g2.files) hp'
  · simpa using e2.files
  · simpa using g2.files

theorem Sim.tell {W : SKey → Prop} {P Q : World V → Prop} (v : V) (name : String) (u : Option Int)
    (s : Option Label) (hk : GoodKey (· = "eval") (name, u, s)) (hW : W (name, u, s))
    (hdir : dmpIn name = true → ∀ w : World V, P w →
      w.dirExists (SKey.base (name, u, s)).parts.dropLast = true)
    (hQ : ∀ (w w' : World V) log, P w → w'.files = log ++ w.files →
      (⟨(SKey.base (name, u, s)).parts, Storable.kind v⟩, v) ∈ w'.files → Q w') :
    Sim W P Q (World.tell v name u s) := by
  intro w w' h hp hp'
  have r1 := Runs.tell (k := (name, u, s)) (v := v) h.left hk (fun hd => hdir hd w hp)
  have r2 := Runs.tell (k := (name, u, s)) (v := v) h.right hk (fun hd => hdir hd w' hp')
  obtain ⟨w1, e1, e2, e3, e4⟩ := r1
  obtain ⟨w1', g1, g2, g3, g4⟩ := r2
  refine ⟨_, w1, w1', ([(v, (name, u, s))].flatMap writesOf).reverse, e1, g1, ⟨e2, g2, ?_⟩,
    fun _ => ⟨?_, ?_⟩, e4, g4, ?_⟩
  · intro k hgk hWk
    have hne : ∀ t ∈ [(v, ((name, u, s) : SKey))], t.2 ≠ k := by
      intro t ht he
      rw [List.mem_singleton.mp ht] at he
      exact hWk (he ▸ hW)
    rw [e3 k hgk, g3 k hgk, toldAnswer_other hgk (by simpa using hk) hne,
      toldAnswer_other hgk (by simpa using hk) hne]
    exact h.same k hgk hWk
  · exact hQ w w1 _ hp e4 (mem_files (t := (v, (name, u, s))) e4 (by simp))
  · exact hQ w' w1' _ hp' g4 (mem_files (t := (v, (name, u, s))) g4 (by simp))
  · intro e he
    simp only [List.flatMap_cons, List.flatMap_nil, List.append_nil, List.mem_reverse] at he
    refine ⟨(name, u, s), hW, hk, ?_⟩
    unfold writesOf at he
    by_cases hd : dmpIn name = true
    · simp only [hd, if_true, List.cons_append, List.nil_append, List.mem_cons, List.not_mem_nil,
        or_false] at he
      rcases he with rfl | rfl | rfl
      · exact Or.inl rfl
      · exact Or.inr rfl
      · exact Or.inl rfl
    · simp only [hd, Bool.false_eq_true, if_false, List.nil_append, List.mem_singleton] at he
      rw [he]
      exact Or.inl rfl

theorem Sim.foldlM {α β : Type} {W : SKey → Prop} {P : World V → Prop} (f : β → α → PyM (World V) β)
    (l : List α) (hf : ∀ b, ∀ a ∈ l, Sim W P P (f b a)) (b : β) : Sim W P P (l.foldlM f b) := by
  induction l generalizing b with
  | nil => exact Sim.pure b
  | cons a l ih =>
    rw [List.foldlM_cons]
    exact Sim.bind (hf b a (by simp)) fun b' => ih (fun b a ha => hf b a (by simp [ha])) b'

end

noncomputable section

variable {n : Nat} {D : Type} [DmpLike n D]

/-- The keys told by update_step. -/
def StepWrites (i : Int) (k : SKey) : Prop :=
  (k.2.1 = some i ∧ (k.1 = "costs" ∨ k.1 = "weights" ∨ k.1 = "distribution_new")) ∨
  (k.2.1 = some (i + 1) ∧ (k.1 = "distribution" ∨ k.1 = "samples" ∨ k.1 = "dmp" ∨ k.1 = "traj"))

theorem Sim.askAs {α : Type} {W : SKey → Prop} {P : World (Obj n D) → Prop} (hP : Monotone' P)
    (get : Obj n D → Option α) (name : String) (u : Option Int) (s : Option Label)
    (hk : GoodKey (· = "eval") (name, u, s)) (hW : ¬ W (name, u, s)) :
    Sim W P P (Verif.askAs get name u s) := by
  unfold Verif.askAs
  refine Sim.bind (Sim.askValue hP name u s hk hW) fun v => ?_
  cases get v with
  | some a => exact Sim.pure a
  | none => exact Sim.raise _

/-- The directory of an update exists. -/
def HasUpdateDir (i : Int) (w : World (Obj n D)) : Prop :=
  ∃ f v, (f, v) ∈ w.files ∧ f.parts.dropLast = ["update" ++ padInt 5 i]

theorem hasUpdateDir_mono (i : Int) : Monotone' (HasUpdateDir (n := n) (D := D) i) := by
  rintro w w' log hf ⟨f, v, h1, h2⟩
  exact ⟨f, v, by rw [hf]; exact List.mem_append_right _ h1, h2⟩

theorem sim_store (d : Dist n) (samples : List (Fin n → ℝ)) (i : Int) (save : Bool) (dmp : D)
    (l : Label) (hl : StepLabel l) :
    Sim (StepWrites i) (HasUpdateDir (i + 1)) (HasUpdateDir (i + 1))
      (storeDmp d samples (i + 1) save dmp l) := by
  have hk : ∀ name ∈ ["dmp", "traj"], GoodKey (· = "eval") (name, some (i + 1), some l) := by
    intro name hname
    refine goodKey_step ?_ (by rintro _ ⟨⟩; exact hl)
    simp only [List.mem_cons, List.not_mem_nil, or_false] at hname
    rcases hname with rfl | rfl <;> simp
  unfold storeDmp
  refine Sim.bind (Sim.lift _) fun x => ?_
  refine Sim.bind (Sim.tell _ "dmp" (some (i + 1)) (some l) (hk _ (by simp))
    (Or.inr ⟨rfl, by simp⟩) ?_ (Q := HasUpdateDir (i + 1)) ?_) fun _ => ?_
  · rintro - w ⟨f, v, h1, h2⟩
    rw [dir_update (hk _ (by simp)), ← h2]
    exact dirExists_of_mem h1
  · intro w w' log hp hf _
    exact hasUpdateDir_mono _ w w' log hf hp
  · cases save with
    | false => exact Sim.pure _
    | true =>
      refine Sim.bind (Sim.tell _ "traj" (some (i + 1)) (some l) (hk _ (by simp))
        (Or.inr ⟨rfl, by simp⟩) (fun hc => absurd hc (show ¬ dmpIn "traj" = true by decide))
        (Q := HasUpdateDir (i + 1)) ?_) fun _ => Sim.pure _
      intro w w' log hp hf _
      exact hasUpdateDir_mono _ w w' log hf hp

theorem sim_generate (d : Dist n) (draw : List (Fin n → ℝ)) (i : Int) (save : Bool) :
    Sim (StepWrites i) (fun _ => True) (fun _ => True)
      (generateSamplesStep (D := D) d draw (i + 1) save) := by
  unfold generateSamplesStep
  have g1 : GoodKey (· = "eval") ("distribution", some (i + 1), none) :=
    goodKey_step (by simp) (by rintro _ ⟨⟩)
  refine Sim.bind (Sim.lift _) fun samples => ?_
  refine Sim.bind (Sim.tell _ "distribution" (some (i + 1)) none g1 (Or.inr ⟨rfl, by simp⟩)
    (fun hc => absurd hc (show ¬ dmpIn "distribution" = true by decide))
    (Q := HasUpdateDir (i + 1)) ?_) fun _ => ?_
  · intro w w' log _ _ hm
    exact ⟨_, _, hm, dir_update g1⟩
  · refine Sim.bind (Sim.tell _ "samples" (some (i + 1)) none
      (goodKey_step (by simp) (by rintro _ ⟨⟩)) (Or.inr ⟨rfl, by simp⟩)
      (fun hc => absurd hc (show ¬ dmpIn "samples" = true by decide))
      (Q := HasUpdateDir (i + 1)) ?_) fun _ => ?_
    · intro w w' log hp hf _
      exact hasUpdateDir_mono _ w w' log hf hp
    · refine Sim.bind (Sim.askAs (hasUpdateDir_mono _) _ "dmp_initial" none none
        (goodKey_step (by simp) (by rintro _ ⟨⟩)) ?_) fun dmp => ?_
      · simp [StepWrites]
      · refine Sim.bind (Q := HasUpdateDir (i + 1)) (Sim.foldlM _ _ (fun dmp l hl =>
          sim_store d samples i save dmp l (stepLabel_mem hl)) dmp) fun _ => ?_
        intro w w' h _ _
        exact ⟨_, w, w', [], rfl, rfl, h, fun _ => ⟨trivial, trivial⟩, rfl, rfl, by simp⟩

theorem sim_evaluate (task : Task n) (i : Int) (acc : List (List ℝ)) (l : Label) (hl : StepLabel l) :
    Sim (StepWrites i) (fun _ => True) (fun _ => True)
      (evaluateRollout (D := D) task i acc l) := by
  have mono : Monotone' (fun _ : World (Obj n D) => True) := fun _ _ _ _ _ => trivial
  have ne : i ≠ i + 1 := by omega
  unfold evaluateRollout
  refine Sim.bind (Sim.askAs mono _ "cost_vars" (some i) (some l)
    (goodKey_step (by simp) (by rintro _ ⟨⟩; exact hl)) (by simp [StepWrites])) fun cv => ?_
  refine Sim.bind (Sim.askAs mono _ "dmp" (some i) (some l)
    (goodKey_step (by simp) (by rintro _ ⟨⟩; exact hl)) (by simp [StepWrites])) fun dmp => ?_
  refine Sim.bind (Sim.tell _ "costs" (some i) (some l)
    (goodKey_step (by simp) (by rintro _ ⟨⟩; exact hl)) (Or.inl ⟨rfl, by simp⟩)
    (fun hc => absurd hc (show ¬ dmpIn "costs" = true by decide)) (Q := fun _ => True)
    (fun _ _ _ _ _ _ => trivial)) fun _ => ?_
  cases l with
  | str s => exact Sim.pure _
  | int j =>
    simp only
    generalize task cv (DmpLike.getParams dmp) = c
    cases c with
    | nil => exact Sim.raise _
    | cons c cs => exact Sim.pure _

theorem sim_updateStep (argsort : List ℝ → List Nat) (i : Int) (save : Bool)
    (draw : List (Fin n → ℝ)) :
    Sim (StepWrites i) (fun _ => True) (fun _ => True)
      (updateStep (D := D) argsort i save draw) := by
  have mono : Monotone' (fun _ : World (Obj n D) => True) := fun _ _ _ _ _ => trivial
  have gk : ∀ name ∈ ["n_samples_per_update", "task", "task_solver", "distribution_initial",
      "updater", "dmp_initial", "cost_vars", "dmp", "costs", "distribution", "samples", "weights",
      "distribution_new", "traj"], ∀ u : Option Int, GoodKey (· = "eval") (name, u, none) :=
    fun name hn u => goodKey_step hn (by rintro _ ⟨⟩)
  unfold updateStep
  refine Sim.bind (Sim.askAs mono _ _ none none (gk _ (by simp) _) (by simp [StepWrites])) fun k => ?_
  refine Sim.bind (Sim.askAs mono _ _ none none (gk _ (by simp) _) (by simp [StepWrites]))
    fun task => ?_
  refine Sim.bind (Sim.foldlM _ _ (fun acc l hl =>
    sim_evaluate task i acc l (stepLabel_mem hl)) []) fun costs => ?_
  refine Sim.bind (Sim.askAs mono _ _ (some i) none (gk _ (by simp) _) (by simp [StepWrites]))
    fun d => ?_
  refine Sim.bind (Sim.askAs mono _ _ (some i) none (gk _ (by simp) _) (by simp [StepWrites]))
    fun samples => ?_
  refine Sim.bind (Sim.askAs mono _ _ none none (gk _ (by simp) _) (by simp [StepWrites]))
    fun u => ?_
  refine Sim.bind (Sim.lift _) fun new => ?_
  refine Sim.bind (Sim.tell _ "weights" (some i) none (gk _ (by simp) _) (Or.inl ⟨rfl, by simp⟩)
    (fun hc => absurd hc (show ¬ dmpIn "weights" = true by decide)) (Q := fun _ => True)
    (fun _ _ _ _ _ _ => trivial)) fun _ => ?_
  refine Sim.bind (Sim.tell _ "distribution_new" (some i) none (gk _ (by simp) _)
    (Or.inl ⟨rfl, by simp⟩)
    (fun hc => absurd hc (show ¬ dmpIn "distribution_new" = true by decide)) (Q := fun _ => True)
    (fun _ _ _ _ _ _ => trivial)) fun _ => ?_
  exact sim_generate new.1 draw i save

/-- What a new process does for an update: open the session and run update_step. -/
def stepProcess (argsort : List ℝ → List Nat) (i : Int) (save : Bool) (draw : List (Fin n → ℝ)) :
    PyM (World (Obj n D)) Unit := do
  World.fromDir true
  updateStep argsort i save draw

/-- The state after opening a session. -/
def opened (m : Nat) (w : World (Obj n D)) : World (Obj n D) :=
  World.afterTell
    { w with nSamples := m, hasDir := true, task := true, cache := [], lastUpdate := none }
    (.int m) nKey.base

theorem fromDir_apply (w : World (Obj n D)) :
    (∃ e, World.fromDir true w = (.error e, w) ∧ ∀ w' : World (Obj n D), w'.files = w.files →
      World.fromDir true w' = (.error e, w')) ∨
    ∃ v m, w.read ⟨nKey.base.parts, .txt⟩ = some v ∧ Storable.toNat (Storable.reload v) = some m := by
  have hn : (["n_samples_per_update"] : List String) = nKey.base.parts := by decide
  cases hr : w.read ⟨nKey.base.parts, .txt⟩ with
  | none =>
    left
    refine ⟨.ioError, ?_, fun w' hw' => ?_⟩
    · unfold World.fromDir
      rw [PyM.self_bind, hn, hr]
      rfl
    · unfold World.fromDir
      have : w'.read ⟨nKey.base.parts, .txt⟩ = none := by rw [← hr]; simp only [World.read, hw']
      rw [PyM.self_bind, hn, this]
      rfl
  | some v =>
    cases hm : Storable.toNat (Storable.reload v) with
    | some m => exact Or.inr ⟨v, m, rfl, hm⟩
    | none =>
      left
      refine ⟨.valueError, ?_, fun w' hw' => ?_⟩
      · unfold World.fromDir
        rw [PyM.self_bind, hn, hr]
        simp only [hm]
        rfl
      · unfold World.fromDir
        have : w'.read ⟨nKey.base.parts, .txt⟩ = some v := by rw [← hr]; simp only [World.read, hw']
        rw [PyM.self_bind, hn, this]
        simp only [hm]
        rfl

theorem fromDir_opened {w : World (Obj n D)} {v : Obj n D} {m : Nat}
    (hr : w.read ⟨nKey.base.parts, .txt⟩ = some v)
    (hm : Storable.toNat (Storable.reload v) = some m) :
    World.fromDir true w = (.ok (), opened m w) := by
  have hn : (["n_samples_per_update"] : List String) = nKey.base.parts := by decide
  unfold World.fromDir
  rw [PyM.self_bind, hn, hr]
  simp only [hm]
  exact init_nil m true true w

theorem opened_files (m : Nat) (w : World (Obj n D)) :
    (opened m w).files = (⟨nKey.base.parts, .txt⟩, .int m) :: w.files := rfl

theorem toNat_reload_int (m : Nat) :
    Storable.toNat (Storable.reload (Obj.int m : Obj n D)) = some m := by
  change some ⌊(m : ℝ)⌋₊ = some m
  rw [Nat.floor_natCast]

theorem opened_taskDir (m : Nat) (w : World (Obj n D)) : TaskDir (opened m w) :=
  ⟨World.cacheOk_afterTell (by intro key r h; cases h) _ _, rfl, rfl⟩

theorem opened_answer (m : Nat) (w : World (Obj n D)) (k : SKey) (hk : GoodKey (· = "eval") k) :
    (opened m w).answer k.base = if k = nKey then .ok (.int m) else w.load k.base := by
  have h0 : World.CacheOk { w with nSamples := m, hasDir := true, task := true, cache := [],
                                   lastUpdate := none } := by
    intro key r h; cases h
  rw [opened, answer_afterTell h0 rfl _ nKey k goodKey_n hk]
  by_cases h : k = nKey
  · subst h; simp
  · rw [if_neg h, Function.update_of_ne fun e => h (hk.base_inj goodLabels_eval goodKey_n e)]
    rfl

theorem lookup_append_notMem {A B : Type} [DecidableEq A] (l l' : List (A × B)) (a : A)
    (h : ∀ e ∈ l, e.1 ≠ a) : (l ++ l').lookup a = l'.lookup a := by
  induction l with
  | nil => rfl
  | cons e l ih =>
    rw [List.cons_append, List.lookup_cons]
    have : (a == e.1) = false := by simpa using Ne.symm (h e (by simp))
    rw [this]
    exact ih fun e he => h e (by simp [he])

theorem lookup_append_mem {A B : Type} [DecidableEq A] (l l' l'' : List (A × B)) (a : A)
    (h : ∃ e ∈ l, e.1 = a) : (l ++ l').lookup a = (l ++ l'').lookup a := by
  induction l with
  | nil => obtain ⟨e, he, _⟩ := h; cases he
  | cons e l ih =>
    rw [List.cons_append, List.cons_append, List.lookup_cons, List.lookup_cons]
    by_cases he : (a == e.1) = true
    · rw [he]
    · rw [Bool.eq_false_iff.mpr he]
      refine ih ?_
      obtain ⟨e', h1, h2⟩ := h
      rcases List.mem_cons.mp h1 with rfl | h1
      · exact absurd (by simp [h2]) he
      · exact ⟨e', h1, h2⟩

/-- C61: let a process open the session and run update_step, on any database, successfully or not. If
it is interrupted after any of its write operations, and a new process does the same with the same
random draw, then the outcome is the same, and all files have the same content as without
interruption. -/
theorem C61_repeat (argsort : List ℝ → List Nat) (i : Int) (save : Bool) (draw : List (Fin n → ℝ))
    (w w1 : World (Obj n D)) (r : Except PyErr Unit)
    (h : stepProcess argsort i save draw w = (r, w1)) (crashed : World (Obj n D))
    (hc : w.files <:+ crashed.files) (hc' : crashed.files <:+ w1.files) :
    ∃ w2, stepProcess argsort i save draw crashed = (r, w2) ∧ ∀ f, w2.read f = w1.read f := by
  unfold stepProcess at h ⊢
  rcases fromDir_apply w with ⟨e, h1, h2⟩ | ⟨v, m, h1, h2⟩
  · rw [PyM.bind_error h1] at h
    obtain ⟨rfl, rfl⟩ := Prod.mk.inj h
    have hf : crashed.files = w.files := (hc'.eq_of_length_le hc.length_le)
    refine ⟨crashed, by rw [PyM.bind_error (h2 crashed hf)], fun f => ?_⟩
    simp only [World.read, hf]
  · rw [PyM.bind_ok (fromDir_opened h1 h2)] at h
    -- the writes of the first run
    have hself : Alike (StepWrites i) (opened m w) (opened m w) :=
      ⟨opened_taskDir m w, opened_taskDir m w, fun _ _ _ => rfl⟩
    obtain ⟨r', wa, _, log, e1, _, _, _, e5, _, e7⟩ :=
      sim_updateStep argsort i save draw _ _ hself trivial trivial
    rw [h] at e1
    obtain ⟨rfl, rfl⟩ := Prod.mk.inj e1
    have hW : ¬ StepWrites i nKey := by simp [StepWrites, nKey]
    have hparts : ∀ k, GoodKey (· = "eval") k → ¬ StepWrites i k → ∀ e ∈ log,
        e.1.parts ≠ k.base.parts := by
      intro k hk hWk e he hp
      obtain ⟨k', g1, g2, g3⟩ := e7 e he
      rw [hp] at g3
      rcases g3 with g3 | g3
      · exact hWk (hk.parts_inj goodLabels_eval g2 g3 ▸ g1)
      · exact (separate_good goodLabels_eval).cpp k k' hk g2 g3
    rw [opened_files] at e5
    obtain ⟨pre, hpre⟩ := hc
    have hpre' : pre <:+ log ++ [(⟨nKey.base.parts, .txt⟩, .int m)] := by
      rw [← hpre, e5] at hc'
      obtain ⟨q, hq⟩ := hc'
      refine ⟨q, ?_⟩
      have : (q ++ pre) ++ w.files = (log ++ [(⟨nKey.base.parts, .txt⟩, .int m)]) ++ w.files := by
        simpa using hq
      exact List.append_cancel_right this
    -- opening the session after the crash
    have hmem : ∀ e ∈ pre, e ∈ log ∨ e = (⟨nKey.base.parts, .txt⟩, .int m) := fun e he => by
      simpa using hpre'.subset he
    have hread : ∃ v', crashed.read ⟨nKey.base.parts, .txt⟩ = some v' ∧
        Storable.toNat (Storable.reload v') = some m := by
      unfold World.read
      rw [← hpre]
      have hlog : ∀ e ∈ pre, e.1 = ⟨nKey.base.parts, .txt⟩ → e.2 = .int m := by
        intro e he hp
        rcases hmem e he with g | g
        · exact absurd (by rw [hp]) (hparts nKey goodKey_n hW e g)
        · rw [g]
      clear hpre' hmem hpre
      induction pre with
      | nil => exact ⟨v, h1, h2⟩
      | cons e pre ih =>
        rw [List.cons_append, List.lookup_cons]
        by_cases he : e.1 = ⟨nKey.base.parts, .txt⟩
        · rw [he]
          simp only [beq_self_eq_true]
          exact ⟨e.2, rfl, by rw [hlog e (by simp) he]; exact toNat_reload_int m⟩
        · have : ((⟨nKey.base.parts, .txt⟩ : File) == e.1) = false := by
            simpa using Ne.symm he
          rw [this]
          exact ih fun e he => hlog e (by simp [he])
    obtain ⟨v', g1, g2⟩ := hread
    have halike : Alike (StepWrites i) (opened m w) (opened m crashed) := by
      refine ⟨opened_taskDir m w, opened_taskDir m crashed, fun k hk hWk => ?_⟩
      rw [opened_answer m w k hk, opened_answer m crashed k hk]
      by_cases hkn : k = nKey
      · rw [if_pos hkn, if_pos hkn]
      · rw [if_neg hkn, if_neg hkn]
        have : ∀ ext, crashed.read ⟨k.base.parts, ext⟩ = w.read ⟨k.base.parts, ext⟩ := by
          intro ext
          unfold World.read
          rw [← hpre]
          refine lookup_append_notMem _ _ _ fun e he hp => ?_
          rcases hmem e he with g | g
          · exact hparts k hk hWk e g (by rw [hp])
          · rw [g] at hp
            exact hkn (goodKey_n.parts_inj goodLabels_eval hk (congrArg File.parts hp)).symm
        unfold World.load
        rw [this, this, this]
    obtain ⟨r2, wa, w2, log2, p1, p2, _, _, p5, p6, _⟩ :=
      sim_updateStep argsort i save draw _ _ halike trivial trivial
    rw [h] at p1
    obtain ⟨rfl, rfl⟩ := Prod.mk.inj p1
    have hlog : log2 = log := by
      rw [opened_files, e5] at p5
      exact (List.append_cancel_right p5).symm
    subst hlog
    refine ⟨w2, by rw [PyM.bind_ok (fromDir_opened g1 g2), p2], fun f => ?_⟩
    unfold World.read
    rw [p6, e5, opened_files, ← hpre]
    by_cases hf : ∃ e ∈ log2 ++ [(⟨nKey.base.parts, .txt⟩, (Obj.int m : Obj n D))], e.1 = f
    · have := lookup_append_mem (log2 ++ [(⟨nKey.base.parts, .txt⟩, (Obj.int m : Obj n D))])
        (pre ++ w.files) w.files f hf
      simpa using this
    · have hne : ∀ e ∈ log2 ++ [(⟨nKey.base.parts, .txt⟩, (Obj.int m : Obj n D))], e.1 ≠ f :=
        fun e he hp => hf ⟨e, he, hp⟩
      have q1 := lookup_append_notMem (log2 ++ [(⟨nKey.base.parts, .txt⟩, (Obj.int m : Obj n D))])
        (pre ++ w.files) f hne
      have q2 := lookup_append_notMem (log2 ++ [(⟨nKey.base.parts, .txt⟩, (Obj.int m : Obj n D))])
        w.files f hne
      have q3 := lookup_append_notMem pre w.files f fun e he => hne e (hpre'.subset he)
      simp only [List.append_assoc, List.singleton_append] at q1 q2
      rw [q1, q2, q3]

end

end Verif
