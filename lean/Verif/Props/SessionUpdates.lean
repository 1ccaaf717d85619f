import Verif.Proofs.Digits
import Verif.Props.Optimization

/- C59: the number of updates. -/

set_option autoImplicit false

namespace Verif

open Spec

section
variable {V : Type} [Storable V]

/-- The entries of the root directory after tells that belong to updates `0, …, N-1` and others. -/
theorem entries_finished {w : World V} {init : List (V × SKey)} {steps : Nat → List (V × SKey)}
    {N : Nat} (hd : w.hasDir = true) (hf : w.files = [])
    (hi : ∀ t ∈ init, isUpdateEntry (File.entry ⟨t.2.base.parts, Storable.kind t.1⟩) = false)
    (hs : ∀ i < N, steps i ≠ [] ∧ ∀ t ∈ steps i, ∃ name, t.2.base.parts = ["update" ++ pad 5 i, name]) :
    ∀ x, x ∈ ((finished w init steps N).files.map fun e => e.1.entry).filter isUpdateEntry ↔
      ∃ i < N, x = "update" ++ pad 5 i := by
  intro x
  have hfiles : (finished w init steps N).files =
      ((init ++ (List.range N).flatMap steps).map fun t =>
        ((⟨t.2.base.parts, Storable.kind t.1⟩ : File), t.1)).reverse := by
    change (w.afterAll (init ++ (List.range N).flatMap steps)).files = _
    rw [afterAll_files, hd, hf]
    simp
  have hentry : ∀ i < N, ∀ t ∈ steps i,
      File.entry ⟨t.2.base.parts, Storable.kind t.1⟩ = "update" ++ pad 5 i := by
    intro i hi t ht
    obtain ⟨name, hn⟩ := (hs i hi).2 t ht
    rw [hn]
    rfl
  have hupd : ∀ i, isUpdateEntry ("update" ++ pad 5 i) = true := by
    intro i
    unfold isUpdateEntry
    have hne := pad_ne 5 i
    rw [String.toList_append]
    cases hp : (pad 5 i).toList with
    | nil => exact absurd hp hne
    | cons c cs =>
      have : c.isDigit = true := pad_digits 5 i c (by rw [hp]; simp)
      have e : "update".toList = ['u', 'p', 'd', 'a', 't', 'e'] := by decide
      rw [e]
      exact this
  rw [hfiles, List.mem_filter]
  simp only [List.mem_map, List.mem_reverse, List.mem_append, List.mem_flatMap, List.mem_range]
  constructor
  · rintro ⟨⟨_, ⟨t, ht | ⟨i, hiN, ht⟩, rfl⟩, rfl⟩, hx⟩
    · rw [hi t ht] at hx; cases hx
    · exact ⟨i, hiN, hentry i hiN t ht⟩
  · rintro ⟨i, hiN, rfl⟩
    refine ⟨?_, hupd i⟩
    obtain ⟨t, ht⟩ := List.exists_mem_of_ne_nil _ (hs i hiN).1
    exact ⟨_, ⟨t, Or.inr ⟨i, hiN, ht⟩, rfl⟩, hentry i hiN t ht⟩

theorem pyInt_pad (i : Nat) :
    pyInt (String.ofList (("update" ++ pad 5 i).toList.drop 6)) = .ok (i : Int) := by
  have e : ("update" ++ pad 5 i).toList.drop 6 = (pad 5 i).toList := by
    rw [String.toList_append]
    have e : "update".toList = ['u', 'p', 'd', 'a', 't', 'e'] := by decide
    rw [e]; rfl
  rw [e, String.ofList_toList]
  unfold pyInt
  rw [if_pos, pad_value]
  refine ⟨?_, ?_⟩
  · intro h
    apply pad_ne 5 i
    rw [h]; rfl
  · rw [List.all_eq_true]
    exact pad_digits 5 i

/-- The directory that is the last one when sorted. -/
theorem getNUpdates_dir {w : World V} {N m : Nat} (hd : w.hasDir = true)
    (he : ∀ x, x ∈ (w.files.map fun e => e.1.entry).filter isUpdateEntry ↔
      ∃ i < N, x = "update" ++ pad 5 i) (hm : m < N)
    (hmax : ∀ i < N, (pad 5 i).toList ≤ (pad 5 m).toList) : w.getNUpdates = .ok (some (m : Int)) := by
  have h1 : lastSorted ((w.files.map fun e => e.1.entry).filter isUpdateEntry) =
      some ("update" ++ pad 5 m) := by
    refine lastSorted_eq ((he _).mpr ⟨m, hm, rfl⟩) fun x hx => ?_
    obtain ⟨i, hi, rfl⟩ := (he x).mp hx
    rw [← not_lt, string_lt_iff, String.toList_append, String.toList_append, not_lt]
    rcases (hmax i hi).lt_or_eq with h | h
    · exact (append_lt h).le
    · rw [h]
  unfold World.getNUpdates
  rw [hd, h1]
  simp only [Bool.not_true]
  rw [pyInt_pad]
  rfl

/-- C59: another file or directory in the directory of the session whose name begins like that of an update, and which is
the last one when sorted, makes get_n_updates fail. -/
theorem C59_stray {w : World V} (hd : w.hasDir = true) {dir : String}
    (hin : dir ∈ (w.files.map fun e => e.1.entry).filter isUpdateEntry)
    (hlast : ∀ x ∈ (w.files.map fun e => e.1.entry).filter isUpdateEntry, x ≤ dir) {c : Char}
    (hc : c ∈ dir.toList.drop 6) (hn : c.isDigit = false) : w.getNUpdates = .error .valueError := by
  unfold World.getNUpdates
  rw [hd, lastSorted_eq hin hlast]
  simp only [Bool.not_true]
  have : pyInt (String.ofList (dir.toList.drop 6)) = .error .valueError := by
    unfold pyInt
    rw [if_neg]
    rintro ⟨-, h⟩
    rw [List.all_eq_true] at h
    have := h c (by simpa using hc)
    rw [hn] at this
    cases this
  rw [this]
  rfl

/-- The hypotheses of C59_stray can be met: update00000 and a file update1_old.txt. -/
example (v : V) : ∃ w : World V, w.hasDir = true ∧
    "update1_old.txt" ∈ (w.files.map fun e => e.1.entry).filter isUpdateEntry ∧
    (∀ x ∈ (w.files.map fun e => e.1.entry).filter isUpdateEntry, x ≤ "update1_old.txt") ∧
    '_' ∈ "update1_old.txt".toList.drop 6 ∧ '_'.isDigit = false := by
  have e : "update1_old" ++ ".txt" = "update1_old.txt" := by decide
  refine ⟨⟨0, true, false, [], none, [], [(⟨["update1_old"], .txt⟩, v), (⟨["update00000", "costs"], .txt⟩, v)]⟩, rfl, ?_, ?_,
    by decide, by decide⟩
  · simp [File.entry, Ext.str, e]
    decide
  · intro x hx
    simp only [List.map_cons, List.map_nil, File.entry, Ext.str, e] at hx
    have := List.mem_of_mem_filter hx
    simp only [List.mem_cons, List.not_mem_nil, or_false] at this
    rcases this with rfl | rfl <;> decide

/-- get_n_updates after tells that belong to updates `0, …, N-1` and others. -/
theorem getNUpdates_finished {w : World V} {init : List (V × SKey)} {steps : Nat → List (V × SKey)}
    {N : Nat} (hf : w.hasDir = true → w.files = [])
    (hi : ∀ t ∈ init, isUpdateEntry (File.entry ⟨t.2.base.parts, Storable.kind t.1⟩) = false)
    (hs : ∀ i < N, steps i ≠ [] ∧ ∀ t ∈ steps i, ∃ name, t.2.base.parts = ["update" ++ pad 5 i, name]) :
    (w.hasDir = false → (finished w init steps N).getNUpdates =
      .ok (if N = 0 then none else some ((N - 1 : Nat) : Int))) ∧
    (w.hasDir = true → N = 0 → (finished w init steps N).getNUpdates = .error .indexError) ∧
    (w.hasDir = true → 0 < N → N ≤ 100000 → (finished w init steps N).getNUpdates =
      .ok (some ((N - 1 : Nat) : Int))) ∧
    (w.hasDir = true → 100000 ≤ N → N ≤ 999990 → (finished w init steps N).getNUpdates =
      .ok (some 99999)) := by
  have hdir : (finished w init steps N).hasDir = w.hasDir := (afterAll_fields _ _).1
  refine ⟨fun h => ?_, fun h h0 => ?_, fun h h0 hN => ?_, fun h h0 hN => ?_⟩
  · unfold World.getNUpdates
    rw [hdir, h]
    rfl
  · have he := entries_finished (N := N) (steps := steps) h (hf h) hi hs
    have : ((finished w init steps N).files.map fun e => e.1.entry).filter isUpdateEntry = [] := by
      rw [List.eq_nil_iff_forall_not_mem]
      intro x hx
      obtain ⟨i, hi, -⟩ := (he x).mp hx
      omega
    unfold World.getNUpdates
    rw [hdir, h, this]
    rfl
  · have he := entries_finished (N := N) (steps := steps) h (hf h) hi hs
    refine getNUpdates_dir (hdir.trans h) he (by omega) fun i hi => ?_
    rcases Nat.lt_or_ge i (N - 1) with h1 | h1
    · exact (pad_lt (by norm_num) (by omega) (by omega) h1).le
    · have : i = N - 1 := by omega
      rw [this]
  · have he := entries_finished (N := N) (steps := steps) h (hf h) hi hs
    refine getNUpdates_dir (hdir.trans h) he (m := 99999) (by omega) fun i hi => ?_
    rcases Nat.lt_trichotomy i 99999 with h1 | h1 | h1
    · exact (pad_lt (by norm_num) (by omega) (by norm_num) h1).le
    · rw [h1]
    · rw [pad_overflow (by omega) (by omega)]
      apply le_of_lt
      have := pad_lt (w := 5) (i := i / 10) (j := 99999) (by norm_num) (by omega) (by norm_num) (by omega)
      exact lt_append (by rw [pad_length (by norm_num) (by omega), pad_length (by norm_num) (by norm_num)]) this

end

/-! ### Sequences of add_update -/

/-- The five entries of an update. -/
structure UpdateRecord (V : Type) where
  distribution : V
  samples : V
  costs : V
  weights : V
  distributionNew : V

/-- Add updates `0, …, N-1` to a new session. -/
def addUpdates {V : Type} [Storable V] (n : Nat) (hasDir : Bool) (r : Nat → UpdateRecord V) (N : Nat) :
    PyM (World V) Unit := do
  World.init n hasDir false []
  (List.range N).forM fun (i : Nat) => World.addUpdate i (r i).distribution (r i).samples (r i).costs
    (r i).weights (some (r i).distributionNew)

/-- What add_update tells. -/
def recordTells {V : Type} (i : Nat) (r : UpdateRecord V) : List (V × SKey) :=
  [(r.distribution, ukey "distribution" i), (r.samples, ukey "samples" i), (r.costs, ukey "costs" i),
    (r.weights, ukey "weights" i), (r.distributionNew, ukey "distribution_new" i)]

section
variable {V : Type} [Storable V]

theorem forM_foldlM {σ : Type} (l : List Nat) (g : Nat → PyM σ Unit) :
    l.forM g = l.foldlM (fun (_ : Unit) (i : Nat) => g i) () := by
  induction l with
  | nil => rfl
  | cons a l ih =>
    simp only [List.forM_eq_forM, List.forM_cons, List.foldlM_cons] at ih ⊢
    rw [ih]

theorem addUpdates_eq (n : Nat) (hasDir : Bool) (r : Nat → UpdateRecord V) (N : Nat) (w0 : World V) :
    addUpdates n hasDir r N w0 = (.ok (), finished (blank w0 n hasDir false) [(Storable.ofNat n, nKey)]
      (fun i => recordTells i (r i)) N) := by
  have run : ∀ (i : Nat) (w : World V), w.task = false → World.addUpdate i (r i).distribution
      (r i).samples (r i).costs (r i).weights (some (r i).distributionNew) w =
        (.ok (), { w.afterAll (recordTells i (r i)) with lastUpdate := some (i : Int) }) := by
    intro i w ht
    rw [addUpdate_eq, PyM.bind_ok (tellAll_apply _ w (fun _ _ => by rw [ht]; rfl))]
    rfl
  have ok : ∀ (l : List Nat) (w : World V), w.task = false → ∃ w', l.foldlM (fun (_ : Unit) (i : Nat) =>
      World.addUpdate i (r i).distribution (r i).samples (r i).costs (r i).weights
        (some (r i).distributionNew)) () w = (.ok (), w') := by
    intro l
    induction l with
    | nil => exact fun w _ => ⟨w, rfl⟩
    | cons i l ih =>
      intro w ht
      have ht' : (w.afterAll (recordTells i (r i))).task = false := (afterAll_fields _ _).2.1.trans ht
      have hr := run i w ht
      generalize w.afterAll (recordTells i (r i)) = w1 at ht' hr
      rw [List.foldlM_cons, PyM.bind_ok hr]
      exact ih _ ht'
  unfold addUpdates
  rw [PyM.bind_ok (init_nil n hasDir false w0), forM_foldlM]
  obtain ⟨w', hw'⟩ := ok (List.range N) (World.afterTell (blank w0 n hasDir false) (Storable.ofNat n)
    nKey.base) rfl
  obtain ⟨d, ts, -, -, h3, h4⟩ := loop_ok (tk := false) (step := fun i (_ : Unit) =>
      World.addUpdate i (r i).distribution (r i).samples (r i).costs (r i).weights
        (some (r i).distributionNew))
    (R := fun i _ ts _ => ts = recordTells i (r i))
    (fun i d d' w w' ht h => ⟨_, rfl, by rw [run i w ht] at h; exact (Prod.mk.inj h).2.symm⟩) rfl hw'
  refine hw'.trans ?_
  rw [h4, List.flatMap_congr fun i hi => h3 i (List.mem_range.mp hi)]
  rfl

end

theorem ukey_parts {name : String} (h : Simple name) (i : Nat) :
    (ukey name i).base.parts = ["update" ++ pad 5 i, name] := by
  unfold ukey
  rw [base_update h]
  rfl

theorem recordTells_parts {V : Type} (i : Nat) (r : UpdateRecord V) :
    recordTells i r ≠ [] ∧ ∀ t ∈ recordTells i r, ∃ name, t.2.base.parts = ["update" ++ pad 5 i, name] := by
  refine ⟨by simp [recordTells], fun t ht => ?_⟩
  simp only [recordTells, List.mem_cons, List.not_mem_nil, or_false] at ht
  have hs := simple_names
  rcases ht with rfl | rfl | rfl | rfl | rfl <;> exact ⟨_, ukey_parts (hs _ (by simp)) i⟩

/-- Names of entries that are not update directories. -/
theorem entry_names : ∀ name ∈ ["n_samples_per_update", "cost_function", "updater", "task",
    "task_solver"], ∀ e : Ext, isUpdateEntry (name ++ e.str) = false := by
  intro name h e
  simp only [List.mem_cons, List.not_mem_nil, or_false] at h
  rcases h with rfl | rfl | rfl | rfl | rfl <;> cases e <;> decide

theorem nKey_entry {V : Type} [Storable V] (v : V) :
    isUpdateEntry (File.entry ⟨nKey.base.parts, Storable.kind v⟩) = false := by
  have : nKey.base.parts = ["n_samples_per_update"] := by
    change splitPath "n_samples_per_update" = _
    exact (simple_names _ (by simp)).split
  rw [this]
  exact entry_names _ (by simp) _

/-! ### C59 -/

/-- C59 as claimed. -/
def C59_statement : Prop := ∀ (V : Type) (_ : Storable V) (n : Nat) (hasDir : Bool)
  (r : Nat → UpdateRecord V) (N : Nat) (w0 w : World V), w0.files = [] →
  addUpdates n hasDir r N w0 = (.ok (), w) → w.getNUpdates = .ok (some (N : Int))

/-- C59 does not hold: after one update the result is 0. -/
theorem C59_refuted : ¬ C59_statement := by
  intro h
  have := h Nat natStorable 1 false (fun _ => ⟨0, 0, 0, 0, 0⟩) 1 ⟨0, false, false, [], none, [], []⟩ _ rfl
    (@addUpdates_eq Nat natStorable 1 false (fun _ => ⟨0, 0, 0, 0, 0⟩) 1 _)
  rw [(@getNUpdates_finished Nat natStorable _ _ _ 1 (fun _ => rfl)
    (fun t ht => by
      rw [List.mem_singleton] at ht
      rw [ht]
      exact @nKey_entry Nat natStorable _)
    (fun i _ => recordTells_parts i _)).1 rfl] at this
  simp at this

/-- C59, what holds instead: after `N ≥ 1` updates numbered `0, …, N-1` were added, get_n_updates
returns the number of the last update `N-1`; with directory for `N ≤ 100000` only, because
thereafter the string sorting returns 99999. Without any updates it returns None, or raises an
IndexError if there is a directory. -/
theorem C59_last_update_partial {V : Type} [Storable V] (n : Nat) (hasDir : Bool)
    (r : Nat → UpdateRecord V) (N : Nat) (w0 w : World V) (hf : w0.files = [])
    (h : addUpdates n hasDir r N w0 = (.ok (), w)) :
    (hasDir = false → 0 < N → w.getNUpdates = .ok (some ((N - 1 : Nat) : Int))) ∧
    (hasDir = true → 0 < N → N ≤ 100000 → w.getNUpdates = .ok (some ((N - 1 : Nat) : Int))) ∧
    (hasDir = true → 100000 ≤ N → N ≤ 999990 → w.getNUpdates = .ok (some 99999)) ∧
    (N = 0 → w.getNUpdates = if hasDir then .error .indexError else .ok none) := by
  rw [addUpdates_eq] at h
  obtain rfl := (Prod.mk.inj h).2
  obtain ⟨h1, h2, h3, h4⟩ := getNUpdates_finished (w := blank w0 n hasDir false)
    (init := [(Storable.ofNat n, nKey)]) (steps := fun i => recordTells i (r i)) (N := N)
    (fun _ => hf) (fun t ht => by
      rw [List.mem_singleton] at ht
      rw [ht]
      exact nKey_entry _) (fun i _ => recordTells_parts i _)
  refine ⟨fun hd h0 => ?_, h3, h4, fun h0 => ?_⟩
  · rw [h1 hd, if_neg (by omega)]
  · cases hasDir with
    | false => rw [h1 rfl, if_pos h0]; rfl
    | true => rw [h2 rfl h0]; rfl

/-- C59 for run_optimization. -/
theorem C59_run_partial {n : Nat} {D : Type} {nSamples : Nat} (f : (Fin n → ℝ) → List ℝ)
    (argsort : List ℝ → List Nat) (u : Updater) (d0 dN : Dist n) (N : Nat) (hasDir : Bool)
    (draws : Nat → Fin nSamples → Fin n → ℝ) (w0 w : World (Obj n D)) (hf : w0.files = [])
    (h : runOptimization f argsort u d0 N hasDir draws w0 = (.ok dN, w)) :
    (0 < N → (hasDir = true → N ≤ 100000) → w.getNUpdates = .ok (some ((N - 1 : Nat) : Int))) ∧
    (hasDir = true → 100000 ≤ N → N ≤ 999990 → w.getNUpdates = .ok (some 99999)) ∧
    (N = 0 → w.getNUpdates = if hasDir then .error .indexError else .ok none) := by
  obtain ⟨d, samples, weights, -, -, rfl⟩ := runOptimization_ok h
  obtain ⟨h1, h2, h3, h4⟩ := getNUpdates_finished (w := blank w0 nSamples hasDir false)
    (init := initTells nSamples f u)
    (steps := fun i => stepTells f i (d i) (samples i) (weights i) (d (i + 1))) (N := N)
    (fun _ => hf) (fun t ht => by
      simp only [initTells, List.mem_cons, List.not_mem_nil, or_false] at ht
      have hs := simple_names
      rcases ht with rfl | rfl | rfl
      · exact nKey_entry _
      · have : SKey.base ("cost_function", none, none) = .str "cost_function" := rfl
        simp only [this, Key.parts, (hs "cost_function" (by simp)).split]
        exact entry_names _ (by simp) _
      · have : SKey.base ("updater", none, none) = .str "updater" := rfl
        simp only [this, Key.parts, (hs "updater" (by simp)).split]
        exact entry_names _ (by simp) _)
    (fun i _ => ⟨by simp [stepTells], fun t ht => by
      simp only [stepTells, updateTells, List.cons_append, List.nil_append, List.mem_cons,
        List.not_mem_nil, or_false] at ht
      have hs := simple_names
      rcases ht with rfl | rfl | rfl | rfl | rfl | rfl | rfl <;>
        exact ⟨_, ukey_parts (hs _ (by simp)) i⟩⟩)
  refine ⟨fun h0 hN => ?_, h4, fun h0 => ?_⟩
  · cases hasDir with
    | false => rw [h1 rfl, if_neg (by omega)]
    | true => exact h3 rfl h0 (hN rfl)
  · cases hasDir with
    | false => rw [h1 rfl, if_pos h0]; rfl
    | true => rw [h2 rfl h0]; rfl

/-- Hypotheses: three updates, with directory. -/
example : ∃ w : World Nat, @addUpdates Nat natStorable 5 true (fun i => ⟨i, 1, 2, 3, i + 1⟩) 3
    ⟨0, false, false, [], none, [], []⟩ = (.ok (), w) := ⟨_, @addUpdates_eq Nat natStorable _ _ _ _ _⟩

end Verif
