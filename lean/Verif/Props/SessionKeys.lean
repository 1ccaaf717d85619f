import Verif.Proofs.Names

/- C58: keys of a learning session. -/

set_option autoImplicit false

namespace Verif

/-- C58, as claimed: different keys are stored under different entries. -/
def C58_statement : Prop := ∀ (name name' : String) (u u' : Option Int) (s s' : Option Label),
  baseName name u s = baseName name' u' s' → name = name' ∧ u = u' ∧ s = s'

/-- C58 fails: the cost of the evaluation sample and the "eval_cost" of the update are the same
entry (which get_eval_costs makes use of). -/
theorem C58_refuted : ¬ C58_statement := by
  intro h
  have := (h "cost" "eval_cost" (some 0) (some 0) (some (.str "eval")) none (by
    simp only [baseName]; rfl)).1
  exact absurd this (by decide)

/-- C58: further collisions, for all names: sample number and name; empty label. -/
theorem C58_collisions (name : String) (u : Option Int) (i : Int) (l : String) (hl : l ≠ "") :
    baseName name u (some (.int i)) = baseName (padInt 3 i ++ "_" ++ name) u none ∧
    baseName name u (some (.str l)) = baseName (l ++ "_" ++ name) u none ∧
    baseName name u (some (.int i)) = baseName name u (some (.str (padInt 3 i))) ∧
    baseName name u (some (.str "")) = baseName name u none := by
  refine ⟨rfl, ?_, ?_, rfl⟩
  · simp [baseName, sampleName, hl]
  · simp [baseName, sampleName, padInt_ne]

/-- C58: the file of a name that spells out the directory of an update is the file of that update,
although these are two different entries in the cache. -/
theorem C58_files_collide :
    (baseName "update00000/cost" none none).parts = (baseName "cost" (some 0) none).parts ∧
    baseName "update00000/cost" none none ≠ baseName "cost" (some 0) none := by
  constructor
  · decide
  · decide

/-- Labels that can be told from numbers and names. -/
structure Spec.GoodLabels (L : String → Prop) : Prop where
  ne : ∀ l, L l → l ≠ ""
  slash : ∀ l, L l → '/' ∉ l.toList
  underscore : ∀ l, L l → '_' ∉ l.toList
  number : ∀ l, L l → ∃ c ∈ l.toList, c.isDigit = false ∧ c ≠ '-'

/-- Names that do not look like a name with a number or label in front. -/
structure Spec.GoodName (L : String → Prop) (name : String) : Prop where
  ne : name ≠ ""
  dot : name ≠ "."
  slash : '/' ∉ name.toList
  number : ∀ (i : Int) rest, name ≠ padInt 3 i ++ "_" ++ rest
  label : ∀ l rest, L l → name ≠ l ++ "_" ++ rest

/-- Sample numbers, no sample, or one of the labels. -/
def Spec.GoodSample (L : String → Prop) : Option Label → Prop
  | some (.str l) => L l
  | _ => True

theorem underscore_notMem_padInt (w : Nat) (i : Int) : '_' ∉ (padInt w i).toList := fun h => by
  rcases padInt_char h with h | h <;> exact absurd h (by decide)

theorem append_cons_inj {x x' y y' : List Char} {c : Char} (hx : c ∉ x) (hx' : c ∉ x')
    (h : x ++ c :: y = x' ++ c :: y') : x = x' ∧ y = y' := by
  induction x generalizing x' with
  | nil =>
    cases x' with
    | nil => simpa using h
    | cons a x' =>
      simp only [List.nil_append, List.cons_append, List.cons.injEq] at h
      exact absurd (by simp [h.1]) hx'
  | cons a x ih =>
    cases x' with
    | nil =>
      simp only [List.nil_append, List.cons_append, List.cons.injEq] at h
      exact absurd (by simp [h.1]) hx
    | cons b x' =>
      simp only [List.cons_append, List.cons.injEq] at h
      obtain ⟨h1, h2⟩ := ih (fun m => hx (List.mem_cons_of_mem _ m))
        (fun m => hx' (List.mem_cons_of_mem _ m)) h.2
      exact ⟨by rw [h.1, h1], h2⟩

theorem prefix_inj {a a' b b' : String} (ha : '_' ∉ a.toList) (ha' : '_' ∉ a'.toList)
    (h : a ++ "_" ++ b = a' ++ "_" ++ b') : a = a' ∧ b = b' := by
  have := congrArg String.toList h
  simp only [String.toList_append, List.append_assoc] at this
  change a.toList ++ '_' :: b.toList = a'.toList ++ '_' :: b'.toList at this
  obtain ⟨h1, h2⟩ := append_cons_inj ha ha' this
  exact ⟨String.toList_inj.mp h1, String.toList_inj.mp h2⟩

theorem sampleName_inj {L : String → Prop} (hL : Spec.GoodLabels L) {name name' : String}
    {s s' : Option Label} (h : Spec.GoodName L name) (h' : Spec.GoodName L name')
    (hs : Spec.GoodSample L s) (hs' : Spec.GoodSample L s')
    (e : sampleName name s = sampleName name' s') : name = name' ∧ s = s' := by
  have num : ∀ l, L l → ∀ i, padInt 3 i ≠ l := by
    rintro l hl i rfl
    obtain ⟨c, hc, h1, h2⟩ := hL.number _ hl
    rcases padInt_char hc with h | h
    · rw [h1] at h; cases h
    · exact h2 h
  match s, s', hs, hs' with
  | none, none, _, _ => exact ⟨e, rfl⟩
  | none, some (.int i), _, _ => exact absurd e (h.number i name')
  | none, some (.str l), _, hl =>
    simp only [sampleName, hL.ne l hl, ne_eq, not_false_eq_true, if_true] at e
    exact absurd e (h.label l name' hl)
  | some (.int i), none, _, _ => exact absurd e.symm (h'.number i name)
  | some (.str l), none, hl, _ =>
    simp only [sampleName, hL.ne l hl, ne_eq, not_false_eq_true, if_true] at e
    exact absurd e.symm (h'.label l name hl)
  | some (.int i), some (.int j), _, _ =>
    obtain ⟨h1, h2⟩ := prefix_inj (underscore_notMem_padInt _ _) (underscore_notMem_padInt _ _) e
    exact ⟨h2, by rw [padInt_inj h1]⟩
  | some (.int i), some (.str l), _, hl =>
    simp only [sampleName, hL.ne l hl, ne_eq, not_false_eq_true, if_true] at e
    exact absurd (prefix_inj (underscore_notMem_padInt _ _) (hL.underscore l hl) e).1 (num l hl i)
  | some (.str l), some (.int i), hl, _ =>
    simp only [sampleName, hL.ne l hl, ne_eq, not_false_eq_true, if_true] at e
    exact absurd (prefix_inj (hL.underscore l hl) (underscore_notMem_padInt _ _) e).1.symm (num l hl i)
  | some (.str l), some (.str l'), hl, hl' =>
    simp only [sampleName, hL.ne l hl, hL.ne l' hl', ne_eq, not_false_eq_true, if_true] at e
    obtain ⟨h1, h2⟩ := prefix_inj (hL.underscore l hl) (hL.underscore l' hl') e
    exact ⟨h2, by rw [h1]⟩

theorem good_simple {L : String → Prop} (hL : Spec.GoodLabels L) {name : String} {s : Option Label}
    (h : Spec.GoodName L name) (hs : Spec.GoodSample L s) : Simple (sampleName name s) := by
  have gen : ∀ a : String, '/' ∉ a.toList → Simple (a ++ "_" ++ name) := by
    intro a ha
    refine ⟨?_, ?_, ?_⟩
    · simp only [String.toList_append, List.mem_append]
      rintro ((h1 | h1) | h1)
      · exact ha h1
      · revert h1; decide
      · exact h.slash h1
    · intro e
      have := congrArg String.toList e
      simp at this
    · intro e
      have : '_' ∈ (a ++ "_" ++ name).toList := by simp
      rw [e] at this
      revert this; decide
  match s, hs with
  | none, _ => exact ⟨h.slash, h.ne, h.dot⟩
  | some (.int i), _ =>
    exact gen _ fun hm => by rcases padInt_char hm with h | h <;> exact absurd h (by decide)
  | some (.str l), hl =>
    simp only [sampleName, hL.ne l hl, ne_eq, not_false_eq_true, if_true]
    exact gen _ (hL.slash l hl)

/-- C58: keys whose names do not start with a label or a number in front of an underscore (and
contain no slash) are stored under different entries, both in the cache and on disk, for update and
sample numbers of any size. Missing compared to the full claim: other names, for which there are
collisions. -/
theorem C58_distinct_partial (L : String → Prop) (hL : Spec.GoodLabels L) (name name' : String)
    (u u' : Option Int) (s s' : Option Label) (h : Spec.GoodName L name)
    (h' : Spec.GoodName L name') (hs : Spec.GoodSample L s) (hs' : Spec.GoodSample L s')
    (hne : (name, u, s) ≠ (name', u', s')) :
    baseName name u s ≠ baseName name' u' s' ∧
      (baseName name u s).parts ≠ (baseName name' u' s').parts := by
  have g := good_simple hL h hs
  have g' := good_simple hL h' hs'
  rw [ne_eq, ne_eq, baseName_inj g g', parts_inj g g', and_self]
  rintro ⟨hu, e⟩
  obtain ⟨h1, h2⟩ := sampleName_inj hL h h' hs hs' e
  exact hne (by rw [h1, h2, hu])

/-- C58: the entry for a sample of an update is the file `update…/…_name`, with zero-padded numbers. -/
theorem C58_layout (L : String → Prop) (hL : Spec.GoodLabels L) (name : String) (u i : Int)
    (h : Spec.GoodName L name) :
    (baseName name (some u) (some (.int i))).parts =
      ["update" ++ padInt 5 u, padInt 3 i ++ "_" ++ name] ∧
    (baseName name (some u) none).parts = ["update" ++ padInt 5 u, name] ∧
    (baseName name none none).parts = [name] := by
  refine ⟨?_, ?_, ?_⟩
  · rw [baseName_update _ _ _ (good_simple hL h (s := some (.int i)) trivial)]; rfl
  · rw [baseName_update _ _ _ (good_simple hL h (s := none) trivial)]; rfl
  · rw [baseName_none]; exact (good_simple hL h (s := none) trivial).split

/-- C58: the numbers in file names. -/
theorem C58_padding : padInt 5 3 = "00003" ∧ padInt 3 6 = "006" ∧ padInt 3 1234 = "1234" ∧
    padInt 5 (-1) = "-0001" ∧ ∀ (w i : Nat), Nat.ofDigitChars 10 (pad w i).toList 0 = i ∧
      (pad w i).length = max w (Nat.toDigits 10 i).length := by
  refine ⟨by decide, by decide, by decide, by decide, fun w i => ⟨pad_value w i, ?_⟩⟩
  rw [← String.length_toList, pad_toList]
  simp
  omega

/-- C58: a name with slashes is a file in a subdirectory; empty components and "." do not matter, all
other components do, in their order. -/
theorem C58_components (l : List String) (h : ∀ c ∈ l, '/' ∉ c.toList) :
    splitPath ("/".intercalate l) = l.filter fun c => c ≠ "" ∧ c ≠ "." := by
  cases l with
  | nil => decide
  | cons a l =>
    unfold splitPath
    have hs : "/".toList = ['/'] := by decide
    rw [String.toList_intercalate, hs, List.splitOn_intercalate]
    · congr 1
      rw [List.map_map]
      conv_rhs => rw [← List.map_id (a :: l)]
      refine List.map_congr_left fun c _ => ?_
      simp
    · intro c hc
      obtain ⟨d, hd, rfl⟩ := List.mem_map.mp hc
      exact h d hd
    · simp

example : splitPath ("/".intercalate [".", "a", "", "b.c", ".", "..", "d"]) = ["a", "b.c", "..", "d"] := by
  rw [C58_components _ (by decide)]
  decide

theorem goodLabels_eval : Spec.GoodLabels (· = "eval") where
  ne := by rintro _ rfl; decide
  slash := by rintro _ rfl; decide
  underscore := by rintro _ rfl; decide
  number := by rintro _ rfl; exact ⟨'e', by decide, by decide, by decide⟩

/-- A name starting with a letter, and not with "eval_", is fine. -/
theorem goodName_of {name : String} {c : Char} {cs : List Char} (h0 : name.toList = c :: cs)
    (h1 : c.isDigit = false) (h2 : c ≠ '-') (h3 : c ≠ '.') (hslash : '/' ∉ name.toList)
    (h : ¬ "eval_".toList <+: name.toList) : Spec.GoodName (· = "eval") name where
  ne := by rintro rfl; cases h0
  dot := by
    rintro rfl
    have : ".".toList = ['.'] := by decide
    rw [this] at h0
    simp only [List.cons.injEq] at h0
    exact h3 h0.1.symm
  slash := hslash
  number := by
    rintro i rest rfl
    have hne := padInt_ne 3 i
    cases hp : (padInt 3 i).toList with
    | nil => exact hne (String.toList_inj.mp (by rw [hp]; rfl))
    | cons d ds =>
      have hd : d ∈ (padInt 3 i).toList := by rw [hp]; simp
      simp only [String.toList_append, hp, List.cons_append, List.cons.injEq] at h0
      rcases padInt_char hd with h | h
      · rw [h0.1, h1] at h; cases h
      · rw [h0.1] at h; exact h2 h
  label := by
    rintro l rest rfl rfl
    apply h
    rw [String.toList_append]
    exact ⟨rest.toList, rfl⟩

/-- The names and labels used in step-by-step optimisation meet the hypotheses. -/
example : ∀ name ∈ ["cost_vars", "dmp", "costs", "weights", "distribution", "distribution_new",
    "samples", "traj", "n_samples_per_update", "task", "updater", "dmp_initial"],
    Spec.GoodName (· = "eval") name := by
  intro name h
  simp only [List.mem_cons, List.not_mem_nil, or_false] at h
  rcases h with rfl | rfl | rfl | rfl | rfl | rfl | rfl | rfl | rfl | rfl | rfl | rfl <;>
    exact goodName_of (by rfl) (by decide) (by decide) (by decide) (by decide) (by decide)

end Verif
