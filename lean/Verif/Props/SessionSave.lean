import Verif.Props.SessionMap

/- Property C86: LearningSession.save_all. -/

set_option autoImplicit false

namespace Verif

variable {V : Type}

open Spec

/-! ### Specification: Python's dictionaries -/

/-- `d[k] = r`: an existing key keeps its place, a new one is put at the end. -/
def Spec.dictSet (d : List (Key × Nat)) (k : Key) (r : Nat) : List (Key × Nat) :=
  if k ∈ d.map Prod.fst then d.map fun e => if e.1 = k then (k, r) else e else d ++ [(k, r)]

/-- The items of the dictionary after a sequence of assignments, the latest of which comes first. -/
def Spec.dictItems : List (Key × Nat) → List (Key × Nat)
  | [] => []
  | (k, r) :: es => Spec.dictSet (Spec.dictItems es) k r

theorem lookup_cons_key {β : Type} (n a : Key) (b : β) (l : List (Key × β)) :
    ((a, b) :: l).lookup n = if n = a then some b else l.lookup n := by
  rw [List.lookup_cons]
  by_cases h : n = a
  · simp [h]
  · rw [if_neg h, beq_false_of_ne h]

theorem dictItems_eq (es : List (Key × Nat)) :
    dictItems es = (es.map Prod.fst).dedup.reverse.map fun k => (k, (es.lookup k).getD 0) := by
  induction es with
  | nil => rfl
  | cons e es ih =>
    obtain ⟨k, r⟩ := e
    rw [dictItems, dictSet]
    have keys : (dictItems es).map Prod.fst = (es.map Prod.fst).dedup.reverse := by
      rw [ih, List.map_map]
      exact (List.map_congr_left fun _ _ => rfl).trans (List.map_id _)
    rw [keys]
    by_cases hk : k ∈ es.map Prod.fst
    · rw [if_pos (by simpa using hk), List.map_cons, List.dedup_cons_of_mem hk, ih, List.map_map]
      refine List.map_congr_left fun k' hk' => ?_
      simp only [Function.comp]
      by_cases h : k' = k
      · subst h; rw [if_pos rfl, lookup_cons_key, if_pos rfl]; rfl
      · rw [if_neg h, lookup_cons_key, if_neg h]
    · rw [if_neg (by simpa using hk), List.map_cons, List.dedup_cons_of_notMem hk, List.reverse_cons,
        List.map_append, ih]
      congr 1
      · refine List.map_congr_left fun k' hk' => ?_
        have : k' ≠ k := by
          rintro rfl
          exact hk (by simpa using hk')
        rw [lookup_cons_key, if_neg this]
      · simp [lookup_cons_key]

/-! ### Files -/

variable [Storable V]

/-- The file and the value to which a cached object is saved. -/
def World.saved (w : World V) (k : Key) : Option (File × V) :=
  (w.cached k).map fun v => (⟨k.parts, Storable.kind v⟩, v)

theorem saveAll_eq {w : World V} (hw : w.CacheOk) :
    w.saveAll = .ok (((w.cache.map Prod.fst).dedup).filterMap w.saved) := by
  unfold World.saveAll
  have hmem : ∀ k ∈ (w.cache.map Prod.fst).dedup.reverse, ∃ r v, w.cache.lookup k = some r ∧
      w.deref r = .ok v ∧ w.cached k = some v := by
    intro k hk
    have hk' : k ∈ w.cache.map Prod.fst := by simpa using hk
    obtain ⟨r, hr⟩ : ∃ r, w.cache.lookup k = some r := by
      cases h : w.cache.lookup k with
      | some r => exact ⟨r, rfl⟩
      | none =>
        rw [List.lookup_eq_none_iff] at h
        obtain ⟨e, he, rfl⟩ := List.mem_map.1 hk'
        exact absurd (h e he) (by simp)
    have hl := hw k r hr
    refine ⟨r, w.heap[r], hr, ?_, ?_⟩
    · unfold World.deref; rw [List.getElem?_eq_getElem hl]
    · unfold World.cached; rw [hr]; simp [hl]
  have key : ∀ (l : List Key) (files : List (File × V)), (∀ k ∈ l, ∃ r v, w.cache.lookup k = some r ∧
      w.deref r = .ok v ∧ w.cached k = some v) →
      l.foldlM (fun (files : List (File × V)) (key : Key) =>
        match w.cache.lookup key with
        | none => .error .keyError
        | some r => do
          let v ← w.deref r
          .ok ((⟨key.parts, Storable.kind v⟩, v) :: files)) files =
      (.ok ((l.filterMap w.saved).reverse ++ files) : Except PyErr _) := by
    intro l
    induction l with
    | nil => intro files _; rfl
    | cons k l ih =>
      intro files h
      obtain ⟨r, v, h1, h2, h3⟩ := h k (by simp)
      rw [List.foldlM_cons, h1]
      simp only [h2]
      have e : w.saved k = some (⟨k.parts, Storable.kind v⟩, v) := by simp [World.saved, h3]
      rw [List.filterMap_cons, e]
      refine (ih _ fun k' hk' => h k' (by simp [hk'])).trans ?_
      simp
  refine (key _ [] hmem).trans ?_
  simp

/-- C86: save_all succeeds, and writes the items of the dictionary in their order, each under its key, to
a file of the kind of the object. -/
theorem C86_items {w : World V} (hw : w.CacheOk) :
    ∃ files, w.saveAll = .ok files ∧
      List.Forall₂ (fun item file => ∃ v, w.heap[item.2]? = some v ∧
        file = ((⟨item.1.parts, Storable.kind v⟩ : File), v)) (dictItems w.cache) files.reverse := by
  refine ⟨_, saveAll_eq hw, ?_⟩
  rw [dictItems_eq, ← List.filterMap_reverse]
  have hmem : ∀ k ∈ (w.cache.map Prod.fst).dedup.reverse, k ∈ w.cache.map Prod.fst := by
    intro k hk; simpa using hk
  generalize (w.cache.map Prod.fst).dedup.reverse = l at hmem
  induction l with
  | nil => exact .nil
  | cons k l ih =>
    obtain ⟨r, hr⟩ : ∃ r, w.cache.lookup k = some r := by
      cases h : w.cache.lookup k with
      | some r => exact ⟨r, rfl⟩
      | none =>
        rw [List.lookup_eq_none_iff] at h
        obtain ⟨e, he, rfl⟩ := List.mem_map.1 (hmem k (by simp))
        exact absurd (h e he) (by simp)
    have hl := hw k r hr
    have e : w.saved k = some (⟨k.parts, Storable.kind w.heap[r]⟩, w.heap[r]) := by
      simp [World.saved, World.cached, hr, hl]
    rw [List.filterMap_cons, e, List.map_cons]
    refine .cons ⟨w.heap[r], ?_, rfl⟩ (ih fun k' hk' => hmem k' (by simp [hk']))
    simp [hr, hl]

theorem lookup_filterMap {l : List Key} {f : Key → Option (File × V)} {k : Key} {file : File} {v : V}
    (hk : k ∈ l) (hf : f k = some (file, v)) (hu : ∀ k' ∈ l, ∀ v', f k' = some (file, v') → k' = k) :
    (l.filterMap f).lookup file = some v := by
  induction l with
  | nil => cases hk
  | cons a l ih =>
    rw [List.filterMap_cons]
    by_cases ha : a = k
    · subst ha
      rw [hf]; simp
    · have hkl : k ∈ l := by
        rcases List.mem_cons.1 hk with rfl | h
        · exact absurd rfl ha
        · exact h
      have ih' := ih hkl fun k' hk' => hu k' (by simp [hk'])
      cases hfa : f a with
      | none => simpa using ih'
      | some p =>
        obtain ⟨file', v'⟩ := p
        have hne : file ≠ file' := by
          rintro rfl
          exact ha (hu a (by simp) v' hfa)
        simp only
        rw [List.lookup_cons, beq_false_of_ne hne]
        exact ih'

theorem lookup_filterMap_none {l : List Key} {f : Key → Option (File × V)} {file : File}
    (hu : ∀ k' ∈ l, ∀ v', f k' ≠ some (file, v')) : (l.filterMap f).lookup file = none := by
  rw [List.lookup_eq_none_iff]
  rintro ⟨file', v'⟩ h
  obtain ⟨k, hk, hf⟩ := List.mem_filterMap.1 h
  simp only [bne_iff_ne, ne_eq]
  rintro rfl
  exact hu k hk v' hf

/-- C86: if different keys in the cache have different files, then the file of each cached object contains
it, and there are no other files of this name. -/
theorem C86_files {w : World V} (hw : w.CacheOk)
    (hd : ∀ k k', k ∈ w.cache.map Prod.fst → k' ∈ w.cache.map Prod.fst → k.parts = k'.parts → k = k') :
    ∃ files, w.saveAll = .ok files ∧ ∀ k ∈ w.cache.map Prod.fst, ∀ ext,
      files.lookup ⟨k.parts, ext⟩ = (w.cached k).filter fun v => decide (Storable.kind v = ext) := by
  refine ⟨_, saveAll_eq hw, fun k hk ext => ?_⟩
  cases hv : w.cached k with
  | none =>
    rw [lookup_filterMap_none]
    · rfl
    · intro k' hk' v' h
      obtain ⟨x, hx, he⟩ := Option.map_eq_some_iff.1 h
      obtain ⟨he1, _⟩ := Prod.mk.inj he
      have hkk := hd k' k (by simpa using hk') hk (by rw [File.mk.injEq] at he1; exact he1.1)
      subst hkk
      rw [hv] at hx; cases hx
  | some v =>
    by_cases hke : (Storable.kind v : Ext) = ext
    · rw [Option.filter_some, if_pos (by simpa using hke)]
      refine lookup_filterMap (k := k) (by simpa using hk) ?_ ?_
      · simp [World.saved, hv, hke]
      · intro k' hk' v' h
        obtain ⟨x, hx, he⟩ := Option.map_eq_some_iff.1 h
        obtain ⟨he1, _⟩ := Prod.mk.inj he
        exact hd k' k (by simpa using hk') hk (by rw [File.mk.injEq] at he1; exact he1.1)
    · rw [Option.filter_some, if_neg (by simpa using hke)]
      refine lookup_filterMap_none ?_
      intro k' hk' v' h
      obtain ⟨x, hx, he⟩ := Option.map_eq_some_iff.1 h
      obtain ⟨he1, _⟩ := Prod.mk.inj he
      rw [File.mk.injEq] at he1
      have hkk := hd k' k (by simpa using hk') hk he1.1
      subst hkk
      rw [hv] at hx; cases hx
      exact hke he1.2

/-! ### Sessions without directory -/

/-- What is in the cache after the tells `ts` (the latest first), in a session without directory. -/
structure InCache (L : String → Prop) (ts : List (V × SKey)) (w : World V) : Prop where
  ok : w.CacheOk
  noDir : w.hasDir = false
  keys : ∀ key ∈ w.cache.map Prod.fst, ∃ k, GoodKey L k ∧ k.base = key ∧ latest id ts k ≠ none
  values : ∀ k, GoodKey L k → w.cached k.base = latest id ts k

theorem tellAll_inCache {L : String → Prop} (hL : GoodLabels L) (ts done : List (V × SKey))
    (w : World V) (hk : ∀ t ∈ ts, GoodKey L t.2) (h : InCache L done w) :
    ∃ w', tellAll ts w = (.ok (), w') ∧ InCache L (ts.reverse ++ done) w' := by
  induction ts generalizing done w with
  | nil => exact ⟨w, rfl, h⟩
  | cons t ts ih =>
    obtain ⟨v, k⟩ := t
    have hgk : GoodKey L k := hk (v, k) (by simp)
    have e := World.tell_apply (V := V) (name := k.1) (w := w) (by simp [h.noDir]) v k.2.1 k.2.2
    have h1 : InCache L ((v, k) :: done) (w.afterTell v k.base) := by
      refine ⟨World.cacheOk_afterTell h.ok v k.base, h.noDir, ?_, ?_⟩
      · intro key hkey
        change key ∈ ((k.base, w.heap.length) :: w.cache).map Prod.fst at hkey
        rw [List.map_cons, List.mem_cons] at hkey
        rcases hkey with rfl | hkey
        · exact ⟨k, hgk, rfl, by simp [latest]⟩
        · obtain ⟨k', h2, h3, h4⟩ := h.keys key hkey
          refine ⟨k', h2, h3, ?_⟩
          simp only [latest, id]
          by_cases hkk : k' = k
          · rw [if_pos hkk]; simp
          · rw [if_neg hkk]; exact h4
      · intro k' hk'
        rw [World.cached_afterTell h.ok]
        simp only [latest, id]
        by_cases hkk : k' = k
        · rw [if_pos hkk, if_pos (by rw [hkk])]
        · rw [if_neg hkk, if_neg fun e => hkk (hk'.base_inj hL hgk e)]
          exact h.values k' hk'
    obtain ⟨w', h2, h3⟩ := ih ((v, k) :: done) _ (fun t ht => hk t (List.mem_cons_of_mem _ ht)) h1
    refine ⟨w', ?_, by simpa using h3⟩
    rw [tellAll_cons]
    exact (PyM.bind_ok e).trans h2

theorem inCache_onDisk {L : String → Prop} (hL : GoodLabels L) {ts : List (V × SKey)} {w w' : World V}
    (h : InCache L ts w) {files : List (File × V)} (hs : w.saveAll = .ok files) (hf : w'.files = files) :
    OnDisk L ts w' := by
  have hd : ∀ k k', k ∈ w.cache.map Prod.fst → k' ∈ w.cache.map Prod.fst → k.parts = k'.parts → k = k' := by
    intro k k' hk hk' he
    obtain ⟨j, hj, rfl, _⟩ := h.keys k hk
    obtain ⟨j', hj', rfl, _⟩ := h.keys k' hk'
    rw [hj.parts_inj hL hj' he]
  obtain ⟨files', h1, h2⟩ := C86_files h.ok hd
  obtain rfl : files' = files := by rw [hs] at h1; cases h1; rfl
  intro k hk ext
  rw [World.read, hf, ← h.values k hk]
  by_cases hmem : k.base ∈ w.cache.map Prod.fst
  · exact h2 _ hmem ext
  · have hn : w.cached k.base = none := by
      refine World.cached_none_of_lookup ?_
      rw [List.lookup_eq_none_iff]
      intro e he
      simp only [bne_iff_ne, ne_eq]
      intro hh
      exact hmem (List.mem_map.2 ⟨e, he, hh.symm⟩)
    rw [hn]
    rw [saveAll_eq h.ok] at hs
    obtain rfl := Except.ok.inj hs
    rw [lookup_filterMap_none]
    · rfl
    · intro k' hk' v' hh
      obtain ⟨x, hx, he⟩ := Option.map_eq_some_iff.1 hh
      obtain ⟨he1, _⟩ := Prod.mk.inj he
      rw [File.mk.injEq] at he1
      obtain ⟨j, hj, hjb, _⟩ := h.keys k' (by simpa using hk')
      rw [← hjb] at he1
      have := hj.parts_inj hL hk he1.1
      subst this
      rw [← hjb, hn] at hx
      cases hx

/-- C86: after any sequence of tells (also of values of different kinds for the same key) in a session
without directory, save_all succeeds; a session that is opened with `from_dir` in the (previously empty)
directory has the same number of samples per update, returns for every key the value of the latest tell,
as it can be read from file, and raises IOError for keys that were never told. Missing compared to the
full claim: colliding keys, see `C86_refuted`. -/
theorem C86_reopen_partial (L : String → Prop) (hL : GoodLabels L) (hn : GoodKey L nKey)
    (n : Nat) (task task' : Bool) (kwargs : List (String × V)) (ts : List (V × SKey)) (w0 : World V)
    (hkind : Storable.kind (Storable.ofNat n : V) = .txt)
    (hint : Storable.toNat (Storable.reload (Storable.ofNat n : V)) = some n)
    (hk : ∀ t ∈ kwTells kwargs ++ ts, GoodKey L t.2 ∧ t.2 ≠ nKey) :
    ∃ w1 files, (do World.init n false task kwargs; tellAll ts) w0 = (.ok (), w1) ∧
      w1.saveAll = .ok files ∧ ∀ w : World V, w.files = files →
      ∃ w2, World.fromDir task' w = (.ok (), w2) ∧ w2.nSamples = n ∧
        ∀ k, GoodKey L k → k ≠ nKey →
        (∀ v, latest id (ts.reverse ++ (kwTells kwargs).reverse) k = some v →
          (World.askValue k.1 k.2.1 k.2.2 w2).1 = .ok (Storable.reload v)) ∧
        (latest id (ts.reverse ++ (kwTells kwargs).reverse) k = none →
          (World.ask k.1 k.2.1 k.2.2 w2).1 = .error .ioError) := by
  let ts' : List (V × SKey) := (Storable.ofNat n, nKey) :: (kwTells kwargs ++ ts)
  let wi : World V := { w0 with nSamples := n, hasDir := false, task, cache := [], lastUpdate := none }
  have hg : ∀ t ∈ ts', GoodKey L t.2 := by
    intro t ht
    rcases List.mem_cons.mp ht with rfl | ht
    · exact hn
    · exact (hk t ht).1
  have hi : InCache L ([] : List (V × SKey)) wi := by
    refine ⟨fun key r h => (by cases h), rfl, fun key h => (by cases h), fun k _ => rfl⟩
  obtain ⟨w1, e1, hc⟩ := tellAll_inCache hL ts' [] wi hg hi
  have h1 : (do World.init n false task kwargs; tellAll ts) w0 = (.ok (), w1) := by
    rw [← e1, show ts' = ((Storable.ofNat n, nKey) :: kwTells kwargs) ++ ts from rfl, tellAll_append]
    rw [PyM.bind_apply, PyM.bind_apply, init_apply]
  refine ⟨w1, _, h1, saveAll_eq hc.ok, fun w hwf => ?_⟩
  have disk := inCache_onDisk hL hc (saveAll_eq hc.ok) hwf
  have hrev : ts'.reverse ++ [] =
      (ts.reverse ++ (kwTells kwargs).reverse) ++ [(Storable.ofNat n, nKey)] := by
    simp [ts']
  rw [hrev] at disk
  have hlast : ∀ k, k ≠ nKey → latest id ((ts.reverse ++ (kwTells kwargs).reverse) ++
      [((Storable.ofNat n : V), nKey)]) k = latest id (ts.reverse ++ (kwTells kwargs).reverse) k := by
    intro k hk
    generalize ts.reverse ++ (kwTells kwargs).reverse = l
    induction l with
    | nil => simp [latest, hk]
    | cons t l ih => simp only [List.cons_append, latest]; rw [ih]
  have hl : latest id ((ts.reverse ++ (kwTells kwargs).reverse) ++
      [((Storable.ofNat n : V), nKey)]) nKey = some (Storable.ofNat n) := by
    have hne : ∀ t ∈ ts.reverse ++ (kwTells kwargs).reverse, t.2 ≠ nKey := fun t ht =>
      (hk t (by simpa [or_comm] using ht)).2
    generalize ts.reverse ++ (kwTells kwargs).reverse = l at hne
    induction l with
    | nil => simp [latest]
    | cons t l ih =>
      simp only [List.cons_append, latest, id]
      rw [if_neg (Ne.symm (hne t (by simp)))]
      exact ih fun t ht => hne t (List.mem_cons_of_mem _ ht)
  have hr : w.read ⟨["n_samples_per_update"], .txt⟩ = some (Storable.ofNat n) := by
    have h := disk nKey hn .txt
    rw [hl] at h
    rw [show (["n_samples_per_update"] : List String) = nKey.base.parts from by decide, h,
      Option.filter_some, hkind]
    simp
  refine ⟨World.afterTell
      { w with nSamples := n, hasDir := true, task := task', cache := [], lastUpdate := none }
      (Storable.ofNat n) nKey.base, ?_, rfl, ?_⟩
  · unfold World.fromDir
    rw [PyM.self_bind, hr]
    simp only [hint]
    exact init_nil n true task' w
  intro k hgk hnk
  have hlook : (World.afterTell
      { w with nSamples := n, hasDir := true, task := task', cache := [], lastUpdate := none }
      (Storable.ofNat n) nKey.base).cache.lookup k.base = none := by
    rw [World.lookup_afterTell, if_neg fun e => hnk (hgk.base_inj hL hn e)]
    rfl
  have hread : ∀ ext, (World.afterTell
      { w with nSamples := n, hasDir := true, task := task', cache := [], lastUpdate := none }
      (Storable.ofNat n) nKey.base).read ⟨k.base.parts, ext⟩ =
      (latest id (ts.reverse ++ (kwTells kwargs).reverse) k).filter fun v =>
        decide (Storable.kind v = ext) := by
    intro ext
    rw [← hlast k hnk, ← disk k hgk ext]
    unfold World.read World.afterTell
    simp only [if_true]
    rw [List.lookup_cons]
    have : ((⟨k.base.parts, ext⟩ : File) == ⟨nKey.base.parts, Storable.kind (Storable.ofNat n : V)⟩)
        = false := by
      simp only [beq_eq_false_iff_ne, ne_eq, File.mk.injEq, not_and]
      intro hp
      exact absurd (hgk.parts_inj hL hn hp) hnk
    rw [this]
  have hload := load_filter hread
  refine ⟨fun v hv => ?_, fun hv => ?_⟩
  · rw [hv] at hload
    exact congrArg Prod.fst (World.askValue_dir hlook rfl hload)
  · rw [hv] at hload
    exact congrArg Prod.fst (World.ask_dir_missing hlook rfl hload)

/-- C86, as claimed: for all keys. -/
def C86_statement (V : Type) [Storable V] : Prop :=
  ∀ (n : Nat) (ts : List (V × SKey)) (w0 w1 w2 w : World V) (files : List (File × V)),
    (do World.init n false false []; tellAll ts) w0 = (.ok (), w1) → w1.saveAll = .ok files →
    w.files = files → World.fromDir false w = (.ok (), w2) → ∀ k v, latest id ts.reverse k = some v →
    (World.askValue k.1 k.2.1 k.2.2 w2).1 = .ok (Storable.reload v)

/-- C86 fails for keys with the same file: the object whose key was used first is overwritten, even if it
was told last. -/
theorem C86_refuted : ¬ C86_statement Nat := by
  intro h
  have := h 5 [(2, ("cost", some 0, none)), (4, ("update00000/cost", none, none)),
    (6, ("cost", some 0, none))] ⟨0, false, false, [], none, [], []⟩ _ _
    ⟨0, false, false, [], none, [], _⟩ _ rfl rfl rfl rfl ("cost", some 0, none) 6 rfl
  revert this
  decide

/-- The hypotheses of C86_reopen_partial are met by objects of different kinds for the same key. -/
example : ∃ w1 files, (do World.init 5 false false [("a", 4)]; tellAll [(7, ("a", none, none))])
    (⟨0, false, false, [], none, [], []⟩ : World Nat) = (.ok (), w1) ∧ w1.saveAll = .ok files ∧
    ∃ w2, World.fromDir false (⟨0, false, false, [], none, [], files⟩ : World Nat) = (.ok (), w2) ∧
    (World.askValue "a" none none w2).1 = .ok 7 := by
  obtain ⟨w1, files, h1, h2, h3⟩ := C86_reopen_partial (· = "eval") goodLabels_eval goodKey_n 5 false false
    [("a", 4)] [(7, ("a", none, none))] (⟨0, false, false, [], none, [], []⟩ : World Nat) rfl rfl (by
      intro t ht
      simp only [kwTells, List.map_cons, List.map_nil, List.cons_append, List.nil_append, List.mem_cons,
        List.not_mem_nil, or_false] at ht
      rcases ht with rfl | rfl <;> exact ⟨goodKey_a, by decide⟩)
  obtain ⟨w2, h4, _, h5⟩ := h3 ⟨0, false, false, [], none, [], files⟩ rfl
  exact ⟨w1, files, h1, h2, w2, h4, (h5 ("a", none, none) goodKey_a (by decide)).1 7 rfl⟩

end Verif
