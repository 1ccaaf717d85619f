import Verif.Props.SessionCurve

/- Lemmas for C61 and C62: programs that ask and tell in a session with directory. -/

set_option autoImplicit false

namespace Verif

open Spec

section
variable {V : Type} [Storable V]

/-- The files written when a value is told in a LearningSessionTask, in this order. -/
def writesOf (t : V × SKey) : List (File × V) :=
  (if dmpIn t.2.1 then [(⟨t.2.base.parts, .json⟩, t.1), (⟨forCppParts t.2.base.parts, .json⟩, t.1)]
    else []) ++ [(⟨t.2.base.parts, Storable.kind t.1⟩, t.1)]

/-- The answers after tells. -/
def toldAnswer (a : Key → Except PyErr V) (ts : List (V × SKey)) : Key → Except PyErr V :=
  ts.foldl (fun a t => Function.update a t.2.base (.ok t.1)) a

theorem toldAnswer_append (a : Key → Except PyErr V) (ts ts' : List (V × SKey)) :
    toldAnswer a (ts ++ ts') = toldAnswer (toldAnswer a ts) ts' := by simp [toldAnswer]

theorem toldAnswer_notMem {a : Key → Except PyErr V} {ts : List (V × SKey)} {key : Key}
    (h : ∀ t ∈ ts, t.2.base ≠ key) : toldAnswer a ts key = a key := by
  induction ts generalizing a with
  | nil => rfl
  | cons t ts ih =>
    change toldAnswer (Function.update a t.2.base (.ok t.1)) ts key = _
    rw [ih fun t ht => h t (by simp [ht]), Function.update_of_ne (Ne.symm (h t (by simp)))]

theorem toldAnswer_mem {a : Key → Except PyErr V} {ts : List (V × SKey)} {t : V × SKey}
    (hm : t ∈ ts) (hu : ∀ t' ∈ ts, t'.2.base = t.2.base → t'.1 = t.1) :
    toldAnswer a ts t.2.base = .ok t.1 := by
  induction ts using List.reverseRecOn generalizing t with
  | nil => cases hm
  | append_singleton ts s ih =>
    rw [toldAnswer_append]
    change Function.update (toldAnswer a ts) s.2.base (.ok s.1) t.2.base = _
    by_cases hs : s.2.base = t.2.base
    · rw [hs, Function.update_self, hu s (by simp) hs]
    · rw [Function.update_of_ne (Ne.symm hs)]
      have hmt : t ∈ ts := by
        rcases List.mem_append.mp hm with h | h
        · exact h
        · rw [List.mem_singleton] at h
          exact absurd (by rw [h]) hs
      exact ih hmt fun t' ht' => hu t' (by simp [ht'])

/-- A LearningSessionTask with directory. -/
structure TaskDir (w : World V) : Prop where
  cacheOk : w.CacheOk
  hasDir : w.hasDir = true
  task : w.task = true

/-- The program `m` returns `r` in state `w`, and tells `ts`. -/
def Runs {α : Type} (m : PyM (World V) α) (w : World V) (r : Except PyErr α) (ts : List (V × SKey)) :
    Prop :=
  ∃ w', m w = (r, w') ∧ TaskDir w' ∧
    (∀ k, GoodKey (· = "eval") k → w'.answer k.base = toldAnswer w.answer ts k.base) ∧
    w'.files = (ts.flatMap writesOf).reverse ++ w.files

theorem toldAnswer_congr {a b : Key → Except PyErr V} (ts : List (V × SKey)) {key : Key}
    (h : a key = b key) : toldAnswer a ts key = toldAnswer b ts key := by
  induction ts generalizing a b with
  | nil => exact h
  | cons t ts ih =>
    refine ih ?_
    change Function.update a t.2.base (.ok t.1) key = Function.update b t.2.base (.ok t.1) key
    by_cases hk : key = t.2.base
    · subst hk; simp
    · rw [Function.update_of_ne hk, Function.update_of_ne hk, h]

theorem Runs.bind {α β : Type} {m : PyM (World V) α} {f : α → PyM (World V) β} {w : World V} {a : α}
    {r : Except PyErr β} {ts ts' : List (V × SKey)} (h : Runs m w (.ok a) ts)
    (hf : ∀ w', TaskDir w' →
      (∀ k, GoodKey (· = "eval") k → w'.answer k.base = toldAnswer w.answer ts k.base) →
      w'.files = (ts.flatMap writesOf).reverse ++ w.files → Runs (f a) w' r ts') :
    Runs (m >>= f) w r (ts ++ ts') := by
  obtain ⟨w1, h1, h2, h3, h4⟩ := h
  obtain ⟨w2, h5, h6, h7, h8⟩ := hf w1 h2 h3 h4
  refine ⟨w2, by rw [PyM.bind_ok h1, h5], h6, fun k hk => ?_, ?_⟩
  · rw [h7 k hk, toldAnswer_congr ts' (h3 k hk), toldAnswer_append]
  · rw [h8, h4, List.flatMap_append, List.reverse_append, List.append_assoc]

theorem Runs.pure {α : Type} {w : World V} (h : TaskDir w) (a : α) :
    Runs (Pure.pure a : PyM (World V) α) w (.ok a) [] := ⟨w, rfl, h, fun _ _ => rfl, by simp⟩

theorem Runs.lift {α : Type} {w : World V} (h : TaskDir w) {x : Except PyErr α} {a : α}
    (hx : x = .ok a) : Runs (PyM.lift x : PyM (World V) α) w (.ok a) [] := by
  subst hx
  exact ⟨w, by rw [PyM.lift_apply], h, fun _ _ => rfl, by simp⟩

theorem Runs.askValue {w : World V} (h : TaskDir w) {name : String} {u : Option Int}
    {s : Option Label} {v : V} (hv : w.answer (baseName name u s) = .ok v) :
    Runs (World.askValue name u s) w (.ok v) [] := by
  obtain ⟨w', h1, h2⟩ := askValue_answer h.cacheOk name u s
  have hrun := h1
  have ht : w'.task = w.task := by
    cases hc : w.cache.lookup (baseName name u s) with
    | some r =>
      have hr := h.cacheOk _ r hc
      have hcv : w.cached (baseName name u s) = some w.heap[r] := by
        simp [World.cached, hc, List.getElem?_eq_getElem hr]
      rw [World.askValue_cached hcv] at h1
      rw [← (Prod.mk.inj h1).2]
    | none =>
      have hl : w.load (baseName name u s) = .ok v := by
        simpa [World.answer, hc, h.hasDir] using hv
      rw [World.askValue_dir hc h.hasDir hl] at h1
      rw [← (Prod.mk.inj h1).2]
  exact ⟨w', by rw [hrun, hv], ⟨h2.cacheOk, h2.hasDir.trans h.hasDir, ht.trans h.task⟩,
    fun k _ => h2.answer k.base, by simpa using h2.files⟩

theorem answer_afterTell {w : World V} (hw : w.CacheOk) (hd : w.hasDir = true) (v : V) (k k' : SKey)
    (hk : GoodKey (· = "eval") k) (hk' : GoodKey (· = "eval") k') :
    (w.afterTell v k.base).answer k'.base = Function.update w.answer k.base (.ok v) k'.base := by
  unfold World.answer
  rw [World.lookup_afterTell]
  by_cases he : k'.base = k.base
  · rw [he]
    simp [World.deref, World.afterTell]
  · rw [if_neg he, Function.update_of_ne he]
    cases hc : w.cache.lookup k'.base with
    | none =>
      simp only
      have hp : k'.base.parts ≠ k.base.parts := fun e => he (by
        rw [hk'.parts_inj goodLabels_eval hk e])
      have hr : ∀ ext, (w.afterTell v k.base).read ⟨k'.base.parts, ext⟩ =
          w.read ⟨k'.base.parts, ext⟩ := by
        intro ext
        simp only [World.read, World.afterTell, hd, if_true, List.lookup_cons]
        have : ((⟨k'.base.parts, ext⟩ : File) == ⟨k.base.parts, Storable.kind v⟩) = false := by
          simp [hp]
        rw [this]
      have : World.load (w.afterTell v k.base) k'.base = w.load k'.base := by
        unfold World.load
        rw [hr, hr, hr]
      rw [this]
      rfl
    | some r =>
      have := hw _ r hc
      simp [World.deref, World.afterTell, List.getElem?_append_left this]

theorem answer_afterJson {w : World V} (v : V) (k k' : SKey)
    (hk : GoodKey (· = "eval") k) (hk' : GoodKey (· = "eval") k') (hne : k'.base ≠ k.base) :
    (w.afterJson v k.base.parts).answer k'.base = w.answer k'.base := by
  have hp : k'.base.parts ≠ k.base.parts := fun e => hne (by
    rw [hk'.parts_inj goodLabels_eval hk e])
  have hc := (separate_good goodLabels_eval).cpp k' k hk' hk
  have hr : ∀ ext, (w.afterJson v k.base.parts).read ⟨k'.base.parts, ext⟩ =
      w.read ⟨k'.base.parts, ext⟩ := by
    intro ext
    simp only [World.read, World.afterJson, List.lookup_cons]
    have h1 : ((⟨k'.base.parts, ext⟩ : File) == ⟨k.base.parts, .json⟩) = false := by
      simp [hp]
    have h2 : ((⟨k'.base.parts, ext⟩ : File) == ⟨forCppParts k.base.parts, .json⟩) = false := by
      simp [hc]
    rw [h1, h2]
  have hl : World.load (w.afterJson v k.base.parts) k'.base = w.load k'.base := by
    unfold World.load
    rw [hr, hr, hr]
  unfold World.answer
  rw [hl]
  rfl

/-- Telling. -/
theorem Runs.tell {w : World V} (h : TaskDir w) {v : V} {k : SKey} (hk : GoodKey (· = "eval") k)
    (hdir : dmpIn k.1 = true → w.dirExists k.base.parts.dropLast = true) :
    Runs (World.tell v k.1 k.2.1 k.2.2) w (.ok (some ⟨k.base.parts, Storable.kind v⟩)) [(v, k)] := by
  by_cases hd : dmpIn k.1 = true
  · have hj : (w.task && dmpIn k.1 && w.hasDir) = true := by simp [h.task, h.hasDir, hd]
    refine ⟨(w.afterJson v k.base.parts).afterTell v k.base, ?_, ⟨?_, h.hasDir, h.task⟩, ?_, ?_⟩
    · rw [World.tell_dmp_apply hj]
      have := hdir hd
      change (if w.dirExists k.base.parts.dropLast = true then _ else _) = _
      rw [if_pos this]
      rfl
    · exact World.cacheOk_afterTell (w := w.afterJson v k.base.parts) h.cacheOk v k.base
    · intro k' hk'
      rw [answer_afterTell (w := w.afterJson v k.base.parts) h.cacheOk h.hasDir v k k' hk hk']
      change _ = Function.update w.answer k.base (.ok v) k'.base
      by_cases hne : k'.base = k.base
      · rw [hne]; simp
      · rw [Function.update_of_ne hne, Function.update_of_ne hne, answer_afterJson v k k' hk hk' hne]
    · simp [World.afterTell, World.afterJson, h.hasDir, writesOf, hd]
  · have hd' : dmpIn k.1 = false := by simpa using hd
    have hj : (w.task && dmpIn k.1 && w.hasDir) = false := by simp [hd']
    refine ⟨w.afterTell v k.base, ?_, ⟨World.cacheOk_afterTell h.cacheOk v k.base, h.hasDir, h.task⟩,
      fun k' hk' => answer_afterTell h.cacheOk h.hasDir v k k' hk hk', ?_⟩
    · rw [World.tell_apply hj, if_pos h.hasDir]
      rfl
    · simp [World.afterTell, h.hasDir, writesOf, hd']

theorem Runs.tellThen {β : Type} {f : Option File → PyM (World V) β} {w : World V}
    {r : Except PyErr β} {ts' : List (V × SKey)} (h : TaskDir w) {v : V} {name : String}
    {u : Option Int} {s : Option Label} (hk : GoodKey (· = "eval") (name, u, s))
    (hdir : dmpIn name = true → w.dirExists (SKey.base (name, u, s)).parts.dropLast = true)
    (hf : ∀ x w', TaskDir w' → (∀ k, GoodKey (· = "eval") k →
      w'.answer k.base = toldAnswer w.answer [(v, (name, u, s))] k.base) →
      w'.files = ([(v, (name, u, s))].flatMap writesOf).reverse ++ w.files → Runs (f x) w' r ts') :
    Runs (World.tell v name u s >>= f) w r ((v, (name, u, s)) :: ts') := by
  have ht := Runs.tell (k := (name, u, s)) (v := v) h hk hdir
  generalize (SKey.base (name, u, s)) = key at ht
  exact Runs.bind (ts := [(v, (name, u, s))]) ht fun w' h1 h2 h3 => hf _ w' h1 h2 h3

/-- A directory exists once a file has been written there. -/
theorem dirExists_of_mem {w : World V} {f : File} {v : V} (h : (f, v) ∈ w.files) :
    w.dirExists f.parts.dropLast = true := by
  unfold World.dirExists
  rw [List.any_eq_true]
  exact ⟨_, h, by simp⟩

theorem mem_files {w : World V} {ts : List (V × SKey)} {files : List (File × V)}
    (hf : w.files = (ts.flatMap writesOf).reverse ++ files) {t : V × SKey} (ht : t ∈ ts) :
    (⟨t.2.base.parts, Storable.kind t.1⟩, t.1) ∈ w.files := by
  rw [hf]
  refine List.mem_append_left _ ?_
  rw [List.mem_reverse, List.mem_flatMap]
  exact ⟨t, ht, by simp [writesOf]⟩

/-- What the files of good keys contain. -/
theorem onDisk_of_files {ts : List (V × SKey)} {w : World V}
    (hg : ∀ t ∈ ts, GoodKey (· = "eval") t.2) (hs : SameKind ts)
    (hdmp : ∀ t ∈ ts, dmpIn t.2.1 = true → Storable.kind t.1 = .json)
    (hf : w.files = (ts.flatMap writesOf).reverse) : OnDisk (· = "eval") ts.reverse w := by
  induction ts using List.reverseRecOn generalizing w with
  | nil =>
    intro k hk ext
    simp [World.read, hf, latest]
  | append_singleton ts t ih =>
    have hw0 := ih (w := { w with files := (ts.flatMap writesOf).reverse })
      (fun t ht => hg t (by simp [ht])) (fun a ha b hb => hs a (by simp [ha]) b (by simp [hb]))
      (fun t ht => hdmp t (by simp [ht])) rfl
    have hk := hg t (by simp)
    have hs' : SameKind ((t.1, t.2) :: ts.reverse) := by
      intro a ha b hb
      refine hs a ?_ b ?_
      · simp only [List.mem_cons, List.mem_reverse] at ha
        simp only [List.mem_append, List.mem_singleton]
        exact ha.symm
      · simp only [List.mem_cons, List.mem_reverse] at hb
        simp only [List.mem_append, List.mem_singleton]
        exact hb.symm
    rw [List.reverse_append, List.reverse_singleton, List.singleton_append]
    by_cases hd : dmpIn t.2.1 = true
    · have hkind := hdmp t (by simp) hd
      have h1 := onDisk_write (w' := { w with files := (⟨t.2.base.parts, .json⟩, t.1) ::
        (ts.flatMap writesOf).reverse }) goodLabels_eval t.1 t.2 hk hs' hw0 (by rw [hkind])
      have h2 := onDisk_extra (w' := { w with files := (⟨forCppParts t.2.base.parts, .json⟩, t.1) ::
        (⟨t.2.base.parts, .json⟩, t.1) :: (ts.flatMap writesOf).reverse }) _ t.1 h1 rfl fun k' hk' =>
        (separate_good goodLabels_eval).cpp k' t.2 hk' hk
      have h3 : OnDisk (· = "eval") ((t.1, t.2) :: (t.1, t.2) :: ts.reverse) w := by
        refine onDisk_write goodLabels_eval t.1 t.2 hk ?_ h2 ?_
        · intro a ha b hb
          refine hs' a ?_ b ?_
          · simp only [List.mem_cons, or_self_left] at ha ⊢; exact ha
          · simp only [List.mem_cons, or_self_left] at hb ⊢; exact hb
        · rw [hf]
          simp [writesOf, hd]
      intro k' hk' ext
      rw [h3 k' hk' ext]
      congr 1
      simp only [latest]
      split_ifs <;> rfl
    · refine onDisk_write goodLabels_eval t.1 t.2 hk hs' hw0 ?_
      rw [hf]
      simp [writesOf, hd]

/-- A re-opened session answers from the files. -/
theorem reopen_answer {ts : List (V × SKey)} {w : World V} {n : Nat}
    (hg : ∀ t ∈ ts, GoodKey (· = "eval") t.2) (hs : SameKind ts)
    (hdmp : ∀ t ∈ ts, dmpIn t.2.1 = true → Storable.kind t.1 = .json)
    (hf : w.files = (ts.flatMap writesOf).reverse)
    (hr : w.read ⟨["n_samples_per_update"], .txt⟩ = some (Storable.ofNat n))
    (hint : Storable.toNat (Storable.reload (Storable.ofNat n : V)) = some n) :
    ∃ w', World.fromDir true w = (.ok (), w') ∧ TaskDir w' ∧
      w'.files = ((ts ++ [(Storable.ofNat n, nKey)]).flatMap writesOf).reverse ∧
      w'.answer nKey.base = .ok (Storable.ofNat n) ∧
      ∀ k, GoodKey (· = "eval") k → k ≠ nKey → w'.answer k.base =
        (latest id ts.reverse k).elim (.error .ioError) fun v => .ok (Storable.reload v) := by
  have hinit : World.fromDir true w = (.ok (), World.afterTell
      { w with nSamples := n, hasDir := true, task := true, cache := [], lastUpdate := none }
      (Storable.ofNat n) nKey.base) := by
    unfold World.fromDir
    rw [PyM.self_bind, hr]
    simp only [hint]
    exact init_nil n true true w
  have h0 : World.CacheOk { w with nSamples := n, hasDir := true, task := true, cache := [],
                                   lastUpdate := none } := by
    intro key r h; cases h
  refine ⟨_, hinit, ⟨World.cacheOk_afterTell h0 _ _, rfl, rfl⟩, ?_, ?_, ?_⟩
  · simp [World.afterTell, hf, writesOf, show dmpIn nKey.1 = false from by decide]
  · rw [answer_afterTell h0 rfl _ nKey nKey goodKey_n goodKey_n]
    simp
  · intro k hk hne
    have hb : k.base ≠ nKey.base := fun e => hne (hk.base_inj goodLabels_eval goodKey_n e)
    rw [answer_afterTell h0 rfl _ nKey k goodKey_n hk, Function.update_of_ne hb]
    change World.load w k.base = _
    exact load_filter fun ext => onDisk_of_files hg hs hdmp hf k hk ext

end

end Verif
