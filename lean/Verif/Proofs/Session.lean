import Verif.Proofs.Names

/- Lemmas on the methods of a learning session. -/

set_option autoImplicit false

namespace Verif

variable {V : Type}

namespace World

/-- The value in the cache. -/
def cached (w : World V) (key : Key) : Option V := (w.cache.lookup key).bind fun r => w.heap[r]?

/-- All entries of the cache refer to objects. -/
def CacheOk (w : World V) : Prop := ∀ key r, w.cache.lookup key = some r → r < w.heap.length

variable [Storable V]

/-- The session after telling a value. -/
def afterTell (w : World V) (v : V) (key : Key) : World V :=
  { w with
    heap := w.heap ++ [v]
    cache := (key, w.heap.length) :: w.cache
    files := if w.hasDir then (⟨key.parts, Storable.kind v⟩, v) :: w.files else w.files }

theorem tellBase_apply (v : V) (name : String) (u : Option Int) (s : Option Label) (w : World V) :
    tellBase v name u s w = (.ok (if w.hasDir then
      some ⟨(baseName name u s).parts, Storable.kind v⟩ else none),
      w.afterTell v (baseName name u s)) := by
  by_cases h : w.hasDir = true
  · simp [tellBase, alloc, save, write, afterTell, h, bind_assoc, -bind_pure_comp]
  · simp [tellBase, alloc, save, write, afterTell, h, bind_assoc, -bind_pure_comp]

theorem tell_apply {name : String} {w : World V} (h : (w.task && dmpIn name && w.hasDir) = false)
    (v : V) (u : Option Int) (s : Option Label) :
    tell v name u s w = (.ok (if w.hasDir then
      some ⟨(baseName name u s).parts, Storable.kind v⟩ else none),
      w.afterTell v (baseName name u s)) := by
  unfold tell
  rw [PyM.self_bind, if_neg (by rw [h]; simp)]
  exact tellBase_apply v name u s w

/-- The session after `jc.savejson` of a dmp. -/
def afterJson (w : World V) (v : V) (parts : List String) : World V :=
  { w with files := (⟨forCppParts parts, .json⟩, v) :: (⟨parts, .json⟩, v) :: w.files }

theorem forCppParts_dropLast (parts : List String) :
    (forCppParts parts).dropLast = parts.dropLast := by
  simp [forCppParts]

theorem tell_dmp_apply {name : String} {w : World V} (h : (w.task && dmpIn name && w.hasDir) = true)
    (v : V) (u : Option Int) (s : Option Label) :
    tell v name u s w = if w.dirExists (baseName name u s).parts.dropLast then
      (.ok (some ⟨(baseName name u s).parts, Storable.kind v⟩),
        (w.afterJson v (baseName name u s).parts).afterTell v (baseName name u s))
      else (.error .ioError, w) := by
  have hd : w.hasDir = true := by
    simp only [Bool.and_eq_true] at h; exact h.2
  unfold tell
  rw [PyM.self_bind, if_pos h]
  by_cases hdir : w.dirExists (baseName name u s).parts.dropLast = true
  · rw [if_pos hdir]
    have e1 : savejson (baseName name u s).parts v w =
        (.ok (), { w with files := (⟨(baseName name u s).parts, .json⟩, v) :: w.files }) := by
      simp [savejson, hdir, write]
    have e2 : savejson (forCppParts (baseName name u s).parts) v
        { w with files := (⟨(baseName name u s).parts, .json⟩, v) :: w.files } =
        (.ok (), w.afterJson v (baseName name u s).parts) := by
      have : World.dirExists { w with files := (⟨(baseName name u s).parts, .json⟩, v) :: w.files }
          (forCppParts (baseName name u s).parts).dropLast = true := by
        rw [forCppParts_dropLast]
        simp [dirExists]
      simp [savejson, this, write, afterJson]
    simp only [bind_assoc]
    rw [PyM.bind_ok e1, PyM.bind_ok e2, tellBase_apply]
    simp [afterJson, hd]
  · rw [if_neg hdir]
    have e1 : savejson (baseName name u s).parts v w = (.error .ioError, w) := by
      simp [savejson, hdir]
    simp only [bind_assoc]
    rw [PyM.bind_error e1]

theorem lookup_afterTell (w : World V) (v : V) (key k : Key) :
    (w.afterTell v key).cache.lookup k =
      if k = key then some w.heap.length else w.cache.lookup k := by
  change List.lookup k ((key, w.heap.length) :: w.cache) = _
  rw [List.lookup_cons]
  by_cases h : k = key
  · subst h; simp
  · have : (k == key) = false := by simpa using h
    rw [this, if_neg h]

theorem cacheOk_afterTell {w : World V} (h : w.CacheOk) (v : V) (key : Key) :
    (w.afterTell v key).CacheOk := by
  intro k r hk
  rw [lookup_afterTell] at hk
  change r < (w.heap ++ [v]).length
  rw [List.length_append]
  by_cases hkk : k = key
  · rw [if_pos hkk] at hk
    have := Option.some.inj hk
    simp; omega
  · rw [if_neg hkk] at hk
    have := h k r hk
    simp; omega

theorem cached_afterTell {w : World V} (h : w.CacheOk) (v : V) (key k : Key) :
    (w.afterTell v key).cached k = if k = key then some v else w.cached k := by
  unfold cached
  rw [lookup_afterTell]
  change Option.bind _ (fun r => (w.heap ++ [v])[r]?) = _
  by_cases hk : k = key
  · rw [if_pos hk, if_pos hk]; simp
  · rw [if_neg hk, if_neg hk]
    cases hc : w.cache.lookup k with
    | none => rfl
    | some r =>
      have := h k r hc
      simp [List.getElem?_append_left this]

theorem ask_cached {w : World V} {name : String} {u : Option Int} {s : Option Label} {v : V}
    (h : w.cached (baseName name u s) = some v) :
    ask name u s w = (.ok w.heap.length, { w with heap := w.heap ++ [v] }) := by
  unfold cached at h
  unfold ask
  rw [PyM.self_bind]
  cases hc : w.cache.lookup (baseName name u s) with
  | none => rw [hc] at h; cases h
  | some r =>
    rw [hc] at h
    have hr : w.deref r = .ok v := by
      unfold deref
      have : w.heap[r]? = some v := h
      rw [this]
    simp only [hr]
    rfl

theorem askValue_cached {w : World V} {name : String} {u : Option Int} {s : Option Label} {v : V}
    (h : w.cached (baseName name u s) = some v) :
    askValue name u s w = (.ok v, { w with heap := w.heap ++ [v] }) := by
  unfold askValue
  rw [PyM.bind_ok (ask_cached h), PyM.self_bind]
  simp [deref]

theorem ask_no_dir {w : World V} {name : String} {u : Option Int} {s : Option Label}
    (h : w.cache.lookup (baseName name u s) = none) (hd : w.hasDir = false) :
    ask name u s w = (.error .keyError, w) := by
  unfold ask
  rw [PyM.self_bind]
  simp only [h, hd]
  rfl

theorem ask_dir {w : World V} {name : String} {u : Option Int} {s : Option Label}
    (h : w.cache.lookup (baseName name u s) = none) (hd : w.hasDir = true) :
    ask name u s w = match w.load (baseName name u s) with
      | .ok v => (.ok w.heap.length,
          { w with
            heap := w.heap ++ [v]
            cache := (baseName name u s, w.heap.length) :: w.cache })
      | .error e => (.error e, w) := by
  unfold ask
  rw [PyM.self_bind]
  simp only [h]
  rw [if_pos hd]
  cases hl : w.load (baseName name u s) with
  | error e => rfl
  | ok v => rfl

theorem askValue_dir {w : World V} {name : String} {u : Option Int} {s : Option Label} {v : V}
    (h : w.cache.lookup (baseName name u s) = none) (hd : w.hasDir = true)
    (hl : w.load (baseName name u s) = .ok v) :
    askValue name u s w = (.ok v,
      { w with
        heap := w.heap ++ [v]
        cache := (baseName name u s, w.heap.length) :: w.cache }) := by
  unfold askValue
  have := ask_dir h hd
  rw [hl] at this
  rw [PyM.bind_ok this, PyM.self_bind]
  simp [deref]

theorem ask_dir_missing {w : World V} {name : String} {u : Option Int} {s : Option Label}
    {e : PyErr} (h : w.cache.lookup (baseName name u s) = none) (hd : w.hasDir = true)
    (hl : w.load (baseName name u s) = .error e) :
    ask name u s w = (.error e, w) := by
  rw [ask_dir h hd, hl]

theorem cached_none_of_lookup {w : World V} {k : Key} (h : w.cache.lookup k = none) :
    w.cached k = none := by simp [cached, h]

theorem lookup_none_of_cached {w : World V} (hw : w.CacheOk) {k : Key} (h : w.cached k = none) :
    w.cache.lookup k = none := by
  cases hc : w.cache.lookup k with
  | none => rfl
  | some r =>
    have := hw k r hc
    simp [cached, hc] at h
    omega

theorem cached_isSome {w : World V} (hw : w.CacheOk) (k : Key) :
    (w.cached k).isSome = (w.cache.lookup k).isSome := by
  cases hc : w.cache.lookup k with
  | none => simp [cached, hc]
  | some r =>
    have := hw k r hc
    simp [cached, hc, this]

/-- Files without a given path cannot be read. -/
theorem read_none {w : World V} {f : File} (h : ∀ e ∈ w.files, e.1 ≠ f) : w.read f = none := by
  unfold read
  rw [List.lookup_eq_none_iff]
  intro e he
  simpa using fun hh => h e he hh.symm

theorem load_missing {w : World V} {key : Key} (h : ∀ e ∈ w.files, e.1.parts ≠ key.parts) :
    w.load key = .error .ioError := by
  have : ∀ ext, w.read ⟨key.parts, ext⟩ = none := fun ext =>
    read_none fun e he hh => h e he (by rw [hh])
  simp [load, this]

theorem read_cons (w : World V) (f g : File) (v : V) :
    World.read { w with files := (f, v) :: w.files } g = if g = f then some v else w.read g := by
  unfold read
  change List.lookup g ((f, v) :: w.files) = _
  rw [List.lookup_cons]
  by_cases h : g = f
  · subst h; simp
  · have : (g == f) = false := by simpa using h
    rw [this, if_neg h]

end World

end Verif
