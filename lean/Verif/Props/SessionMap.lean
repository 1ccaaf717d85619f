import Verif.Proofs.Session
import Verif.Props.SessionKeys
import Verif.Spec.Session

/- C56, C57: a learning session as a map, and re-opening it. -/

set_option autoImplicit false

namespace Verif

open Spec

variable {V : Type} [Storable V]

/-- The entry for a key. -/
def SKey.base (k : SKey) : Key := baseName k.1 k.2.1 k.2.2

/-! ### C56 -/

/-- Runs of a client with a session, starting in `w0`. The events are listed with the latest first.
The client only works on objects that it created or got from ask. -/
inductive Run (w0 : World V) : List (Event V) → World V → Prop
  | nil : Run w0 [] w0
  | create (es : List (Event V)) (w : World V) (v : V) : Run w0 es w →
      Run w0 (.create w.heap.length v :: es) { w with heap := w.heap ++ [v] }
  | modify (es : List (Event V)) (w : World V) (r : Nat) (v : V) : Run w0 es w →
      (objVal es r).isSome → Run w0 (.modify r v :: es) { w with heap := w.heap.set r v }
  | tell (es : List (Event V)) (w w' : World V) (r : Nat) (v : V) (k : SKey) (f : Option File) :
      Run w0 es w → (objVal es r).isSome → w.deref r = .ok v →
      World.tell v k.1 k.2.1 k.2.2 w = (.ok f, w') → Run w0 (.tell r k :: es) w'
  | ask (es : List (Event V)) (w w' : World V) (r : Nat) (v : V) (k : SKey) : Run w0 es w →
      World.ask k.1 k.2.1 k.2.2 w = (.ok r, w') → w'.deref r = .ok v → Run w0 (.ask r v k :: es) w'
  | askFailed (es : List (Event V)) (w w' : World V) (e : PyErr) (k : SKey) : Run w0 es w →
      World.ask k.1 k.2.1 k.2.2 w = (.error e, w') → Run w0 (.askFailed e k :: es) w'

/-- A new session: empty cache, and no files if there is a directory. -/
structure Fresh (w : World V) : Prop where
  cache : w.cache = []
  files : w.hasDir = true → w.files = []

/-- Keys for which no two entries share a file (see C58). -/
structure Separate (K : SKey → Prop) : Prop where
  parts : ∀ k k', K k → K k' → k.base.parts = k'.base.parts → k.base = k'.base
  cpp : ∀ k k', K k → K k' → k.base.parts ≠ forCppParts k'.base.parts

/-- Keys occurring in the events. -/
def Uses (K : SKey → Prop) : List (Event V) → Prop
  | [] => True
  | .tell _ k :: es => K k ∧ Uses K es
  | .ask _ _ k :: es => K k ∧ Uses K es
  | .askFailed _ k :: es => K k ∧ Uses K es
  | .create _ _ :: es => Uses K es
  | .modify _ _ :: es => Uses K es

/-- Invariant of a run. -/
structure Inv (K : SKey → Prop) (es : List (Event V)) (w0 w : World V) : Prop where
  dir : w.hasDir = w0.hasDir
  ok : w.CacheOk
  cache : ∀ key, w.cached key = told SKey.base es key
  objs : ∀ r v, objVal es r = some v → w.heap[r]? = some v
  isolated : ∀ r key, (objVal es r).isSome → w.cache.lookup key ≠ some r
  files : w.hasDir = true → ∀ e ∈ w.files, ∃ k, K k ∧ (told (V := V) SKey.base es k.base).isSome ∧
    (e.1.parts = k.base.parts ∨ e.1.parts = forCppParts k.base.parts)

theorem Inv.objLt {K : SKey → Prop} {es : List (Event V)} {w0 w : World V} (h : Inv K es w0 w)
    {r : Nat} (hr : (objVal es r).isSome) : r < w.heap.length := by
  obtain ⟨v, hv⟩ := Option.isSome_iff_exists.mp hr
  exact (List.getElem?_eq_some_iff.mp (h.objs r v hv)).1

/-- Adding an object to the heap keeps the cache. -/
theorem cached_push {w : World V} (hw : w.CacheOk) (v : V) (key : Key) :
    World.cached { w with heap := w.heap ++ [v] } key = w.cached key := by
  unfold World.cached
  cases hc : w.cache.lookup key with
  | none => rfl
  | some r => simp [List.getElem?_append_left (hw key r hc)]

theorem cacheOk_push {w : World V} (hw : w.CacheOk) (v : V) :
    World.CacheOk { w with heap := w.heap ++ [v] } := by
  intro key r h
  have := hw key r h
  simp only [List.length_append]
  omega

theorem getElem?_push {l : List V} {r : Nat} {v x : V} (h : l[r]? = some v) :
    (l ++ [x])[r]? = some v := by
  rw [List.getElem?_append_left (List.getElem?_eq_some_iff.mp h).1]; exact h

theorem told_create (es : List (Event V)) (r : Nat) (v : V) (key : Key) :
    told SKey.base (.create r v :: es) key = told SKey.base es key := rfl

theorem inv_push {K : SKey → Prop} {es : List (Event V)} {w0 w : World V} (h : Inv K es w0 w)
    (v : V) (e : Event V)
    (he : e = .create w.heap.length v ∨ ∃ k, e = .ask w.heap.length v k) :
    Inv K (e :: es) w0 { w with heap := w.heap ++ [v] } := by
  have ho : ∀ r, objVal (e :: es) r = if r = w.heap.length then some v else objVal es r := by
    rcases he with rfl | ⟨k, rfl⟩ <;> intro r <;> rfl
  have ht : ∀ key, told SKey.base (e :: es) key = told SKey.base es key := by
    rcases he with rfl | ⟨k, rfl⟩ <;> intro r <;> rfl
  refine ⟨h.dir, cacheOk_push h.ok v, ?_, ?_, ?_, ?_⟩
  · intro key; rw [cached_push h.ok, h.cache, ht]
  · intro r x hx
    rw [ho] at hx
    by_cases hr : r = w.heap.length
    · rw [if_pos hr] at hx; rw [hr, ← hx]; simp
    · rw [if_neg hr] at hx; exact getElem?_push (h.objs r x hx)
  · intro r key hs hc
    rw [ho] at hs
    by_cases hr : r = w.heap.length
    · have := h.ok key r hc; omega
    · rw [if_neg hr] at hs; exact h.isolated r key hs hc
  · intro hd f hf
    obtain ⟨k, h1, h2, h3⟩ := h.files hd f hf
    exact ⟨k, h1, by rw [ht]; exact h2, h3⟩

/-- Telling keeps the invariant; `extra` are files for C++. -/
theorem inv_tell {K : SKey → Prop} {es : List (Event V)} {w0 w : World V} (h : Inv K es w0 w)
    (r : Nat) (v : V) (k : SKey) (hK : K k) (hr : objVal es r = some v) (files : List (File × V))
    (hf : ∀ e ∈ files, e ∈ w.files ∨ e.1.parts = k.base.parts ∨
      e.1.parts = forCppParts k.base.parts) :
    Inv K (.tell r k :: es) w0 (World.afterTell { w with files := files } v k.base) := by
  have hok : World.CacheOk { w with files := files } := h.ok
  have ho : ∀ r', objVal (.tell r k :: es) r' = objVal es r' := fun _ => rfl
  have ht : ∀ key, told SKey.base (.tell r k :: es) key =
      if key = k.base then some v else told SKey.base es key := by
    intro key
    simp only [told, hr]
  refine ⟨h.dir, World.cacheOk_afterTell hok v k.base, ?_, ?_, ?_, ?_⟩
  · intro key
    rw [World.cached_afterTell hok, ht]
    by_cases hk : key = k.base
    · rw [if_pos hk, if_pos hk]
    · rw [if_neg hk, if_neg hk, ← h.cache]; rfl
  · intro r' x hx
    exact getElem?_push (h.objs r' x hx)
  · intro r' key hs hc
    rw [World.lookup_afterTell] at hc
    have hlt := h.objLt (r := r') hs
    by_cases hk : key = k.base
    · rw [if_pos hk] at hc
      have := Option.some.inj hc
      change w.heap.length = r' at this
      omega
    · rw [if_neg hk] at hc; exact h.isolated r' key hs hc
  · intro hd e he
    have old : e ∈ w.files → ∃ k', K k' ∧
        (told (V := V) SKey.base (.tell r k :: es) k'.base).isSome ∧
        (e.1.parts = k'.base.parts ∨ e.1.parts = forCppParts k'.base.parts) := by
      intro hm
      obtain ⟨k', h1, h2, h3⟩ := h.files hd e hm
      refine ⟨k', h1, ?_, h3⟩
      rw [ht]
      split_ifs
      · rfl
      · exact h2
    have new : (told (V := V) SKey.base (.tell r k :: es) k.base).isSome := by
      rw [ht, if_pos rfl]; rfl
    simp only [World.afterTell] at he
    have hd' : w.hasDir = true := hd
    rw [if_pos hd', List.mem_cons] at he
    rcases he with rfl | he
    · exact ⟨k, hK, new, Or.inl rfl⟩
    · rcases hf e he with hm | hm
      · exact old hm
      · exact ⟨k, hK, new, hm⟩

/-- An ask for a key without file or cache entry fails. -/
theorem ask_untold {K : SKey → Prop} {es : List (Event V)} {w0 w : World V}
    (hK : w0.hasDir = true → Separate K)
    (h : Inv K es w0 w) {k : SKey} (hk : K k) (ht : told SKey.base es k.base = none) :
    World.ask k.1 k.2.1 k.2.2 w = (.error (if w.hasDir then .ioError else .keyError), w) := by
  have hl : w.cache.lookup k.base = none :=
    World.lookup_none_of_cached h.ok (by rw [h.cache]; exact ht)
  by_cases hd : w.hasDir = true
  · rw [if_pos hd]
    refine World.ask_dir_missing hl hd (World.load_missing ?_)
    intro e he hp
    obtain ⟨k', h1, h2, h3⟩ := h.files hd e he
    have hK := hK (h.dir ▸ hd)
    rcases h3 with h3 | h3
    · have := hK.parts k k' hk h1 (hp.symm.trans h3)
      rw [← this, ht] at h2
      cases h2
    · exact hK.cpp k k' hk h1 (hp.symm.trans h3)
  · have hd' : w.hasDir = false := by simpa using hd
    rw [if_neg hd]
    exact World.ask_no_dir hl hd'

theorem run_inv {K : SKey → Prop} {w0 : World V} (hK : w0.hasDir = true → Separate K)
    (h0 : Fresh w0) {es : List (Event V)} {w : World V} (hu : Uses K es) (h : Run w0 es w) : Inv K es w0 w := by
  induction h with
  | nil =>
    refine ⟨rfl, ?_, ?_, ?_, ?_, ?_⟩
    · intro key r hc; rw [h0.cache] at hc; cases hc
    · intro key; simp [World.cached, h0.cache, told]
    · intro r v hv; cases hv
    · intro r key hs; cases hs
    · intro hd e he; rw [h0.files hd] at he; cases he
  | create es w v hrun ih => exact inv_push (ih hu) v _ (Or.inl rfl)
  | modify es w r v hrun hr ih =>
    have h := ih hu
    have hlt := h.objLt hr
    have ho : ∀ r', objVal (.modify r v :: es) r' = if r' = r then some v else objVal es r' :=
      fun _ => rfl
    refine ⟨h.dir, ?_, ?_, ?_, ?_, ?_⟩
    · intro key r' hc
      have := h.ok key r' hc
      simpa using this
    · intro key
      rw [show told SKey.base (.modify r v :: es) key = told SKey.base es key from rfl, ← h.cache]
      unfold World.cached
      cases hc : w.cache.lookup key with
      | none => rfl
      | some r' =>
        have hne : r ≠ r' := by
          rintro rfl
          exact h.isolated r key hr hc
        simp [List.getElem?_set, hne]
    · intro r' x hx
      rw [ho] at hx
      change (w.heap.set r v)[r']? = some x
      by_cases hrr : r' = r
      · rw [if_pos hrr] at hx
        rw [hrr, ← hx]
        simp [hlt]
      · rw [if_neg hrr] at hx
        rw [List.getElem?_set_ne (Ne.symm hrr)]
        exact h.objs r' x hx
    · intro r' key hs
      rw [ho] at hs
      by_cases hrr : r' = r
      · rw [hrr]; exact h.isolated r key hr
      · rw [if_neg hrr] at hs; exact h.isolated r' key hs
    · exact h.files
  | tell es w w' r v k f hrun hr hv ht ih =>
    have h := ih hu.2
    obtain ⟨x, hx⟩ := Option.isSome_iff_exists.mp hr
    have hxv : x = v := by
      have := h.objs r x hx
      unfold World.deref at hv
      rw [this] at hv
      exact Except.ok.inj hv
    rw [hxv] at hx
    by_cases hd : (w.task && dmpIn k.1 && w.hasDir) = true
    · rw [World.tell_dmp_apply hd] at ht
      by_cases hde : w.dirExists (baseName k.1 k.2.1 k.2.2).parts.dropLast = true
      · rw [if_pos hde] at ht
        have := (Prod.mk.inj ht).2
        rw [← this]
        refine inv_tell h r v k hu.1 hx _ ?_
        intro e he
        simp only [List.mem_cons] at he
        rcases he with rfl | rfl | he
        · exact Or.inr (Or.inr rfl)
        · exact Or.inr (Or.inl rfl)
        · exact Or.inl he
      · rw [if_neg hde] at ht
        cases (Prod.mk.inj ht).1
    · have hd' : (w.task && dmpIn k.1 && w.hasDir) = false := by simpa using hd
      rw [World.tell_apply hd'] at ht
      have := (Prod.mk.inj ht).2
      rw [← this]
      exact inv_tell h r v k hu.1 hx w.files fun e he => Or.inl he
  | ask es w w' r v k hrun ha hv ih =>
    have h := ih hu.2
    cases ht : told SKey.base es k.base with
    | none => rw [ask_untold hK h hu.1 ht] at ha; cases (Prod.mk.inj ha).1
    | some x =>
      have hc : w.cached (baseName k.1 k.2.1 k.2.2) = some x := by
        rw [h.cache]; exact ht
      rw [World.ask_cached hc] at ha
      obtain ⟨h1, h2⟩ := Prod.mk.inj ha
      have h1 := Except.ok.inj h1
      subst h1 h2
      have hvx : v = x := by
        simp only [World.deref, List.getElem?_concat_length] at hv
        exact (Except.ok.inj hv).symm
      rw [hvx]
      exact inv_push h x _ (Or.inr ⟨k, rfl⟩)
  | askFailed es w w' e k hrun ha ih =>
    have h := ih hu.2
    cases ht : told SKey.base es k.base with
    | none =>
      rw [ask_untold hK h hu.1 ht] at ha
      rw [← (Prod.mk.inj ha).2]
      exact ⟨h.dir, h.ok, h.cache, h.objs, h.isolated, h.files⟩
    | some x =>
      have hc : w.cached (baseName k.1 k.2.1 k.2.2) = some x := by
        rw [h.cache]; exact ht
      rw [World.ask_cached hc] at ha
      cases (Prod.mk.inj ha).1

/-- What a session has to do in a state `w` after the events `es`. -/
structure MapLike {K : Type} [DecidableEq K] (proj : SKey → K) (es : List (Event V)) (w : World V)
    (k : SKey) : Prop where
  /-- Ask returns the value of the latest tell. -/
  found : ∀ v, told proj es (proj k) = some v → ∃ r w', World.ask k.1 k.2.1 k.2.2 w = (.ok r, w') ∧
    w'.deref r = .ok v
  /-- Ask raises an error if there is none. -/
  missing : told proj es (proj k) = none → ∃ e, (e = .keyError ∨ e = .ioError) ∧
    World.ask k.1 k.2.1 k.2.2 w = (.error e, w)
  /-- Exists tells these cases apart. -/
  existing : w.exists k.1 k.2.1 k.2.2 = (told proj es (proj k)).isSome

/-- Exists finds what is in the cache, and nothing else, if there are no files for other keys. -/
theorem inv_map {K : SKey → Prop} {es : List (Event V)} {w0 w : World V}
    (hK : w0.hasDir = true → Separate K) (h : Inv K es w0 w) {k : SKey} (hk : K k) :
    MapLike SKey.base es w k := by
  refine ⟨?_, ?_, ?_⟩
  · intro v hv
    have hc : w.cached (baseName k.1 k.2.1 k.2.2) = some v := by rw [h.cache]; exact hv
    refine ⟨_, _, World.ask_cached hc, ?_⟩
    simp [World.deref]
  · intro hn
    refine ⟨_, ?_, ask_untold hK h hk hn⟩
    split_ifs
    · exact Or.inr rfl
    · exact Or.inl rfl
  · rw [← h.cache, World.cached_isSome h.ok]
    unfold World.exists
    change (if (w.cache.lookup k.base).isSome = true then true else _) = _
    cases hc : w.cache.lookup k.base with
    | some r => rfl
    | none =>
      simp only [Option.isSome_none, Bool.false_eq_true, if_false]
      by_cases hd : w.hasDir = true
      · rw [if_pos hd]
        have : ∀ ext, w.read ⟨k.base.parts, ext⟩ = none := by
          intro ext
          refine World.read_none fun e he hp => ?_
          obtain ⟨k', h1, h2, h3⟩ := h.files hd e he
          have hK := hK (h.dir ▸ hd)
          rw [hp] at h3
          rcases h3 with h3 | h3
          · have := hK.parts k k' hk h1 h3
            rw [← this, ← h.cache, World.cached_none_of_lookup hc] at h2
            cases h2
          · exact hK.cpp k k' hk h1 h3
        change ((w.read ⟨k.base.parts, _⟩).isSome || (w.read ⟨k.base.parts, _⟩).isSome ||
          (w.read ⟨k.base.parts, _⟩).isSome) = false
        simp [this]
      · rw [if_neg hd]

/-- C56, without directory: whatever the client does with the session and its objects, the session
answers like a map from entries to the values at the time of the latest tell, and objects in the
hands of the client are only changed by the client. -/
theorem C56_cache_only (w0 : World V) (hc : w0.cache = []) (hd : w0.hasDir = false)
    (es : List (Event V)) (w : World V) (h : Run w0 es w) :
    (∀ k, MapLike SKey.base es w k) ∧ ∀ r v, objVal es r = some v → w.deref r = .ok v := by
  have hu : ∀ es : List (Event V), Uses (fun _ => True) es := by
    intro es
    induction es with
    | nil => trivial
    | cons e es ih => cases e <;> first | exact ⟨trivial, ih⟩ | exact ih
  have h0 : Fresh w0 := ⟨hc, fun h => by rw [hd] at h; cases h⟩
  have hi := run_inv (K := fun _ => True) (fun h => by rw [hd] at h; cases h) h0 (hu es) h
  refine ⟨fun k => inv_map (fun h => by rw [hd] at h; cases h) hi trivial, fun r v hv => ?_⟩
  unfold World.deref
  rw [hi.objs r v hv]

/-- Keys that do not collide (C58), nor with files for C++. -/
structure GoodKey (L : String → Prop) (k : SKey) : Prop where
  name : GoodName L k.1
  sample : GoodSample L k.2.2
  cpp : ¬ "cpp".toList <:+ k.1.toList

theorem GoodKey.base_inj {L : String → Prop} (hL : GoodLabels L) {k k' : SKey} (h : GoodKey L k)
    (h' : GoodKey L k') (e : k.base = k'.base) : k = k' := by
  by_contra hne
  exact (C58_distinct_partial L hL k.1 k'.1 k.2.1 k'.2.1 k.2.2 k'.2.2 h.name h'.name h.sample
    h'.sample hne).1 e

theorem GoodKey.parts_inj {L : String → Prop} (hL : GoodLabels L) {k k' : SKey} (h : GoodKey L k)
    (h' : GoodKey L k') (e : k.base.parts = k'.base.parts) : k = k' := by
  by_contra hne
  exact (C58_distinct_partial L hL k.1 k'.1 k.2.1 k'.2.1 k.2.2 k'.2.2 h.name h'.name h.sample
    h'.sample hne).2 e

theorem GoodKey.getLast {L : String → Prop} (hL : GoodLabels L) {k : SKey} (h : GoodKey L k) :
    k.base.parts.getLast? = some (sampleName k.1 k.2.2) := by
  have hs := good_simple hL h.name h.sample
  obtain ⟨name, u, s⟩ := k
  cases u with
  | none =>
    change (splitPath (sampleName name s)).getLast? = _
    rw [hs.split]; rfl
  | some i =>
    change (baseName name (some i) s).parts.getLast? = _
    rw [baseName_update _ _ _ hs]; rfl

theorem GoodKey.sampleName_cpp {L : String → Prop} (hL : GoodLabels L) {k : SKey}
    (h : GoodKey L k) : ¬ "cpp".toList <:+ (sampleName k.1 k.2.2).toList := by
  obtain ⟨name, u, s⟩ := k
  have gen : ∀ p : String, ¬ "cpp".toList <:+ (p ++ "_" ++ name).toList := by
    intro p hp
    have h1 : '_' :: name.toList <:+ (p ++ "_" ++ name).toList := by
      simp only [String.toList_append, List.append_assoc]
      exact ⟨p.toList, rfl⟩
    rcases List.suffix_or_suffix_of_suffix hp h1 with h2 | h2
    · rcases List.suffix_cons_iff.mp h2 with h3 | h3
      · have : "cpp".toList = ['c', 'p', 'p'] := by decide
        rw [this] at h3
        simp at h3
      · exact h.cpp h3
    · have : '_' ∈ "cpp".toList := h2.subset (by simp)
      revert this; decide
  match s, h.sample with
  | none, _ => exact h.cpp
  | some (.int i), _ => exact gen _
  | some (.str l), hl =>
    simp only [sampleName, hL.ne l hl, ne_eq, not_false_eq_true, if_true]
    exact gen _

theorem separate_good {L : String → Prop} (hL : GoodLabels L) : Separate (GoodKey L) where
  parts k k' hk hk' e := by rw [hk.parts_inj hL hk' e]
  cpp k k' hk hk' e := by
    have h1 := hk.getLast hL
    rw [e, forCppParts, List.getLast?_concat, Option.some.injEq] at h1
    apply hk.sampleName_cpp hL
    rw [← h1, String.toList_append]
    exact List.IsSuffix.trans (by exact ⟨"_for_".toList, rfl⟩) (List.suffix_append _ _)

theorem told_id {L : String → Prop} (hL : GoodLabels L) (es : List (Event V))
    (hu : Uses (GoodKey L) es) (k : SKey) (hk : GoodKey L k) :
    told id es k = told SKey.base es k.base := by
  induction es with
  | nil => rfl
  | cons e es ih =>
    cases e with
    | tell r k' =>
      simp only [told, id]
      by_cases hkk : k = k'
      · rw [if_pos hkk, if_pos (by rw [hkk])]
      · rw [if_neg hkk, if_neg fun e => hkk (hk.base_inj hL hu.1 e)]
        exact ih hu.2
    | ask r v k' => exact ih hu.2
    | askFailed e k' => exact ih hu.2
    | create r v => exact ih hu
    | modify r v => exact ih hu

/-- C56 for the proper keys: name, update and sample. Works with or without directory (which has to
be empty at the start), for sessions of both classes. Keys are restricted to those that do not
collide (C58) and, because of the additional files for C++, names do not end with "cpp". Missing
compared to the full claim: directories with files of earlier sessions, see `C56_refuted`. -/
theorem C56_map_partial (L : String → Prop) (hL : GoodLabels L) (w0 : World V) (h0 : Fresh w0)
    (es : List (Event V)) (w : World V) (h : Run w0 es w) (hu : Uses (GoodKey L) es) :
    (∀ k, GoodKey L k → MapLike id es w k) ∧ ∀ r v, objVal es r = some v → w.deref r = .ok v := by
  have hi := run_inv (fun _ => separate_good hL) h0 hu h
  refine ⟨fun k hk => ?_, fun r v hv => ?_⟩
  · obtain ⟨h1, h2, h3⟩ := inv_map (fun _ => separate_good hL) hi hk
    have e := told_id hL es hu k hk
    exact ⟨fun v hv => h1 v (e ▸ hv), fun hn => h2 (e ▸ hn), by rw [h3]; exact congrArg _ e.symm⟩
  · unfold World.deref
    rw [hi.objs r v hv]

/-- C56, as claimed for any directory: what ask returns does not depend on what the client did with
the object returned by an earlier ask. -/
def C56_statement (V : Type) [Storable V] : Prop := ∀ (w w1 : World V) (k : SKey) (r : Nat)
  (v v' : V), World.ask k.1 k.2.1 k.2.2 w = (.ok r, w1) → w1.deref r = .ok v →
  (World.askValue k.1 k.2.1 k.2.2 { w1 with heap := w1.heap.set r v' }).1 = .ok v

/-- Objects for examples: numbers; even ones are arrays, odd ones others. -/
instance natStorable : Storable Nat where
  kind n := if n % 2 = 0 then .txt else .json
  reload := id
  ofNat n := 2 * n
  toNat n := some (n / 2)
  rows _ := none
  row _ := none

/-- C56 fails for objects read from a directory: the object in the cache is handed out itself. -/
theorem C56_refuted : ¬ C56_statement Nat := by
  intro h
  have := h ⟨1, true, false, [], none, [], [(⟨["a"], .txt⟩, 4)]⟩
    ⟨1, true, false, [(.str "a", 0)], none, [4], [(⟨["a"], .txt⟩, 4)]⟩ ("a", none, none) 0 4 6
    (by rfl) (by rfl)
  revert this
  decide

/-! ### C57 -/

/-- A sequence of tells (the first one first). -/
def tellAll (ts : List (V × SKey)) : PyM (World V) Unit :=
  ts.forM fun t => do
    let _ ← World.tell t.1 t.2.1 t.2.2.1 t.2.2.2

theorem tellAll_cons (t : V × SKey) (ts : List (V × SKey)) :
    tellAll (t :: ts) = (do
      let _ ← World.tell t.1 t.2.1 t.2.2.1 t.2.2.2
      tellAll ts) := by
  simp [tellAll]

theorem tellAll_append (ts ts' : List (V × SKey)) :
    tellAll (ts ++ ts') = (do tellAll ts; tellAll ts') := by
  induction ts with
  | nil => simp [tellAll]
  | cons t ts ih => rw [List.cons_append, tellAll_cons, ih, tellAll_cons]; simp only [bind_assoc]

/-- What is on disk after the tells `ts` (the latest first). -/
def OnDisk (L : String → Prop) (ts : List (V × SKey)) (w : World V) : Prop :=
  ∀ k, GoodKey L k → ∀ ext, w.read ⟨k.base.parts, ext⟩ =
    (latest id ts k).filter fun v => decide (Storable.kind v = ext)

/-- Tells for the same key are of the same kind. -/
def SameKind (ts : List (V × SKey)) : Prop :=
  ∀ t ∈ ts, ∀ t' ∈ ts, t.2 = t'.2 → (Storable.kind t.1 : Ext) = Storable.kind t'.1

theorem latest_mem {ts : List (V × SKey)} {k : SKey} {v : V} (h : latest id ts k = some v) :
    (v, k) ∈ ts := by
  induction ts with
  | nil => cases h
  | cons t ts ih =>
    obtain ⟨x, k'⟩ := t
    simp only [latest, id] at h
    by_cases hk : k = k'
    · rw [if_pos hk] at h; rw [hk, Option.some.inj h]; simp
    · rw [if_neg hk] at h; exact List.mem_cons_of_mem _ (ih h)

theorem onDisk_files {L : String → Prop} {ts : List (V × SKey)} {w w' : World V}
    (hf : w'.files = w.files) (h : OnDisk L ts w) : OnDisk L ts w' := by
  intro k hk ext
  rw [← h k hk ext]
  simp only [World.read, hf]

theorem read_of_files (files : List (File × V)) (w : World V) (hw : w.files = files) (f : File) :
    w.read f = files.lookup f := by rw [World.read, hw]

/-- Writing the file of a tell. -/
theorem onDisk_write {L : String → Prop} (hL : GoodLabels L) {ts : List (V × SKey)} {w w' : World V}
    (v : V) (k : SKey) (hk : GoodKey L k) (hs : SameKind ((v, k) :: ts)) (h : OnDisk L ts w)
    (hf : w'.files = (⟨k.base.parts, Storable.kind v⟩, v) :: w.files) :
    OnDisk L ((v, k) :: ts) w' := by
  intro k' hk' ext
  rw [read_of_files _ w' hf, List.lookup_cons]
  simp only [latest, id]
  by_cases hkk : k' = k
  · subst hkk
    rw [if_pos rfl]
    by_cases he : ext = Storable.kind v
    · subst he; simp [Option.filter_some]
    · have : ((⟨k'.base.parts, ext⟩ : File) == ⟨k'.base.parts, Storable.kind v⟩) = false := by
        simpa using he
      rw [this]
      have := h k' hk' ext
      change w.files.lookup _ = _ at this
      rw [this]
      cases hl : latest id ts k' with
      | none => simp [Option.filter_some, Ne.symm he]
      | some x =>
        have := hs (v, k') (by simp) (x, k') (List.mem_cons_of_mem _ (latest_mem hl)) rfl
        simp only at this
        simp [Option.filter_some, ← this, Ne.symm he]
  · rw [if_neg hkk]
    have : ((⟨k'.base.parts, ext⟩ : File) == ⟨k.base.parts, Storable.kind v⟩) = false := by
      simp only [beq_eq_false_iff_ne, ne_eq, File.mk.injEq, not_and]
      intro hp
      exact absurd (hk'.parts_inj hL hk hp) hkk
    rw [this]
    exact h k' hk' ext

/-- Writing a file that belongs to no good key. -/
theorem onDisk_extra {L : String → Prop} {ts : List (V × SKey)} {w w' : World V} (f : File) (v : V)
    (h : OnDisk L ts w) (hf : w'.files = (f, v) :: w.files)
    (hp : ∀ k, GoodKey L k → k.base.parts ≠ f.parts) : OnDisk L ts w' := by
  intro k' hk' ext
  rw [read_of_files _ w' hf, List.lookup_cons]
  have : ((⟨k'.base.parts, ext⟩ : File) == f) = false := by
    simp only [beq_eq_false_iff_ne, ne_eq]
    rintro rfl
    exact hp k' hk' rfl
  rw [this]
  exact h k' hk' ext

theorem tell_onDisk {L : String → Prop} (hL : GoodLabels L) {ts : List (V × SKey)} {w w' : World V}
    {v : V} {k : SKey} {f : Option File} (hk : GoodKey L k) (hd : w.hasDir = true)
    (hs : SameKind ((v, k) :: ts)) (hdmp : w.task = true → dmpIn k.1 = true → Storable.kind v = .json)
    (h : OnDisk L ts w) (ht : World.tell v k.1 k.2.1 k.2.2 w = (.ok f, w')) :
    OnDisk L ((v, k) :: ts) w' ∧ w'.hasDir = true ∧ w'.task = w.task := by
  by_cases hj : (w.task && dmpIn k.1 && w.hasDir) = true
  · rw [World.tell_dmp_apply hj] at ht
    have hj' := hj
    simp only [Bool.and_eq_true] at hj'
    have hkind := hdmp hj'.1.1 hj'.1.2
    by_cases hde : w.dirExists (baseName k.1 k.2.1 k.2.2).parts.dropLast = true
    · rw [if_pos hde] at ht
      have hw := (Prod.mk.inj ht).2
      refine ⟨?_, by rw [← hw]; exact hd, by rw [← hw]; rfl⟩
      let w1 : World V := { w with files := (⟨k.base.parts, .json⟩, v) :: w.files }
      let w2 : World V := { w with files := (⟨forCppParts k.base.parts, .json⟩, v) :: w1.files }
      have h1 : OnDisk L ((v, k) :: ts) w1 := onDisk_write hL v k hk hs h (by rw [hkind])
      have h2 : OnDisk L ((v, k) :: ts) w2 := onDisk_extra _ v h1 rfl fun k' hk' =>
        (separate_good hL).cpp k' k hk' hk
      have h3 : OnDisk L ((v, k) :: (v, k) :: ts) w' := by
        refine onDisk_write hL v k hk ?_ h2 ?_
        · intro t ht t' ht'
          refine hs t ?_ t' ?_
          · simp only [List.mem_cons, or_self_left] at ht ⊢; exact ht
          · simp only [List.mem_cons, or_self_left] at ht' ⊢; exact ht'
        · rw [← hw]
          change (if w.hasDir = true then _ else _) = _
          rw [if_pos hd]
          rfl
      intro k' hk' ext
      rw [h3 k' hk' ext]
      congr 1
      simp only [latest]
      split_ifs <;> rfl
    · rw [if_neg hde] at ht; cases (Prod.mk.inj ht).1
  · have hj' : (w.task && dmpIn k.1 && w.hasDir) = false := by simpa using hj
    rw [World.tell_apply hj'] at ht
    have hw := (Prod.mk.inj ht).2
    refine ⟨onDisk_write hL v k hk hs h ?_, by rw [← hw]; exact hd, by rw [← hw]; rfl⟩
    rw [← hw]
    change (if w.hasDir = true then _ else _) = _
    rw [if_pos hd]
    rfl

theorem tellAll_onDisk {L : String → Prop} (hL : GoodLabels L) (ts done : List (V × SKey))
    (w w' : World V) (hk : ∀ t ∈ ts, GoodKey L t.2) (hd : w.hasDir = true)
    (hs : SameKind (ts.reverse ++ done))
    (hdmp : w.task = true → ∀ t ∈ ts, dmpIn t.2.1 = true → Storable.kind t.1 = .json)
    (h : OnDisk L done w) (ht : tellAll ts w = (.ok (), w')) :
    OnDisk L (ts.reverse ++ done) w' ∧ w'.hasDir = true ∧ w'.task = w.task := by
  induction ts generalizing w done with
  | nil =>
    have : w' = w := (Prod.mk.inj ht).2.symm
    rw [this]; exact ⟨h, hd, rfl⟩
  | cons t ts ih =>
    rw [tellAll_cons] at ht
    rcases he : World.tell t.1 t.2.1 t.2.2.1 t.2.2.2 w with ⟨r, w1⟩
    cases r with
    | error e => rw [PyM.bind_error he] at ht; cases (Prod.mk.inj ht).1
    | ok f =>
      rw [PyM.bind_ok he] at ht
      obtain ⟨h1, h2, h3⟩ := tell_onDisk hL (hk t (by simp)) hd (ts := done) (v := t.1)
        (fun a ha b hb => hs a (by
          rcases List.mem_cons.mp ha with rfl | ha
          · simp
          · simp [ha]) b (by
          rcases List.mem_cons.mp hb with rfl | hb
          · simp
          · simp [hb])) (fun ht => hdmp ht t (by simp)) h he
      have := ih ((t.1, t.2) :: done) w1 (fun t ht => hk t (List.mem_cons_of_mem _ ht)) h2
        (by simpa using hs) (fun ht t' ht' => hdmp (h3 ▸ ht) t' (List.mem_cons_of_mem _ ht')) h1 ht
      simpa [h3] using this

/-- The key of the number of samples. -/
def nKey : SKey := ("n_samples_per_update", none, none)

theorem goodKey_n : GoodKey (· = "eval") nKey where
  name := goodName_of (c := 'n') (cs := "_samples_per_update".toList) (by rfl) (by decide) (by decide)
    (by decide) (by decide) (by decide)
  sample := trivial
  cpp := by decide

theorem load_filter {w : World V} {key : Key} {o : Option V}
    (h : ∀ ext, w.read ⟨key.parts, ext⟩ = o.filter fun v => decide (Storable.kind v = ext)) :
    w.load key = o.elim (.error .ioError) fun v => .ok (Storable.reload v) := by
  unfold World.load
  rw [h, h, h]
  cases o with
  | none => rfl
  | some v => cases hk : (Storable.kind v : Ext) <;> simp [Option.filter_some, hk]

/-- Keyword arguments of a session as tells. -/
def kwTells (kwargs : List (String × V)) : List (V × SKey) :=
  kwargs.map fun kw => (kw.2, (kw.1, none, none))

theorem init_apply (n : Nat) (hasDir task : Bool) (kwargs : List (String × V)) (w : World V) :
    World.init n hasDir task kwargs w =
      tellAll ((Storable.ofNat n, nKey) :: kwTells kwargs)
        { w with nSamples := n, hasDir, task, cache := [], lastUpdate := none } := by
  unfold World.init
  rw [PyM.modify_bind, tellAll_cons]
  congr 1
  refine congrArg _ (funext fun _ => ?_)
  simp only [tellAll, kwTells]
  induction kwargs with
  | nil => rfl
  | cons kw kws ih => simp only [List.forM_eq_forM, List.map_cons, List.forM_cons] at ih ⊢; rw [ih]

theorem init_nil (n : Nat) (hasDir task : Bool) (w : World V) :
    World.init n hasDir task [] w = (.ok (), World.afterTell
      { w with nSamples := n, hasDir, task, cache := [], lastUpdate := none }
      (Storable.ofNat n) nKey.base) := by
  have e3 := World.tell_apply (V := V) (name := nKey.1)
    (w := { w with nSamples := n, hasDir, task, cache := [], lastUpdate := none })
    (by simp [show dmpIn nKey.1 = false from by decide]) (Storable.ofNat n) none none
  rw [init_apply, show kwTells ([] : List (String × V)) = [] from rfl, tellAll_cons]
  exact (PyM.bind_ok e3).trans rfl

/-- C57: a session that is re-opened with `from_dir` after any sequence of tells in a directory that
was empty in the beginning returns for every key the value of the latest tell (as it can be read
from file), and raises IOError for keys that were never told. Missing compared to the full claim:
values of different kinds for the same key, see `C57_refuted`; colliding keys. -/
theorem C57_reopen_partial (L : String → Prop) (hL : GoodLabels L) (hn : GoodKey L nKey)
    (n : Nat) (task : Bool) (kwargs : List (String × V)) (ts : List (V × SKey)) (w0 w1 w2 : World V)
    (hf : w0.files = [])
    (hk : ∀ t ∈ kwTells kwargs ++ ts, GoodKey L t.2 ∧ t.2 ≠ nKey)
    (hs : SameKind (kwTells kwargs ++ ts))
    (hdmp : task = true → ∀ t ∈ kwTells kwargs ++ ts, dmpIn t.2.1 = true → Storable.kind t.1 = .json)
    (h1 : (do World.init n true task kwargs; tellAll ts) w0 = (.ok (), w1))
    (h2 : World.fromDir task w1 = (.ok (), w2)) (k : SKey) (hgk : GoodKey L k) (hnk : k ≠ nKey) :
    (∀ v, latest id (ts.reverse ++ (kwTells kwargs).reverse) k = some v →
      (World.askValue k.1 k.2.1 k.2.2 w2).1 = .ok (Storable.reload v)) ∧
    (latest id (ts.reverse ++ (kwTells kwargs).reverse) k = none →
      (World.ask k.1 k.2.1 k.2.2 w2).1 = .error .ioError) := by
  let ts' : List (V × SKey) := (Storable.ofNat n, nKey) :: (kwTells kwargs ++ ts)
  let wi : World V := { w0 with nSamples := n, hasDir := true, task, cache := [], lastUpdate := none }
  have e1 : tellAll ts' wi = (.ok (), w1) := by
    rw [← h1, show ts' = ((Storable.ofNat n, nKey) :: kwTells kwargs) ++ ts from rfl, tellAll_append]
    rw [PyM.bind_apply, PyM.bind_apply, init_apply]
  have hg : ∀ t ∈ ts', GoodKey L t.2 := by
    intro t ht
    rcases List.mem_cons.mp ht with rfl | ht
    · exact hn
    · exact (hk t ht).1
  have hs' : SameKind (ts'.reverse ++ []) := by
    intro t ht t' ht' he
    simp only [List.append_nil, List.mem_reverse] at ht ht'
    rcases List.mem_cons.mp ht with rfl | ht <;> rcases List.mem_cons.mp ht' with rfl | ht'
    · rfl
    · exact absurd he.symm (hk t' ht').2
    · exact absurd he (hk t ht).2
    · exact hs t ht t' ht' he
  obtain ⟨d1, d2, d3⟩ := tellAll_onDisk hL ts' [] wi w1 hg rfl hs' (fun ht t htm => by
      rcases List.mem_cons.mp htm with rfl | htm
      · intro hb; exact absurd hb (by rw [show dmpIn nKey.1 = false from by decide]; simp)
      · exact hdmp ht t htm)
    (fun k _ ext => by simp [World.read, wi, hf, latest]) e1
  -- the re-opened session
  have e2 : ∃ m : Nat, World.init m true task [] w1 = (.ok (), w2) := by
    unfold World.fromDir at h2
    rw [PyM.self_bind] at h2
    cases hr : w1.read ⟨["n_samples_per_update"], .txt⟩ with
    | none => rw [hr] at h2; cases (Prod.mk.inj h2).1
    | some x =>
      rw [hr] at h2
      cases hm : Storable.toNat (Storable.reload x) with
      | none => simp only [hm] at h2; cases (Prod.mk.inj h2).1
      | some m => simp only [hm] at h2; exact ⟨m, h2⟩
  obtain ⟨m, e2⟩ := e2
  rw [init_nil] at e2
  have e4 := (Prod.mk.inj e2).2.symm
  have hdir : w2.hasDir = true := by rw [e4]; rfl
  have hlook : w2.cache.lookup k.base = none := by
    rw [e4, World.lookup_afterTell, if_neg fun e => hnk (hgk.base_inj hL hn e)]
    rfl
  have hread : ∀ ext, w2.read ⟨k.base.parts, ext⟩ =
      (latest id (ts.reverse ++ (kwTells kwargs).reverse) k).filter fun v =>
        decide (Storable.kind v = ext) := by
    intro ext
    have : w2.read ⟨k.base.parts, ext⟩ = w1.read ⟨k.base.parts, ext⟩ := by
      rw [e4]
      unfold World.read World.afterTell
      simp only [if_true]
      rw [List.lookup_cons]
      have : ((⟨k.base.parts, ext⟩ : File) == ⟨nKey.base.parts, Storable.kind (Storable.ofNat m : V)⟩)
          = false := by
        simp only [beq_eq_false_iff_ne, ne_eq, File.mk.injEq, not_and]
        intro hp
        exact absurd (hgk.parts_inj hL hn hp) hnk
      rw [this]
    rw [this, d1 k hgk ext]
    congr 1
    have : ts'.reverse ++ [] = (ts.reverse ++ (kwTells kwargs).reverse) ++ [(Storable.ofNat n, nKey)] := by
      simp [ts']
    rw [this]
    generalize ts.reverse ++ (kwTells kwargs).reverse = l
    induction l with
    | nil => simp [latest, hnk]
    | cons t l ih => simp only [List.cons_append, latest]; rw [ih]
  have hload := load_filter hread
  refine ⟨fun v hv => ?_, fun hv => ?_⟩
  · rw [hv] at hload
    exact congrArg Prod.fst (World.askValue_dir hlook hdir hload)
  · rw [hv] at hload
    exact congrArg Prod.fst (World.ask_dir_missing hlook hdir hload)

/-- C57: `from_dir` succeeds and restores the number of samples per update. -/
theorem C57_opens (L : String → Prop) (hL : GoodLabels L) (hn : GoodKey L nKey)
    (n : Nat) (task : Bool) (kwargs : List (String × V)) (ts : List (V × SKey)) (w0 w1 : World V)
    (hf : w0.files = []) (hkind : Storable.kind (Storable.ofNat n : V) = .txt)
    (hint : Storable.toNat (Storable.reload (Storable.ofNat n : V)) = some n)
    (hk : ∀ t ∈ kwTells kwargs ++ ts, GoodKey L t.2 ∧ t.2 ≠ nKey)
    (hs : SameKind (kwTells kwargs ++ ts))
    (hdmp : task = true → ∀ t ∈ kwTells kwargs ++ ts, dmpIn t.2.1 = true → Storable.kind t.1 = .json)
    (h1 : (do World.init n true task kwargs; tellAll ts) w0 = (.ok (), w1)) :
    ∃ w2, World.fromDir task w1 = (.ok (), w2) ∧ w2.nSamples = n ∧ w2.hasDir = true ∧
      w2.task = task ∧
      (World.askValue nKey.1 nKey.2.1 nKey.2.2 w2).1 = .ok (Storable.ofNat n) := by
  let ts' : List (V × SKey) := (Storable.ofNat n, nKey) :: (kwTells kwargs ++ ts)
  let wi : World V := { w0 with nSamples := n, hasDir := true, task, cache := [], lastUpdate := none }
  have e1 : tellAll ts' wi = (.ok (), w1) := by
    rw [← h1, show ts' = ((Storable.ofNat n, nKey) :: kwTells kwargs) ++ ts from rfl, tellAll_append]
    rw [PyM.bind_apply, PyM.bind_apply, init_apply]
  have hg : ∀ t ∈ ts', GoodKey L t.2 := by
    intro t ht
    rcases List.mem_cons.mp ht with rfl | ht
    · exact hn
    · exact (hk t ht).1
  have hs' : SameKind (ts'.reverse ++ []) := by
    intro t ht t' ht' he
    simp only [List.append_nil, List.mem_reverse] at ht ht'
    rcases List.mem_cons.mp ht with rfl | ht <;> rcases List.mem_cons.mp ht' with rfl | ht'
    · rfl
    · exact absurd he.symm (hk t' ht').2
    · exact absurd he (hk t ht).2
    · exact hs t ht t' ht' he
  obtain ⟨d1, d2, d3⟩ := tellAll_onDisk hL ts' [] wi w1 hg rfl hs' (fun ht t htm => by
      rcases List.mem_cons.mp htm with rfl | htm
      · intro hb; exact absurd hb (by rw [show dmpIn nKey.1 = false from by decide]; simp)
      · exact hdmp ht t htm)
    (fun k _ ext => by simp [World.read, wi, hf, latest]) e1
  have hl : latest id (ts'.reverse ++ []) nKey = some (Storable.ofNat n : V) := by
    have : ts'.reverse ++ [] = (kwTells kwargs ++ ts).reverse ++ [(Storable.ofNat n, nKey)] := by
      simp [ts']
    rw [this]
    have hne : ∀ t ∈ (kwTells kwargs ++ ts).reverse, t.2 ≠ nKey := fun t ht =>
      (hk t (List.mem_reverse.mp ht)).2
    generalize (kwTells kwargs ++ ts).reverse = l at hne
    induction l with
    | nil => simp [latest]
    | cons t l ih =>
      simp only [List.cons_append, latest, id]
      rw [if_neg (Ne.symm (hne t (by simp)))]
      exact ih fun t ht => hne t (List.mem_cons_of_mem _ ht)
  have hr : w1.read ⟨["n_samples_per_update"], .txt⟩ = some (Storable.ofNat n) := by
    have h := d1 nKey hn .txt
    rw [hl] at h
    rw [show (["n_samples_per_update"] : List String) = nKey.base.parts from by decide, h,
      Option.filter_some, hkind]
    simp
  refine ⟨World.afterTell
      { w1 with nSamples := n, hasDir := true, task, cache := [], lastUpdate := none }
      (Storable.ofNat n) nKey.base, ?_, rfl, rfl, rfl, ?_⟩
  · unfold World.fromDir
    rw [PyM.self_bind, hr]
    simp only [hint]
    exact init_nil n true task w1
  · refine congrArg Prod.fst (World.askValue_cached (v := Storable.ofNat n) ?_)
    change World.cached _ nKey.base = _
    rw [World.cached_afterTell, if_pos rfl]
    intro key r h; cases h

/-- C57, as claimed: values of any kind. -/
def C57_statement (V : Type) [Storable V] : Prop :=
  ∀ (n : Nat) (ts : List (V × SKey)) (w0 w1 w2 : World V), w0.files = [] →
    (∀ t ∈ ts, GoodKey (· = "eval") t.2 ∧ t.2 ≠ nKey) →
    (do World.init n true false []; tellAll ts) w0 = (.ok (), w1) →
    World.fromDir false w1 = (.ok (), w2) → ∀ k v, latest id ts.reverse k = some v →
    (World.askValue k.1 k.2.1 k.2.2 w2).1 = .ok (Storable.reload v)

theorem goodKey_a : GoodKey (· = "eval") ("a", none, none) where
  name := goodName_of (c := 'a') (cs := []) (by rfl) (by decide) (by decide)
    (by decide) (by decide) (by decide)
  sample := trivial
  cpp := by decide

/-- C57 fails for values of different kinds: the json file of an object (here 1) is preferred over
the txt file of an array (here 2) told later. -/
theorem C57_refuted : ¬ C57_statement Nat := by
  intro h
  have := h 5 [(1, ("a", none, none)), (2, ("a", none, none))] ⟨0, false, false, [], none, [], []⟩ _ _
    rfl (by
      intro t ht
      simp only [List.mem_cons, List.not_mem_nil, or_false] at ht
      rcases ht with rfl | rfl <;> exact ⟨goodKey_a, by decide⟩) rfl rfl ("a", none, none) 2 rfl
  revert this
  decide

/-! ### The hypotheses are met -/

/-- A run in which an object is told, modified, and asked for. -/
example : ∃ w, Run (V := Nat) ⟨3, false, false, [], none, [], []⟩
    [.ask 2 7 ("a", some 1, some (.int 4)), .modify 0 9, .tell 0 ("a", some 1, some (.int 4)),
      .create 0 7] w ∧ MapLike SKey.base [.ask 2 7 ("a", some 1, some (.int 4)), .modify 0 9,
      .tell 0 ("a", some 1, some (.int 4)), .create 0 7] w ("a", some 1, some (.int 4)) := by
  have h : ∃ w, Run (V := Nat) ⟨3, false, false, [], none, [], []⟩
      [.ask 2 7 ("a", some 1, some (.int 4)), .modify 0 9, .tell 0 ("a", some 1, some (.int 4)),
        .create 0 7] w :=
    ⟨_, .ask _ _ _ _ _ _ (.modify _ _ _ _ (.tell _ _ _ _ _ _ _ (.create _ _ _ .nil) rfl rfl rfl) rfl)
      rfl rfl⟩
  obtain ⟨w, h⟩ := h
  exact ⟨w, h, (C56_cache_only _ rfl rfl _ w h).1 _⟩

/-- The same in an empty directory. -/
example : ∃ w, Run (V := Nat) ⟨3, true, true, [], none, [], []⟩
    [.ask 2 8 ("a", none, none), .tell 0 ("a", none, none), .create 0 8] w ∧
    Uses (GoodKey (· = "eval")) [.ask 2 8 ("a", none, none), .tell 0 ("a", none, none),
      (.create 0 8 : Event Nat)] :=
  ⟨_, .ask _ _ _ 2 _ _ (.tell _ _ _ _ _ _ _ (.create _ _ _ .nil) rfl rfl rfl) rfl rfl,
    goodKey_a, goodKey_a, trivial⟩

/-- Two tells for the same key and the number of samples, re-opened. -/
example : ∃ w1 w2 : World Nat, (do World.init 5 true false [("a", 4)]; tellAll [(6, ("a", none, none))])
    (⟨0, false, false, [], none, [], []⟩ : World Nat) = (.ok (), w1) ∧
    World.fromDir false w1 = (.ok (), w2) ∧
    SameKind (kwTells [("a", 4)] ++ [(6, ("a", none, none))]) ∧
    (World.askValue "a" none none w2).1 = .ok 6 :=
  ⟨_, _, rfl, rfl, by unfold SameKind; decide, by decide⟩

end Verif
