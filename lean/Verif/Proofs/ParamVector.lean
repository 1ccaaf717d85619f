import Verif.Model.Dmp
import Verif.Proofs.Vec
import Mathlib.Data.List.OfFn

/- Parameter vectors of function approximators. -/

set_option autoImplicit false

namespace Verif

noncomputable section

theorem flat_eq {r c : Nat} (a : Fin r → Fin c → ℝ) (h : 0 < c) :
    flat a = List.ofFn fun k : Fin (r * c) => a ⟨k / c, Nat.div_lt_of_lt_mul (k.2.trans_eq (mul_comm r c))⟩
      ⟨k % c, Nat.mod_lt _ h⟩ := by
  rw [List.ofFn_mul]
  unfold flat
  refine congrArg List.flatten (congrArg List.ofFn (funext fun i => congrArg List.ofFn (funext fun j => ?_)))
  congr 1
  · apply Fin.ext
    change (i : Nat) = (i * c + j) / c
    rw [mul_comm, Nat.mul_add_div h, Nat.div_eq_of_lt j.2, Nat.add_zero]
  · apply Fin.ext
    change (j : Nat) = (i * c + j) % c
    rw [mul_comm, Nat.mul_add_mod, Nat.mod_eq_of_lt j.2]

theorem length_flat {r c : Nat} (a : Fin r → Fin c → ℝ) : (flat a).length = r * c := by
  unfold flat
  rw [List.length_flatten, List.map_ofFn]
  have : (List.length ∘ fun i => List.ofFn (a i)) = fun _ : Fin r => c := by
    funext i; simp
  rw [this, List.sum_ofFn]
  simp

theorem reshaped_flat {r c : Nat} (a : Fin r → Fin c → ℝ) : reshaped (flat a) = a := by
  funext i j
  have h : 0 < c := Nat.lt_of_le_of_lt (Nat.zero_le _) j.2
  unfold reshaped
  rw [flat_eq a h]
  have hk : (i : Nat) * c + j < r * c := by
    calc (i : Nat) * c + j < i * c + c := by omega
      _ = (i + 1) * c := by ring
      _ ≤ r * c := Nat.mul_le_mul_right c i.2
  rw [List.getD_eq_getElem _ _ (by simpa using hk), List.getElem_ofFn]
  congr 1
  · apply Fin.ext
    change ((i : Nat) * c + j) / c = i
    rw [mul_comm, Nat.mul_add_div h, Nat.div_eq_of_lt j.2, Nat.add_zero]
  · apply Fin.ext
    change ((i : Nat) * c + j) % c = j
    rw [mul_comm, Nat.mul_add_mod, Nat.mod_eq_of_lt j.2]

theorem flat_reshaped {r c : Nat} {v : List ℝ} (h : v.length = r * c) :
    flat (reshaped v : Fin r → Fin c → ℝ) = v := by
  unfold flat reshaped
  have := List.ofFn_mul (m := r) (n := c) (fun k : Fin (r * c) => v.getD k 0)
  simp only at this
  rw [← this]
  apply List.ext_getElem
  · simp [h]
  · intro i h1 h2
    rw [List.getElem_ofFn, List.getD_eq_getElem _ _ h2]

theorem ofFn_getD {n : Nat} {v : List ℝ} (h : v.length = n) : (List.ofFn fun i : Fin n => v.getD i 0) = v := by
  subst h
  apply List.ext_getElem
  · simp
  · intro i h1 h2
    rw [List.getElem_ofFn, List.getD_eq_getElem _ _ h2]

theorem ofFn_getElem? {n : Nat} {v : List ℝ} (h : v.length = n) :
    (List.ofFn fun i : Fin n => v[(i : Nat)]?.getD 0) = v := by
  simpa using ofFn_getD h

theorem getD_ofFn {n : Nat} (a : Fin n → ℝ) : (fun i : Fin n => (List.ofFn a).getD i 0) = a := by
  funext i
  rw [List.getD_eq_getElem _ _ (by simp), List.getElem_ofFn]

namespace FaModel

variable {d : Nat}

theorem param_length {m : FaModel d} {s : String} {sh : List Nat} {v : List ℝ}
    (h : m.param s = some (.array sh v)) : v.length = sh.prod := by
  cases m <;> unfold param at h <;> simp only at h <;>
    (repeat' split at h) <;> first
      | (cases h; simp [length_flat])
      | (simp at h)
      | skip

theorem param_setParam_same {m : FaModel d} {s : String} {sh : List Nat} {v : List ℝ}
    (h : m.param s = some (.array sh v)) {w : List ℝ} (hw : w.length = sh.prod) :
    (m.setParam w s).param s = some (.array sh w) := by
  cases m <;> unfold param at h <;> simp only at h <;>
    (repeat' split at h) <;> first
      | (subst_vars; cases h; simp at hw; simp [setParam, param, flat_reshaped, hw]; done)
      | (subst_vars; cases h; simp at hw; simp [setParam, param]; exact ofFn_getElem? hw)
      | (simp at h; done)
      | skip

theorem param_setParam_ne (m : FaModel d) {s t : String} (h : t ≠ s) (w : List ℝ) :
    (m.setParam w s).param t = m.param t := by
  cases m <;> unfold setParam <;> simp only <;> (repeat' split) <;> first
    | rfl
    | (subst_vars; unfold param; simp only [h, if_false, ite_false]; done)
    | skip

theorem setParam_self {m : FaModel d} {s : String} {sh : List Nat} {v : List ℝ}
    (h : m.param s = some (.array sh v)) : m.setParam v s = m := by
  cases m <;> unfold param at h <;> simp only at h <;>
    (repeat' split at h) <;> first
      | (subst_vars; cases h; simp only [setParam, reshaped_flat, getD_ofFn]; simp; done)
      | (simp at h; done)
      | skip
  · subst_vars
    cases h
    rename_i m
    obtain ⟨⟨n, c, w⟩, mc, wt⟩ := m
    exact congrArg (fun c' => FaModel.gpr ⟨⟨n, c', w⟩, mc, wt⟩) (reshaped_flat c)
  · subst_vars
    cases h
    rename_i m _
    obtain ⟨⟨n, c, w⟩, mc, wt⟩ := m
    exact congrArg (fun c' => FaModel.gpr ⟨⟨n, c, c'⟩, mc, wt⟩) (reshaped_flat w)

end FaModel

namespace Fa

/-- Entries of an array-valued parameter. -/
def entries (fa : Fa) (label : String) : List ℝ :=
  match fa.param label with
  | some (.array _ v) => v
  | _ => []

/-- The parameters are arrays. -/
def Arrays (fa : Fa) (names : List String) : Prop := ∀ n ∈ names, ∃ sh v, fa.param n = some (.array sh v)

/-- The function approximator is untrained, or different array-valued parameters are selected. -/
def Selects (fa : Fa) : Prop :=
  fa.model.isSome = true → ∃ names, fa.selected = some names ∧ names.Nodup ∧ fa.Arrays names

variable {fa : Fa} {names : List String}

theorem param_length {n : String} {sh : List Nat} {v : List ℝ} (h : fa.param n = some (.array sh v)) :
    v.length = sh.prod := by
  unfold param at h
  cases e : fa.model with
  | none => rw [e] at h; simp only at h; split at h <;> simp at h
  | some m => rw [e] at h; exact FaModel.param_length h

theorem param_setParam_same {n : String} {sh : List Nat} {v w : List ℝ} (h : fa.param n = some (.array sh v))
    (hw : w.length = sh.prod) : (fa.setParam w n).param n = some (.array sh w) := by
  unfold param at h
  cases e : fa.model with
  | none => rw [e] at h; simp only at h; split at h <;> simp at h
  | some m =>
    rw [e] at h
    unfold setParam param
    rw [e]
    exact FaModel.param_setParam_same h hw

theorem param_setParam_ne (fa : Fa) {s t : String} (h : t ≠ s) (w : List ℝ) :
    (fa.setParam w s).param t = fa.param t := by
  unfold setParam param
  cases e : fa.model with
  | none => rfl
  | some m => exact FaModel.param_setParam_ne m.2 h w

theorem setParam_self {n : String} {sh : List Nat} {v : List ℝ} (h : fa.param n = some (.array sh v)) :
    fa.setParam v n = fa := by
  unfold param at h
  cases e : fa.model with
  | none => rw [e] at h; simp only at h; split at h <;> simp at h
  | some m =>
    rw [e] at h
    unfold setParam
    rw [e]
    simp only [Option.map_some]
    rw [FaModel.setParam_self h]
    cases fa
    cases e
    rfl

theorem mapM_flatten (h : fa.Arrays names) : names.mapM fa.flatten = .ok (names.map fa.entries) := by
  induction names with
  | nil => rfl
  | cons n names ih =>
    obtain ⟨sh, v, hv⟩ := h n (by simp)
    have e1 : fa.flatten n = .ok (fa.entries n) := by
      unfold flatten entries; rw [hv]
    rw [List.mapM_cons, e1, ih fun m hm => h m (by simp [hm])]
    rfl

theorem getParamVector_eq (ht : fa.model.isSome = true) (hs : fa.selected = some names) (h : fa.Arrays names) :
    fa.getParamVector = .ok (some (names.map fa.entries).flatten) := by
  unfold getParamVector
  rw [hs]
  obtain ⟨m, e⟩ := Option.isSome_iff_exists.mp ht
  rw [e]
  simp only
  rw [mapM_flatten h]
  rfl

theorem mapM_ok_of {α β : Type} {f : α → Except PyErr β} {g : α → β} {l : List α}
    (h : ∀ a ∈ l, f a = .ok (g a)) : l.mapM f = .ok (l.map g) := by
  induction l with
  | nil => rfl
  | cons a l ih =>
    rw [List.mapM_cons, h a (by simp), ih fun b hb => h b (by simp [hb])]
    rfl

theorem paramVectorSize_eq (hs : fa.selected = some names) (h : fa.Arrays names) :
    fa.paramVectorSize = .ok (names.map fa.entries).flatten.length := by
  unfold paramVectorSize
  rw [hs]
  simp only
  rw [mapM_ok_of (g := fun n => (fa.entries n).length) fun n hn => ?_]
  · change Except.ok _ = _
    rw [List.length_flatten, List.map_map]
    rfl
  · obtain ⟨sh, v, hv⟩ := h n hn
    unfold entries
    rw [hv, param_length hv]

theorem setLoop_eq (hn : names.Nodup) : ∀ {fa : Fa} {v : List ℝ}, fa.Arrays names →
    v.length = (names.map fa.entries).flatten.length →
    ∃ fa', setLoop v names fa = (.ok (), fa') ∧ fa'.params = fa.params ∧ fa'.selected = fa.selected ∧
      fa'.model.isSome = fa.model.isSome ∧ (∀ t, t ∉ names → fa'.param t = fa.param t) ∧
      (∀ t sh x, fa.param t = some (.array sh x) → ∃ x', fa'.param t = some (.array sh x')) ∧
      (names.map fa'.entries).flatten = v := by
  induction names with
  | nil =>
    intro fa v h hv
    refine ⟨fa, rfl, rfl, rfl, rfl, fun _ _ => rfl, fun t sh x h => ⟨x, h⟩, ?_⟩
    simp at hv
    simp [hv]
  | cons n names ih =>
    intro fa v h hv
    obtain ⟨sh, x, hx⟩ := h n (by simp)
    have hnn := List.nodup_cons.mp hn
    have hen : fa.entries n = x := by unfold entries; rw [hx]
    have hlx := param_length hx
    simp only [List.map_cons, List.flatten_cons, List.length_append, hen, hlx] at hv
    have hw : (v.take sh.prod).length = sh.prod := by rw [List.length_take]; omega
    have hsame := param_setParam_same hx hw
    have hne : ∀ t, t ≠ n → (fa.setParam (v.take sh.prod) n).param t = fa.param t :=
      fun t ht => param_setParam_ne fa ht _
    have hent : ∀ t, t ≠ n → (fa.setParam (v.take sh.prod) n).entries t = fa.entries t := by
      intro t ht; unfold entries; rw [hne t ht]
    have hne' : ∀ m ∈ names, m ≠ n := fun m hm e => hnn.1 (e ▸ hm)
    obtain ⟨fa', h1, h2, h3, h4, h5, h6, h7⟩ := ih hnn.2 (fa := fa.setParam (v.take sh.prod) n)
      (v := v.drop sh.prod)
      (fun m hm => by rw [hne m (hne' m hm)]; exact h m (by simp [hm]))
      (by
        rw [List.map_congr_left fun m hm => hent m (hne' m hm), List.length_drop]
        omega)
    refine ⟨fa', ?_, h2, h3, ?_, fun t ht => ?_, fun t sh' x' hx' => ?_, ?_⟩
    · unfold setLoop
      rw [PyM.self_bind, hx]
      simp only
      rw [PyM.modify_bind, h1]
    · rw [h4]; unfold setParam; simp
    · rw [List.mem_cons, not_or] at ht
      rw [h5 t ht.2, hne t ht.1]
    · by_cases e : t = n
      · subst e
        rw [hx] at hx'
        cases hx'
        exact h6 t sh _ hsame
      · exact h6 t sh' x' (by rw [hne t e]; exact hx')
    · rw [List.map_cons, List.flatten_cons, h7]
      have : fa'.entries n = v.take sh.prod := by
        unfold entries; rw [h5 n hnn.1, hsame]
      rw [this, List.take_append_drop]

theorem setLoop_self : ∀ {names : List String}, fa.Arrays names →
    setLoop (names.map fa.entries).flatten names fa = (.ok (), fa)
  | [], _ => rfl
  | n :: names, h => by
    obtain ⟨sh, x, hx⟩ := h n (by simp)
    have hen : fa.entries n = x := by unfold entries; rw [hx]
    have hlx := param_length hx
    unfold setLoop
    rw [PyM.self_bind, hx]
    simp only [List.map_cons, List.flatten_cons, hen]
    rw [PyM.modify_bind, List.take_left' hlx, List.drop_left' hlx, setParam_self hx]
    exact setLoop_self fun m hm => h m (by simp [hm])

theorem setLoop_frame : ∀ {names : List String} (fa : Fa) (v : List ℝ) {t : String}, t ∉ names →
    (setLoop v names fa).2.param t = fa.param t
  | [], _, _, _, _ => rfl
  | n :: names, fa, v, t, h => by
    rw [List.mem_cons, not_or] at h
    unfold setLoop
    rw [PyM.self_bind]
    cases e : fa.param n with
    | none => rfl
    | some p =>
      cases p with
      | array sh x =>
        simp only
        rw [PyM.modify_bind, setLoop_frame _ _ h.2, param_setParam_ne fa h.1]
      | scalar x => rfl
      | float x => rfl
      | none => rfl

/-- set_param_vector: effect. -/
theorem setParamVector_eq (ht : fa.model.isSome = true) (hs : fa.selected = some names) (hn : names.Nodup)
    (h : fa.Arrays names) {v : List ℝ} (hv : v.length = (names.map fa.entries).flatten.length) :
    ∃ fa', setParamVector v fa = (.ok (), fa') ∧ fa'.params = fa.params ∧ fa'.selected = some names ∧
      fa'.model.isSome = true ∧ (∀ t, t ∉ names → fa'.param t = fa.param t) ∧ fa'.Arrays names ∧
      (names.map fa'.entries).flatten = v := by
  obtain ⟨fa', h1, h2, h3, h4, h5, h6, h7⟩ := setLoop_eq hn h hv
  refine ⟨fa', ?_, h2, h3.trans hs, h4.trans ht, h5, fun n hn => ?_, h7⟩
  · unfold setParamVector
    rw [PyM.self_bind, if_neg (by cases e : fa.model <;> simp_all), paramVectorSize_eq hs h, PyM.lift_ok_bind,
      if_neg (not_not.mpr hv), hs]
    exact h1
  · obtain ⟨sh, x, hx⟩ := h n hn
    exact ⟨sh, h6 n sh x hx⟩

theorem setParamVector_self (ht : fa.model.isSome = true) (hs : fa.selected = some names)
    (h : fa.Arrays names) : setParamVector (names.map fa.entries).flatten fa = (.ok (), fa) := by
  unfold setParamVector
  rw [PyM.self_bind, if_neg (by cases e : fa.model <;> simp_all), paramVectorSize_eq hs h, PyM.lift_ok_bind,
    if_neg (not_not.mpr rfl), hs]
  exact setLoop_self h

/-- Parameters that are not selected keep their values, whatever happens. -/
theorem setParamVector_frame (fa : Fa) (v : List ℝ) {t : String} (ht : t ∉ fa.selected.getD []) :
    (setParamVector v fa).2.param t = fa.param t := by
  unfold setParamVector
  rw [PyM.self_bind]
  split
  · rfl
  · cases e : fa.paramVectorSize with
    | error x => rfl
    | ok n =>
      rw [PyM.lift_ok_bind]
      split
      · rfl
      · cases e2 : fa.selected with
        | none => rfl
        | some names =>
          rw [e2] at ht
          exact setLoop_frame fa v ht

end Fa

end

end Verif
