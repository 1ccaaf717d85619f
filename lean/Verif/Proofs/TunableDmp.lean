import Verif.Proofs.ParamOverwrite

/- Helper lemmas: setting the parameters of a Dmp again and again. -/

set_option autoImplicit false

namespace Verif

namespace Dmp

theorem setFas_twice {fas fas1 : List Fa} {v r : List ℝ} {w r' : List ℝ} (h : setFas v fas = (.ok r, fas1))
    {fas2 : List Fa} (h2 : setFas w fas = (.ok r', fas2)) : setFas w fas1 = (.ok r', fas2) := by
  have hb : fas.map Fa.blank = fas1.map Fa.blank := by
    have := blank_setFas fas v
    rw [h] at this
    exact this.symm
  obtain ⟨k1, k2⟩ := setFas_blank w hb
  rw [h2] at k1 k2
  exact Prod.ext k1.symm (k2 r' rfl).symm

/-- What set_param_vector does with a vector of the right size. -/
theorem setParamVector_split {s : Dmp} (w : s.Wf) (h : s.Selects) {n : Nat} (hn : s.paramVectorSize = .ok n)
    {v : List ℝ} (hv : v.length = n) : ∃ fas g, setFas v (s.fas.getD []) = (.ok g, fas) ∧
      (∀ fa ∈ fas, fa.Selects) ∧ ("goal" ∈ s.selected → g.length = s.dimY) ∧
      setParamVector v s = (.ok (), if "goal" ∈ s.selected then
        Dmp.aimed { s with fas := s.fas.map fun _ => fas } g else { s with fas := s.fas.map fun _ => fas }) := by
  rw [paramVectorSize_eq w h] at hn
  have hn := Except.ok.inj hn
  rw [List.length_append] at hn
  set k := ((s.fas.getD []).map Fa.values).flatten.length with hk
  obtain ⟨fas, h1, h2, h3, h4, h5⟩ := setParamVector_run w h (v := v.take k) (g := v.drop k)
    (by rw [List.length_take]; omega) (by rw [List.length_drop]; omega)
  rw [List.take_append_drop] at h1 h5
  refine ⟨fas, _, h1, h3, fun hg => ?_, h5⟩
  have : s.goalValues.length = s.dimY := by unfold goalValues; rw [if_pos hg]; exact w.yAttr
  rw [List.length_drop]
  omega

/-- Only the last vector matters. -/
theorem setParamVector_twice {s : Dmp} (w : s.Wf) (h : s.Selects) {n : Nat} (hn : s.paramVectorSize = .ok n)
    {v v' : List ℝ} (hv : v.length = n) (hv' : v'.length = n) {s1 : Dmp}
    (h1 : setParamVector v s = (.ok (), s1)) (w1 : s1.Wf) (hs1 : s1.Selects)
    (hn1 : s1.paramVectorSize = .ok n) : setParamVector v' s1 = setParamVector v' s := by
  obtain ⟨fas, g, a1, a2, a3, a4⟩ := setParamVector_split w h hn hv
  obtain ⟨fas', g', b1, b2, b3, b4⟩ := setParamVector_split w h hn hv'
  obtain ⟨fas'', g'', c1, c2, c3, c4⟩ := setParamVector_split w1 hs1 hn1 hv'
  rw [a4] at h1
  have h1 := (Prod.mk.inj h1).2
  have e1 : s1.fas = s.fas.map fun _ => fas := by rw [← h1]; split <;> rfl
  have e2 : s1.selected = s.selected := by rw [← h1]; split <;> rfl
  have ex : setFas v' (s1.fas.getD []) = (.ok g', fas') := by
    rw [e1]
    cases e : s.fas with
    | none =>
      rw [e] at a1 b1
      exact b1
    | some l =>
      rw [e] at a1 b1
      exact setFas_twice a1 b1
  rw [c1] at ex
  obtain ⟨e3, rfl⟩ := Prod.mk.inj ex
  cases e3
  rw [c4, b4, e2]
  have e4 : (s1.fas.map fun _ => fas'') = s.fas.map fun _ => fas'' := by
    rw [e1]
    cases s.fas <;> rfl
  rw [e4]
  by_cases hg : "goal" ∈ s.selected
  · simp only [if_pos hg] at h1 ⊢
    rw [← h1]
    exact congrArg _ (aimed_aimed { s with fas := s.fas.map fun _ => fas'' } g g')
  · simp only [if_neg hg] at h1 ⊢
    rw [← h1]

theorem selects_setParamVector {s : Dmp} (w : s.Wf) (h : s.Selects) {n : Nat} (hn : s.paramVectorSize = .ok n)
    {v : List ℝ} (hv : v.length = n) : Selects (setParamVector v s).2 := by
  obtain ⟨fas, g, a1, a2, a3, a4⟩ := setParamVector_split w h hn hv
  rw [a4]
  have : ∀ fa ∈ ((s.fas.map fun _ => fas).getD []), fa.Selects := by
    cases s.fas with
    | none => exact fun _ h => nomatch h
    | some l => exact a2
  simp only
  split <;> exact this

end Dmp

end Verif
