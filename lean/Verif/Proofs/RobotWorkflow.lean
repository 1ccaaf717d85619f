import Verif.Props.CppJson
import Verif.Props.StepByStepDmp

/- Helper lemmas: what stays as it is while the parameters of a Dmp are set again and again. -/

set_option autoImplicit false

namespace Verif

open Spec

namespace Fa

theorem wipe_iff {P : Fa → Prop} {names : List String}
    (h : ∀ (fa : Fa) (v : List ℝ), ∀ n ∈ names, (P (fa.setParam v n) ↔ P fa)) (fa : Fa) :
    P (wipe names fa) ↔ P fa := by
  induction names generalizing fa with
  | nil => rfl
  | cons n names ih =>
    rw [wipe_cons, ih (fun fa v m hm => h fa v m (List.mem_cons_of_mem _ hm)), h fa [] n List.mem_cons_self]

theorem trained_setParam (fa : Fa) (v : List ℝ) (n : String) :
    Cpp.Dmp.Trained (fa.setParam v n) ↔ Cpp.Dmp.Trained fa := by
  unfold Cpp.Dmp.Trained setParam
  match e : fa.model with
  | none => simp
  | some ⟨_, .wls _⟩ =>
    simp only [Option.map_some, FaModel.setParam]
    split_ifs <;> exact Iff.rfl
  | some ⟨_, .gpr _⟩ =>
    simp only [Option.map_some, FaModel.setParam]
    split_ifs <;> exact Iff.rfl
  | some ⟨_, .rbfn m⟩ =>
    simp only [Option.map_some, FaModel.setParam]
    split_ifs <;> exact Iff.rfl
  | some ⟨_, .lwr m⟩ =>
    simp only [Option.map_some, FaModel.setParam]
    split_ifs <;> exact Iff.rfl

theorem ownModel_setParam (fa : Fa) (v : List ℝ) (n : String) : OwnModel (fa.setParam v n) ↔ OwnModel fa := by
  unfold OwnModel setParam
  match e : fa.model with
  | none => simp
  | some ⟨_, .wls _⟩ =>
    simp only [Option.map_some, FaModel.setParam]
    cases fa.params <;> split_ifs <;> exact Iff.rfl
  | some ⟨_, .gpr _⟩ =>
    simp only [Option.map_some, FaModel.setParam]
    cases fa.params <;> split_ifs <;> exact Iff.rfl
  | some ⟨_, .rbfn m⟩ =>
    simp only [Option.map_some, FaModel.setParam]
    cases fa.params <;> split_ifs <;> exact Iff.rfl
  | some ⟨_, .lwr m⟩ =>
    simp only [Option.map_some, FaModel.setParam]
    cases fa.params <;> split_ifs <;> exact Iff.rfl

theorem smooth_setParam (fa : Fa) (v : List ℝ) {n : String} (hn : n ≠ "widths") :
    Cpp.Dmp.Smooth (fa.setParam v n) ↔ Cpp.Dmp.Smooth fa := by
  unfold Cpp.Dmp.Smooth setParam
  match e : fa.model with
  | none => simp
  | some ⟨_, .wls _⟩ =>
    simp only [Option.map_some, FaModel.setParam]
    split_ifs <;> exact Iff.rfl
  | some ⟨_, .gpr _⟩ =>
    simp only [Option.map_some, FaModel.setParam]
    split_ifs <;> exact Iff.rfl
  | some ⟨_, .rbfn m⟩ =>
    simp only [Option.map_some, FaModel.setParam]
    split_ifs <;> exact Iff.rfl
  | some ⟨_, .lwr m⟩ =>
    simp only [Option.map_some, FaModel.setParam]
    split_ifs <;> exact Iff.rfl

theorem trained_blank {fa fa' : Fa} (h : fa.blank = fa'.blank) : Cpp.Dmp.Trained fa ↔ Cpp.Dmp.Trained fa' := by
  have k : ∀ f : Fa, Cpp.Dmp.Trained f.blank ↔ Cpp.Dmp.Trained f :=
    fun f => wipe_iff (fun g v n _ => trained_setParam g v n) f
  rw [← k fa, h, k fa']

theorem ownModel_blank {fa fa' : Fa} (h : fa.blank = fa'.blank) : OwnModel fa ↔ OwnModel fa' := by
  have k : ∀ f : Fa, OwnModel f.blank ↔ OwnModel f := fun f => wipe_iff (fun g v n _ => ownModel_setParam g v n) f
  rw [← k fa, h, k fa']

theorem smooth_blank {fa fa' : Fa} (h : fa.blank = fa'.blank) (hw : "widths" ∉ fa.selected.getD []) :
    Cpp.Dmp.Smooth fa ↔ Cpp.Dmp.Smooth fa' := by
  have k : ∀ f : Fa, "widths" ∉ f.selected.getD [] → (Cpp.Dmp.Smooth f.blank ↔ Cpp.Dmp.Smooth f) :=
    fun f hf => wipe_iff (fun g v n hn => smooth_setParam g v (fun e => hf (e ▸ hn))) f
  rw [← k fa hw, h, k fa' (by rw [← (blank_eq h).1]; exact hw)]

end Fa

namespace Dmp

theorem Reachable.mono {G G' : ℝ → List ℝ → List ℝ → Options → Dmp → Prop} {A A' : Change → Prop} {d : Nat}
    (hG : ∀ t a b o s, G t a b o s → G' t a b o s) (hA : ∀ c, A c → A' c) {s : Dmp} (h : Reachable G A d s) :
    Reachable G' A' d s := by
  induction h with
  | init h hi ha ho hg => exact .init h hi ha ho (hG _ _ _ _ _ hg)
  | change _ c hc ih => exact .change ih c (hA c hc)
  | query _ c hc ih => exact .query ih c hc

theorem Reachable.valid {d : Nat} {s : Dmp} (h : Reachable Cpp.Dmp.Known Change.Forward d s) :
    Reachable DefaultLike Change.Valid d s := by
  refine h.mono (fun t a b o s hk e he => ?_) (fun c hc => ?_)
  · rw [hk.2.2.2.1] at he
    cases he
  · cases c <;> first | trivial | exact hc.1

/-- What the norm determines. -/
theorem norm_parts {s t : Dmp} (h : s.norm = t.norm) :
    s.yInit? = t.yInit? ∧ s.scaling = t.scaling ∧ s.amplitudes = t.amplitudes ∧ s.tsTrain = t.tsTrain ∧
    s.dimY = t.dimY ∧ s.tau = t.tau := by
  have f : ∀ s : Dmp, s.norm.yInit? = s.yInit? ∧
      s.norm.scaling = s.scaling ∧ s.norm.amplitudes = s.amplitudes ∧ s.norm.tsTrain = s.tsTrain ∧
      s.norm.dimY = s.dimY ∧ s.norm.tau = s.tau := by
    intro s
    unfold norm blank
    split_ifs <;> exact ⟨rfl, rfl, rfl, rfl, rfl, rfl⟩
  obtain ⟨a2, a3, a4, a5, a6, a7⟩ := f s
  obtain ⟨b2, b3, b4, b5, b6, b7⟩ := f t
  rw [h] at a2 a3 a4 a5 a6 a7
  exact ⟨a2.symm.trans b2, a3.symm.trans b3, a4.symm.trans b4, a5.symm.trans b5, a6.symm.trans b6,
    a7.symm.trans b7⟩

theorem norm_damping {s t : Dmp} (h : s.norm = t.norm) (hs : s.damping = none) (ht : t.damping = none) :
    s.spring.damping = t.spring.damping := by
  have f : ∀ s : Dmp, s.damping = none → s.norm.spring.damping = s.spring.damping := by
    intro s hs
    have e : ∀ u : Dmp, u.damping = none → u.core.spring.damping = u.spring.damping ∧ u.core.damping = none := by
      intro u hu
      unfold core
      rw [hu]
      exact ⟨rfl, rfl⟩
    unfold norm blank
    split_ifs
    · exact (e _ (e s hs).2).1.trans (e s hs).1
    · exact (e _ (e s hs).2).1.trans (e s hs).1
  rw [← f s hs, h, f t ht]

theorem norm_fa {s t : Dmp} (h : s.norm = t.norm) {l : List Fa} (hl : t.fas = some l) {i : Nat} {fa : Fa}
    (hi : l[i]? = some fa) : ∃ l' fa', s.fas = some l' ∧ l'[i]? = some fa' ∧ fa'.blank = fa.blank := by
  have h2 := (norm_eq h).2.1
  rw [hl] at h2
  cases e : s.fas with
  | none => rw [e] at h2; cases h2
  | some l' =>
    rw [e] at h2
    have h2 := Option.some.inj h2
    have h3 := congrArg (fun k : List Fa => k[i]?) h2
    simp only [List.getElem?_map, hi, Option.map_some] at h3
    cases e' : l'[i]? with
    | none => rw [e'] at h3; cases h3
    | some fa' =>
      rw [e'] at h3
      exact ⟨l', fa', rfl, e', Option.some.inj h3⟩

theorem prepared_norm {s t : Dmp} (h : s.norm = t.norm) (ds : s.damping = none) (dt : t.damping = none)
    (hs : Cpp.Dmp.Prepared s) : Cpp.Dmp.Prepared t := by
  obtain ⟨h2, h3, h4, -, h6, -⟩ := norm_parts h
  have h1 := norm_damping h ds dt
  refine ⟨by rw [← h1]; exact hs.damping, by rw [← h2]; exact hs.yInit, fun i hi => ?_, ?_⟩
  · obtain ⟨l, fa, e1, e2, e3⟩ := hs.fas i (by rw [h6]; exact hi)
    obtain ⟨l', fa', e4, e5, e6⟩ := norm_fa h.symm e1 e2
    exact ⟨l', fa', e4, e5, (Fa.trained_blank e6).mpr e3⟩
  · rw [← h3, ← h4, ← h6]
    exact hs.amplitudes

theorem ownModel_norm {s t : Dmp} (h : s.norm = t.norm) (hs : ∀ l, s.fas = some l → ∀ fa ∈ l, OwnModel fa) :
    ∀ l, t.fas = some l → ∀ fa ∈ l, OwnModel fa := by
  intro l hl fa hfa
  obtain ⟨i, hi⟩ := List.mem_iff_getElem?.mp hfa
  obtain ⟨l', fa', e1, e2, e3⟩ := norm_fa h hl hi
  exact (Fa.ownModel_blank e3).mp (hs l' e1 fa' (List.mem_of_getElem? e2))

theorem smooth_norm {s t : Dmp} (h : s.norm = t.norm)
    (hs : ∀ l, s.fas = some l → ∀ fa ∈ l, Cpp.Dmp.Smooth fa ∧ "widths" ∉ fa.selected.getD []) :
    ∀ l, t.fas = some l → ∀ fa ∈ l, Cpp.Dmp.Smooth fa := by
  intro l hl fa hfa
  obtain ⟨i, hi⟩ := List.mem_iff_getElem?.mp hfa
  obtain ⟨l', fa', e1, e2, e3⟩ := norm_fa h hl hi
  obtain ⟨k1, k2⟩ := hs l' e1 fa' (List.mem_of_getElem? e2)
  exact (Fa.smooth_blank e3 k2).mp k1

end Dmp

end Verif
