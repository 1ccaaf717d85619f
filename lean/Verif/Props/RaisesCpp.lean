import Verif.Props.RaisesFa
import Verif.Model.CppDmp
import Verif.Model.CppTrajectory

/-
C88 for C++: which calls violate which assertions (or throw, use NULL, or divide by 0).
-/

noncomputable section

set_option autoImplicit false

namespace Verif.Cpp

/-! ### Dynamical systems -/

/-- C88 in C++: the setters reject vectors of other sizes with an assertion, and accept all others. -/
theorem C88_setters (y : List ℝ) (b : Base) (e : Exponential) (sp : Spring) (sg : Sigmoid) :
    (Base.setXInit y b = .error .assertion ↔ y.length ≠ b.dimX) ∧
    (Base.setYInit y b = .error .assertion ↔ (y.length ≠ b.dimY ∨ b.dimX < b.dimY)) ∧
    (e.setXAttr y = .error .assertion ↔ y.length ≠ e.dimX) ∧
    (e.setXInit y = .error .assertion ↔ y.length ≠ e.dimX) ∧
    (sp.setYAttr y = .error .assertion ↔ y.length ≠ sp.dimX / 2) ∧
    (sg.setXInit y = .error .assertion ↔ y.length ≠ sg.dimX) := by
  have hx : ∀ b : Base, y.length ≠ b.dimX → Base.setXInit y b = .error .assertion := fun b h => if_pos h
  have hx' : ∀ b : Base, y.length = b.dimX → Base.setXInit y b = .ok { b with xInit := y } :=
    fun b h => if_neg (not_not.mpr h)
  refine ⟨⟨fun h h1 => ?_, hx b⟩, ?_, ?_, ⟨fun h h1 => ?_, fun h => ?_⟩, ?_, ⟨fun h h1 => ?_, fun h => ?_⟩⟩
  · rw [hx' b h1] at h
    cases h
  · unfold Base.setYInit
    split_ifs with h1 h2 h3
    · exact iff_of_true rfl (.inl h1)
    · exact iff_of_false (by simp) (by omega)
    · exact iff_of_true rfl (.inr h3)
    · exact iff_of_false (by simp) (by omega)
  · unfold Exponential.setXAttr
    split_ifs with h1
    · exact iff_of_true rfl h1
    · exact iff_of_false (by simp) h1
  · unfold Exponential.setXInit at h
    rw [hx' _ h1] at h
    cases h
  · unfold Exponential.setXInit
    rw [hx _ h]
    rfl
  · unfold Spring.setYAttr
    split_ifs with h1
    · exact iff_of_true rfl h1
    · exact iff_of_false (by simp) h1
  · unfold Sigmoid.setXInit at h
    rw [hx' _ h1] at h
    cases h
  · unfold Sigmoid.setXInit
    rw [hx _ h]
    rfl

/-- C88 in C++: only systems of order 1 and 2 are constructed. -/
theorem C88_order (order : Nat) (tau : ℝ) (y : List ℝ) :
    Base.ofOrder order tau y = .error .assertion ↔ order ≠ 1 ∧ order ≠ 2 := by
  unfold Base.ofOrder
  by_cases h : order = 1 ∨ order = 2
  · rw [if_pos h]
    refine iff_of_false (fun h2 => ?_) (by omega)
    have := ((C88_setters y { tau := tau, dimX := y.length * order, dimY := y.length, xInit := [] }
      ⟨⟨0, 0, 0, []⟩, [], 0⟩ ⟨⟨0, 0, 0, []⟩, [], 0, 0, 0⟩ ⟨⟨0, 0, 0, []⟩, 0, 0, []⟩).2.1).mp h2
    rcases this with h3 | h3
    · exact h3 rfl
    · rcases h with rfl | rfl
      · simp at h3
      · simp at h3
        omega
  · rw [if_neg h]
    exact iff_of_true rfl (by omega)

/-- C88 in C++: states of the wrong size. -/
theorem C88_states (x : List ℝ) (e : Exponential) (t : TimeSystem) (sp : Spring) (sg : Sigmoid) :
    (e.diffEq x = .error .assertion ↔ x.length ≠ e.xAttr.length) ∧
    (t.diffEq x = .error .assertion ↔ x = []) ∧
    (sp.diffEq x = .error .assertion ↔
      (x.length < 2 * (sp.dimX / 2) ∨ sp.yAttr.length ≠ sp.dimX / 2)) ∧
    (sg.diffEq x = .error .assertion ↔ x.length ≠ sg.ks.length) := by
  refine ⟨?_, ?_, ?_, ?_⟩
  · unfold Exponential.diffEq
    split_ifs with h
    · exact iff_of_true rfl (Ne.symm h)
    · exact iff_of_false (by simp) (fun h2 => h (Ne.symm h2))
  · cases x with
    | nil => exact iff_of_true rfl rfl
    | cons a l => exact iff_of_false (by simp [TimeSystem.diffEq]) (by simp)
  · unfold Spring.diffEq
    simp only
    split_ifs with h1 h2
    · exact iff_of_true rfl (.inl (by omega))
    · exact iff_of_true rfl (.inr h2)
    · exact iff_of_false (by simp) (by omega)
  · unfold Sigmoid.diffEq
    split_ifs with h
    · exact iff_of_true rfl h
    · exact iff_of_false (by simp) h

/-- C88 in C++: the analytical solutions are rejected if the attractor does not have the size of the state
(springs accept attractors that are too long). -/
theorem C88_solutions (ts : List ℝ) (e : Exponential) (sp : Spring) :
    (e.analytical ts = .error .assertion ↔ e.xAttr.length ≠ e.xInit.length) ∧
    (sp.analytical ts = .error .assertion ↔ sp.yAttr.length < sp.dimY) := by
  refine ⟨?_, ?_⟩
  · unfold Exponential.analytical
    split_ifs with h
    · exact iff_of_true rfl (Ne.symm h)
    · exact iff_of_false (by simp) (fun h2 => h (Ne.symm h2))
  · unfold Spring.analytical
    split_ifs with h
    · exact iff_of_true rfl h
    · exact iff_of_false (by simp) h

/-- C88 in C++: integration steps need a positive duration and a state of the right size. -/
theorem C88_steps {σ : Type} [System σ] (k : DynSys.Method) (dt : ℝ) (x : List ℝ) (s : σ)
    (h : dt ≤ 0 ∨ x.length ≠ (System.base s).dimX) : step k dt x s = .error .assertion := by
  cases k with
  | rungeKutta =>
    unfold step System.rungeKuttaStep
    by_cases h1 : dt ≤ 0
    · simp only [if_pos h1]
      rfl
    · simp only [if_neg h1, if_pos (h.resolve_left h1)]
      rfl
  | euler =>
    unfold step System.eulerStep
    by_cases h1 : dt ≤ 0
    · simp only [if_pos h1]
      rfl
    · simp only [if_neg h1, if_pos (h.resolve_left h1)]
      rfl

/-- C88 in C++: an integration without times violates an assertion. -/
theorem C88_no_times {σ : Type} [System σ] (k : DynSys.Method) (s : σ) (r : (List ℝ × List ℝ) × σ)
    (h : System.integrateStart s = .ok r) : run k [] s = .error .assertion := by
  unfold run
  rw [h]
  rfl

/-! ### Files written by Python -/

/-- C88 in C++: an array in place of a number throws. -/
theorem C88_numbers (p : Par ℝ) :
    readDouble p = .error .json ↔ ∃ a, p = .array a := by
  cases p with
  | scalar c => exact iff_of_false (by simp [readDouble]) (by simp)
  | array a => exact iff_of_true rfl ⟨a, rfl⟩

/-- C88 in C++: systems whose parameters are arrays are not read. -/
theorem C88_read_arrays (e : Verif.Exponential) (sp : SpringDamper) (sg : Verif.Sigmoid) (a : List ℝ) :
    (e.alpha = .array a → readExponential e = .error .json) ∧
    (sp.damping = .array a → readSpring sp = .error .json) ∧
    (∀ c, sp.damping = .scalar c → sp.spring = .array a → readSpring sp = .error .json) ∧
    (∀ c c', sp.damping = .scalar c → sp.spring = .scalar c' → sp.mass = .array a →
      readSpring sp = .error .json) ∧
    (sg.maxRate = .array a → readSigmoid sg = .error .json) ∧
    (∀ c, sg.maxRate = .scalar c → sg.inflRatio = .array a → readSigmoid sg = .error .json) := by
  refine ⟨fun h => ?_, fun h => ?_, fun c h h2 => ?_, fun c c' h h2 h3 => ?_, fun h => ?_, fun c h h2 => ?_⟩
  · unfold readExponential
    rw [h]
    rfl
  · unfold readSpring
    rw [h]
    rfl
  · unfold readSpring
    rw [h, h2]
    rfl
  · unfold readSpring
    rw [h, h2, h3]
    rfl
  · unfold readSigmoid
    rw [h]
    rfl
  · unfold readSigmoid
    rw [h, h2]
    rfl

/-- C88 in C++: a spring system with fewer initial values than attractors is not read. -/
theorem C88_read_spring (sp : SpringDamper) (c k m : ℝ) (h1 : sp.damping = .scalar c)
    (h2 : sp.spring = .scalar k) (h3 : sp.mass = .scalar m) (h : sp.xInit.length < sp.yAttr.length) :
    readSpring sp = .error .assertion := by
  unfold readSpring
  rw [h1, h2, h3]
  simp only [readDouble]
  have e : ∀ {α β : Type} (x : α) (f : α → CppResult β), ((Except.ok x : CppResult α) >>= f) = f x :=
    fun _ _ => rfl
  rw [e, e, e, if_pos h]
  rfl

/-- C88 in C++: function approximators that are not trained are not read (radial basis functions and locally
weighted regression: assertion); for the classes that C++ does not have the result is NULL. -/
theorem C88_read_untrained (fa : Fa) (h : fa.model = none) :
    (readFa fa = .error .assertion ↔ ((∃ a b c, fa.params = .rbfn a b c) ∨
      ∃ a b c, fa.params = .lwr a b c)) ∧
    (readFa fa = .ok none ↔ ((∃ a b, fa.params = .wls a b) ∨ ∃ a b, fa.params = .gpr a b)) := by
  unfold readFa
  rw [h]
  cases fa.params <;> simp [pure, Except.pure]

/-- C88 in C++: trained function approximators are read if there are basis functions, with one weight (for
locally weighted regression: one line) each, and violate an assertion otherwise. -/
theorem C88_read_trained {d : Nat} (m : RbfnModel d) (l : LwrModel d) :
    (readRbfn m = .error .assertion ↔ ¬(0 < m.kernels.n ∧ m.rows = m.kernels.n ∧ m.cols = 1)) ∧
    (readLwr l = .error .assertion ↔ ¬(0 < l.kernels.n ∧ l.lines = l.kernels.n)) := by
  constructor
  · unfold readRbfn
    split_ifs with h1 h2
    · exact iff_of_true rfl (by omega)
    · exact iff_of_false (by simp) (by omega)
    · exact iff_of_true rfl (by omega)
  · unfold readLwr
    split_ifs with h1 h2
    · exact iff_of_true rfl (by omega)
    · exact iff_of_false (by simp) (by omega)
    · exact iff_of_true rfl (by omega)

/-- C88 in C++: inputs with another number of columns violate an assertion. -/
theorem C88_predict {N d : Nat} (inputs : Fin N → Fin d → ℝ) (input : Fin d → ℝ) (r : Rbfn) (l : Lwr) :
    (r.d ≠ d → (AnyFa.rbfn r).predict inputs = .error .assertion ∧
      (AnyFa.rbfn r).predictRealTime input = .error .assertion) ∧
    (l.d ≠ d → (AnyFa.lwr l).predict inputs = .error .assertion ∧
      (AnyFa.lwr l).predictRealTime input = .error .assertion) :=
  ⟨fun h => ⟨dif_neg h, dif_neg h⟩, fun h => ⟨dif_neg h, dif_neg h⟩⟩

/-! ### Dmp -/

namespace Dmp

theorem then_ok {α β : Type} {m : CppResult α} {x : α} (h : m = .ok x) (f : α → CppResult β) :
    (m >>= f) = f x := by rw [h]; rfl

theorem then_error {α β : Type} {m : CppResult α} {e : CppErr} (h : m = .error e) (f : α → CppResult β) :
    (m >>= f) = .error e := by rw [h]; rfl

/-- C88 in C++: only goal systems of class ExponentialSystem are read; all others throw. -/
theorem C88_read_goal (g : Option Sub) (h : ∀ e, g ≠ some (.exponential e)) : readGoal g = .error .json := by
  unfold readGoal
  split
  · exact absurd rfl (h _)
  · rfl

/-- C88 in C++: fewer function approximators than dimensions throw (if all those that are there can be
read). -/
theorem C88_read_few (n : Nat) (fas : List Fa) (h : fas.length < n)
    (hr : ∀ fa ∈ fas, ∃ a, readFa fa = .ok a) : readFas n (some fas) = .error .json := by
  unfold readFas
  simp only
  have key : ∀ (l : List Nat) (k : Nat), (∀ i ∈ l, i < fas.length) → fas.length ≤ k → ∀ rest,
      (l ++ k :: rest).mapM (fun i => match fas[i]? with
        | none => (.error .json : CppResult (Option AnyFa))
        | some fa => readFa fa) = .error .json := by
    intro l
    induction l with
    | nil =>
      intro k _ hk rest
      rw [List.nil_append, List.mapM_cons]
      refine then_error ?_ _
      simp only [List.getElem?_eq_none hk]
    | cons a l ih =>
      intro k hl hk rest
      have ha := hl a (List.mem_cons_self ..)
      obtain ⟨b, hb⟩ := hr fas[a] (List.getElem_mem ha)
      rw [List.cons_append, List.mapM_cons]
      rw [then_ok (x := b) (by simp only [List.getElem?_eq_getElem ha, hb])]
      exact then_error (ih k (fun i hi => hl i (List.mem_cons_of_mem _ hi)) hk rest) _
  have hsplit : List.range n = List.range fas.length ++ fas.length ::
      (List.range (n - fas.length - 1)).map (fas.length + 1 + ·) := by
    have e : n = fas.length + 1 + (n - fas.length - 1) := by omega
    rw [e, List.range_add, List.range_succ, List.append_assoc, List.singleton_append]
    rw [show fas.length + 1 + (n - fas.length - 1) - fas.length - 1 = n - fas.length - 1 by omega]
  rw [hsplit]
  exact key _ _ (fun i hi => List.mem_range.mp hi) (le_refl _) _

/-- C88 in C++: a Dmp without phase or gating system (its class does not exist in C++) uses a NULL pointer when
the duration is changed, and in the analytical solution. -/
theorem C88_null (s : Dmp) (tau t : ℝ) (ts : List ℝ) (h : s.phase = none) :
    s.setTau tau = .error .null ∧ s.analytical (t :: ts) = .error .null := by
  refine ⟨?_, ?_⟩
  · unfold setTau
    rw [h]
    rfl
  · unfold analytical
    simp only [List.length_cons, Nat.succ_ne_zero, if_false, h]
    rfl

/-- C88 in C++: the same without gating system. -/
theorem C88_null_gating (s : Dmp) (tau t : ℝ) (ts : List ℝ) (p : AnySystem) (r : List (List ℝ) × List (List ℝ))
    (hp : s.phase = some p) (hr : p.analytical (t :: ts) = .ok r) (h : s.gating = none) :
    s.setTau tau = .error .null ∧ s.analytical (t :: ts) = .error .null := by
  refine ⟨?_, ?_⟩
  · unfold setTau
    rw [hp, h]
    rfl
  · unfold analytical
    simp only [List.length_cons, Nat.succ_ne_zero, if_false, h, hp, deref]
    rw [then_ok rfl, then_ok hr]
    rfl

/-- C88 in C++: the analytical solution without times violates an assertion, and so does the integration. -/
theorem C88_no_times (s : Dmp) :
    s.analytical [] = .error .assertion ∧
    (∀ r, s.integrateStart = .ok r → s.run [] = .error .assertion) := by
  refine ⟨rfl, fun r h => ?_⟩
  unfold run
  rw [h]
  rfl

/-- C88 in C++: the forcing term is scaled with one factor per dimension, other numbers of factors violate an
assertion. -/
theorem C88_scaling (s : Dmp) (f : List ℝ) :
    (s.scaling = .gMinusY0 → (s.scaleForcing f = .error .assertion ↔ s.yAttr.length ≠ s.yInit.length)) ∧
    (s.scaling = .amplitude → (s.scaleForcing f = .error .assertion ↔ f.length ≠ s.amplitudes.length)) ∧
    (s.scaling = .noScaling → s.scaleForcing f = .ok f) := by
  refine ⟨fun h => ?_, fun h => ?_, fun h => ?_⟩
  · unfold scaleForcing
    rw [h]
    simp only
    split_ifs with h1
    · exact iff_of_true rfl h1
    · exact iff_of_false (by simp) h1
  · unfold scaleForcing
    rw [h]
    simp only
    split_ifs with h1
    · exact iff_of_true rfl h1
    · exact iff_of_false (by simp) h1
  · unfold scaleForcing
    rw [h]

/-- C88 in C++: what the constructor asserts: the goal system has as many dimensions as the Dmp, amplitudes
(if they are used) and function approximators (if there are any) are as many as dimensions. -/
theorem C88_make (tau : ℝ) (yInit yAttr : List ℝ) (fas : List (Option AnyFa)) (alpha : ℝ)
    (goal : Option Exponential) (phase gating : Option AnySystem) (scaling : ForcingScaling)
    (amplitudes : List ℝ)
    (h : (∃ g, goal = some g ∧ g.dimX ≠ yInit.length) ∨
      (scaling = .amplitude ∧ amplitudes.length ≠ yInit.length) ∨
      (fas ≠ [] ∧ fas.length ≠ yInit.length)) :
    make tau yInit yAttr fas alpha goal phase gating scaling amplitudes = .error .assertion := by
  have hb : Base.ofDims tau yInit (3 * yInit.length + 2) = 
      .ok ⟨tau, 3 * yInit.length + 2, yInit.length,
        yInit ++ vzeros (3 * yInit.length + 2 - yInit.length)⟩ := by
    unfold Base.ofDims Base.setYInit
    simp only [ne_eq, not_true_eq_false, if_false]
    rw [if_neg (by omega), if_neg (by omega)]
  unfold make
  rw [then_ok hb]
  unfold build
  simp only [List.take_left]
  have hs : ∃ sp, Spring.make tau yInit yAttr alpha = .ok sp := by
    unfold Spring.make
    have : ∃ b, Base.ofOrder 2 tau yInit = .ok b := by
      unfold Base.ofOrder Base.setYInit
      simp only [or_true, if_true, ne_eq, not_true_eq_false, if_false]
      split_ifs
      · exact ⟨_, rfl⟩
      · omega
      · exact ⟨_, rfl⟩
    obtain ⟨b, hb⟩ := this
    rw [then_ok hb]
    exact ⟨_, rfl⟩
  obtain ⟨sp, hsp⟩ := hs
  rw [then_ok hsp]
  by_cases hg : ∃ g, goal = some g ∧ g.dimX ≠ yInit.length
  · obtain ⟨g, rfl, hg⟩ := hg
    simp only [if_pos hg]
    rfl
  · have h2 := h.resolve_left hg
    have hrest : ∀ r : CppResult Dmp,
        (if scaling = .amplitude ∧ amplitudes.length ≠ yInit.length then (do throw .assertion; r)
        else if fas.length ≠ 0 ∧ yInit.length ≠ fas.length then (do throw .assertion; r)
        else r) = .error .assertion := fun r => by
      by_cases h3 : scaling = .amplitude ∧ amplitudes.length ≠ yInit.length
      · rw [if_pos h3]
        rfl
      · have h4 := h2.resolve_left h3
        rw [if_neg h3, if_pos ⟨fun h => h4.1 (List.eq_nil_of_length_eq_zero h), Ne.symm h4.2⟩]
        rfl
    have hfin : ∀ r : CppResult Dmp,
        (if scaling = .amplitude ∧ amplitudes.length ≠ yInit.length then (do
          throw .assertion
          if fas.length ≠ 0 ∧ yInit.length ≠ fas.length then (do throw .assertion; r) else r)
        else if fas.length ≠ 0 ∧ yInit.length ≠ fas.length then (do throw .assertion; r)
        else r) = .error .assertion := fun r => by
      rw [← hrest r]
      split_ifs <;> rfl
    cases goal with
    | none => exact hfin _
    | some g =>
      have hd : g.dimX = yInit.length := not_not.mp fun h => hg ⟨g, rfl, h⟩
      have hx : g.setXInit yInit = .ok { g with xInit := yInit } := by
        unfold Exponential.setXInit Base.setXInit
        rw [if_neg (not_not.mpr hd.symm)]
        rfl
      simp only [hd, ne_eq, not_true_eq_false, if_false]
      rw [then_ok hx]
      exact hfin _

/-- Example: two dimensions and one amplitude. -/
example : make 1 [0, 0] [1, 1] [] 20 none none none .amplitude [1] = .error .assertion :=
  C88_make _ _ _ _ _ _ _ _ _ _ (.inr (.inl ⟨rfl, by simp⟩))

/-- Example: a Richards system as phase system. -/
example (g : Verif.Richards) : readSystem (.richards g) = .ok none := rfl

end Dmp

/-! ### Segments of vectors -/

/-- C88 in C++: segments beyond the end of the vector, and values of another size, violate an assertion;
otherwise exactly the segment is read or replaced. -/
theorem C88_segments (x v : List ℝ) (i n : Nat) :
    (seg x i n = .error .assertion ↔ x.length < i + n) ∧
    (putSeg x i n v = .error .assertion ↔ (x.length < i + n ∨ v.length ≠ n)) ∧
    (∀ y, putSeg x i n v = .ok y → y.length = x.length ∧ seg y i n = .ok v ∧
      ∀ k, k < i ∨ i + n ≤ k → y.getD k 0 = x.getD k 0) := by
  refine ⟨?_, ?_, fun y h => ?_⟩
  · unfold seg
    split_ifs with h
    · exact iff_of_true rfl h
    · exact iff_of_false (by simp) h
  · unfold putSeg
    split_ifs with h h2
    · exact iff_of_true rfl (.inl h)
    · exact iff_of_true rfl (.inr h2)
    · exact iff_of_false (by simp) (by tauto)
  · unfold putSeg at h
    split_ifs at h with h1 h2
    obtain rfl := Except.ok.inj h
    have h2 := not_not.mp h2
    have hi : (x.take i).length = i := by rw [List.length_take]; omega
    have hl : (x.take i ++ v ++ x.drop (i + n)).length = x.length := by
      simp only [List.length_append, hi, List.length_drop]
      omega
    refine ⟨hl, ?_, fun k hk => ?_⟩
    · unfold seg
      rw [if_neg (by omega), List.append_assoc, List.drop_append_of_le_length (by omega)]
      rw [List.drop_eq_nil_of_le (by omega), List.nil_append, List.take_append_of_le_length (by omega)]
      rw [List.take_of_length_le (by omega)]
    · rw [List.getD_eq_getElem?_getD, List.getD_eq_getElem?_getD]
      congr 1
      rcases hk with hk | hk
      · rw [List.append_assoc, List.getElem?_append_left (by omega), List.getElem?_take_of_lt hk]
      · rw [List.getElem?_append_right (by rw [List.length_append]; omega), List.length_append, hi, h2,
          List.getElem?_drop]
        congr 1
        omega

/-! ### Trajectories -/

namespace Trajectory

/-- C88 in C++: polynomial trajectories: boundary values of different sizes violate an assertion, and so do no
times; without duration the result is not a number. -/
theorem C88_polynomial (ts y0 v0 a0 y1 v1 a1 : List ℝ) :
    (v0.length ≠ y0.length ∨ a0.length ≠ y0.length ∨ y1.length ≠ y0.length ∨ v1.length ≠ y0.length ∨
      a1.length ≠ y0.length → polynomial ts y0 v0 a0 y1 v1 a1 = .error .assertion) ∧
    (polynomial [] y0 v0 a0 y1 v1 a1 = .error .assertion) ∧
    (∀ t mid, v0.length = y0.length → a0.length = y0.length → y1.length = y0.length →
      v1.length = y0.length → a1.length = y0.length →
      polynomial (t :: mid ++ [t]) y0 v0 a0 y1 v1 a1 = .error .nan) := by
  refine ⟨fun h => if_pos h, ?_, fun t mid h1 h2 h3 h4 h5 => ?_⟩
  · unfold polynomial
    split_ifs <;> rfl
  · unfold polynomial
    rw [if_neg (by simp [h1, h2, h3, h4, h5])]
    have e : (t :: mid ++ [t]).getLast? = some t := List.getLast?_concat
    rw [show (t :: mid ++ [t]).head? = some t from rfl, e]
    simp

/-- C88 in C++: a matrix has the columns of a trajectory if there is at least the column with the times besides
the miscellaneous ones; a file with no column for the times (and, since division of integers truncates, up to
two columns less) violates an assertion as well. -/
theorem C88_of_matrix (m : Arr2 ℝ) (k : Nat) (h : m.cols < 1 + k) : ofMatrix m k = .error .assertion := by
  unfold ofMatrix
  simp only
  split_ifs with h1 h2
  · rfl
  · rfl
  · exfalso
    omega

end Trajectory

/-- C88 in C++: text files: no lines divide by 0; an empty first line uses a variable that is not
initialised. -/
theorem C88_load (name : String) (k : Disk) :
    (k.files name = some [] → loadMatrix name k = .error .divZero) ∧
    (∀ ls, k.files name = some ([] :: ls) → loadMatrix name k = .error .null) := by
  refine ⟨fun h => ?_, fun ls h => ?_⟩
  · unfold loadMatrix
    rw [h]
    rfl
  · unfold loadMatrix
    rw [h]
    rfl

/-- Example: a file with an empty line at the beginning. -/
example : loadMatrix "a.txt" ⟨fun _ => some [[], [1, 2]], fun _ => true, fun _ => true, fun _ => true⟩ =
    .error .null := (C88_load _ _).2 [[1, 2]] rfl

end Verif.Cpp
