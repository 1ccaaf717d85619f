import Verif.Model.IntegrationTests
import Verif.Props.TrajectoryFiles
import Verif.Props.CppJson
import Verif.Props.ForceField

/- Helper lemmas about the integration tests: files, comparison, steps of the same size. -/

set_option autoImplicit false

namespace Verif

namespace IntegrationTests

open Cpp (Mirror Total System AnySystem)
open Cpp.Dmp (evenly evenly_succ)

/-! ### Files -/

/-- All files can be written. -/
def Open (k : Dir) : Prop := ∀ name, k.disk.writable name = true

/-- Numbers as they are read from a file with 6 decimals. -/
noncomputable def rounded (rows : List (List ℝ)) : Lines := rows.map (List.map (roundTo 6))

/-- The files after one was written. -/
noncomputable def put (name : String) (ls : Lines) (k : Dir) : Dir :=
  { k with disk := { k.disk with files := fun n => if n = name then some ls else k.disk.files n } }

theorem saveMatrix_eq {k : Dir} (h : Open k) (name : String) (cols : Nat) (rows : List (List ℝ)) :
    k.saveMatrix name cols rows = put name (rounded rows) k := by
  unfold Dir.saveMatrix Cpp.saveMatrix
  simp [h name, put, rounded]

theorem open_put {k : Dir} (h : Open k) (name : String) (ls : Lines) : Open (put name ls k) := h

theorem savetxt_run {k : Dir} (h : Open k) (name : String) (ls : Lines) :
    Dir.savetxt name ls k = (.ok (), put name ls k) := by
  unfold Dir.savetxt
  rw [PyM.self_bind, if_pos (h name)]
  rfl

/-- The files after json was written. -/
noncomputable def putJson (name : String) (j : Json) (k : Dir) : Dir :=
  { k with json := fun n => if n = name then some j else k.json n }

theorem saveJson_run {k : Dir} (h : Open k) (name : String) (j : Json) :
    Dir.saveJson name j k = (.ok (), putJson name j k) := by
  unfold Dir.saveJson
  rw [PyM.self_bind, if_pos (h name)]
  rfl

theorem put_same (name : String) (ls : Lines) (k : Dir) : (put name ls k).disk.files name = some ls := by
  simp [put]

theorem put_other {name n : String} (h : n ≠ name) (ls : Lines) (k : Dir) :
    (put name ls k).disk.files n = k.disk.files n := by
  simp [put, h]

/-- Rows of `c` numbers. -/
def Rect (c : Nat) (rows : List (List ℝ)) : Prop := ∀ r ∈ rows, r.length = c

theorem Rect.rounded {c : Nat} {rows : List (List ℝ)} (h : Rect c rows) : Rect c (rounded rows) := by
  intro r hr
  obtain ⟨q, hq, rfl⟩ := List.mem_map.mp hr
  rw [List.length_map]
  exact h q hq

theorem loadtxt_eq {k : Dir} {name : String} {ls : Lines} {c : Nat} (hf : k.disk.files name = some ls) (hc : 0 < c)
    (h : Rect c ls) : k.loadtxt name = .ok ls := by
  unfold Dir.loadtxt
  rw [hf]
  dsimp only
  have e : (ls.filter fun l => decide (l ≠ [])) = ls := by
    rw [List.filter_eq_self]
    intro l hl
    have := h l hl
    rw [decide_eq_true_eq]
    rintro rfl
    simp at this
    omega
  rw [e]
  cases ls with
  | nil => rfl
  | cons r rs =>
    dsimp only
    rw [if_neg]
    simp only [List.any_eq_true, not_exists, not_and]
    intro l hl
    rw [h l (by simp [hl]), h r (by simp)]
    simp

theorem loadVector_eq {k : Cpp.Disk} {name : String} {ts : List ℝ} (hf : k.files name = some (ts.map fun t => [t]))
    (h0 : ts ≠ []) : loadVector name k = .ok (some ts) := by
  unfold loadVector
  rw [Cpp.loadMatrix_eq hf (by simpa using h0) one_pos (by simp)]
  simp [bind, Except.bind, pure, Except.pure, List.map_map, Function.comp_def]

/-! ### Comparison -/

theorem foldl_max_lt (b : ℝ) : ∀ (ds : List ℝ) (d : ℝ), ds.foldl max d < b ↔ d < b ∧ ∀ x ∈ ds, x < b
  | [], d => by simp
  | x :: ds, d => by
    rw [List.foldl_cons, foldl_max_lt b ds]
    simp only [max_lt_iff, List.mem_cons, forall_eq_or_imp]
    tauto

theorem close_iff (m : ℝ) : close m = .ok () ↔ m < 1 / 10 ^ 6 := by
  unfold close
  have e : (10 : ℝ) * (1 / 10 ^ 7) = 1 / 10 ^ 6 := by norm_num
  rw [e]
  split <;> simp_all

theorem compare_rounded {rows : List (List ℝ)} (h : rows.flatten ≠ []) :
    ∃ m, maxDiff rows (rounded rows) = .ok m ∧ close m = .ok () := by
  have hl : rows.flatten.length = (rounded rows).flatten.length := by
    simp [rounded, List.length_flatten, Function.comp_def]
  have hf : (rounded rows).flatten = rows.flatten.map (roundTo 6) := by
    simp [rounded, List.map_flatten]
  unfold maxDiff
  rw [if_neg (not_not.mpr hl), hf]
  generalize rows.flatten = v at h ⊢
  obtain ⟨x, v, rfl⟩ := List.exists_cons_of_ne_nil h
  refine ⟨_, rfl, ?_⟩
  rw [close_iff, foldl_max_lt]
  have key : ∀ y : ℝ, |y - roundTo 6 y| < 1 / 10 ^ 6 := by
    intro y
    rw [abs_sub_comm]
    refine (roundTo_error 6 y).trans_lt ?_
    norm_num
  refine ⟨key x, ?_⟩
  intro d hd
  rw [List.zipWith_map_right, List.zipWith_self] at hd
  obtain ⟨y, -, rfl⟩ := List.mem_map.mp hd
  exact key y

theorem flatten_ne {c : Nat} {rows : List (List ℝ)} (h : Rect c rows) (hc : 0 < c) (h0 : rows ≠ []) :
    rows.flatten ≠ [] := by
  obtain ⟨r, rows, rfl⟩ := List.exists_cons_of_ne_nil h0
  have := h r (by simp)
  intro e
  simp at e
  rw [e.1] at this
  simp at this
  omega

/-! ### Steps of the same size -/

section

variable {τ : Type} [DynSys τ]

theorem fixedLoop_eq (m : DynSys.Method) (dt : ℝ) : ∀ (n : Nat) (t : ℝ) (x : List ℝ),
    (fixedLoop m dt x n : PyM τ _) = DynSys.integrateLoop m t x (evenly dt (t + dt) n)
  | 0, t, x => by
    simp [fixedLoop, evenly, DynSys.integrateLoop]
  | n + 1, t, x => by
    rw [evenly_succ]
    unfold fixedLoop DynSys.integrateLoop
    rw [add_sub_cancel_left]
    congr 1
    funext r
    rw [fixedLoop_eq m dt n (t + dt) r.1]

/-- Integration with steps of the same size is integration at evenly spaced times. -/
theorem fixedSteps_eq (m : DynSys.Method) (dt t : ℝ) (n : Nat) :
    (fixedSteps m dt n : PyM τ _) = DynSys.integrate (evenly dt t n) m := by
  cases n with
  | zero => rfl
  | succ n =>
    rw [evenly_succ]
    unfold fixedSteps DynSys.integrate
    congr 1
    funext r
    dsimp only
    rw [fixedLoop_eq m dt n t r.1]

theorem integrateLoop_length (m : DynSys.Method) : ∀ (ts : List ℝ) (t : ℝ) (x : List ℝ) (s s' : τ)
    (rows : List (List ℝ × List ℝ)), DynSys.integrateLoop m t x ts s = (.ok rows, s') → rows.length = ts.length
  | [], t, x, s, s', rows, h => by cases h; rfl
  | t1 :: ts, t, x, s, s', rows, h => by
    unfold DynSys.integrateLoop at h
    obtain ⟨r, s1, -, h⟩ := PyM.bind_inv h
    obtain ⟨rest, s2, p2, h⟩ := PyM.bind_inv h
    cases h
    simp [integrateLoop_length m ts _ _ _ _ _ p2]

/-! ### One system -/

/-- Objects related by `R` have `n` variables, the same rates of change, initial states and analytical solutions. -/
structure Tested (analytical : List ℝ → PyM τ (List (List ℝ) × List (List ℝ))) (R : AnySystem → τ → Prop) (n : Nat)
    (ts : List ℝ) : Prop where
  mirror : Mirror R n n
  total : Total R n
  init : ∀ {c s}, R c s → (Cpp.System.base c).xInit = DynSys.xInit s ∧ (DynSys.xInit s).length = n
  sol : ∀ {c s}, R c s → ∃ sol s', c.analytical ts = .ok sol ∧ analytical ts s = (.ok sol, s') ∧ R c s' ∧
    sol.1.length = ts.length ∧ Rect n sol.1 ∧ sol.2.length = ts.length ∧ Rect n sol.2

variable {analytical : List ℝ → PyM τ (List (List ℝ) × List (List ℝ))} {R : AnySystem → τ → Prop} {n : Nat}
  {ts : List ℝ}

theorem run_total {σ : Type} [Cpp.System σ] {Q : σ → τ → Prop} (M : Mirror Q n n) (T : Total Q n) (m : DynSys.Method)
    (h0 : ts ≠ []) (hp : ts.Pairwise (· < ·)) {c : σ} {s : τ} (hR : Q c s)
    (hi : (Cpp.System.base c).xInit = DynSys.xInit s) (hx : (DynSys.xInit s).length = n) : ∃ rows s' c', DynSys.integrate ts m s = (.ok rows, s') ∧
      Cpp.run m ts c = .ok (rows, c') ∧ Q c' s' ∧ rows.length = ts.length ∧ Rect n (rows.map Prod.fst) ∧
      Rect n (rows.map Prod.snd) := by
  obtain ⟨t0, ts, rfl⟩ := List.exists_cons_of_ne_nil h0
  obtain ⟨xd0, s0, p0⟩ := T c s _ hR hx
  have st : DynSys.integrateStart none s = (.ok (DynSys.xInit s, xd0), s0) := by
    unfold DynSys.integrateStart
    simp only
    rw [PyM.self_bind, PyM.bind_ok p0]
    rfl
  have l0 := (M.diffEq hR hx p0).1
  have hi' : (Cpp.System.base c).xInit = (DynSys.xInit s).take n := by
    rw [List.take_of_length_le hx.le, hi]
  obtain ⟨c0, q0, r0⟩ := M.start hR hx hi' st
  obtain ⟨rows, s', p, hl⟩ := Cpp.total_loop M T m ts t0 c0 s0 (DynSys.xInit s) r0 hx
  have e : DynSys.integrate (t0 :: ts) m s = (.ok ((DynSys.xInit s, xd0) :: rows), s') := by
    unfold DynSys.integrate
    rw [PyM.bind_ok st]
    simp only
    rw [PyM.bind_ok p]
    rfl
  obtain ⟨c', q, r⟩ := M.run m hR hx hi' hp e
  have sizes : ∀ r ∈ (DynSys.xInit s, xd0) :: rows, r.1.length = n ∧ r.2.length = n := by
    intro r hr
    rcases List.mem_cons.mp hr with rfl | hr
    · exact ⟨hx, l0⟩
    · exact hl r hr
  have l : ((DynSys.xInit s, xd0) :: rows).map (fun r => (r.1.take n, r.2.take n)) = (DynSys.xInit s, xd0) :: rows := by
    refine (List.map_congr_left fun r hr => ?_).trans (List.map_id _)
    rw [List.take_of_length_le (sizes r hr).1.le, List.take_of_length_le (sizes r hr).2.le]
    rfl
  rw [l] at q
  refine ⟨_, s', c', e, q, r, by simp [integrateLoop_length m ts _ _ _ _ _ p], ?_, ?_⟩
  · intro r hr
    obtain ⟨q, hq, rfl⟩ := List.mem_map.mp hr
    exact (sizes q hq).1
  · intro r hr
    obtain ⟨q, hq, rfl⟩ := List.mem_map.mp hr
    exact (sizes q hq).2

theorem Tested.run (h : Tested analytical R n ts) (m : DynSys.Method) (h0 : ts ≠ []) (hp : ts.Pairwise (· < ·))
    {c : AnySystem} {s : τ} (hR : R c s) : ∃ rows s' c', DynSys.integrate ts m s = (.ok rows, s') ∧
      Cpp.run m ts c = .ok (rows, c') ∧ R c' s' ∧ rows.length = ts.length ∧ Rect n (rows.map Prod.fst) ∧
      Rect n (rows.map Prod.snd) :=
  run_total h.mirror h.total m h0 hp hR (h.init hR).1 (h.init hR).2

/-- What a test of a system writes: three solutions, each in two files. -/
noncomputable def putAll (directory : String) (sol : List (List ℝ) × List (List ℝ)) (rows1 rows2 : List (List ℝ × List ℝ))
    (k : Dir) : Dir :=
  put (directory ++ "/xds_rungekutta.txt") (rounded (rows2.map Prod.snd)) <|
  put (directory ++ "/xs_rungekutta.txt") (rounded (rows2.map Prod.fst)) <|
  put (directory ++ "/xds_euler.txt") (rounded (rows1.map Prod.snd)) <|
  put (directory ++ "/xs_euler.txt") (rounded (rows1.map Prod.fst)) <|
  put (directory ++ "/xds_analytical.txt") (rounded sol.2) <|
  put (directory ++ "/xs_analytical.txt") (rounded sol.1) k

theorem append_ne {a b : String} (h : a ≠ b) (d : String) : d ++ a ≠ d ++ b := fun e => h (String.append_right_inj d |>.mp e)

theorem putAll_files (directory : String) (sol : List (List ℝ) × List (List ℝ)) (rows1 rows2 : List (List ℝ × List ℝ))
    (k : Dir) :
    let f := (putAll directory sol rows1 rows2 k).disk.files
    f (directory ++ "/xs_analytical.txt") = some (rounded sol.1) ∧
    f (directory ++ "/xds_analytical.txt") = some (rounded sol.2) ∧
    f (directory ++ "/xs_euler.txt") = some (rounded (rows1.map Prod.fst)) ∧
    f (directory ++ "/xds_euler.txt") = some (rounded (rows1.map Prod.snd)) ∧
    f (directory ++ "/xs_rungekutta.txt") = some (rounded (rows2.map Prod.fst)) ∧
    f (directory ++ "/xds_rungekutta.txt") = some (rounded (rows2.map Prod.snd)) := by
  have ne {a b : String} (h : a ≠ b) := append_ne h directory
  unfold putAll
  refine ⟨?_, ?_, ?_, ?_, ?_, ?_⟩
  · rw [put_other (ne (by decide)), put_other (ne (by decide)), put_other (ne (by decide)), put_other (ne (by decide)),
      put_other (ne (by decide)), put_same]
  · rw [put_other (ne (by decide)), put_other (ne (by decide)), put_other (ne (by decide)), put_other (ne (by decide)),
      put_same]
  · rw [put_other (ne (by decide)), put_other (ne (by decide)), put_other (ne (by decide)), put_same]
  · rw [put_other (ne (by decide)), put_other (ne (by decide)), put_same]
  · rw [put_other (ne (by decide)), put_same]
  · rw [put_same]

/-- The program in C++ succeeds and writes its solutions. -/
theorem systemsProgram_eq {k : Dir} (hk : Open k) {directory name : String} {j : Json} {c c1 c2 : AnySystem}
    (hj : k.json (directory ++ "/" ++ name ++ "_for_cpp.json") = some j) (hc : AnySystem.fromJson j = .ok (some c))
    (ht : k.disk.files (directory ++ "/ts.txt") = some (ts.map fun t => [t])) (h0 : ts ≠ [])
    {sol : List (List ℝ) × List (List ℝ)} (hs : c.analytical ts = .ok sol) {rows1 rows2 : List (List ℝ × List ℝ)}
    (h1 : Cpp.run .euler ts c = .ok (rows1, c1)) (h2 : Cpp.run .rungeKutta ts c1 = .ok (rows2, c2)) :
    systemsProgram directory name k = (.ok 0, putAll directory sol rows1 rows2 k) := by
  unfold systemsProgram
  simp only [hj, hc, loadVector_eq ht h0, hs, h1, h2]
  rw [saveMatrix_eq hk, saveMatrix_eq (open_put hk _ _), saveMatrix_eq (open_put (open_put hk _ _) _ _),
    saveMatrix_eq (open_put (open_put (open_put hk _ _) _ _) _ _),
    saveMatrix_eq (open_put (open_put (open_put (open_put hk _ _) _ _) _ _) _ _),
    saveMatrix_eq (open_put (open_put (open_put (open_put (open_put hk _ _) _ _) _ _) _ _) _ _)]
  rfl

theorem compare_eq {k : Dir} {xsName xdsName : String} {xs xds : List (List ℝ)} (hn : 0 < n) (h0 : xs ≠ [])
    (hx : Rect n xs) (hxd : Rect n xds) (f1 : k.disk.files xsName = some (rounded xs))
    (f2 : k.disk.files xdsName = some (rounded xds)) : compare xsName xdsName xs k = .ok () := by
  obtain ⟨m, e1, e2⟩ := compare_rounded (flatten_ne hx hn h0)
  unfold compare
  rw [loadtxt_eq f1 hn hx.rounded, loadtxt_eq f2 hn hxd.rounded]
  simp only [bind, Except.bind, e1, e2]

theorem onSystem_run {α : Type} {m : PyM τ α} {s s' : τ} {r : Except PyErr α} (k : Dir) (h : m s = (r, s')) :
    onSystem m (s, k) = (r, (s', k)) := by
  change ((m s).1, ((m s).2, k)) = _
  rw [h]

theorem onDir_run {α : Type} {m : PyM Dir α} {k k' : Dir} {r : Except PyErr α} (s : τ) (h : m k = (r, k')) :
    onDir m (s, k) = (r, (s, k')) := by
  change ((m k).1, (s, (m k).2)) = _
  rw [h]

/-- The test of a system passes. -/
theorem testSystem_eq (json : τ → Json) (directory name : String) {dt : ℝ} {N : Nat} (hdt : 0 < dt)
    (he : ts = evenly dt 0 (N + 1)) (h : Tested analytical R n ts) (hn : 0 < n) {c : AnySystem} {s : τ} (hR : R c s)
    (hc : AnySystem.fromJson (json s) = .ok (some c)) {k : Dir} (hk : Open k)
    (ht : k.disk.files (directory ++ "/ts.txt") = some (ts.map fun t => [t])) :
    ∃ sol rows1 rows2 s1 s2 s3, analytical ts s = (.ok sol, s1) ∧ DynSys.integrate ts .euler s1 = (.ok rows1, s2) ∧
      DynSys.integrate ts .rungeKutta s2 = (.ok rows2, s3) ∧
      testSystem true json analytical directory name ts dt (s, k) =
        (.ok (), (s3, putAll directory sol rows1 rows2
          (putJson (directory ++ "/" ++ name ++ "_for_cpp.json") (json s) k))) := by
  have h0 : ts ≠ [] := by rw [he, evenly_succ]; simp
  have hlen : ts.length = N + 1 := by rw [he]; simp [evenly]
  have hp : ts.Pairwise (· < ·) := by
    rw [he]
    unfold evenly
    rw [List.pairwise_map]
    refine List.pairwise_lt_range.imp fun {a b} hab => ?_
    have : (a : ℝ) < b := by exact_mod_cast hab
    nlinarith
  obtain ⟨sol, s1, a1, a2, a3, a4, a5, a6, a7⟩ := h.sol hR
  obtain ⟨rows1, s2, c1, b1, b2, b3, b4, b5, b6⟩ := h.run .euler h0 hp a3
  obtain ⟨rows2, s3, c2, d1, d2, d3, d4, d5, d6⟩ := h.run .rungeKutta h0 hp b3
  refine ⟨sol, rows1, rows2, s1, s2, s3, a2, b1, d1, ?_⟩
  have hj := saveJson_run hk (directory ++ "/" ++ name ++ "_for_cpp.json") (json s)
  have hk' : Open (putJson (directory ++ "/" ++ name ++ "_for_cpp.json") (json s) k) := hk
  have prog := systemsProgram_eq (ts := ts) hk' (directory := directory) (name := name) (j := json s) (c := c)
    (by simp [putJson]) hc ht h0 a1 b2 d2
  have fixed (m : DynSys.Method) : (fixedSteps m dt ts.length : PyM τ _) = DynSys.integrate ts m := by
    rw [hlen, fixedSteps_eq m dt 0, ← he]
  generalize hK : putAll directory sol rows1 rows2 (putJson (directory ++ "/" ++ name ++ "_for_cpp.json") (json s) k) = K
    at prog ⊢
  obtain ⟨f1, f2, f3, f4, f5, f6⟩ := putAll_files directory sol rows1 rows2
    (putJson (directory ++ "/" ++ name ++ "_for_cpp.json") (json s) k)
  rw [hK] at f1 f2 f3 f4 f5 f6
  have ne {α β : Type} {l : List α} {f : α → β} (hl : l.length = ts.length) : l.map f ≠ [] := by
    intro e
    have := congrArg List.length e
    simp [hl, hlen] at this
  have bin : executeBinary true (systemsProgram directory name)
      (putJson (directory ++ "/" ++ name ++ "_for_cpp.json") (json s) k) = (.ok (), K) := by
    change (Except.ok (), (systemsProgram directory name _).2) = _
    rw [prog]
  have c1' := compare_eq hn (by intro e; rw [e] at a4; simp [hlen] at a4) a5 a7 f1 f2
  have c2' := compare_eq hn (ne b4) b5 b6 f3 f4
  have c3' := compare_eq hn (ne d4) d5 d6 f5 f6
  unfold testSystem
  rw [PyM.self_bind, PyM.bind_ok (onDir_run s hj), PyM.bind_ok (onDir_run s bin), PyM.bind_ok (onSystem_run K a2),
    PyM.self_bind]
  dsimp only
  rw [c1', PyM.lift_ok_bind, fixed, PyM.bind_ok (onSystem_run K b1), PyM.self_bind]
  dsimp only
  rw [c2', PyM.lift_ok_bind, fixed, PyM.bind_ok (onSystem_run K d1), PyM.self_bind]
  dsimp only
  rw [c3']
  rfl

end

end IntegrationTests

end Verif
