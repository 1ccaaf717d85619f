import Verif.Props.Weights
import Mathlib.LinearAlgebra.Matrix.PosDef
import Mathlib.Tactic.FinCases
import Mathlib.Data.Real.StarOrdered

/- C50, C51, C52, C53: updates of the distribution. -/

set_option autoImplicit false

namespace Verif

open Spec

variable {n : Nat}

/-! ### Running an update -/

/-- The covariance after an update. -/
noncomputable def Updater.covarNew (u : Updater) (samples : List (Fin n → ℝ)) (w : List ℝ)
    (d : Dist n) : Except PyErr (Matrix (Fin n) (Fin n) ℝ) :=
  match u.kind with
  | .mean => .ok d.covar
  | .decay factor => .ok ((factor * factor) • d.covar)
  | .adapt a => a.covar samples w d

theorem update_ok {argsort : List ℝ → List Nat} {u : Updater} {samples : List (Fin n → ℝ)}
    {costs : List (List ℝ)} {d d0 d' : Dist n} {w : List ℝ}
    (h : u.update argsort samples costs d = (.ok (d', w), d0)) :
    d0 = d ∧ costsToWeights argsort costs u.method u.elite = .ok w ∧
      average samples w = .ok d'.mean ∧ u.covarNew samples w d = .ok d'.covar ∧
      d'.bounds = d.bounds := by
  unfold Updater.update at h
  rw [PyM.self_bind] at h
  cases h1 : costsToWeights argsort costs u.method u.elite with
  | error e => rw [h1] at h; cases h
  | ok w1 =>
    rw [h1, PyM.lift_ok_bind] at h
    cases h2 : average samples w1 with
    | error e => rw [h2] at h; cases h
    | ok m =>
      rw [h2, PyM.lift_ok_bind] at h
      change (PyM.lift (u.covarNew samples w1 d) >>= _) d = _ at h
      cases h3 : u.covarNew samples w1 d with
      | error e => rw [h3] at h; cases h
      | ok c => rw [h3] at h; cases h; exact ⟨rfl, rfl, h2, h3, rfl⟩

theorem update_run {argsort : List ℝ → List Nat} {u : Updater} {samples : List (Fin n → ℝ)}
    {costs : List (List ℝ)} {d : Dist n} {w : List ℝ} {m : Fin n → ℝ}
    {c : Matrix (Fin n) (Fin n) ℝ} (h1 : costsToWeights argsort costs u.method u.elite = .ok w)
    (h2 : average samples w = .ok m) (h3 : u.covarNew samples w d = .ok c) :
    u.update argsort samples costs d = (.ok (⟨m, c, d.bounds⟩, w), d) := by
  unfold Updater.update
  rw [PyM.self_bind, h1, PyM.lift_ok_bind, h2, PyM.lift_ok_bind]
  change (PyM.lift (u.covarNew samples w d) >>= _) d = _
  rw [h3]
  rfl

/-- The state after an update, whether it succeeds or not. -/
theorem update_state (argsort : List ℝ → List Nat) (u : Updater) (samples : List (Fin n → ℝ))
    (costs : List (List ℝ)) (d : Dist n) : (u.update argsort samples costs d).2 = d := by
  unfold Updater.update
  rw [PyM.self_bind]
  cases h1 : costsToWeights argsort costs u.method u.elite with
  | error e => rfl
  | ok w1 =>
    rw [PyM.lift_ok_bind]
    cases h2 : average samples w1 with
    | error e => rfl
    | ok m =>
      rw [PyM.lift_ok_bind]
      change ((PyM.lift (u.covarNew samples w1 d) >>= _) d).2 = _
      cases h3 : u.covarNew samples w1 d <;> rfl

theorem average_ok {samples : List (Fin n → ℝ)} {w : List ℝ} {m : Fin n → ℝ}
    (h : average samples w = .ok m) :
    w.length = samples.length ∧ w.sum ≠ 0 ∧
      m = fun j => (List.zipWith (fun x s => x * s j) w samples).sum / w.sum := by
  unfold average at h
  by_cases h1 : w.length = samples.length
  · rw [if_neg (not_not.mpr h1)] at h
    by_cases h2 : w.sum = 0
    · rw [if_pos h2] at h; cases h
    · rw [if_neg h2] at h; cases h; exact ⟨h1, h2, rfl⟩
  · rw [if_pos h1] at h; cases h

/-! ### C50 -/

theorem weighted_le (w : List ℝ) (f : (Fin n → ℝ) → ℝ) (samples : List (Fin n → ℝ)) (hi : ℝ)
    (hlen : w.length = samples.length) (hw : ∀ x ∈ w, 0 ≤ x) (h : ∀ s ∈ samples, f s ≤ hi) :
    (List.zipWith (fun x s => x * f s) w samples).sum ≤ w.sum * hi := by
  induction w generalizing samples with
  | nil => simp
  | cons a w ih =>
    cases samples with
    | nil => simp at hlen
    | cons s samples =>
      simp only [List.zipWith_cons_cons, List.sum_cons]
      have h1 := ih samples (by simpa using hlen) (fun x hx => hw x (List.mem_cons_of_mem _ hx))
        fun s hs => h s (List.mem_cons_of_mem _ hs)
      have h2 := mul_le_mul_of_nonneg_left (h s (by simp)) (hw a (by simp))
      linarith

theorem weighted_neg (w : List ℝ) (f : (Fin n → ℝ) → ℝ) (samples : List (Fin n → ℝ)) :
    (List.zipWith (fun x s => x * -f s) w samples).sum =
      -(List.zipWith (fun x s => x * f s) w samples).sum := by
  induction w generalizing samples with
  | nil => simp
  | cons a w ih =>
    cases samples with
    | nil => simp
    | cons s samples =>
      simp only [List.zipWith_cons_cons, List.sum_cons, ih]
      ring

/-- C50: the new mean is the convex combination of the samples with the weights that are returned.
In each dimension it lies between any lower and upper bound of the samples. The distribution that
is passed in is not modified. -/
theorem C50_convex (argsort : List ℝ → List Nat) (u : Updater) (samples : List (Fin n → ℝ))
    (costs : List (List ℝ)) (d d0 d' : Dist n) (w : List ℝ)
    (h : u.update argsort samples costs d = (.ok (d', w), d0)) :
    d0 = d ∧ w.length = samples.length ∧ IsProb w ∧
      (∀ j, d'.mean j = (List.zipWith (fun x s => x * s j) w samples).sum) ∧
      (∀ j lo hi, (∀ s ∈ samples, lo ≤ s j ∧ s j ≤ hi) → lo ≤ d'.mean j ∧ d'.mean j ≤ hi) ∧
      (∀ x, (∀ s ∈ samples, s = x) → d'.mean = x) ∧ d'.bounds = d.bounds := by
  obtain ⟨h0, h1, h2, -, h4⟩ := update_ok h
  obtain ⟨a1, a2, a3⟩ := average_ok h2
  have hp : IsProb w := by
    obtain ⟨b1, b2⟩ := C48_probability argsort costs u.method u.elite w h1
    refine b2 ?_
    rintro rfl
    have : w = [] := List.length_eq_zero_iff.mp b1
    rw [this] at a2
    exact a2 rfl
  have hmean : ∀ j, d'.mean j = (List.zipWith (fun x s => x * s j) w samples).sum := by
    intro j
    rw [a3]
    simp only [hp.sum, div_one]
  have hb : ∀ j lo hi, (∀ s ∈ samples, lo ≤ s j ∧ s j ≤ hi) → lo ≤ d'.mean j ∧ d'.mean j ≤ hi := by
    intro j lo hi hs
    rw [hmean]
    refine ⟨?_, ?_⟩
    · have := weighted_le w (fun s => -s j) samples (-lo) a1 hp.nonneg (fun s hs' => by
        linarith [(hs s hs').1])
      rw [weighted_neg w (fun s => s j) samples, hp.sum] at this
      linarith
    · have := weighted_le w (fun s => s j) samples hi a1 hp.nonneg (fun s hs' => (hs s hs').2)
      rw [hp.sum] at this
      linarith
  refine ⟨h0, a1, hp, hmean, hb, ?_, h4⟩
  intro x hx
  funext j
  have := hb j (x j) (x j) (fun s hs => by rw [hx s hs]; exact ⟨le_rfl, le_rfl⟩)
  exact le_antisymm this.2 this.1

/-- C50: the distribution that is passed in is not modified, also if the update fails. -/
theorem C50_not_modified (argsort : List ℝ → List Nat) (u : Updater) (samples : List (Fin n → ℝ))
    (costs : List (List ℝ)) (d : Dist n) : (u.update argsort samples costs d).2 = d :=
  update_state argsort u samples costs d

/-- C50: `UpdaterMean` keeps the covariance. -/
theorem C50_mean_only (argsort : List ℝ → List Nat) (e : Elite) (method : String)
    (samples : List (Fin n → ℝ)) (costs : List (List ℝ)) (d d0 d' : Dist n) (w : List ℝ)
    (h : (⟨e, method, .mean⟩ : Updater).update argsort samples costs d = (.ok (d', w), d0)) :
    d'.covar = d.covar := by
  obtain ⟨-, -, -, h3, -⟩ := update_ok h
  exact (Except.ok.inj h3).symm

/-- C50: the update succeeds with PI-BB weights and as many costs as samples, if the limits of the
updater (if any) have one entry per dimension. -/
theorem C50_succeeds (argsort : List ℝ → List Nat) (u : Updater) (samples : List (Fin n → ℝ))
    (costs : List (List ℝ)) (d : Dist n) (hne : costs ≠ []) (hr : ∀ r ∈ costs, r ≠ [])
    (hlen : costs.length = samples.length) (h1 : u.method ≠ "CEM") (h2 : u.method ≠ "CMA-ES")
    (hc : ∀ w, ∃ c, u.covarNew samples w d = .ok c) :
    ∃ d' w, u.update argsort samples costs d = (.ok (d', w), d) := by
  have hne' : total costs ≠ [] := by simpa [total] using hne
  obtain ⟨lo, hlo⟩ := exists_pyMin hne'
  obtain ⟨hi, hhi⟩ := exists_pyMax hne'
  obtain ⟨hrun, -⟩ := piBB_run argsort costs u.method u.elite hne hr h1 h2 lo hi hlo hhi
  obtain ⟨b1, b2⟩ := C48_probability argsort costs u.method u.elite _ hrun
  have hp := b2 hne
  obtain ⟨c, hc⟩ := hc _
  have ha : ∃ m, average samples ((total costs).map fun x => phi u.elite.toReal lo hi x /
      ((total costs).map (phi u.elite.toReal lo hi)).sum) = .ok m := by
    unfold average
    rw [if_neg (by rw [b1, hlen]; simp), if_neg (by rw [hp.sum]; exact one_ne_zero)]
    exact ⟨_, rfl⟩
  obtain ⟨m, hm⟩ := ha
  exact ⟨_, _, update_run hrun hm hc⟩

/-! ### C51 -/

/-- `k` successive successful updates, with arbitrary samples, costs and sorting. -/
inductive Updates (u : Updater) : Nat → Dist n → Dist n → Prop
  | zero (d : Dist n) : Updates u 0 d d
  | succ (k : Nat) (d d1 d0 d2 : Dist n) (argsort : List ℝ → List Nat)
      (samples : List (Fin n → ℝ)) (costs : List (List ℝ)) (w : List ℝ) : Updates u k d d1 →
      u.update argsort samples costs d1 = (.ok (d2, w), d0) → Updates u (k + 1) d d2

/-- C51: covariance decay. -/
theorem C51_decay (e : Elite) (method : String) (factor : ℝ) (k : Nat) (d d' : Dist n)
    (h : Updates ⟨e, method, .decay factor⟩ k d d') :
    d'.covar = factor ^ (2 * k) • d.covar ∧ (d.covar.PosSemidef → d'.covar.PosSemidef) ∧
      (d.covar.IsSymm → d'.covar.IsSymm) := by
  have key : d'.covar = factor ^ (2 * k) • d.covar := by
    generalize hu : (⟨e, method, .decay factor⟩ : Updater) = u at h
    induction h with
    | zero d => simp
    | succ k d d1 d0 d2 argsort samples costs w h1 h2 ih =>
      obtain ⟨-, -, -, h3, -⟩ := update_ok h2
      rw [← hu] at h3
      have := Except.ok.inj h3
      rw [← this, ih, smul_smul]
      congr 1
      ring
  refine ⟨key, fun hp => ?_, fun hs => ?_⟩
  · rw [key]
    exact hp.smul (by rw [pow_mul]; positivity)
  · rw [key]
    exact hs.smul _

/-! ### The covariance after adaptation -/

/-- Loop over the diagonal: the entries of the visited dimensions are replaced. -/
theorem diag_loop (l : Limit) (better : ℝ → ℝ → Prop) [∀ a b, Decidable (better a b)]
    (is : List (Fin n)) (hnd : is.Nodup) (c : Matrix (Fin n) (Fin n) ℝ)
    (lev : Fin n → ℝ) (hl : ∀ i : Fin n, l.level i = .ok (lev i)) :
    is.foldlM (fun (c : Matrix (Fin n) (Fin n) ℝ) (i : Fin n) => do
      let level ← l.level i
      (.ok (if better (c i i) level then setDiag c i level else c) :
        Except PyErr (Matrix (Fin n) (Fin n) ℝ))) c =
    .ok fun a b => if a = b ∧ a ∈ is then (if better (c a a) (lev a) then lev a else c a a)
      else c a b := by
  induction is generalizing c with
  | nil =>
    simp only [List.foldlM_nil, List.not_mem_nil, and_false, if_false]
    rfl
  | cons i is ih =>
    have hi : i ∉ is := (List.nodup_cons.mp hnd).1
    rw [List.foldlM_cons, hl i]
    change is.foldlM _ (if better (c i i) (lev i) then setDiag c i (lev i) else c) = _
    rw [ih (List.nodup_cons.mp hnd).2]
    congr 1
    funext a b
    by_cases hab : a = b
    · subst hab
      by_cases hai : a = i
      · subst hai
        simp only [hi, and_false, if_false, List.mem_cons, true_or, and_true, if_true]
        by_cases hb : better (c a a) (lev a)
        · simp [hb, setDiag]
        · simp [hb]
      · have hset : (if better (c i i) (lev i) then setDiag c i (lev i) else c) a a = c a a := by
          by_cases hb : better (c i i) (lev i)
          · simp [hb, setDiag, hai]
          · simp [hb]
        rw [hset]
        simp [hai]
    · have hset : (if better (c i i) (lev i) then setDiag c i (lev i) else c) a b = c a b := by
        by_cases hb : better (c i i) (lev i)
        · rw [if_pos hb]
          unfold setDiag
          rw [if_neg]
          rintro ⟨h1, h2⟩
          exact hab (h1.trans h2.symm)
        · simp [hb]
      rw [hset]
      simp [hab]

/-- The limit is given for all `n` dimensions. -/
def LimitFits (n : Nat) : Option Limit → Prop
  | some (.vector v) => n ≤ v.length
  | _ => True

/-- The squared limit in dimension `i`, if there is one. -/
def limitSq : Option Limit → Nat → Option ℝ
  | none, _ => none
  | some (.scalar x), _ => some (x ^ 2)
  | some (.vector v), i => (v[i]?).map fun x => x ^ 2

theorem limit_level {l : Limit} (h : LimitFits n (some l)) (i : Fin n) :
    ∃ x, l.level i = .ok x ∧ limitSq (some l) i = some x := by
  cases l with
  | scalar x => exact ⟨x ^ 2, rfl, rfl⟩
  | vector v =>
    have hi : (i : Nat) < v.length := i.2.trans_le h
    refine ⟨v[(i : Nat)] ^ 2, ?_, ?_⟩
    · simp [Limit.level, hi]
    · simp [limitSq, hi]

theorem capDiag_ok {l : Option Limit} (hl : LimitFits n l) (c : Matrix (Fin n) (Fin n) ℝ) :
    ∃ c', capDiag l c = .ok c' ∧ (∀ a b, a ≠ b → c' a b = c a b) ∧
      ∀ a : Fin n, c' a a = match limitSq l a with
        | none => c a a
        | some x => min (c a a) x := by
  cases l with
  | none => exact ⟨c, rfl, fun _ _ _ => rfl, fun _ => rfl⟩
  | some l =>
    choose lev h1 h2 using limit_level hl
    refine ⟨_, diag_loop l (fun a b => a > b) _ (List.nodup_finRange n) c lev h1, ?_, ?_⟩
    · intro a b hab; simp [hab]
    · intro a
      rw [h2 a]
      simp only [List.mem_finRange, and_self, if_true]
      by_cases h : c a a > lev a
      · rw [if_pos h, min_eq_right h.le]
      · rw [if_neg h, min_eq_left (not_lt.mp h)]

theorem raiseDiag_ok {l : Option Limit} (hl : LimitFits n l) (c : Matrix (Fin n) (Fin n) ℝ) :
    ∃ c', raiseDiag l c = .ok c' ∧ (∀ a b, a ≠ b → c' a b = c a b) ∧
      ∀ a : Fin n, c' a a = match limitSq l a with
        | none => c a a
        | some x => max (c a a) x := by
  cases l with
  | none => exact ⟨c, rfl, fun _ _ _ => rfl, fun _ => rfl⟩
  | some l =>
    choose lev h1 h2 using limit_level hl
    refine ⟨_, diag_loop l (fun a b => a < b) _ (List.nodup_finRange n) c lev h1, ?_, ?_⟩
    · intro a b hab; simp [hab]
    · intro a
      rw [h2 a]
      simp only [List.mem_finRange, and_self, if_true]
      by_cases h : c a a < lev a
      · rw [if_pos h, max_eq_right h.le]
      · rw [if_neg h, max_eq_left (not_lt.mp h)]

/-- The covariance before the limits on the diagonal are applied. -/
noncomputable def Adaptation.raw (u : Adaptation) (samples : List (Fin n → ℝ)) (w : List ℝ)
    (d : Dist n) : Matrix (Fin n) (Fin n) ℝ :=
  (1 - u.learningRate) • d.covar + u.learningRate •
    (if u.diagOnly then Matrix.diagonal fun a => weightedCovar samples w d.mean a a
      else weightedCovar samples w d.mean)

theorem adaptation_covar (u : Adaptation) (samples : List (Fin n → ℝ)) (w : List ℝ)
    (d : Dist n) (h1 : u.learningRate ≤ 1) :
    u.covar samples w d = (do raiseDiag u.diagonalMin (← capDiag u.diagonalMax (u.raw samples w d))) := by
  have e1 : (if u.diagOnly then diagPart (weightedCovar samples w d.mean)
        else weightedCovar samples w d.mean) =
      if u.diagOnly then Matrix.diagonal fun a => weightedCovar samples w d.mean a a
        else weightedCovar samples w d.mean := by
    by_cases hd : u.diagOnly = true
    · rw [if_pos hd, if_pos hd]
      ext a b
      by_cases hab : a = b
      · subst hab; simp [diagPart]
      · simp [diagPart, hab]
    · rw [if_neg hd, if_neg hd]
  have e2 : u.raw samples w d = if u.learningRate < 1 then
      (1 - u.learningRate) • d.covar + u.learningRate •
        (if u.diagOnly then Matrix.diagonal fun a => weightedCovar samples w d.mean a a
          else weightedCovar samples w d.mean)
      else if u.diagOnly then Matrix.diagonal fun a => weightedCovar samples w d.mean a a
        else weightedCovar samples w d.mean := by
    unfold Adaptation.raw
    by_cases hlt : u.learningRate < 1
    · rw [if_pos hlt]
    · have : u.learningRate = 1 := le_antisymm h1 (not_lt.mp hlt)
      rw [if_neg hlt, this]
      simp
  rw [e2, ← e1]
  rfl

theorem adaptation_ok (u : Adaptation) (samples : List (Fin n → ℝ)) (w : List ℝ) (d : Dist n)
    (h1 : u.learningRate ≤ 1) (hmax : LimitFits n u.diagonalMax)
    (hmin : LimitFits n u.diagonalMin) :
    ∃ c', u.covar samples w d = .ok c' ∧
      (∀ a b, a ≠ b → c' a b = u.raw samples w d a b) ∧
      ∀ a : Fin n, ∃ m, (m = match limitSq u.diagonalMax a with
          | none => u.raw samples w d a a
          | some x => min (u.raw samples w d a a) x) ∧
        c' a a = match limitSq u.diagonalMin a with
          | none => m
          | some x => max m x := by
  obtain ⟨c1, r1, o1, d1⟩ := capDiag_ok hmax (u.raw samples w d)
  obtain ⟨c2, r2, o2, d2⟩ := raiseDiag_ok hmin c1
  refine ⟨c2, ?_, fun a b hab => (o2 a b hab).trans (o1 a b hab), fun a => ⟨c1 a a, d1 a, d2 a⟩⟩
  rw [adaptation_covar u samples w d h1, r1]
  exact r2

/-! ### C53 -/

/-- C53: after an update each diagonal entry is at most `diagonal_max²`, provided that is not below
`diagonal_min²`, and at least `diagonal_min²`. Entries off the diagonal and diagonal entries within
the limits are those of the low-pass filtered weighted covariance of the samples around the old
mean. -/
theorem C53_limits (argsort : List ℝ → List Nat) (e : Elite) (method : String) (u : Adaptation)
    (samples : List (Fin n → ℝ)) (costs : List (List ℝ)) (d d0 d' : Dist n) (w : List ℝ)
    (hlr : u.learningRate ≤ 1) (hmax : LimitFits n u.diagonalMax)
    (hmin : LimitFits n u.diagonalMin)
    (h : (⟨e, method, .adapt u⟩ : Updater).update argsort samples costs d = (.ok (d', w), d0)) :
    (∀ (a : Fin n) x, limitSq u.diagonalMin a = some x → x ≤ d'.covar a a) ∧
    (∀ (a : Fin n) x, limitSq u.diagonalMax a = some x → (∀ y, limitSq u.diagonalMin a = some y → y ≤ x) →
      d'.covar a a ≤ x) ∧
    (∀ a b, a ≠ b → d'.covar a b = (1 - u.learningRate) * d.covar a b + u.learningRate *
      (if u.diagOnly then 0 else
        (List.zipWith (fun x s => x * (s a - d.mean a) * (s b - d.mean b)) w samples).sum)) ∧
    (∀ (a : Fin n) raw, raw = (1 - u.learningRate) * d.covar a a + u.learningRate *
        (List.zipWith (fun x s => x * (s a - d.mean a) * (s a - d.mean a)) w samples).sum →
      (∀ x, limitSq u.diagonalMax a = some x → raw ≤ x) →
      (∀ x, limitSq u.diagonalMin a = some x → x ≤ raw) → d'.covar a a = raw) := by
  obtain ⟨-, -, -, h3, -⟩ := update_ok h
  change u.covar samples w d = _ at h3
  obtain ⟨c, hc, ho, hd⟩ := adaptation_ok u samples w d hlr hmax hmin
  have : d'.covar = c := by rw [hc] at h3; exact (Except.ok.inj h3).symm
  rw [this]
  refine ⟨?_, ?_, ?_, ?_⟩
  · intro a x hx
    obtain ⟨m, -, h2⟩ := hd a
    rw [h2, hx]
    exact le_max_right _ _
  · intro a x hx hy
    obtain ⟨m, h1, h2⟩ := hd a
    rw [hx] at h1
    have hm : m ≤ x := by rw [h1]; exact min_le_right _ _
    rw [h2]
    cases hz : limitSq u.diagonalMin a with
    | none => exact hm
    | some y => exact max_le hm (hy y hz)
  · intro a b hab
    rw [ho a b hab]
    simp only [Adaptation.raw, Matrix.add_apply, Matrix.smul_apply, smul_eq_mul]
    congr 2
    split_ifs
    · exact Matrix.diagonal_apply_ne _ hab
    · rfl
  · intro a raw hraw h1 h2
    have hr : u.raw samples w d a a = raw := by
      rw [hraw]
      simp only [Adaptation.raw, Matrix.add_apply, Matrix.smul_apply, smul_eq_mul]
      congr 2
      split_ifs
      · rw [Matrix.diagonal_apply_eq]; rfl
      · rfl
    obtain ⟨m, hm, hc⟩ := hd a
    have hm' : m = raw := by
      rw [hm, hr]
      cases hz : limitSq u.diagonalMax a with
      | none => rfl
      | some x => exact min_eq_left (h1 x hz)
    rw [hc, hm']
    cases hz : limitSq u.diagonalMin a with
    | none => rfl
    | some x => exact max_eq_left (h2 x hz)

/-- C53: the learning rate 0 keeps the old covariance (apart from the limits), the learning rate 1
ignores it. -/
theorem C53_learning_rate (u : Adaptation) (samples : List (Fin n → ℝ)) (w : List ℝ)
    (d d1 : Dist n) (hmax : u.diagonalMax = none) (hmin : u.diagonalMin = none) :
    (u.learningRate = 0 → u.covar samples w d = .ok d.covar) ∧
    (u.learningRate = 1 → d1.mean = d.mean → u.covar samples w d = u.covar samples w d1) := by
  refine ⟨fun h => ?_, fun h hm => ?_⟩
  · rw [adaptation_covar u samples w d (by rw [h]; exact zero_le_one), hmax, hmin]
    simp only [capDiag, raiseDiag, Adaptation.raw, h]
    simp [bind, Except.bind]
  · rw [adaptation_covar u samples w d h.le, adaptation_covar u samples w d1 h.le]
    simp only [Adaptation.raw, h, hm]
    simp

/-- C53: learning rates outside `[0, 1]` are rejected, others are accepted and stored. -/
theorem C53_init (dmax dmin : Option Limit) (diagOnly : Bool) (lr : ℝ) :
    (lr < 0 ∨ 1 < lr → Adaptation.init dmax dmin diagOnly lr = .error .valueError) ∧
    (0 ≤ lr → lr ≤ 1 → Adaptation.init dmax dmin diagOnly lr = .ok ⟨dmax, dmin, diagOnly, lr⟩) := by
  unfold Adaptation.init
  refine ⟨fun h => ?_, fun h0 h1 => ?_⟩
  · rw [if_pos (by tauto)]
  · rw [if_neg]
    rintro (h | h)
    · linarith
    · linarith

/-- C53: a limit that is too short is an error (unless an earlier error occurs). -/
theorem C53_short_limit (v : List ℝ) (c : Matrix (Fin (v.length + 1)) (Fin (v.length + 1)) ℝ) :
    (∃ e, capDiag (some (.vector v)) c = .error e) ∧ ∃ e, raiseDiag (some (.vector v)) c = .error e := by
  have gen : ∀ (better : ℝ → ℝ → Prop) [∀ a b, Decidable (better a b)]
      (is : List (Fin (v.length + 1))) (c : Matrix (Fin (v.length + 1)) (Fin (v.length + 1)) ℝ),
      Fin.last _ ∈ is → ∃ e, is.foldlM (fun (c : Matrix (Fin (v.length + 1)) (Fin (v.length + 1)) ℝ)
        (i : Fin (v.length + 1)) => do
      let level ← (Limit.vector v).level i
      (.ok (if better (c i i) level then setDiag c i level else c) :
        Except PyErr (Matrix (Fin (v.length + 1)) (Fin (v.length + 1)) ℝ))) c = .error e := by
    intro better _ is
    induction is with
    | nil => intro c h; simp at h
    | cons i is ih =>
      intro c h
      rw [List.foldlM_cons]
      cases hl : (Limit.vector v).level i with
      | error e => exact ⟨e, rfl⟩
      | ok x =>
        have hne : i ≠ Fin.last _ := by
          rintro rfl
          simp [Limit.level] at hl
        exact ih _ ((List.mem_cons.mp h).resolve_left (Ne.symm hne))
  exact ⟨gen (fun a b => a > b) _ c (List.mem_finRange _),
    gen (fun a b => a < b) _ c (List.mem_finRange _)⟩

/-! ### C52 -/

theorem weightedCovar_symm (samples : List (Fin n → ℝ)) (w : List ℝ) (m : Fin n → ℝ) (a b : Fin n) :
    weightedCovar samples w m a b = weightedCovar samples w m b a := by
  unfold weightedCovar
  congr 2
  funext x s
  ring

theorem weightedCovar_psd (samples : List (Fin n → ℝ)) (w : List ℝ) (m : Fin n → ℝ)
    (hw : ∀ x ∈ w, 0 ≤ x) : (weightedCovar samples w m).PosSemidef := by
  induction w generalizing samples with
  | nil =>
    have : weightedCovar samples [] m = 0 := by funext a b; simp [weightedCovar]
    rw [this]; exact Matrix.PosSemidef.zero
  | cons x w ih =>
    cases samples with
    | nil =>
      have : weightedCovar [] (x :: w) m = 0 := by funext a b; simp [weightedCovar]
      rw [this]; exact Matrix.PosSemidef.zero
    | cons s samples =>
      have : weightedCovar (s :: samples) (x :: w) m =
          x • Matrix.vecMulVec (fun a => s a - m a) (star fun a => s a - m a) +
            weightedCovar samples w m := by
        funext a b
        simp [weightedCovar, Matrix.vecMulVec_apply]
        ring
      rw [this]
      exact ((Matrix.posSemidef_vecMulVec_self_star _).smul (hw x (by simp))).add
        (ih samples fun y hy => hw y (List.mem_cons_of_mem _ hy))

theorem raw_psd (u : Adaptation) (samples : List (Fin n → ℝ)) (w : List ℝ) (d : Dist n)
    (h0 : 0 ≤ u.learningRate) (h1 : u.learningRate ≤ 1) (hw : ∀ x ∈ w, 0 ≤ x)
    (hd : d.covar.PosSemidef) : (u.raw samples w d).PosSemidef := by
  have hp := weightedCovar_psd samples w d.mean hw
  refine (hd.smul (by linarith)).add (Matrix.PosSemidef.smul ?_ h0)
  split_ifs
  · exact Matrix.PosSemidef.diagonal fun a => hp.diag_nonneg
  · exact hp

theorem update_weights_nonneg {argsort : List ℝ → List Nat} {u : Updater}
    {samples : List (Fin n → ℝ)} {costs : List (List ℝ)} {d d0 d' : Dist n} {w : List ℝ}
    (h : u.update argsort samples costs d = (.ok (d', w), d0)) : ∀ x ∈ w, 0 ≤ x :=
  (C50_convex argsort u samples costs d d0 d' w h).2.2.1.nonneg

/-- C52, as claimed: all settings of the limits. -/
def C52_statement : Prop := ∀ (n : Nat) (e : Elite) (method : String) (u : Adaptation) (k : Nat)
  (d d' : Dist n), 0 ≤ u.learningRate → u.learningRate ≤ 1 → LimitFits n u.diagonalMax →
  LimitFits n u.diagonalMin → d.covar.PosSemidef → Updates ⟨e, method, .adapt u⟩ k d d' →
  d'.covar.PosSemidef

/-- C52: the covariance stays symmetric, for all settings. -/
theorem C52_symmetric (e : Elite) (method : String) (u : Adaptation) (k : Nat) (d d' : Dist n)
    (hlr : u.learningRate ≤ 1) (hmax : LimitFits n u.diagonalMax)
    (hmin : LimitFits n u.diagonalMin) (hs : ∀ a b, d.covar a b = d.covar b a)
    (h : Updates ⟨e, method, .adapt u⟩ k d d') : ∀ a b, d'.covar a b = d'.covar b a := by
  generalize hu : (⟨e, method, .adapt u⟩ : Updater) = up at h
  induction h with
  | zero d => exact hs
  | succ k d d1 d0 d2 argsort samples costs w h1 h2 ih =>
    have ih := ih hs
    rw [← hu] at h2
    intro a b
    by_cases hab : a = b
    · rw [hab]
    · obtain ⟨-, -, ho, -⟩ := C53_limits argsort e method u samples costs d1 d0 d2 w hlr hmax hmin h2
      rw [ho a b hab, ho b a (Ne.symm hab), ih a b]
      congr 2
      split_ifs
      · rfl
      · exact weightedCovar_symm samples w d1.mean a b

/-- C52: without an upper limit on the diagonal the covariance stays positive semi-definite, for all
settings of the lower limit, the learning rate and `diag_only`, after any number of updates.
Missing compared to the full claim: `diagonal_max` with off-diagonal entries. -/
theorem C52_psd_partial (e : Elite) (method : String) (u : Adaptation) (k : Nat) (d d' : Dist n)
    (h0 : 0 ≤ u.learningRate) (hlr : u.learningRate ≤ 1) (hmax : u.diagonalMax = none)
    (hmin : LimitFits n u.diagonalMin) (hs : d.covar.PosSemidef)
    (h : Updates ⟨e, method, .adapt u⟩ k d d') : d'.covar.PosSemidef := by
  generalize hu : (⟨e, method, .adapt u⟩ : Updater) = up at h
  induction h with
  | zero d => exact hs
  | succ k d d1 d0 d2 argsort samples costs w h1 h2 ih =>
    have ih := ih hs
    have hw := update_weights_nonneg h2
    obtain ⟨-, -, -, h3, -⟩ := update_ok h2
    rw [← hu] at h3
    change u.covar samples w d1 = _ at h3
    obtain ⟨c, hc, ho, hd⟩ := adaptation_ok u samples w d1 hlr (by rw [hmax]; trivial) hmin
    have hr := raw_psd u samples w d1 h0 hlr hw ih
    have e2 : d2.covar = u.raw samples w d1 +
        Matrix.diagonal fun a => c a a - u.raw samples w d1 a a := by
      rw [show d2.covar = c by rw [hc] at h3; exact (Except.ok.inj h3).symm]
      funext a b
      rw [Matrix.add_apply]
      by_cases hab : a = b
      · subst hab; rw [Matrix.diagonal_apply_eq]; ring
      · rw [Matrix.diagonal_apply_ne _ hab, ho a b hab]; ring
    rw [e2]
    refine hr.add (Matrix.PosSemidef.diagonal fun a => ?_)
    obtain ⟨m, hm, hca⟩ := hd a
    rw [hmax] at hm
    simp only [limitSq] at hm
    rw [hca]
    show 0 ≤ _ - _
    cases hz : limitSq u.diagonalMin a with
    | none => simp only [hm, sub_self, le_refl]
    | some x =>
      have := le_max_left m x
      simp only [hm] at this ⊢
      linarith

/-- C52: with `diag_only`, a diagonal covariance with non-negative entries stays one, for all
settings of the limits and the learning rate, after any number of updates. -/
theorem C52_diagonal_partial (e : Elite) (method : String) (u : Adaptation) (k : Nat)
    (d d' : Dist n) (h0 : 0 ≤ u.learningRate) (hlr : u.learningRate ≤ 1)
    (hmax : LimitFits n u.diagonalMax) (hmin : LimitFits n u.diagonalMin)
    (hdiag : u.diagOnly = true) (hs : d.covar.PosSemidef) (hz : ∀ a b, a ≠ b → d.covar a b = 0)
    (h : Updates ⟨e, method, .adapt u⟩ k d d') :
    d'.covar.PosSemidef ∧ ∀ a b, a ≠ b → d'.covar a b = 0 := by
  generalize hu : (⟨e, method, .adapt u⟩ : Updater) = up at h
  induction h with
  | zero d => exact ⟨hs, hz⟩
  | succ k d d1 d0 d2 argsort samples costs w h1 h2 ih =>
    obtain ⟨ih1, ih2⟩ := ih hs hz
    have hw := update_weights_nonneg h2
    obtain ⟨-, -, -, h3, -⟩ := update_ok h2
    rw [← hu] at h2 h3
    change u.covar samples w d1 = _ at h3
    have hoff : ∀ a b, a ≠ b → d2.covar a b = 0 := by
      intro a b hab
      obtain ⟨-, -, ho, -⟩ := C53_limits argsort e method u samples costs d1 d0 d2 w hlr hmax hmin h2
      rw [ho a b hab, ih2 a b hab, hdiag]
      simp
    refine ⟨?_, hoff⟩
    have e2 : d2.covar = Matrix.diagonal fun a => d2.covar a a := by
      funext a b
      by_cases hab : a = b
      · subst hab; rw [Matrix.diagonal_apply_eq]
      · rw [Matrix.diagonal_apply_ne _ hab, hoff a b hab]
    rw [e2]
    refine Matrix.PosSemidef.diagonal fun a => ?_
    show 0 ≤ d2.covar a a
    have hr := (raw_psd u samples w d1 h0 hlr hw ih1).diag_nonneg (i := a)
    obtain ⟨c, hc, ho, hd⟩ := adaptation_ok u samples w d1 hlr hmax hmin
    obtain ⟨m, hm, hca⟩ := hd a
    have sq : ∀ l x, limitSq l a = some x → 0 ≤ x := by
      intro l x hx
      cases l with
      | none => simp [limitSq] at hx
      | some l =>
        cases l with
        | scalar y => simp only [limitSq, Option.some.injEq] at hx; rw [← hx]; positivity
        | vector v =>
          simp only [limitSq, Option.map_eq_some_iff] at hx
          obtain ⟨y, -, rfl⟩ := hx
          positivity
    have hm0 : 0 ≤ m := by
      rw [hm]
      cases hz : limitSq u.diagonalMax a with
      | none => exact hr
      | some x => exact le_min hr (sq _ x hz)
    rw [show d2.covar = c by rw [hc] at h3; exact (Except.ok.inj h3).symm, hca]
    cases hz : limitSq u.diagonalMin a with
    | none => exact hm0
    | some x => exact hm0.trans (le_max_left _ _)

/-- Settings of the counterexample: `diagonal_max = 1/2`. -/
noncomputable def capHalf : Adaptation := ⟨some (.scalar (1 / 2)), none, false, 1⟩

/-- C52 fails with `diagonal_max`: two samples at (1,1) around the mean (0,0) give the covariance
[[1,1],[1,1]], which becomes [[1/4,1],[1,1/4]]. -/
theorem C52_refuted : ¬ C52_statement := by
  intro h
  let d : Dist 2 := ⟨fun _ => 0, 1, none⟩
  obtain ⟨d', w, hrun⟩ := C50_succeeds (fun _ => []) ⟨.float 10, "PI-BB", .adapt capHalf⟩
    [fun _ => 1, fun _ => 1] [[0], [0]] d (by simp) (by simp) rfl (by simp) (by simp) (fun w => by
      obtain ⟨c, hc, -⟩ := adaptation_ok capHalf [fun _ => 1, fun _ => 1] w d le_rfl trivial trivial
      exact ⟨c, hc⟩)
  have hpsd := h 2 (.float 10) "PI-BB" capHalf 1 d d' (by simp [capHalf]) (by simp [capHalf]) trivial
    trivial Matrix.PosSemidef.one (.succ 0 d d _ d' _ _ _ w (.zero d) hrun)
  obtain ⟨-, hlen, hp, -⟩ := C50_convex _ _ _ _ _ _ _ _ hrun
  obtain ⟨-, hcap, hoff, -⟩ := C53_limits _ _ _ capHalf _ _ _ _ _ _ (by simp [capHalf]) trivial trivial hrun
  have hone : (List.zipWith (fun (x : ℝ) (s : Fin 2 → ℝ) => x * (s 0 - d.mean 0) * (s 1 - d.mean 1))
      w [fun _ => 1, fun _ => 1]).sum = 1 ∧ (List.zipWith (fun (x : ℝ) (s : Fin 2 → ℝ) => x *
      (s 1 - d.mean 1) * (s 0 - d.mean 0)) w [fun _ => 1, fun _ => 1]).sum = 1 := by
    have hsum := hp.sum
    match w, hlen with
    | [x, y], _ => simpa [d] using hsum
  have o1 : d'.covar 0 1 = 1 := by
    rw [hoff 0 1 (by decide), hone.1]; simp [capHalf]
  have o2 : d'.covar 1 0 = 1 := by
    rw [hoff 1 0 (by decide), hone.2]; simp [capHalf]
  have c0 : ∀ a, d'.covar a a ≤ (1 / 2) ^ 2 := fun a =>
    hcap a _ rfl (by simp [capHalf, limitSq])
  have := hpsd.dotProduct_mulVec_nonneg ![1, -1]
  simp [Matrix.mulVec, dotProduct, Fin.sum_univ_two, o1, o2] at this
  have a0 := c0 0
  have a1 := c0 1
  norm_num at a0 a1
  linarith

/-! ### The hypotheses are met -/

/-- One update of each kind on two samples in two dimensions. -/
example (kind : UpdaterKind) (hk : kind = .mean ∨ kind = .decay (4 / 5) ∨ kind = .adapt capHalf) :
    ∃ d' w, (⟨.float 10, "PI-BB", kind⟩ : Updater).update (fun _ => []) [![1, 2], ![3, 4]] [[0], [1, 2]]
      (⟨![0, 0], 1, none⟩ : Dist 2) = (.ok (d', w), ⟨![0, 0], 1, none⟩) ∧
      1 ≤ d'.mean 0 ∧ d'.mean 0 ≤ 3 := by
  obtain ⟨d', w, hrun⟩ := C50_succeeds (fun _ => []) ⟨.float 10, "PI-BB", kind⟩
    [![1, 2], ![3, 4]] [[0], [1, 2]] (⟨![0, 0], 1, none⟩ : Dist 2) (by simp) (by simp) rfl (by simp)
    (by simp) (fun w => by
      rcases hk with rfl | rfl | rfl
      · exact ⟨_, rfl⟩
      · exact ⟨_, rfl⟩
      · obtain ⟨c, hc, -⟩ := adaptation_ok capHalf [![1, 2], ![3, 4]] w
          (⟨![0, 0], 1, none⟩ : Dist 2) le_rfl trivial trivial
        exact ⟨c, hc⟩)
  refine ⟨d', w, hrun, ?_⟩
  obtain ⟨-, -, -, -, h, -⟩ := C50_convex _ _ _ _ _ _ _ _ hrun
  exact h 0 1 3 (by simp)

end Verif
