import Mathlib.Analysis.SpecialFunctions.Trigonometric.Basic
import Verif.Model.Trajectory

/-
Model of Trajectory.apply_low_pass_filter (dmpbbo/dmps/Trajectory.py:528-540) and the functions
butter_low_pass and butter_low_pass_filter (603-630) it calls, over the real numbers (exact
arithmetic). The functions of scipy.signal they use (butter, filtfilt, lfilter, lfilter_zi) are
modelled for the arguments used here, following the published algorithm of scipy; scipy itself is
not part of /repo.
-/

set_option autoImplicit false

noncomputable section

namespace Verif

namespace LowPass

open Complex (I)

/-- The coefficients `b`, `a` of a filter: two arrays with the indices `0, …, order`
(returned by butter, Trajectory.py:615-616). Simplification: arrays are functions, the values at
larger indices are never used. -/
structure Filter where
  order : Nat
  b : Nat → ℝ
  a : Nat → ℝ

/-- Poles of the analog prototype: `-exp(1j*pi*m/(2*N))` for `m = -N+1, -N+3, …, N-1`
(scipy buttap, used by butter at Trajectory.py:615). -/
def analogPoles (n : Nat) : List ℂ :=
  (List.range n).map fun (k : Nat) =>
    -Complex.exp (I * Real.pi * ((2 * k + 1 - n : ℂ)) / (2 * n))

/-- The frequency after pre-warping, `2*fs*tan(pi*Wn/fs)` with `fs = 2` (scipy iirfilter, used by
butter at Trajectory.py:615). -/
def warped (cut : ℝ) : ℝ := 2 * 2 * Real.tan (Real.pi * cut / 2)

/-- Poles after scaling to the cutoff frequency and the bilinear transform, `(4+p)/(4-p)` (scipy
lp2lp_zpk, bilinear_zpk, used by butter at Trajectory.py:615). -/
def poles (n : Nat) (cut : ℝ) : List ℂ :=
  (analogPoles n).map fun p => (4 + warped cut * p) / (4 - warped cut * p)

/-- The gain `wo**N * real(1 / prod(4-p))` (scipy lp2lp_zpk, bilinear_zpk, used by butter at
Trajectory.py:615). -/
def gain (n : Nat) (cut : ℝ) : ℝ :=
  warped cut ^ n * (1 / ((analogPoles n).map fun p => (4 - warped cut * p : ℂ)).prod).re

/-- One step of `np.poly`: convolution with `[1, -root]`. -/
def polyStep (c : Nat → ℂ) (root : ℂ) : Nat → ℂ
  | 0 => c 0
  | k + 1 => c (k + 1) - root * c k

/-- `np.poly(roots)`: the coefficients, highest power first. -/
def poly (roots : List ℂ) : Nat → ℂ := roots.foldl polyStep fun k => if k = 0 then 1 else 0

/-- The filter of order `n`: `b = k*poly(z)`, `a = poly(p)` with the zeros `-1` (scipy zpk2tf, used
by butter at Trajectory.py:615; the poles come in conjugate pairs and the real part is taken). -/
def design (n : Nat) (cut : ℝ) : Filter :=
  ⟨n, fun k => gain n cut * (poly (List.replicate n (-1)) k).re, fun k => (poly (poles n cut) k).re⟩

/-- `butter(order, cut, btype="low", analog=False, output="ba")` (Trajectory.py:615): the critical
frequency must be between 0 and 1 and the order not negative. -/
def butter (order : Int) (cut : ℝ) : Except PyErr Filter :=
  if cut ≤ 0 then .error .valueError
  else if order < 0 then .error .valueError
  else if 1 ≤ cut then .error .valueError
  else .ok (design order.toNat cut)

/-- Trajectory.py:603-616 butter_low_pass. -/
def butterLowPass (cutoff fs : ℝ) (order : Int) : Except PyErr Filter :=
  let nyq := 0.5 * fs
  let cut := cutoff / nyq
  butter order cut

/-- The output of `lfilter` for the next input `x`, with the state `z` (transposed direct form,
`a[0] = 1`). -/
def output (f : Filter) (z : Nat → ℝ) (x : ℝ) : ℝ := f.b 0 * x + z 0

/-- The next state of `lfilter`; the state has the indices `0, …, order-1`. -/
def next (f : Filter) (z : Nat → ℝ) (x : ℝ) : Nat → ℝ := fun i =>
  if i + 1 < f.order then f.b (i + 1) * x - f.a (i + 1) * output f z x + z (i + 1)
  else if i + 1 = f.order then f.b (i + 1) * x - f.a (i + 1) * output f z x
  else 0

/-- `lfilter(b, a, x, zi=z)` for one time series (called by filtfilt, Trajectory.py:629). -/
def lfilter (f : Filter) : (Nat → ℝ) → List ℝ → List ℝ
  | _, [] => []
  | z, x :: xs => output f z x :: lfilter f (next f z x) xs

/-- `lfilter_zi(b, a)` (called by filtfilt, Trajectory.py:629): `zi[0]` is the quotient of
`sum(b[1:] - a[1:]*b[0])` and the sum of the first column of `I - companion(a).T`, the others are
computed from partial sums. The divisor is never 0 for filters made by butter (`C92_gain`). -/
def lfilterZi (f : Filter) : Nat → ℝ := fun k =>
  let zi0 := ((List.range f.order).map fun j => f.b (j + 1) - f.a (j + 1) * f.b 0).sum /
    (1 + ((List.range f.order).map fun j => f.a (j + 1)).sum)
  if k < f.order then
    (1 + ((List.range k).map fun j => f.a (j + 1)).sum) * zi0 -
      ((List.range k).map fun j => f.b (j + 1) - f.a (j + 1) * f.b 0).sum
  else 0

/-- `odd_ext(x, n)` (called by filtfilt, Trajectory.py:629): the point reflections of the `n`
samples after the first and the `n` samples before the last. -/
def oddExt (n : Nat) (x : List ℝ) : List ℝ :=
  ((x.drop 1).take n).reverse.map (fun v => 2 * x.headD 0 - v) ++ x ++
    ((x.reverse.drop 1).take n).map (fun v => 2 * x.reverse.headD 0 - v)

/-- `3*max(len(a), len(b))` (filtfilt, Trajectory.py:629) -/
def padLength (f : Filter) : Nat := 3 * (f.order + 1)

/-- The two passes of `filtfilt` over one time series (Trajectory.py:629). -/
def twoPasses (f : Filter) (x : List ℝ) : List ℝ :=
  let ext := oddExt (padLength f) x
  let y := lfilter f (fun i => lfilterZi f i * ext.headD 0) ext
  let r := lfilter f (fun i => lfilterZi f i * y.reverse.headD 0) y.reverse
  ((r.reverse).drop (padLength f)).take x.length

/-- `filtfilt(b, a, data, axis=0)` (Trajectory.py:629): too few samples are rejected, as is a
filter of order 0 (by `companion` in lfilter_zi). -/
def filtfilt (f : Filter) (data : Arr2 ℝ) : Except PyErr (Arr2 ℝ) :=
  if data.rows.length ≤ padLength f then .error .valueError
  else if f.order = 0 then .error .valueError
  else .ok ⟨data.cols, (List.range data.rows.length).map fun i =>
    (List.range data.cols).map fun j => (twoPasses f (column data.rows j)).getD i 0⟩

/-- Trajectory.py:618-630 butter_low_pass_filter. -/
def butterLowPassFilter (data : Arr2 ℝ) (cutoff fs : ℝ) (order : Int) :
    Except PyErr (Arr2 ℝ) := do
  let f ← butterLowPass cutoff fs order
  filtfilt f data

end LowPass

namespace Trajectory

/-- Trajectory.py:528-540 apply_low_pass_filter. With fewer than two samples the mean time step is
`nan` and filtfilt rejects the data (too few samples). A mean time step of 0 gives an infinite
sample frequency and a critical frequency of 0, which butter rejects. -/
def applyLowPassFilter (cutoff : ℝ) (order : Int) : PyM (Trajectory ℝ) Unit := do
  let s ← PyM.self
  match meanDiff s.ts with
  | none => PyM.raise .valueError
  | some dt =>
    if dt = 0 then PyM.raise .valueError
    else do
      let ys ← PyM.lift (LowPass.butterLowPassFilter s.ys cutoff (1 / dt) order)
      PyM.modify fun s => { s with ys := ys }
      recomputeDerivatives

end Trajectory

end Verif
