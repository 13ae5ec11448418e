import Mathlib.Analysis.SpecialFunctions.Log.Basic
import Mathlib.Order.WithBot

/-!
# Piecewise linear elevation trend

Mirrors `_piecewise_linear_fit`, `openamundsen/meteo/interpolation.py:82-139`, and the choice of the trend in
`interpolate_param`, `interpolation.py:435-510`. The library `pwlf` is not modelled: the outcome of a fit is an
arbitrary function of the number of segments.
-/

namespace Verif.Piecewise

/-- A fit: `fit_breaks` and the predictions at the stations. -/
structure Fit where
  breaks : List ℝ
  preds : List ℝ

/-- `rss`, `interpolation.py:117-118`. -/
noncomputable def rss (ys preds : List ℝ) : ℝ := ((ys.zip preds).map fun p => (p.1 - p.2) ^ 2).sum

open Classical in
/-- `aic`, `interpolation.py:119-121`; `⊥` is minus infinity, for a perfect fit. -/
noncomputable def aic (ys : List ℝ) (m : ℕ) (f : Fit) : WithBot ℝ :=
  if rss ys f.preds = 0 then ⊥
  else ((ys.length * Real.log (rss ys f.preds / ys.length) + 2 * (2 * m) : ℝ) : WithBot ℝ)

open Classical in
/-- `model_has_improved`, `interpolation.py:133`; the difference of two infinite values is NaN. -/
noncomputable def improved (thr : ℝ) : WithBot ℝ → WithBot ℝ → Bool
  | some b, some a => decide (thr ≤ b - a)
  | some _, none => true
  | none, _ => false

open Classical in
/-- Number of stations in a segment, `interpolation.py:111`. -/
noncomputable def inSegment (xs : List ℝ) (lo hi : ℝ) : ℕ :=
  (xs.filter fun x => decide (lo ≤ x ∧ x ≤ hi)).length

/-- Too few stations in a segment, `interpolation.py:108-115`. -/
def Sparse (xs : List ℝ) (minPts m : ℕ) (f : Fit) : Prop :=
  1 < m ∧ ∃ s ∈ f.breaks.zip f.breaks.tail, inSegment xs s.1 s.2 < minPts

/-- Selected model. -/
structure Best where
  segments : ℕ
  fit : Fit
  aic : WithBot ℝ

open Classical in
/-- The loop, `interpolation.py:89-139`, over the remaining numbers of segments. -/
noncomputable def loop (fit : ℕ → Option Fit) (xs ys : List ℝ) (minPts : ℕ) (thr : ℝ) :
    List ℕ → Option Best → Option Best
  | [], best => best
  | m :: rest, best =>
    if 1 < m ∧ xs.length < m * minPts then best
    else
      match fit m with
      | none => loop fit xs ys minPts thr rest best
      | some f =>
        if Sparse xs minPts m f then best
        else
          match best with
          | none => loop fit xs ys minPts thr rest (some ⟨m, f, aic ys m f⟩)
          | some b =>
            if improved thr b.aic (aic ys m f) then
              loop fit xs ys minPts thr rest (some ⟨m, f, aic ys m f⟩)
            else some b

/-- `_piecewise_linear_fit`. -/
noncomputable def piecewiseFit (fit : ℕ → Option Fit) (xs ys : List ℝ) (maxSeg minPts : ℕ) (thr : ℝ) :
    Option Best :=
  loop fit xs ys minPts thr (List.range' 1 maxSeg) none

/-- `trend_method`. -/
inductive Method
  | regression
  | fixed
  | fractional
  | adjustment
  deriving DecidableEq

/-- Kind of the trend used. -/
inductive Kind
  | line
  | fixed
  | fractional
  | piecewise
  | adjustment

/-- Choice of the trend, `interpolation.py:435-510`; `none`: `ValueError`. -/
def choose (m : Method) (maxSeg : ℕ) : Option Kind :=
  if (m = .regression ∨ m = .fixed ∨ m = .fractional) ∧ maxSeg = 1 then
    if m = .regression then some .line else if m = .fixed then some .fixed else some .fractional
  else if m = .regression ∧ 1 < maxSeg then some .piecewise
  else if m = .adjustment then some .adjustment
  else none

end Verif.Piecewise
