import Mathlib.Algebra.Order.Field.Basic
import Mathlib.Data.Rat.Floor

/-!
# Slicing and resampling of station data

Mirrors `openamundsen/fileio/meteo.py:285-459` for the variables precipitation (sum), wind gusts
(maximum), other variables except wind direction (mean or instantaneous value). Times are seconds
(counted from a midnight), a missing value is `none`.
-/

namespace Verif.Resample

variable {K : Type*} [Field K] [LinearOrder K]

/-- A series of records. -/
abbrev Series (K : Type*) := List (ℤ × Option K)

/-- `pd.Series.sum(skipna=False)`, `meteo.py:421`. -/
def sumStrict : List (Option K) → Option K
  | [] => some 0
  | x :: xs =>
    match x, sumStrict xs with
    | some a, some b => some (a + b)
    | _, _ => none

/-- `mean()` of a pandas group, skipping missing values, `meteo.py:397`. -/
def meanSkip (xs : List (Option K)) : Option K :=
  let ys := xs.filterMap id
  if ys = [] then none else some (ys.sum / ys.length)

/-- `max()` of a pandas group, skipping missing values, `meteo.py:434`. -/
def maxSkip (xs : List (Option K)) : Option K := (xs.filterMap id).max?

/-- `⌈a / b⌉`. -/
def cdiv (a b : ℤ) : ℤ := -((-a) / b)

/-- Bin labels with `closed="right"`, `meteo.py:374-385`: right ends of the bins counted from
`start_date` below one day, left ends of the bins counted from the first record for one day. -/
def binLabel (daily : Bool) (origin f t : ℤ) : ℤ :=
  if daily then origin + (cdiv (t - origin) f - 1) * f else origin + cdiv (t - origin) f * f

/-- The labels of all bins from that of the first to that of the last record. -/
def binLabels (daily : Bool) (origin f first last : ℤ) : List ℤ :=
  let a := binLabel daily origin f first
  let b := binLabel daily origin f last
  (List.range (((b - a) / f).toNat + 1)).map fun k : ℕ => a + (k : ℤ) * f

/-- `resample(freq, ...).agg(...)`: the aggregate of the group of records with the label. -/
def binned (agg : List (Option K) → Option K) (daily : Bool) (origin f : ℤ) (recs : Series K) (l : ℤ) :
    Option K :=
  agg ((recs.filter fun r => decide (binLabel daily origin f r.1 = l)).map Prod.snd)

/-- Index of the resampled data, `meteo.py:395-418`. -/
def resIndex (daily aggregate : Bool) (start stop f first last : ℤ) : List ℤ :=
  let origin := if daily then first else start
  if aggregate then
    let idx := (binLabels daily origin f first last).filter fun l => decide (start ≤ l ∧ l ≤ stop)
    match idx with
    | [] => []
    | l :: ls => if l < first then ls else l :: ls
  else
    if stop < start then []
    else ((List.range (((stop - start) / f).toNat + 1)).map fun k : ℕ => start + (k : ℤ) * f).filter
      fun l => decide (first ≤ l ∧ l ≤ last)

/-- `_resample_dataset`, `meteo.py:343-459`, for one variable with its aggregation function; `none`:
exception. The records are those of the sliced dataset, in order. With `aggregate` and no bin in the
period `df_res.index[0]`, line 406, raises an `IndexError`. -/
def resample (agg : List (Option K) → Option K) (start stop f : ℤ) (aggregate : Bool)
    (recs : Series K) : Option (Series K) :=
  if 86400 < f then none
  else
    match recs.head?, recs.getLast? with
    | some a, some b =>
      let daily := decide (f = 86400)
      let origin := if daily then a.1 else start
      let idx := resIndex daily aggregate start stop f a.1 b.1
      let bins := (binLabels daily origin f a.1 b.1).filter fun l => decide (start ≤ l ∧ l ≤ stop)
      if aggregate ∧ bins = [] then none
      else if idx.all fun l => recs.any fun r => decide (r.1 = l) then
        some (idx.map fun l =>
          (l, if l ∈ binLabels daily origin f a.1 b.1 then binned agg daily origin f recs l else none))
      else none
    | _, _ => some recs

/-- `_slice_and_resample_dataset`, `meteo.py:285-340`, for data with time step `dt` different from
`f`. -/
def sliceResample (agg : List (Option K) → Option K) (start stop f dt : ℤ) (aggregate : Bool)
    (recs : Series K) : Option (Series K) :=
  let subDaily := decide (f = 86400 ∧ dt < 86400)
  let aggregate' := aggregate || subDaily
  let stop' := if subDaily then (stop + 86400) / 86400 * 86400 else stop
  let cut := recs.filter fun r => decide (start - 86400 ≤ r.1 ∧ r.1 ≤ stop')
  (resample agg start stop' f aggregate' cut).map fun rs =>
    rs.filter fun r => decide (start ≤ r.1 ∧ r.1 ≤ stop')

/-- `_resample_dataset`, `meteo.py:409-417`, for a variable that is neither summed up nor maximised, without
aggregation: `reindex` takes the record of the date. -/
def resampleInstant (start stop f : ℤ) (recs : Series K) : Option (Series K) :=
  if 86400 < f then none
  else
    match recs.head?, recs.getLast? with
    | some a, some b =>
      let idx := resIndex (decide (f = 86400)) false start stop f a.1 b.1
      if idx.all fun l => recs.any fun r => decide (r.1 = l) then
        some (idx.map fun l => (l, (recs.find? fun r => decide (r.1 = l)).bind Prod.snd))
      else none
    | _, _ => some recs

/-- Kinds of variables, `meteo.py:419-441`. -/
inductive Kind
  /-- precipitation -/
  | precip
  /-- wind gusts -/
  | gust
  /-- all others except wind direction -/
  | other
  deriving DecidableEq

/-- `_slice_and_resample_dataset`, `meteo.py:285-340`, for one variable of a file with the inferred time step `dt`.
`same`: the time step of the configuration is spelled as the inferred one (`inferred_freq == freq`, line 333), which
implies that both are equal. -/
def prepare (k : Kind) (same : Bool) (start stop f dt : ℤ) (aggregate : Bool) (recs : Series K) :
    Option (Series K) :=
  if same then some (recs.filter fun r => decide (start ≤ r.1 ∧ r.1 ≤ stop))
  else
    match k with
    | .precip => sliceResample sumStrict start stop f dt aggregate recs
    | .gust => sliceResample maxSkip start stop f dt aggregate recs
    | .other =>
      if aggregate || decide (f = 86400 ∧ dt < 86400) then sliceResample meanSkip start stop f dt aggregate recs
      else
        (resampleInstant start stop f
          (recs.filter fun r => decide (start - 86400 ≤ r.1 ∧ r.1 ≤ stop))).map fun rs =>
            rs.filter fun r => decide (start ≤ r.1 ∧ r.1 ≤ stop)

end Verif.Resample
