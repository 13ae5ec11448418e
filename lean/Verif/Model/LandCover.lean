import Mathlib.Data.List.Sort
import Mathlib.Data.List.Dedup

/-!
# Land cover classes

Mirrors `openamundsen/landcover.py:21-51, 80-86`, `openamundsen/modules/evapotranspiration/evapotranspiration.py:144-151`
and `openamundsen/modules/canopy/canopy.py:58-63`.
-/

namespace Verif.LandCover

variable {C : Type*}

/-- Parameters of a class: `is_forest` (default false), and whether minimum and maximum of `leaf_area_index` are given
if there is such an entry. -/
structure Params where
  forest : Bool
  lai : Option (Bool × Bool)

/-- Attributes set by `initialize`. -/
structure Classes (C : Type*) where
  pixels : List (ℤ × (C → Bool))
  forest : List ℤ
  lai : List ℤ

/-- `np.unique(land_cover[roi])` and the selection of positive values, `landcover.py:27-28`. -/
def occurring (cells : List C) (roi : C → Bool) (lc : C → ℤ) : List ℤ :=
  ((((cells.filter roi).map lc).dedup).insertionSort (· ≤ ·)).filter fun l => decide (0 < l)

/-- Loop over the classes, `landcover.py:32-51`. -/
def addClasses (cfg : ℤ → Option Params) (roi : C → Bool) (lc : C → ℤ) : List ℤ → Classes C → Classes C
  | [], s => s
  | l :: rest, s =>
    match cfg l with
    | none => addClasses cfg roi lc rest s
    | some p =>
      addClasses cfg roi lc rest
        { pixels := s.pixels ++ [(l, fun c => decide (lc c = l) && roi c)]
          forest := if p.forest then s.forest ++ [l] else s.forest
          lai :=
            match p.lai with
            | some (true, true) => s.lai ++ [l]
            | _ => s.lai }

/-- `LandCover.initialize`, `landcover.py:21-51`. -/
def initClasses (cells : List C) (cfg : ℤ → Option Params) (roi : C → Bool) (lc : C → ℤ) : Classes C :=
  addClasses cfg roi lc (occurring cells roi lc) ⟨[], [], []⟩

/-- Pixels of the classes in the evapotranspiration model, `evapotranspiration.py:144-151`; the order of the classes
is that of a set. -/
def etPixels (cells : List C) (keys : List ℤ) (roi : C → Bool) (lc : C → ℤ) : List (ℤ × (C → Bool)) :=
  ((occurring cells roi lc).filter fun l => decide (l ∈ keys)).map fun l => (l, fun c => decide (lc c = l) && roi c)

/-- `forest_pos`, `canopy.py:58-63`; `class_pixels[lcc]` exists for all forest classes. -/
def forestPos (s : Classes C) (c : C) : Bool :=
  s.forest.any fun l => ((s.pixels.lookup l).getD fun _ => false) c

/-- Effective leaf area index, `landcover.py:57, 80-86`: assigned to the pixels of the classes in `lai`; `value l` is the
one of the class in the current time step, other pixels keep `old` (initially NaN). -/
def laiEff {V : Type*} (s : Classes C) (value : ℤ → V) (old : C → Option V) (c : C) : Option V :=
  s.lai.foldl (fun acc l => if ((s.pixels.lookup l).getD fun _ => false) c then some (value l) else acc) (old c)

end Verif.LandCover
