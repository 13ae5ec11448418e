import Verif.Model.InitForcing
import Verif.Props.Stations

/-!
# C142: the bounds setting selects the stations within the grid
-/

namespace Verif.InitForcing

open Verif.Stations

variable {K : Type*} [Field K] [LinearOrder K] [IsStrictOrderedRing K] [FloorRing K]

/-- **C142, partial.** With `bounds: grid`, the stations read are those within the grid extent that are not excluded, and
those included - except on two edges: stations on the upper edge of the grid are within the extent but not read, stations on
the lower edge are read but not within the extent. Missing: agreement on these edges (false, `C142_upper_false`,
`C142_lower_false`). -/
theorem C142_grid_partial (g : Geom K) (hres : 0 < g.res) (exclude inclusion : Option (List ℕ))
    (table r : List (Station K)) (hid : (table.map Station.id).Nodup)
    (hr : applyRules (boundsOf g .grid) exclude inclusion table = some r) (s : Station K) :
    s ∈ r ↔ s ∈ table ∧
      ((((withinExtent g s.x s.y = true ∧ s.y ≠ g.yoff) ∨
          (g.xoff ≤ s.x ∧ s.x < g.xoff + g.cols * g.res ∧ s.y = g.yoff - g.rows * g.res ∧ s.y < g.yoff)) ∧
          ∀ ex, exclude = some ex → s.id ∉ ex) ∨
        ∃ inc, inclusion = some inc ∧ s.id ∈ inc) := by
  rw [(C48_selected _ exclude inclusion table r hid hr).2 s, C51_extent g hres]
  refine and_congr_right fun _ => or_congr_left (and_congr_left fun _ => ?_)
  simp only [boundsOf, Option.some.injEq, forall_eq']
  constructor
  · rintro ⟨h1, h2, h3, h4⟩
    rcases eq_or_lt_of_le h3 with h3 | h3
    · exact Or.inr ⟨h1, h2, h3.symm, h4⟩
    · exact Or.inl ⟨⟨h1, h2, h3, h4.le⟩, h4.ne⟩
  · rintro (⟨⟨h1, h2, h3, h4⟩, h5⟩ | ⟨h1, h2, h3, h4⟩)
    · exact ⟨h1, h2, h3.le, lt_of_le_of_ne h4 h5⟩
    · exact ⟨h1, h2, h3.ge, h4⟩

/-- **C142.** With `bounds: global`, all stations that are not excluded are read. -/
theorem C142_global (g : Geom K) (exclude inclusion : Option (List ℕ)) (table r : List (Station K))
    (hid : (table.map Station.id).Nodup)
    (hr : applyRules (boundsOf g .global) exclude inclusion table = some r) (s : Station K) :
    s ∈ r ↔ s ∈ table ∧ ((∀ ex, exclude = some ex → s.id ∉ ex) ∨ ∃ inc, inclusion = some inc ∧ s.id ∈ inc) := by
  rw [(C48_selected _ exclude inclusion table r hid hr).2 s]
  simp [boundsOf]

/-- **C142.** With a list of four numbers, the stations of that rectangle (with its left and lower, without its right and
upper edge) that are not excluded are read, and those included. -/
theorem C142_rect (g : Geom K) (a b c d : K) (exclude inclusion : Option (List ℕ)) (table r : List (Station K))
    (hid : (table.map Station.id).Nodup)
    (hr : applyRules (boundsOf g (.rect a b c d)) exclude inclusion table = some r) (s : Station K) :
    s ∈ r ↔ s ∈ table ∧ (((a ≤ s.x ∧ s.x < c ∧ b ≤ s.y ∧ s.y < d) ∧ ∀ ex, exclude = some ex → s.id ∉ ex) ∨
      ∃ inc, inclusion = some inc ∧ s.id ∈ inc) := by
  rw [(C48_selected _ exclude inclusion table r hid hr).2 s]
  simp [boundsOf]

/-! ## Examples -/

/-- A grid of two by three cells of size 10. -/
def exGeom : Geom ℚ := ⟨100, 200, 10, 2, 3⟩

/-- Stations inside, on the upper, lower, left and right edge, and outside. -/
def exTable : List (Station ℚ) :=
  [⟨1, 105, 195, none, none⟩, ⟨2, 105, 200, none, none⟩, ⟨3, 105, 180, none, none⟩, ⟨4, 100, 190, none, none⟩,
    ⟨5, 130, 190, none, none⟩, ⟨6, 50, 190, none, none⟩]

/-- Read with `grid` (and the one outside included), with `global` and with a list; and those within the extent. -/
example :
    (applyRules (boundsOf exGeom .grid) (some [4]) (some [6]) exTable).map (List.map Station.id) = some [1, 3, 6] ∧
    (applyRules (boundsOf exGeom .global) none none exTable).map (List.map Station.id) = some [1, 2, 3, 4, 5, 6] ∧
    (applyRules (boundsOf exGeom (.rect 0 190 105 195)) none none exTable).map (List.map Station.id) = some [4, 6] ∧
    (exTable.filter fun s => withinExtent exGeom s.x s.y).map Station.id = [1, 2, 4] := by
  decide +kernel

/-- **C142.** Not all stations within the grid extent are read with `bounds: grid`. -/
theorem C142_upper_false :
    ¬ ∀ (g : Geom ℚ) (table r : List (Station ℚ)), 0 < g.res → (table.map Station.id).Nodup →
      applyRules (boundsOf g .grid) none none table = some r →
      ∀ s ∈ table, withinExtent g s.x s.y = true → s ∈ r := by
  intro hall
  have h := hall exGeom exTable _ (by norm_num [exGeom]) (by decide +kernel) rfl ⟨2, 105, 200, none, none⟩
    (by simp [exTable]) (by decide +kernel)
  have h2 := List.mem_map_of_mem (f := Station.id) h
  revert h2
  decide +kernel

/-- **C142.** Not all stations read with `bounds: grid` are within the grid extent. -/
theorem C142_lower_false :
    ¬ ∀ (g : Geom ℚ) (table r : List (Station ℚ)), 0 < g.res → (table.map Station.id).Nodup →
      applyRules (boundsOf g .grid) none none table = some r →
      ∀ s ∈ r, withinExtent g s.x s.y = true := by
  intro hall
  have h := (C142_grid_partial exGeom (by norm_num [exGeom]) none none exTable _ (by decide +kernel) rfl
    ⟨3, 105, 180, none, none⟩).2
      ⟨by simp [exTable], Or.inl ⟨Or.inr (by norm_num [exGeom]), by simp⟩⟩
  have h2 := hall exGeom exTable _ (by norm_num [exGeom]) (by decide +kernel) rfl _ h
  revert h2
  decide +kernel

end Verif.InitForcing
