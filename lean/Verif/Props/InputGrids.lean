import Verif.Model.InputGrids
import Verif.Props.Stations

/-!
# C103: region of interest and input rasters
-/

set_option linter.unusedSectionVars false

namespace Verif.InputGrids

open Stations (Geom InCell)

variable {K : Type*} [Field K] [LinearOrder K] [IsStrictOrderedRing K] [FloorRing K]
variable {M : Type*} [DecidableEq M]

/-- Value of a raster cell: `none` for nodata. -/
def RFile.value {V : Type*} [DecidableEq V] (f : RFile M V) (i j : ℕ) : Option V :=
  if f.nodata = some (f.cells i j) then none else some (f.cells i j)

/-- Specification: the pixel is marked in the ROI file (a value other than 0), or there is no ROI file. -/
def Marked (f : Files M K) (i j : ℕ) : Prop :=
  ∀ r, f.roi = some r → ∃ v, r.value i j = some v ∧ v ≠ some 0

/-- Specification: elevation of a pixel according to the files. -/
def Elevation (f : Files M K) (i j : ℕ) (z : K) : Prop :=
  match f.ext with
  | some e => e i j = some z
  | none => ∃ d, f.dem = some d ∧ d.value i j = some (some z)

theorem readRaster_some {V W : Type*} [DecidableEq V] {check : M} {fill : Option W} {conv : V → W}
    {f : RFile M V} {r : Fld W} (h : readRaster check fill conv f = some r) : f.info = check ∧
    ∀ i j, r i j = match fill with
      | none => conv (f.cells i j)
      | some w => match f.value i j with
        | none => w
        | some v => conv v := by
  unfold readRaster at h
  split at h
  · exact absurd h (by simp)
  · rename_i hc
    refine ⟨not_not.mp hc, ?_⟩
    rw [Option.some.injEq] at h
    subst h
    intro i j
    cases fill with
    | none => rfl
    | some w =>
      simp only [RFile.value]
      split_ifs <;> rfl

theorem readInput_some {check : M} {q : Req} {f : Files M K} {o : Inputs K}
    (h : readInput check q f = some o) :
    (f.ext = some o.dem ∨ f.ext = none ∧ ∃ d, f.dem = some d ∧ readRaster check (some none) id d = some o.dem) ∧
    (∃ roi : Fld Bool, (f.roi = none ∧ roi = (fun _ _ => true) ∨
        ∃ r, f.roi = some r ∧ readRaster check (some false) (fun v => decide (v ≠ some 0)) r = some roi) ∧
      o.roi = fun i j => if (o.dem i j).isNone && roi i j then false else roi i j) ∧
    required q.lc check (some 0) f.lc = some o.lc ∧
    required q.soil check (some 0) f.soil = some o.soil ∧
    required q.glaciers check none f.glaciers = some o.glacier := by
  simp only [readInput, Option.bind_eq_bind, Option.bind_eq_some_iff, Option.pure_def] at h
  obtain ⟨dem, hd, roi, hr, lc, hl, soil, hs, gl, hg, he⟩ := h
  rw [Option.some.injEq] at he
  subst he
  refine ⟨?_, ⟨roi, ?_, rfl⟩, hl, hs, hg⟩
  · cases he : f.ext with
    | some e =>
      rw [he] at hd
      left
      exact hd
    | none =>
      rw [he] at hd
      right
      refine ⟨rfl, ?_⟩
      cases hm : f.dem with
      | none => rw [hm] at hd; exact absurd hd (by simp)
      | some d => rw [hm] at hd; exact ⟨d, rfl, hd⟩
  · cases hm : f.roi with
    | none =>
      rw [hm] at hr
      left
      exact ⟨rfl, (Option.some.inj hr).symm⟩
    | some r =>
      rw [hm] at hr
      right
      exact ⟨r, rfl, hr⟩

/-- **C103 (elevations).** The elevations are those of the extended grid or of the DEM file, nodata pixels
have none. -/
theorem C103_dem {check : M} {q : Req} {f : Files M K} {o : Inputs K} (h : readInput check q f = some o)
    (i j : ℕ) (z : K) : o.dem i j = some z ↔ Elevation f i j z := by
  obtain ⟨hd, -⟩ := readInput_some h
  unfold Elevation
  rcases hd with hd | ⟨he, d, hd, hr⟩
  · rw [hd]
  · rw [he]
    have := (readRaster_some hr).2 i j
    simp only [this]
    constructor
    · intro e
      refine ⟨d, hd, ?_⟩
      cases hv : d.value i j with
      | none => rw [hv] at e; exact absurd e (by simp)
      | some v => rw [hv] at e; rw [← e]; rfl
    · rintro ⟨d', hd', hv⟩
      rw [hd] at hd'
      obtain rfl := Option.some.inj hd'
      rw [hv]
      rfl

theorem roi_read {check : M} {q : Req} {f : Files M K} {o : Inputs K} (h : readInput check q f = some o)
    (i j : ℕ) : o.roi i j = true ↔ Marked f i j ∧ ∃ z, Elevation f i j z := by
  have hd := fun z => C103_dem h i j z
  obtain ⟨-, ⟨roi, hr, ho⟩, -⟩ := readInput_some h
  have hroi : roi i j = true ↔ Marked f i j := by
    unfold Marked
    rcases hr with ⟨he, rfl⟩ | ⟨r, he, hr⟩
    · simp [he]
    · have := (readRaster_some hr).2 i j
      rw [this, he]
      cases hv : r.value i j with
      | none => simp [hv]
      | some v => simp [hv]
  rw [ho]
  simp only [← hd]
  rw [← hroi]
  cases o.dem i j <;> cases roi i j <;> simp

/-- **C103 (region of interest).** A pixel of the grid belongs to the region of interest exactly if it is
marked in the ROI file (or there is none) and has an elevation, or contains a station and
`extend_roi_with_stations` is set. -/
theorem C103_roi {check : M} {q : Req} {f : Files M K} {o : Inputs K} (h : readInput check q f = some o)
    (g : Geom K) (hres : 0 < g.res) (extend : Bool) (st : List (K × K)) (i j : ℕ) (hi : i < g.rows)
    (hj : j < g.cols) : finalRoi g extend st o.roi i j = true ↔
      (Marked f i j ∧ ∃ z, Elevation f i j z) ∨ extend = true ∧ ∃ s ∈ st, InCell g i j s.1 s.2 := by
  rw [← roi_read h]
  cases extend with
  | false => simp [finalRoi]
  | true => simpa [finalRoi] using (Stations.C51_extend g hres o.roi st).1 i j hi hj

/-- **C103 (elevations of the region of interest).** Every pixel of the region of interest has an elevation,
provided that the region is not extended to stations on pixels without elevation. -/
theorem C103_roi_elevation_partial {check : M} {q : Req} {f : Files M K} {o : Inputs K}
    (h : readInput check q f = some o) (g : Geom K) (hres : 0 < g.res) (extend : Bool) (st : List (K × K))
    (hst : extend = true → ∀ s ∈ st, ∀ i j, InCell g i j s.1 s.2 → ∃ z, Elevation f i j z)
    (i j : ℕ) (hi : i < g.rows) (hj : j < g.cols) (hr : finalRoi g extend st o.roi i j = true) :
    ∃ z, o.dem i j = some z := by
  rw [C103_roi h g hres extend st i j hi hj] at hr
  rcases hr with ⟨-, z, hz⟩ | ⟨he, s, hs, hin⟩
  · exact ⟨z, (C103_dem h i j z).mpr hz⟩
  · obtain ⟨z, hz⟩ := hst he s hs i j hin
    exact ⟨z, (C103_dem h i j z).mpr hz⟩

/-- **C103 fails for stations on nodata pixels**: the region of interest is extended to them. -/
theorem C103_roi_elevation_false : ∃ (f : Files ℕ ℚ) (o : Inputs ℚ) (g : Geom ℚ) (st : List (ℚ × ℚ)),
    readInput 0 ⟨false, false, false⟩ f = some o ∧ finalRoi g true st o.roi 0 0 = true ∧
      o.dem 0 0 = none := by
  refine ⟨⟨none, some ⟨0, some (some (-9999)), fun i _ => if i = 0 then some (-9999) else some 1000⟩,
    none, none, none, none⟩, _, ⟨0, 100, 50, 2, 2⟩, [(10, 90)], rfl, ?_, ?_⟩
  · have := (Stations.C51_extend (⟨0, 100, 50, 2, 2⟩ : Geom ℚ) (by norm_num)
      (fun i j => if ((if (some (some (-9999)) : Option (Option ℚ)) =
          some (if i = 0 then some (-9999) else some 1000)
        then none else id (if i = 0 then some (-9999) else some 1000)) : Option ℚ).isNone && true
        then false else true) [(10, 90)]).1 0 0 (by norm_num) (by norm_num)
    simp only [finalRoi, if_true]
    exact this.mpr (Or.inr ⟨_, List.mem_singleton.mpr rfl, by norm_num [InCell]⟩)
  · simp

/-- **C103 (classes).** Land cover and soil texture are those of the files; nodata pixels belong to no class
(0). -/
theorem C103_classes {check : M} {q : Req} {f : Files M K} {o : Inputs K} (h : readInput check q f = some o)
    (i j : ℕ) :
    (∀ r, q.lc = true → f.lc = some r → o.lc i j = (r.value i j).getD 0) ∧
    (∀ r, q.soil = true → f.soil = some r → o.soil i j = (r.value i j).getD 0) := by
  obtain ⟨-, -, hl, hs, -⟩ := readInput_some h
  refine ⟨?_, ?_⟩
  · intro r hq hf
    simp only [hq, hf, required, if_true] at hl
    rw [(readRaster_some hl).2 i j]
    cases r.value i j <;> rfl
  · intro r hq hf
    simp only [hq, hf, required, if_true] at hs
    rw [(readRaster_some hs).2 i j]
    cases r.value i j <;> rfl

/-- **C103 (glaciers).** With a nodata value that is not positive exactly the pixels with a positive value are
glacier pixels, and nodata pixels are not. -/
theorem C103_glaciers_partial {check : M} {q : Req} {f : Files M K} {o : Inputs K}
    (h : readInput check q f = some o) (hq : q.glaciers = true) (r : RFile M ℤ) (hf : f.glaciers = some r)
    (hn : ∀ n, r.nodata = some n → n ≤ 0) (i j : ℕ) (gid : ℤ) (hg : 0 < gid) :
    o.glacier i j = gid ↔ r.value i j = some gid := by
  obtain ⟨-, -, -, -, hl⟩ := readInput_some h
  simp only [hq, hf, required, if_true] at hl
  have := (readRaster_some hl).2 i j
  simp only [id] at this
  rw [this]
  unfold RFile.value
  split_ifs with hc
  · have := hn _ hc
    constructor
    · intro e; omega
    · intro e; exact absurd e (by simp)
  · rw [Option.some.injEq]

/-- **C103 fails for glacier files with a positive nodata value** (such as 255): nodata pixels of the file
become a glacier with this number. -/
theorem C103_glaciers_false {check : M} {q : Req} {f : Files M K} {o : Inputs K}
    (h : readInput check q f = some o) (hq : q.glaciers = true) (r : RFile M ℤ) (hf : f.glaciers = some r)
    (hn : r.nodata = some 255) (i j : ℕ) (hv : r.value i j = none) : o.glacier i j = 255 := by
  obtain ⟨-, -, -, -, hl⟩ := readInput_some h
  simp only [hq, hf, required, if_true] at hl
  have := (readRaster_some hl).2 i j
  simp only [id] at this
  rw [this]
  unfold RFile.value at hv
  split_ifs at hv with hc
  rw [hn] at hc
  exact (Option.some.inj hc).symm

/-- **C103 (missing or unsuitable files).** Reading succeeds exactly if the elevations and all required files
are available and all files that are read have the metadata of the grid. -/
theorem C103_success (check : M) (q : Req) (f : Files M K) :
    (readInput check q f).isSome ↔
      (f.ext.isSome ∨ ∃ d, f.dem = some d ∧ d.info = check) ∧
      (∀ r, f.roi = some r → r.info = check) ∧
      (q.lc = true → ∃ r, f.lc = some r ∧ r.info = check) ∧
      (q.soil = true → ∃ r, f.soil = some r ∧ r.info = check) ∧
      (q.glaciers = true → ∃ r, f.glaciers = some r ∧ r.info = check) := by
  have hreq : ∀ (need : Bool) (fill : Option ℤ) (x : Option (RFile M ℤ)),
      (∃ o, required need check fill x = some o) ↔ (need = true → ∃ r, x = some r ∧ r.info = check) := by
    intro need fill x
    cases need <;> cases x <;> simp [required, readRaster]
  constructor
  · intro h
    obtain ⟨o, h⟩ := Option.isSome_iff_exists.mp h
    obtain ⟨hd, ⟨roi, hr, -⟩, hl, hs, hg⟩ := readInput_some h
    refine ⟨?_, ?_, (hreq _ _ _).mp ⟨_, hl⟩, (hreq _ _ _).mp ⟨_, hs⟩, (hreq _ _ _).mp ⟨_, hg⟩⟩
    · rcases hd with hd | ⟨-, d, hd, hr⟩
      · exact Or.inl (by simp [hd])
      · exact Or.inr ⟨d, hd, (readRaster_some hr).1⟩
    · intro r hr'
      rcases hr with ⟨he, -⟩ | ⟨r', he, hr⟩
      · rw [he] at hr'; exact absurd hr' (by simp)
      · rw [he, Option.some.injEq] at hr'
        subst hr'
        exact (readRaster_some hr).1
  · rintro ⟨hd, hr, hl, hs, hg⟩
    obtain ⟨lc, hl⟩ := (hreq _ (some 0) _).mpr hl
    obtain ⟨so, hs⟩ := (hreq _ (some 0) _).mpr hs
    obtain ⟨gl, hg⟩ := (hreq _ none _).mpr hg
    unfold readInput
    rw [hl, hs, hg]
    obtain ⟨ext, dem, roi, lc0, so0, gl0⟩ := f
    rcases ext with - | e
    · rcases dem with - | d
      · simp at hd
      · have hi : d.info = check := by simpa using hd
        rcases roi with - | r
        · simp [readRaster, hi]
        · simp [readRaster, hi, hr r rfl]
    · rcases roi with - | r
      · simp
      · simp [readRaster, hr r rfl]

/-- Non-vacuity: one row of four pixels, the first without elevation, the second outside of the ROI file,
the third nodata in it. -/
example : (readInput 0 ⟨true, false, true⟩ (⟨none,
    some ⟨0, some (some (-9999)), fun _ j => if j = 0 then some (-9999) else some 1000⟩,
    some ⟨0, some (some 255), fun _ j => if j = 1 then some 0 else if j = 2 then some 255 else some 1⟩,
    some ⟨0, some 99, fun _ j => if j = 3 then 99 else 2⟩, none,
    some ⟨0, some (-1), fun _ j => if j = 3 then -1 else 7⟩⟩ : Files ℕ ℚ)).map
      (fun o => ((List.range 4).map fun j => (o.dem 0 j, o.roi 0 j, o.lc 0 j, o.glacier 0 j))) =
    some [(none, false, 2, 7), (some 1000, false, 2, 7), (some 1000, false, 2, 7),
      (some 1000, true, 0, -1)] := by
  decide

end Verif.InputGrids
