import Verif.Model.SvfFile
import Verif.Model.Terrain
import Verif.Props.SkyView
import Mathlib.Tactic.IntervalCases
import Mathlib.Analysis.Real.Pi.Bounds
import Mathlib.Analysis.SpecialFunctions.Trigonometric.Bounds

/-!
# Sky view factor files (C116)
-/

namespace Verif.SvfFile

open Verif.InputGrids Verif.Shadows Classical

variable {N : Type*}

/-! ## Specification -/

/-- The terrain whose sky view factor a run needs: the extended one if there is one. -/
def Run.source (r : Run N) : Terr := match r.ext with | some e => e.terr | none => r.terr

/-- The cell of that terrain that pixel `(i, j)` of the model grid lies in. -/
def Run.cell (r : Run N) (i j : ℕ) : ℕ × ℕ :=
  match r.ext with | some e => (e.row + i, e.col + j) | none => (i, j)

/-- The kind of file of a run. -/
def Run.kind (r : Run N) : Kind := match r.ext with | some _ => .extendedSvf | none => .svf

/-- The sky view factor of a terrain, as computed with the run's number of sweeps. -/
noncomputable def Run.skyAt (r : Run N) (c : ℕ × ℕ) : ℝ :=
  skyView r.source.dem r.source.info.res r.sweeps azimuths r.source.top (c.1, c.2)

/-- The run `r'` accepts a file made by `r`: same name and kind, same metadata of the model grid, or just the same
shape of the extended grid. -/
def Accepts (r r' : Run N) : Prop :=
  r'.name = r.name ∧ r'.kind = r.kind ∧
  (if r.kind = .svf then r'.source.info = r.source.info
   else r'.source.info.rows = r.source.info.rows ∧ r'.source.info.cols = r.source.info.cols)

/-- `top` is the largest slope of a terrain in degrees, rounded up, at least 1 (`terrain.py:195-198`). -/
def Steepest (n m : ℕ) (res : ℝ) (z : ℕ → ℕ → ℝ) (top : ℕ) : Prop :=
  1 ≤ top ∧ (∀ i < n, ∀ j < m, (Terrain.slopeAspect n m res z i j).1 ≤ top) ∧
  (1 < top → ∃ i < n, ∃ j < m, (top : ℝ) - 1 < (Terrain.slopeAspect n m res z i j).1)

/-! ## Helpers -/

theorem run_disk (r : Run N) (d : Disk N) :
    (run r d).2 = match d r.kind r.name with
      | some _ => d
      | none => put d r.kind r.name (written r.source.info (computed r.source r.sweeps)) := by
  unfold run extendedSvf Run.kind Run.source
  rcases r with ⟨n, t, s, _ | e⟩ <;> simp only
  · cases d .svf n <;> rfl
  · cases d .extendedSvf n <;> rfl

theorem readRaster_written (info : Info) (s : Fld (Option ℝ)) :
    readRaster info (some none) id (written info s) = some fun i j => (s i j).map round3 := by
  simp [readRaster, written]

/-- **C116.** Without a file the run uses exactly the sky view factor of its DEM and number of sweeps, and leaves it,
rounded to three decimals, in the file. -/
theorem C116_first (r : Run N) (d : Disk N) (h : d r.kind r.name = none) :
    (∃ s, (run r d).1 = some s ∧ ∀ i j, s i j = some (r.skyAt (r.cell i j))) ∧
    ∃ f, (run r d).2 r.kind r.name = some f ∧ f.info = r.source.info ∧
      ∀ i j, f.cells i j = some (round3 (r.skyAt (i, j))) := by
  constructor
  · unfold run extendedSvf Run.skyAt Run.cell Run.source
    unfold Run.kind at h
    rcases r with ⟨n, t, s, _ | e⟩ <;> simp only at h ⊢ <;> rw [h]
    · exact ⟨_, rfl, fun i j => rfl⟩
    · exact ⟨_, rfl, fun i j => by simp [crop, computed]⟩
  · rw [run_disk, h]
    exact ⟨written r.source.info (computed r.source r.sweeps), by simp [put], rfl, fun i j => rfl⟩

/-- **C116.** A run changes no file that exists and creates no file of another name or kind. -/
theorem C116_keeps (r : Run N) (d : Disk N) (k : Kind) (n : N) :
    (∀ f, d k n = some f → (run r d).2 k n = some f) ∧
    (¬(k = r.kind ∧ n = r.name) → (run r d).2 k n = d k n) := by
  rw [run_disk]
  cases h : d r.kind r.name with
  | some g => exact ⟨fun f hf => hf, fun _ => rfl⟩
  | none =>
    simp only [put]
    constructor
    · intro f hf
      rw [if_neg]
      · exact hf
      · rintro ⟨rfl, rfl⟩; rw [h] at hf; cases hf
    · intro hk; rw [if_neg hk]

/-- **C116.** No number of later runs changes a file. -/
theorem C116_kept_forever (rs : List (Run N)) (d : Disk N) (k : Kind) (n : N) (f : SvfRaster)
    (h : d k n = some f) : after d rs k n = some f := by
  induction rs generalizing d with
  | nil => exact h
  | cons r rs ih => exact ih _ ((C116_keeps r d k n).1 f h)

/-- **C116 (partial).** Whatever runs lie in between, a later run that accepts the file uses the sky view factor of
the run that wrote it, rounded to three decimals: not that of its own DEM and number of sweeps. -/
theorem C116_later_partial (r r' : Run N) (d : Disk N) (h : d r.kind r.name = none) (rs : List (Run N))
    (ha : Accepts r r') :
    ∃ s, (run r' (after (run r d).2 rs)).1 = some s ∧
      ∀ i j, s i j = some (round3 (r.skyAt (r'.cell i j))) := by
  obtain ⟨hn, hk, hi⟩ := ha
  have h1 : (run r d).2 r.kind r.name = some (written r.source.info (computed r.source r.sweeps)) := by
    rw [run_disk, h]; simp [put]
  have h2 := C116_kept_forever rs _ _ _ _ h1
  obtain ⟨d', hd'⟩ : ∃ d', after (run r d).2 rs = d' := ⟨_, rfl⟩
  rw [hd'] at h2 ⊢
  rw [← hn, ← hk] at h2
  rcases r' with ⟨n', t', s', _ | e'⟩
  · change d' .svf n' = _ at h2
    have hk' : r.kind = .svf := hk.symm
    rw [if_pos hk'] at hi
    replace hi : t'.info = r.source.info := hi
    unfold run
    simp only
    rw [h2]
    simp only
    rw [hi]
    exact ⟨_, readRaster_written _ _, fun i j => rfl⟩
  · change d' .extendedSvf n' = _ at h2
    have hk' : r.kind = .extendedSvf := hk.symm
    rw [if_neg (by rw [hk']; intro h; cases h)] at hi
    replace hi : e'.terr.info.rows = r.source.info.rows ∧ e'.terr.info.cols = r.source.info.cols := hi
    unfold run extendedSvf
    simp only
    rw [h2]
    simp only
    rw [if_neg (by
      simp only [written, ne_eq, Prod.mk.injEq, not_not]
      exact ⟨hi.1.symm, hi.2.symm⟩)]
    rw [show (written r.source.info (computed r.source r.sweeps)).info = r.source.info from rfl,
      readRaster_written]
    exact ⟨_, rfl, fun i j => rfl⟩

theorem accepts_self (r : Run N) : Accepts r r := by
  refine ⟨rfl, rfl, ?_⟩
  split_ifs
  · rfl
  · exact ⟨rfl, rfl⟩

theorem round3_near (x : ℝ) : |round3 x - x| ≤ 1 / 2000 := by
  have h := abs_sub_round (1000 * x)
  have h2 : round3 x - x = -(1000 * x - round (1000 * x)) / 1000 := by unfold round3; ring
  rw [h2, abs_div, abs_neg, abs_of_pos (by norm_num : (0 : ℝ) < 1000)]
  rw [div_le_iff₀ (by norm_num)]
  linarith

/-- **C116 (partial).** When a run is repeated, with any other runs in between, every repetition uses the same
values, and they differ from those of the first run by at most half a unit of the third decimal. -/
theorem C116_repeat_partial (r : Run N) (d : Disk N) (h : d r.kind r.name = none) (rs rs' : List (Run N)) :
    ∃ s0 s, (run r d).1 = some s0 ∧ (run r (after (run r d).2 rs)).1 = some s ∧
      (run r (after (run r d).2 rs')).1 = some s ∧
      ∀ i j, ∃ a b, s0 i j = some a ∧ s i j = some b ∧ a = r.skyAt (r.cell i j) ∧ |b - a| ≤ 1 / 2000 := by
  obtain ⟨⟨s0, h0, h0'⟩, -⟩ := C116_first r d h
  obtain ⟨s, hs, hs'⟩ := C116_later_partial r r d h rs (accepts_self r)
  obtain ⟨s2, hs2, hs2'⟩ := C116_later_partial r r d h rs' (accepts_self r)
  have he : s2 = s := by funext i j; rw [hs', hs2']
  exact ⟨s0, s, h0, hs, he ▸ hs2, fun i j => ⟨_, _, h0' i j, hs' i j, rfl, round3_near _⟩⟩

/-- **C116.** A file whose metadata differs from the model grid is refused; for the extended grid a file of
another place or resolution is used as long as it has the right number of rows and columns. -/
theorem C116_checked (r : Run N) (d : Disk N) (f : SvfRaster) (h : d r.kind r.name = some f) :
    (r.kind = .svf → ((run r d).1 = none ↔ f.info ≠ r.source.info)) ∧
    (r.kind = .extendedSvf → ((run r d).1 = none ↔
      ¬(f.info.rows = r.source.info.rows ∧ f.info.cols = r.source.info.cols))) := by
  unfold run extendedSvf
  unfold Run.kind at h ⊢
  unfold Run.source
  rcases r with ⟨n, t, s, _ | e⟩ <;> simp only at h ⊢ <;> rw [h]
  · refine ⟨fun _ => ?_, fun h => by cases h⟩
    simp only [readRaster]
    by_cases hi : f.info = t.info <;> simp [hi]
  · refine ⟨fun h => by (cases h), fun _ => ?_⟩
    simp only [readRaster]
    by_cases hi : f.info.rows = e.terr.info.rows ∧ f.info.cols = e.terr.info.cols
    · simp [hi]
    · simp [hi]

/-! ## Witnesses -/

/-- A raster of 3 × 3 cells of 1 m: level, or with a wall of 2 m along its northern edge. -/
def box (wall : Bool) : Dem := ⟨3, 3, fun c => some (if wall ∧ c.1 = 0 then 2 else 0)⟩

/-- The runs of the witnesses. -/
def boxRun (wall : Bool) : Run Unit :=
  ⟨(), ⟨⟨3, 3, 1, 0, 3⟩, box wall, if wall then 45 else 1⟩, none, none⟩

theorem slopeOf_values : Terrain.slopeOf 0 0 = 0 ∧ Terrain.slopeOf 0 (-1) = 45 := by
  have hp := Real.pi_pos
  constructor
  · simp [Terrain.slopeOf, Terrain.deg]
  · simp only [Terrain.slopeOf, Terrain.deg]
    norm_num

theorem box_steepest (wall : Bool) :
    Steepest 3 3 1 (fun i j => ((box wall).z (i, j)).getD 0) (boxRun wall).source.top := by
  obtain ⟨h0, h1⟩ := slopeOf_values
  have key : ∀ i < 3, ∀ j < 3,
      (Terrain.slopeAspect 3 3 1 (fun i j => ((box wall).z (i, j)).getD 0) i j).1 =
        if wall ∧ i < 2 then 45 else 0 := by
    intro i hi j hj
    unfold Terrain.slopeAspect
    rw [if_neg (by omega)]
    simp only
    have hx : Terrain.dzdx 3 3 (1 : ℝ) (fun i j => ((box wall).z (i, j)).getD 0) i j = 0 := by
      interval_cases i <;> interval_cases j <;> cases wall <;>
        norm_num [Terrain.dzdx, Terrain.za, Terrain.zb, Terrain.zc, Terrain.zd, Terrain.zf, Terrain.zg,
          Terrain.zh, Terrain.zi, Terrain.copyRow, Terrain.copyCol, Terrain.rollRows, Terrain.rollCols, box]
    have hy : Terrain.dzdy 3 3 (1 : ℝ) (fun i j => ((box wall).z (i, j)).getD 0) i j =
        if wall ∧ i < 2 then -1 else 0 := by
      interval_cases i <;> interval_cases j <;> cases wall <;>
        norm_num [Terrain.dzdy, Terrain.za, Terrain.zb, Terrain.zc, Terrain.zd, Terrain.zf, Terrain.zg,
          Terrain.zh, Terrain.zi, Terrain.copyRow, Terrain.copyCol, Terrain.rollRows, Terrain.rollCols, box]
    rw [hx, hy]
    split_ifs
    · exact h1
    · exact h0
  refine ⟨?_, ?_, ?_⟩
  · cases wall <;> simp [boxRun, Run.source]
  · intro i hi j hj
    rw [key i hi j hj]
    cases wall <;> simp [boxRun, Run.source]
    split_ifs <;> norm_num
  · intro h
    cases wall
    · simp [boxRun, Run.source] at h
    · refine ⟨0, by norm_num, 0, by norm_num, ?_⟩
      rw [key 0 (by norm_num) 0 (by norm_num)]
      norm_num [boxRun, Run.source]

theorem sky_level (i j : ℕ) : (boxRun false).skyAt (i, j) = Real.cos (1 * (Real.pi / 180)) ^ 2 ∧
    (boxRun false).skyAt (i, j) < 1 :=
  C73_flat_false (box false) (by norm_num [boxRun, Run.source]) _ azimuths (by simp [azimuths]) 0
    (fun c _ => by simp [box]) (by simp [box, boxRun, Run.source]) 1 le_rfl (by norm_num) _

theorem round3_level (i j : ℕ) : round3 ((boxRun false).skyAt (i, j)) = 1 := by
  obtain ⟨h, hlt⟩ := sky_level i j
  have hx : Real.sin (1 * (Real.pi / 180)) ^ 2 ≤ (1 * (Real.pi / 180)) ^ 2 := by
    have h0 : 0 ≤ 1 * (Real.pi / 180) := by have := Real.pi_pos; positivity
    have h1 := Real.sin_le h0
    have h2 : 0 ≤ Real.sin (1 * (Real.pi / 180)) :=
      Real.sin_nonneg_of_nonneg_of_le_pi h0 (by have := Real.pi_pos; linarith)
    gcongr
  have hp := Real.pi_lt_d2
  have hp0 := Real.pi_pos
  have hq : (1 * (Real.pi / 180)) ^ 2 ≤ 0.0005 := by
    nlinarith
  have hc := Real.sin_sq_add_cos_sq (1 * (Real.pi / 180))
  have hr : round (1000 * (boxRun false).skyAt (i, j)) = 1000 := by
    rw [round_eq, Int.floor_eq_iff]
    push_cast
    constructor
    · rw [h]; linarith
    · linarith
  unfold round3
  rw [hr]; norm_num

/-- **C116 (negated).** A run on level ground that is repeated with the same inputs uses another sky view factor: the
first time the computed value, less than 1, the second time the value of the file, 1. -/
theorem C116_repeat_false :
    ∃ s s', (run (boxRun false) fun _ _ => none).1 = some s ∧
      (run (boxRun false) (run (boxRun false) fun _ _ => none).2).1 = some s' ∧ s 1 1 ≠ s' 1 1 := by
  obtain ⟨⟨s, h, hs⟩, -⟩ := C116_first (boxRun false) (fun _ _ => none) rfl
  obtain ⟨s', h', hs'⟩ := C116_later_partial (boxRun false) (boxRun false) (fun _ _ => none) rfl []
    (accepts_self _)
  refine ⟨s, s', h, h', ?_⟩
  rw [hs, hs', show (boxRun false).cell 1 1 = (1, 1) from rfl, round3_level]
  intro h
  have := (sky_level 1 1).2
  rw [Option.some.inj h] at this
  exact lt_irrefl _ this

theorem sky_walled : (boxRun true).skyAt (1, 1) ≤ 1 - 1 / 72 := by
  have hcur : svfCur (Lit (box true) 1 none 0 (1, 1)) 45 = 45 := by
    refine (C73_lowest _ 45 (by norm_num)).2.2.2 fun e h1 h2 => ?_
    simp only [Lit, not_not]
    have hsl := sunDir_slanted 0 (show e < 90 by omega)
    have hcos := cos_deg_pos (show e < 90 by omega)
    have hy : (sunDir 0 e).y = -Real.cos (e * (Real.pi / 180)) := by simp [sunDir]
    have hxx : (sunDir 0 e).x = 0 := by simp [sunDir]
    have hinv : inv (sunDir 0 e) = (0, 1) := by
      simp only [inv, hxx, hy, abs_neg, abs_zero, abs_of_pos hcos, neg_neg]
      rw [max_eq_right hcos.le, div_self hcos.ne']
      simp
    have hpos : ∀ t : ℕ, pos (sunDir 0 e) (0, 1) t = ((t : ℤ), 1) := by
      intro t
      simp only [pos, hinv]
      refine Prod.ext ?_ ?_
      · simp only [one_mul]
        rw [show (((0 : ℤ) : ℝ) + (t : ℝ)) = ((t : ℤ) : ℝ) by push_cast; ring]; exact roundEven_int _
      · simp only [zero_mul, add_zero]
        exact roundEven_int _
    rw [C72_shaded_iff _ _ _ hsl]
    refine ⟨(0, 1), ?_, 1, 0, by omega, fun v hv => ?_, ?_, ?_, 2, 0, ?_, ?_, ?_⟩
    · simp [isStart, Dem.Inside, box]
    · rw [hpos]; simp only [Dem.Inside, box]; omega
    · rw [hpos]; rfl
    · intro v h1 h2; omega
    · rw [hpos]; simp [box]
    · simp [box]
    · simp only [Hides, lineLength, hinv]
      rw [tanElevation_sunDir 0 (show e < 90 by omega)]
      have ht : Real.tan (e * (Real.pi / 180)) ≤ 1 := by
        rw [← Real.tan_pi_div_four]
        have hp := Real.pi_pos
        have he : (e : ℝ) ≤ 45 := by exact_mod_cast h2
        rcases eq_or_lt_of_le (show (e : ℝ) * (Real.pi / 180) ≤ Real.pi / 4 by nlinarith) with h | h
        · rw [h]
        · exact (Real.tan_lt_tan_of_lt_of_lt_pi_div_two (by have : (0:ℝ) ≤ e := by positivity
                                                            nlinarith) (by linarith) h).le
      norm_num
      linarith
  have hform : (boxRun true).skyAt (1, 1) = (azimuths.map fun a =>
      Real.cos (svfCur (Lit (box true) 1 none a (1, 1)) 45 * (Real.pi / 180)) ^ 2).sum / azimuths.length := by
    simp only [Run.skyAt, boxRun, Run.source, skyView, if_true]
    rw [if_neg (by simp [box])]
    rfl
  rw [hform]
  have haz : azimuths = 0 :: (List.range 35).map fun k : ℕ => 10 * ((k + 1 : ℕ) : ℝ) := by
    unfold azimuths
    rw [List.range_succ_eq_map]
    simp [Function.comp_def]
  have hlen : (azimuths.length : ℝ) = 36 := by simp [azimuths]
  rw [hlen, haz, List.map_cons, List.sum_cons, hcur]
  have hhalf : Real.cos ((45 : ℕ) * (Real.pi / 180)) ^ 2 = 1 / 2 := by
    rw [show ((45 : ℕ) : ℝ) * (Real.pi / 180) = Real.pi / 4 by push_cast; ring, Real.cos_pi_div_four]
    rw [div_pow, Real.sq_sqrt (by norm_num)]; norm_num
  rw [hhalf]
  obtain ⟨f, hf⟩ : ∃ f : ℝ → ℝ, f = fun a =>
    Real.cos (svfCur (Lit (box true) 1 none a (1, 1)) 45 * (Real.pi / 180)) ^ 2 := ⟨_, rfl⟩
  rw [← hf]
  have hle : ∀ l : List ℝ, (l.map f).sum ≤ l.length := by
    intro l
    induction l with
    | nil => simp
    | cons a l ih =>
      have : f a ≤ 1 := by rw [hf]; exact Real.cos_sq_le_one _
      simp only [List.map_cons, List.sum_cons, List.length_cons]
      push_cast; linarith
  have := hle ((List.range 35).map fun k : ℕ => 10 * ((k + 1 : ℕ) : ℝ))
  simp only [List.length_map, List.length_range] at this
  rw [div_le_iff₀ (by norm_num)]
  push_cast at this ⊢
  linarith

/-- **C116 (negated).** A run in a directory that was used before with another DEM of the same extent uses the sky
view factor of that DEM: behind a wall of 2 m, built after the first run on level ground, the second run uses 1
instead of its own value of less than 0.987. -/
theorem C116_stale_false :
    Steepest 3 3 1 (fun i j => ((box true).z (i, j)).getD 0) (boxRun true).source.top ∧
    ∃ s, (run (boxRun true) (run (boxRun false) fun _ _ => none).2).1 = some s ∧
      s 1 1 = some 1 ∧ (boxRun true).skyAt ((boxRun true).cell 1 1) ≤ 1 - 1 / 72 := by
  obtain ⟨s', h', hs'⟩ := C116_later_partial (boxRun false) (boxRun true) (fun _ _ => none) rfl []
    ⟨rfl, rfl, by rw [if_pos (by rfl)]; rfl⟩
  refine ⟨box_steepest true, s', h', ?_, sky_walled⟩
  rw [hs', show (boxRun true).cell 1 1 = (1, 1) from rfl, round3_level]

/-- A run with an extended grid and one without, and a disk without files. -/
example : (⟨(), (boxRun true).terr, none, some ⟨(boxRun true).terr, 1, 1⟩⟩ : Run Unit).kind = .extendedSvf ∧
    (boxRun true).kind = .svf ∧ Accepts (boxRun false) (boxRun true) ∧ boxRun false ≠ boxRun true := by
  refine ⟨rfl, rfl, ⟨rfl, rfl, by rw [if_pos (by rfl)]; rfl⟩, fun h => ?_⟩
  have := congrArg (fun r => r.terr.top) h
  simp [boxRun] at this

end Verif.SvfFile
