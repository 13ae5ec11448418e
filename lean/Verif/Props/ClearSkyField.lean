import Verif.Model.ClearSkyField
import Verif.Props.ClearSky

/-!
# C111: clear-sky irradiance fields
-/

namespace Verif.ClearSkyField

open Verif.ClearSky (Input noon C74_direct C74_diffuse)

/-! ## Specification -/

/-- Unit vector. -/
def IsUnit3 (v : ℝ × ℝ × ℝ) : Prop := v.1 ^ 2 + v.2.1 ^ 2 + v.2.2 ^ 2 = 1

/-- A pixel of the terrain: unit normal, lit or shaded, sky view factor in range. -/
structure PxOK (x : Px) : Prop where
  normal : IsUnit3 x.normal
  shadow : x.shadow = 0 ∨ x.shadow = 1
  svf0 : 0 ≤ x.svf
  svf1 : x.svf ≤ 1

/-! ## Lemmas -/

theorem incidence_range (k : Sky) (hk : IsUnit3 k.sun) (x : Px) (hx : IsUnit3 x.normal) :
    0 ≤ incidence k x ∧ incidence k x ≤ 1 := by
  refine ⟨le_max_right _ _, max_le ?_ zero_le_one⟩
  unfold IsUnit3 at hk hx
  unfold Terrain.incidence
  nlinarith [sq_nonneg (k.sun.1 - x.normal.1), sq_nonneg (k.sun.2.1 + x.normal.2.1),
    sq_nonneg (k.sun.2.2 - x.normal.2.2)]

theorem sum_range (l : List ℝ) (h : ∀ a ∈ l, 0 ≤ a ∧ a ≤ 1) : 0 ≤ l.sum ∧ l.sum ≤ l.length := by
  induction l with
  | nil => simp
  | cons a l ih =>
    obtain ⟨h1, h2⟩ := h a (by simp)
    obtain ⟨h3, h4⟩ := ih fun b hb => h b (List.mem_cons_of_mem _ hb)
    simp only [List.sum_cons, List.length_cons, Nat.cast_add, Nat.cast_one]
    exact ⟨by linarith, by linarith⟩

theorem mean_range (l : List ℝ) (h : ∀ a ∈ l, 0 ≤ a ∧ a ≤ 1) : 0 ≤ mean l ∧ mean l ≤ 1 := by
  obtain ⟨h1, h2⟩ := sum_range l h
  exact ⟨div_nonneg h1 (Nat.cast_nonneg _), div_le_one_of_le₀ h2 (Nat.cast_nonneg _)⟩

theorem sunFrac_range (xs : List Px) (h : ∀ x ∈ xs, PxOK x) : 0 ≤ sunFrac xs ∧ sunFrac xs ≤ 1 := by
  apply mean_range
  intro a ha
  obtain ⟨x, hx, rfl⟩ := List.mem_map.1 ha
  rcases (h x (List.mem_of_mem_filter hx)).shadow with e | e <;> rw [e] <;> norm_num

theorem meanAoi_range (k : Sky) (hk : IsUnit3 k.sun) (xs : List Px) (h : ∀ x ∈ xs, PxOK x) :
    0 ≤ meanAoi k xs ∧ meanAoi k xs ≤ 1 := by
  unfold meanAoi
  simp only
  split_ifs
  · apply mean_range
    intro a ha
    obtain ⟨x, hx, rfl⟩ := List.mem_map.1 ha
    exact incidence_range k hk x (h x (List.mem_of_mem_filter (List.mem_of_mem_filter hx))).normal
  · norm_num

/-! ## Properties -/

/-- **C111**, pixels of the region of interest: global = direct + diffuse, all 0 without sun, no direct
irradiance in the shade; other pixels keep what they had. -/
theorem C111_field (k : Sky) (up : Bool) (soil : ℝ) (albedos : List (Option ℝ)) (xs : List Px)
    (old : List (Option Irr)) (hlen : old.length = xs.length) (n : ℕ) (x : Px) (hx : xs[n]? = some x) :
    (x.roi = false → (field k up soil albedos xs old)[n]? = old[n]?) ∧
    (x.roi = true → ∃ v, (field k up soil albedos xs old)[n]? = some (some v) ∧
      v.sw = v.dir + v.diff ∧
      (up = false → v.sw = 0 ∧ v.dir = 0 ∧ v.diff = 0) ∧
      (x.shadow = 0 → v.dir = 0) ∧
      (up = true → v.dir = (pxInput k [] 0 x).direct ∧
        v.diff = (pxInput k xs (meanAlbedo soil albedos) x).diffuse)) := by
  have hn : n < old.length := by
    rw [hlen]; exact (List.getElem?_eq_some_iff.1 hx).1
  have ho : old[n]? = some old[n] := List.getElem?_eq_getElem hn
  have hf : (field k up soil albedos xs old)[n]? = some (if x.roi then
      some ⟨(if up then (pxInput k xs (meanAlbedo soil albedos) x).direct else 0) +
          (if up then (pxInput k xs (meanAlbedo soil albedos) x).diffuse else 0),
        if up then (pxInput k xs (meanAlbedo soil albedos) x).direct else 0,
        if up then (pxInput k xs (meanAlbedo soil albedos) x).diffuse else 0⟩ else old[n]) := by
    simp only [field, List.getElem?_zipWith, hx, ho]
  refine ⟨fun hr => ?_, fun hr => ?_⟩
  · rw [hf, hr, ho]; rfl
  · rw [hr, if_pos rfl] at hf
    refine ⟨_, hf, rfl, ?_, ?_, ?_⟩
    · intro h; simp [h]
    · intro h
      simp only
      split_ifs
      · simp [Input.direct, Input.pot, pxInput, h]
      · rfl
    · intro h
      simp only [h, if_true]
      exact ⟨rfl, trivial⟩

/-- **C111**, ground albedo: the mean over the region of interest; the albedo of soil if a value is
missing or there are no pixels; within the range of the albedos. -/
theorem C111_albedo (soil : ℝ) (albedos : List (Option ℝ)) :
    (none ∈ albedos → meanAlbedo soil albedos = soil) ∧
    (albedos = [] → meanAlbedo soil albedos = soil) ∧
    (∀ l : List ℝ, l ≠ [] → albedos = l.map some →
      meanAlbedo soil albedos * l.length = l.sum) ∧
    ((∀ a, some a ∈ albedos → 0 ≤ a ∧ a ≤ 1) → 0 ≤ soil → soil ≤ 1 →
      0 ≤ meanAlbedo soil albedos ∧ meanAlbedo soil albedos ≤ 1) := by
  have hsome : ∀ l : List ℝ, (l.map some).mapM (m := Option) id = some l := by
    intro l
    induction l with
    | nil => rfl
    | cons a l ih => simp [List.mapM_cons, ih]
  have hnone : none ∈ albedos → albedos.mapM (m := Option) id = none := by
    intro h
    induction albedos with
    | nil => simp at h
    | cons a l ih =>
      rcases List.mem_cons.1 h with e | e
      · subst e; simp [List.mapM_cons]
      · cases a <;> simp [List.mapM_cons, ih e]
  refine ⟨fun h => ?_, fun h => ?_, fun l hl h => ?_, fun h h0 h1 => ?_⟩
  · rw [meanAlbedo, hnone h]
  · rw [h]; rfl
  · rw [meanAlbedo, h, hsome]
    cases l with
    | nil => exact absurd rfl hl
    | cons a l =>
      simp only [mean]
      rw [div_mul_cancel₀]
      simp only [List.length_cons, Nat.cast_add, Nat.cast_one]
      positivity
  · by_cases hm : none ∈ albedos
    · rw [meanAlbedo, hnone hm]; exact ⟨h0, h1⟩
    · obtain ⟨l, rfl⟩ : ∃ l : List ℝ, albedos = l.map some := by
        clear h hnone
        induction albedos with
        | nil => exact ⟨[], rfl⟩
        | cons a l ih =>
          obtain ⟨l', e⟩ := ih fun e => hm (List.mem_cons_of_mem _ e)
          cases a with
          | none => exact absurd (by simp) hm
          | some a => exact ⟨a :: l', by rw [e]; rfl⟩
      rw [meanAlbedo, hsome]
      cases l with
      | nil => exact ⟨h0, h1⟩
      | cons a l =>
        apply mean_range
        intro b hb
        exact h b (List.mem_map_of_mem hb)

/-- **C111**, sign: in every pixel of the terrain all three fields are non-negative, for an atmosphere
within the range of the formulas (C74). The fraction of lit pixels and the mean incidence on them are
within [0, 1]. -/
theorem C111_nonneg (k : Sky) (hk : IsUnit3 k.sun) (hz : 0 ≤ k.sun.2.2) (up : Bool) (soil : ℝ)
    (h0 : 0 ≤ soil) (h1 : soil ≤ 1) (albedos : List (Option ℝ))
    (ha : ∀ a, some a ∈ albedos → 0 ≤ a ∧ a ≤ 1) (xs : List Px) (hxs : ∀ x ∈ xs, PxOK x)
    (old : List (Option Irr)) (hlen : old.length = xs.length) (n : ℕ) (x : Px) (hx : xs[n]? = some x)
    (hroi : x.roi = true) (hpr : 0 < x.press) (hwa : 0 ≤ x.water) (hoz : 0 ≤ k.ozone)
    (hpath : k.ozone * 100 * (pxInput k xs soil x).m ≤ 50) (hvis : 2000 ≤ k.visibility)
    (hssa : k.ssa ≤ 1)
    (hp : (1 - k.ssa) * (1 - (pxInput k xs soil x).p + (pxInput k xs soil x).p ^ (106 / 100 : ℝ)) ≤ 1)
    (hc0 : 0 ≤ k.clearSkyAlbedo) (hc1 : k.clearSkyAlbedo ≤ 7 / 10) :
    (0 ≤ sunFrac xs ∧ sunFrac xs ≤ 1) ∧ (0 ≤ meanAoi k xs ∧ meanAoi k xs ≤ 1) ∧
    ∃ v, (field k up soil albedos xs old)[n]? = some (some v) ∧ 0 ≤ v.dir ∧ 0 ≤ v.diff ∧ 0 ≤ v.sw := by
  have s1 := sunFrac_range xs hxs
  have s2 := meanAoi_range k hk xs hxs
  have hpx := hxs x (List.mem_of_getElem? hx)
  obtain ⟨v, hv, e1, e2, -, e4⟩ := (C111_field k up soil albedos xs old hlen n x hx).2 hroi
  refine ⟨s1, s2, v, hv, ?_⟩
  cases up with
  | false => obtain ⟨a, b, c⟩ := e2 rfl; rw [a, b, c]; exact ⟨le_rfl, le_rfl, le_rfl⟩
  | true =>
    obtain ⟨a, b⟩ := e4 rfl
    obtain ⟨g0, g1⟩ := (C111_albedo soil albedos).2.2.2 ha h0 h1
    have hd := (C74_direct (pxInput k [] 0 x) hpx.shadow).1
    have hok : (pxInput k xs (meanAlbedo soil albedos) x).OK :=
      { press := hpr, water := hwa, ozone := hoz, ozonePath := hpath, visibility := hvis, ssa := hssa,
        path := hp, csa0 := hc0, csa1 := hc1, ga0 := g0, ga1 := g1, svf0 := hpx.svf0,
        svf1 := hpx.svf1, sunZ0 := hz, shadow := hpx.shadow, sunFrac := s1.1, meanAoi := s2.1 }
    have hf := (C74_diffuse _ hok).2.2.2
    rw [e1, a, b]
    exact ⟨hd, hf, add_nonneg hd hf⟩

/-- **C111**, stations of the extended grid, what holds: the direct part is that of a grid pixel of the
same terrain; the diffuse part as well if the station is shaded or sees the whole sky. -/
theorem C111_station_partial (k : Sky) (soil : ℝ) (albedos : List (Option ℝ))
    (ss xs : List Px) (n : ℕ) (x : Px) (hs : ss[n]? = some x) :
    ∃ d, (stations k soil albedos ss)[n]? = some ((pxInput k xs (meanAlbedo soil albedos) x).direct + d) ∧
      (x.shadow = 0 ∨ x.svf = 1 → d = (pxInput k xs (meanAlbedo soil albedos) x).diffuse) := by
  refine ⟨(pxInput k (ss.map fun x => { x with roi := true }) (meanAlbedo soil albedos)
    { x with roi := true }).diffuse, ?_, ?_⟩
  · simp only [stations, List.getElem?_map, hs, Option.map_some]
    rfl
  · rintro (h | h)
    · unfold Input.diffuse
      have p1 : (pxInput k (ss.map fun x => { x with roi := true }) (meanAlbedo soil albedos)
          { x with roi := true }).pot = 0 := by simp [Input.pot, pxInput, h]
      have p2 : (pxInput k xs (meanAlbedo soil albedos) x).pot = 0 := by simp [Input.pot, pxInput, h]
      rw [p1, p2]
      simp only [zero_mul]
      rfl
    · unfold Input.diffuse
      have p1 : (pxInput k (ss.map fun x => { x with roi := true }) (meanAlbedo soil albedos)
          { x with roi := true }).svf = 1 := h
      have p2 : (pxInput k xs (meanAlbedo soil albedos) x).svf = 1 := h
      rw [p1, p2]
      simp only [sub_self, zero_mul, add_zero]
      rfl

/-- **C111** is false for lit stations that do not see the whole sky: the share of lit cells and the
mean incidence are those of the selected stations, not of the terrain. A second, shaded station lowers
the clear-sky irradiance of the first one. -/
theorem C111_station_false (k : Sky) (soil : ℝ) (albedos : List (Option ℝ)) (x y : Px)
    (hx : x.shadow = 1) (hy : y.shadow = 0) (hsvf : x.svf < 1) (ha : 0 < meanAlbedo soil albedos)
    (hd : 0 < (pxInput k [] 0 x).direct) :
    ∃ v w w', stations k soil albedos [x] = [v] ∧ stations k soil albedos [x, y] = [w, w'] ∧ w < v := by
  refine ⟨_, _, _, rfl, rfl, ?_⟩
  simp only
  have hdir : ∀ ys a, (pxInput k ys a { x with roi := true }).direct = (pxInput k [] 0 x).direct :=
    fun _ _ => rfl
  rw [hdir, hdir]
  refine add_lt_add_of_le_of_lt le_rfl ?_
  have hf1 : sunFrac (List.map (fun x : Px => { x with roi := true }) [x]) = 1 := by
    simp [sunFrac, mean, hx]
  have hf2 : sunFrac (List.map (fun x : Px => { x with roi := true }) [x, y]) = 1 / 2 := by
    simp [sunFrac, mean, hx, hy]
  have hm1 : meanAoi k (List.map (fun x : Px => { x with roi := true }) [x]) = incidence k x := by
    simp [meanAoi, mean, hx, incidence]
  have hm2 : meanAoi k (List.map (fun x : Px => { x with roi := true }) [x, y]) = incidence k x := by
    simp [meanAoi, mean, hx, hy, incidence]
  have hpt : 0 < (pxInput k [] 0 x).pot * (pxInput k [] 0 x).transDir := by
    unfold Input.direct at hd
    nlinarith
  have hi : 0 < incidence k x := by
    rcases (le_max_right (Terrain.incidence k.sun x.normal) 0).lt_or_eq with h | h
    · exact h
    · exfalso
      have : (pxInput k [] 0 x).pot = 0 := by
        simp only [Input.pot, Input.aoi, pxInput]
        rw [← h]; ring
      rw [this] at hpt
      simp at hpt
  have key : ∀ ys, (pxInput k ys (meanAlbedo soil albedos) { x with roi := true }).diffuse =
      (pxInput k [] (meanAlbedo soil albedos) x).diff * x.svf + (1 - x.svf) *
        ((pxInput k [] 0 x).pot * (pxInput k [] 0 x).transDir * sunFrac ys * meanAoi k ys +
          (pxInput k [] (meanAlbedo soil albedos) x).diff) * meanAlbedo soil albedos := fun _ => rfl
  rw [key, key, hf1, hf2, hm1, hm2]
  have h3 : 0 < (1 - x.svf) * ((pxInput k [] 0 x).pot * (pxInput k [] 0 x).transDir * incidence k x) *
      meanAlbedo soil albedos := mul_pos (mul_pos (by linarith) (mul_pos hpt hi)) ha
  nlinarith

/-! ## A concrete case -/

/-- Sun in the zenith, default parameters. -/
noncomputable def exSky : Sky := ⟨35 / 10000, 25000, 9 / 10, 685 / 10000, 0, (0, 0, 1)⟩

/-- A lit horizontal pixel. -/
noncomputable def exPx : Px := ⟨true, 1000, 9 / 10, (0, 0, 1), 101325, 10, 1⟩

example : IsUnit3 exSky.sun ∧ PxOK exPx ∧ (pxInput exSky [exPx] (1 / 2) exPx).m = noon.m ∧
    (pxInput exSky [exPx] (1 / 2) exPx).p = noon.p ∧ meanAlbedo (1 / 5) [some (1 / 2)] = 1 / 2 := by
  refine ⟨by norm_num [IsUnit3, exSky], ⟨by norm_num [IsUnit3, exPx], Or.inr rfl, by norm_num [exPx],
    by norm_num [exPx]⟩, rfl, rfl, ?_⟩
  norm_num [meanAlbedo, mean]

/-- The pixel receives direct irradiance, as assumed in `C111_station_false`. -/
example : 0 < (pxInput exSky [] 0 exPx).direct := by
  obtain ⟨f1, f2, f3, f4, -⟩ := ClearSky.OK.facts noon ClearSky.noon_ok
  have hz : noon.zenith = 0 := by simp [Input.zenith, noon]
  have hm : noon.p ≤ 1 := by
    have h1 : noon.m ≤ 1 := by
      rw [Input.m, hz, (ClearSky.C74_air_mass_partial le_rfl (by positivity)).1]
      simp only [Real.cos_zero, zero_mul, sub_zero]
      have := Real.rpow_pos_of_pos (show (0 : ℝ) < 93885 / 1000 by norm_num) (-(1253 / 1000))
      rw [div_le_one (by positivity)]; linarith
    have : noon.p = noon.m := by
      rw [Input.p, ClearSky.airMassPress, show noon.press = 101325 from rfl]; field_simp
    rw [this]; exact h1
  have hr : 0 < ClearSky.transRayleigh noon.p := by
    have : noon.p ^ (101 / 100 : ℝ) ≤ 1 := Real.rpow_le_one f1.le hm (by norm_num)
    exact mul_pos (Real.exp_pos _) (by linarith)
  have ht : 0 < (pxInput exSky [] 0 exPx).transDir := by
    show 0 < min (max (ClearSky.transRayleigh noon.p * noon.tOzone * ClearSky.transGases noon.p *
      noon.tVapor * noon.tAer + ClearSky.elevCorr 1000) 0) 1
    refine lt_min (lt_max_of_lt_left ?_) one_pos
    have h1 : 0 < ClearSky.elevCorr 1000 := by unfold ClearSky.elevCorr; norm_num
    have h2 : 0 < ClearSky.transGases noon.p := Real.exp_pos _
    positivity
  have hp : 0 < (pxInput exSky [] 0 exPx).pot := by
    have he : 0 < (pxInput exSky [] 0 exPx).toa := by
      simp only [Input.toa, ClearSky.eccCorr, pxInput, exSky]
      norm_num
    have ha : (pxInput exSky [] 0 exPx).aoi = 1 := by
      simp [Input.aoi, pxInput, exSky, exPx, Terrain.incidence]
    rw [Input.pot, ha]
    simp only [mul_one]
    exact mul_pos he (by norm_num [pxInput, exPx])
  exact mul_pos (mul_pos (by norm_num) hp) ht

end Verif.ClearSkyField
