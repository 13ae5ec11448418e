import Verif.Model.LongwaveField
import Verif.Props.ClearSkyField
import Verif.Props.Irradiance

/-!
# C150: where radiation depends on the other pixels
-/

namespace Verif.LongwaveField

/-- **C150 (longwave radiation, whole sky visible).** At a pixel that sees the whole sky the longwave irradiance is the
same in every region that contains it, whatever the snow cover of the other pixels and of the pixel itself. -/
theorem C150_longwave_open (xs ys : List Px) (n m : ℕ) (x : Px) (hx : xs[n]? = some x) (hy : ys[m]? = some x)
    (hs : x.svf = 1) : ∃ v, (field xs)[n]? = some v ∧ (field ys)[m]? = some v := by
  refine ⟨_, by rw [field, List.getElem?_map, hx]; rfl, ?_⟩
  rw [field, List.getElem?_map, hy]
  simp [Irradiance.longwave, hs]

/-- **C150 (longwave radiation, part of the sky hidden).** The irradiance of a pixel is the mean of its irradiances in
completely snow-covered and in completely snow-free surroundings, weighted with the share of snow-free pixels; so it
lies between the two. -/
theorem C150_longwave_mixture (xs : List Px) (n : ℕ) (x : Px) (hx : xs[n]? = some x) (w : ℝ) (hw : w ≠ 0)
    (free : ℕ) (hf : free = (xs.map Px.swe).count 0) :
    ∃ v snowy rocky, (field xs)[n]? = some v ∧ field [{ x with swe := w }] = [snowy] ∧
      field [{ x with swe := 0 }] = [rocky] ∧
      v * xs.length = snowy * (xs.length - free) + rocky * free ∧
      min snowy rocky ≤ v ∧ v ≤ max snowy rocky := by
  classical
  have hn : n < xs.length := (List.getElem?_eq_some_iff.mp hx).1
  have hpos : (0 : ℝ) < xs.length := by exact_mod_cast (Nat.zero_le n).trans_lt hn
  have hfree : snowFree xs = free := by
    rw [hf, snowFree, List.count_eq_countP, List.countP_map, List.countP_eq_length_filter]
    congr 1
  have hle : (free : ℝ) ≤ xs.length := by
    rw [← hfree]
    exact_mod_cast List.length_filter_le _ _
  set A := Irradiance.longwave x.em x.temp x.svf x.cloud 0 x.sw x.ts with hA
  set B := Irradiance.longwave x.em x.temp x.svf x.cloud 1 x.sw x.ts with hB
  set r : ℝ := rockFraction xs with hr
  have hr' : r * xs.length = free := by
    rw [hr, rockFraction, hfree]
    field_simp
  have hmix : Irradiance.longwave x.em x.temp x.svf x.cloud r x.sw x.ts = A * (1 - r) + B * r := by
    simp only [hA, hB, Irradiance.longwave]
    ring
  have hr0 : 0 ≤ r := by
    rw [hr, rockFraction]
    positivity
  have hr1 : r ≤ 1 := by
    rw [hr, rockFraction, hfree, div_le_one hpos]
    exact hle
  refine ⟨A * (1 - r) + B * r, A, B, by rw [field, List.getElem?_map, hx, ← hmix]; rfl, ?_, ?_, ?_, ?_, ?_⟩
  · simp [field, rockFraction, snowFree, hw, hA]
  · simp [field, rockFraction, snowFree, hB]
  · linear_combination (B - A) * hr'
  · nlinarith [min_le_left A B, min_le_right A B]
  · nlinarith [le_max_left A B, le_max_right A B]

/-- A pixel that sees nine tenths of the sky, and one that sees all of it. -/
noncomputable def exPx (svf swe : ℝ) : Px := ⟨7 / 10, 273, svf, 0, 500, 270, swe⟩

/-- **C150 (part of the sky hidden: false).** A snow-covered pixel that sees nine tenths of the sky receives more
longwave radiation if a snow-free pixel is simulated too. -/
theorem C150_hidden_false : ∃ v w w', field [exPx (9 / 10) 100] = [v] ∧
    field [exPx (9 / 10) 100, exPx 1 0] = [w, w'] ∧ v < w := by
  refine ⟨_, _, _, rfl, rfl, ?_⟩
  simp [rockFraction, snowFree, exPx, Irradiance.longwave, Irradiance.sigma]
  norm_num

/-- The conditions of the theorems. -/
example : [exPx 1 100, exPx (9 / 10) 0][0]? = some (exPx 1 100) ∧ [exPx 1 100][0]? = some (exPx 1 100) ∧
    (exPx 1 100).svf = 1 := ⟨rfl, rfl, rfl⟩

end Verif.LongwaveField

namespace Verif.ClearSkyField

open Verif.ClearSky (Input)

/-- **C150 (direct irradiance).** Direct irradiance of a pixel is the same in every region that contains it, for any
albedos. -/
theorem C150_direct (k : Sky) (up : Bool) (soil soil' : ℝ) (as bs : List (Option ℝ)) (xs ys : List Px)
    (old old' : List (Option Irr)) (hl : old.length = xs.length) (hl' : old'.length = ys.length) (n m : ℕ) (x : Px)
    (hx : xs[n]? = some x) (hy : ys[m]? = some x) (hr : x.roi = true) :
    ∃ v w, (field k up soil as xs old)[n]? = some (some v) ∧ (field k up soil' bs ys old')[m]? = some (some w) ∧
      v.dir = w.dir := by
  obtain ⟨v, v1, -, v2, -, v3⟩ := (C111_field k up soil as xs old hl n x hx).2 hr
  obtain ⟨w, w1, -, w2, -, w3⟩ := (C111_field k up soil' bs ys old' hl' m x hy).2 hr
  refine ⟨v, w, v1, w1, ?_⟩
  cases up with
  | false => rw [(v2 rfl).2.1, (w2 rfl).2.1]
  | true => rw [(v3 rfl).1, (w3 rfl).1]

/-- **C150 (shortwave radiation, whole sky visible), partial: regions with the same mean albedo.** Direct and diffuse
irradiance of a pixel that sees the whole sky are the same in every region with the same mean albedo, in particular in
all regions whose pixels have the same albedo: how many pixels are lit, and from where, does not matter. -/
theorem C150_open_partial (k : Sky) (up : Bool) (soil : ℝ) (as bs : List (Option ℝ)) (xs ys : List Px)
    (old old' : List (Option Irr)) (hl : old.length = xs.length) (hl' : old'.length = ys.length) (n m : ℕ) (x : Px)
    (hx : xs[n]? = some x) (hy : ys[m]? = some x) (hr : x.roi = true) (hs : x.svf = 1)
    (ha : meanAlbedo soil as = meanAlbedo soil bs ∨
      ∃ a : ℝ, ∃ i j, as = List.replicate (i + 1) (some a) ∧ bs = List.replicate (j + 1) (some a)) :
    ∃ v, (field k up soil as xs old)[n]? = some (some v) ∧ (field k up soil bs ys old')[m]? = some (some v) := by
  have ha : meanAlbedo soil as = meanAlbedo soil bs := by
    rcases ha with e | ⟨a, i, j, rfl, rfl⟩
    · exact e
    · have key : ∀ i : ℕ, meanAlbedo soil (List.replicate (i + 1) (some a)) = a := by
        intro i
        have h := (C111_albedo soil (List.replicate (i + 1) (some a))).2.2.1 (List.replicate (i + 1) a)
          (by simp) (by simp)
        simp only [List.length_replicate, List.sum_replicate, nsmul_eq_mul] at h
        rw [mul_comm] at h
        exact mul_left_cancel₀ (by positivity) h
      rw [key, key]
  obtain ⟨v, v1, v0, v2, -, v3⟩ := (C111_field k up soil as xs old hl n x hx).2 hr
  obtain ⟨w, w1, w0, w2, -, w3⟩ := (C111_field k up soil bs ys old' hl' m x hy).2 hr
  have e : v = w := by
    have e1 : v.dir = w.dir := by
      cases up with
      | false => rw [(v2 rfl).2.1, (w2 rfl).2.1]
      | true => rw [(v3 rfl).1, (w3 rfl).1]
    have e2 : v.diff = w.diff := by
      cases up with
      | false => rw [(v2 rfl).2.2, (w2 rfl).2.2]
      | true =>
        rw [(v3 rfl).2, (w3 rfl).2, ha]
        have q : ∀ zs, (pxInput k zs (meanAlbedo soil bs) x).diffuse = (pxInput k [] (meanAlbedo soil bs) x).diff := by
          intro zs
          have : (pxInput k zs (meanAlbedo soil bs) x).svf = 1 := hs
          rw [Input.diffuse, this]
          simp only [mul_one, sub_self, zero_mul, add_zero]
          rfl
        rw [q, q]
    cases v
    cases w
    simp only at e1 e2 v0 w0
    simp only [v0, w0, e1, e2]
  exact ⟨v, v1, e ▸ w1⟩

/-- **C150 (mean albedo: false).** Under an open sky and in sunshine a pixel receives strictly more diffuse irradiance
in a region with a higher mean albedo, e.g. with a larger share of snow, by the reflection between ground and
atmosphere. -/
theorem C150_albedo_false (k : Sky) (soil : ℝ) (as bs : List (Option ℝ)) (xs ys : List Px)
    (old old' : List (Option Irr)) (hl : old.length = xs.length) (hl' : old'.length = ys.length) (n m : ℕ) (x : Px)
    (hx : xs[n]? = some x) (hy : ys[m]? = some x) (hr : x.roi = true) (hs : x.svf = 1)
    (hok : (pxInput k [] (meanAlbedo soil bs) x).OK) (h0 : 0 ≤ meanAlbedo soil as)
    (ha : meanAlbedo soil as < meanAlbedo soil bs) (hd : 0 < (pxInput k [] 0 x).direct) (hz : 0 < k.sun.2.2)
    (hc : 0 < k.clearSkyAlbedo) :
    ∃ v w, (field k true soil as xs old)[n]? = some (some v) ∧
      (field k true soil bs ys old')[m]? = some (some w) ∧ v.diff < w.diff ∧ v.sw < w.sw := by
  obtain ⟨v, v1, v0, -, -, v3⟩ := (C111_field k true soil as xs old hl n x hx).2 hr
  obtain ⟨w, w1, w0, -, -, w3⟩ := (C111_field k true soil bs ys old' hl' m x hy).2 hr
  obtain ⟨v3, v4⟩ := v3 rfl
  obtain ⟨w3, w4⟩ := w3 rfl
  have hdiff : v.diff < w.diff := by
    rw [v4, w4]
    set a := meanAlbedo soil as
    set b := meanAlbedo soil bs
    have q : ∀ zs c, (pxInput k zs c x).diffuse = (pxInput k [] 0 x).rayleigh + (pxInput k [] 0 x).aerosols +
        ((pxInput k [] 0 x).direct * Real.cos (pxInput k [] 0 x).zenith + (pxInput k [] 0 x).rayleigh +
          (pxInput k [] 0 x).aerosols) * c * (pxInput k [] 0 x).atmAlbedo / (1 - c * (pxInput k [] 0 x).atmAlbedo) := by
      intro zs c
      have : (pxInput k zs c x).svf = 1 := hs
      rw [Input.diffuse, this]
      simp only [mul_one, sub_self, zero_mul, add_zero]
      rfl
    rw [q, q]
    obtain ⟨hp, hoz, hv, hta, hle, hs0, hs1⟩ := ClearSky.OK.facts _ hok
    obtain ⟨r1, r2, -, -⟩ := ClearSky.C74_diffuse _ hok
    have r1 : 0 ≤ (pxInput k [] 0 x).rayleigh := r1
    have r2 : 0 ≤ (pxInput k [] 0 x).aerosols := r2
    have htab : 0 < (pxInput k [] b x).tAbs := lt_of_lt_of_le hta hle
    have hq1 : (pxInput k [] b x).aerRatio ≤ 1 := (div_le_one htab).2 hle
    have hq0 : 0 < (pxInput k [] b x).aerRatio := div_pos hta htab
    have t0 : 0 < (pxInput k [] 0 x).atmAlbedo := by
      show 0 < (pxInput k [] b x).atmAlbedo
      unfold Input.atmAlbedo
      have : 0 < (pxInput k [] b x).clearSkyAlbedo := hc
      nlinarith
    have t1 : (pxInput k [] 0 x).atmAlbedo < 1 := by
      show (pxInput k [] b x).atmAlbedo < 1
      unfold Input.atmAlbedo
      have := hok.csa1
      nlinarith
    have hb1 : b ≤ 1 := hok.ga1
    have hcos : 0 < Real.cos (pxInput k [] 0 x).zenith := by
      have e : (pxInput k [] 0 x).zenith = Real.arccos k.sun.2.2 := rfl
      rw [e]
      refine Real.cos_pos_of_mem_Ioo ⟨by linarith [Real.arccos_nonneg k.sun.2.2, Real.pi_pos], ?_⟩
      exact Real.arccos_lt_pi_div_two.mpr hz
    set t := (pxInput k [] 0 x).atmAlbedo
    set S := (pxInput k [] 0 x).direct * Real.cos (pxInput k [] 0 x).zenith + (pxInput k [] 0 x).rayleigh +
          (pxInput k [] 0 x).aerosols
    have hS : 0 < S := by
      have := mul_pos hd hcos
      simp only [S]
      linarith
    have ha1 : 0 < 1 - a * t := by nlinarith
    have hb2 : 0 < 1 - b * t := by nlinarith
    refine add_lt_add_of_le_of_lt le_rfl ?_
    rw [div_lt_div_iff₀ ha1 hb2]
    have : 0 < S * t * (b - a) := mul_pos (mul_pos hS t0) (by linarith)
    nlinarith
  exact ⟨v, w, v1, w1, hdiff, by rw [v0, w0, v3, w3]; linarith⟩

/-- The lit horizontal pixel of `exPx`, with the whole sky visible, next to soil and next to snow, meets the conditions
of `C150_albedo_false` (for the irradiance of `exPx` see the example there). -/
example : meanAlbedo (1 / 5) [some (1 / 5), some (1 / 5)] = 1 / 5 ∧
    meanAlbedo (1 / 5) [some (1 / 5), some (4 / 5)] = 1 / 2 ∧ 0 < exSky.sun.2.2 ∧ 0 < exSky.clearSkyAlbedo ∧
    (pxInput exSky [] (1 / 2) { exPx with svf := 1 }).OK ∧
    (pxInput exSky [] 0 { exPx with svf := 1 }).direct = (pxInput exSky [] 0 exPx).direct := by
  have h := ClearSky.noon_ok
  refine ⟨by norm_num [meanAlbedo, mean], by norm_num [meanAlbedo, mean], by norm_num [exSky], by norm_num [exSky],
    ⟨h.press, h.water, h.ozone, h.ozonePath, h.visibility, h.ssa, h.path, h.csa0, h.csa1, ?_, ?_, ?_, ?_, h.sunZ0,
      h.shadow, ?_, ?_⟩, rfl⟩ <;> norm_num [pxInput, sunFrac, meanAoi, mean]

end Verif.ClearSkyField
