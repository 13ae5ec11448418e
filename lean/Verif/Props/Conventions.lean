import Verif.Props.Atmosphere
import Verif.Props.MeteoInterp

/-!
# Sign conventions and reference values: C59, C60, C62, C63, C65

Companions of the range and round-trip theorems, which would also hold for mirrored or rescaled
formulas.
-/

namespace Verif.Atmosphere

/-- **C60.** At the melting point saturation over water is 610.78 Pa; down to -100 °C saturation over
ice is lower than over (supercooled) water. -/
theorem C60_reference (t : ℝ) (h : T0 - 100 < t) (ht : t < T0) :
    svp T0 = some (61078 / 100) ∧
    ∃ i w, svpOver .ice t = some i ∧ svpOver .water t = some w ∧ i < w ∧ svp t = some i := by
  have h0 : 0 ≤ T0 - T0 := by simp
  have hi : 0 < Over.ice.c + (t - T0) := by simp only [Over.c]; linarith
  have hw : 0 < Over.water.c + (t - T0) := by simp only [Over.c]; linarith
  refine ⟨?_, _, _, svpOver_some .ice hi, svpOver_some .water hw, ?_, ?_⟩
  · simp only [svp, if_pos h0]
    rw [svpOver_some .water (by simp [Over.c])]
    simp [Over.a]
  · apply mul_lt_mul'' _ _ Over.ice.a_pos.le (Real.exp_pos _).le
    · norm_num [Over.a]
    · apply Real.exp_lt_exp.mpr
      rw [div_lt_div_iff₀ hi hw]
      simp only [Over.b, Over.c]
      obtain ⟨x, hx⟩ : ∃ x, t - T0 = x := ⟨_, rfl⟩
      have h1 : x < 0 := by linarith
      have h2 : -100 < x := by linarith
      rw [hx]
      nlinarith
  · have : ¬ 0 ≤ t - T0 := by linarith
    simp only [svp, if_neg this]
    exact svpOver_some .ice hi

example : T0 - 100 < (263 : ℝ) ∧ (263 : ℝ) < T0 := by norm_num [T0]

/-- **C62.** The direction is the one the wind comes from, clockwise from north: wind from the north
blows southwards, wind from the east westwards, from south northwards, from west eastwards. -/
theorem C62_convention (ws : ℝ) :
    windToUv ws 0 = (0, -ws) ∧ windToUv ws 90 = (-ws, 0) ∧ windToUv ws 180 = (0, ws) ∧
    windToUv ws 270 = (ws, 0) := by
  have h90 : (90 : ℝ) * (Real.pi / 180) = Real.pi / 2 := by ring
  have h180 : (180 : ℝ) * (Real.pi / 180) = Real.pi := by ring
  have h270 : (270 : ℝ) * (Real.pi / 180) = Real.pi / 2 + Real.pi := by ring
  refine ⟨by simp [windToUv], ?_, ?_, ?_⟩
  · simp [windToUv, h90]
  · simp [windToUv, h180]
  · simp only [windToUv, h270, Real.sin_add_pi, Real.cos_add_pi]
    simp

/-- **C63.** The cloud fraction from humidity grows with humidity, with the dew point lapse rate and
against the temperature lapse rate for a level above the cell. -/
theorem C63_humidity_monotone (temp rh rh' elev tl tl' tdl tdl' level alt sat ef f f' : ℝ)
    (hsat : 0 ≤ sat) (hef : ef < 100) (halt : altitude level = some alt) (hz : elev ≤ alt)
    (ht : T0 - 23418 / 100 < temp) (h0 : 0 < rh) (h1 : rh ≤ rh') (h2 : rh' ≤ 100)
    (htl : tl' ≤ tl) (htdl : tdl ≤ tdl')
    (hT : 71 / 100 < temp + tl' * (alt - elev))
    (hTd : ∀ td, dewPoint temp rh = some td → 71 / 100 < td + tdl * (alt - elev))
    (hf : cloudFractionHumidity temp rh elev tl tdl level sat ef = some f)
    (hf' : cloudFractionHumidity temp rh' elev tl' tdl' level sat ef = some f') : f ≤ f' := by
  have mono : ∀ x y a b : ℝ, 71 / 100 < x → x ≤ y → svp x = some a → svp y = some b → a ≤ b := by
    intro x y a b hx hxy ha hb
    rcases eq_or_lt_of_le hxy with h | h
    · subst h; rw [ha] at hb; cases hb; exact le_rfl
    · obtain ⟨e, g, e1, e2, e3⟩ := (C60_svp_strictMono x y h).2 hx
      rw [ha] at e1; rw [hb] at e2; cases e1; cases e2; exact e3.le
  obtain ⟨td, d1, d2, d3, -⟩ := C60_dew_point temp rh ht h0 (h1.trans h2)
  obtain ⟨td', d1', d2', d3', -⟩ := C60_dew_point temp rh' ht (h0.trans_le h1) h2
  have hdd : td ≤ td' := by
    by_contra hc
    have hlt := not_le.mp hc
    have hpos : 0 < Over.water.c + (temp - T0) := by simp only [Over.c]; linarith
    -- both dew points lie above the pole
    have rd : ∀ r x, dewPoint temp r = some x → 0 < r → r ≤ 100 → 0 < Over.water.c + (x - T0) := by
      intro r x hx hr hr1
      have hs := svpOver_some .water hpos
      simp only [dewPoint, hs, Option.bind_some] at hx
      obtain ⟨m, hm⟩ : ∃ m, Over.water.b * (temp - T0) / (Over.water.c + (temp - T0)) = m := ⟨_, rfl⟩
      have hmlt : m < Over.water.b := by
        rw [← hm, div_lt_iff₀ hpos]
        have := mul_pos Over.water.b_pos Over.water.c_pos
        nlinarith
      rw [hm] at hx
      obtain ⟨q, hq⟩ : ∃ q, Over.water.a * Real.exp m * r / 100 / Over.water.a = q := ⟨_, rfl⟩
      rw [hq] at hx
      have hq' : q = Real.exp m * (r / 100) := by
        rw [← hq]; have := Over.water.a_pos; field_simp
      have hlog : Real.log q = m + Real.log (r / 100) := by
        rw [hq', Real.log_mul (Real.exp_pos _).ne' (by positivity), Real.log_exp]
      have hl0 : Real.log (r / 100) ≤ 0 := Real.log_nonpos (by positivity) (by linarith)
      have hb : 0 < Over.water.b - Real.log q := by rw [hlog]; linarith
      simp only [dewOfRatio] at hx
      split_ifs at hx
      cases hx
      have hc := Over.water.c_pos
      rw [add_sub_cancel_right]
      have : Over.water.c + Over.water.c * Real.log q / (Over.water.b - Real.log q) =
          Over.water.c * Over.water.b / (Over.water.b - Real.log q) := by field_simp; ring
      rw [this]
      have := Over.water.b_pos
      positivity
    have p' := rd rh' td' d1' (h0.trans_le h1) h2
    obtain ⟨e, g, e1, e2, e3⟩ := (C60_svp_strictMono td' td hlt).1 .water p'
    have hs := svpOver_some .water hpos
    simp only [rhFromDew, e1, e2, hs, Option.bind_some, Option.map_some, Option.some.injEq] at d2 d2'
    have hspos : 0 < Over.water.a * Real.exp (Over.water.b * (temp - T0) / (Over.water.c + (temp - T0))) :=
      mul_pos Over.water.a_pos (Real.exp_pos _)
    have : 100 * e / (Over.water.a * Real.exp (Over.water.b * (temp - T0) / (Over.water.c + (temp - T0)))) <
        100 * g / (Over.water.a * Real.exp (Over.water.b * (temp - T0) / (Over.water.c + (temp - T0)))) :=
      (div_lt_div_iff_of_pos_right hspos).mpr (by linarith)
    linarith
  have hd := hTd td d1
  have hz' : 0 ≤ alt - elev := by linarith
  have k1 : tl' * (alt - elev) ≤ tl * (alt - elev) := mul_le_mul_of_nonneg_right htl hz'
  have k2 : tdl * (alt - elev) ≤ tdl' * (alt - elev) := mul_le_mul_of_nonneg_right htdl hz'
  have r1 : ∀ x l : ℝ, x - l * (elev - alt) = x + l * (alt - elev) := fun x l => by ring
  simp only [cloudFractionHumidity, halt, d1, d1', Option.bind_some, r1] at hf hf'
  cases hs : svp (temp + tl * (alt - elev)) with
  | none => simp [hs] at hf
  | some s =>
    cases he : svp (td + tdl * (alt - elev)) with
    | none => simp [hs, he] at hf
    | some e =>
      cases hs' : svp (temp + tl' * (alt - elev)) with
      | none => simp [hs'] at hf'
      | some s' =>
        cases he' : svp (td' + tdl' * (alt - elev)) with
        | none => simp [hs', he'] at hf'
        | some e' =>
          simp only [hs, he, hs', he', Option.bind_some, Option.map_some, Option.some.injEq] at hf hf'
          have hss : s' ≤ s := mono _ _ _ _ hT (by linarith) hs' hs
          have hee : e ≤ e' := mono _ _ _ _ hd (by linarith) he he'
          have hs0 : 0 < s' := (C60_svp_pos _).2 _ hs'
          have he0 : 0 < e := (C60_svp_pos _).2 _ he
          rw [← hf, ← hf']
          apply clip_mono
          apply mul_le_mul_of_nonneg_left _ hsat
          apply Real.exp_le_exp.mpr
          apply div_le_div_of_nonneg_right _ (by linarith)
          have : 100 * e / s ≤ 100 * e' / s' :=
            div_le_div₀ (by linarith) (by linarith) hs0 hss
          linarith

/-- **C63.** In saturated air with equal lapse rates the cloud fraction is the configured fraction at
saturation. -/
theorem C63_humidity_saturated (temp elev l level alt sat ef s : ℝ) (hsat : 0 ≤ sat ∧ sat ≤ 1)
    (halt : altitude level = some alt) (ht : T0 - 23418 / 100 < temp)
    (hs : svp (temp - l * (elev - alt)) = some s) :
    cloudFractionHumidity temp 100 elev l l level sat ef = some sat := by
  obtain ⟨td, d1, -, -, d4⟩ := C60_dew_point temp 100 ht (by norm_num) le_rfl
  have : td = temp := d4.mpr rfl
  subst this
  have hpos := (C60_svp_pos _).2 _ hs
  simp only [cloudFractionHumidity, halt, d1, hs, Option.bind_some, Option.map_some, Option.some.injEq]
  rw [mul_div_assoc, div_self hpos.ne']
  simp only [mul_one, sub_self, zero_div, Real.exp_zero]
  exact clip_of_mem hsat.1 hsat.2

example : ∃ alt, altitude 70000 = some alt := by
  have h : ¬ (70000 : ℝ) / P0 < 0 := by norm_num [P0]
  exact ⟨(1 - (70000 / P0) ^ (1 / expo)) * cp * tSea / grav, by simp only [altitude, if_neg h]⟩

/-- **C66.** A wet-bulb temperature is returned only if the last secant step was at most 0.01 K. -/
theorem C66_tolerance (fuel : ℕ) (temp e psych r : ℝ) (h : wetBulb fuel temp e psych = some (some r)) :
    ∃ x y z, vpDiff temp x e psych = some y ∧ vpDiff temp r e psych = some z ∧ z - y ≠ 0 ∧
      |(r - x) / (z - y) * z| ≤ 1 / 100 := by
  unfold wetBulb at h
  cases h0 : vpDiff temp (temp - 10) e psych with
  | none => simp [h0] at h
  | some y0 =>
    cases h1 : vpDiff temp temp e psych with
    | none => simp [h0, h1] at h
    | some y1 =>
      simp only [h0, h1] at h
      exact C66_last_step _ _ _ _ _ _ _ _ _ _ h0 h1 h

end Verif.Atmosphere

namespace Verif.MeteoInterp

/-- **C59.** The adjustment factor for a height difference `d` is `(1 + k d) / (1 - k d)`: one `a` with
`a - 1 = k d (a + 1)`, so for small `k d` it is about `1 + 2 k d`. -/
theorem C59_value (k d a : ℝ) (ha : factor k d = some a) : a - 1 = k * d * (a + 1) := by
  simp only [factor] at ha
  split_ifs at ha with h
  cases ha
  have h' : 1 - k * d ≠ 0 := h
  field_simp
  ring

example : factor (35 / 100000) 1000 = some (135 / 65) := by norm_num [factor]

/-- **C57.** With a single station of value `v` the trend methods extrapolate along elevation: fixed
adds `lapse` per metre, fractional the fraction `lapse` of the value per metre, regression nothing. -/
theorem C57_single_station (lapse : ℝ) (s : Stn) (v : ℝ) (t : Target) (hv : s.v = some v) :
    trended .fixed lapse [s] t = some (some (v + lapse * (t.z - s.z))) ∧
    trended .fractional lapse [s] t = some (some (v * (1 + lapse * (t.z - s.z)))) ∧
    trended .regression lapse [s] t = some (some v) ∧
    trended .adjustment lapse [s] t = some ((factor lapse (t.z - s.z)).map (v * ·)) := by
  have one : ∀ g : Stn → ℝ → ℝ, idwAt (pts g [s]) t = some (g s v) := fun g => by
    have : pts g [s] = [⟨s.x, s.y, g s v⟩] := by simp [pts, hv]
    rw [this]
    exact idwAt_const _ _ _ (by simp) (by simp)
  have hvals : vals [s] = [v] := by simp [vals, hv]
  have hpairs : pairs [s] = [(s.z, v)] := by simp [pairs, hv]
  refine ⟨?_, ?_, ?_, ?_⟩
  · simp only [trended, trendInterp, one, Option.map_some]
    congr 2; ring
  · simp only [trended, trendInterp, one, Option.map_some, hvals, mean]
    rw [if_neg (by simp)]
    simp only [List.sum_singleton, List.length_singleton, Nat.cast_one, div_one]
    congr 2; ring
  · have : ¬ ∃ q ∈ [s], q.v = none := by simp [hv]
    simp only [trended, if_neg this, hpairs, linearFit, Option.map_some, trendInterp, one]
    congr 2; ring
  · have hz : idwAt ([s].map fun s => (⟨s.x, s.y, s.z⟩ : Verif.Idw.Pt)) t = some s.z :=
      idwAt_const _ _ _ (by simp) (by simp)
    simp only [trended, one, hz, Option.bind_some]

/-- **C57.** The fractional method is relative: multiplying all measurements by a number multiplies the
result. -/
theorem C57_fractional_scale (lapse c : ℝ) (st : List Stn) (t : Target) :
    trended .fractional lapse (st.map fun s => { s with v := s.v.map (c * ·) }) t =
      (trended .fractional lapse st t).map (Option.map (c * ·)) := by
  have hvals : vals (st.map fun s => { s with v := s.v.map (c * ·) }) = (vals st).map (c * ·) := by
    simp only [vals, List.filterMap_map, List.map_filterMap]
    rfl
  have hmean : mean ((vals st).map (c * ·)) = c * mean (vals st) := by
    have : ∀ xs : List ℝ, (xs.map (c * ·)).sum = c * xs.sum := fun xs => by
      induction xs with
      | nil => simp
      | cons x xs ih => simp only [List.map_cons, List.sum_cons, ih]; ring
    rw [mean, mean, this, List.length_map, mul_div_assoc]
  have hpts : pts (fun s v => v - lapse * mean ((vals st).map (c * ·)) * s.z)
      (st.map fun s => { s with v := s.v.map (c * ·) }) =
      (pts (fun s v => v - lapse * mean (vals st) * s.z) st).map fun p => { p with z := c * p.z } := by
    simp only [pts, List.filterMap_map, List.map_filterMap, hmean]
    congr 1
    funext s
    simp only [Function.comp, Option.map_map]
    congr 1
    funext v
    simp only [Function.comp]
    congr 1; ring
  have hloop : ∀ (ps : List Verif.Idw.Pt) (w total : ℝ),
      Verif.Idw.loop 2 0 t.x t.y (ps.map fun p => { p with z := c * p.z }) w (c * total) =
        c * Verif.Idw.loop 2 0 t.x t.y ps w total := by
    intro ps
    induction ps with
    | nil => intro w total; simp [Verif.Idw.loop, mul_div_assoc]
    | cons p ps ih =>
      intro w total
      simp only [List.map_cons, Verif.Idw.loop]
      have hd : Verif.Idw.dist 0 { p with z := c * p.z } t.x t.y = Verif.Idw.dist 0 p t.x t.y := rfl
      rw [hd]
      split_ifs
      · rfl
      · rw [← ih]; congr 1; ring
  simp only [trended, Option.map_some, hvals, List.map_eq_nil_iff, trendInterp]
  split_ifs with h
  · rfl
  · rw [hpts]
    unfold idwAt
    simp only [List.length_map]
    split_ifs
    · rfl
    · have := hloop (pts (fun s v => v - lapse * mean (vals st) * s.z) st) 0 0
      rw [mul_zero] at this
      rw [this]
      simp only [Option.map_some, hmean]
      congr 2; ring

/-- The scaled slopes used by `liston`. -/
theorem liston_scaled (sw cw : ℝ) (cells : List Cell) (a b : Cell)
    (ha : a ∈ cells) (hb : b ∈ cells) (hab : windSlope a ≠ windSlope b) :
    ∃ k m : ℝ, 0 < k ∧ ∀ (i : ℕ) (c : Cell), cells[i]? = some c →
      (liston sw cw cells)[i]? = some (some (max (1 / 10) (correctCell sw cw (k * windSlope c + m) c).1,
        (correctCell sw cw (k * windSlope c + m) c).2)) := by
  obtain ⟨data, hdata⟩ : ∃ data, (cells.map fun c => some (windSlope c)) = data := ⟨_, rfl⟩
  have hmemd : ∀ c ∈ cells, some (windSlope c) ∈ data := fun c hc => by
    rw [← hdata]; exact List.mem_map.mpr ⟨c, hc, rfl⟩
  have hv : ∀ x, x ∈ data.filterMap id ↔ some x ∈ data := by intro x; simp
  have hnil : data.filterMap id ≠ [] := by
    intro h
    have := (hv _).mpr (hmemd a ha)
    rw [h] at this
    simp at this
  obtain ⟨lo, hlo⟩ : ∃ lo, (data.filterMap id).min? = some lo := by
    cases h : (data.filterMap id).min? with
    | none => exact absurd (List.min?_eq_none_iff.mp h) hnil
    | some lo => exact ⟨lo, rfl⟩
  obtain ⟨hi, hhi⟩ : ∃ hi, (data.filterMap id).max? = some hi := by
    cases h : (data.filterMap id).max? with
    | none => exact absurd (List.max?_eq_none_iff.mp h) hnil
    | some hi => exact ⟨hi, rfl⟩
  obtain ⟨lo1, lo2⟩ := List.min?_eq_some_iff.mp hlo
  obtain ⟨hi1, hi2⟩ := List.max?_eq_some_iff.mp hhi
  have hne : lo ≠ hi := by
    intro h
    have e : ∀ x, some x ∈ data → x = lo := fun x hx =>
      le_antisymm (by rw [h]; exact hi2 x ((hv x).mpr hx)) (lo2 x ((hv x).mpr hx))
    exact hab (by rw [e _ (hmemd a ha), e _ (hmemd b hb)])
  have hlt : lo < hi := lt_of_le_of_ne (lo2 hi hi1) hne
  have hnz : hi - lo ≠ 0 := (sub_pos.mpr hlt).ne'
  refine ⟨(1 / 2 - -(1 / 2)) / (hi - lo), -(1 / 2) - (1 / 2 - -(1 / 2)) / (hi - lo) * lo,
    div_pos (by norm_num) (sub_pos.mpr hlt), ?_⟩
  intro i c hc
  have hdi : data[i]? = some (some (windSlope c)) := by
    rw [← hdata, List.getElem?_map, hc]; rfl
  have hval : -(1 / 2) + (1 / 2 - -(1 / 2)) / (hi - lo) * (windSlope c - lo) =
      (1 / 2 - -(1 / 2)) / (hi - lo) * windSlope c + (-(1 / 2) - (1 / 2 - -(1 / 2)) / (hi - lo) * lo) := by
    ring
  simp only [liston, hdata, Verif.Config.normalize, hlo, hhi, hnz, if_false]
  rw [List.getElem?_zipWith, hc, List.getElem?_map, hdi]
  simp only [Option.map_some, hval]

/-- **C65.** Of two cells with the same interpolated wind, the one more inclined against the wind and
more convex gets at least the wind speed of the other; a slope facing the wind at least that of an
equally steep lee slope of the same curvature. -/
theorem C65_exposure (sw cw : ℝ) (hsw : 0 ≤ sw) (hcw : 0 ≤ cw) (cells : List Cell) (a b : Cell)
    (ha : a ∈ cells) (hb : b ∈ cells) (hab : windSlope a ≠ windSlope b) (i j : ℕ) (c d : Cell)
    (hc : cells[i]? = some c) (hd : cells[j]? = some d) (hs : c.speed = d.speed) (h0 : 0 ≤ c.speed)
    (hcurv : c.curv ≤ d.curv) :
    ∃ u w u' w', (liston sw cw cells)[i]? = some (some (u, w)) ∧
      (liston sw cw cells)[j]? = some (some (u', w')) ∧
      (windSlope c ≤ windSlope d → u ≤ u') ∧
      (c.slope = d.slope → 0 ≤ d.slope → d.dir = d.aspect → c.dir = c.aspect + 180 → u ≤ u') := by
  obtain ⟨k, m, hk, h⟩ := liston_scaled sw cw cells a b ha hb hab
  have main : windSlope c ≤ windSlope d →
      max (1 / 10) (correctCell sw cw (k * windSlope c + m) c).1 ≤
      max (1 / 10) (correctCell sw cw (k * windSlope d + m) d).1 := by
    intro hle
    apply max_le_max_left
    simp only [correctCell, hs]
    apply mul_le_mul_of_nonneg_left _ (hs ▸ h0)
    have e1 := mul_le_mul_of_nonneg_left (add_le_add (mul_le_mul_of_nonneg_left hle hk.le) (le_refl m)) hsw
    have e2 := mul_le_mul_of_nonneg_left hcurv hcw
    linarith
  refine ⟨_, _, _, _, h i c hc, h j d hd, main, ?_⟩
  intro hsl hpos hdd hcd
  apply main
  have e1 : Real.cos (rad (c.dir - c.aspect)) = -1 := by
    rw [hcd, show c.aspect + 180 - c.aspect = (180 : ℝ) by ring]
    simp only [rad]
    rw [show (180 : ℝ) * (Real.pi / 180) = Real.pi by ring]
    exact Real.cos_pi
  have e2 : Real.cos (rad (d.dir - d.aspect)) = 1 := by
    rw [hdd, sub_self]; simp [rad]
  simp only [windSlope, e1, e2, hsl]
  have : 0 ≤ rad d.slope := by
    unfold rad; have := Real.pi_pos; positivity
  linarith

example : windSlope ⟨3, 270, 30, 270, 0⟩ ≠ windSlope ⟨3, 270, 0, 0, 0⟩ := by
  have := Real.pi_pos
  simp [windSlope, rad]

end Verif.MeteoInterp
