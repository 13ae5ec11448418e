import Verif.Model.CoupledCryo
import Verif.Lemmas.Coupled
import Verif.Props.CryoStep
import Verif.Props.SecantHumidity

/-!
# Lemmas for the coupled cryolayer model
-/

namespace Verif.CoupledCryo

open Verif.Cryo (CPixel CLayer EndPixel EndLayer EndSnow Tinted Palette CfgOK InOK)

/-- Configured values in their physical ranges. -/
structure SiteOK (c : Site) : Prop where
  dt : 0 < c.dt
  albedo : c.albedo.OK
  albedo_le : c.albedo.max ≤ 1 ∧ c.firnAlb ≤ 1 ∧ c.iceAlb ≤ 1 ∧ c.soilAlbedo ≤ 1
  iceDens : 500 ≤ c.iceDens
  frac : 0 ≤ c.maxFrac
  frac_le : c.lwcMethod = .poreVolume → 1000 * c.maxFrac ≤ 917
  cold : 0 ≤ c.coldCapacity
  snowRough : 0 < c.snowRough
  soilRough : 0 < c.soilRough
  windHeight : max c.snowRough c.soilRough < c.zw
  tempHeight : max c.snowRough c.soilRough < c.zt ∧ max c.snowRough c.soilRough < 10
  stab : ∀ b, c.stab = some b → 0 ≤ b

/-- Lowest configured albedo of snow, firn and ice. -/
noncomputable def snowLow (c : Site) : ℝ := min c.albedo.min (min c.firnAlb c.iceAlb)

/-- Highest configured albedo of snow, firn and ice. -/
noncomputable def snowHigh (c : Site) : ℝ := max c.albedo.max (max c.firnAlb c.iceAlb)

/-- Lowest configured albedo. -/
noncomputable def low (c : Site) : ℝ := min (snowLow c) c.soilAlbedo

/-- Meteorological values in their physical ranges; incoming longwave radiation exceeds the configured surface heat
flux. -/
structure Weather (c : Site) (f : Forcing) : Prop where
  snow : 0 ≤ f.snow
  rain : 0 ≤ f.rain
  wind : 0 ≤ f.wind
  swIn : 0 ≤ f.swIn
  lwIn : c.heatFlux + 1 ≤ f.lwIn
  temp : T0 - 65 ≤ f.temp
  wetBulb : 1 ≤ f.wetBulb
  wetBulb_le : c.lwcMethod = .poreVolume → f.wetBulb ≤ 319
  press : 30000 ≤ f.press
  specHum : 0 ≤ f.specHum

/-- The snow of a pixel is in order. -/
structure Inv (c : Site) (p : CPixel ℝ) : Prop where
  pixel : EndPixel (c.lwcMethod = .poreVolume) c.albedo.min c.albedo.max p
  firn : Tinted (snowLow c) (snowHigh c) p.firn
  ice : Tinted (snowLow c) (snowHigh c) p.ice

/-- With retention in the pore volume, compaction of this step leaves no snow layer denser than ice. -/
def Light (c : Site) (f : Forcing) (p : CPixel ℝ) : Prop :=
  c.lwcMethod = .poreVolume → ∀ q, compaction c f.temp p = some q →
    q.new.we ≤ 917 * q.new.thick ∧ q.old.we ≤ 917 * q.old.thick

/-- The balance at the melting point of a pixel with snow below the freezing point is at most 360 W m-2. -/
def Mild (c : Site) (f : Forcing) (s : State) : Prop :=
  c.search = .secant → ∀ x, prep c f s = some x → x.Frosty → x.balance c T0 ≤ 360

theorem cryoCfg_ok {c : Site} (h : SiteOK c) : CfgOK c.albedo.min (cryoCfg c) where
  dt := h.dt.le
  alb := h.albedo.range
  iceDens := h.iceDens
  frac := h.frac
  frac1 := fun hm => by
    have := h.frac_le hm
    simpa [cryoCfg, waterDensity, iceDensity] using this
  cold := h.cold

theorem palette (c : Site) : Palette (snowLow c) (snowHigh c) c.albedo.min (cryoCfg c) where
  low := min_le_left _ _
  high := le_max_left _ _
  firn := ⟨(min_le_right _ _).trans (min_le_left _ _), (le_max_left _ _).trans (le_max_right _ _)⟩
  ice := ⟨(min_le_right _ _).trans (min_le_right _ _), (le_max_right _ _).trans (le_max_right _ _)⟩

theorem snowHigh_le {c : Site} (h : SiteOK c) : snowHigh c ≤ 1 :=
  max_le h.albedo_le.1 (max_le h.albedo_le.2.1 h.albedo_le.2.2.1)

/-! ## Compaction -/

theorem anderson_layer {dtH : ℝ} (hdt : 0 ≤ dtH) (temp : Option ℝ) {load : ℝ} (hload : 0 ≤ load) (L : CLayer ℝ)
    (hm : 0 < L.thick → 0 < L.ice + L.lwc) :
    ∃ load' D d, Snow.andersonLayer dtH temp load (toD L) = some (load', D) ∧ 0 ≤ load' ∧ 0 < d ∧
      compacted L D = Cryo.compactSnow (fun _ => d) L ∧ (¬ 0 < L.thick → d = 100) := by
  unfold Snow.andersonLayer
  by_cases h : 0 < L.thick
  · have hm' := hm h
    have hrho : 0 < (L.ice + L.lwc) / L.thick := div_pos hm' h
    have hrate := Snow.andersonRate_nonneg temp (load := load + (L.ice + L.lwc) / 2) L.lwc (by positivity) hrho.le
    have hd : 0 < (L.ice + L.lwc) / L.thick +
        Snow.andersonRate temp (load + (L.ice + L.lwc) / 2) ((L.ice + L.lwc) / L.thick) L.lwc * dtH := by positivity
    obtain ⟨d, hde⟩ : ∃ d, (L.ice + L.lwc) / L.thick +
        Snow.andersonRate temp (load + (L.ice + L.lwc) / 2) ((L.ice + L.lwc) / L.thick) L.lwc * dtH = d := ⟨_, rfl⟩
    rw [hde] at hd
    refine ⟨load + (L.ice + L.lwc) / 2 + (L.ice + L.lwc) / 2,
      ⟨(L.ice + L.lwc) / d, L.ice, L.lwc, T0, some d⟩, d, ?_, by positivity, hd, ?_, fun hn => absurd h hn⟩
    · simp only [toD]
      simp only [h, if_true, hde, hd.ne', if_false]
    · simp only [compacted, Cryo.compactSnow, h, if_true, CLayer.we]
  · exact ⟨load, toD L, 100, by simp [toD, h], hload, by norm_num, by simp [compacted, Cryo.compactSnow, h, toD],
      fun _ => rfl⟩

/-- The step inputs of `Model/CryoLayer` that correspond to results of the other parts. -/
noncomputable def inputs (c : Site) (f : Forcing) (ts d1 d2 : ℝ) (m : Cryo.MeltIn ℝ) (moist : Option ℝ) :
    Cryo.StepIn ℝ where
  snowfall := some f.snow
  rainfall := some f.rain
  freshDensity := fresh f
  compNew := fun _ => d1
  compOld := fun _ => d2
  aged := aged c f ts
  melt := m
  moistureFlux := moist
  firnDate := f.firnDate

theorem inputs_ok {c : Site} (h : SiteOK c) {f : Forcing} (hf : Weather c f) (ts : ℝ) {d1 d2 : ℝ} (h1 : 0 < d1)
    (h2 : 0 < d2) (h3 : c.lwcMethod = .poreVolume → d1 ≤ 917 ∧ d2 ≤ 917) (m : Cryo.MeltIn ℝ) (moist : Option ℝ) :
    InOK (c.lwcMethod = .poreVolume) c.albedo.min c.albedo.max (inputs c f ts d1 d2 m moist) where
  snow := hf.snow
  rain := hf.rain
  fresh := Coupled.freshDensity_pos (some f.wetBulb)
  fresh1 := fun hm => by
    have := Coupled.freshDensity_le (hf.wetBulb_le hm)
    simpa [inputs, fresh, iceDensity] using this
  compNew := fun _ => h1
  compNew1 := fun hm _ => by simpa [inputs, iceDensity] using (h3 hm).1
  compOld := fun _ => h2
  compOld1 := fun hm _ => by simpa [inputs, iceDensity] using (h3 hm).2
  aged := fun a hl hu => Snow.C24_albedo_in_range c.albedo h.albedo c.dt h.dt _ _
    (fun x hx => by rw [← Option.some.inj hx]; exact hf.snow) a hl hu

theorem mass_pos {L : CLayer ℝ} (h : EndLayer L) (ht : 0 < L.thick) : 0 < L.ice + L.lwc := by
  have := h.ice ht
  have := h.plausible.nonneg.lwc
  linarith

theorem compaction_spec {c : Site} (h : SiteOK c) {f : Forcing} (hf : Weather c f) {p : CPixel ℝ} (hp : Inv c p) (hl : Light c f p) :
    ∃ d1 d2, 0 < d1 ∧ 0 < d2 ∧ (c.lwcMethod = .poreVolume → d1 ≤ 917 ∧ d2 ≤ 917) ∧
      ∀ ts m moist, compaction c f.temp p = Cryo.compaction (cryoCfg c) (inputs c f ts d1 d2 m moist) p := by
  have hdt : 0 ≤ c.dt / 3600 := div_nonneg h.dt.le (by norm_num)
  obtain ⟨l1, D1, d1, e1, hl1, hd1, c1, z1⟩ := anderson_layer hdt (some f.temp) le_rfl p.new
    (mass_pos hp.pixel.new.toEndLayer)
  obtain ⟨l2, D2, d2, e2, hl2, hd2, c2, z2⟩ := anderson_layer hdt (some f.temp) hl1 p.old
    (mass_pos hp.pixel.old.toEndLayer)
  have ha : Snow.anderson c.dt (some f.temp) [toD p.new, toD p.old] = some [D1, D2] := by
    simp [Snow.anderson, Snow.andersonLoop, e1, e2]
  have heq : ∀ ts m moist,
      compaction c f.temp p = Cryo.compaction (cryoCfg c) (inputs c f ts d1 d2 m moist) p := by
    intro ts m moist
    simp only [compaction, ha, Cryo.compaction, cryoCfg, inputs, ← c1, ← c2]
    cases Cryo.compactFirn c.iceDens c.dt p.firn with
    | none => rfl
    | some x =>
      cases Cryo.compactIce c.iceDens p.ice with
      | none => rfl
      | some y => rfl
  refine ⟨d1, d2, hd1, hd2, fun hpv => ?_, heq⟩
  have hfi : ∃ q, compaction c f.temp p = some q ∧ q.new = Cryo.compactSnow (fun _ => d1) p.new ∧
      q.old = Cryo.compactSnow (fun _ => d2) p.old := by
    have hio := inputs_ok h hf 0 (d1 := 100) (d2 := 100) (by norm_num) (by norm_num) (fun _ => by norm_num)
      (.energy 0 none) none
    obtain ⟨q, hq, -⟩ := Cryo.compaction_end hp.pixel (cryoCfg_ok h) hio
    simp only [Cryo.compaction, Option.bind_eq_bind, Option.bind_eq_some_iff] at hq
    obtain ⟨x, hx, y, hy, -⟩ := hq
    refine ⟨{ p with new := Cryo.compactSnow (fun _ => d1) p.new, old := Cryo.compactSnow (fun _ => d2) p.old,
                     firn := x, ice := y }, ?_, rfl, rfl⟩
    rw [heq 0 (.energy 0 none) none]
    simp [Cryo.compaction, hx, hy, inputs]
  obtain ⟨q, hq, qn, qo⟩ := hfi
  obtain ⟨b1, b2⟩ := hl hpv q hq
  have key : ∀ {L : CLayer ℝ} {d : ℝ}, EndLayer L → 0 < d → (¬ 0 < L.thick → d = 100) →
      (Cryo.compactSnow (fun _ => d) L).we ≤ 917 * (Cryo.compactSnow (fun _ => d) L).thick → d ≤ 917 := by
    intro L d hL hd hz hb
    by_cases ht : 0 < L.thick
    · have hm := mass_pos hL ht
      simp only [Cryo.compactSnow, ht, if_true, CLayer.we] at hb
      rw [mul_div_assoc', le_div_iff₀ hd] at hb
      nlinarith
    · rw [hz ht]; norm_num
  rw [qn] at b1
  rw [qo] at b2
  exact ⟨key hp.pixel.new.toEndLayer hd1 z1 b1, key hp.pixel.old.toEndLayer hd2 z2 b2⟩

/-! ## Snow before the energy balance -/

/-- The calls from the melt amounts on, for a melt input and a moisture flux. -/
noncomputable def tail (c : Site) (f : Forcing) (p : CPixel ℝ) (mi : Cryo.MeltIn ℝ) (moist : Option ℝ) :
    Option (Cryo.Fluxes ℝ × CPixel ℝ) :=
  let m := Cryo.meltAmount (cryoCfg c) mi p
  let s := Cryo.sublimation c.dt (fresh f) c.albedo.max c.single moist (Cryo.melt m.1 m.2.2)
  let r := Cryo.runoff c.lwcMethod c.maxFrac (some f.rain) s.2
  match Cryo.updateLayers c.oldDensity c.iceDens f.firnDate (Cryo.updateProperties r.2) with
  | none => none
  | some q => some (⟨m.1, m.2.1, s.1, r.1⟩, q)

theorem massStep_tail (c : Site) (f : Forcing) (x : Prep) (te : ℝ) :
    massStep c f x te = tail c f x.snow (.energy f.temp (some (x.balance c T0))) (moisture x te) := rfl

/-- Sum of the thicknesses is the depth of the list used for the snow cover fraction. -/
theorem depth_eq (p : CPixel ℝ) : Snow.depth ((layers p).map toD) = p.depth := by
  simp [Snow.depth, layers, toD, CPixel.depth]; ring

theorem depth_nonneg {pv : Prop} {lo hi : ℝ} {p : CPixel ℝ} (h : EndPixel pv lo hi p) : 0 ≤ p.depth := by
  have := h.new.toEndLayer.plausible.nonneg.thick
  have := h.old.toEndLayer.plausible.nonneg.thick
  have := h.firn.plausible.nonneg.thick
  have := h.ice.plausible.nonneg.thick
  unfold CPixel.depth
  linarith

theorem update_update_albedo (p : CPixel ℝ) :
    (Cryo.updateProperties (Cryo.updateProperties p)).albedo = (Cryo.updateProperties p).albedo := by
  obtain ⟨-, -, n1, -, n2⟩ := Cryo.updDens_same p.new
  obtain ⟨-, -, o1, -, o2⟩ := Cryo.updDens_same p.old
  obtain ⟨-, -, f1, -, f2⟩ := Cryo.updDens_same p.firn
  obtain ⟨-, -, i1, -, i2⟩ := Cryo.updDens_same p.ice
  simp only [Cryo.updateProperties, n1, n2, o1, o2, f1, f2, i1, i2]

theorem depth_pos_iff {pv : Prop} {lo hi : ℝ} {p : CPixel ℝ} (h : EndPixel pv lo hi p) :
    0 < p.depth ↔ (0 < p.new.thick ∨ 0 < p.old.thick ∨ 0 < p.firn.thick ∨ 0 < p.ice.thick) := by
  have h1 := h.new.toEndLayer.plausible.nonneg.thick
  have h2 := h.old.toEndLayer.plausible.nonneg.thick
  have h3 := h.firn.plausible.nonneg.thick
  have h4 := h.ice.plausible.nonneg.thick
  unfold CPixel.depth
  constructor
  · intro hd
    by_contra hno
    push Not at hno
    linarith [hno.1, hno.2.1, hno.2.2.1, hno.2.2.2]
  · rintro (h | h | h | h) <;> linarith

/-- The state passed to the energy balance. -/
theorem prepare_spec {c : Site} (h : SiteOK c) {f : Forcing} (hf : Weather c f) {s : State} (hs : Inv c s.snow)
    (hl : Light c f s.snow) :
    ∃ p, prepare c f s = some p ∧ Inv c p ∧ p.swe = s.snow.swe + f.snow ∧
      (0 < p.depth → ∃ a, p.albedo = some a ∧ snowLow c ≤ a ∧ a ≤ snowHigh c) ∧
      ∀ m moist, ∃ e, InOK (c.lwcMethod = .poreVolume) c.albedo.min c.albedo.max e ∧
        e.snowfall = some f.snow ∧ e.rainfall = some f.rain ∧
        Cryo.step (cryoCfg c) e s.snow = tail c f p m moist := by
  obtain ⟨d1, d2, hd1, hd2, hd3, heq⟩ := compaction_spec h hf hs hl
  obtain ⟨p0, e0, k⟩ := Cryo.prepared_end (cryoCfg_ok h)
    (inputs_ok h hf s.ts hd1 hd2 hd3 (.energy 0 none) none) hs.pixel
  simp only at k
  obtain ⟨p2, e2⟩ : ∃ x, Cryo.updateProperties (Cryo.albedoAging c.single c.firnAlb c.iceAlb (aged c f s.ts)
      (Cryo.accumulation c.single c.albedo.max (fresh f) (some f.snow) p0)) = x := ⟨_, rfl⟩
  have hk : (Cryo.updateProperties (Cryo.albedoAging (cryoCfg c).single (cryoCfg c).firnAlb (cryoCfg c).iceAlb
      (inputs c f s.ts d1 d2 (.energy 0 none) none).aged
      (Cryo.accumulation (cryoCfg c).single (cryoCfg c).albMax
        (inputs c f s.ts d1 d2 (.energy 0 none) none).freshDensity
        (inputs c f s.ts d1 d2 (.energy 0 none) none).snowfall p0))) = p2 := e2
  rw [hk] at k
  obtain ⟨k1, k2, k3, k4⟩ := k
  obtain ⟨t1, t2⟩ := k4 (snowLow c) (snowHigh c) (palette c) hs.firn hs.ice
  have hinv : Inv c p2 := ⟨k1, t1, t2⟩
  have hpl := palette c
  refine ⟨p2, ?_, hinv, ?_, ?_, ?_⟩
  · have : compaction c f.temp s.snow = some p0 := by rw [heq s.ts (.energy 0 none) none]; exact e0
    simp only [prepare, this, e2]
  · rw [Cryo.swe_eq, Cryo.swe_eq, k2, k3]
    simp only [inputs, Option.getD_some]
    ring
  · intro hd
    have hsn : ∀ {L : CLayer ℝ}, EndSnow (c.lwcMethod = .poreVolume) c.albedo.min c.albedo.max L →
        Tinted (snowLow c) (snowHigh c) L := fun hL ht => by
      obtain ⟨a, a1, a2, a3⟩ := hL.alb ht
      exact ⟨a, a1, hpl.low.trans a2, a3.trans hpl.high⟩
    have := Cryo.top_albedo (hsn k1.new) (hsn k1.old) t1 t2 ((depth_pos_iff k1).1 hd)
    rw [← e2] at this ⊢
    rwa [update_update_albedo] at this
  · intro m moist
    refine ⟨inputs c f s.ts d1 d2 m moist, inputs_ok h hf s.ts hd1 hd2 hd3 m moist, rfl, rfl, ?_⟩
    have e0' : Cryo.compaction (cryoCfg c) (inputs c f s.ts d1 d2 m moist) s.snow = some p0 := by
      rw [← heq s.ts m moist, heq s.ts (.energy 0 none) none]; exact e0
    have e2' : (Cryo.updateProperties (Cryo.albedoAging (cryoCfg c).single (cryoCfg c).firnAlb (cryoCfg c).iceAlb
      (inputs c f s.ts d1 d2 m moist).aged
      (Cryo.accumulation (cryoCfg c).single (cryoCfg c).albMax (inputs c f s.ts d1 d2 m moist).freshDensity
        (inputs c f s.ts d1 d2 m moist).snowfall p0))) = p2 := e2
    simp only [Cryo.step, e0', Option.bind_eq_bind, Option.bind_some, e2', tail]
    simp only [cryoCfg, inputs]
    rw [← Option.bind_eq_bind]
    split
    · rename_i hq; simp [hq]
    · rename_i q hq; simp [hq]

/-! ## Surface -/

theorem exchange_pos {c : Site} (h : SiteOK c) {f : Forcing} (hf : Weather c f) (ts : ℝ) {p : CPixel ℝ}
    (hp : Inv c p) : 0 < exchange c f ts p := by
  obtain ⟨hf0, hf1, -⟩ := Snow.C27_area_fraction c.depthScale ((layers p).map toD)
    (by rw [depth_eq]; exact depth_nonneg hp.pixel)
  obtain ⟨hz1, hz2, -⟩ := Surface.C77_roughness (fraction c p) hf0 hf1 c.snowRough c.soilRough h.snowRough h.soilRough
  have hz0 : 0 < Surface.roughness (fraction c p) c.snowRough c.soilRough :=
    lt_of_lt_of_le (lt_min h.snowRough h.soilRough) hz1
  have hmaxpos : 0 < max c.snowRough c.soilRough := lt_of_lt_of_le h.snowRough (le_max_left _ _)
  have hzt : 0 < Surface.measurementHeight c.adjust c.zt p.depth := by
    have := h.tempHeight.1
    unfold Surface.measurementHeight
    split_ifs
    · exact lt_max_of_lt_right (by norm_num)
    · linarith
  have htemp : 0 < f.temp := by
    have := hf.temp
    have : (65 : ℝ) < T0 := by norm_num [T0]
    linarith
  have hsf : 0 < (match c.stab with
      | none => (1 : ℝ)
      | some b => Surface.stability b (Surface.measurementHeight c.adjust c.zt p.depth) c.zw
          (Surface.roughness (fraction c p) c.snowRough c.soilRough) (some f.temp) (some ts) (some f.wind)) := by
    split
    · exact one_pos
    · rename_i b hb
      obtain ⟨-, h1, h2⟩ := Surface.C78_range b (Surface.measurementHeight c.adjust c.zt p.depth) c.zw
        (Surface.roughness (fraction c p) c.snowRough c.soilRough) f.temp ts f.wind (h.stab b hb) hzt
        (hmaxpos.trans h.windHeight) htemp
      rcases le_total ts f.temp with hle | hle
      · exact (h1 hle).1
      · linarith [h2 hle]
  refine (Surface.C78_exchange c.adjust c.zt p.depth c.zw _ 0 _ hz0 ?_ hsf ?_).1
  · exact lt_of_le_of_lt hz2 h.windHeight
  · have := h.tempHeight
    split_ifs
    · linarith [this.2]
    · have h3 := this.1
      linarith

/-- Everything before the energy balance is defined. -/
theorem prep_spec {c : Site} (h : SiteOK c) {f : Forcing} (hf : Weather c f) {s : State} (hs : Inv c s.snow)
    (hl : Light c f s.snow) :
    ∃ p a, prep c f s = some ⟨p, surfacePixel c f s.ts p a⟩ ∧ Inv c p ∧ p.swe = s.snow.swe + f.snow ∧
      low c ≤ a ∧ a ≤ 1 ∧ 0 < exchange c f s.ts p ∧
      ∀ m moist, ∃ e, InOK (c.lwcMethod = .poreVolume) c.albedo.min c.albedo.max e ∧
        e.snowfall = some f.snow ∧ e.rainfall = some f.rain ∧
        Cryo.step (cryoCfg c) e s.snow = tail c f p m moist := by
  obtain ⟨p, e, hp, hswe, halb, hstep⟩ := prepare_spec h hf hs hl
  obtain ⟨hf0, hf1, -, hfz, -⟩ := Snow.C27_area_fraction c.depthScale ((layers p).map toD)
    (by rw [depth_eq]; exact depth_nonneg hp.pixel)
  have hsoil : low c ≤ c.soilAlbedo := min_le_right _ _
  obtain ⟨a, ha, l, u⟩ : ∃ a, Surface.albedo (fraction c p) p.albedo c.soilAlbedo = some a ∧ low c ≤ a ∧ a ≤ 1 := by
    by_cases hd : 0 < p.depth
    · obtain ⟨al, hal, l, u⟩ := halb hd
      have l := (min_le_left (snowLow c) c.soilAlbedo).trans l
      have u := u.trans (snowHigh_le h)
      obtain ⟨⟨a, ha, l', u'⟩, -⟩ := Surface.C77_albedo (fraction c p) hf0 hf1 al c.soilAlbedo
      exact ⟨a, by rw [hal]; exact ha, (le_min l hsoil).trans l', u'.trans (max_le u h.albedo_le.2.2.2)⟩
    · have : fraction c p = 0 :=
        hfz.mpr (by rw [depth_eq]; exact le_antisymm (not_lt.1 hd) (depth_nonneg hp.pixel))
      rw [this]
      exact ⟨_, (Surface.C77_albedo 0 le_rfl zero_le_one 0 c.soilAlbedo).2.1 p.albedo, hsoil, h.albedo_le.2.2.2⟩
  exact ⟨p, a, by simp only [prep, e, ha], hp, hswe, l, u, exchange_pos h hf s.ts hp, hstep⟩

/-! ## One pixel -/

theorem ebLayer_none {x : ℝ} (hx : x ≤ 0) (s : Cryo.EbAcc ℝ) (L : CLayer ℝ) :
    Cryo.ebLayer (some x) s L = (s, L) := by
  simp [Cryo.ebLayer, not_lt.2 hx]

theorem refreezeLayer_none {cap avail : ℝ} (h : avail ≤ 0) (L : CLayer ℝ) :
    Cryo.refreezeLayer cap avail L = (avail, 0, L) := by
  simp [Cryo.refreezeLayer, not_lt.2 h]

/-- Melt needs a positive balance at the melting point and air at or above it, refreezing the contrary. -/
theorem massStep_melt {c : Site} (h : SiteOK c) {f : Forcing} {x : Prep} (_ : Inv c x.snow) {te : ℝ}
    {fl : Cryo.Fluxes ℝ} {q : CPixel ℝ} (hq : massStep c f x te = some (fl, q)) :
    (0 < fl.melt → T0 ≤ f.temp ∧ 0 < x.balance c T0) ∧
      (0 < fl.refreezing → f.temp < T0 ∧ x.balance c T0 * c.refreezeFactor < 0) := by
  have hfl : fl.melt = (Cryo.meltAmount (cryoCfg c) (.energy f.temp (some (x.balance c T0))) x.snow).1 ∧
      fl.refreezing = (Cryo.meltAmount (cryoCfg c) (.energy f.temp (some (x.balance c T0))) x.snow).2.1 := by
    unfold massStep at hq
    simp only at hq
    split at hq
    · simp at hq
    · have := Option.some.inj hq
      have hf' := congrArg Prod.fst this
      simp only at hf'
      rw [← hf']
      exact ⟨rfl, rfl⟩
  rw [hfl.1, hfl.2]
  obtain ⟨b, hb⟩ : ∃ b, x.balance c T0 = b := ⟨_, rfl⟩
  rw [hb]
  simp only [Cryo.meltAmount]
  split_ifs with h1 h2
  · refine ⟨fun hm => ⟨h2, ?_⟩, fun hm => absurd hm (lt_irrefl _)⟩
    by_contra hno
    simp [Cryo.ebMelt, ebLayer_none (not_lt.1 hno)] at hm
  · refine ⟨fun hm => absurd hm (lt_irrefl _), fun hm => ⟨not_le.1 h2, ?_⟩⟩
    by_contra hno
    have hav : Cryo.availableCold (some b) (cryoCfg c).dt (cryoCfg c).refreezeFactor ≤ 0 := by
      simp only [Cryo.availableCold, cryoCfg]
      refine max_le ?_ le_rfl
      have hL : (0 : ℝ) < LF := by norm_num [LF]
      have h3 : 0 ≤ b * c.refreezeFactor * c.dt / LF := by
        have := not_lt.1 hno
        have := h.dt
        positivity
      calc -1 * b * c.dt / LF * c.refreezeFactor = -(b * c.refreezeFactor * c.dt / LF) := by ring
        _ ≤ 0 := by linarith
    simp [Cryo.refreeze, refreezeLayer_none hav] at hm
  · exact ⟨fun hm => absurd hm (lt_irrefl _), fun hm => absurd hm (lt_irrefl _)⟩


/-- The calls after the search are defined and keep the state in order, whatever the search returned. -/
theorem finish_spec {c : Site} (h : SiteOK c) {f : Forcing} (hf : Weather c f) {s : State} (hs : Inv c s.snow)
    (hl : Light c f s.snow) :
    ∃ x, prep c f s = some x ∧ ∀ t te, ∃ fl q, finish c f x t te = some (fl, ⟨q, surfaceTemp x t⟩) ∧ Inv c q ∧
      q.iceSum = s.snow.iceSum + f.snow - fl.melt + fl.refreezing - fl.sublimation ∧
      q.lwcSum = s.snow.lwcSum + f.rain + fl.melt - fl.refreezing - fl.runoff ∧
      q.swe = s.snow.swe + f.snow + f.rain - fl.sublimation - fl.runoff ∧
      0 ≤ fl.melt ∧ 0 ≤ fl.refreezing ∧ 0 ≤ fl.runoff ∧
      (q.swe = 0 → q.albedo = none) ∧ (0 < q.swe → ∃ a, q.albedo = some a ∧ snowLow c ≤ a ∧ a ≤ snowHigh c) ∧
      (0 < fl.melt → T0 ≤ f.temp ∧ 0 < x.balance c T0) ∧ (0 < fl.refreezing → f.temp < T0 ∧ x.balance c T0 * c.refreezeFactor < 0) := by
  obtain ⟨p, a, hp, hi, -, -, -, -, hst⟩ := prep_spec h hf hs hl
  refine ⟨_, hp, fun t te => ?_⟩
  obtain ⟨e, he, es, er, heq⟩ := hst (.energy f.temp (some (Prep.balance c ⟨p, surfacePixel c f s.ts p a⟩ T0)))
    (moisture ⟨p, surfacePixel c f s.ts p a⟩ te)
  obtain ⟨fl, q, hq, hend, y1, y2, y3, y4, y5, y6, -, y7, y8⟩ :=
    Cryo.C33_step c.albedo.min (cryoCfg c) e s.snow (cryoCfg_ok h) he hs.pixel
  rw [es, er] at y3
  rw [es] at y1
  rw [er] at y2
  obtain ⟨z1, z2, z3⟩ := y8 (snowLow c) (snowHigh c) (palette c) hs.firn hs.ice
  rw [heq] at hq
  have hq' : massStep c f ⟨p, surfacePixel c f s.ts p a⟩ te = some (fl, q) := hq
  obtain ⟨w1, w2⟩ := massStep_melt h hi hq'
  exact ⟨fl, q, by simp only [finish, hq'], ⟨hend, z1, z2⟩, y1, y2, y3, y4, y5, y6, y7, z3, w1, w2⟩

/-! ## Search -/

theorem T0_eq : (T0 : ℝ) = Atmosphere.T0 := by norm_num [T0, Atmosphere.T0]

/-- The search ends for a pixel whose balance at the melting point is not too high. -/
theorem frost {c : Site} {f : Forcing} (hc : 0 < c.dt) (hf : Weather c f) {ts : ℝ} {p : CPixel ℝ} {a : ℝ} (ha : a ≤ 1)
    (hex : 0 < exchange c f ts p) (hfr : f.temp < T0)
    (hb : Prep.balance c ⟨p, surfacePixel c f ts p a⟩ T0 ≤ 360) :
    SurfaceTemp.Frost (surfacePixel c f ts p a) f.press (Prep.lat ⟨p, surfacePixel c f ts p a⟩) c.heatFlux := by
  have hT : Atmosphere.T0 = 273.15 := by norm_num [Atmosphere.T0]
  have hT' : (T0 : ℝ) = 273.15 := by norm_num [T0]
  have htemp := hf.temp
  have hpress := hf.press
  have hlat : Prep.lat ⟨p, surfacePixel c f ts p a⟩ = 2501000 - 2361 * (f.temp - 273.15) + 334000 := by
    have hlt : (surfacePixel c f ts p a).temp < Atmosphere.T0 := by rw [← T0_eq]; exact hfr
    unfold Prep.lat Surface.Pixel.latHeat
    rw [if_pos (Or.inr hlt)]
    simp only [surfacePixel, Atmosphere.latentHeat, Surface.lf, hT]
  have htemp0 : 0 < f.temp := by linarith
  have hdens : 0 ≤ Atmosphere.modelDensity f.temp f.press := by
    have : (0 : ℝ) < Atmosphere.rDry := by norm_num [Atmosphere.rDry]
    unfold Atmosphere.modelDensity
    have : 0 < f.press := by linarith
    positivity
  have hqsat : ∀ t, 1 ≤ t → t ≤ Atmosphere.T0 + 90 →
      SurfaceTemp.satHumidity f.press t = some ((surfacePixel c f ts p a).qsat t) := by
    intro t h1 h2
    rcases lt_or_ge t Atmosphere.T0 with h | h
    · simp [surfacePixel, SurfaceTemp.satHumidity_ice hpress h1 h]
    · simp [surfacePixel, SurfaceTemp.satHumidity_water hpress h h2]
  refine ⟨hpress, hqsat, ?_, ?_, hdens, hex.le, hf.wind, hc, hf.rain, hf.snow, ?_, ?_⟩
  · rw [hlat]; linarith
  · rw [hlat]; linarith
  · have hq : (surfacePixel c f ts p a).qsat 1 ≤ 13 / 1000 := by
      have h0 := hqsat 1 le_rfl (by rw [hT]; norm_num)
      rw [SurfaceTemp.satHumidity_ice hpress le_rfl (by rw [hT]; norm_num)] at h0
      rw [← Option.some.inj h0]
      have hs := (SatHumidity.Q_slope (SurfaceTemp.range_cold hpress) (Set.left_mem_Icc.2 (by rw [hT]; norm_num))
        (Set.right_mem_Icc.2 (by rw [hT]; norm_num)) (by rw [hT]; norm_num : (1 : ℝ) ≤ Atmosphere.T0)).1
      have hd := SatHumidity.dQ_pos (SurfaceTemp.range_cold hpress) (Set.left_mem_Icc.2 (by rw [hT]; norm_num))
      have h1 := (SurfaceTemp.jump hpress).1
      have h2 := SurfaceTemp.Q_water_T0 hpress
      have h3 : 0 ≤ SatHumidity.dQ .ice f.press 1 * (Atmosphere.T0 - 1) := mul_nonneg hd.le (by rw [hT]; norm_num)
      have h4 : 383 / f.press ≤ 13 / 1000 := by
        rw [div_le_iff₀ (by linarith)]; linarith
      linarith
    have htr : 0 ≤ (surfacePixel c f ts p a).transfer := by
      unfold Surface.Pixel.transfer
      exact mul_nonneg (mul_nonneg hdens hex.le) hf.wind
    obtain ⟨tr, htre⟩ : ∃ tr, (surfacePixel c f ts p a).transfer = tr := ⟨_, rfl⟩
    obtain ⟨x, hx⟩ : ∃ x, (surfacePixel c f ts p a).qsat 1 = x := ⟨_, rfl⟩
    rw [hlat]
    simp only [SurfaceTemp.remainder, Surface.Pixel.netRad, Surface.Pixel.sensFlux, Surface.Pixel.advHeat, hx, htre]
    rw [htre] at htr
    rw [hx] at hq
    simp only [surfacePixel]
    have a1 : 0 ≤ (1 - a) * f.swIn := mul_nonneg (by linarith) hf.swIn
    have a2 : 0 ≤ (Surface.cWater * (f.temp - 1) * f.rain + Surface.cIce * (f.wetBulb - 1) * f.snow) / c.dt := by
      have := hf.rain; have := hf.snow; have := hf.wetBulb
      have h1 : (0 : ℝ) ≤ Surface.cWater := by norm_num [Surface.cWater]
      have h2 : (0 : ℝ) ≤ Surface.cIce := by norm_num [Surface.cIce]
      exact div_nonneg (add_nonneg (mul_nonneg (mul_nonneg h1 (by linarith)) hf.rain)
        (mul_nonneg (mul_nonneg h2 (by linarith)) hf.snow)) hc.le
    have a3 : 0 ≤ tr * (Atmosphere.cp * (f.temp - 1) +
        (2501000 - 2361 * (f.temp - 273.15) + 334000) * (f.specHum - x)) := by
      refine mul_nonneg htr ?_
      have h1 : 0 ≤ (2501000 - 2361 * (f.temp - 273.15) + 334000) * (f.specHum - x + 13 / 1000) :=
        mul_nonneg (by linarith) (by have := hf.specHum; linarith)
      have h2 : 1000 * (f.temp - 1) ≤ Atmosphere.cp * (f.temp - 1) :=
        mul_le_mul_of_nonneg_right (by norm_num [Atmosphere.cp]) (by linarith)
      nlinarith
    have a4 : 99 / 100 * Surface.sigma * (1 : ℝ) ^ 4 ≤ 1 := by norm_num [Surface.sigma]
    have := hf.lwIn
    nlinarith
  · rw [← T0_eq]; exact hb

/-- Below the freezing point: air is not above saturation, and absorbed radiation for the lowest configured albedo together
with the heat of snowfall above the melting point (a wet bulb temperature a little above air temperature is possible) is
at most 670 W m-2 more than the configured surface heat flux. -/
structure Shade (c : Site) (f : Forcing) : Prop where
  humidity : f.temp < T0 → ∀ q, SurfaceTemp.satHumidity f.press f.temp = some q → f.specHum ≤ q
  radiation : f.temp < T0 → (1 - low c) * f.swIn + f.lwIn + 2100 * max 0 (f.wetBulb - T0) * f.snow / c.dt ≤
    670 + c.heatFlux

theorem balance_mild {c : Site} (h : SiteOK c) {f : Forcing} (hf : Weather c f) (hsh : Shade c f) {ts : ℝ} {p : CPixel ℝ}
    {a : ℝ} (hlo : low c ≤ a) (hhi : a ≤ 1) (hex : 0 < exchange c f ts p) (hlt : f.temp < T0) :
    Prep.balance c ⟨p, surfacePixel c f ts p a⟩ T0 ≤ 360 := by
  have hT : Atmosphere.T0 = 273.15 := by norm_num [Atmosphere.T0]
  have hT' : (T0 : ℝ) = 273.15 := by norm_num [T0]
  have htemp := hf.temp
  have hpress := hf.press
  have hrad := hsh.radiation hlt
  have htemp0 : 0 < f.temp := by linarith
  have hqT : f.specHum ≤ (surfacePixel c f ts p a).qsat T0 := by
    have h1 : (1 : ℝ) ≤ f.temp := by linarith
    have h2 : f.temp < Atmosphere.T0 := by rw [← T0_eq]; exact hlt
    have e1 := SurfaceTemp.satHumidity_ice hpress h1 h2
    refine (hsh.humidity hlt _ e1).trans ?_
    have e2 : (surfacePixel c f ts p a).qsat T0 = SatHumidity.Q .water f.press Atmosphere.T0 := by
      rw [T0_eq]
      simp [surfacePixel, SurfaceTemp.satHumidity_water hpress le_rfl (by linarith : Atmosphere.T0 ≤ Atmosphere.T0 + 90)]
    rw [e2]
    have hr := SurfaceTemp.range_cold hpress
    have hm1 : f.temp ∈ Set.Icc 1 Atmosphere.T0 := ⟨h1, h2.le⟩
    have hm2 : Atmosphere.T0 ∈ Set.Icc 1 Atmosphere.T0 := ⟨by rw [hT]; norm_num, le_rfl⟩
    have k1 := (SatHumidity.Q_slope hr hm1 hm2 h2.le).1
    have k2 : 0 ≤ SatHumidity.dQ .ice f.press 1 * (Atmosphere.T0 - f.temp) :=
      mul_nonneg (SatHumidity.dQ_pos hr ⟨le_rfl, by rw [hT]; norm_num⟩).le (by linarith)
    have k3 := (SurfaceTemp.jump hpress).1
    linarith
  have hdens : 0 ≤ Atmosphere.modelDensity f.temp f.press := by
    have : (0 : ℝ) < Atmosphere.rDry := by norm_num [Atmosphere.rDry]
    unfold Atmosphere.modelDensity
    have : 0 < f.press := by linarith
    positivity
  have htr : 0 ≤ (surfacePixel c f ts p a).transfer := by
    unfold Surface.Pixel.transfer
    exact mul_nonneg (mul_nonneg hdens hex.le) hf.wind
  have hlat : 0 ≤ Prep.lat ⟨p, surfacePixel c f ts p a⟩ := by
    have : 0 ≤ Atmosphere.latentHeat f.temp := by unfold Atmosphere.latentHeat; rw [hT]; linarith
    unfold Prep.lat Surface.Pixel.latHeat
    split_ifs
    · exact add_nonneg this (by norm_num [Surface.lf])
    · exact this
  obtain ⟨tr, htre⟩ : ∃ tr, (surfacePixel c f ts p a).transfer = tr := ⟨_, rfl⟩
  obtain ⟨q, hqe⟩ : ∃ q, (surfacePixel c f ts p a).qsat T0 = q := ⟨_, rfl⟩
  obtain ⟨l, hle⟩ : ∃ l, Prep.lat ⟨p, surfacePixel c f ts p a⟩ = l := ⟨_, rfl⟩
  unfold Prep.balance
  simp only [SurfaceTemp.remainder, Surface.Pixel.netRad, Surface.Pixel.sensFlux, Surface.Pixel.advHeat, hqe, htre, hle]
  rw [htre] at htr
  rw [hqe] at hqT
  rw [hle] at hlat
  simp only [surfacePixel]
  have a1 : (1 - a) * f.swIn ≤ (1 - low c) * f.swIn := mul_le_mul_of_nonneg_right (by linarith) hf.swIn
  have a2 : (Surface.cWater * (f.temp - T0) * f.rain + Surface.cIce * (f.wetBulb - T0) * f.snow) / c.dt ≤
      2100 * max 0 (f.wetBulb - T0) * f.snow / c.dt := by
    have h1 : (0 : ℝ) ≤ Surface.cWater := by norm_num [Surface.cWater]
    have h2 : Surface.cIce = 2100 := by norm_num [Surface.cIce]
    have h3 : Surface.cWater * (f.temp - T0) * f.rain ≤ 0 :=
      mul_nonpos_of_nonpos_of_nonneg (mul_nonpos_of_nonneg_of_nonpos h1 (by linarith)) hf.rain
    have h4 : (f.wetBulb - T0) * f.snow ≤ max 0 (f.wetBulb - T0) * f.snow :=
      mul_le_mul_of_nonneg_right (le_max_right _ _) hf.snow
    refine div_le_div_of_nonneg_right ?_ h.dt.le
    rw [h2]
    linarith
  have a3 : Atmosphere.cp * tr * (f.temp - T0) ≤ 0 :=
    mul_nonpos_of_nonneg_of_nonpos (mul_nonneg (by norm_num [Atmosphere.cp]) htr) (by linarith)
  have a4 : l * (1 * tr * (f.specHum - q)) ≤ 0 :=
    mul_nonpos_of_nonneg_of_nonpos hlat (mul_nonpos_of_nonneg_of_nonpos (by linarith) (by linarith))
  have a5 : (311 : ℝ) ≤ 99 / 100 * Surface.sigma * T0 ^ 4 := by norm_num [Surface.sigma, T0]
  linarith

theorem mild {c : Site} (h : SiteOK c) {f : Forcing} (hf : Weather c f) (hsh : Shade c f) {s : State}
    (hs : Inv c s.snow) (hl : Light c f s.snow) : Mild c f s := by
  intro _ x hx hfr
  obtain ⟨p, a, hp, hi, -, hlo, hhi, hex, -⟩ := prep_spec h hf hs hl
  obtain rfl := Option.some.inj (hx.symm.trans hp)
  exact balance_mild h hf hsh hlo hhi hex hfr.2

open SurfaceTemp (pixRun Ends secant secant_eq pixRun_mono)

/-- If the iteration of every pixel ends, the search ends. -/
theorem search_defined {m : Search} {bal : ℕ → ℝ → ℝ} {idxs : List ℕ} (hn : idxs.Nodup) (air : ℕ → ℝ)
    (h : m = .secant → ∀ i ∈ idxs, Ends (bal i) (Atmosphere.T0 - 10) Atmosphere.T0) :
    ∃ r, search m bal idxs air = some r := by
  cases m with
  | legacy => exact ⟨_, rfl⟩
  | secant =>
    have hex : ∀ l : List ℕ, (∀ i ∈ l, i ∈ idxs) →
        ∃ n, ∀ m ≥ n, ∀ i ∈ l, (pixRun (bal i) m (Atmosphere.T0 - 10) Atmosphere.T0).2.2 = true := by
      intro l
      induction l with
      | nil => exact fun _ => ⟨0, fun m _ i hi => by simp at hi⟩
      | cons j l ih =>
        intro hl
        obtain ⟨n, hn'⟩ := ih fun i hi => hl i (List.mem_cons_of_mem _ hi)
        obtain ⟨k, hk⟩ := h rfl j (hl j List.mem_cons_self)
        refine ⟨max n k, fun m hm i hi => ?_⟩
        rcases List.mem_cons.1 hi with rfl | hi'
        · rw [pixRun_mono ((le_max_right n k).trans hm) hk]; exact hk
        · exact hn' m ((le_max_left n k).trans hm) i hi'
    obtain ⟨n, hn'⟩ := hex idxs fun i hi => hi
    have hx : ∃ n, (secant bal idxs air n).2.2 = true := ⟨n, (secant_eq hn air n).2.2.2 (hn' n le_rfl)⟩
    simp only [search, hx, dif_pos]
    exact ⟨_, rfl⟩

/-- The result of the secant search at a pixel is that of its own iteration. -/
theorem search_secant {bal : ℕ → ℝ → ℝ} {idxs : List ℕ} (hn : idxs.Nodup) {air t te : ℕ → ℝ}
    (h : search .secant bal idxs air = some (t, te)) {i : ℕ} (hi : i ∈ idxs) :
    ∃ n, (pixRun (bal i) n (Atmosphere.T0 - 10) Atmosphere.T0).2.2 = true ∧
      t i = min (pixRun (bal i) n (Atmosphere.T0 - 10) Atmosphere.T0).2.1 Atmosphere.T0 ∧
      te i = (pixRun (bal i) n (Atmosphere.T0 - 10) Atmosphere.T0).2.1 := by
  unfold search at h
  simp only at h
  split_ifs at h with hx
  obtain ⟨n, hne⟩ : ∃ n, Nat.find hx = n := ⟨_, rfl⟩
  have he := Nat.find_spec hx
  rw [hne] at h he
  obtain ⟨h1, -, h3⟩ := secant_eq (bal := bal) hn air n
  have h' := Option.some.inj h
  have ht : t = (secant bal idxs air n).1 := (congrArg Prod.fst h').symm
  have hte : te = (secant bal idxs air n).2.1 := (congrArg Prod.snd h').symm
  exact ⟨n, h3.1 he i hi, by rw [ht]; exact (h1 i hi).1, by rw [hte]; exact (h1 i hi).2⟩

theorem gridTemp_le (k : ℕ) : SurfaceTemp.gridTemp k ≤ Atmosphere.T0 := by
  unfold SurfaceTemp.gridTemp
  have : (0 : ℝ) ≤ k := Nat.cast_nonneg k
  linarith

/-- The search does not exceed the melting point. -/
theorem search_le {m : Search} {bal : ℕ → ℝ → ℝ} {idxs : List ℕ} (hn : idxs.Nodup) {air t te : ℕ → ℝ}
    (ha : ∀ i ∈ idxs, air i < Atmosphere.T0) (h : search m bal idxs air = some (t, te)) {i : ℕ} (hi : i ∈ idxs) :
    t i ≤ Atmosphere.T0 := by
  cases m with
  | secant =>
    obtain ⟨n, -, e, -⟩ := search_secant hn h hi
    rw [e]; exact min_le_right _ _
  | legacy =>
    simp only [search, Option.some.injEq, Prod.mk.injEq] at h
    obtain ⟨rfl, -⟩ := h
    simp only [hi, if_true]
    rw [SurfaceTemp.legacy_eq, List.map_map, List.getD_eq_getElem?_getD, List.getElem?_map,
      List.getElem?_eq_getElem (List.idxOf_lt_length_of_mem hi)]
    simp only [List.getElem_idxOf, Option.map_some, Option.getD_some, Function.comp]
    have hcold : SurfaceTemp.coldest (idxs.map fun i => (⟨air i, fun t => some (bal i t)⟩ : SurfaceTemp.Cell)) <
        Atmosphere.T0 :=
      lt_of_le_of_lt (SurfaceTemp.coldest_le (List.mem_map_of_mem hi)) (ha i hi)
    obtain ⟨n, hn'⟩ : ∃ n, SurfaceTemp.gridLen
        (SurfaceTemp.coldest (idxs.map fun i => (⟨air i, fun t => some (bal i t)⟩ : SurfaceTemp.Cell))) = n + 1 :=
      ⟨_, (Nat.succ_pred_eq_of_pos (SurfaceTemp.gridLen_bounds hcold).1).symm⟩
    rw [hn']
    rcases SurfaceTemp.runs_spec (⟨air i, fun t => some (bal i t)⟩ : SurfaceTemp.Cell) n with ⟨-, -, e, -⟩ | ⟨-, k, -, -, -, e, -⟩
    · rw [e]; exact gridTemp_le n
    · rw [e]; exact gridTemp_le k

end Verif.CoupledCryo
