import Verif.Props.CryoMass

/-!
# C30, C31, C32, C34: melt, refreezing, temperature index and firn transition of the cryolayers
-/

set_option linter.unusedSectionVars false

namespace Verif.Cryo

variable {K : Type*} [Field K] [LinearOrder K] [IsStrictOrderedRing K]

/-! ## C30 -/

/-- Total cold content. -/
def CPixel.ccSum (p : CPixel K) : K := p.new.cc + p.old.cc + p.firn.cc + p.ice.cc

/-- Specification: contents and cold content are non-negative, and layers without thickness are
empty. -/
structure CLayer.Plausible (L : CLayer K) : Prop where
  nonneg : L.Nonneg
  cc : 0 ≤ L.cc
  empty : L.thick = 0 → L.ice = 0 ∧ L.cc = 0

/-- All four layers are plausible. -/
structure CPixel.Plausible (p : CPixel K) : Prop where
  new : p.new.Plausible
  old : p.old.Plausible
  firn : p.firn.Plausible
  ice : p.ice.Plausible

theorem ebLayer_spec (e : K) (he : 0 < e) (s : EbAcc K) (L : CLayer K) (hL : L.Plausible) :
    let r := ebLayer (some e) s L
    LF * ((r.1.melt - s.melt) + (L.cc - r.2.cc)) = e * (max s.time 0 - max r.1.time 0) ∧
    0 ≤ r.1.melt - s.melt ∧ r.1.melt - s.melt ≤ L.ice ∧ 0 ≤ r.2.cc ∧ r.2.cc ≤ L.cc ∧
    r.1.time ≤ s.time ∧
    (0 < r.1.time → r.1.melt - s.melt = L.ice ∧ r.2.cc = 0) ∧
    r.2.ice = L.ice ∧ r.2.lwc = L.lwc ∧ r.2.thick = L.thick ∧ r.2.dens = L.dens ∧
    r.2.alb = L.alb := by
  obtain ⟨⟨h1, h2, h3⟩, h4, h5⟩ := hL
  have hLF : (0 : K) < LF := LF_pos
  have htm : 0 ≤ LF * (L.ice + L.cc) / e := by positivity
  simp only [ebLayer]
  split_ifs with h ht
  · obtain ⟨ha, hb, -⟩ := h
    have h' : 0 < s.time - LF * (L.ice + L.cc) / e := by linarith
    simp only [max_eq_left hb.le, max_eq_left h'.le]
    refine ⟨?_, by linarith, by linarith, le_refl _, h4, by linarith, fun _ => ⟨by ring, trivial⟩,
      trivial, trivial, trivial, trivial, trivial⟩
    field_simp; ring
  · obtain ⟨ha, hb, -⟩ := h
    have h' : s.time - LF * (L.ice + L.cc) / e ≤ 0 := by linarith [not_lt.mp ht]
    have hle : e * s.time / LF ≤ L.ice + L.cc := by
      rw [div_le_iff₀ hLF]
      have := not_lt.mp ht
      rw [le_div_iff₀ he] at this
      linarith
    have hpos : 0 ≤ e * s.time / LF := by positivity
    simp only [max_eq_left hb.le, max_eq_right h']
    rcases le_total (L.cc - e * s.time / LF) 0 with hc | hc
    · rw [min_eq_left hc, max_eq_right hc]
      refine ⟨?_, by linarith, by linarith, le_refl _, h4, by linarith, fun h => by linarith,
        trivial, trivial, trivial, trivial, trivial⟩
      field_simp; ring
    · rw [min_eq_right hc, max_eq_left hc]
      refine ⟨?_, by linarith, by linarith, hc, by linarith, by linarith, fun h => by linarith,
        trivial, trivial, trivial, trivial, trivial⟩
      field_simp; ring
  · refine ⟨by ring, by linarith, by linarith, h4, le_refl _, le_refl _, fun hpos => ?_,
      rfl, rfl, rfl, rfl, rfl⟩
    have ht : L.thick = 0 := by
      by_contra hne
      exact h ⟨lt_of_le_of_ne h1 (Ne.symm hne), hpos, he⟩
    obtain ⟨a, b⟩ := h5 ht
    exact ⟨by rw [a]; ring, b⟩

/-- **C30.** For a positive energy balance `e` the energy used for melt and for reducing the cold
content equals the available energy `e * dt`, unless the whole pack melts, which then needs less;
melt never exceeds the ice present and cold content stays non-negative. -/
theorem C30_melt_energy (e dt : K) (he : 0 < e) (hdt : 0 ≤ dt) (p : CPixel K) (hp : p.Plausible) :
    let r := ebMelt (some e) dt p
    0 ≤ r.1 ∧ r.1 ≤ p.iceSum ∧ r.2.Plausible ∧ r.2.ccSum ≤ p.ccSum ∧
      r.2.iceSum = p.iceSum ∧ r.2.lwcSum = p.lwcSum ∧
      (LF * (r.1 + (p.ccSum - r.2.ccSum)) = e * dt ∨
        (r.1 = p.iceSum ∧ r.2.ccSum = 0 ∧ LF * (r.1 + p.ccSum) < e * dt)) := by
  obtain ⟨pn, po, pf, pi⟩ := hp
  simp only [ebMelt]
  have ha := ebLayer_spec e he ⟨dt, 0⟩ p.new pn
  obtain ⟨A, hA⟩ : ∃ x, ebLayer (some e) ⟨dt, 0⟩ p.new = x := ⟨_, rfl⟩
  rw [hA] at ha ⊢
  have hb := ebLayer_spec e he A.1 p.old po
  obtain ⟨B, hB⟩ : ∃ x, ebLayer (some e) A.1 p.old = x := ⟨_, rfl⟩
  rw [hB] at hb ⊢
  have hc := ebLayer_spec e he B.1 p.firn pf
  obtain ⟨C, hC⟩ : ∃ x, ebLayer (some e) B.1 p.firn = x := ⟨_, rfl⟩
  rw [hC] at hc ⊢
  have hd := ebLayer_spec e he C.1 p.ice pi
  obtain ⟨D, hD⟩ : ∃ x, ebLayer (some e) C.1 p.ice = x := ⟨_, rfl⟩
  rw [hD] at hd ⊢
  obtain ⟨a1, a2, a3, a4, a5, a6, a7, a8, a9, a10, -⟩ := ha
  obtain ⟨b1, b2, b3, b4, b5, b6, b7, b8, b9, b10, -⟩ := hb
  obtain ⟨c1, c2, c3, c4, c5, c6, c7, c8, c9, c10, -⟩ := hc
  obtain ⟨d1, d2, d3, d4, d5, d6, d7, d8, d9, d10, -⟩ := hd
  simp only [sub_zero] at a1 a2 a3 a7
  rw [max_eq_left hdt] at a1
  have pl : ∀ (L L' : CLayer K), L.Plausible → 0 ≤ L'.cc → L'.cc ≤ L.cc → L'.ice = L.ice →
      L'.lwc = L.lwc → L'.thick = L.thick → L'.Plausible := by
    intro L L' hL h1 h2 h3 h4 h5
    refine ⟨⟨by rw [h5]; exact hL.nonneg.thick, by rw [h3]; exact hL.nonneg.ice,
      by rw [h4]; exact hL.nonneg.lwc⟩, h1, fun ht => ?_⟩
    rw [h5] at ht
    obtain ⟨x, y⟩ := hL.empty ht
    exact ⟨by rw [h3, x], le_antisymm (by rw [← y]; exact h2) h1⟩
  refine ⟨by linarith, ?_, ⟨pl _ _ pn a4 a5 a8 a9 a10, pl _ _ po b4 b5 b8 b9 b10,
    pl _ _ pf c4 c5 c8 c9 c10, pl _ _ pi d4 d5 d8 d9 d10⟩, ?_, ?_, ?_, ?_⟩
  · simp only [CPixel.iceSum]; linarith
  · simp only [CPixel.ccSum]; linarith
  · simp only [CPixel.iceSum, a8, b8, c8, d8]
  · simp only [CPixel.lwcSum, a9, b9, c9, d9]
  · have hsum : LF * (D.1.melt + (p.ccSum - (A.2.cc + B.2.cc + C.2.cc + D.2.cc)))
        = e * (dt - max D.1.time 0) := by
      simp only [CPixel.ccSum]; linarith
    rcases le_or_gt D.1.time 0 with ht | ht
    · left
      rw [max_eq_right ht, sub_zero] at hsum
      simpa [CPixel.ccSum] using hsum
    · right
      obtain ⟨d11, d12⟩ := d7 ht
      obtain ⟨c11, c12⟩ := c7 (by linarith)
      obtain ⟨b11, b12⟩ := b7 (by linarith)
      obtain ⟨a11, a12⟩ := a7 (by linarith)
      refine ⟨by simp only [CPixel.iceSum]; linarith, ?_, ?_⟩
      · simp only [CPixel.ccSum, a12, b12, c12, d12]; ring
      · rw [a12, b12, c12, d12, max_eq_left ht.le] at hsum
        have : LF * (D.1.melt + p.ccSum) = e * (dt - D.1.time) := by rw [← hsum]; ring
        rw [this]
        have := mul_pos he ht
        linarith

/-- **C30.** For a non-positive or missing energy balance there is no melt and nothing changes. -/
theorem C30_no_melt (eb : Option K) (dt : K) (p : CPixel K) (h : ∀ e, eb = some e → e ≤ 0) :
    ebMelt eb dt p = (0, p) := by
  have key : ∀ (s : EbAcc K) (L : CLayer K), ebLayer eb s L = (s, L) := by
    intro s L
    unfold ebLayer
    cases eb with
    | none => rfl
    | some e =>
      simp only
      rw [if_neg]
      rintro ⟨-, -, h3⟩
      exact absurd h3 (not_lt.mpr (h e rfl))
  simp [ebMelt, key]

example : exPixel.Plausible := by
  refine ⟨⟨⟨?_, ?_, ?_⟩, ?_, ?_⟩, ⟨⟨?_, ?_, ?_⟩, ?_, ?_⟩, ⟨⟨?_, ?_, ?_⟩, ?_, ?_⟩,
    ⟨⟨?_, ?_, ?_⟩, ?_, ?_⟩⟩ <;> norm_num [exPixel]

/-! ## C31 -/

theorem refreezeLayer_spec (capacity avail : K) (L : CLayer K) (hL : L.Plausible)
    (hcap : 0 ≤ capacity) (ha : 0 ≤ avail) :
    let r := refreezeLayer capacity avail L
    0 ≤ r.2.1 ∧ r.2.1 ≤ L.lwc ∧ r.2.1 ≤ avail ∧ 0 ≤ r.1 ∧
    r.2.2.ice = L.ice + r.2.1 ∧ r.2.2.lwc = L.lwc - r.2.1 ∧ r.2.2.thick = L.thick ∧
    r.2.2.alb = L.alb ∧ r.2.2.dens = L.dens ∧
    r.2.1 + (r.2.2.cc - L.cc) = avail - r.1 ∧ 0 ≤ r.2.2.cc ∧
    (0 < L.thick → 0 < avail → r.2.2.cc ≤ capacity * (L.ice + L.lwc)) ∧
    (¬(0 < L.thick ∧ 0 < avail) → r = (avail, 0, L)) ∧
    (L.cc ≤ capacity * (L.ice + L.lwc) → L.cc ≤ r.2.2.cc) ∧
    L.cc - r.2.2.cc ≤ max 0 (L.cc - capacity * (L.ice + L.lwc)) := by
  obtain ⟨⟨h1, h2, h3⟩, h4, h5⟩ := hL
  simp only [refreezeLayer]
  split_ifs with h
  · have hr0 : 0 ≤ min L.lwc avail := le_min h3 ha
    have hr1 : min L.lwc avail ≤ L.lwc := min_le_left _ _
    have hr2 : min L.lwc avail ≤ avail := min_le_right _ _
    have e : L.ice + min L.lwc avail + (L.lwc - min L.lwc avail) = L.ice + L.lwc := by ring
    rw [e]
    have hm : 0 ≤ capacity * (L.ice + L.lwc) := by positivity
    have hb1 : min (avail - min L.lwc avail) (capacity * (L.ice + L.lwc) - L.cc)
      ≤ avail - min L.lwc avail := min_le_left _ _
    have hb2 : min (avail - min L.lwc avail) (capacity * (L.ice + L.lwc) - L.cc)
      ≤ capacity * (L.ice + L.lwc) - L.cc := min_le_right _ _
    have hb3 : -L.cc ≤ min (avail - min L.lwc avail) (capacity * (L.ice + L.lwc) - L.cc) :=
      le_min (by linarith) (by linarith)
    refine ⟨hr0, hr1, hr2, by linarith, rfl, rfl, rfl, rfl, rfl, by ring,
      by linarith, fun _ _ => by linarith, fun hn => absurd h hn, fun hc => ?_, ?_⟩
    · have : 0 ≤ min (avail - min L.lwc avail) (capacity * (L.ice + L.lwc) - L.cc) :=
        le_min (by linarith) (by linarith)
      linarith
    · rcases le_total (avail - min L.lwc avail) (capacity * (L.ice + L.lwc) - L.cc) with hc | hc
      · rw [min_eq_left hc]
        exact le_trans (by linarith) (le_max_left _ _)
      · rw [min_eq_right hc]
        exact le_trans (by linarith) (le_max_right _ _)
  · refine ⟨le_refl _, h3, ha, ha, by ring, by ring, rfl, rfl, rfl, by ring, h4,
      fun h6 h7 => absurd ⟨h6, h7⟩ h, fun _ => rfl, fun _ => le_refl _, ?_⟩
    simp

/-- Cold content of the snow layers above their holding capacity. -/
def excessCold (capacity : K) (p : CPixel K) : K :=
  max 0 (p.new.cc - capacity * p.new.we) + max 0 (p.old.cc - capacity * p.old.we)

/-- **C31.** Refreezing turns liquid water of the new and old snow layers into ice without loss;
the cold used for refreezing plus the build-up of cold content never exceeds the available cold;
refreezing never exceeds the available cold plus cold content above the holding capacity; cold
content of the treated layers ends between zero and the holding capacity; firn and ice are
untouched. -/
theorem C31_refreezing (eb : Option K) (dt factor capacity : K) (p : CPixel K) (hp : p.Plausible)
    (hcap : 0 ≤ capacity) :
    let r := refreeze eb dt factor capacity p
    let avail := availableCold eb dt factor
    r.2.iceSum = p.iceSum + r.1 ∧ r.2.lwcSum = p.lwcSum - r.1 ∧ 0 ≤ r.1 ∧
      r.1 ≤ p.new.lwc + p.old.lwc ∧
      r.1 + (r.2.ccSum - p.ccSum) ≤ avail ∧ r.1 ≤ avail + excessCold capacity p ∧
      0 ≤ r.2.new.cc ∧ 0 ≤ r.2.old.cc ∧
      (0 < p.new.thick → 0 < avail → r.2.new.cc ≤ capacity * p.new.we) ∧
      r.2.firn = p.firn ∧ r.2.ice = p.ice := by
  obtain ⟨pn, po, -, -⟩ := hp
  have hav : 0 ≤ availableCold eb dt factor := by
    unfold availableCold
    split
    · exact le_refl _
    · exact le_max_right _ _
  obtain ⟨a1, a2, a3, a4, a5, a6, a7, -, -, a8, a9, a10, -, -, a11⟩ :=
    refreezeLayer_spec capacity _ p.new pn hcap hav
  obtain ⟨b1, b2, b3, b4, b5, b6, b7, -, -, b8, b9, b10, -, -, b11⟩ :=
    refreezeLayer_spec capacity _ p.old po hcap a4
  simp only [refreeze, CPixel.iceSum, CPixel.lwcSum, CPixel.ccSum]
  refine ⟨by rw [a5, b5]; ring, by rw [a6, b6]; ring, by linarith, by linarith, by linarith, ?_,
    a9, b9, a10, trivial, trivial⟩
  simp only [excessCold, CLayer.we]
  linarith

/-- **C31.** If the cold content does not exceed the holding capacity of the new snow layer,
refreezing alone never exceeds the available cold. -/
theorem C31_refreezing_bounded (eb : Option K) (dt factor capacity : K) (p : CPixel K)
    (hp : p.Plausible) (hcap : 0 ≤ capacity) (hn : p.new.cc ≤ capacity * p.new.we)
    (ho : p.old.cc ≤ capacity * p.old.we) :
    (refreeze eb dt factor capacity p).1 ≤ availableCold eb dt factor := by
  obtain ⟨-, -, -, -, -, h, -⟩ := C31_refreezing eb dt factor capacity p hp hcap
  have : excessCold capacity p = 0 := by
    simp only [excessCold]
    rw [max_eq_left (by linarith), max_eq_left (by linarith), add_zero]
  rw [this, add_zero] at h
  exact h

/-- Cold content above the holding capacity of the new snow layer is released to the layer below,
where more water freezes than the energy deficit of the step provides for: energy balance
-334000/3600 W m-2 over one hour (1 kg m-2 of cold), refreezing 2 kg m-2. -/
theorem C31_release_witness :
    ∃ p : CPixel ℚ, p.new.Plausible ∧ p.old.Plausible ∧
      availableCold (some (-334000 / 3600 : ℚ)) 3600 1 = 1 ∧
      (refreeze (some (-334000 / 3600)) 3600 1 (1 / 20) p).1 = 2 := by
  refine ⟨{ exPixel with new := { exPixel.new with cc := 7 / 4 } }, ⟨⟨?_, ?_, ?_⟩, ?_, ?_⟩,
    ⟨⟨?_, ?_, ?_⟩, ?_, ?_⟩, ?_, ?_⟩ <;>
    norm_num [exPixel, refreeze, refreezeLayer, availableCold, LF]

example : exPixel.new.cc ≤ 1 / 20 * exPixel.new.we ∧ exPixel.old.cc ≤ 1 / 20 * exPixel.old.we := by
  norm_num [exPixel, CLayer.we]

/-! ## C32 -/

/-- **C32.** Temperature-index melt lies between zero and the ice present, and vanishes at or below
the threshold temperature and for snow-free pixels. -/
theorem C32_bounds (m : TiMethod) (dt ddf af thr T alb sw : K) (p : CPixel K) (hp : p.Nonneg)
    (hdt : 0 ≤ dt) :
    0 ≤ tiMelt m dt ddf af thr T alb sw p ∧ tiMelt m dt ddf af thr T alb sw p ≤ p.iceSum ∧
      (T ≤ thr → tiMelt m dt ddf af thr T alb sw p = 0) ∧
      (p.depth = 0 → tiMelt m dt ddf af thr T alb sw p = 0) := by
  have hs : 0 ≤ p.iceSum := by
    have := hp.new.ice; have := hp.old.ice; have := hp.firn.ice; have := hp.ice.ice
    simp only [CPixel.iceSum]; linarith
  have hd : 0 ≤ dt / (3600 * 24) := by positivity
  refine ⟨?_, ?_, ?_, ?_⟩
  · by_cases h : 0 < p.depth
    · simp only [tiMelt, if_pos h]; exact le_min (le_max_right _ _) hs
    · simp only [tiMelt, if_neg h]; exact le_refl _
  · by_cases h : 0 < p.depth
    · simp only [tiMelt, if_pos h]; exact min_le_right _ _
    · simp only [tiMelt, if_neg h]; exact hs
  · intro h
    have hdd : (T - thr) * (dt / (3600 * 24)) ≤ 0 :=
      mul_nonpos_of_nonpos_of_nonneg (by linarith) hd
    cases m <;> simp [tiMelt, hdd, hs]
  · intro h; simp [tiMelt, h]

/-- **C32.** Melt is non-decreasing in air temperature and shortwave radiation and non-increasing in
albedo (the latter two matter for the enhanced method only). -/
theorem C32_monotone (m : TiMethod) (dt ddf af thr T T' alb alb' sw sw' : K) (p : CPixel K)
    (hdt : 0 ≤ dt) (hddf : 0 ≤ ddf) (haf : 0 ≤ af) (hT : T ≤ T') (halb : alb' ≤ alb)
    (halb1 : alb ≤ 1) (hsw0 : 0 ≤ sw) (hsw : sw ≤ sw') :
    tiMelt m dt ddf af thr T alb sw p ≤ tiMelt m dt ddf af thr T' alb' sw' p := by
  have hd : 0 ≤ dt / (3600 * 24) := by positivity
  have hdd : (T - thr) * (dt / (3600 * 24)) ≤ (T' - thr) * (dt / (3600 * 24)) :=
    mul_le_mul_of_nonneg_right (by linarith) hd
  by_cases h : 0 < p.depth
  · simp only [tiMelt, if_pos h]
    refine min_le_min_right _ (max_le_max_right _ ?_)
    cases m with
    | temperatureIndex =>
      exact mul_le_mul_of_nonneg_left (max_le_max_right _ hdd) hddf
    | enhanced =>
      simp only
      have hrad : 0 ≤ af * (1 - alb) * sw * (dt / (3600 * 24)) := by
        have : 0 ≤ 1 - alb := by linarith
        positivity
      have hrad' : af * (1 - alb) * sw * (dt / (3600 * 24))
          ≤ af * (1 - alb') * sw' * (dt / (3600 * 24)) := by
        apply mul_le_mul_of_nonneg_right _ hd
        have h1 : 0 ≤ 1 - alb' := by linarith
        exact mul_le_mul (mul_le_mul_of_nonneg_left (by linarith) haf) hsw hsw0 (by positivity)
      by_cases h1 : (T - thr) * (dt / (3600 * 24)) ≤ 0 <;>
        by_cases h2 : (T' - thr) * (dt / (3600 * 24)) ≤ 0 <;> simp only [h1, h2, if_true, if_false]
      · exact le_refl _
      · have : 0 ≤ ddf * ((T' - thr) * (dt / (3600 * 24))) :=
          mul_nonneg hddf (not_le.mp h2).le
        linarith
      · exact absurd (le_trans hdd h2) h1
      · have := mul_le_mul_of_nonneg_left hdd hddf
        linarith
  · simp only [tiMelt, if_neg h]; exact le_refl _

/-- Melt is positive in a concrete case. -/
example : 0 < tiMelt .enhanced 3600 5 (1 / 10) (27315 / 100) 278 (7 / 10) 400 exPixel := by
  norm_num [tiMelt, exPixel, CPixel.depth, CPixel.iceSum]

/-! ## C34 -/

/-- **C34.** The old-snow-to-firn transition never happens at the first time step, and between two
transitions the configured month is left: it happens at most once per visit of that month. -/
theorem C34_once_per_visit (fm : ℕ) (months : ℕ → ℕ) :
    firnDate fm months 0 = false ∧
    ∀ i j, i < j → firnDate fm months i = true → firnDate fm months j = true →
      ∃ k, i < k ∧ k < j ∧ months k ≠ fm := by
  refine ⟨by simp [firnDate], fun i j hij hi hj => ?_⟩
  simp only [firnDate, decide_eq_true_eq] at hi hj
  obtain ⟨hi1, -, -⟩ := hi
  obtain ⟨-, hj2, hj3⟩ := hj
  refine ⟨j - 1, ?_, by omega, hj3⟩
  rcases Nat.lt_or_ge i (j - 1) with h | h
  · exact h
  · have : j - 1 = i := by omega
    rw [this] at hj3
    exact absurd hi1 hj3

/-- **C34.** Every visit of the configured month that does not include the first time step has
exactly one transition, at its first time step. -/
theorem C34_exactly_once (fm : ℕ) (months : ℕ → ℕ) (i : ℕ) (hi : months i = fm)
    (hbefore : ∃ j, j < i ∧ months j ≠ fm) :
    ∃! k, k ≤ i ∧ (∀ m, k ≤ m → m ≤ i → months m = fm) ∧ firnDate fm months k = true := by
  have hex : ∃ k, k ≤ i ∧ (∀ m, k ≤ m → m ≤ i → months m = fm) ∧ 0 < k ∧ months (k - 1) ≠ fm := by
    induction i with
    | zero => obtain ⟨j, hj, -⟩ := hbefore; omega
    | succ i ih =>
      by_cases h : months i = fm
      · have hb : ∃ j, j < i ∧ months j ≠ fm := by
          obtain ⟨j, hj, hne⟩ := hbefore
          refine ⟨j, ?_, hne⟩
          rcases Nat.lt_or_ge j i with h' | h'
          · exact h'
          · have : j = i := by omega
            rw [this] at hne; exact absurd h hne
        obtain ⟨k, h1, h2, h3, h4⟩ := ih h hb
        refine ⟨k, by omega, fun m hm hm' => ?_, h3, h4⟩
        rcases Nat.lt_or_ge m (i + 1) with h' | h'
        · exact h2 m hm (by omega)
        · have : m = i + 1 := by omega
          rw [this]; exact hi
      · refine ⟨i + 1, le_refl _, fun m hm hm' => ?_, by omega, by simpa using h⟩
        have : m = i + 1 := by omega
        rw [this]; exact hi
  obtain ⟨k, h1, h2, h3, h4⟩ := hex
  refine ⟨k, ⟨h1, h2, ?_⟩, ?_⟩
  · simp only [firnDate, decide_eq_true_eq]
    exact ⟨h2 k (le_refl _) h1, h3, h4⟩
  · rintro k' ⟨g1, g2, g3⟩
    simp only [firnDate, decide_eq_true_eq] at g3
    obtain ⟨-, g4, g5⟩ := g3
    rcases Nat.lt_trichotomy k k' with h | h | h
    · exact absurd (h2 (k' - 1) (by omega) (by omega)) g5
    · exact h.symm
    · exact absurd (g2 (k - 1) (by omega) (by omega)) h4

/-- September, then October: a transition at index 1. -/
example : firnDate 10 (fun i => if i = 0 then 9 else 10) 1 = true ∧
    firnDate 10 (fun i => if i = 0 then 9 else 10) 2 = false := by decide

/-- A run starting within the configured month has no transition during that visit. -/
theorem C34_no_transition_at_start (fm : ℕ) (months : ℕ → ℕ) (n : ℕ)
    (h : ∀ i, i ≤ n → months i = fm) : ∀ i, i ≤ n → firnDate fm months i = false := by
  intro i hi
  simp only [firnDate, decide_eq_false_iff_not]
  rintro ⟨-, h2, h3⟩
  exact h3 (h (i - 1) (by omega))

end Verif.Cryo
