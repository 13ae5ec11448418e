import Verif.Model.CryoLayer
import Mathlib.Tactic.Linarith
import Mathlib.Tactic.FieldSimp

/-!
# C28, C29: mass conservation of the cryolayer kernels and layer transitions
-/

set_option linter.unusedSectionVars false

namespace Verif.Cryo

open Verif.MultiLayer (LwcMethod maxLwc)

variable {K : Type*} [Field K] [LinearOrder K] [IsStrictOrderedRing K]

/-! ## Specification -/

/-- Non-negative contents. -/
structure CLayer.Nonneg (L : CLayer K) : Prop where
  thick : 0 ≤ L.thick
  ice : 0 ≤ L.ice
  lwc : 0 ≤ L.lwc

/-- All four layers have non-negative contents. -/
structure CPixel.Nonneg (p : CPixel K) : Prop where
  new : p.new.Nonneg
  old : p.old.Nonneg
  firn : p.firn.Nonneg
  ice : p.ice.Nonneg

/-- `liquid_water_content.sum(axis=0)`. -/
def CPixel.lwcSum (p : CPixel K) : K := p.new.lwc + p.old.lwc + p.firn.lwc + p.ice.lwc

/-- The amount a top-down extraction of `d` takes from a layer of content `x` lying below layers of
total content `above`. -/
def taken (d above x : K) : K := min (max (d - above) 0) x

theorem swe_eq (p : CPixel K) : p.swe = p.iceSum + p.lwcSum := by
  simp only [CPixel.swe, CPixel.iceSum, CPixel.lwcSum, CLayer.we]; ring

section aux

theorem taken_nonneg {d above x : K} (hx : 0 ≤ x) : 0 ≤ taken d above x :=
  le_min (le_max_right _ _) hx

theorem taken_le {d above x : K} : taken d above x ≤ x := min_le_right _ _

theorem remaining {d above x : K} (hx : 0 ≤ x) :
    max (d - above) 0 - taken d above x = max (d - (above + x)) 0 := by
  unfold taken
  rcases le_total (d - above) 0 with h | h
  · rw [max_eq_right h, min_eq_left hx, max_eq_right (by linarith)]; simp
  · rw [max_eq_left h]
    rcases le_total (d - above) x with h2 | h2
    · rw [min_eq_left h2, max_eq_right (by linarith)]; ring
    · rw [min_eq_right h2, max_eq_left (by linarith)]; ring

/-- Body of the melt loop. -/
theorem meltLayer_spec (d : K) (L : CLayer K) (hd : 0 ≤ d) (hL : L.Nonneg) :
    (meltLayer d L).1 = d - min d L.ice ∧ (meltLayer d L).2.ice = L.ice - min d L.ice ∧
      (meltLayer d L).2.lwc = L.lwc + min d L.ice ∧ (meltLayer d L).2.cc = L.cc ∧
      (meltLayer d L).2.dens = L.dens ∧ (meltLayer d L).2.alb = L.alb ∧
      (meltLayer d L).2.Nonneg ∧ (meltLayer d L).2.thick * L.ice
        = L.thick * (meltLayer d L).2.ice ∧
      (meltLayer d L).2.thick ≤ L.thick := by
  obtain ⟨h1, h2, h3⟩ := hL
  unfold meltLayer
  split_ifs with h
  · have hx : min d L.ice ≤ L.ice := min_le_right _ _
    have hx0 : 0 ≤ min d L.ice := le_min hd h2
    have hpos := h.2
    have hf : 0 ≤ 1 - min d L.ice / L.ice := by
      rw [sub_nonneg, div_le_one hpos]; exact hx
    have hf1 : 1 - min d L.ice / L.ice ≤ 1 := by
      have : 0 ≤ min d L.ice / L.ice := by positivity
      linarith
    refine ⟨rfl, rfl, rfl, rfl, rfl, rfl, ⟨mul_nonneg h1 hf, sub_nonneg.mpr hx, add_nonneg h3 hx0⟩,
      ?_, ?_⟩
    · simp only; field_simp
    · simp only; nlinarith
  · have : min d L.ice = 0 := by
      rcases not_and_or.mp h with h | h
      · rw [le_antisymm (not_lt.mp h) hd, min_eq_left h2]
      · rw [le_antisymm (not_lt.mp h) h2, min_eq_right hd]
    rw [this]
    simp only [sub_zero, add_zero]
    exact ⟨trivial, trivial, trivial, trivial, trivial, trivial, ⟨h1, h2, h3⟩, trivial, le_refl _⟩

theorem sublLayer_spec (d : K) (L : CLayer K) (hd : 0 ≤ d) (hL : L.Nonneg) :
    (sublLayer d L).1 = d - min d L.ice ∧ (sublLayer d L).2.ice = L.ice - min d L.ice ∧
      (sublLayer d L).2.lwc = L.lwc ∧ (sublLayer d L).2.cc = L.cc ∧
      (sublLayer d L).2.dens = L.dens ∧ (sublLayer d L).2.alb = L.alb ∧
      (sublLayer d L).2.Nonneg ∧ (sublLayer d L).2.thick * L.ice
        = L.thick * (sublLayer d L).2.ice := by
  obtain ⟨h1, h2, h3⟩ := hL
  unfold sublLayer
  split_ifs with h
  · have hx : min d L.ice ≤ L.ice := min_le_right _ _
    have hx0 : 0 ≤ min d L.ice := le_min hd h2
    have hpos := h.2
    have hf : 0 ≤ 1 - min d L.ice / L.ice := by
      rw [sub_nonneg, div_le_one hpos]; exact hx
    refine ⟨rfl, rfl, rfl, rfl, rfl, rfl, ⟨mul_nonneg h1 hf, sub_nonneg.mpr hx, h3⟩, ?_⟩
    simp only; field_simp
  · have : min d L.ice = 0 := by
      rcases not_and_or.mp h with h | h
      · rw [le_antisymm (not_lt.mp h) hd, min_eq_left h2]
      · rw [le_antisymm (not_lt.mp h) h2, min_eq_right hd]
    rw [this]
    simp only [sub_zero]
    exact ⟨trivial, trivial, trivial, trivial, trivial, trivial, ⟨h1, h2, h3⟩, trivial⟩

theorem sublLayer_neg (d : K) (L : CLayer K) (hd : d ≤ 0) : sublLayer d L = (d, L) := by
  unfold sublLayer
  rw [if_neg (fun h => absurd h.1 (not_lt.mpr hd))]

theorem sublLoop_neg (d : K) (p : CPixel K) (hd : d ≤ 0) : sublLoop d p = (d, p) := by
  simp [sublLoop, sublLayer_neg d _ hd]

theorem min_taken (d above x : K) : min (max (d - above) 0) x = taken d above x := rfl

theorem taken_sum {d a b c e : K} (hd : 0 ≤ d) (ha : 0 ≤ a) (hb : 0 ≤ b) (hc : 0 ≤ c)
    (he : 0 ≤ e) :
    taken d 0 a + taken d a b + taken d (a + b) c + taken d (a + b + c) e
      = min d (a + b + c + e) := by
  have h1 := remaining (d := d) (above := 0) ha
  have h2 := remaining (d := d) (above := a) hb
  have h3 := remaining (d := d) (above := a + b) hc
  have h4 := remaining (d := d) (above := a + b + c) he
  rw [zero_add] at h1
  rw [sub_zero, max_eq_left hd] at h1
  have : taken d 0 a + taken d a b + taken d (a + b) c + taken d (a + b + c) e
      = d - max (d - (a + b + c + e)) 0 := by linarith
  rw [this]
  rcases le_total d (a + b + c + e) with h | h
  · rw [min_eq_left h, max_eq_right (by linarith)]; ring
  · rw [min_eq_right h, max_eq_left (by linarith)]; ring

end aux

/-- **C28 (melt).** Melt takes ice top-down — from each layer what the demand leaves after the
layers above — turns it into liquid water of the same layer, in total the demand or all ice, and
keeps contents non-negative and the ice density of each layer. -/
theorem C28_melt (d : K) (p : CPixel K) (hd : 0 ≤ d) (hp : p.Nonneg) :
    let q := melt d p
    let a1 := p.new.ice
    let a2 := a1 + p.old.ice
    let a3 := a2 + p.firn.ice
    q.new.ice = p.new.ice - taken d 0 p.new.ice ∧ q.new.lwc = p.new.lwc + taken d 0 p.new.ice ∧
    q.old.ice = p.old.ice - taken d a1 p.old.ice ∧ q.old.lwc = p.old.lwc + taken d a1 p.old.ice ∧
    q.firn.ice = p.firn.ice - taken d a2 p.firn.ice ∧
    q.firn.lwc = p.firn.lwc + taken d a2 p.firn.ice ∧
    q.ice.ice = p.ice.ice - taken d a3 p.ice.ice ∧ q.ice.lwc = p.ice.lwc + taken d a3 p.ice.ice ∧
    q.iceSum = p.iceSum - min d p.iceSum ∧ q.lwcSum = p.lwcSum + min d p.iceSum ∧
    q.Nonneg ∧ q.new.thick * p.new.ice = p.new.thick * q.new.ice ∧
    q.old.thick * p.old.ice = p.old.thick * q.old.ice ∧
    q.firn.thick * p.firn.ice = p.firn.thick * q.firn.ice ∧
    q.ice.thick * p.ice.ice = p.ice.thick * q.ice.ice := by
  obtain ⟨hn, ho, hf, hi⟩ := hp
  obtain ⟨n1, n2, n3, -, -, -, n4, n5, -⟩ := meltLayer_spec d p.new hd hn
  have e1 : (meltLayer d p.new).1 = max (d - p.new.ice) 0 := by
    have := remaining (d := d) (above := 0) hn.ice
    rw [n1, ← zero_add p.new.ice, ← this]; simp [taken, max_eq_left hd]
  have hd1 : 0 ≤ (meltLayer d p.new).1 := by rw [e1]; exact le_max_right _ _
  obtain ⟨o1, o2, o3, -, -, -, o4, o5, -⟩ := meltLayer_spec _ p.old hd1 ho
  have e2 : (meltLayer (meltLayer d p.new).1 p.old).1 = max (d - (p.new.ice + p.old.ice)) 0 := by
    rw [o1, e1, min_taken, remaining ho.ice]
  have hd2 : 0 ≤ (meltLayer (meltLayer d p.new).1 p.old).1 := by rw [e2]; exact le_max_right _ _
  obtain ⟨f1, f2, f3, -, -, -, f4, f5, -⟩ := meltLayer_spec _ p.firn hd2 hf
  have e3 : (meltLayer (meltLayer (meltLayer d p.new).1 p.old).1 p.firn).1
      = max (d - (p.new.ice + p.old.ice + p.firn.ice)) 0 := by
    rw [f1, e2, min_taken, remaining hf.ice]
  have hd3 : 0 ≤ (meltLayer (meltLayer (meltLayer d p.new).1 p.old).1 p.firn).1 := by
    rw [e3]; exact le_max_right _ _
  obtain ⟨i1, i2, i3, -, -, -, i4, i5, -⟩ := meltLayer_spec _ p.ice hd3 hi
  have t0 : min d p.new.ice = taken d 0 p.new.ice := by
    simp [taken, max_eq_left hd]
  rw [t0] at n2 n3
  rw [e1, min_taken] at o2 o3
  rw [e2, min_taken] at f2 f3
  rw [e3, min_taken] at i2 i3
  have hs := taken_sum hd hn.ice ho.ice hf.ice hi.ice
  rw [e1] at o4 o5
  rw [e2] at f4 f5
  rw [e3] at i4 i5
  intro q a1 a2 a3
  have hq : q = { p with new := (meltLayer d p.new).2,
                         old := (meltLayer (max (d - p.new.ice) 0) p.old).2,
                         firn := (meltLayer (max (d - (p.new.ice + p.old.ice)) 0) p.firn).2,
                         ice := (meltLayer (max (d - (p.new.ice + p.old.ice + p.firn.ice)) 0)
                           p.ice).2 } := by
    simp only [q, melt]
    rw [e3, e2, e1]
  rw [hq]
  refine ⟨n2, n3, o2, o3, f2, f3, i2, i3, ?_, ?_, ⟨n4, o4, f4, i4⟩, n5, o5, f5, i5⟩
  · simp only [CPixel.iceSum, n2, o2, f2, i2]
    linarith
  · simp only [CPixel.lwcSum, CPixel.iceSum, n3, o3, f3, i3]
    linarith

/-- Loop part of the sublimation. -/
theorem sublLoop_spec (d : K) (p : CPixel K) (hd : 0 ≤ d) (hp : p.Nonneg) :
    let q := (sublLoop d p).2
    (sublLoop d p).1 = max (d - p.iceSum) 0 ∧ q.iceSum = p.iceSum - min d p.iceSum ∧
      q.lwcSum = p.lwcSum ∧ q.Nonneg ∧ q.albedo = p.albedo ∧
      q.new.lwc = p.new.lwc ∧ q.old.lwc = p.old.lwc ∧ q.firn.lwc = p.firn.lwc ∧
      q.ice.lwc = p.ice.lwc ∧
      q.new.thick * p.new.ice = p.new.thick * q.new.ice ∧
      q.old.thick * p.old.ice = p.old.thick * q.old.ice ∧
      q.firn.thick * p.firn.ice = p.firn.thick * q.firn.ice ∧
      q.ice.thick * p.ice.ice = p.ice.thick * q.ice.ice ∧
      q.new.alb = p.new.alb ∧ q.old.alb = p.old.alb := by
  obtain ⟨hn, ho, hf, hi⟩ := hp
  obtain ⟨n1, n2, n3, -, -, nA, n4, n5⟩ := sublLayer_spec d p.new hd hn
  have e1 : (sublLayer d p.new).1 = max (d - p.new.ice) 0 := by
    have := remaining (d := d) (above := 0) hn.ice
    rw [n1, ← zero_add p.new.ice, ← this]; simp [taken, max_eq_left hd]
  have hd1 : 0 ≤ (sublLayer d p.new).1 := by rw [e1]; exact le_max_right _ _
  obtain ⟨o1, o2, o3, -, -, oA, o4, o5⟩ := sublLayer_spec _ p.old hd1 ho
  have e2 : (sublLayer (sublLayer d p.new).1 p.old).1 = max (d - (p.new.ice + p.old.ice)) 0 := by
    rw [o1, e1, min_taken, remaining ho.ice]
  have hd2 : 0 ≤ (sublLayer (sublLayer d p.new).1 p.old).1 := by rw [e2]; exact le_max_right _ _
  obtain ⟨f1, f2, f3, -, -, -, f4, f5⟩ := sublLayer_spec _ p.firn hd2 hf
  have e3 : (sublLayer (sublLayer (sublLayer d p.new).1 p.old).1 p.firn).1
      = max (d - (p.new.ice + p.old.ice + p.firn.ice)) 0 := by
    rw [f1, e2, min_taken, remaining hf.ice]
  have hd3 : 0 ≤ (sublLayer (sublLayer (sublLayer d p.new).1 p.old).1 p.firn).1 := by
    rw [e3]; exact le_max_right _ _
  obtain ⟨i1, i2, i3, -, -, -, i4, i5⟩ := sublLayer_spec _ p.ice hd3 hi
  have e4 : (sublLayer (sublLayer (sublLayer (sublLayer d p.new).1 p.old).1 p.firn).1 p.ice).1
      = max (d - (p.new.ice + p.old.ice + p.firn.ice + p.ice.ice)) 0 := by
    rw [i1, e3, min_taken, remaining hi.ice]
  have t0 : min d p.new.ice = taken d 0 p.new.ice := by
    simp [taken, max_eq_left hd]
  rw [t0] at n2
  rw [e1, min_taken] at o2
  rw [e2, min_taken] at f2
  rw [e3, min_taken] at i2
  have hs := taken_sum hd hn.ice ho.ice hf.ice hi.ice
  intro q
  rw [e1] at o3 o4 o5 oA
  rw [e2] at f3 f4 f5
  rw [e3] at i3 i4 i5
  have hq : q = { p with new := (sublLayer d p.new).2,
                         old := (sublLayer (max (d - p.new.ice) 0) p.old).2,
                         firn := (sublLayer (max (d - (p.new.ice + p.old.ice)) 0) p.firn).2,
                         ice := (sublLayer (max (d - (p.new.ice + p.old.ice + p.firn.ice)) 0)
                           p.ice).2 } := by
    simp only [q, sublLoop]
    rw [e3, e2, e1]
  rw [hq]
  refine ⟨e4, ?_, ?_, ⟨n4, o4, f4, i4⟩, rfl, n3, o3, f3, i3, n5, o5, f5, i5, nA, oA⟩
  · simp only [CPixel.iceSum, n2, o2, f2, i2]
    linarith
  · simp only [CPixel.lwcSum, n3, o3, f3, i3]

/-- **C28 (adding snow).** Adding snow adds exactly the given ice to the new snow layer. -/
theorem C28_add_snow (single : Bool) (albMax density amount : K) (p : CPixel K) (hp : p.Nonneg)
    (hd : 0 < density) (ha : 0 < amount) :
    let q := addSnow single albMax density amount p
    q.iceSum = p.iceSum + amount ∧ q.lwcSum = p.lwcSum ∧ q.Nonneg ∧
      q.new.ice = p.new.ice + amount ∧ q.new.thick = p.new.thick + amount / density ∧
      q.old = p.old ∧ q.firn = p.firn ∧ q.ice = p.ice ∧
      q.new.dens = some (q.new.we / q.new.thick) := by
  obtain ⟨⟨n1, n2, n3⟩, ho, hf, hi⟩ := hp
  have h1 : 0 < amount / density := by positivity
  have hpos : p.new.thick + amount / density ≠ 0 := by linarith [show 0 < p.new.thick + amount / density by linarith]
  refine ⟨?_, rfl, ⟨⟨?_, ?_, n3⟩, ho, hf, hi⟩, rfl, rfl, rfl, rfl, rfl, ?_⟩
  · simp only [addSnow, CPixel.iceSum]; ring
  · simp only [addSnow]; linarith
  · simp only [addSnow]; linarith
  · simp [addSnow, hpos, CLayer.we]

/-- **C28 (sublimation).** SWE falls by exactly the reported amount (rises for negative amounts),
which never exceeds the ice present; liquid water is untouched; contents stay non-negative. -/
theorem C28_sublimation (dt density albMax : K) (single : Bool) (flux : Option K) (p : CPixel K)
    (hp : p.Nonneg) (hd : 0 < density) :
    let r := sublimation dt density albMax single flux p
    r.2.iceSum = p.iceSum - r.1 ∧ r.2.lwcSum = p.lwcSum ∧ r.2.Nonneg ∧ r.1 ≤ p.iceSum ∧
      (p.iceSum = 0 → r.1 = 0) ∧
      (0 < p.iceSum → ∀ f, flux = some f → r.1 = min (-f * dt) p.iceSum) := by
  have hsum : 0 ≤ p.iceSum := by
    have := hp.new.ice; have := hp.old.ice; have := hp.firn.ice; have := hp.ice.ice
    simp only [CPixel.iceSum]; linarith
  intro r
  have hr1 : r.1 = if 0 < p.iceSum then
      min (nanToZero (flux.map fun f => -1 * f * dt)) p.iceSum else 0 := rfl
  have hle : r.1 ≤ p.iceSum := by
    rw [hr1]; split_ifs
    · exact min_le_right _ _
    · exact hsum
  have hzero : p.iceSum = 0 → r.1 = 0 := by
    intro h; rw [hr1, h]; simp
  have hval : 0 < p.iceSum → ∀ f, flux = some f → r.1 = min (-f * dt) p.iceSum := by
    intro h f hf; rw [hr1, if_pos h, hf]; simp [nanToZero]
  have hr2 : r.2 = if (sublLoop r.1 p).1 < 0 then
      addSnow single albMax density (-(sublLoop r.1 p).1) (sublLoop r.1 p).2
      else (sublLoop r.1 p).2 := rfl
  rcases le_or_gt 0 r.1 with h | h
  · obtain ⟨s1, s2, s3, s4, -⟩ := sublLoop_spec r.1 p h hp
    rw [hr2, if_neg (by rw [s1]; exact not_lt.mpr (le_max_right _ _))]
    exact ⟨by rw [s2, min_eq_left hle], s3, s4, hle, hzero, hval⟩
  · rw [hr2, sublLoop_neg r.1 p h.le, if_pos h]
    obtain ⟨a1, a2, a3, -⟩ := C28_add_snow single albMax density (-r.1) p hp hd (by linarith)
    exact ⟨by rw [a1]; ring, a2, a3, hle, hzero, hval⟩

theorem runoffLayer_spec (r cap : K) (L : CLayer K) (hr : 0 ≤ r) (hcap : 0 ≤ cap)
    (hL : L.Nonneg) :
    (runoffLayer r cap L).1 + (runoffLayer r cap L).2.lwc = r + L.lwc ∧
      (runoffLayer r cap L).2.ice = L.ice ∧ (runoffLayer r cap L).2.thick = L.thick ∧
      (runoffLayer r cap L).2.cc = L.cc ∧ (runoffLayer r cap L).2.dens = L.dens ∧
      (runoffLayer r cap L).2.alb = L.alb ∧ (runoffLayer r cap L).2.Nonneg ∧
      0 ≤ (runoffLayer r cap L).1 ∧ (runoffLayer r cap L).2.lwc ≤ cap := by
  obtain ⟨h1, h2, h3⟩ := hL
  unfold runoffLayer
  split_ifs with h
  · simp only
    rcases le_total (L.lwc + r - cap) 0 with hc | hc
    · rw [max_eq_right hc]
      exact ⟨by ring, trivial, trivial, trivial, trivial, trivial, ⟨h1, h2, by simp; linarith⟩,
        le_refl _, by linarith⟩
    · rw [max_eq_left hc]
      exact ⟨by ring, trivial, trivial, trivial, trivial, trivial, ⟨h1, h2, by simp; linarith⟩,
        hc, by linarith⟩
  · have hz : L.lwc = 0 := by linarith [not_lt.mp h]
    exact ⟨rfl, rfl, rfl, rfl, rfl, rfl, ⟨h1, h2, h3⟩, hr, by rw [hz]; exact hcap⟩

/-- **C28 (runoff).** Runoff plus the new liquid water equals rain plus the old liquid water; no
layer keeps more than its capacity, firn and ice keep none; ice is untouched; everything stays
non-negative. -/
theorem C28_runoff (m : LwcMethod) (maxFrac : K) (rain : Option K) (p : CPixel K) (hp : p.Nonneg)
    (hr : 0 ≤ rain.getD 0)
    (hn : 0 ≤ maxLwc m maxFrac p.new.thick p.new.ice)
    (ho : 0 ≤ maxLwc m maxFrac p.old.thick p.old.ice) :
    let r := runoff m maxFrac rain p
    r.1 + r.2.lwcSum = rain.getD 0 + p.lwcSum ∧ r.2.iceSum = p.iceSum ∧ 0 ≤ r.1 ∧ r.2.Nonneg ∧
      r.2.new.lwc ≤ maxLwc m maxFrac p.new.thick p.new.ice ∧
      r.2.old.lwc ≤ maxLwc m maxFrac p.old.thick p.old.ice ∧
      r.2.firn.lwc = 0 ∧ r.2.ice.lwc = 0 := by
  obtain ⟨pn, po, pf, pi⟩ := hp
  obtain ⟨a1, a2, a3, -, -, -, a4, a5, a6⟩ := runoffLayer_spec (nanToZero rain) _ p.new hr hn pn
  obtain ⟨b1, b2, b3, -, -, -, b4, b5, b6⟩ := runoffLayer_spec _ _ p.old a5 ho po
  obtain ⟨c1, c2, c3, -, -, -, c4, c5, c6⟩ := runoffLayer_spec _ 0 p.firn b5 (le_refl _) pf
  obtain ⟨d1, d2, d3, -, -, -, d4, d5, d6⟩ := runoffLayer_spec _ 0 p.ice c5 (le_refl _) pi
  refine ⟨?_, ?_, d5, ⟨a4, b4, c4, d4⟩, a6, b6, le_antisymm c6 c4.lwc, le_antisymm d6 d4.lwc⟩
  · simp only [runoff, CPixel.lwcSum, nanToZero] at *
    linarith
  · simp only [runoff, CPixel.iceSum, a2, b2, c2, d2]

/-! ## C29: transitions -/

/-- Specification: a layer is either empty or has positive thickness and density `mass / thick`. -/
def CLayer.Consistent (L : CLayer K) : Prop :=
  (L.thick = 0 ∧ L.ice = 0 ∧ L.lwc = 0 ∧ L.cc = 0) ∨
  (0 < L.thick ∧ 0 ≤ L.ice ∧ 0 ≤ L.lwc ∧ 0 < L.ice + L.lwc ∧ 0 ≤ L.cc ∧
    ∃ d, L.dens = some d ∧ d * L.thick = L.ice + L.lwc)

theorem CLayer.Consistent.dens_pos {L : CLayer K} (h : L.Consistent) (ht : 0 < L.thick) :
    ∃ d, L.dens = some d ∧ 0 < d ∧ d * L.thick = L.ice + L.lwc ∧ 0 < L.ice + L.lwc := by
  rcases h with h | ⟨h1, h2, h3, h4, h5, d, hd, he⟩
  · rw [h.1] at ht; exact absurd ht (lt_irrefl _)
  · refine ⟨d, hd, ?_, he, h4⟩
    by_contra hn
    have := mul_nonpos_of_nonpos_of_nonneg (not_lt.mp hn) h1.le
    linarith

/-- **C29.** A transition of consistent layers is defined, moves ice, liquid water and cold content
completely, leaves the source empty and the destination consistent; density and albedo of the
destination lie between those of the two layers (equal to the source's for an empty
destination). -/
theorem C29_transition (src dst : CLayer K) (hs : src.Consistent) (hd : dst.Consistent) :
    ∃ src' dst', transition true src dst = some (src', dst') ∧
      src'.thick = 0 ∧ src'.ice = 0 ∧ src'.lwc = 0 ∧ src'.cc = 0 ∧ src'.dens = none ∧
      src'.alb = none ∧
      dst'.ice = dst.ice + src.ice ∧ dst'.lwc = dst.lwc + src.lwc ∧ dst'.cc = dst.cc + src.cc ∧
      dst'.Consistent ∧
      (0 < src.thick → dst.thick = 0 → dst' = src) ∧ (src.thick = 0 → dst' = dst) ∧
      (0 < src.thick → 0 < dst.thick → ∀ d1 d2, src.dens = some d1 → dst.dens = some d2 →
        dst'.dens = some ((src.we * d1 + dst.we * d2) / (src.we + dst.we)) ∧
        ∃ d, dst'.dens = some d ∧ min d1 d2 ≤ d ∧ d ≤ max d1 d2) ∧
      (0 < src.thick → 0 < dst.thick → ∀ a1 a2, src.alb = some a1 → dst.alb = some a2 →
        dst'.alb = some ((src.we * a1 + dst.we * a2) / (src.we + dst.we)) ∧
        ∃ a, dst'.alb = some a ∧ min a1 a2 ≤ a ∧ a ≤ max a1 a2) := by
  have hmean : ∀ w1 w2 x y : K, 0 < w1 → 0 < w2 →
      min x y ≤ (w1 * x + w2 * y) / (w1 + w2) ∧ (w1 * x + w2 * y) / (w1 + w2) ≤ max x y := by
    intro w1 w2 x y h1 h2
    have h : 0 < w1 + w2 := by linarith
    rw [le_div_iff₀ h, div_le_iff₀ h]
    have a1 := mul_le_mul_of_nonneg_left (min_le_left x y) h1.le
    have a2 := mul_le_mul_of_nonneg_left (min_le_right x y) h2.le
    have b1 := mul_le_mul_of_nonneg_left (le_max_left x y) h1.le
    have b2 := mul_le_mul_of_nonneg_left (le_max_right x y) h2.le
    constructor <;> linarith
  unfold transition
  simp only [if_true]
  by_cases h1 : 0 < src.thick
  · rw [if_pos h1]
    obtain ⟨ds, hds, hds0, hds1, hsm⟩ := hs.dens_pos h1
    by_cases h2 : 0 < dst.thick
    · rw [if_pos h2]
      obtain ⟨dd, hdd, hdd0, hdd1, hdm⟩ := hd.dens_pos h2
      have hsm' : 0 < src.we := hsm
      have hdm' : 0 < dst.we := hdm
      have hsum : 0 < src.we + dst.we := by linarith
      have hq : ∀ x y : K, src.we / (src.we + dst.we) * x + dst.we / (src.we + dst.we) * y
          = (src.we * x + dst.we * y) / (src.we + dst.we) := by
        intro x y; field_simp
      have hdpos : 0 < (src.we * ds + dst.we * dd) / (src.we + dst.we) := by positivity
      rcases hs with hs | ⟨-, s2, s3, -, s5, -⟩
      · rw [hs.1] at h1; exact absurd h1 (lt_irrefl _)
      rcases hd with hd | ⟨-, d2, d3, -, d5, -⟩
      · rw [hd.1] at h2; exact absurd h2 (lt_irrefl _)
      simp only [mergeLayer, hsum.ne', if_false, wmean, hds, hdd, hq, hdpos.ne']
      refine ⟨_, _, rfl, rfl, rfl, rfl, rfl, rfl, rfl, rfl, rfl, rfl, ?_, ?_, ?_, ?_, ?_⟩
      · right
        have hm : 0 < dst.ice + src.ice + (dst.lwc + src.lwc) := by
          simp only [CLayer.we] at hsum; linarith
        refine ⟨div_pos hm hdpos, by simp only; linarith, by simp only; linarith, hm,
          by simp only; linarith, _, rfl, ?_⟩
        simp only
        rw [mul_div_cancel₀ _ hdpos.ne']
      · intro _ h; exact absurd h h2.ne'
      · intro h; exact absurd h h1.ne'
      · intro _ _ x y hx hy
        simp only [Option.some.injEq] at hx hy
        subst hx hy
        exact ⟨rfl, _, rfl, hmean _ _ _ _ hsm' hdm'⟩
      · intro _ _ x y hx hy
        simp only [hx, hy]
        exact ⟨trivial, _, rfl, hmean _ _ _ _ hsm' hdm'⟩
    · rw [if_neg h2]
      have hd0 : dst.thick = 0 ∧ dst.ice = 0 ∧ dst.lwc = 0 ∧ dst.cc = 0 := by
        rcases hd with hd | hd
        · exact hd
        · exact absurd hd.1 h2
      rw [if_pos hd0.1]
      refine ⟨_, _, rfl, rfl, rfl, rfl, rfl, rfl, rfl, ?_, ?_, ?_, hs, fun _ _ => rfl, ?_, ?_, ?_⟩
      · rw [hd0.2.1, zero_add]
      · rw [hd0.2.2.1, zero_add]
      · rw [hd0.2.2.2, zero_add]
      · intro h; exact absurd h h1.ne'
      · intro _ h; exact absurd h h2
      · intro _ h; exact absurd h h2
  · rw [if_neg h1]
    have hs0 : src.thick = 0 ∧ src.ice = 0 ∧ src.lwc = 0 ∧ src.cc = 0 := by
      rcases hs with hs | hs
      · exact hs
      · exact absurd hs.1 h1
    refine ⟨_, _, rfl, rfl, rfl, rfl, rfl, rfl, rfl, ?_, ?_, ?_, hd, ?_, fun _ => rfl, ?_, ?_⟩
    · rw [hs0.2.1, add_zero]
    · rw [hs0.2.2.1, add_zero]
    · rw [hs0.2.2.2, add_zero]
    · intro h; exact absurd h h1
    · intro h; exact absurd h h1
    · intro h; exact absurd h h1

theorem transition_total (b : Bool) (src dst : CLayer K) (hs : src.Consistent)
    (hd : dst.Consistent) :
    ∃ src' dst', transition b src dst = some (src', dst') ∧ src'.Consistent ∧ dst'.Consistent ∧
      src'.ice + dst'.ice = src.ice + dst.ice ∧ src'.lwc + dst'.lwc = src.lwc + dst.lwc ∧
      src'.cc + dst'.cc = src.cc + dst.cc := by
  cases b with
  | false => exact ⟨src, dst, by simp [transition], hs, hd, rfl, rfl, rfl⟩
  | true =>
    obtain ⟨s', d', e, h1, h2, h3, h4, -, -, h5, h6, h7, h8, -⟩ := C29_transition src dst hs hd
    refine ⟨s', d', e, Or.inl ⟨h1, h2, h3, h4⟩, h8, ?_, ?_, ?_⟩
    · rw [h2, h5]; ring
    · rw [h3, h6]; ring
    · rw [h4, h7]; ring

/-- Specification: state of a layer entering the update: massless, or with positive mass and the
density of the current thickness. -/
def CLayer.Updatable (L : CLayer K) : Prop :=
  0 ≤ L.ice ∧ 0 ≤ L.lwc ∧ 0 ≤ L.cc ∧
    (0 < L.ice + L.lwc → ∃ d, L.dens = some d ∧ 0 < d)

theorem refresh_spec (L : CLayer K) (h : L.Updatable) :
    ∃ L', refresh L = some L' ∧ L'.Consistent ∧ L'.ice = L.ice ∧ L'.lwc = L.lwc ∧
      (0 < L.ice + L.lwc → L'.cc = L.cc ∧ L'.alb = L.alb ∧ L'.dens = L.dens) := by
  obtain ⟨h1, h2, h3, h4⟩ := h
  unfold refresh
  split_ifs with h
  · have hi : L.ice = 0 := by simp only [CLayer.we] at h; linarith
    have hl : L.lwc = 0 := by simp only [CLayer.we] at h; linarith
    exact ⟨_, rfl, Or.inl ⟨rfl, rfl, rfl, rfl⟩, hi.symm, hl.symm, fun h' => by
      rw [hi, hl, add_zero] at h'; exact absurd h' (lt_irrefl _)⟩
  · have hm : 0 < L.ice + L.lwc := not_le.mp h
    obtain ⟨d, hd, hd0⟩ := h4 hm
    simp only [hd, hd0.ne', if_false]
    refine ⟨_, rfl, Or.inr ⟨div_pos hm hd0, h1, h2, hm, h3, d, rfl, ?_⟩, rfl, rfl, fun _ =>
      ⟨rfl, rfl, rfl⟩⟩
    simp only [CLayer.we]
    field_simp

/-- **C29.** The layer update (reset of empty layers, three transitions) is defined and conserves
ice, liquid water and hence SWE, for every combination of layers and transition conditions; the
resulting layers are consistent. -/
theorem C29_update_layers (oldDensity iceDens : K) (firnDate : Bool) (p : CPixel K)
    (hn : p.new.Updatable) (ho : p.old.Updatable) (hf : p.firn.Updatable) (hi : p.ice.Updatable) :
    ∃ q, updateLayers oldDensity iceDens firnDate p = some q ∧ q.iceSum = p.iceSum ∧
      q.lwcSum = p.lwcSum ∧ q.swe = p.swe ∧ q.new.Consistent ∧ q.old.Consistent ∧
      q.firn.Consistent ∧ q.ice.Consistent := by
  obtain ⟨n0, en, cn, n1, n2, -⟩ := refresh_spec _ hn
  obtain ⟨o0, eo, co, o1, o2, -⟩ := refresh_spec _ ho
  obtain ⟨f0, ef, cf, f1, f2, -⟩ := refresh_spec _ hf
  obtain ⟨i0, ei, ci, i1, i2, -⟩ := refresh_spec _ hi
  obtain ⟨n', o', t1, k1, k2, m1, l1, -⟩ := transition_total (densAtLeast n0 oldDensity) n0 o0 cn co
  obtain ⟨o'', f', t2, k3, k4, m2, l2, -⟩ := transition_total firnDate o' f0 k2 cf
  obtain ⟨f'', i', t3, k5, k6, m3, l3, -⟩ := transition_total (densAtLeast f' iceDens) f' i0 k4 ci
  refine ⟨{ p with new := n', old := o'', firn := f'', ice := i' }, ?_, ?_, ?_, ?_, k1, k3, k5, k6⟩
  · simp [updateLayers, en, eo, ef, ei, t1, t2, t3]
  · simp only [CPixel.iceSum]; linarith
  · simp only [CPixel.lwcSum]; linarith
  · simp only [CPixel.swe, CLayer.we]; linarith

/-! ## Concrete cases -/

/-- A pixel with all four layers. -/
def exPixel : CPixel ℚ :=
  { new := { thick := 1 / 10, ice := 15, lwc := 0, cc := 1 / 2, dens := some 150, alb := some (8 / 10) }
    old := { thick := 1 / 2, ice := 145, lwc := 5, cc := 1, dens := some 300, alb := some (6 / 10) }
    firn := { thick := 2, ice := 1200, lwc := 0, cc := 0, dens := some 600, alb := some (4 / 10) }
    ice := { thick := 10, ice := 9000, lwc := 0, cc := 0, dens := some 900, alb := some (2 / 10) }
    albedo := some (8 / 10) }

example : exPixel.Nonneg := by
  refine ⟨⟨?_, ?_, ?_⟩, ⟨?_, ?_, ?_⟩, ⟨?_, ?_, ?_⟩, ⟨?_, ?_, ?_⟩⟩ <;> norm_num [exPixel]

example : exPixel.new.Consistent ∧ exPixel.old.Consistent := by
  constructor <;> right <;> norm_num [exPixel]

example : exPixel.new.Updatable ∧ exPixel.ice.Updatable := by
  constructor <;> norm_num [exPixel, CLayer.Updatable]

/-- A source of positive mass without thickness would be lost by a transition: the reset of the
source covers every pixel of the transition mask, not only those moved. -/
theorem C29_inconsistent_source_witness :
    ∃ s d : CLayer ℚ, transition true { exPixel.new with thick := 0 } exPixel.old = some (s, d) ∧
      s.we + d.we < exPixel.new.we + exPixel.old.we := by
  refine ⟨emptyLayer, exPixel.old, by norm_num [transition, exPixel, emptyLayer],
    by norm_num [emptyLayer, exPixel, CLayer.we]⟩

end Verif.Cryo
