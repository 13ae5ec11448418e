import Verif.Props.CryoEnergy

/-!
# C33 (and C24 for the cryolayers): water balance, definedness and albedo over steps and runs
-/

set_option linter.unusedSectionVars false

namespace Verif.Cryo

open Verif.MultiLayer (LwcMethod maxLwc)

variable {K : Type*} [Field K] [LinearOrder K] [IsStrictOrderedRing K]

/-! ## Specification: states between time steps -/

/-- A layer between time steps: empty, or with positive ice, thickness and matching density. -/
structure EndLayer (L : CLayer K) : Prop where
  cons : L.Consistent
  ice : 0 < L.thick → 0 < L.ice

/-- A snow layer between time steps: if liquid water is held in the pore volume, it is not denser
than ice; its albedo is within `[lo, hi]`. -/
structure EndSnow (pv : Prop) (lo hi : K) (L : CLayer K) : Prop extends EndLayer L where
  light : pv → L.ice + L.lwc ≤ iceDensity * L.thick
  alb : 0 < L.thick → ∃ a, L.alb = some a ∧ lo ≤ a ∧ a ≤ hi

/-- A pixel between time steps. -/
structure EndPixel (pv : Prop) (lo hi : K) (p : CPixel K) : Prop where
  new : EndSnow pv lo hi p.new
  old : EndSnow pv lo hi p.old
  firn : EndLayer p.firn
  ice : EndLayer p.ice

/-- Where the layer exists it has an albedo within `[lo, hi]`. -/
def Tinted (lo hi : K) (L : CLayer K) : Prop := 0 < L.thick → ∃ a, L.alb = some a ∧ lo ≤ a ∧ a ≤ hi

/-- All configured albedos are within `[lo', hi']`. -/
structure Palette (lo' hi' lo : K) (c : Cfg K) : Prop where
  low : lo' ≤ lo
  high : c.albMax ≤ hi'
  firn : lo' ≤ c.firnAlb ∧ c.firnAlb ≤ hi'
  ice : lo' ≤ c.iceAlb ∧ c.iceAlb ≤ hi'

/-- Assumptions on the configuration. -/
structure CfgOK (lo : K) (c : Cfg K) : Prop where
  dt : 0 ≤ c.dt
  alb : lo ≤ c.albMax
  iceDens : 500 ≤ c.iceDens
  frac : 0 ≤ c.maxFrac
  frac1 : c.lwcMethod = .poreVolume → waterDensity * c.maxFrac ≤ iceDensity
  cold : 0 ≤ c.coldCapacity

/-- Assumptions on the inputs of a step: non-negative precipitation, positive densities (below that
of ice if liquid water is held in the pore volume), albedo ageing that stays within range. -/
structure InOK (pv : Prop) (lo hi : K) (e : StepIn K) : Prop where
  snow : 0 ≤ e.snowfall.getD 0
  rain : 0 ≤ e.rainfall.getD 0
  fresh : 0 < e.freshDensity
  fresh1 : pv → e.freshDensity ≤ iceDensity
  compNew : ∀ L : CLayer K, 0 < e.compNew L
  compNew1 : pv → ∀ L : CLayer K, e.compNew L ≤ iceDensity
  compOld : ∀ L : CLayer K, 0 < e.compOld L
  compOld1 : pv → ∀ L : CLayer K, e.compOld L ≤ iceDensity
  aged : ∀ a, lo ≤ a → a ≤ hi → ∃ a', e.aged (some a) = some a' ∧ lo ≤ a' ∧ a' ≤ hi

/-! ## Layer lemmas -/

theorem EndLayer.plausible {L : CLayer K} (h : EndLayer L) : L.Plausible := by
  rcases h.cons with ⟨a, b, c, d⟩ | ⟨a, b, c, -, d, -⟩
  · exact ⟨⟨a.symm.le, b.symm.le, c.symm.le⟩, d.symm.le, fun _ => ⟨b, d⟩⟩
  · exact ⟨⟨a.le, b, c⟩, d, fun h => absurd h a.ne'⟩

/-- During a step: non-negative contents, thickness exactly where there is ice. -/
structure Mid (L : CLayer K) : Prop where
  nn : L.Nonneg
  cc : 0 ≤ L.cc
  iff : L.thick = 0 ↔ L.ice = 0

/-- During a step, snow layers. -/
structure MidSnow (pv : Prop) (lo hi : K) (L : CLayer K) : Prop extends Mid L where
  light : pv → L.ice ≤ iceDensity * L.thick
  alb : 0 < L.thick → ∃ a, L.alb = some a ∧ lo ≤ a ∧ a ≤ hi

structure MidPixel (pv : Prop) (lo hi : K) (p : CPixel K) : Prop where
  new : MidSnow pv lo hi p.new
  old : MidSnow pv lo hi p.old
  firn : Mid p.firn
  ice : Mid p.ice

theorem MidPixel.nonneg {pv : Prop} {lo hi : K} {p : CPixel K} (h : MidPixel pv lo hi p) :
    p.Nonneg := ⟨h.new.nn, h.old.nn, h.firn.nn, h.ice.nn⟩

theorem EndLayer.mid {L : CLayer K} (h : EndLayer L) : Mid L := by
  refine ⟨h.plausible.nonneg, h.plausible.cc, fun h0 => (h.plausible.empty h0).1, fun hi => ?_⟩
  by_contra hne
  have := h.ice (lt_of_le_of_ne h.plausible.nonneg.thick (Ne.symm hne))
  rw [hi] at this; exact absurd this (lt_irrefl _)

theorem EndSnow.mid {pv : Prop} {lo hi : K} {L : CLayer K} (h : EndSnow pv lo hi L) :
    MidSnow pv lo hi L :=
  ⟨h.toEndLayer.mid, fun hp => by
    have := h.light hp; have := h.toEndLayer.plausible.nonneg.lwc; linarith, h.alb⟩

/-- Scaling ice and thickness by the same factor preserves the layer state. -/
theorem Mid.scale {L M : CLayer K} (h : Mid L) (φ : K) (hφ : 0 ≤ φ) (ht : M.thick = L.thick * φ)
    (hi : M.ice = L.ice * φ) (hl : 0 ≤ M.lwc) (hc : M.cc = L.cc) : Mid M := by
  refine ⟨⟨?_, ?_, hl⟩, hc ▸ h.cc, ?_⟩
  · rw [ht]; exact mul_nonneg h.nn.thick hφ
  · rw [hi]; exact mul_nonneg h.nn.ice hφ
  · rw [ht, hi, mul_eq_zero, mul_eq_zero, h.iff]

theorem MidSnow.scale {pv : Prop} {lo hi : K} {L M : CLayer K} (h : MidSnow pv lo hi L) (φ : K)
    (hφ : 0 ≤ φ) (ht : M.thick = L.thick * φ) (hi' : M.ice = L.ice * φ) (hl : 0 ≤ M.lwc)
    (hc : M.cc = L.cc) (ha : M.alb = L.alb) : MidSnow pv lo hi M := by
  refine ⟨h.toMid.scale φ hφ ht hi' hl hc, fun hp => ?_, fun hpos => ?_⟩
  · rw [ht, hi', ← mul_assoc]
    exact mul_le_mul_of_nonneg_right (h.light hp) hφ
  · rw [ha]
    refine h.alb (lt_of_le_of_ne h.nn.thick fun h0 => ?_)
    rw [ht, ← h0, zero_mul] at hpos
    exact absurd hpos (lt_irrefl _)

theorem meltLayer_scale (d : K) (L : CLayer K) :
    ∃ φ, 0 ≤ φ ∧ (meltLayer d L).2.thick = L.thick * φ ∧ (meltLayer d L).2.ice = L.ice * φ := by
  unfold meltLayer
  split_ifs with h
  · refine ⟨1 - min d L.ice / L.ice, ?_, rfl, ?_⟩
    · rw [sub_nonneg, div_le_one h.2]; exact min_le_right _ _
    · have := h.2.ne'
      simp only; field_simp
  · exact ⟨1, zero_le_one, by simp, by simp⟩

theorem sublLayer_scale (d : K) (L : CLayer K) :
    ∃ φ, 0 ≤ φ ∧ (sublLayer d L).2.thick = L.thick * φ ∧ (sublLayer d L).2.ice = L.ice * φ := by
  unfold sublLayer
  split_ifs with h
  · refine ⟨1 - min d L.ice / L.ice, ?_, rfl, ?_⟩
    · rw [sub_nonneg, div_le_one h.2]; exact min_le_right _ _
    · have := h.2.ne'
      simp only; field_simp
  · exact ⟨1, zero_le_one, by simp, by simp⟩

theorem meltLayer_mid {d : K} {L : CLayer K} (hd : 0 ≤ d) (h : Mid L) : Mid (meltLayer d L).2 := by
  obtain ⟨φ, a, b, c⟩ := meltLayer_scale d L
  obtain ⟨-, -, -, e, -, -, f, -⟩ := meltLayer_spec d L hd h.nn
  exact h.scale φ a b c f.lwc e

theorem meltLayer_midSnow {pv : Prop} {lo hi d : K} {L : CLayer K} (hd : 0 ≤ d)
    (h : MidSnow pv lo hi L) : MidSnow pv lo hi (meltLayer d L).2 := by
  obtain ⟨φ, a, b, c⟩ := meltLayer_scale d L
  obtain ⟨-, -, -, e, -, g, f, -⟩ := meltLayer_spec d L hd h.nn
  exact h.scale φ a b c f.lwc e g

theorem meltLayer_rest {d : K} {L : CLayer K} (hd : 0 ≤ d) (h : L.Nonneg) :
    0 ≤ (meltLayer d L).1 := by
  rw [(meltLayer_spec d L hd h).1, sub_nonneg]; exact min_le_left _ _

theorem melt_mid {pv : Prop} {lo hi d : K} {p : CPixel K} (hd : 0 ≤ d)
    (h : MidPixel pv lo hi p) : MidPixel pv lo hi (melt d p) := by
  have h1 := meltLayer_rest hd h.new.nn
  have h2 := meltLayer_rest h1 h.old.nn
  have h3 := meltLayer_rest h2 h.firn.nn
  exact ⟨meltLayer_midSnow hd h.new, meltLayer_midSnow h1 h.old, meltLayer_mid h2 h.firn,
    meltLayer_mid h3 h.ice⟩

theorem sublLayer_mid {d : K} {L : CLayer K} (hd : 0 ≤ d) (h : Mid L) : Mid (sublLayer d L).2 := by
  obtain ⟨φ, a, b, c⟩ := sublLayer_scale d L
  obtain ⟨-, -, -, e, -, -, f, -⟩ := sublLayer_spec d L hd h.nn
  exact h.scale φ a b c f.lwc e

theorem sublLayer_midSnow {pv : Prop} {lo hi d : K} {L : CLayer K} (hd : 0 ≤ d)
    (h : MidSnow pv lo hi L) : MidSnow pv lo hi (sublLayer d L).2 := by
  obtain ⟨φ, a, b, c⟩ := sublLayer_scale d L
  obtain ⟨-, -, -, e, -, g, f, -⟩ := sublLayer_spec d L hd h.nn
  exact h.scale φ a b c f.lwc e g

theorem sublLayer_rest {d : K} {L : CLayer K} (hd : 0 ≤ d) (h : L.Nonneg) :
    0 ≤ (sublLayer d L).1 := by
  rw [(sublLayer_spec d L hd h).1, sub_nonneg]; exact min_le_left _ _

theorem sublLoop_mid {pv : Prop} {lo hi d : K} {p : CPixel K} (hd : 0 ≤ d)
    (h : MidPixel pv lo hi p) : MidPixel pv lo hi (sublLoop d p).2 := by
  have h1 := sublLayer_rest hd h.new.nn
  have h2 := sublLayer_rest h1 h.old.nn
  have h3 := sublLayer_rest h2 h.firn.nn
  exact ⟨sublLayer_midSnow hd h.new, sublLayer_midSnow h1 h.old, sublLayer_mid h2 h.firn,
    sublLayer_mid h3 h.ice⟩

/-- Adding snow to the new snow layer. -/
theorem addSnow_mid {pv : Prop} {lo hi density amount : K} (single : Bool) {p : CPixel K}
    (h : MidPixel pv lo hi p) (hd : 0 < density) (hd1 : pv → density ≤ iceDensity)
    (ha : 0 < amount) (hlo : lo ≤ hi) : MidPixel pv lo hi (addSnow single hi density amount p) := by
  have hq : 0 < amount / density := by positivity
  have ht := h.new.nn.thick
  have hi' := h.new.nn.ice
  refine ⟨⟨⟨⟨?_, ?_, h.new.nn.lwc⟩, h.new.cc, ?_⟩, fun hp => ?_, fun _ => ?_⟩, h.old, h.firn, h.ice⟩
  · simp only [addSnow]; linarith
  · simp only [addSnow]; linarith
  · simp only [addSnow]
    constructor <;> intro h0 <;> linarith
  · simp only [addSnow]
    have h1 := h.new.light hp
    have h2 : amount ≤ iceDensity * (amount / density) := by
      rw [mul_div_assoc', le_div_iff₀ hd, mul_comm]
      exact mul_le_mul_of_nonneg_right (hd1 hp) ha.le
    rw [mul_add]; linarith
  · simp only [addSnow]
    split_ifs with h1 h2
    · exact h.old.alb h2.2
    · exact ⟨hi, rfl, hlo, le_refl _⟩
    · refine h.new.alb (lt_of_le_of_ne ht fun h0 => h1 ⟨h.new.iff.mp h0.symm, ha⟩)

theorem addSnow_end {pv : Prop} {lo hi density amount : K} (single : Bool) {p : CPixel K}
    (h : EndPixel pv lo hi p) (hd : 0 < density) (hd1 : pv → density ≤ iceDensity)
    (ha : 0 < amount) (hlo : lo ≤ hi) : EndPixel pv lo hi (addSnow single hi density amount p) := by
  have hm : MidPixel pv lo hi p := ⟨h.new.mid, h.old.mid, h.firn.mid, h.ice.mid⟩
  have hmid := addSnow_mid single hm hd hd1 ha hlo
  have hq : 0 < amount / density := by positivity
  have ht := hm.new.nn.thick
  have hi' := hm.new.nn.ice
  have hl := hm.new.nn.lwc
  have hpos : 0 < p.new.thick + amount / density := by linarith
  refine ⟨⟨⟨Or.inr ⟨?_, ?_, hl, ?_, hm.new.cc, ?_⟩, fun _ => ?_⟩, fun hp => ?_, hmid.new.alb⟩,
    h.old, h.firn, h.ice⟩
  · simp only [addSnow]; exact hpos
  · simp only [addSnow]; linarith
  · simp only [addSnow]; linarith
  · simp only [addSnow, if_neg hpos.ne']
    exact ⟨_, rfl, by field_simp⟩
  · simp only [addSnow]; linarith
  · simp only [addSnow]
    have h1 := h.new.light hp
    have h2 : amount ≤ iceDensity * (amount / density) := by
      rw [mul_div_assoc', le_div_iff₀ hd, mul_comm]
      exact mul_le_mul_of_nonneg_right (hd1 hp) ha.le
    rw [mul_add]; linarith

/-! ## Compaction, properties, ageing -/

theorem rescale_end {L : CLayer K} (h : EndLayer L) (ht : 0 < L.thick) {d : K} (hd : 0 < d) :
    EndLayer { L with dens := some d, thick := L.we / d } := by
  rcases h.cons with ⟨a, -⟩ | ⟨-, b, c, e, f, -⟩
  · rw [a] at ht; exact absurd ht (lt_irrefl _)
  · have : 0 < L.we := e
    refine ⟨Or.inr ⟨by simp only; positivity, b, c, e, f, d, rfl, ?_⟩, fun _ => h.ice ht⟩
    simp only [CLayer.we]; field_simp

theorem compactSnow_end {pv : Prop} {lo hi : K} {L : CLayer K} {f : CLayer K → K}
    (h : EndSnow pv lo hi L) (hf : 0 < f L) (hf1 : pv → f L ≤ iceDensity) :
    EndSnow pv lo hi (compactSnow f L) ∧ (compactSnow f L).ice = L.ice ∧
      (compactSnow f L).lwc = L.lwc := by
  unfold compactSnow
  split_ifs with ht
  · refine ⟨⟨rescale_end h.toEndLayer ht hf, fun hp => ?_, fun _ => h.alb ht⟩, rfl, rfl⟩
    have hm : 0 ≤ L.we := by
      have := h.toEndLayer.plausible.nonneg.ice; have := h.toEndLayer.plausible.nonneg.lwc
      simp only [CLayer.we]; linarith
    change L.we ≤ iceDensity * (L.we / f L)
    rw [mul_div_assoc', le_div_iff₀ hf, mul_comm]
    exact mul_le_mul_of_nonneg_right (hf1 hp) hm
  · exact ⟨h, rfl, rfl⟩

theorem compactFirn_end {iceDens dt : K} {L : CLayer K} (h : EndLayer L) (hi : 500 ≤ iceDens)
    (hdt : 0 ≤ dt) : ∃ M, compactFirn iceDens dt L = some M ∧ EndLayer M ∧ M.ice = L.ice ∧
      M.lwc = L.lwc := by
  unfold compactFirn
  split_ifs with ht
  · obtain ⟨d, hd, hd0, -⟩ := h.cons.dens_pos ht
    have hr : 0 ≤ (iceDens - 500) / (24 * (36525 / 100) * 10) * (dt / 3600) :=
      mul_nonneg (div_nonneg (by linarith) (by norm_num)) (div_nonneg hdt (by norm_num))
    have hpos : 0 < d + (iceDens - 500) / (24 * (36525 / 100) * 10) * (dt / 3600) := by linarith
    simp only [hd, hpos.ne', if_false]
    exact ⟨_, rfl, rescale_end h ht hpos, rfl, rfl⟩
  · exact ⟨L, rfl, h, rfl, rfl⟩

theorem compactIce_end {iceDens : K} {L : CLayer K} (h : EndLayer L) (hi : 500 ≤ iceDens) :
    ∃ M, compactIce iceDens L = some M ∧ EndLayer M ∧ M.ice = L.ice ∧ M.lwc = L.lwc := by
  have hpos : 0 < iceDens := by linarith
  unfold compactIce
  split_ifs with ht h0
  · exact absurd h0 hpos.ne'
  · exact ⟨_, rfl, rescale_end h ht hpos, rfl, rfl⟩
  · exact ⟨L, rfl, h, rfl, rfl⟩

theorem compaction_end {pv : Prop} {lo hi : K} {c : Cfg K} {e : StepIn K} {p : CPixel K}
    (h : EndPixel pv lo hi p) (hc : CfgOK lo c) (he : InOK pv lo hi e) :
    ∃ q, compaction c e p = some q ∧ EndPixel pv lo hi q ∧ q.iceSum = p.iceSum ∧
      q.lwcSum = p.lwcSum := by
  obtain ⟨f, ef, hf, f1, f2⟩ := compactFirn_end (dt := c.dt) h.firn hc.iceDens hc.dt
  obtain ⟨i, ei, hi, i1, i2⟩ := compactIce_end h.ice hc.iceDens
  obtain ⟨n0, n1, n2⟩ := compactSnow_end h.new (he.compNew p.new) fun hp => he.compNew1 hp _
  obtain ⟨o0, o1, o2⟩ := compactSnow_end h.old (he.compOld p.old) fun hp => he.compOld1 hp _
  refine ⟨{ p with new := compactSnow e.compNew p.new, old := compactSnow e.compOld p.old,
                   firn := f, ice := i }, ?_, ⟨n0, o0, hf, hi⟩, ?_, ?_⟩
  · simp [compaction, ef, ei]
  · simp only [CPixel.iceSum, n1, o1, f1, i1]
  · simp only [CPixel.lwcSum, n2, o2, f2, i2]

theorem updDens_end {L : CLayer K} (h : EndLayer L) : EndLayer (updDens L) := by
  unfold updDens
  split_ifs with ht
  · rcases h.cons with ⟨a, -⟩ | ⟨a, b, c, e, f, -⟩
    · rw [a] at ht; exact absurd ht (lt_irrefl _)
    · exact ⟨Or.inr ⟨a, b, c, e, f, _, rfl, by simp only; field_simp⟩, h.ice⟩
  · exact h

theorem updDens_same (L : CLayer K) : (updDens L).ice = L.ice ∧ (updDens L).lwc = L.lwc ∧
    (updDens L).thick = L.thick ∧ (updDens L).cc = L.cc ∧ (updDens L).alb = L.alb := by
  unfold updDens; split_ifs <;> exact ⟨rfl, rfl, rfl, rfl, rfl⟩

theorem updDens_endSnow {pv : Prop} {lo hi : K} {L : CLayer K} (h : EndSnow pv lo hi L) :
    EndSnow pv lo hi (updDens L) := by
  obtain ⟨a, b, c, -, d⟩ := updDens_same L
  exact ⟨updDens_end h.toEndLayer, by rw [a, b, c]; exact h.light, by rw [c, d]; exact h.alb⟩

theorem setAlb_end {L : CLayer K} (h : EndLayer L) (a : Option K) :
    EndLayer { L with alb := a } := ⟨h.cons, h.ice⟩

/-- Albedo ageing keeps contents and gives snow layers an albedo within range. -/
theorem aging_end {pv : Prop} {lo hi : K} (single : Bool) (fa ia : K) {aged : Option K → Option K}
    {p : CPixel K} (h : EndPixel pv lo hi p)
    (hag : ∀ a, lo ≤ a → a ≤ hi → ∃ a', aged (some a) = some a' ∧ lo ≤ a' ∧ a' ≤ hi) :
    let q := albedoAging single fa ia aged p
    EndPixel pv lo hi q ∧ q.iceSum = p.iceSum ∧ q.lwcSum = p.lwcSum := by
  intro q
  obtain ⟨a', ha'⟩ : ∃ a', q.albedo = a' := ⟨_, rfl⟩
  have hr : 0 < p.new.thick ∨ 0 < p.old.thick → ∃ x, a' = some x ∧ lo ≤ x ∧ x ≤ hi := by
    intro hor
    rw [← ha']
    simp only [q, albedoAging]
    rw [if_pos hor.symm]
    by_cases hn : 0 < p.new.thick
    · rw [if_pos hn]
      obtain ⟨x, hx, h1, h2⟩ := h.new.alb hn
      rw [hx]; exact hag x h1 h2
    · have ho := hor.resolve_left hn
      rw [if_neg hn, if_pos ho]
      obtain ⟨x, hx, h1, h2⟩ := h.old.alb ho
      rw [hx]; exact hag x h1 h2
  have hqn : q.new = p.new ∧ ¬0 < p.new.thick ∨ q.new = { p.new with alb := a' } ∧
      0 < p.new.thick := by
    rw [← ha']
    by_cases hn : 0 < p.new.thick
    · right; exact ⟨by simp only [q, albedoAging, if_pos hn], hn⟩
    · left; exact ⟨by simp only [q, albedoAging, if_neg hn], hn⟩
  have hqo : q.old = p.old ∨ q.old = { p.old with alb := a' } ∧ 0 < p.old.thick := by
    rw [← ha']
    by_cases hs : (if single = true then 0 < p.old.thick else
        0 < p.old.thick ∧ ¬0 < p.new.thick)
    · right
      refine ⟨by simp only [q, albedoAging]; exact if_pos hs, ?_⟩
      split_ifs at hs with h1
      · exact hs
      · exact hs.1
    · left; simp only [q, albedoAging]; exact if_neg hs
  have hqf : ∃ a, q.firn = { p.firn with alb := a } := by
    simp only [q, albedoAging]
    split_ifs
    · exact ⟨_, rfl⟩
    · exact ⟨p.firn.alb, rfl⟩
  have hqi : ∃ a, q.ice = { p.ice with alb := a } := by
    simp only [q, albedoAging]
    split_ifs
    · exact ⟨_, rfl⟩
    · exact ⟨p.ice.alb, rfl⟩
  obtain ⟨af, haf⟩ := hqf
  obtain ⟨ai, hai⟩ := hqi
  have key : q.new.ice = p.new.ice ∧ q.new.lwc = p.new.lwc ∧ q.old.ice = p.old.ice ∧
      q.old.lwc = p.old.lwc := by
    refine ⟨?_, ?_, ?_, ?_⟩
    · rcases hqn with ⟨e, -⟩ | ⟨e, -⟩ <;> rw [e]
    · rcases hqn with ⟨e, -⟩ | ⟨e, -⟩ <;> rw [e]
    · rcases hqo with e | ⟨e, -⟩ <;> rw [e]
    · rcases hqo with e | ⟨e, -⟩ <;> rw [e]
  refine ⟨⟨?_, ?_, ?_, ?_⟩, ?_, ?_⟩
  · rcases hqn with ⟨e, -⟩ | ⟨e, hpos⟩
    · rw [e]; exact h.new
    · rw [e]
      exact ⟨setAlb_end h.new.toEndLayer _, h.new.light, fun _ => hr (Or.inl hpos)⟩
  · rcases hqo with e | ⟨e, hpos⟩
    · rw [e]; exact h.old
    · rw [e]
      exact ⟨setAlb_end h.old.toEndLayer _, h.old.light, fun _ => hr (Or.inr hpos)⟩
  · rw [haf]; exact setAlb_end h.firn _
  · rw [hai]; exact setAlb_end h.ice _
  · simp only [CPixel.iceSum, key.1, key.2.2.1, haf, hai]
  · simp only [CPixel.lwcSum, key.2.1, key.2.2.2, haf, hai]

/-! ## Melt amount -/

theorem ccChange_mid {L M : CLayer K} (h : Mid L) (hi : M.ice = L.ice) (hl : M.lwc = L.lwc)
    (ht : M.thick = L.thick) (hc : 0 ≤ M.cc) : Mid M :=
  ⟨⟨ht ▸ h.nn.thick, hi ▸ h.nn.ice, hl ▸ h.nn.lwc⟩, hc, by rw [ht, hi]; exact h.iff⟩

theorem ccChange_midSnow {pv : Prop} {lo hi : K} {L M : CLayer K} (h : MidSnow pv lo hi L)
    (hi' : M.ice = L.ice) (hl : M.lwc = L.lwc) (ht : M.thick = L.thick) (hc : 0 ≤ M.cc)
    (ha : M.alb = L.alb) : MidSnow pv lo hi M :=
  ⟨ccChange_mid h.toMid hi' hl ht hc, by rw [ht, hi']; exact h.light, by rw [ht, ha]; exact h.alb⟩

theorem ebMelt_mid {pv : Prop} {lo hi dt : K} {eb : Option K} {p : CPixel K}
    (h : EndPixel pv lo hi p) : MidPixel pv lo hi (ebMelt eb dt p).2 := by
  have hm : MidPixel pv lo hi p := ⟨h.new.mid, h.old.mid, h.firn.mid, h.ice.mid⟩
  by_cases hpos : ∃ e, eb = some e ∧ 0 < e
  · obtain ⟨e, rfl, he⟩ := hpos
    simp only [ebMelt]
    obtain ⟨-, -, -, a4, -, -, -, a8, a9, a10, -, a11⟩ :=
      ebLayer_spec e he ⟨dt, 0⟩ p.new h.new.toEndLayer.plausible
    obtain ⟨-, -, -, b4, -, -, -, b8, b9, b10, -, b11⟩ :=
      ebLayer_spec e he (ebLayer (some e) ⟨dt, 0⟩ p.new).1 p.old h.old.toEndLayer.plausible
    obtain ⟨-, -, -, c4, -, -, -, c8, c9, c10, -⟩ := ebLayer_spec e he
      (ebLayer (some e) (ebLayer (some e) ⟨dt, 0⟩ p.new).1 p.old).1 p.firn h.firn.plausible
    obtain ⟨-, -, -, d4, -, -, -, d8, d9, d10, -⟩ := ebLayer_spec e he
      (ebLayer (some e) (ebLayer (some e) (ebLayer (some e) ⟨dt, 0⟩ p.new).1 p.old).1 p.firn).1
      p.ice h.ice.plausible
    exact ⟨ccChange_midSnow hm.new a8 a9 a10 a4 a11, ccChange_midSnow hm.old b8 b9 b10 b4 b11,
      ccChange_mid hm.firn c8 c9 c10 c4, ccChange_mid hm.ice d8 d9 d10 d4⟩
  · rw [C30_no_melt]
    · exact hm
    · intro e he
      by_contra hn
      exact hpos ⟨e, he, not_le.mp hn⟩

theorem refreezeLayer_midSnow {pv : Prop} {lo hi capacity avail : K} {L : CLayer K}
    (h : EndSnow pv lo hi L) (hcap : 0 ≤ capacity) (ha : 0 ≤ avail) :
    MidSnow pv lo hi (refreezeLayer capacity avail L).2.2 := by
  have hm := h.mid
  have hpl := h.toEndLayer.plausible
  obtain ⟨a1, a2, -, -, a5, a6, a7, a8, -, -, a9, -, a10, -⟩ :=
    refreezeLayer_spec capacity avail L hpl hcap ha
  by_cases hc : 0 < L.thick ∧ 0 < avail
  · have hice := h.ice hc.1
    refine ⟨⟨⟨a7 ▸ hm.nn.thick, by rw [a5]; linarith, by rw [a6]; linarith⟩, a9, ?_⟩, fun hp => ?_,
      by rw [a7, a8]; exact h.alb⟩
    · rw [a7, a5]
      constructor <;> intro h0
      · rw [h0] at hc; exact absurd hc.1 (lt_irrefl _)
      · linarith
    · rw [a7, a5]
      have := h.light hp
      linarith
  · rw [a10 hc]; exact hm

theorem meltAmount_mid {pv : Prop} {lo hi : K} {c : Cfg K} (hc : CfgOK lo c) (m : MeltIn K)
    {p : CPixel K} (h : EndPixel pv lo hi p) :
    let r := meltAmount c m p
    MidPixel pv lo hi r.2.2 ∧ 0 ≤ r.1 ∧ r.1 ≤ r.2.2.iceSum ∧ 0 ≤ r.2.1 ∧
      r.2.2.iceSum = p.iceSum + r.2.1 ∧ r.2.2.lwcSum = p.lwcSum - r.2.1 := by
  have hm : MidPixel pv lo hi p := ⟨h.new.mid, h.old.mid, h.firn.mid, h.ice.mid⟩
  have hpl : p.Plausible := ⟨h.new.toEndLayer.plausible, h.old.toEndLayer.plausible,
    h.firn.plausible, h.ice.plausible⟩
  have hs : 0 ≤ p.iceSum := by
    have := hm.new.nn.ice; have := hm.old.nn.ice; have := hm.firn.nn.ice; have := hm.ice.nn.ice
    simp only [CPixel.iceSum]; linarith
  cases m with
  | energy T eb =>
    simp only [meltAmount]
    by_cases h1 : 0 < p.swe
    · by_cases h2 : T0 ≤ T
      · simp only [h1, h2, if_true]
        refine ⟨ebMelt_mid h, ?_⟩
        by_cases hpos : ∃ e, eb = some e ∧ 0 < e
        · obtain ⟨e, rfl, he⟩ := hpos
          obtain ⟨a1, a2, -, -, a3, a4, -⟩ := C30_melt_energy e c.dt he hc.dt p hpl
          exact ⟨a1, by rw [a3]; exact a2, le_refl _, by rw [a3, add_zero], by rw [a4, sub_zero]⟩
        · rw [C30_no_melt]
          · exact ⟨le_refl _, hs, le_refl _, by simp, by simp⟩
          · intro e he
            by_contra hn
            exact hpos ⟨e, he, not_le.mp hn⟩
      · simp only [h1, h2, if_true, if_false]
        obtain ⟨a1, a2, a3, -⟩ := C31_refreezing eb c.dt c.refreezeFactor c.coldCapacity p hpl
          hc.cold
        have hav : 0 ≤ availableCold eb c.dt c.refreezeFactor := by
          unfold availableCold
          split
          · exact le_refl _
          · exact le_max_right _ _
        refine ⟨⟨refreezeLayer_midSnow h.new hc.cold hav, refreezeLayer_midSnow h.old hc.cold ?_,
          hm.firn, hm.ice⟩, le_refl _, by rw [a1]; linarith, a3, a1, a2⟩
        exact (refreezeLayer_spec _ _ p.new hpl.new hc.cold hav).2.2.2.1
    · simp only [h1, if_false]
      exact ⟨hm, le_refl _, hs, le_refl _, by ring, by ring⟩
  | index m T alb sw =>
    simp only [meltAmount]
    obtain ⟨a, b, -⟩ := C32_bounds m c.dt c.ddf c.albFactor c.threshold T alb sw p hm.nonneg hc.dt
    exact ⟨hm, a, b, le_refl _, by ring, by ring⟩

/-! ## Runoff and the layer update -/

theorem maxLwc_nonneg {c : Cfg K} {lo hi : K} (hc : CfgOK lo c) {L : CLayer K}
    (h : MidSnow (c.lwcMethod = .poreVolume) lo hi L) :
    0 ≤ maxLwc c.lwcMethod c.maxFrac L.thick L.ice := by
  cases hm : c.lwcMethod with
  | massFraction => exact mul_nonneg hc.frac h.nn.ice
  | poreVolume =>
    have hl := h.light hm
    have hi0 : (0 : K) < iceDensity := by norm_num [iceDensity]
    have hw0 : (0 : K) < waterDensity := by norm_num [waterDensity]
    simp only [maxLwc]
    split_ifs with ht
    · have : 0 ≤ 1 - L.ice / (iceDensity * L.thick) := by
        rw [sub_nonneg, div_le_one (by positivity)]; exact hl
      have := hc.frac
      positivity
    · simp

theorem maxLwc_empty (m : LwcMethod) (frac : K) : maxLwc m frac 0 0 = 0 := by
  cases m <;> simp [maxLwc]

theorem maxLwc_light {c : Cfg K} {lo : K} (hc : CfgOK lo c) {t i : K}
    (hm : c.lwcMethod = .poreVolume) (ht : 0 < t) (hl : i ≤ iceDensity * t) :
    i + maxLwc c.lwcMethod c.maxFrac t i ≤ iceDensity * t := by
  have hi0 : (0 : K) < iceDensity := by norm_num [iceDensity]
  have hf := hc.frac1 hm
  rw [hm]
  simp only [maxLwc, if_pos ht]
  have e : waterDensity * t * (1 - i / (iceDensity * t)) * c.maxFrac
      = (waterDensity * c.maxFrac) * ((iceDensity * t - i) / iceDensity) := by
    field_simp
  rw [e]
  have h2 : 0 ≤ (iceDensity * t - i) / iceDensity := div_nonneg (by linarith) hi0.le
  have h3 := mul_le_mul_of_nonneg_right hf h2
  have h4 : iceDensity * ((iceDensity * t - i) / iceDensity) = iceDensity * t - i := by field_simp
  rw [h4] at h3
  linarith

/-- After runoff and `update_properties`: ready for the layer update. -/
structure Ready (L : CLayer K) : Prop where
  upd : L.Updatable
  ice : 0 < L.ice + L.lwc → 0 < L.ice ∧ 0 < L.thick

theorem runoff_ready {L M : CLayer K} (h : Mid L) (hi : M.ice = L.ice) (ht : M.thick = L.thick)
    (hc : M.cc = L.cc) (hl : 0 ≤ M.lwc) (hz : L.ice = 0 → M.lwc = 0) : Ready (updDens M) := by
  obtain ⟨a, b, c, d, -⟩ := updDens_same M
  have hpos : 0 < M.ice + M.lwc → 0 < M.ice ∧ 0 < M.thick := by
    intro hm
    have hne : M.ice ≠ 0 := by
      intro h0
      rw [h0, hz (by rw [← hi]; exact h0)] at hm
      simp at hm
    have hip : 0 < M.ice := lt_of_le_of_ne (by rw [hi]; exact h.nn.ice) (Ne.symm hne)
    refine ⟨hip, lt_of_le_of_ne (by rw [ht]; exact h.nn.thick) fun h0 => hne ?_⟩
    rw [hi]; rw [ht] at h0; exact h.iff.mp h0.symm
  refine ⟨⟨by rw [a, hi]; exact h.nn.ice, by rw [b]; exact hl, by rw [d, hc]; exact h.cc, ?_⟩,
    by rw [a, b, c]; exact hpos⟩
  rw [a, b]
  intro hm
  have ht' := (hpos hm).2
  refine ⟨(M.ice + M.lwc) / M.thick, ?_, by positivity⟩
  unfold updDens; rw [if_pos ht']

theorem refresh_end {L : CLayer K} (h : Ready L) :
    ∃ M, refresh L = some M ∧ EndLayer M ∧ M.ice = L.ice ∧ M.lwc = L.lwc ∧
      (0 < M.thick → M.alb = L.alb ∧ M.dens = L.dens) := by
  obtain ⟨M, e, c, i, l, r⟩ := refresh_spec L h.upd
  have hpos : 0 < M.thick → 0 < L.ice + L.lwc := by
    intro ht
    rcases c with ⟨a, -⟩ | ⟨-, -, -, hm, -⟩
    · rw [a] at ht; exact absurd ht (lt_irrefl _)
    · rw [i, l] at hm; exact hm
  exact ⟨M, e, ⟨c, fun ht => by rw [i]; exact (h.ice (hpos ht)).1⟩, i, l, fun ht =>
    ⟨(r (hpos ht)).2.1, (r (hpos ht)).2.2⟩⟩

/-- The snow part of the state: density at most that of ice and albedo within range. -/
def SnowPart (pv : Prop) (lo hi : K) (L : CLayer K) : Prop :=
  (pv → 0 < L.thick → ∃ d, L.dens = some d ∧ d ≤ iceDensity) ∧
  (0 < L.thick → ∃ a, L.alb = some a ∧ lo ≤ a ∧ a ≤ hi)

theorem endSnow_of {pv : Prop} {lo hi : K} {L : CLayer K} (h : EndLayer L)
    (hs : SnowPart pv lo hi L) : EndSnow pv lo hi L := by
  refine ⟨h, fun hp => ?_, hs.2⟩
  rcases h.cons with ⟨a, b, c, -⟩ | ⟨ht, -, -, -, -, d, hd, he⟩
  · rw [a, b, c]; simp
  · obtain ⟨d', hd', hle⟩ := hs.1 hp ht
    rw [hd] at hd'
    obtain rfl := Option.some.inj hd'
    rw [← he]
    exact mul_le_mul_of_nonneg_right hle ht.le

theorem transition_end {src dst : CLayer K} (b : Bool) (hs : EndLayer src) (hd : EndLayer dst) :
    ∃ s d, transition b src dst = some (s, d) ∧ EndLayer s ∧ EndLayer d ∧
      s.ice + d.ice = src.ice + dst.ice ∧ s.lwc + d.lwc = src.lwc + dst.lwc ∧
      (b = false → s = src ∧ d = dst) ∧ (b = true → s.thick = 0) ∧
      (∀ (pv : Prop) (lo hi : K), SnowPart pv lo hi src → SnowPart pv lo hi dst →
        SnowPart pv lo hi s ∧ SnowPart pv lo hi d) := by
  cases b with
  | false =>
    exact ⟨src, dst, by simp [transition], hs, hd, rfl, rfl, fun _ => ⟨rfl, rfl⟩,
      fun h => by simp at h, fun _ _ _ h1 h2 => ⟨h1, h2⟩⟩
  | true =>
    obtain ⟨s, d, e, h1, h2, h3, h4, -, -, h5, h6, h7, h8, h9, h10, h11, h12⟩ :=
      C29_transition src dst hs.cons hd.cons
    have hsp := hs.plausible.nonneg
    have hdp := hd.plausible.nonneg
    refine ⟨s, d, e, ⟨Or.inl ⟨h1, h2, h3, h4⟩, fun h => ?_⟩, ⟨h8, fun h => ?_⟩, by rw [h2, h5]; ring,
      by rw [h3, h6]; ring, fun h => by simp at h, fun _ => h1, fun pv lo hi p1 p2 => ?_⟩
    · rw [h1] at h; exact absurd h (lt_irrefl _)
    · rw [h5]
      have hsi := hsp.ice
      have hdi := hdp.ice
      rcases lt_or_eq_of_le hsp.thick with h' | h'
      · have := hs.ice h'; linarith
      · rw [h10 h'.symm] at h
        have := hd.ice h; linarith
    · have hempty : SnowPart pv lo hi s := by
        constructor
        · intro _ h; rw [h1] at h; exact absurd h (lt_irrefl _)
        · intro h; rw [h1] at h; exact absurd h (lt_irrefl _)
      refine ⟨hempty, ?_⟩
      rcases lt_or_eq_of_le hsp.thick with h' | h'
      · rcases lt_or_eq_of_le hdp.thick with h'' | h''
        · constructor
          · intro hp _
            obtain ⟨d1, e1, l1⟩ := p1.1 hp h'
            obtain ⟨d2, e2, l2⟩ := p2.1 hp h''
            obtain ⟨-, x, ex, -, lx⟩ := h11 h' h'' d1 d2 e1 e2
            exact ⟨x, ex, le_trans lx (max_le l1 l2)⟩
          · intro _
            obtain ⟨a1, e1, l1, u1⟩ := p1.2 h'
            obtain ⟨a2, e2, l2, u2⟩ := p2.2 h''
            obtain ⟨-, x, ex, mx, lx⟩ := h12 h' h'' a1 a2 e1 e2
            exact ⟨x, ex, le_trans (le_min l1 l2) mx, le_trans lx (max_le u1 u2)⟩
        · rw [h9 h' h''.symm]; exact p1
      · rw [h10 h'.symm]; exact p2

theorem updateLayers_end {pv : Prop} {lo hi od id : K} (fd : Bool) {p : CPixel K}
    (hn : Ready p.new) (ho : Ready p.old) (hf : Ready p.firn) (hi' : Ready p.ice)
    (sn : SnowPart pv lo hi p.new) (so : SnowPart pv lo hi p.old)
    (tn : 0 < p.new.ice + p.new.lwc → 0 < p.new.thick)
    (tp : 0 < p.old.ice + p.old.lwc → 0 < p.old.thick) :
    ∃ q, updateLayers od id fd p = some q ∧ EndPixel pv lo hi q ∧ q.iceSum = p.iceSum ∧
      q.lwcSum = p.lwcSum ∧
      ∀ lo' hi', lo' ≤ lo → hi ≤ hi' → Tinted lo' hi' p.firn → Tinted lo' hi' p.ice →
        Tinted lo' hi' q.firn ∧ Tinted lo' hi' q.ice := by
  obtain ⟨n0, en, cn, n1, n2, n3⟩ := refresh_end hn
  obtain ⟨o0, eo, co, o1, o2, o3⟩ := refresh_end ho
  obtain ⟨f0, ef, cf, f1, f2, f3⟩ := refresh_end hf
  obtain ⟨i0, ei, ci, i1, i2, i3⟩ := refresh_end hi'
  have hpos : ∀ {L M : CLayer K}, EndLayer M → M.ice = L.ice → M.lwc = L.lwc → 0 < M.thick →
      0 < L.ice + L.lwc := by
    intro L M hM a b ht
    rw [← a, ← b]
    have := hM.ice ht
    have := hM.plausible.nonneg.lwc
    linarith
  have sn0 : SnowPart pv lo hi n0 := by
    constructor
    · intro hp ht
      rw [(n3 ht).2]; exact sn.1 hp (tn (hpos cn n1 n2 ht))
    · intro ht
      rw [(n3 ht).1]; exact sn.2 (tn (hpos cn n1 n2 ht))
  have so0 : SnowPart pv lo hi o0 := by
    constructor
    · intro hp ht
      rw [(o3 ht).2]; exact so.1 hp (tp (hpos co o1 o2 ht))
    · intro ht
      rw [(o3 ht).1]; exact so.2 (tp (hpos co o1 o2 ht))
  obtain ⟨n', o', t1, k1, k2, m1, l1, -, -, s1⟩ := transition_end (densAtLeast n0 od) cn co
  obtain ⟨sn', so'⟩ := s1 pv lo hi sn0 so0
  obtain ⟨o'', f', t2, k3, k4, m2, l2, c2, d2, s2⟩ := transition_end fd k2 cf
  have so'' : SnowPart pv lo hi o'' := by
    cases fd with
    | false => rw [(c2 rfl).1]; exact so'
    | true =>
      have := d2 rfl
      constructor
      · intro _ h; rw [this] at h; exact absurd h (lt_irrefl _)
      · intro h; rw [this] at h; exact absurd h (lt_irrefl _)
  obtain ⟨f'', i', t3, k5, k6, m3, l3, -, -, s3⟩ := transition_end (densAtLeast f' id) k4 ci
  refine ⟨{ p with new := n', old := o'', firn := f'', ice := i' }, ?_,
    ⟨endSnow_of k1 sn', endSnow_of k3 so'', k5, k6⟩, ?_, ?_, ?_⟩
  · simp [updateLayers, en, eo, ef, ei, t1, t2, t3]
  · simp only [CPixel.iceSum]; linarith
  · simp only [CPixel.lwcSum]; linarith
  · intro lo' up hlo hhi tf ti
    have tf0 : SnowPart False lo' up f0 := ⟨fun h => h.elim, fun ht => by
      rw [(f3 ht).1]; exact tf (hf.ice (hpos cf f1 f2 ht)).2⟩
    have ti0 : SnowPart False lo' up i0 := ⟨fun h => h.elim, fun ht => by
      rw [(i3 ht).1]; exact ti (hi'.ice (hpos ci i1 i2 ht)).2⟩
    have so1 : SnowPart False lo' up o' := ⟨fun h => h.elim, fun ht => by
      obtain ⟨a, e, l, u⟩ := so'.2 ht
      exact ⟨a, e, hlo.trans l, u.trans hhi⟩⟩
    obtain ⟨-, tf1⟩ := s2 False lo' up so1 tf0
    obtain ⟨tf2, ti1⟩ := s3 False lo' up tf1 ti0
    exact ⟨tf2.2, ti1.2⟩

theorem sublimation_mid {pv : Prop} {lo : K} {c : Cfg K} {dens : K} {fl : Option K} {p : CPixel K}
    (h : MidPixel pv lo c.albMax p) (hc : CfgOK lo c) (hd : 0 < dens)
    (hd1 : pv → dens ≤ iceDensity) :
    MidPixel pv lo c.albMax (sublimation c.dt dens c.albMax c.single fl p).2 := by
  obtain ⟨s, hs⟩ : ∃ s, (sublimation c.dt dens c.albMax c.single fl p).1 = s := ⟨_, rfl⟩
  have h2 : (sublimation c.dt dens c.albMax c.single fl p).2 = if (sublLoop s p).1 < 0 then
      addSnow c.single c.albMax dens (-(sublLoop s p).1) (sublLoop s p).2
      else (sublLoop s p).2 := by rw [← hs]; rfl
  rw [h2]
  rcases le_or_gt 0 s with h0 | h0
  · have hm := sublLoop_mid h0 h
    rw [if_neg]
    · exact hm
    · rw [(sublLoop_spec s p h0 h.nonneg).1]; exact not_lt.mpr (le_max_right _ _)
  · rw [sublLoop_neg s p h0.le, if_pos h0]
    exact addSnow_mid c.single h hd hd1 (by linarith) hc.alb

/-! ## Albedo of firn and ice -/

theorem Tinted.of {lo hi : K} {L M : CLayer K} (h : Tinted lo hi L) (ht : 0 < M.thick → 0 < L.thick)
    (ha : 0 < M.thick → M.alb = L.alb) : Tinted lo hi M := fun hm => by
  rw [ha hm]; exact h (ht hm)

theorem compaction_firn_ice {c : Cfg K} {e : StepIn K} {p q : CPixel K} (h : compaction c e p = some q) :
    (0 < q.firn.thick → 0 < p.firn.thick) ∧ q.firn.alb = p.firn.alb ∧
    (0 < q.ice.thick → 0 < p.ice.thick) ∧ q.ice.alb = p.ice.alb := by
  simp only [compaction, Option.bind_eq_bind, Option.bind_eq_some_iff] at h
  obtain ⟨f, hf, i, hi, hq⟩ := h
  obtain rfl := Option.some.inj hq
  simp only
  have h1 : (0 < f.thick → 0 < p.firn.thick) ∧ f.alb = p.firn.alb := by
    unfold compactFirn at hf
    by_cases ht : 0 < p.firn.thick
    · rw [if_pos ht] at hf
      refine ⟨fun _ => ht, ?_⟩
      cases hd : p.firn.dens with
      | none => rw [hd] at hf; simp at hf
      | some d =>
        rw [hd] at hf
        simp only at hf
        split_ifs at hf
        rw [← Option.some.inj hf]
    · rw [if_neg ht] at hf
      rw [← Option.some.inj hf]
      exact ⟨id, rfl⟩
  have h2 : (0 < i.thick → 0 < p.ice.thick) ∧ i.alb = p.ice.alb := by
    unfold compactIce at hi
    by_cases ht : 0 < p.ice.thick
    · rw [if_pos ht] at hi
      refine ⟨fun _ => ht, ?_⟩
      split_ifs at hi
      rw [← Option.some.inj hi]
    · rw [if_neg ht] at hi
      rw [← Option.some.inj hi]
      exact ⟨id, rfl⟩
  exact ⟨h1.1, h1.2, h2.1, h2.2⟩

theorem accumulation_firn_ice (single : Bool) (am d : K) (sf : Option K) (p : CPixel K) :
    (accumulation single am d sf p).firn = p.firn ∧ (accumulation single am d sf p).ice = p.ice := by
  unfold accumulation
  cases sf with
  | none => exact ⟨rfl, rfl⟩
  | some f =>
    simp only
    split_ifs <;> exact ⟨rfl, rfl⟩

theorem aging_firn_ice {lo' hi' lo : K} {c : Cfg K} (hpal : Palette lo' hi' lo c) (aged : Option K → Option K)
    {p : CPixel K} (hf : Tinted lo' hi' p.firn) (hi : Tinted lo' hi' p.ice) :
    Tinted lo' hi' (albedoAging c.single c.firnAlb c.iceAlb aged p).firn ∧
    Tinted lo' hi' (albedoAging c.single c.firnAlb c.iceAlb aged p).ice := by
  simp only [albedoAging]
  constructor
  · split_ifs
    · exact fun _ => ⟨_, rfl, hpal.firn⟩
    · exact hf
  · split_ifs
    · exact fun _ => ⟨_, rfl, hpal.ice⟩
    · exact hi

theorem updDens_tinted {lo hi : K} {L : CLayer K} (h : Tinted lo hi L) : Tinted lo hi (updDens L) := by
  obtain ⟨-, -, a, -, b⟩ := updDens_same L
  exact h.of (fun x => by rw [a] at x; exact x) fun _ => b

theorem ebLayer_same (eb : Option K) (s : EbAcc K) (L : CLayer K) :
    (ebLayer eb s L).2.thick = L.thick ∧ (ebLayer eb s L).2.alb = L.alb := by
  unfold ebLayer
  cases eb with
  | none => exact ⟨rfl, rfl⟩
  | some x =>
    simp only
    split_ifs <;> exact ⟨rfl, rfl⟩

theorem meltAmount_firn_ice (c : Cfg K) (m : MeltIn K) (p : CPixel K) :
    (meltAmount c m p).2.2.firn.thick = p.firn.thick ∧ (meltAmount c m p).2.2.firn.alb = p.firn.alb ∧
    (meltAmount c m p).2.2.ice.thick = p.ice.thick ∧ (meltAmount c m p).2.2.ice.alb = p.ice.alb := by
  cases m with
  | index => exact ⟨rfl, rfl, rfl, rfl⟩
  | energy t eb =>
    simp only [meltAmount]
    split_ifs
    · simp only [ebMelt]
      exact ⟨(ebLayer_same _ _ _).1, (ebLayer_same _ _ _).2, (ebLayer_same _ _ _).1, (ebLayer_same _ _ _).2⟩
    · exact ⟨rfl, rfl, rfl, rfl⟩
    · exact ⟨rfl, rfl, rfl, rfl⟩

theorem meltLayer_tinted {lo hi : K} (d : K) {L : CLayer K} (h : Tinted lo hi L) (h0 : 0 ≤ L.thick) :
    Tinted lo hi (meltLayer d L).2 := by
  obtain ⟨φ, -, ht, -⟩ := meltLayer_scale d L
  refine h.of (fun x => lt_of_le_of_ne h0 fun e => ?_) fun _ => ?_
  · rw [ht, ← e, zero_mul] at x; exact absurd x (lt_irrefl _)
  · unfold meltLayer; split_ifs <;> rfl

theorem sublLayer_tinted {lo hi : K} (d : K) {L : CLayer K} (h : Tinted lo hi L) (h0 : 0 ≤ L.thick) :
    Tinted lo hi (sublLayer d L).2 := by
  obtain ⟨φ, -, ht, -⟩ := sublLayer_scale d L
  refine h.of (fun x => lt_of_le_of_ne h0 fun e => ?_) fun _ => ?_
  · rw [ht, ← e, zero_mul] at x; exact absurd x (lt_irrefl _)
  · unfold sublLayer; split_ifs <;> rfl

theorem sublimation_firn_ice {lo hi : K} (dt density albMax : K) (single : Bool) (fl : Option K) {p : CPixel K}
    (hf : Tinted lo hi p.firn) (hi' : Tinted lo hi p.ice) (f0 : 0 ≤ p.firn.thick) (i0 : 0 ≤ p.ice.thick) :
    Tinted lo hi (sublimation dt density albMax single fl p).2.firn ∧
    Tinted lo hi (sublimation dt density albMax single fl p).2.ice := by
  obtain ⟨x, hx⟩ : ∃ x, (if 0 < p.iceSum then min (nanToZero (fl.map fun f => -1 * f * dt)) p.iceSum else 0) = x :=
    ⟨_, rfl⟩
  simp only [sublimation, hx]
  split_ifs
  · exact ⟨sublLayer_tinted _ hf f0, sublLayer_tinted _ hi' i0⟩
  · exact ⟨sublLayer_tinted _ hf f0, sublLayer_tinted _ hi' i0⟩

theorem SnowPart.tinted {pv : Prop} {lo hi lo' hi' : K} {L : CLayer K} (h : SnowPart pv lo hi L) (h1 : lo' ≤ lo)
    (h2 : hi ≤ hi') : Tinted lo' hi' L := fun ht => by
  obtain ⟨a, e, l, u⟩ := h.2 ht
  exact ⟨a, e, h1.trans l, u.trans h2⟩

theorem Tinted.part {lo hi : K} {L : CLayer K} (h : Tinted lo hi L) : SnowPart False lo hi L :=
  ⟨fun h => h.elim, h⟩

theorem top_albedo {lo hi : K} {p : CPixel K} (tn : Tinted lo hi p.new) (to' : Tinted lo hi p.old)
    (tf : Tinted lo hi p.firn) (ti : Tinted lo hi p.ice)
    (h : 0 < p.new.thick ∨ 0 < p.old.thick ∨ 0 < p.firn.thick ∨ 0 < p.ice.thick) :
    ∃ a, (updateProperties p).albedo = some a ∧ lo ≤ a ∧ a ≤ hi := by
  simp only [updateProperties]
  split_ifs with h1 h2 h3 h4
  · exact tn h1
  · exact to' h2
  · exact tf h3
  · exact ti h4
  · rcases h with h | h | h | h
    exacts [absurd h h1, absurd h h2, absurd h h3, absurd h h4]

theorem top_albedo_none {p : CPixel K} (hn : p.new.thick = 0) (ho : p.old.thick = 0) (hf : p.firn.thick = 0)
    (hi : p.ice.thick = 0) : (updateProperties p).albedo = none := by
  simp [updateProperties, hn, ho, hf, hi]

theorem updateLayers_albedo {od id : K} {fd : Bool} {p q : CPixel K} (h : updateLayers od id fd p = some q) :
    q.albedo = p.albedo := by
  simp only [updateLayers, Option.bind_eq_bind, Option.bind_eq_some_iff] at h
  obtain ⟨_, -, _, -, _, -, _, -, _, -, _, -, _, -, hq⟩ := h
  rw [← Option.some.inj hq]

/-- State before the energy balance. -/
theorem prepared_end {lo : K} {c : Cfg K} {e : StepIn K} {p : CPixel K} (hc : CfgOK lo c)
    (he : InOK (c.lwcMethod = .poreVolume) lo c.albMax e)
    (hp : EndPixel (c.lwcMethod = .poreVolume) lo c.albMax p) :
    ∃ p0, compaction c e p = some p0 ∧
      let p2 := updateProperties (albedoAging c.single c.firnAlb c.iceAlb e.aged
        (accumulation c.single c.albMax e.freshDensity e.snowfall p0))
      EndPixel (c.lwcMethod = .poreVolume) lo c.albMax p2 ∧ p2.iceSum = p.iceSum + e.snowfall.getD 0 ∧
      p2.lwcSum = p.lwcSum ∧
      ∀ lo' hi', Palette lo' hi' lo c → Tinted lo' hi' p.firn → Tinted lo' hi' p.ice →
        Tinted lo' hi' p2.firn ∧ Tinted lo' hi' p2.ice := by
  obtain ⟨p0, e0, k0, i0, l0⟩ := compaction_end hp hc he
  refine ⟨p0, e0, ?_⟩
  obtain ⟨p1, e1⟩ : ∃ x, accumulation c.single c.albMax e.freshDensity e.snowfall p0 = x := ⟨_, rfl⟩
  have a1 : EndPixel (c.lwcMethod = .poreVolume) lo c.albMax p1 ∧
      p1.iceSum = p0.iceSum + e.snowfall.getD 0 ∧ p1.lwcSum = p0.lwcSum := by
    have hs := he.snow
    rw [← e1]
    cases hsf : e.snowfall with
    | none => exact ⟨k0, by simp [accumulation], rfl⟩
    | some f =>
      rw [hsf] at hs
      simp only [Option.getD_some] at hs ⊢
      simp only [accumulation]
      split_ifs with hf
      · have hm : MidPixel (c.lwcMethod = .poreVolume) lo c.albMax p0 :=
          ⟨k0.new.mid, k0.old.mid, k0.firn.mid, k0.ice.mid⟩
        obtain ⟨x1, x2, -⟩ := C28_add_snow c.single c.albMax e.freshDensity f p0 hm.nonneg he.fresh hf
        exact ⟨addSnow_end c.single k0 he.fresh he.fresh1 hf hc.alb, x1, x2⟩
      · have : f = 0 := le_antisymm (not_lt.mp hf) hs
        exact ⟨k0, by rw [this, add_zero], rfl⟩
  obtain ⟨k1, i1, l1⟩ := a1
  obtain ⟨k2, i2, l2⟩ := aging_end c.single c.firnAlb c.iceAlb k1 he.aged
  obtain ⟨pa, ea⟩ : ∃ x, albedoAging c.single c.firnAlb c.iceAlb e.aged p1 = x := ⟨_, rfl⟩
  rw [ea] at k2 i2 l2
  have i3 : (updateProperties pa).iceSum = pa.iceSum ∧ (updateProperties pa).lwcSum = pa.lwcSum := by
    simp only [updateProperties, CPixel.iceSum, CPixel.lwcSum, updDens_same, and_self]
  simp only [e1, ea]
  refine ⟨⟨updDens_endSnow k2.new, updDens_endSnow k2.old, updDens_end k2.firn, updDens_end k2.ice⟩, ?_, ?_, ?_⟩
  · rw [i3.1, i2, i1, i0]
  · rw [i3.2, l2, l1, l0]
  · intro lo' hi' hpal hf hi
    obtain ⟨c1, c2, c3, c4⟩ := compaction_firn_ice e0
    obtain ⟨d1, d2⟩ := accumulation_firn_ice c.single c.albMax e.freshDensity e.snowfall p0
    rw [e1] at d1 d2
    have := aging_firn_ice hpal e.aged (p := p1) (by rw [d1]; exact hf.of c1 fun _ => c2)
      (by rw [d2]; exact hi.of c3 fun _ => c4)
    rw [ea] at this
    exact ⟨updDens_tinted this.1, updDens_tinted this.2⟩

/-! ## C33 -/

/-- **C33.** For every state between time steps and all admissible inputs, a step of the cryolayer
model is defined (no NaN arises in contents), leads to such a state again, and obeys the ice, liquid
water and total water balances. -/
theorem C33_step (lo : K) (c : Cfg K) (e : StepIn K) (p : CPixel K) (hc : CfgOK lo c)
    (he : InOK (c.lwcMethod = .poreVolume) lo c.albMax e)
    (hp : EndPixel (c.lwcMethod = .poreVolume) lo c.albMax p) :
    ∃ f q, step c e p = some (f, q) ∧ EndPixel (c.lwcMethod = .poreVolume) lo c.albMax q ∧
      q.iceSum = p.iceSum + e.snowfall.getD 0 - f.melt + f.refreezing - f.sublimation ∧
      q.lwcSum = p.lwcSum + e.rainfall.getD 0 + f.melt - f.refreezing - f.runoff ∧
      q.swe = p.swe + e.snowfall.getD 0 + e.rainfall.getD 0 - f.sublimation - f.runoff ∧
      0 ≤ f.melt ∧ 0 ≤ f.refreezing ∧ 0 ≤ f.runoff ∧
      f.melt ≤ p.iceSum + e.snowfall.getD 0 + f.refreezing ∧
      (q.swe = 0 → q.albedo = none) ∧
      ∀ lo' hi', Palette lo' hi' lo c → Tinted lo' hi' p.firn → Tinted lo' hi' p.ice →
        Tinted lo' hi' q.firn ∧ Tinted lo' hi' q.ice ∧
        (0 < q.swe → ∃ a, q.albedo = some a ∧ lo' ≤ a ∧ a ≤ hi') := by
  obtain ⟨p0, e0, hprep⟩ := prepared_end hc he hp
  simp only at hprep
  obtain ⟨p1, e1⟩ : ∃ x, accumulation c.single c.albMax e.freshDensity e.snowfall p0 = x := ⟨_, rfl⟩
  obtain ⟨pa, ea⟩ : ∃ x, albedoAging c.single c.firnAlb c.iceAlb e.aged p1 = x := ⟨_, rfl⟩
  obtain ⟨p2, e2⟩ : ∃ x, updateProperties pa = x := ⟨_, rfl⟩
  rw [e1, ea, e2] at hprep
  obtain ⟨k3, i3, l3, tint⟩ := hprep
  obtain ⟨m, em⟩ : ∃ x, meltAmount c e.melt p2 = x := ⟨_, rfl⟩
  have hma := meltAmount_mid hc e.melt k3
  rw [em] at hma
  obtain ⟨k4, m1, m2, m3, m4, m5⟩ := hma
  obtain ⟨p3, e3⟩ : ∃ x, melt m.1 m.2.2 = x := ⟨_, rfl⟩
  have k5 := melt_mid m1 k4
  have hme := C28_melt m.1 m.2.2 m1 k4.nonneg
  rw [e3] at k5 hme
  obtain ⟨-, -, -, -, -, -, -, -, i5, l5, -⟩ := hme
  rw [min_eq_left m2] at i5 l5
  have k6 := sublimation_mid (fl := e.moistureFlux) k5 hc he.fresh he.fresh1
  have hsu := C28_sublimation c.dt e.freshDensity c.albMax c.single e.moistureFlux p3 k5.nonneg
    he.fresh
  obtain ⟨s, es⟩ : ∃ x, sublimation c.dt e.freshDensity c.albMax c.single e.moistureFlux p3 = x :=
    ⟨_, rfl⟩
  rw [es] at k6 hsu
  obtain ⟨i6, l6, -⟩ := hsu
  have cn := maxLwc_nonneg hc k6.new
  have co := maxLwc_nonneg hc k6.old
  have hru := C28_runoff c.lwcMethod c.maxFrac e.rainfall s.2 k6.nonneg he.rain cn co
  have rn := runoffLayer_spec (nanToZero e.rainfall) _ s.2.new he.rain cn k6.new.nn
  have ro := runoffLayer_spec _ _ s.2.old rn.2.2.2.2.2.2.2.1 co k6.old.nn
  have rf := runoffLayer_spec _ 0 s.2.firn ro.2.2.2.2.2.2.2.1 (le_refl _) k6.firn.nn
  have ri := runoffLayer_spec _ 0 s.2.ice rf.2.2.2.2.2.2.2.1 (le_refl _) k6.ice.nn
  obtain ⟨r, er⟩ : ∃ x, runoff c.lwcMethod c.maxFrac e.rainfall s.2 = x := ⟨_, rfl⟩
  rw [er] at hru
  have hrn : r.2.new = (runoffLayer (nanToZero e.rainfall)
      (maxLwc c.lwcMethod c.maxFrac s.2.new.thick s.2.new.ice) s.2.new).2 := by rw [← er]; rfl
  have hro : r.2.old = (runoffLayer (runoffLayer (nanToZero e.rainfall)
      (maxLwc c.lwcMethod c.maxFrac s.2.new.thick s.2.new.ice) s.2.new).1
      (maxLwc c.lwcMethod c.maxFrac s.2.old.thick s.2.old.ice) s.2.old).2 := by rw [← er]; rfl
  have hrf : r.2.firn = (runoffLayer (runoffLayer (runoffLayer (nanToZero e.rainfall)
      (maxLwc c.lwcMethod c.maxFrac s.2.new.thick s.2.new.ice) s.2.new).1
      (maxLwc c.lwcMethod c.maxFrac s.2.old.thick s.2.old.ice) s.2.old).1 0 s.2.firn).2 := by
    rw [← er]; rfl
  have hri : r.2.ice = (runoffLayer (runoffLayer (runoffLayer (runoffLayer (nanToZero e.rainfall)
      (maxLwc c.lwcMethod c.maxFrac s.2.new.thick s.2.new.ice) s.2.new).1
      (maxLwc c.lwcMethod c.maxFrac s.2.old.thick s.2.old.ice) s.2.old).1 0 s.2.firn).1 0
      s.2.ice).2 := by rw [← er]; rfl
  rw [← hrn] at rn
  rw [← hro] at ro
  rw [← hrf] at rf
  rw [← hri] at ri
  obtain ⟨-, rn1, rn2, rn3, -, rn4, rn5, -, rn6⟩ := rn
  obtain ⟨-, ro1, ro2, ro3, -, ro4, ro5, -, ro6⟩ := ro
  obtain ⟨-, rf1, rf2, rf3, -, rf4, rf5, -, rf6⟩ := rf
  obtain ⟨-, ri1, ri2, ri3, -, ri4, ri5, -, ri6⟩ := ri
  obtain ⟨hr1, hr2, hr3, -⟩ := hru
  have zsnow : ∀ {L M : CLayer K}, MidSnow (c.lwcMethod = .poreVolume) lo c.albMax L →
      0 ≤ M.lwc → M.lwc ≤ maxLwc c.lwcMethod c.maxFrac L.thick L.ice → L.ice = 0 → M.lwc = 0 := by
    intro L M hL h0 h1 hz
    rw [hz, hL.iff.mpr hz, maxLwc_empty] at h1
    exact le_antisymm h1 h0
  have qn := runoff_ready k6.new.toMid rn1 rn2 rn3 rn5.lwc (zsnow k6.new rn5.lwc rn6)
  have qo := runoff_ready k6.old.toMid ro1 ro2 ro3 ro5.lwc (zsnow k6.old ro5.lwc ro6)
  have qf := runoff_ready k6.firn rf1 rf2 rf3 rf5.lwc fun _ => le_antisymm rf6 rf5.lwc
  have qi := runoff_ready k6.ice ri1 ri2 ri3 ri5.lwc fun _ => le_antisymm ri6 ri5.lwc
  have spart : ∀ {L M : CLayer K}, MidSnow (c.lwcMethod = .poreVolume) lo c.albMax L →
      M.ice = L.ice → M.thick = L.thick → M.alb = L.alb →
      M.lwc ≤ maxLwc c.lwcMethod c.maxFrac L.thick L.ice →
      SnowPart (c.lwcMethod = .poreVolume) lo c.albMax (updDens M) := by
    intro L M hL hi ht ha hl
    obtain ⟨x1, x2, x3, -, x4⟩ := updDens_same M
    constructor
    · intro hpv hpos
      rw [x3] at hpos
      refine ⟨(M.ice + M.lwc) / M.thick, by unfold updDens; rw [if_pos hpos], ?_⟩
      rw [div_le_iff₀ hpos]
      have := maxLwc_light hc hpv (by rw [← ht]; exact hpos) (hL.light hpv)
      rw [hi, ht]; linarith
    · rw [x3, x4, ht, ha]; exact hL.alb
  obtain ⟨q, eq, kq, iq, lq, tq⟩ := updateLayers_end (od := c.oldDensity) (id := c.iceDens) e.firnDate
    (p := updateProperties r.2) qn qo qf qi (spart k6.new rn1 rn2 rn4 rn6)
    (spart k6.old ro1 ro2 ro4 ro6) (fun h => (qn.ice h).2) (fun h => (qo.ice h).2)
  have i7 : (updateProperties r.2).iceSum = r.2.iceSum ∧
      (updateProperties r.2).lwcSum = r.2.lwcSum := by
    simp only [updateProperties, CPixel.iceSum, CPixel.lwcSum, updDens_same, and_self]
  have hice : q.iceSum = p.iceSum + e.snowfall.getD 0 - m.1 + m.2.1 - s.1 := by
    rw [iq, i7.1, hr2, i6, i5, m4, i3]; ring
  have hlwc : q.lwcSum = p.lwcSum + e.rainfall.getD 0 + m.1 - m.2.1 - r.1 := by
    have h1 : q.lwcSum = e.rainfall.getD 0 + s.2.lwcSum - r.1 := by rw [lq, i7.2]; linarith
    rw [h1, l6, l5, m5, l3]; ring
  refine ⟨⟨m.1, m.2.1, s.1, r.1⟩, q, ?_, kq, hice, hlwc, ?_, m1, m3, hr3, ?_, ?_, ?_⟩
  · simp [step, e0, e1, ea, e2, em, e3, es, er, eq]
  · rw [swe_eq, swe_eq, hice, hlwc]; ring
  · simp only
    rw [m4, i3] at m2
    linarith
  · intro hz
    rw [updateLayers_albedo eq]
    rw [swe_eq, iq, lq, i7.1, i7.2] at hz
    simp only [CPixel.iceSum, CPixel.lwcSum] at hz
    have := rn5.ice; have := ro5.ice; have := rf5.ice; have := ri5.ice
    have := rn5.lwc; have := ro5.lwc; have := rf5.lwc; have := ri5.lwc
    exact top_albedo_none (by rw [rn2]; exact k6.new.iff.2 (by rw [← rn1]; linarith))
      (by rw [ro2]; exact k6.old.iff.2 (by rw [← ro1]; linarith))
      (by rw [rf2]; exact k6.firn.iff.2 (by rw [← rf1]; linarith))
      (by rw [ri2]; exact k6.ice.iff.2 (by rw [← ri1]; linarith))
  · intro lo' hi' hpal tf ti
    obtain ⟨tf2, ti2⟩ := tint lo' hi' hpal tf ti
    obtain ⟨x1, x2, x3, x4⟩ := meltAmount_firn_ice c e.melt p2
    rw [em] at x1 x2 x3 x4
    have tf3 : Tinted lo' hi' m.2.2.firn := tf2.of (fun h => by rw [x1] at h; exact h) fun _ => x2
    have ti3 : Tinted lo' hi' m.2.2.ice := ti2.of (fun h => by rw [x3] at h; exact h) fun _ => x4
    have tf4 : Tinted lo' hi' p3.firn := by rw [← e3]; exact meltLayer_tinted _ tf3 k4.firn.nn.thick
    have ti4 : Tinted lo' hi' p3.ice := by rw [← e3]; exact meltLayer_tinted _ ti3 k4.ice.nn.thick
    obtain ⟨tf5, ti5⟩ := sublimation_firn_ice c.dt e.freshDensity c.albMax c.single e.moistureFlux tf4 ti4
      k5.firn.nn.thick k5.ice.nn.thick
    rw [es] at tf5 ti5
    have tf6 : Tinted lo' hi' r.2.firn := tf5.of (fun h => by rw [rf2] at h; exact h) fun _ => rf4
    have ti6 : Tinted lo' hi' r.2.ice := ti5.of (fun h => by rw [ri2] at h; exact h) fun _ => ri4
    have snow6 : ∀ {L M : CLayer K}, MidSnow (c.lwcMethod = .poreVolume) lo c.albMax L → M.thick = L.thick →
        M.alb = L.alb → Tinted lo' hi' M := by
      intro L M hL ht ha hpos
      rw [ht] at hpos
      obtain ⟨a, h1, h2, h3⟩ := hL.alb hpos
      exact ⟨a, by rw [ha]; exact h1, hpal.low.trans h2, h3.trans hpal.high⟩
    obtain ⟨tq1, tq2⟩ := tq lo' hi' hpal.low hpal.high (updDens_tinted tf6) (updDens_tinted ti6)
    refine ⟨tq1, tq2, fun hpos => ?_⟩
    rw [updateLayers_albedo eq]
    refine top_albedo (snow6 k6.new rn2 rn4) (snow6 k6.old ro2 ro4) tf6 ti6 ?_
    by_contra hno
    push Not at hno
    obtain ⟨n1, n2, n3, n4⟩ := hno
    have key : ∀ {L : CLayer K}, Ready (updDens L) → L.thick ≤ 0 → L.ice + L.lwc ≤ 0 := by
      intro L hL ht
      by_contra h
      obtain ⟨y1, y2, y3, -, -⟩ := updDens_same L
      have := (hL.ice (by rw [y1, y2]; exact not_le.1 h)).2
      rw [y3] at this
      exact absurd this (not_lt.2 ht)
    rw [swe_eq, iq, lq, i7.1, i7.2] at hpos
    simp only [CPixel.iceSum, CPixel.lwcSum] at hpos
    have := key qn n1; have := key qo n2; have := key qf n3; have := key qi n4
    linarith

/-- **C33 (runs).** Over any number of steps the change of SWE is the sum of precipitation minus
sublimation and runoff; the run is defined for every admissible input sequence. -/
theorem C33_run (lo : K) (c : Cfg K) (hc : CfgOK lo c) (es : List (StepIn K)) (p : CPixel K)
    (he : ∀ e ∈ es, InOK (c.lwcMethod = .poreVolume) lo c.albMax e)
    (hp : EndPixel (c.lwcMethod = .poreVolume) lo c.albMax p) :
    ∃ fs q, run c es p = some (fs, q) ∧ fs.length = es.length ∧
      EndPixel (c.lwcMethod = .poreVolume) lo c.albMax q ∧
      q.swe = p.swe + (es.map fun e => e.snowfall.getD 0).sum + (es.map fun e => e.rainfall.getD 0).sum
        - (fs.map Fluxes.sublimation).sum - (fs.map Fluxes.runoff).sum ∧
      q.iceSum = p.iceSum + (es.map fun e => e.snowfall.getD 0).sum
        - (fs.map Fluxes.melt).sum + (fs.map Fluxes.refreezing).sum
        - (fs.map Fluxes.sublimation).sum := by
  induction es generalizing p with
  | nil => exact ⟨[], p, rfl, rfl, hp, by simp, by simp⟩
  | cons e es ih =>
    obtain ⟨f, p', e1, hp', hi, -, hs, -⟩ := C33_step lo c e p hc (he e (by simp)) hp
    obtain ⟨fs, q, e2, hl, hq, hs', hi'⟩ := ih p' (fun x hx => he x (by simp [hx])) hp'
    refine ⟨f :: fs, q, by simp [run, e1, e2], by simp [hl], hq, ?_, ?_⟩
    · simp only [List.map_cons, List.sum_cons]; rw [hs', hs]; ring
    · simp only [List.map_cons, List.sum_cons]; rw [hi', hi]; ring

/-- **C24 (cryolayers).** Throughout a run the albedo of every snow layer that has snow stays
within `[lo, albMax]`, and so does the surface albedo while there is new or old snow on top. -/
theorem C24_cryo_run (lo : K) (c : Cfg K) (hc : CfgOK lo c) (es : List (StepIn K)) (p q : CPixel K)
    (fs : List (Fluxes K)) (he : ∀ e ∈ es, InOK (c.lwcMethod = .poreVolume) lo c.albMax e)
    (hp : EndPixel (c.lwcMethod = .poreVolume) lo c.albMax p) (hr : run c es p = some (fs, q)) :
    (0 < q.new.thick → ∃ a, q.new.alb = some a ∧ lo ≤ a ∧ a ≤ c.albMax) ∧
    (0 < q.old.thick → ∃ a, q.old.alb = some a ∧ lo ≤ a ∧ a ≤ c.albMax) ∧
    (0 < q.new.thick ∨ 0 < q.old.thick →
      ∃ a, (updateProperties q).albedo = some a ∧ lo ≤ a ∧ a ≤ c.albMax) := by
  obtain ⟨fs', q', e, -, h, -⟩ := C33_run lo c hc es p he hp
  rw [hr] at e
  obtain ⟨-, rfl⟩ := Prod.mk.inj (Option.some.inj e)
  refine ⟨h.new.alb, h.old.alb, fun hor => ?_⟩
  simp only [updateProperties]
  by_cases hn : 0 < q.new.thick
  · rw [if_pos hn]; exact h.new.alb hn
  · rw [if_neg hn, if_pos (hor.resolve_left hn)]; exact h.old.alb (hor.resolve_left hn)

/-! ## Concrete case -/

/-- Default-like configuration. -/
def exCfg : Cfg ℚ :=
  { dt := 3600, albMax := 85 / 100, firnAlb := 4 / 10, iceAlb := 2 / 10, single := true,
    lwcMethod := .poreVolume, maxFrac := 1 / 10, oldDensity := 200, iceDens := 900,
    coldCapacity := 1 / 20, refreezeFactor := 1, ddf := 6, albFactor := 1 / 10,
    threshold := 27415 / 100 }

/-- A step with snowfall, rain, melt and sublimation. -/
def exIn : StepIn ℚ :=
  { snowfall := some 2, rainfall := some 1, freshDensity := 100,
    compNew := fun L => min (max (L.dens.getD 300) 50) 550, compOld := fun _ => 320,
    aged := fun a => a, melt := .energy 275 (some 200), moistureFlux := some (-1 / 100000),
    firnDate := false }

example : CfgOK (55 / 100) exCfg := by
  constructor <;> norm_num [exCfg, waterDensity, iceDensity]

example : InOK True (55 / 100) (85 / 100) exIn := by
  refine ⟨by norm_num [exIn], by norm_num [exIn], by norm_num [exIn],
    fun _ => by norm_num [exIn, iceDensity], fun L => ?_, fun _ L => ?_, fun _ => by norm_num [exIn],
    fun _ _ => by norm_num [exIn, iceDensity], fun a h1 h2 => ⟨a, rfl, h1, h2⟩⟩
  · exact lt_min (lt_of_lt_of_le (by norm_num) (le_max_right _ _)) (by norm_num)
  · exact le_trans (min_le_right _ _) (by norm_num [iceDensity])

example : EndPixel True (55 / 100) (85 / 100) exPixel := by
  refine ⟨⟨⟨Or.inr ?_, ?_⟩, ?_, ?_⟩, ⟨⟨Or.inr ?_, ?_⟩, ?_, ?_⟩, ⟨Or.inr ?_, ?_⟩, ⟨Or.inr ?_, ?_⟩⟩ <;>
    norm_num [exPixel, iceDensity]

end Verif.Cryo
