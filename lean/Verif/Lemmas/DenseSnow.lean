import Verif.Lemmas.CoupledCryo

/-!
# Lemmas on repeated settling
-/

namespace Verif.Snow

open Real

/-- Density after one step of `_compaction_anderson` for a layer of mass `m` below the load `l`. -/
noncomputable def settled (dt T l ρ lwc : ℝ) : ℝ := ρ + andersonRate (some T) l ρ lwc * (dt / 3600)

/-- Lower bound of the increase in density per step for densities from `a` to `b` and temperatures from `T` on. -/
noncomputable def increase (dt T a b : ℝ) : ℝ :=
  a * (1 / 100 * exp (-(4 / 100) * (T0 - T)) * exp (-(46 / 1000) * b)) * (dt / 3600)

theorem increase_pos {dt T a b : ℝ} (hdt : 0 < dt) (ha : 0 < a) : 0 < increase dt T a b := by
  unfold increase
  positivity

theorem settled_ge {dt T T' l a b ρ : ℝ} (lwc : ℝ) (hdt : 0 < dt) (hT : T ≤ T') (hl : 0 ≤ l) (ha : 0 < a) (h1 : a ≤ ρ)
    (h2 : ρ ≤ b) : ρ + increase dt T a b ≤ settled dt T' l ρ lwc := by
  unfold settled increase andersonRate
  simp only
  have hd : 0 < dt / 3600 := by positivity
  have hρ : 0 < ρ := ha.trans_le h1
  have h6 : exp (-(46 / 1000) * b) ≤ (if 150 < ρ then exp (-(46 / 1000) * (ρ - 150)) else 1) := by
    split_ifs
    · exact exp_le_exp.2 (by linarith)
    · exact exp_le_one_iff.2 (by linarith)
  have h4 : (1 : ℝ) / 100 ≤ if 0 < lwc then 2 / 100 else 1 / 100 := by split_ifs <;> norm_num
  have h5 : exp (-(4 / 100) * (T0 - T)) ≤ exp (-(4 / 100) * (T0 - T')) := exp_le_exp.2 (by linarith)
  have h7 : 1 / 100 * exp (-(4 / 100) * (T0 - T)) * exp (-(46 / 1000) * b) ≤
      (if 0 < lwc then 2 / 100 else 1 / 100) * exp (-(4 / 100) * (T0 - T')) *
        (if 150 < ρ then exp (-(46 / 1000) * (ρ - 150)) else 1) := by
    gcongr
  have h8 : 0 ≤ 1 / 1000 * l * exp (-(8 / 100) * (T0 - T') - 21 / 1000 * ρ) := by positivity
  have h9 : 0 ≤ 1 / 100 * exp (-(4 / 100) * (T0 - T)) * exp (-(46 / 1000) * b) := by positivity
  have h10 := mul_le_mul h1 (h7.trans (le_add_of_nonneg_left h8)) h9 hρ.le
  have h11 := mul_le_mul_of_nonneg_right h10 hd.le
  linarith

/-- Effect of one step on a layer. -/
structure Settles (δ b : ℝ) (L M : DLayer) : Prop where
  ice : M.ice = L.ice
  lwc : M.lwc = L.lwc
  thick : 0 < M.thick
  mono : (L.ice + L.lwc) / L.thick ≤ (M.ice + M.lwc) / M.thick
  incr : (L.ice + L.lwc) / L.thick ≤ b → (L.ice + L.lwc) / L.thick + δ ≤ (M.ice + M.lwc) / M.thick

theorem andersonLoop_settles {dt T T' a b : ℝ} (hdt : 0 < dt) (hT : T ≤ T') (ha : 0 < a) (Ls : List DLayer)
    (h : ∀ L ∈ Ls, 0 < L.thick ∧ 0 < L.ice + L.lwc ∧ a ≤ (L.ice + L.lwc) / L.thick) {load : ℝ} (hl : 0 ≤ load) :
    ∃ Ms, andersonLoop (dt / 3600) (some T') load Ls = some Ms ∧ List.Forall₂ (Settles (increase dt T a b) b) Ls Ms := by
  induction Ls generalizing load with
  | nil => exact ⟨[], rfl, .nil⟩
  | cons L Ls ih =>
    obtain ⟨ht, hm, hρ⟩ := h L (by simp)
    have hl' : 0 ≤ load + (L.ice + L.lwc) / 2 := by positivity
    have hpos : 0 < (L.ice + L.lwc) / L.thick := ha.trans_le hρ
    have h0 := settled_ge (T := T') (T' := T') (l := load + (L.ice + L.lwc) / 2) L.lwc hdt le_rfl hl' hpos le_rfl le_rfl
    have hi := increase_pos (T := T') (b := (L.ice + L.lwc) / L.thick) hdt hpos
    have h1 := fun hb => settled_ge (b := b) L.lwc hdt hT hl' ha hρ hb
    obtain ⟨d, hd⟩ : ∃ d, settled dt T' (load + (L.ice + L.lwc) / 2) ((L.ice + L.lwc) / L.thick) L.lwc = d := ⟨_, rfl⟩
    rw [hd] at h0
    simp only [hd] at h1
    have hdpos : 0 < d := by linarith
    obtain ⟨Ms, e, hMs⟩ := ih (fun L' hL' => h L' (by simp [hL'])) (load := load + (L.ice + L.lwc) / 2 + (L.ice + L.lwc) / 2)
      (by positivity)
    unfold settled at hd
    refine ⟨{ L with dens := some d, thick := (L.ice + L.lwc) / d } :: Ms, ?_, .cons ?_ hMs⟩
    · simp only [andersonLoop, andersonLayer, ht, if_true, hd, hdpos.ne', if_false, e]
    · have hde : (L.ice + L.lwc) / ((L.ice + L.lwc) / d) = d := by field_simp
      exact ⟨rfl, rfl, by positivity, by simp only [hde]; linarith, fun hb => by simp only [hde]; exact h1 hb⟩

end Verif.Snow

namespace Verif.CoupledCryo

open Verif.Cryo (CPixel CLayer emptyLayer)

/-- A snowpack of one layer of new or old snow: ice content, liquid water content, thickness. -/
structure Solo (m w th : ℝ) (p : CPixel ℝ) : Prop where
  firn : p.firn = emptyLayer
  ice : p.ice = emptyLayer
  one : ∃ L : CLayer ℝ, (p.new = L ∧ p.old = emptyLayer ∨ p.new = emptyLayer ∧ p.old = L) ∧
    L.ice = m ∧ L.lwc = w ∧ L.thick = th

theorem compacted_single {c : Site} (hdt : 0 < c.dt) {T m th : ℝ} (hm : 0 < m) (ht : 0 < th) {p : CPixel ℝ}
    (hp : Solo m 0 th p) :
    ∃ q, compaction c T p = some q ∧ q.albedo = p.albedo ∧
      Solo m 0 (m / Snow.settled c.dt T (m / 2) (m / th) 0) q := by
  obtain ⟨n, o, f, i, a⟩ := p
  obtain ⟨rfl, rfl, L, hL, rfl, hw, rfl⟩ := hp
  have hE : toD (emptyLayer : CLayer ℝ) = ⟨0, 0, 0, T0, none⟩ := rfl
  have hρ : 0 < L.ice / L.thick := div_pos hm ht
  have hd : 0 < Snow.settled c.dt T (L.ice / 2) (L.ice / L.thick) 0 := by
    have h := Snow.settled_ge (T := T) (T' := T) (l := L.ice / 2) 0 hdt le_rfl (by positivity) hρ le_rfl le_rfl
    have hi := Snow.increase_pos (T := T) (b := L.ice / L.thick) hdt hρ
    linarith
  obtain ⟨d, hde⟩ : ∃ d, Snow.settled c.dt T (L.ice / 2) (L.ice / L.thick) 0 = d := ⟨_, rfl⟩
  rw [hde] at hd ⊢
  have hne := hd.ne'
  unfold Snow.settled at hde
  rcases hL with ⟨hn, ho⟩ | ⟨hn, ho⟩
  · simp only at hn ho
    subst hn ho
    refine ⟨⟨{ n with dens := some d, thick := n.ice / d }, emptyLayer, emptyLayer, emptyLayer, a⟩, ?_, rfl, ?_⟩
    · simp only [compaction, Snow.anderson, Snow.andersonLoop, Snow.andersonLayer, toD, ht, if_true,
        hw, add_zero, zero_add, hde, hne, if_false, Cryo.compactFirn, Cryo.compactIce, Cryo.emptyLayer, lt_irrefl]
      simp [compacted, hw]
    · exact ⟨rfl, rfl, _, Or.inl ⟨rfl, rfl⟩, rfl, hw, rfl⟩
  · simp only at hn ho
    subst hn ho
    refine ⟨⟨emptyLayer, { o with dens := some d, thick := o.ice / d }, emptyLayer, emptyLayer, a⟩, ?_, rfl, ?_⟩
    · simp only [compaction, Snow.anderson, Snow.andersonLoop, Snow.andersonLayer, toD, ht, if_true,
        hw, add_zero, zero_add, hde, hne, if_false, Cryo.compactFirn, Cryo.compactIce, Cryo.emptyLayer, lt_irrefl]
      simp [compacted, hw]
    · exact ⟨rfl, rfl, _, Or.inr ⟨rfl, rfl⟩, rfl, hw, rfl⟩

theorem solo_update {m w th : ℝ} {p : CPixel ℝ} (h : Solo m w th p) : Solo m w th (Cryo.updateProperties p) := by
  obtain ⟨n, o, f, i, a⟩ := p
  obtain ⟨rfl, rfl, L, hL, rfl, rfl, rfl⟩ := h
  have hs := Cryo.updDens_same L
  have hE : Cryo.updDens (emptyLayer : CLayer ℝ) = emptyLayer := by simp [Cryo.updDens, emptyLayer]
  refine ⟨hE, hE, Cryo.updDens L, ?_, hs.1, hs.2.1, hs.2.2.1⟩
  rcases hL with ⟨hn, ho⟩ | ⟨hn, ho⟩
  · simp only at hn ho
    subst hn ho
    exact Or.inl ⟨rfl, hE⟩
  · simp only at hn ho
    subst hn ho
    exact Or.inr ⟨hE, rfl⟩

theorem solo_aging {m w th : ℝ} {p : CPixel ℝ} (single : Bool) (fa ia : ℝ) (ag : Option ℝ → Option ℝ) (h : Solo m w th p) :
    Solo m w th (Cryo.albedoAging single fa ia ag p) := by
  obtain ⟨n, o, f, i, a⟩ := p
  obtain ⟨rfl, rfl, L, hL, rfl, rfl, rfl⟩ := h
  have h0 : ¬ (0 : ℝ) < (emptyLayer : CLayer ℝ).thick := lt_irrefl _
  rcases hL with ⟨hn, ho⟩ | ⟨hn, ho⟩
  · simp only at hn ho
    subst hn ho
    refine ⟨by simp [Cryo.albedoAging, emptyLayer], by simp [Cryo.albedoAging, emptyLayer], _,
      Or.inl ⟨rfl, by simp [Cryo.albedoAging, emptyLayer]⟩, ?_, ?_, ?_⟩ <;>
      simp only [Cryo.albedoAging] <;> split_ifs <;> rfl
  · simp only at hn ho
    subst hn ho
    refine ⟨by simp [Cryo.albedoAging, emptyLayer], by simp [Cryo.albedoAging, emptyLayer], _,
      Or.inr ⟨by simp [Cryo.albedoAging, emptyLayer], rfl⟩, ?_, ?_, ?_⟩ <;>
      simp only [Cryo.albedoAging] <;> split_ifs <;> rfl

/-- A step without snowfall up to the energy balance. -/
theorem prepare_solo {c : Site} (hdt : 0 < c.dt) {f : Forcing} (hf : f.snow = 0) {s : State} {m th : ℝ} (hm : 0 < m)
    (ht : 0 < th) (h : Solo m 0 th s.snow) :
    ∃ p, prepare c f s = some p ∧ Solo m 0 (m / Snow.settled c.dt f.temp (m / 2) (m / th) 0) p := by
  obtain ⟨q, hq, -, hs⟩ := compacted_single hdt (T := f.temp) hm ht h
  refine ⟨_, by simp only [prepare, hq]; rfl, ?_⟩
  have : Cryo.accumulation c.single c.albedo.max (fresh f) (some f.snow) q = q := by
    simp [Cryo.accumulation, hf]
  rw [this]
  exact solo_update (solo_aging _ _ _ _ hs)

/-- The first snowfall up to the energy balance. -/
theorem prepare_first {c : Site} {f : Forcing} {m : ℝ} (hm : 0 < m) (hf : f.snow = m) :
    ∃ p, prepare c f (initial c) = some p ∧ Solo m 0 (m / fresh f) p := by
  have hc : compaction c f.temp (initial c).snow = some (initial c).snow := by
    simp [compaction, initial, Snow.anderson, Snow.andersonLoop, Snow.andersonLayer, toD, emptyLayer,
      Cryo.compactFirn, Cryo.compactIce, compacted]
  refine ⟨_, by simp only [prepare, hc]; rfl, solo_update (solo_aging _ _ _ _ ?_)⟩
  simp only [Cryo.accumulation, hf, hm, if_true, Cryo.addSnow, initial]
  exact ⟨rfl, rfl, _, Or.inl ⟨rfl, rfl⟩, by simp [emptyLayer], by simp [emptyLayer], by simp [emptyLayer]⟩

theorem refreeze_dry {cap av : ℝ} (L : CLayer ℝ) (hL : L.lwc = 0) :
    ∃ a cc, Cryo.refreezeLayer cap av L = (a, 0, { L with cc := cc }) := by
  unfold Cryo.refreezeLayer
  split_ifs with h
  · exact ⟨_, _, by simp only [hL, min_eq_left h.2.le, add_zero, sub_zero]; rfl⟩
  · exact ⟨av, L.cc, rfl⟩

theorem sublLayer_zero (L : CLayer ℝ) : Cryo.sublLayer 0 L = (0, L) := by simp [Cryo.sublLayer]

theorem meltLayer_zero (L : CLayer ℝ) : Cryo.meltLayer 0 L = (0, L) := by simp [Cryo.meltLayer]

theorem refresh_empty : Cryo.refresh (emptyLayer : CLayer ℝ) = some emptyLayer := by
  simp [Cryo.refresh, emptyLayer, CLayer.we]

theorem refresh_full {L : CLayer ℝ} {m : ℝ} (hm : L.ice + L.lwc = m) (hpos : 0 < m) (ht : 0 < L.thick) :
    Cryo.refresh (Cryo.updDens L) = some (Cryo.updDens L) := by
  have h1 : ¬ (L.ice + L.lwc) ≤ 0 := by rw [hm]; exact not_le.2 hpos
  have h2 : (L.ice + L.lwc) / L.thick ≠ 0 := by rw [hm]; exact (div_pos hpos ht).ne'
  have h3 : (L.ice + L.lwc) / ((L.ice + L.lwc) / L.thick) = L.thick := by
    rw [hm]; field_simp
  simp only [Cryo.refresh, Cryo.updDens, ht, if_true, CLayer.we, h1, if_false, h2, h3]

theorem transition_full {L : CLayer ℝ} (ht : 0 < L.thick) :
    Cryo.transition true L (emptyLayer : CLayer ℝ) = some (emptyLayer, L) := by
  simp [Cryo.transition, ht, emptyLayer]

/-- The layer update for a single layer. -/
theorem updateLayers_solo {m w th od di : ℝ} (hmw : 0 < m + w) (ht : 0 < th) {p : CPixel ℝ} (hp : Solo m w th p) :
    ∃ q, Cryo.updateLayers od di false (Cryo.updateProperties p) = some q ∧ Solo m w th q := by
  obtain ⟨n, o, f, i, a⟩ := p
  obtain ⟨rfl, rfl, L, hL, rfl, rfl, rfl⟩ := hp
  have hE : Cryo.updDens (emptyLayer : CLayer ℝ) = emptyLayer := by simp [Cryo.updDens, emptyLayer]
  have hD : ∀ x : ℝ, Cryo.densAtLeast (emptyLayer : CLayer ℝ) x = false := fun x => rfl
  have hF : ∀ A B : CLayer ℝ, Cryo.transition false A B = some (A, B) := fun A B => by simp [Cryo.transition]
  have hs := Cryo.updDens_same L
  have hth : 0 < (Cryo.updDens L).thick := by rw [hs.2.2.1]; exact ht
  rcases hL with ⟨hn, ho⟩ | ⟨hn, ho⟩
  · simp only at hn ho
    subst hn ho
    simp only [Cryo.updateProperties, Cryo.updateLayers, hE, refresh_full rfl hmw ht, refresh_empty, Option.bind_eq_bind,
      Option.bind_some, hD, hF]
    cases Cryo.densAtLeast (Cryo.updDens n) od with
    | false =>
      simp only [hF, Option.bind_some]
      exact ⟨_, rfl, rfl, rfl, _, Or.inl ⟨rfl, rfl⟩, hs.1, hs.2.1, hs.2.2.1⟩
    | true =>
      simp only [transition_full hth, hF, Option.bind_some]
      exact ⟨_, rfl, rfl, rfl, _, Or.inr ⟨rfl, rfl⟩, hs.1, hs.2.1, hs.2.2.1⟩
  · simp only at hn ho
    subst hn ho
    simp only [Cryo.updateProperties, Cryo.updateLayers, hE, refresh_full rfl hmw ht, refresh_empty, Option.bind_eq_bind,
      Option.bind_some, hD, hF]
    exact ⟨_, rfl, rfl, rfl, _, Or.inr ⟨rfl, rfl⟩, hs.1, hs.2.1, hs.2.2.1⟩

/-- Refreezing leaves the contents of dry snow. -/
theorem meltAmount_solo {c : Cryo.Cfg ℝ} {T b m th : ℝ} (hT : T < T0) (hm : 0 < m) {p : CPixel ℝ}
    (hp : Solo m 0 th p) : ∃ q, Cryo.meltAmount c (.energy T (some b)) p = (0, 0, q) ∧ Solo m 0 th q := by
  obtain ⟨n, o, f, i, a⟩ := p
  obtain ⟨rfl, rfl, L, hL, rfl, hw, rfl⟩ := hp
  have hE : ∀ x y : ℝ, Cryo.refreezeLayer x y (emptyLayer : CLayer ℝ) = (y, 0, emptyLayer) := fun x y => by
    simp [Cryo.refreezeLayer, emptyLayer]
  rcases hL with ⟨hn, ho⟩ | ⟨hn, ho⟩
  · simp only at hn ho
    subst hn ho
    have hswe : 0 < (⟨n, emptyLayer, emptyLayer, emptyLayer, a⟩ : CPixel ℝ).swe := by
      simp [CPixel.swe, CLayer.we, emptyLayer, hw, hm]
    obtain ⟨av, cc, he⟩ := refreeze_dry (cap := c.coldCapacity)
      (av := Cryo.availableCold (some b) c.dt c.refreezeFactor) n hw
    refine ⟨⟨{ n with cc := cc }, emptyLayer, emptyLayer, emptyLayer, a⟩, ?_, rfl, rfl, _, Or.inl ⟨rfl, rfl⟩, rfl, hw, rfl⟩
    simp only [Cryo.meltAmount, hswe, if_true, not_le.2 hT, if_false, Cryo.refreeze, he, hE, add_zero]
  · simp only at hn ho
    subst hn ho
    have hswe : 0 < (⟨emptyLayer, o, emptyLayer, emptyLayer, a⟩ : CPixel ℝ).swe := by
      simp [CPixel.swe, CLayer.we, emptyLayer, hw, hm]
    obtain ⟨av, cc, he⟩ := refreeze_dry (cap := c.coldCapacity)
      (av := Cryo.availableCold (some b) c.dt c.refreezeFactor) o hw
    refine ⟨⟨emptyLayer, { o with cc := cc }, emptyLayer, emptyLayer, a⟩, ?_, rfl, rfl, _, Or.inr ⟨rfl, rfl⟩, rfl, hw, rfl⟩
    simp only [Cryo.meltAmount, hswe, if_true, not_le.2 hT, if_false, Cryo.refreeze, he, hE, add_zero]

theorem sublimation_solo {dt d a m th : ℝ} {single : Bool} (hm : 0 < m) {p : CPixel ℝ} (hp : Solo m 0 th p) {moist : Option ℝ}
    (hmo : moist = none ∨ moist = some 0) : Cryo.sublimation dt d a single moist p = (0, p) := by
  have hi : 0 < p.iceSum := by
    obtain ⟨n, o, f, i, a⟩ := p
    obtain ⟨rfl, rfl, L, hL, rfl, hw, rfl⟩ := hp
    rcases hL with ⟨hn, ho⟩ | ⟨hn, ho⟩
    · simp only at hn ho
      subst hn ho
      simpa [CPixel.iceSum, emptyLayer] using hm
    · simp only at hn ho
      subst hn ho
      simpa [CPixel.iceSum, emptyLayer] using hm
  have hpot : nanToZero (moist.map fun f => -1 * f * dt) = 0 := by
    rcases hmo with rfl | rfl <;> simp [nanToZero]
  simp only [Cryo.sublimation, hpot, hi, if_true, min_eq_left hi.le, Cryo.sublLoop, sublLayer_zero, lt_irrefl, if_false]

theorem melt_zero (p : CPixel ℝ) : Cryo.melt 0 p = p := by
  simp [Cryo.melt, meltLayer_zero]

theorem runoff_solo {lm : MultiLayer.LwcMethod} {frac m th w : ℝ} (hm : 0 < m) {p : CPixel ℝ} (hp : Solo m 0 th p)
    (hw : w = min 0 (MultiLayer.maxLwc lm frac th m)) :
    ∃ q, Cryo.runoff lm frac (some 0) p = (-w, q) ∧ Solo m w th q ∧ (w = 0 → q = p) := by
  obtain ⟨n, o, f, i, a⟩ := p
  obtain ⟨rfl, rfl, L, hL, rfl, h0, rfl⟩ := hp
  have hE : ∀ x y : ℝ, Cryo.runoffLayer x y (emptyLayer : CLayer ℝ) = (x, emptyLayer) := fun x y => by
    simp [Cryo.runoffLayer, emptyLayer]
  have hf : Cryo.runoffLayer 0 (MultiLayer.maxLwc lm frac L.thick L.ice) L = (-w, { L with lwc := w }) := by
    have e1 : max (0 - MultiLayer.maxLwc lm frac L.thick L.ice) 0 = -w := by
      rw [hw, zero_sub, ← neg_zero, max_neg_neg, neg_zero, min_comm]
    simp only [Cryo.runoffLayer, h0, add_zero, hm, if_true, e1, sub_neg_eq_add, zero_add]
  rcases hL with ⟨hn, ho⟩ | ⟨hn, ho⟩
  · simp only at hn ho
    subst hn ho
    refine ⟨⟨{ n with lwc := w }, emptyLayer, emptyLayer, emptyLayer, a⟩, ?_, ⟨rfl, rfl, _, Or.inl ⟨rfl, rfl⟩, rfl, rfl, rfl⟩,
      fun e => by rw [e, ← h0]⟩
    simp only [Cryo.runoff, nanToZero, Option.getD_some, hf, hE]
  · simp only at hn ho
    subst hn ho
    refine ⟨⟨emptyLayer, { o with lwc := w }, emptyLayer, emptyLayer, a⟩, ?_, ⟨rfl, rfl, _, Or.inr ⟨rfl, rfl⟩, rfl, rfl, rfl⟩,
      fun e => by rw [e, ← h0]⟩
    simp only [Cryo.runoff, nanToZero, Option.getD_some, hf, hE]

/-- Melt amount, sublimation, runoff and layer update of dry snow in cold, calm weather: all that happens is runoff
where the capacity is negative. -/
theorem tail_solo {c : Site} {f : Forcing} (hT : f.temp < T0) (hr : f.rain = 0) (hfd : f.firnDate = false)
    {m th b : ℝ} (hm : 0 < m) (ht : 0 < th) {p : CPixel ℝ} (hp : Solo m 0 th p) {moist : Option ℝ}
    (hmo : moist = none ∨ moist = some 0) {w : ℝ} (hw : w = min 0 (MultiLayer.maxLwc c.lwcMethod c.maxFrac th m))
    (hmw : 0 < m + w) :
    ∃ q, tail c f p (.energy f.temp (some b)) moist = some (⟨0, 0, 0, -w⟩, q) ∧ Solo m w th q := by
  obtain ⟨p1, e1, h1⟩ := meltAmount_solo (c := cryoCfg c) (b := b) hT hm hp
  obtain ⟨p2, e2, h2, -⟩ := runoff_solo hm h1 hw
  obtain ⟨q, e3, h3⟩ := updateLayers_solo (od := c.oldDensity) (di := c.iceDens) hmw ht h2
  refine ⟨q, ?_, h3⟩
  simp only [tail, e1, melt_zero, sublimation_solo hm h1 hmo, hr, e2, hfd, e3]

/-- The same configuration with retention by mass fraction. -/
def byMass (c : Site) : Site := { c with lwcMethod := .massFraction }

theorem byMass_ok {c : Site} (h : SiteOK c) : SiteOK (byMass c) :=
  ⟨h.dt, h.albedo, h.albedo_le, h.iceDens, h.frac, fun e => by simp [byMass] at e, h.cold, h.snowRough, h.soilRough,
    h.windHeight, h.tempHeight, h.stab⟩

theorem byMass_weather {c : Site} {f : Forcing} (h : Weather c f) : Weather (byMass c) f :=
  ⟨h.snow, h.rain, h.wind, h.swIn, h.lwIn, h.temp, h.wetBulb, fun e => by simp [byMass] at e, h.press, h.specHum⟩

/-- Where the capacity is not negative the retention method does not matter for dry snow. -/
theorem tail_byMass {c : Site} (h : SiteOK c) {f : Forcing} (hT : f.temp < T0) (hr : f.rain = 0) {m th b : ℝ} (hm : 0 < m)
    {p : CPixel ℝ} (hp : Solo m 0 th p) {moist : Option ℝ} (hmo : moist = none ∨ moist = some 0)
    (hw : 0 ≤ MultiLayer.maxLwc c.lwcMethod c.maxFrac th m) :
    tail c f p (.energy f.temp (some b)) moist = tail (byMass c) f p (.energy f.temp (some b)) moist := by
  obtain ⟨p1, e1, h1⟩ := meltAmount_solo (c := cryoCfg c) (b := b) hT hm hp
  have e1' : Cryo.meltAmount (cryoCfg (byMass c)) (.energy f.temp (some b)) p = (0, 0, p1) := e1
  obtain ⟨p2, e2, -, h2⟩ := runoff_solo (w := 0) hm h1 (min_eq_left hw).symm
  obtain ⟨p3, e3, -, h3⟩ := runoff_solo (lm := .massFraction) (frac := c.maxFrac) (w := 0) hm h1
    (min_eq_left (mul_nonneg h.frac hm.le)).symm
  rw [h2 rfl] at e2
  rw [h3 rfl] at e3
  have e4 : Cryo.runoff (byMass c).lwcMethod (byMass c).maxFrac (some 0) p1 = (-0, p1) := e3
  simp only [tail, e1, e1', melt_zero, sublimation_solo hm h1 hmo, hr, e2, e4]
  rfl

end Verif.CoupledCryo
