import Verif.Props.HeatComparison

/-!
# C158: freezing reverses the order
-/

namespace Verif.HeatComparison

open Verif.Soil
open Verif.Atmosphere (T0)

/-! ## Helper lemmas -/

/-- At the threshold of half the water content half of the water is frozen. -/
theorem half_frozen {p : Params} (h : Soil.Physical p) {θ : ℝ} (hθ : 0 < θ) :
    tempMax p (θ / 2) < tempMax p θ ∧ unfrozen p θ (tempMax p (θ / 2)) = θ / 2 ∧
    dUnfrozen p θ (tempMax p (θ / 2)) = θ / 2 / (p.b * (T0 - tempMax p (θ / 2))) := by
  have hs := h.sat
  have hb := h.b
  have hp := h.psi
  have hk := kappa_pos
  have hlt := (C81_threshold p h θ 0 hθ).2.2 (θ / 2) (by linarith) (by linarith)
  have hS : suction p (tempMax p (θ / 2)) = (p.sat / (θ / 2)) ^ p.b := by
    unfold suction tempMax
    field_simp
    ring
  have hSp : 0 < (p.sat / (θ / 2)) ^ p.b := Real.rpow_pos_of_pos (by positivity) _
  have hpow := pow_inv_sat h (θ := θ / 2) (by linarith)
  have hle : (p.sat / θ) ^ p.b ≤ suction p (tempMax p (θ / 2)) := ((lt_tempMax h θ _).1 hlt).le
  refine ⟨hlt, ?_, ?_⟩
  · rw [unfrozen_eq h hθ, max_eq_left hle, hS, hpow]
  · unfold dUnfrozen
    rw [if_pos hlt, suction_eq, hS, Real.rpow_sub_one hSp.ne']
    have e : T0 - tempMax p (θ / 2) = p.psi / kappa * (p.sat / (θ / 2)) ^ p.b := by
      unfold tempMax; ring
    rw [e]
    generalize (p.sat / (θ / 2)) ^ p.b = S at hSp hpow
    have : S ^ (-1 / p.b) = θ / 2 / p.sat := by rw [← hpow]; field_simp
    rw [this]
    field_simp

/-- A freezing soil has a larger heat capacity than the unfrozen one. -/
theorem capacity_jump {p : Params} (h : Soil.Physical p) {θ : ℝ} (hθ : 0 < θ) (hb : p.b ≤ 19)
    (hc : T0 - 10 ≤ tempMax p (θ / 2)) :
    0 < volHeatCap p θ (tempMax p θ) ∧
    volHeatCap p θ (tempMax p θ) < volHeatCap p θ (tempMax p (θ / 2)) := by
  have hd := h.capDry
  have hb0 := h.b
  obtain ⟨-, e1, e2⟩ := half_frozen h hθ
  have hT := (C81_threshold p h (θ / 2) 0 (by linarith)).2.1
  rw [volHeatCap_form p θ _ hθ, volHeatCap_form p θ _ hθ, e1, e2]
  have u : unfrozen p θ (tempMax p θ) = θ := by simp [unfrozen]
  have d : dUnfrozen p θ (tempMax p θ) = 0 := by simp [dUnfrozen]
  rw [u, d]
  generalize tempMax p (θ / 2) = t at hc hT
  have hT0 : (T0 : ℝ) = 27315 / 100 := rfl
  rw [hT0] at hc hT ⊢
  refine ⟨by nlinarith, ?_⟩
  have q : 0 < p.b * (27315 / 100 - t) := mul_pos hb0 (by linarith)
  have q2 : p.b * (27315 / 100 - t) ≤ 190 := by nlinarith
  have key : 2080 * (θ / 2) < ((4180 - 2100) * t + 334000) * (θ / 2 / (p.b * (27315 / 100 - t))) := by
    rw [← mul_div_assoc _ (θ / 2) (p.b * (27315 / 100 - t)), lt_div_iff₀ q]
    nlinarith
  nlinarith

/-- Smaller heat capacity, larger response: the order can be reversed. -/
theorem reversal (A A' B B' T T' : ℝ) (h0 : 0 < A') (h1 : A' < A) (hT : T < T') :
    ∃ dt F, 0 < dt ∧ F < 0 ∧ T' + F * dt / (A' + B' * dt) < T + F * dt / (A + B * dt) := by
  have hm : 0 < min (A - A') A' := lt_min (by linarith) h0
  have hn : 0 < 2 * (|B| + |B'| + 1) := by positivity
  obtain ⟨dt, hdt⟩ : ∃ dt, dt = min (A - A') A' / (2 * (|B| + |B'| + 1)) := ⟨_, rfl⟩
  have dpos : 0 < dt := hdt ▸ div_pos hm hn
  have e : dt * (2 * (|B| + |B'| + 1)) = min (A - A') A' := by rw [hdt]; field_simp
  have m1 := min_le_left (A - A') A'
  have m2 := min_le_right (A - A') A'
  have b1 : -(|B| * dt) ≤ B * dt := by nlinarith [neg_abs_le B]
  have b2 : -(|B'| * dt) ≤ B' * dt := by nlinarith [neg_abs_le B']
  have b3 : B' * dt ≤ |B'| * dt := by nlinarith [le_abs_self B']
  have a1 : 0 ≤ |B| * dt := by positivity
  have a2 : 0 ≤ |B'| * dt := by positivity
  have P' : 0 < A' + B' * dt := by nlinarith
  have PP : A' + B' * dt < A + B * dt := by nlinarith
  have g : 0 < dt / (A' + B' * dt) - dt / (A + B * dt) :=
    sub_pos.2 (div_lt_div_of_pos_left dpos P' PP)
  refine ⟨dt, -((T' - T + 1) / (dt / (A' + B' * dt) - dt / (A + B * dt))), dpos,
    neg_neg_of_pos (div_pos (by linarith) g), ?_⟩
  have e2 : -((T' - T + 1) / (dt / (A' + B' * dt) - dt / (A + B * dt))) *
      (dt / (A' + B' * dt) - dt / (A + B * dt)) = -(T' - T + 1) := by
    rw [neg_mul, div_mul_cancel₀ _ g.ne']
  rw [mul_div_assoc, mul_div_assoc]
  linarith

/-- Soil temperature of a single layer. -/
theorem single_layer (d T lam hc dt F : ℝ) :
    soilTemperature 1 (fun _ (_ : Unit) => d) (fun _ _ => T) (fun _ _ => lam) (fun _ _ => hc) dt
      (fun _ => F) 0 () = T + F * dt / (hc + 2 / (d / lam + d / lam) * dt) := by
  simp [soilTemperature, Heat.tempChangeArr, Heat.betweenArr]

/-! ## Theorem -/

/-- **C158.** With the properties the model itself computes from temperature and moisture the order is
not kept when soil freezes: in every soil of which half of the water freezes above -10 °C there are
two states, the colder one partly frozen, and a time step in which the warmer one cools below the
colder one, because only the heat capacity of the colder one contains the latent heat. -/
theorem C158_freezing_false (p : Params) (h : Soil.Physical p) (θ : ℝ) (hθ : 0 < θ) (hb : p.b ≤ 19)
    (hc : T0 - 10 ≤ tempMax p (θ / 2)) (d : ℝ) (hd : 0 < d) :
    ∃ T T' dt F, T < T' ∧ T' < T0 ∧ 0 < dt ∧ F < 0 ∧
      soilTemperature 1 (fun _ (_ : Unit) => d) (fun _ _ => T') (fun _ _ => cond p θ T')
        (fun _ _ => heatCap p θ T' d) dt (fun _ => F) 0 () <
      soilTemperature 1 (fun _ (_ : Unit) => d) (fun _ _ => T) (fun _ _ => cond p θ T)
        (fun _ _ => heatCap p θ T d) dt (fun _ => F) 0 () := by
  obtain ⟨c1, c2⟩ := capacity_jump h hθ hb hc
  obtain ⟨lt, -, -⟩ := half_frozen h hθ
  obtain ⟨dt, F, h1, h2, h3⟩ := reversal (heatCap p θ (tempMax p (θ / 2)) d) (heatCap p θ (tempMax p θ) d)
    (2 / (d / cond p θ (tempMax p (θ / 2)) + d / cond p θ (tempMax p (θ / 2))))
    (2 / (d / cond p θ (tempMax p θ) + d / cond p θ (tempMax p θ))) _ _
    (mul_pos c1 hd) (mul_lt_mul_of_pos_right c2 hd) lt
  refine ⟨_, _, dt, F, lt, (C81_threshold p h θ 0 hθ).2.1, h1, h2, ?_⟩
  rw [single_layer, single_layer]
  exact h3

/-- A saturated sandy soil meets the assumptions. -/
example : Soil.Physical (init 1 0) ∧ 0 < (init 1 0).sat ∧ (init 1 0).b ≤ 19 ∧
    T0 - 10 ≤ tempMax (init 1 0) ((init 1 0).sat / 2) := by
  have h := (C81_init 1 0 (by norm_num) le_rfl (by norm_num) (by norm_num)).1
  refine ⟨h, h.sat, by norm_num [init], ?_⟩
  have hs := h.sat
  have e : (init 1 0).sat / ((init 1 0).sat / 2) = 2 := by field_simp
  have hpsi : (init 1 0).psi ≤ 1 := by
    have : (init 1 0).psi = (10 : ℝ) ^ ((17 : ℝ) / 100 - 63 / 100 * 0 - 158 / 100 * 1) := rfl
    rw [this]
    exact Real.rpow_le_one_of_one_le_of_nonpos (by norm_num) (by norm_num)
  have hpow : (2 : ℝ) ^ (init 1 0).b ≤ 8 := by
    have : (init 1 0).b ≤ ((3 : ℕ) : ℝ) := by norm_num [init]
    calc (2 : ℝ) ^ (init 1 0).b ≤ 2 ^ ((3 : ℕ) : ℝ) := Real.rpow_le_rpow_of_exponent_le (by norm_num) this
      _ = 8 := by rw [Real.rpow_natCast]; norm_num
  have hk : 1 ≤ kappa := by
    norm_num [kappa, rhoIce, rhoWater, Surface.lf, T0, Atmosphere.grav]
  unfold tempMax
  rw [e]
  have : (init 1 0).psi / kappa ≤ 1 := (div_le_one (by linarith)).2 (by linarith)
  have q : 0 ≤ (2 : ℝ) ^ (init 1 0).b := by positivity
  nlinarith

end Verif.HeatComparison
