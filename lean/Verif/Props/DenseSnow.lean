import Verif.Lemmas.DenseSnow
import Verif.Props.CoupledCryo

/-!
# C125: density of settling snow
-/

namespace Verif.Snow

/-! ## Specification -/

/-- Repeated compaction of the layers of a pixel, which are not changed otherwise. -/
noncomputable def settle (dt : ℝ) : List ℝ → List DLayer → Option (List DLayer)
  | [], Ls => some Ls
  | T :: Ts, Ls => (anderson dt (some T) Ls).bind (settle dt Ts)

/-! ## C125 -/

/-- **C125 is false of the code.** Whatever the density `b`: after sufficiently many time steps with air temperatures from
any lower bound on, every layer of every snowpack is denser than `b`. -/
theorem C125_density_false (dt : ℝ) (hdt : 0 < dt) (T b : ℝ) (Ls : List DLayer)
    (h : ∀ L ∈ Ls, 0 < L.thick ∧ 0 < L.ice + L.lwc) :
    ∃ N, ∀ Ts : List ℝ, N ≤ Ts.length → (∀ t ∈ Ts, T ≤ t) →
      ∃ Ms, settle dt Ts Ls = some Ms ∧
        List.Forall₂ (fun L M => M.ice = L.ice ∧ M.lwc = L.lwc ∧ 0 < M.thick ∧ b < (M.ice + M.lwc) / M.thick) Ls Ms := by
  obtain ⟨a, ha, hLs⟩ : ∃ a, 0 < a ∧ ∀ L ∈ Ls, a ≤ (L.ice + L.lwc) / L.thick := by
    clear hdt
    induction Ls with
    | nil => exact ⟨1, one_pos, by simp⟩
    | cons L Ls ih =>
      obtain ⟨a, ha, hall⟩ := ih fun L' hL' => h L' (by simp [hL'])
      have hL := h L (by simp)
      refine ⟨min a ((L.ice + L.lwc) / L.thick), lt_min ha (div_pos hL.2 hL.1), ?_⟩
      intro L' hL'
      rcases List.mem_cons.1 hL' with rfl | hmem
      · exact min_le_right _ _
      · exact (min_le_left _ _).trans (hall L' hmem)
  have hδ := increase_pos (T := T) (b := b) hdt ha
  obtain ⟨δ, hδe⟩ : ∃ δ, increase dt T a b = δ := ⟨_, rfl⟩
  rw [hδe] at hδ
  -- after the time steps `Ts`, every layer is denser than `b` or has gained at least `δ` in every step
  have key : ∀ (Ts : List ℝ) (Ls : List DLayer), (∀ t ∈ Ts, T ≤ t) →
      (∀ L ∈ Ls, 0 < L.thick ∧ 0 < L.ice + L.lwc ∧ a ≤ (L.ice + L.lwc) / L.thick) →
      ∃ Ms, settle dt Ts Ls = some Ms ∧ List.Forall₂ (fun L M => M.ice = L.ice ∧ M.lwc = L.lwc ∧ 0 < M.thick ∧
        (L.ice + L.lwc) / L.thick ≤ (M.ice + M.lwc) / M.thick ∧
        (b < (M.ice + M.lwc) / M.thick ∨ (L.ice + L.lwc) / L.thick + Ts.length * δ ≤ (M.ice + M.lwc) / M.thick)) Ls Ms := by
    intro Ts
    induction Ts with
    | nil =>
      intro Ls _ hL
      refine ⟨Ls, rfl, List.forall₂_same.2 fun L hmem => ⟨rfl, rfl, (hL L hmem).1, le_rfl, Or.inr (by simp)⟩⟩
    | cons t Ts ih =>
      intro Ls hTs hL
      obtain ⟨Ms, e, hMs⟩ := andersonLoop_settles (b := b) hdt (hTs t (by simp)) ha Ls hL le_rfl
      rw [hδe] at hMs
      have hM : ∀ M ∈ Ms, 0 < M.thick ∧ 0 < M.ice + M.lwc ∧ a ≤ (M.ice + M.lwc) / M.thick := by
        clear e ih
        induction hMs with
        | nil => simp
        | cons h1 h2 ih2 =>
          rename_i L M Ls' Ms'
          intro M' hM'
          rcases List.mem_cons.1 hM' with rfl | hmem
          · obtain ⟨-, q2, q3⟩ := hL L (by simp)
            exact ⟨h1.thick, by rw [h1.ice, h1.lwc]; exact q2, q3.trans h1.mono⟩
          · exact ih2 (fun L'' h'' => hL L'' (by simp [h''])) M' hmem
      obtain ⟨Ns, e', hNs⟩ := ih Ms (fun t' ht' => hTs t' (by simp [ht'])) hM
      refine ⟨Ns, by simp only [settle, anderson, e, Option.bind_some, e'], ?_⟩
      clear e e' ih hL hM
      induction hMs generalizing Ns with
      | nil => cases hNs; exact .nil
      | cons h1 h2 ih2 =>
        cases hNs with
        | cons k1 k2 =>
          refine .cons ⟨k1.1.trans h1.ice, k1.2.1.trans h1.lwc, k1.2.2.1, h1.mono.trans k1.2.2.2.1, ?_⟩ (ih2 _ k2)
          rename_i L M Ls' Ms' N Ns'
          rcases lt_or_ge b ((L.ice + L.lwc) / L.thick) with hb | hb
          · exact Or.inl (hb.trans_le (h1.mono.trans k1.2.2.2.1))
          · rcases k1.2.2.2.2 with hk | hk
            · exact Or.inl hk
            · right
              have := h1.incr hb
              push_cast [List.length_cons]
              linarith
  obtain ⟨N, hN⟩ := exists_nat_gt (b / δ)
  refine ⟨N, fun Ts hlen hTs => ?_⟩
  obtain ⟨Ms, e, hMs⟩ := key Ts Ls hTs fun L hL => ⟨(h L hL).1, (h L hL).2, hLs L hL⟩
  refine ⟨Ms, e, ?_⟩
  clear e
  induction hMs with
  | nil => exact .nil
  | cons h1 h2 ih =>
    refine .cons ⟨h1.1, h1.2.1, h1.2.2.1, ?_⟩ (ih (fun L hL => h L (by simp [hL])) (fun L hL => hLs L (by simp [hL])))
    rename_i L M Ls' Ms'
    rcases h1.2.2.2.2 with hk | hk
    · exact hk
    · have h3 : b < N * δ := by rwa [div_lt_iff₀ hδ] at hN
      have h4 : (N : ℝ) * δ ≤ Ts.length * δ := mul_le_mul_of_nonneg_right (by exact_mod_cast hlen) hδ.le
      have h5 := ha.trans_le (hLs L (by simp))
      linarith

/-- Two layers of a winter snowpack. -/
example : ∀ L ∈ ([⟨0.3, 60, 0, T0 - 5, none⟩, ⟨0.5, 150, 5, T0, none⟩] : List DLayer), 0 < L.thick ∧ 0 < L.ice + L.lwc := by
  intro L hL
  simp only [List.mem_cons, List.not_mem_nil, or_false] at hL
  rcases hL with rfl | rfl <;> norm_num

end Verif.Snow

namespace Verif.CoupledCryo

open Verif.Cryo (CPixel CLayer)

/-- A cold, calm and dry day. -/
noncomputable def calmDay (c : Site) : Forcing where
  temp := T0 - 5
  wetBulb := T0 - 6
  specHum := 0
  press := 80000
  swIn := 0
  lwIn := c.heatFlux + 250
  wind := 0
  rain := 0
  snow := 0
  firnDate := false

/-- The same with snowfall of 100 kg m-2. -/
noncomputable def snowyDay (c : Site) : Forcing := { calmDay c with snow := 100 }

theorem calmDay_weather (c : Site) : Weather c (calmDay c) :=
  ⟨le_rfl, le_rfl, le_rfl, le_rfl, by simp only [calmDay]; linarith, by simp only [calmDay]; linarith,
    by norm_num [calmDay, T0], fun _ => by norm_num [calmDay, T0], by norm_num [calmDay], le_rfl⟩

theorem snowyDay_weather (c : Site) : Weather c (snowyDay c) :=
  ⟨by norm_num [snowyDay], le_rfl, le_rfl, le_rfl, (calmDay_weather c).lwIn, (calmDay_weather c).temp,
    (calmDay_weather c).wetBulb, (calmDay_weather c).wetBulb_le, (calmDay_weather c).press, le_rfl⟩

theorem cold_shade {c : Site} {f : Forcing} (h : f = calmDay c ∨ f = snowyDay c) : Shade c f := by
  have e1 : f.temp = T0 - 5 := by rcases h with rfl | rfl <;> rfl
  have e2 : f.wetBulb = T0 - 6 := by rcases h with rfl | rfl <;> rfl
  have e3 : f.specHum = 0 := by rcases h with rfl | rfl <;> rfl
  have e4 : f.press = 80000 := by rcases h with rfl | rfl <;> rfl
  have e5 : f.swIn = 0 := by rcases h with rfl | rfl <;> rfl
  have e6 : f.lwIn = c.heatFlux + 250 := by rcases h with rfl | rfl <;> rfl
  refine ⟨fun _ q hq => ?_, fun _ => ?_⟩
  have hp : 30000 ≤ f.press := by rw [e4]; norm_num
  have h1 : 1 ≤ f.temp := by rw [e1]; norm_num [T0]
  have h2 : f.temp < Atmosphere.T0 := by rw [e1, ← T0_eq]; linarith
  rw [SurfaceTemp.satHumidity_ice hp h1 h2] at hq
  rw [e3, ← Option.some.inj hq]
  exact (SatHumidity.Q_nonneg (SurfaceTemp.range_cold hp) ⟨h1, h2.le⟩).le
  rw [e2, e5, e6, max_eq_left (by linarith)]
  simp only [mul_zero, zero_mul, zero_div]
  linarith

/-- Without wind there is no moisture flux. -/
theorem moisture_calm {x : Prep} (h : x.surf.wind = 0) (t : ℝ) : moisture x t = none ∨ moisture x t = some 0 := by
  have : x.surf.transfer = 0 := by simp [Surface.Pixel.transfer, h]
  unfold moisture
  simp only [this, zero_mul]
  split_ifs
  · exact Or.inr rfl
  · exact Or.inl rfl

/-- Pore volume of a layer of mass `m` settled to the density `d`. -/
theorem capacity {frac m d : ℝ} (hm : 0 < m) (hd : 0 < d) (hf : 0 < frac) (hf1 : 1000 * frac ≤ 917) :
    0 < m + min 0 (MultiLayer.maxLwc .poreVolume frac (m / d) m) ∧
    (d ≤ 917 → 0 ≤ MultiLayer.maxLwc .poreVolume frac (m / d) m) ∧
    (917 < d → MultiLayer.maxLwc .poreVolume frac (m / d) m < 0) := by
  have ht : 0 < m / d := div_pos hm hd
  have e : MultiLayer.maxLwc .poreVolume frac (m / d) m = 1000 * frac * m * (1 / d - 1 / 917) := by
    simp only [MultiLayer.maxLwc, ht, if_true, waterDensity, iceDensity]
    field_simp
  have hd1 : 0 < 1 / d := by positivity
  rw [e]
  refine ⟨?_, fun h => ?_, fun h => ?_⟩
  · rcases le_total 0 (1000 * frac * m * (1 / d - 1 / 917)) with h0 | h0
    · rw [min_eq_left h0]; linarith
    · rw [min_eq_right h0]
      have h1 : 0 < 1000 * frac * m * (1 / d) := by positivity
      have h2 : 1000 * frac * m ≤ 917 * m := mul_le_mul_of_nonneg_right hf1 hm.le
      nlinarith
  · refine mul_nonneg (by positivity) ?_
    have := one_div_le_one_div_of_le hd h
    linarith
  · refine mul_neg_of_pos_of_neg (by positivity) ?_
    have := one_div_lt_one_div_of_lt (by norm_num) h
    linarith

/-- One cold and calm day for a domain of one pixel. -/
theorem step_solo {c : Site} (h : SiteOK c) (hm : c.lwcMethod = .poreVolume) (hfr : 0 < c.maxFrac) {f : Forcing}
    (hf : f = calmDay c ∨ f = snowyDay c) {st : States} {s : State} (hs : st 0 = some s)
    (hinv : Inv (byMass c) s.snow) {m d : ℝ} (hmp : 0 < m) (hd : 0 < d)
    (hp : ∃ p, prepare c f s = some p ∧ Solo m 0 (m / d) p) :
    ∃ xs q s', step c [0] (fun _ => f) st = some (xs, q) ∧ q 0 = some s' ∧
      (d ≤ 917 → Inv (byMass c) s'.snow ∧ Solo m 0 (m / d) s'.snow) ∧
      (917 < d → ∃ w, w < 0 ∧ Solo m w (m / d) s'.snow ∧ xs 0 = some ⟨0, 0, 0, -w⟩) := by
  have h' := byMass_ok h
  have hw : Weather c f := by
    rcases hf with rfl | rfl
    · exact calmDay_weather c
    · exact snowyDay_weather c
  have hw' := byMass_weather hw
  have hsh : Shade (byMass c) f := cold_shade (c := byMass c) (by exact hf)
  have hl : Light (byMass c) f s.snow := fun e => by simp [byMass] at e
  have eT : f.temp = T0 - 5 := by rcases hf with rfl | rfl <;> rfl
  have eR : f.rain = 0 := by rcases hf with rfl | rfl <;> rfl
  have eW : f.wind = 0 := by rcases hf with rfl | rfl <;> rfl
  have eF : f.firnDate = false := by rcases hf with rfl | rfl <;> rfl
  have hT : f.temp < T0 := by rw [eT]; linarith
  obtain ⟨xs', q', e', k'⟩ := C124_step (byMass c) h' [0] (List.nodup_singleton 0) (fun _ => f) (fun _ _ => hw') st
    fun i hi => by
      obtain rfl : i = 0 := by simpa using hi
      exact ⟨s, hs, hinv, hl, mild h' hw' hsh hinv hl⟩
  obtain ⟨x', s', -, hq', hinv', -⟩ := k' 0 (by simp) s hs
  obtain ⟨x, hx, -⟩ := finish_spec h' hw' hinv hl
  have hxc : prep c f s = some x := hx
  have hxs : Solo m 0 (m / d) x.snow ∧ x.surf.wind = 0 := by
    obtain ⟨p, e, hsolo⟩ := hp
    unfold prep at hxc
    rw [e] at hxc
    simp only at hxc
    split at hxc
    · simp at hxc
    · rw [← Option.some.inj hxc]
      exact ⟨hsolo, eW⟩
  have hpi : preps c (fun _ => f) st 0 = some x := by rw [preps, hs]; exact hxc
  have hpi' : preps (byMass c) (fun _ => f) st 0 = some x := hpi
  unfold step at e'
  have hb : balances (byMass c) (fun _ => f) st = balances c (fun _ => f) st := rfl
  have hfo : frosties (byMass c) [0] (fun _ => f) st = frosties c [0] (fun _ => f) st := rfl
  have hse : (byMass c).search = c.search := rfl
  rw [hb, hfo, hse] at e'
  cases hr : search c.search (balances c (fun _ => f) st) (frosties c [0] (fun _ => f) st) (fun _ => f.temp) with
  | none => rw [hr] at e'; simp at e'
  | some r =>
    obtain ⟨t, te⟩ := r
    rw [hr] at e'
    simp only [Option.some.injEq, Prod.mk.injEq] at e'
    obtain ⟨-, rfl⟩ := e'
    simp only [hpi', Option.bind_some] at hq'
    obtain ⟨c1, c2, c3⟩ := capacity hmp hd hfr (h.frac_le hm)
    obtain ⟨w, hwe⟩ : ∃ w, w = min 0 (MultiLayer.maxLwc c.lwcMethod c.maxFrac (m / d) m) := ⟨_, rfl⟩
    have hwpos : 0 < m + w := by rw [hwe, hm]; exact c1
    obtain ⟨q, et, hsolo⟩ := tail_solo (c := c) (b := x.balance c T0) hT eR eF hmp (div_pos hmp hd) hxs.1
      (moisture_calm hxs.2 (te 0)) hwe hwpos
    refine ⟨_, _, ⟨q, surfaceTemp x (t 0)⟩, by simp only [step, hr]; rfl, ?_, fun hle => ?_, fun hlt => ?_⟩
    · simp [hpi, finish, massStep_tail, et]
    · have hcap := c2 hle
      rw [← hm] at hcap
      have hw0 : w = 0 := by rw [hwe]; exact min_eq_left hcap
      rw [hw0] at hsolo
      refine ⟨?_, hsolo⟩
      have etm := tail_byMass h (b := x.balance c T0) hT eR hmp hxs.1 (moisture_calm hxs.2 (te 0)) hcap
      rw [et] at etm
      have hbal : x.balance (byMass c) T0 = x.balance c T0 := rfl
      simp only [finish, massStep_tail, hbal, ← etm, Option.map_some, Option.some.injEq] at hq'
      rw [← hq'] at hinv'
      exact hinv'
    · have hcap := c3 hlt
      rw [← hm] at hcap
      refine ⟨w, by rw [hwe]; exact lt_of_le_of_lt (min_le_right _ _) hcap, hsolo, ?_⟩
      simp [hpi, finish, massStep_tail, et]

/-- Calm days until the layer is denser than ice. -/
theorem run_solo {c : Site} (h : SiteOK c) (hm : c.lwcMethod = .poreVolume) (hfr : 0 < c.maxFrac) {m a : ℝ} (hmp : 0 < m)
    (ha : 0 < a) (n : ℕ) (st : States) (s : State) (hs : st 0 = some s) (hinv : Inv (byMass c) s.snow) (d : ℝ)
    (hd : a ≤ d) (hd1 : d ≤ 917) (hsolo : Solo m 0 (m / d) s.snow)
    (hn : 917 < d + n * Snow.increase c.dt (T0 - 5) a 917) :
    ∃ k xs q s', run c [0] (List.replicate k fun _ => calmDay c) st = some (xs, q) ∧ q 0 = some s' ∧
      ∃ w ρ, w < 0 ∧ 917 < ρ ∧ Solo m w (m / ρ) s'.snow ∧ ∃ x ∈ xs, x 0 = some ⟨0, 0, 0, -w⟩ := by
  induction n generalizing st s d with
  | zero =>
    simp only [Nat.cast_zero, zero_mul, add_zero] at hn
    exact absurd hd1 (not_le.2 hn)
  | succ n ih =>
    have hd0 : 0 < d := ha.trans_le hd
    obtain ⟨p, hp, hps⟩ := prepare_solo (f := calmDay c) h.dt rfl hmp (div_pos hmp hd0) hsolo
    have hdd : m / (m / d) = d := by field_simp
    rw [hdd] at hps
    have hge := Snow.settled_ge (T := T0 - 5) (T' := (calmDay c).temp) (l := m / 2) 0 h.dt le_rfl (by positivity) ha hd hd1
    have hinc := Snow.increase_pos (T := (T0 : ℝ) - 5) (b := 917) h.dt ha
    obtain ⟨d', hde⟩ : ∃ d', Snow.settled c.dt (calmDay c).temp (m / 2) d 0 = d' := ⟨_, rfl⟩
    rw [hde] at hge hps
    have hd' : 0 < d' := by linarith
    obtain ⟨xs, q, s', e, hq, k1, k2⟩ := step_solo h hm hfr (Or.inl rfl) hs hinv hmp hd' ⟨p, hp, hps⟩
    rcases le_or_gt d' 917 with hle | hlt
    · obtain ⟨i1, i2⟩ := k1 hle
      push_cast at hn
      obtain ⟨k, ys, q2, s2, r1, r2, w, ρ, z1, z2, z3, x, hx, z4⟩ := ih q s' hq i1 d' (by linarith) hle i2 (by linarith)
      refine ⟨k + 1, xs :: ys, q2, s2, ?_, r2, w, ρ, z1, z2, z3, x, by simp [hx], z4⟩
      rw [List.replicate_succ]
      simp only [run, e, r1]
    · obtain ⟨w, hw, hso, hx⟩ := k2 hlt
      exact ⟨1, [xs], q, s', by simp [run, e], hq, w, d', hw, hlt, hso, xs, by simp, hx⟩

/-- **C125 is false of the code (coupled run).** For every configuration that retains liquid water in the pore volume: after one
snowfall and sufficiently many cold, calm and dry days the snow is denser than ice and its liquid water content is negative; the
model has produced runoff without rain or melt. -/
theorem C125_water_false (c : Site) (h : SiteOK c) (hm : c.lwcMethod = .poreVolume) (hfr : 0 < c.maxFrac) :
    ∃ k xs q s, run c [0] ((fun _ => snowyDay c) :: List.replicate k fun _ => calmDay c) (start c [0]) = some (xs, q) ∧
      q 0 = some s ∧ (s.snow.new.lwc < 0 ∨ s.snow.old.lwc < 0) ∧ 917 * s.snow.depth < s.snow.iceSum ∧
      ∃ x ∈ xs, ∃ fl, x 0 = some fl ∧ fl.melt = 0 ∧ 0 < fl.runoff := by
  have hρ := Coupled.freshDensity_pos (some (snowyDay c).wetBulb)
  have hρ1 := Coupled.freshDensity_le ((snowyDay_weather c).wetBulb_le hm)
  obtain ⟨a, hae⟩ : ∃ a, fresh (snowyDay c) = a := ⟨_, rfl⟩
  have ha : 0 < a := by rw [← hae]; exact hρ
  have ha1 : a ≤ 917 := by rw [← hae]; exact hρ1
  have hp := prepare_first (c := c) (f := snowyDay c) (m := 100) (by norm_num) rfl
  rw [hae] at hp
  obtain ⟨xs, q, s', e, hq, k1, -⟩ := step_solo h hm hfr (Or.inr rfl) (st := start c [0]) (s := initial c) (by simp [start])
    (initial_inv (byMass c)) (m := 100) (by norm_num) ha hp
  obtain ⟨i1, i2⟩ := k1 ha1
  have hinc := Snow.increase_pos (T := (T0 : ℝ) - 5) (b := 917) h.dt ha
  obtain ⟨n, hn⟩ := exists_nat_gt (917 / Snow.increase c.dt (T0 - 5) a 917)
  rw [div_lt_iff₀ hinc] at hn
  obtain ⟨k, ys, q2, s2, r1, r2, w, ρ, z1, z2, z3, x, hx, z4⟩ := run_solo h hm hfr (by norm_num) ha n q s' hq i1 a le_rfl ha1 i2
    (by linarith)
  refine ⟨k, xs :: ys, q2, s2, by simp only [run, e, r1], r2, ?_, ?_, x, by simp [hx], _, z4, rfl, by simp only; linarith⟩
  · obtain ⟨L, hL | hL, -, hlw, -⟩ := z3.one
    · left; rw [hL.1, hlw]; exact z1
    · right; rw [hL.2, hlw]; exact z1
  · have : 917 * (100 / ρ) < 100 := by
      rw [mul_div_assoc', div_lt_iff₀ (by linarith)]; linarith
    obtain ⟨L, hL | hL, hi, -, hth⟩ := z3.one
    · simp only [CPixel.depth, CPixel.iceSum, hL.1, hL.2, z3.firn, z3.ice, Cryo.emptyLayer, hi, hth]; linarith
    · simp only [CPixel.depth, CPixel.iceSum, hL.1, hL.2, z3.firn, z3.ice, Cryo.emptyLayer, hi, hth]; linarith

/-- The two kinds of day are in the physical ranges, without rain and below the freezing point. -/
example (c : Site) : Weather c (snowyDay c) ∧ Weather c (calmDay c) ∧ (snowyDay c).rain = 0 ∧ (calmDay c).rain = 0 ∧
    (snowyDay c).temp < T0 ∧ (calmDay c).temp < T0 :=
  ⟨snowyDay_weather c, calmDay_weather c, rfl, rfl, by simp only [snowyDay, calmDay]; linarith,
    by simp only [calmDay]; linarith⟩

/-- The condition on compaction in `C124_run` is not a consequence of the weather: with retention in the pore volume the
series above does not satisfy it. -/
theorem C125_fair_false (c : Site) (h : SiteOK c) (hm : c.lwcMethod = .poreVolume) (hfr : 0 < c.maxFrac) :
    ∃ k, ¬ FairRun c [0] ((fun _ => snowyDay c) :: List.replicate k fun _ => calmDay c) (start c [0]) := by
  obtain ⟨k, xs, q, s, e, hq, hl, -⟩ := C125_water_false c h hm hfr
  refine ⟨k, fun hfair => ?_⟩
  obtain ⟨ys, q', e', k'⟩ := C124_run c h [0] (List.nodup_singleton 0) _ (fun f hf i _ => by
    rcases List.mem_cons.1 hf with rfl | hf
    · exact snowyDay_weather c
    · rw [List.eq_of_mem_replicate hf]; exact calmDay_weather c) hfair
  obtain ⟨rfl, rfl⟩ : xs = ys ∧ q = q' := by
    have := Option.some.inj (e.symm.trans e')
    exact ⟨congrArg Prod.fst this, congrArg Prod.snd this⟩
  obtain ⟨s', z, hs', -, -, -, hlay, -⟩ := k' 0 (by simp)
  obtain rfl : s = s' := Option.some.inj (hq.symm.trans hs')
  have key : ∀ L ∈ layers s.snow, 0 ≤ L.lwc := fun L hL => by
    rcases hlay L hL with h1 | h1
    · exact h1.2.2.1.ge
    · exact h1.2.2.1
  rcases hl with hl | hl
  · exact absurd (key _ (by simp [layers])) (not_le.2 hl)
  · exact absurd (key _ (by simp [layers])) (not_le.2 hl)

/-- Such a configuration: the one of C124 with retention of 3 % of the pore volume. -/
example : SiteOK { exSite with lwcMethod := .poreVolume, maxFrac := 3 / 100 } := by
  have h := exSite_ok
  exact ⟨h.dt, h.albedo, h.albedo_le, h.iceDens, by norm_num, fun _ => by norm_num, h.cold, h.snowRough, h.soilRough,
    h.windHeight, h.tempHeight, h.stab⟩

end Verif.CoupledCryo
