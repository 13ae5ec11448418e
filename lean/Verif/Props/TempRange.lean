import Verif.Lemmas.TempRange
import Verif.Props.SurfaceRange
import Verif.Props.ColdSnow

/-!
# C127: the range of snow and soil temperatures
-/

set_option linter.unusedSectionVars false

namespace Verif.Heat

section kernel

variable {K : Type*} [Field K] [LinearOrder K] [IsStrictOrderedRing K]

/-- Specification: conduction from a surface of temperature `ts` to the centre of the top layer. -/
def fromSurface (c : Column K) (ts : K) : K := 2 * c.lam 0 * (ts - c.T 0) / c.dx 0

/-- **C127 (what holds).** If twice the conductivity times the time step is at most thickness times heat capacity of
the top layer, the new temperatures lie within every range that holds the surface, the layers and the bottom.
Missing: the claim without this condition. -/
theorem C127_range_partial (c : Column K) (h : Physical c) (ts lo hi : K) (hf : c.flux = fromSurface c ts)
    (hst : 2 * c.lam 0 * c.dt ≤ c.dx 0 * c.hc 0) (hs : lo ≤ ts ∧ ts ≤ hi)
    (hT : ∀ k, k < c.N → lo ≤ c.T k ∧ c.T k ≤ hi) (hb : lo ≤ c.Tbottom ∧ c.Tbottom ≤ hi) :
    ∃ x, tempChange c = some x ∧ ∀ k, k < c.N → lo ≤ newTemp c x k ∧ newTemp c x k ≤ hi := by
  obtain ⟨x, hx, -⟩ := C21_layer_energy_balance c h
  refine ⟨x, hx, range_of_flux h (fun k hk _ => hT k hk) ?_ hb hx⟩
  have hd := h.dx 0 h.layers
  have hw : 0 ≤ 2 * c.lam 0 * c.dt / c.dx 0 := by
    have := h.lam 0 h.layers; have := h.dt
    positivity
  have hw' : 0 ≤ c.hc 0 - 2 * c.lam 0 * c.dt / c.dx 0 := by
    rw [sub_nonneg, div_le_iff₀ hd]; linarith
  have e : c.hc 0 * c.T 0 + c.dt * c.flux =
      (c.hc 0 - 2 * c.lam 0 * c.dt / c.dx 0) * c.T 0 + 2 * c.lam 0 * c.dt / c.dx 0 * ts := by
    rw [hf, fromSurface]; ring
  rw [e]
  obtain ⟨w, hwe⟩ : ∃ w, 2 * c.lam 0 * c.dt / c.dx 0 = w := ⟨_, rfl⟩
  rw [hwe] at hw hw' ⊢
  have h1 := mul_le_mul_of_nonneg_left (hT 0 h.layers).1 hw'
  have h2 := mul_le_mul_of_nonneg_left (hT 0 h.layers).2 hw'
  have h3 := mul_le_mul_of_nonneg_left hs.1 hw
  have h4 := mul_le_mul_of_nonneg_left hs.2 hw
  constructor <;> linarith

/-- The specification demanded by C127. -/
def KeepsRange (K : Type*) [Field K] [LinearOrder K] : Prop :=
  ∀ (c : Column K) (ts lo hi : K), Physical c → c.flux = fromSurface c ts → lo ≤ ts → ts ≤ hi →
    (∀ k, k < c.N → lo ≤ c.T k ∧ c.T k ≤ hi) → lo ≤ c.Tbottom → c.Tbottom ≤ hi →
    ∀ x, tempChange c = some x → ∀ k, k < c.N → lo ≤ newTemp c x k ∧ newTemp c x k ≤ hi

/-- A layer of 10 cm of snow of 100 kg m-3 over 10 cm of soil, with the default conductivity of snow. -/
def freshLayer (dt t bottom ts : ℚ) : Column ℚ where
  N := 1
  dx := fun _ => 1 / 10
  T := fun _ => t
  lam := fun _ => 24 / 100
  hc := fun _ => 21000
  dt := dt
  Tbottom := bottom
  dxBottom := 1 / 10
  lamBottom := 1
  flux := 2 * (24 / 100) * (ts - t) / (1 / 10)

theorem freshLayer_physical (dt t bottom ts : ℚ) (h : 0 < dt) : Physical (freshLayer dt t bottom ts) := by
  constructor <;> norm_num [freshLayer, h]

/-- The flux of `freshLayer` is the one demanded by the specification, and the conditions of `C127_range_partial` are
met with hourly time steps. -/
example : (freshLayer 3600 255 272 270).flux = fromSurface (freshLayer 3600 255 272 270) 270 ∧
    2 * (freshLayer 3600 255 272 270).lam 0 * (freshLayer 3600 255 272 270).dt ≤
      (freshLayer 3600 255 272 270).dx 0 * (freshLayer 3600 255 272 270).hc 0 := by
  refine ⟨rfl, ?_⟩
  norm_num [freshLayer]

/-- **C127 is false of the code.** Three-hour time step, fresh snow at 255 K, surface and lower boundary at 270 K: the
snow is warmer than both after one step. -/
theorem C127_false : ¬ KeepsRange ℚ := by
  intro h
  have := h (freshLayer 10800 255 270 270) 270 255 270 (freshLayer_physical _ _ _ _ (by norm_num)) rfl (by norm_num)
    (by norm_num) (fun k _ => ⟨by norm_num [freshLayer], by norm_num [freshLayer]⟩) (by norm_num [freshLayer])
    (by norm_num [freshLayer])
    [(2 * (24 / 100) * (270 - 255) / (1 / 10) + 2 / (1 / 10 / (24 / 100) + 1 / 10 / 1) * (270 - 255)) * 10800 /
      (21000 + 2 / (1 / 10 / (24 / 100) + 1 / 10 / 1) * 10800)]
    (by norm_num [tempChange, freshLayer, between]) 0 (by norm_num [freshLayer])
  norm_num [newTemp, freshLayer] at this

/-- **C127, size of the error.** In the same step the snow is heated above the melting point although nothing around it
is warmer than 270 K. -/
theorem C127_melting_witness : ∃ x, tempChange (freshLayer 10800 255 270 270) = some x ∧
    273.15 < newTemp (freshLayer 10800 255 270 270) x 0 := by
  refine ⟨[(2 * (24 / 100) * (270 - 255) / (1 / 10) + 2 / (1 / 10 / (24 / 100) + 1 / 10 / 1) * (270 - 255)) * 10800 /
      (21000 + 2 / (1 / 10 / (24 / 100) + 1 / 10 / 1) * 10800)], by norm_num [tempChange, freshLayer, between], ?_⟩
  norm_num [newTemp, freshLayer]

/-! ## Constant surface temperature -/

/-- The column of `c` with layer temperature `t` and the flux from a surface of temperature `ts`. -/
def held (c : Column K) (ts t : K) : Column K :=
  { c with T := fun _ => t, flux := 2 * c.lam 0 * (ts - t) / c.dx 0 }

/-- Temperature of a column of one layer after `n` time steps under a surface of constant temperature `ts`. -/
def afterSteps (c : Column K) (ts t : K) : ℕ → Option K
  | 0 => some t
  | n + 1 => (afterSteps c ts t n).bind fun u => (tempChange (held c ts u)).map fun x => newTemp (held c ts u) x 0

/-- Specification: heat conducted per kelvin in one time step from the surface to the layer. -/
def fromAbove (c : Column K) : K := 2 * c.lam 0 * c.dt / c.dx 0

/-- Specification: heat conducted per kelvin in one time step from the bottom to the layer. -/
def fromBelow (c : Column K) : K := c.dt / (c.dx 0 / 2 / c.lam 0 + c.dxBottom / 2 / c.lamBottom)

/-- **C127, law of one layer.** With surface and bottom at the same constant temperature the deviation of the layer
from it is multiplied in every time step by (C - a) / (C + b): heat capacity, heat per kelvin from above and below. -/
theorem C127_law (c : Column K) (h : Physical c) (hN : c.N = 1) (ts t : K) (hb : c.Tbottom = ts) (n : ℕ) :
    afterSteps c ts t n =
      some (ts + ((c.hc 0 - fromAbove c) / (c.hc 0 + fromBelow c)) ^ n * (t - ts)) := by
  have hd := h.dx 0 h.layers
  have hl := h.lam 0 h.layers
  have hc := h.hc 0 h.layers
  have hdb := h.dxBottom
  have hlb := h.lamBottom
  have hdt := h.dt
  have hbw : between c 0 * c.dt = fromBelow c := by
    rw [between_eq h 0 h.layers, fromBelow]
    simp only [halfResistance, hN, Nat.lt_irrefl, zero_add, zero_lt_one, if_true, if_false]
    ring
  have hpos : 0 < fromBelow c := by unfold fromBelow; positivity
  have hone : ∀ u, (tempChange (held c ts u)).map (fun x => newTemp (held c ts u) x 0) =
      some (ts + (c.hc 0 - fromAbove c) / (c.hc 0 + fromBelow c) * (u - ts)) := by
    intro u
    have e : between (held c ts u) 0 = between c 0 := rfl
    have hne : c.hc 0 + fromBelow c ≠ 0 := by positivity
    simp only [tempChange, e]
    rw [if_pos (show (held c ts u).N = 1 from hN)]
    rw [if_neg (show ¬ ((held c ts u).hc 0 + between c 0 * (held c ts u).dt = 0) by
      show ¬ (c.hc 0 + between c 0 * c.dt = 0)
      rw [hbw]; exact hne)]
    simp only [Option.map_some, newTemp, List.getD_cons_zero, Option.some.injEq]
    show u + (2 * c.lam 0 * (ts - u) / c.dx 0 + between c 0 * (c.Tbottom - u)) * c.dt /
      (c.hc 0 + between c 0 * c.dt) = _
    rw [hb, hbw]
    have e2 : (2 * c.lam 0 * (ts - u) / c.dx 0 + between c 0 * (ts - u)) * c.dt =
        (fromAbove c + fromBelow c) * (ts - u) := by
      rw [← hbw, fromAbove]; ring
    rw [e2]
    field_simp
    ring
  induction n with
  | zero => simp [afterSteps]
  | succ n ih =>
    simp only [afterSteps, ih, Option.bind_some]
    rw [hone]
    congr 1
    ring

/-- **C127, growing swing.** If the heat taken up per kelvin from above exceeds that from below by more than twice the
heat capacity, then every deviation from a constant temperature of surface and bottom grows beyond all bounds. -/
theorem C127_swing [Archimedean K] (c : Column K) (h : Physical c) (hN : c.N = 1) (ts t : K) (hb : c.Tbottom = ts)
    (ht : t ≠ ts) (hg : 2 * c.hc 0 + fromBelow c < fromAbove c) (B : K) :
    ∃ n u, afterSteps c ts t n = some u ∧ B < |u - ts| := by
  have hc := h.hc 0 h.layers
  have hpos : 0 < c.hc 0 + fromBelow c := by
    have hd := h.dx 0 h.layers
    have hl := h.lam 0 h.layers
    have hdb := h.dxBottom
    have hlb := h.lamBottom
    have hdt := h.dt
    unfold fromBelow; positivity
  have hr : 1 < |(c.hc 0 - fromAbove c) / (c.hc 0 + fromBelow c)| := by
    rw [abs_div, abs_of_pos hpos, one_lt_div hpos, abs_of_neg (by linarith)]
    linarith
  have htp : 0 < |t - ts| := abs_pos.2 (sub_ne_zero.2 ht)
  obtain ⟨n, hn⟩ := pow_unbounded_of_one_lt (B / |t - ts|) hr
  refine ⟨n, _, C127_law c h hN ts t hb n, ?_⟩
  rw [add_sub_cancel_left, abs_mul, abs_pow]
  rwa [div_lt_iff₀ htp] at hn

/-- Fresh snow with daily time steps meets the conditions of `C127_swing`. -/
example : Physical (freshLayer 86400 268 270 270) ∧ (freshLayer 86400 268 270 270).N = 1 ∧
    (freshLayer 86400 268 270 270).Tbottom = 270 ∧
    2 * (freshLayer 86400 268 270 270).hc 0 + fromBelow (freshLayer 86400 268 270 270) <
      fromAbove (freshLayer 86400 268 270 270) := by
  refine ⟨freshLayer_physical _ _ _ _ (by norm_num), rfl, rfl, ?_⟩
  norm_num [freshLayer, fromBelow, fromAbove]

end kernel

end Verif.Heat

namespace Verif.Coupled

open Verif.MultiLayer (Pixel Layer LwcMethod)

/-- Specification: all temperatures of the pixel lie between `m` and `M`; snow is not above the melting point. -/
structure Within (c : Site) (m M : ℝ) (s : State) : Prop where
  surface : m ≤ s.ts ∧ s.ts ≤ M
  soil : ∀ k, k < c.soilThick.length → m ≤ s.soilTemp k ∧ s.soilTemp k ≤ M
  snow : ∀ L ∈ s.snow.layers, m ≤ L.temp ∧ L.temp ≤ T0

/-- The conditions of C126 on the weather of a time step, without those on the temperature of the surface layer. -/
def MildWeather (c : Site) (m M : ℝ) (f : Forcing) (s : State) : Prop :=
  ∀ p a, prepare c f s = some p → Surface.albedo (fraction c p) p.albedo c.soilAlbedo = some a →
    m ≤ (surfacePixel c f s p a).layerTemp → (surfacePixel c f s p a).layerTemp ≤ M →
    Surface.Mild (surfacePixel c f s p a) m M

/-- Conditions under which the flux taken at old temperatures does not overshoot in a time step. -/
structure Gentle (c : Site) (m M : ℝ) (f : Forcing) (s : State) : Prop where
  /-- The surface flux alone leaves the temperature of the top snow layer between `m` and `M`. -/
  snow : ∀ p e, prepare c f s = some p → energy c f s p = some e → 0 < p.n →
    top Layer.heatCap p * (m - top Layer.temp p) ≤ c.dt * e.ground ∧
      c.dt * e.ground ≤ top Layer.heatCap p * (M - top Layer.temp p)
  /-- The condition of `C127_range_partial` for the soil. -/
  soil : 2 * soilLam c s 0 * c.dt ≤ soilDx c 0 * soilHc c s 0
  /-- If the snow vanishes in the step, the surface flux alone leaves the top soil layer between `m` and `M`. -/
  bared : ∀ p e x s', prepare c f s = some p → energy c f s p = some e → step c f s = some (x, s') → 0 < p.n →
    s'.snow.n = 0 → soilHc c s 0 * (m - s.soilTemp 0) ≤ c.dt * e.ground ∧
      c.dt * e.ground ≤ soilHc c s 0 * (M - s.soilTemp 0)

/-- The conditions hold in all time steps of a run. -/
def GentleRun (c : Site) (m M : ℝ) : List Forcing → State → Prop
  | [], _ => True
  | f :: fs, s => (m ≤ f.temp ∧ MildWeather c m M f s ∧ Gentle c m M f s) ∧
      ∀ x s', step c f s = some (x, s') → GentleRun c m M fs s'

section aux

theorem top_mem {p : Pixel ℝ} (h : p.layers ≠ []) : ∃ L ∈ p.layers, ∀ g : Layer ℝ → ℝ, top g p = g L := by
  obtain ⟨L, Ls, e⟩ := List.exists_cons_of_ne_nil h
  exact ⟨L, by simp [e], fun g => by simp [top, e]⟩

/-- Temperatures before the energy balance. -/
theorem prepared_temp {c : Site} {f : Forcing} {ts m : ℝ} {g : List (Layer ℝ) → ℕ → ℝ} {p : Pixel ℝ} (hm : m ≤ T0)
    (hair : m ≤ f.temp) (h : ∀ L ∈ p.layers, m ≤ L.temp ∧ L.temp ≤ T0) :
    ∀ L ∈ (prepared c f ts g p).layers, m ≤ L.temp ∧ L.temp ≤ T0 := by
  have h1 : ∀ L ∈ (MultiLayer.compact g p).layers, m ≤ L.temp ∧ L.temp ≤ T0 := by
    intro L hL
    simp only [MultiLayer.compact, Pixel.setActive, List.mem_append] at hL
    rcases hL with hL | hL
    · obtain ⟨k, hk, rfl⟩ := List.mem_mapIdx.mp hL
      exact h (p.layers.take p.n)[k] (List.mem_of_mem_take (List.getElem_mem hk))
    · exact h _ (List.mem_of_mem_drop hL)
  have h2 : ∀ L ∈ (MultiLayer.accumulation c.albedo.max f.temp (Snow.freshSnowDensity (some f.wetBulb))
      (some f.snow) (MultiLayer.compact g p)).layers, m ≤ L.temp ∧ L.temp ≤ T0 := by
    simp only [MultiLayer.accumulation]
    split_ifs with h0
    · obtain ⟨p1, hp1⟩ : ∃ x, MultiLayer.compact g p = x := ⟨_, rfl⟩
      rw [hp1] at h1 ⊢
      obtain ⟨n, layers, alb⟩ := p1
      cases layers with
      | nil => simp [MultiLayer.addSnow]
      | cons L Ls =>
        intro M hM
        simp only [MultiLayer.addSnow, List.mem_cons] at hM
        rcases hM with rfl | hM
        · simp only
          split_ifs
          · exact ⟨le_min hair hm, min_le_right _ _⟩
          · exact h1 L (by simp)
        · exact h1 M (by simp [hM])
    · exact h1
  intro L hL
  simp only [prepared, MultiLayer.updateHeatCap, ageing] at hL
  obtain ⟨L0, hL0, rfl⟩ := List.mem_map.mp hL
  exact h2 L0 hL0

theorem slots_ne {c : Site} (h : SiteOK c) {p : Pixel ℝ} (hp : Inv c p) : p.layers ≠ [] := by
  intro e
  have := hp.solid.ok.slots_eq
  rw [e] at this
  exact h.layers (List.length_eq_zero_iff.mp this.symm)

/-- The column of a pack with known heat capacities is physical. -/
theorem snowColumn_physical {c : Site} (h : SiteOK c) (s : State) (flux : ℝ) {p : Pixel ℝ} (hp : Inv c p)
    (hhc : ∀ L ∈ p.layers, L.heatCap = L.ice * cIce + L.lwc * cWater) (hn : 0 < p.n) :
    Heat.Physical (Heat.snowColumn (boundary c s flux) p) := by
  have hp := hp.solid
  have hle := hp.ok.wf.n_le
  have hget : ∀ k, k < p.n → ∃ L ∈ p.layers.take p.n, p.layers[k]? = some L := by
    intro k hk
    have hk' : k < p.layers.length := by omega
    refine ⟨p.layers[k], ?_, by simp [hk']⟩
    apply List.mem_iff_getElem?.mpr
    exact ⟨k, by simp [List.getElem?_take, hk, hk']⟩
  refine ⟨hn, h.dt, ?_, fun _ _ => h.snowCond, ?_, soilDx0_pos h, soilLam_pos h s 0⟩
  · intro k hk
    obtain ⟨L, hL, e⟩ := hget k hk
    have : (Heat.snowColumn (boundary c s flux) p).dx k = L.thick := by
      simp [Heat.snowColumn, e]
    rw [this]; exact hp.thick L hL
  · intro k hk
    obtain ⟨L, hL, e⟩ := hget k hk
    have : (Heat.snowColumn (boundary c s flux) p).hc k = L.heatCap := by
      simp [Heat.snowColumn, e]
    rw [this, hhc L (List.mem_of_mem_take hL)]
    have h1 := hp.ok.ice_pos hL (hp.thick L hL)
    have h2 := (hp.ok.wf.active L hL).2.2
    have := cIce_pos (K := ℝ)
    have := cWater_pos (K := ℝ)
    positivity

/-- Snow temperatures after heat conduction. -/
theorem conduction_range {c : Site} (h : SiteOK c) (s : State) (flux : ℝ) {p p2 : Pixel ℝ} (hp : Inv c p)
    (hhc : ∀ L ∈ p.layers, L.heatCap = L.ice * cIce + L.lwc * cWater) {m M : ℝ} (hM : T0 ≤ M)
    (ht : ∀ L ∈ p.layers, m ≤ L.temp ∧ L.temp ≤ T0)
    (hg : 0 < p.n → top Layer.heatCap p * (m - top Layer.temp p) ≤ c.dt * flux ∧
      c.dt * flux ≤ top Layer.heatCap p * (M - top Layer.temp p))
    (hc : Heat.snowHeatConduction (boundary c s flux) p = some p2) :
    p2.n = p.n ∧ ∀ L ∈ p2.layers.take p2.n, (m ≤ L.temp ∧ L.temp ≤ M) ∧
      ∃ L0 ∈ p.layers.take p.n, L = { L0 with temp := L.temp } := by
  simp only [Heat.snowHeatConduction] at hc
  by_cases hn : 0 < p.n
  · rw [if_pos hn] at hc
    have hphys := snowColumn_physical h s flux hp hhc hn
    obtain ⟨x, hx, -⟩ := Heat.C21_layer_energy_balance _ hphys
    rw [hx] at hc
    simp only [Option.some.injEq] at hc
    subst hc
    refine ⟨rfl, ?_⟩
    have hle := hp.solid.ok.wf.n_le
    obtain ⟨L1, Ls, e1⟩ := List.exists_cons_of_ne_nil (slots_ne h hp)
    have hT : ∀ k, k < p.layers.length → m ≤ (p.layers.map Layer.temp).getD k 0 ∧
        (p.layers.map Layer.temp).getD k 0 ≤ T0 := by
      intro k hk
      have : (p.layers.map Layer.temp).getD k 0 = p.layers[k].temp := by simp [hk]
      rw [this]
      exact ht _ (List.getElem_mem hk)
    have hlast : m ≤ (p.layers.map Layer.temp).getLastD 0 ∧ (p.layers.map Layer.temp).getLastD 0 ≤ T0 := by
      have hne : p.layers.map Layer.temp ≠ [] := by simp [e1]
      have : (p.layers.map Layer.temp).getLastD 0 ∈ p.layers.map Layer.temp := by
        rw [List.getLastD_eq_getLast?, List.getLast?_eq_getLast_of_ne_nil hne]
        exact List.getLast_mem hne
      obtain ⟨L, hL, e⟩ := List.mem_map.mp this
      rw [← e]
      exact ht L hL
    have hrange := Heat.range_of_flux hphys (lo := m) (hi := M) (fun k hk _ =>
        ⟨(hT k (lt_of_lt_of_le hk hle)).1, (hT k (lt_of_lt_of_le hk hle)).2.trans hM⟩) (by
        have e2 := hg hn
        have e3 : (Heat.snowColumn (boundary c s flux) p).hc 0 = top Layer.heatCap p := by
          simp [Heat.snowColumn, top, e1]
        have e4 : (Heat.snowColumn (boundary c s flux) p).T 0 = top Layer.temp p := by
          simp [Heat.snowColumn, top, e1]
        rw [e3, e4]
        have e5 : (Heat.snowColumn (boundary c s flux) p).dt * (Heat.snowColumn (boundary c s flux) p).flux =
          c.dt * flux := rfl
        rw [e5]
        constructor <;> linarith [e2.1, e2.2]) ⟨hlast.1, hlast.2.trans hM⟩ hx
    intro L hL
    have hL : L ∈ (p.setActive ((p.layers.take p.n).mapIdx fun k L =>
        { L with temp := L.temp + x.getD k 0 })).layers.take p.n := hL
    rw [MultiLayer.setActive_take p _ hle (by simp) p.n le_rfl] at hL
    obtain ⟨k, hk, rfl⟩ := List.mem_mapIdx.mp (List.mem_of_mem_take hL)
    have hk' : k < p.n := by simp at hk; exact hk.1
    have hk2 : k < p.layers.length := by omega
    have hh := hrange k hk'
    have e : Heat.newTemp (Heat.snowColumn (boundary c s flux) p) x k =
        (p.layers.take p.n)[k].temp + x.getD k 0 := by
      simp [Heat.newTemp, Heat.snowColumn, hk2]
    rw [e] at hh
    exact ⟨hh, _, List.getElem_mem hk, rfl⟩
  · rw [if_neg hn, Option.some.injEq] at hc
    subst hc
    have h0 : p.n = 0 := by omega
    exact ⟨rfl, fun L hL => by simp [h0] at hL⟩

/-- Soil temperatures after a time step. -/
theorem soil_range {c : Site} (h : SiteOK c) (s : State) {m M : ℝ} (hm0 : 0 ≤ m)
    (hs : ∀ k, k < c.soilThick.length → m ≤ s.soilTemp k ∧ s.soilTemp k ≤ M) (ground : ℝ) (q : Pixel ℝ)
    (hg : ∀ flux, flux = Soil.heatFlux ground ((q.layers.take q.n).map fun L => ⟨L.thick, L.temp, c.snowCond⟩)
      ⟨soilDx c 0, s.soilTemp 0, soilLam c s 0⟩ → soilHc c s 0 * (m - s.soilTemp 0) ≤ c.dt * flux ∧
      c.dt * flux ≤ soilHc c s 0 * (M - s.soilTemp 0)) :
    ∀ k, k < c.soilThick.length → m ≤ soilStep c s ground q k ∧ soilStep c s ground q k ≤ M := by
  obtain ⟨flux, hflux⟩ : ∃ x, Soil.heatFlux ground ((q.layers.take q.n).map fun L => ⟨L.thick, L.temp, c.snowCond⟩)
    ⟨soilDx c 0, s.soilTemp 0, soilLam c s 0⟩ = x := ⟨_, rfl⟩
  have hN : 0 < c.soilThick.length := List.length_pos_iff.mpr h.someSoil
  have hphys : Heat.Physical (Soil.column c.soilThick.length (soilDx c) s.soilTemp (soilLam c s) (soilHc c s) c.dt
      flux) := by
    refine ⟨hN, h.dt, fun k hk => soilDx_pos h hk, fun k _ => soilLam_pos h s k, ?_,
      soilDx_pos h (by omega), soilLam_pos h s _⟩
    intro k hk
    exact (Soil.C81_heat_capacity c.soil h.soil c.moisture (s.soilTemp k) (soilDx c k) h.moisture.le
      (hm0.trans (hs k hk).1) (soilDx_pos h hk)).2.1
  obtain ⟨x, h1, h2, h3⟩ := Soil.C82_field (ι := Unit) c.soilThick.length (fun k _ => soilDx c k)
    (fun k _ => s.soilTemp k) (fun k _ => soilLam c s k) (fun k _ => soilHc c s k) c.dt (fun _ => flux) () hphys
  have hg' := hg flux hflux.symm
  have hr := Heat.range_of_flux hphys (lo := m) (hi := M) (fun k hk _ => hs k hk) (by
    show soilHc c s 0 * m ≤ soilHc c s 0 * s.soilTemp 0 + c.dt * flux ∧
      soilHc c s 0 * s.soilTemp 0 + c.dt * flux ≤ soilHc c s 0 * M
    constructor <;> linarith [hg'.1, hg'.2]) (hs _ (by omega)) h1
  intro k hk
  have e : soilStep c s ground q k = Heat.newTemp (Soil.column c.soilThick.length (soilDx c) s.soilTemp (soilLam c s)
      (soilHc c s) c.dt flux) x k := by
    have := h3 k hk
    simp only [soilStep, hflux]
    rw [this]
    rfl
  rw [e]
  exact hr k hk

/-- Heat capacities after `update_properties`. -/
theorem prepared_heatCap {c : Site} {f : Forcing} {ts : ℝ} {g : List (Layer ℝ) → ℕ → ℝ} {p : Pixel ℝ} :
    ∀ L ∈ (prepared c f ts g p).layers, L.heatCap = L.ice * cIce + L.lwc * cWater := by
  intro L hL
  simp only [prepared, MultiLayer.updateHeatCap] at hL
  obtain ⟨L0, -, rfl⟩ := List.mem_map.mp hL
  rfl

/-- A flux at conductance below `a` towards a temperature between `m` and `M` does not overshoot. -/
theorem no_overshoot {hc dt g a t u m M : ℝ} (hg : 0 ≤ g) (hdt : 0 ≤ dt) (ha : g ≤ a) (hst : a * dt ≤ hc)
    (hu : m ≤ u ∧ u ≤ M) (ht : m ≤ t ∧ t ≤ M) :
    hc * (m - t) ≤ dt * (g * (u - t)) ∧ dt * (g * (u - t)) ≤ hc * (M - t) := by
  have h1 : g * dt ≤ hc := (mul_le_mul_of_nonneg_right ha hdt).trans hst
  have h0 : 0 ≤ g * dt := mul_nonneg hg hdt
  constructor
  · have := mul_le_mul_of_nonneg_left (sub_le_sub_right hu.1 t) h0
    have := mul_le_mul_of_nonneg_right h1 (sub_nonneg.2 ht.1)
    nlinarith
  · have := mul_le_mul_of_nonneg_left (sub_le_sub_right hu.2 t) h0
    have := mul_le_mul_of_nonneg_right h1 (sub_nonneg.2 ht.2)
    nlinarith

end aux

/-- **C127.** A time step under these conditions keeps all temperatures between `m` and `M`; before melt no snow layer
is warmer than `M`. -/
theorem C127_step (c : Site) (h : SiteOK c) (f : Forcing) (hf : ForcingOK c f) (hn : Natural f) (s : State)
    (hp : Inv c s.snow) (hl : Light c f s.snow) (m M : ℝ) (hm : 150 ≤ m ∧ m ≤ 270) (hM : 300 ≤ M) (hair : m ≤ f.temp)
    (hw : MildWeather c m M f s) (hg : Gentle c m M f s) (hin : Within c m M s) :
    (∀ x s', step c f s = some (x, s') → Within c m M s') ∧
    ∀ p e p2, prepare c f s = some p → energy c f s p = some e →
      Heat.snowHeatConduction (boundary c s e.ground) p = some p2 →
      (m ≤ e.ts ∧ e.ts ≤ M) ∧ ∀ L ∈ p2.layers.take p2.n, (m ≤ L.temp ∧ L.temp ≤ M) ∧
        L.heatCap = L.ice * cIce + L.lwc * cWater ∧ ∃ L0 ∈ p.layers.take p.n, L.ice = L0.ice ∧ L.lwc = L0.lwc := by
  have hT : m ≤ T0 ∧ (T0 : ℝ) ≤ M := by
    have := hm.2
    norm_num [T0]
    constructor <;> linarith
  obtain ⟨p, hprep, hinv, g, hpg, href⟩ := step_refines h hf hp hl
  obtain ⟨a, ha, hphys, he⟩ := C122_energy c h f hn s (lt_of_lt_of_le (by linarith [hm.1]) hin.surface.1) p hinv
  have hN : 0 < c.soilThick.length := List.length_pos_iff.mpr h.someSoil
  have hdx := soilDx0_pos h
  have hlam := soilLam_pos h s 0
  have htemp : ∀ L ∈ p.layers, m ≤ L.temp ∧ L.temp ≤ T0 := by
    rw [hpg]; exact prepared_temp hT.1 hair hin.snow
  have hhc : ∀ L ∈ p.layers, L.heatCap = L.ice * cIce + L.lwc * cWater := by
    rw [hpg]; exact prepared_heatCap
  obtain ⟨L1, hL1, htop⟩ := top_mem (slots_ne h hinv)
  have hthick : 0 ≤ L1.thick := (hinv.solid.ok.wf.all L1 hL1).1
  have hlt : m ≤ (surfacePixel c f s p a).layerTemp ∧ (surfacePixel c f s p a).layerTemp ≤ M := by
    have h77 := Surface.C77_layer_temp L1.thick (soilDx c 0) L1.temp (s.soilTemp 0) hthick hdx
    have e : (surfacePixel c f s p a).layerTemp = Surface.layerTemp L1.thick (soilDx c 0) L1.temp (s.soilTemp 0) := by
      simp only [surfacePixel, htop]
    rw [e]
    exact ⟨(le_min (htemp L1 hL1).1 (hin.soil 0 hN).1).trans h77.1,
      h77.2.1.trans (max_le ((htemp L1 hL1).2.trans hT.2) (hin.soil 0 hN).2)⟩
  have hmild := hw p a hprep ha hlt.1 hlt.2
  obtain ⟨t1, t2⟩ := Surface.C126_range _ hphys m M hmild hin.surface.1 hin.surface.2
  have hground := (Surface.C79_new_fluxes (surfacePixel c f s p a)).2
  obtain ⟨e, hee⟩ : ∃ x, (surfacePixel c f s p a).energyBalance = x := ⟨_, rfl⟩
  rw [hee] at he t1 t2 hground
  obtain ⟨u, hok, hcond, hbm, heq⟩ := href e he
  have hcr := conduction_range h s e.ground hinv hhc hT.2 htemp (hg.snow p e hprep he) hcond
  constructor
  · intro x s' hst
    have hst0 := hst
    rw [heq] at hst
    cases hms : MultiLayer.step (mlCfg c) (inputs c f s.ts g u e.melt e.ts (some e.moist)) s.snow with
    | none => rw [hms] at hst; simp at hst
    | some r =>
      obtain ⟨fl, q⟩ := r
      rw [hms] at hst
      simp only [Option.map_some, Option.some.injEq, Prod.mk.injEq] at hst
      obtain ⟨-, rfl⟩ := hst
      have hcold := MultiLayer.C123_step (mlCfg c) (mlCfg_ok h) _ hok _ q fl hp.solid hms
      have hge := MultiLayer.step_ge hT.1 (mlCfg c) (mlCfg_ok h) _ hok _ q fl hp.solid hair
        (by rw [hbm]; exact fun L hL => (hcr.2 L hL).1.1) hms
      have hsol := MultiLayer.C121_solid (mlCfg c) (mlCfg_ok h) _ hok _ q fl hp.solid hms
      refine ⟨⟨t1, t2⟩, ?_, fun L hL => ⟨hge L hL, hcold L hL⟩⟩
      refine soil_range h s (by linarith [hm.1]) hin.soil e.ground q ?_
      intro flux hflux
      cases hlast : ((q.layers.take q.n).map fun L =>
          (⟨L.thick, L.temp, c.snowCond⟩ : Soil.FluxLayer ℝ)).getLast? with
      | none =>
        have hq0 : q.n = 0 := by
          have h1 := List.getLast?_eq_none_iff.mp hlast
          have h2 := congrArg List.length h1
          have h3 := hsol.ok.wf.n_le
          simp at h2
          rcases h2 with h2 | h2
          · exact h2
          · rw [h2] at h3; simpa using h3
        have hfl : flux = e.ground := by rw [hflux, Soil.heatFlux, hlast]
        rw [hfl]
        rcases Nat.eq_zero_or_pos p.n with h0 | h0
        · have hz : L1.thick = 0 := by
            obtain ⟨L, Ls, e1⟩ := List.exists_cons_of_ne_nil (slots_ne h hinv)
            have h1 := htop Layer.thick
            rw [← h1]
            simp only [top, e1, List.map_cons, List.headD_cons]
            exact (hinv.solid.ok.wf.inactive L (by rw [h0, e1]; simp)).1
          have e1 : (surfacePixel c f s p a).layerTemp = s.soilTemp 0 := by
            simp only [surfacePixel, htop, hz]
            exact (Surface.C77_layer_temp 0 (soilDx c 0) _ _ le_rfl hdx).2.2.1
          have e2 : (surfacePixel c f s p a).layerThick = soilDx c 0 := by
            simp only [surfacePixel, htop, hz, Surface.layerThickness]
            exact max_eq_right hdx.le
          have e3 : (surfacePixel c f s p a).layerCond = soilLam c s 0 := by
            simp only [surfacePixel, htop, hz, Surface.layerCond]
            rw [if_pos (by linarith), mul_zero, zero_div, zero_add, sub_zero, div_div_cancel₀ hdx.ne']
          rw [e1, e2, e3] at hground
          have := no_overshoot (g := 2 * soilLam c s 0 / soilDx c 0) (by positivity) h.dt.le le_rfl
            (hc := soilHc c s 0) (by rw [div_mul_eq_mul_div, div_le_iff₀ hdx]; linarith [hg.soil]) ⟨t1, t2⟩
            (hin.soil 0 hN)
          rw [hground, show 2 * soilLam c s 0 * (e.ts - s.soilTemp 0) / soilDx c 0 =
            2 * soilLam c s 0 / soilDx c 0 * (e.ts - s.soilTemp 0) by ring]
          exact this
        · exact hg.bared p e x _ hprep he hst0 h0 hq0
      | some L =>
        have hfl : flux = 2 / (L.thickness / L.cond + soilDx c 0 / soilLam c s 0) * (L.temp - s.soilTemp 0) := by
          rw [hflux, Soil.heatFlux, hlast]
        obtain ⟨L0, hL0, e0⟩ := List.mem_map.mp (List.mem_of_getLast? hlast)
        have hmem := List.mem_of_mem_take hL0
        have hL0t : 0 ≤ L0.thick := (hsol.ok.wf.active L0 hL0).1
        rw [hfl, ← e0]
        have hk := h.snowCond
        refine no_overshoot (a := 2 * soilLam c s 0 / soilDx c 0) (by positivity) h.dt.le ?_
          (by rw [div_mul_eq_mul_div, div_le_iff₀ hdx]; linarith [hg.soil])
          ⟨hge L0 hmem, (hcold L0 hmem).trans hT.2⟩ (hin.soil 0 hN)
        have h1 : soilDx c 0 / soilLam c s 0 ≤ L0.thick / c.snowCond + soilDx c 0 / soilLam c s 0 :=
          le_add_of_nonneg_left (by positivity)
        have h2 : 0 < soilDx c 0 / soilLam c s 0 := by positivity
        calc 2 / (L0.thick / c.snowCond + soilDx c 0 / soilLam c s 0) ≤ 2 / (soilDx c 0 / soilLam c s 0) := by gcongr
          _ = 2 * soilLam c s 0 / soilDx c 0 := by field_simp
  · intro p' e' p2 k1 k2 k3
    rw [hprep, Option.some.injEq] at k1
    subst k1
    rw [he, Option.some.injEq] at k2
    subst k2
    rw [hcond, Option.some.injEq] at k3
    subst k3
    refine ⟨⟨t1, t2⟩, fun L hL => ?_⟩
    obtain ⟨hr, L0, hL0, e0⟩ := hcr.2 L hL
    refine ⟨hr, ?_, L0, hL0, ?_, ?_⟩
    · rw [e0]; exact hhc L0 (List.mem_of_mem_take hL0)
    · rw [e0]
    · rw [e0]

section aux

theorem prepared_lwc {c : Site} {f : Forcing} (hf : ForcingOK c f) {ts k : ℝ} {g : List (Layer ℝ) → ℕ → ℝ} {p : Pixel ℝ}
    (hk : 0 ≤ k) (h : ∀ L ∈ p.layers, L.lwc ≤ k * L.ice) : ∀ L ∈ (prepared c f ts g p).layers, L.lwc ≤ k * L.ice := by
  have h1 : ∀ L ∈ (MultiLayer.compact g p).layers, L.lwc ≤ k * L.ice := by
    intro L hL
    simp only [MultiLayer.compact, Pixel.setActive, List.mem_append] at hL
    rcases hL with hL | hL
    · obtain ⟨j, hj, rfl⟩ := List.mem_mapIdx.mp hL
      exact h (p.layers.take p.n)[j] (List.mem_of_mem_take (List.getElem_mem hj))
    · exact h _ (List.mem_of_mem_drop hL)
  have h2 : ∀ L ∈ (MultiLayer.accumulation c.albedo.max f.temp (Snow.freshSnowDensity (some f.wetBulb))
      (some f.snow) (MultiLayer.compact g p)).layers, L.lwc ≤ k * L.ice := by
    simp only [MultiLayer.accumulation]
    split_ifs with h0
    · obtain ⟨p1, hp1⟩ : ∃ x, MultiLayer.compact g p = x := ⟨_, rfl⟩
      rw [hp1] at h1 ⊢
      obtain ⟨n, layers, alb⟩ := p1
      cases layers with
      | nil => simp [MultiLayer.addSnow]
      | cons L Ls =>
        intro M hM
        simp only [MultiLayer.addSnow, List.mem_cons] at hM
        rcases hM with rfl | hM
        · simp only [nanToZero, Option.getD_some, add_zero]
          have := h1 L (by simp)
          have := mul_nonneg hk h0.le
          rw [mul_add]
          linarith
        · exact h1 M (by simp [hM])
    · exact h1
  intro L hL
  simp only [prepared, MultiLayer.updateHeatCap, ageing] at hL
  obtain ⟨L0, hL0, rfl⟩ := List.mem_map.mp hL
  exact h2 L0 hL0

/-- The states of a run under these conditions. -/
theorem gentle_run {c : Site} (h : SiteOK c) {m M : ℝ} (hm : 150 ≤ m ∧ m ≤ 270) (hM : 300 ≤ M) :
    ∀ (fs : List Forcing) (s0 s : State) (xs : List (MultiLayer.Fluxes ℝ)), (∀ f ∈ fs, ForcingOK c f ∧ Natural f) →
      LightRun c fs s0 → Inv c s0.snow → GentleRun c m M fs s0 → Within c m M s0 →
      (∀ L ∈ s0.snow.layers, c.lwcMethod = .massFraction → L.lwc ≤ c.maxFrac * L.ice) → run c fs s0 = some (xs, s) →
      Inv c s.snow ∧ Within c m M s ∧ ∀ L ∈ s.snow.layers, c.lwcMethod = .massFraction → L.lwc ≤ c.maxFrac * L.ice := by
  intro fs
  induction fs with
  | nil =>
    intro s0 s xs _ _ hi _ h0 hw hr
    simp only [run, Option.some.injEq, Prod.mk.injEq] at hr
    rw [← hr.2]
    exact ⟨hi, h0, hw⟩
  | cons f fs ih =>
    intro s0 s xs hf hl hi hg h0 hw hr
    obtain ⟨hf1, hf2⟩ := hf f (by simp)
    simp only [run] at hr
    split at hr
    · simp at hr
    rename_i x s1 hst
    split at hr
    · simp at hr
    rename_i ys s2 hrun
    simp only [Option.some.injEq, Prod.mk.injEq] at hr
    obtain ⟨rfl, rfl⟩ := hr
    refine ih s1 s2 ys (fun f' hf' => hf f' (by simp [hf'])) (hl.2 x s1 hst) (step_inv h hf1 hi hl.1 hst).1
      (hg.2 x s1 hst) ((C127_step c h f hf1 hf2 s0 hi hl.1 m M hm hM hg.1.1 hg.1.2.1 hg.1.2.2 h0).1 x s1 hst) ?_ hrun
    intro L hL hmf
    obtain ⟨p, hprep, -, g, -, href⟩ := step_refines h hf1 hi hl.1
    obtain ⟨e, he, -⟩ := energy_of_step hprep hst
    obtain ⟨u, hin, -, -, heq⟩ := href e he
    rw [heq] at hst
    cases hms : MultiLayer.step (mlCfg c) (inputs c f s0.ts g u e.melt e.ts (some e.moist)) s0.snow with
    | none => rw [hms] at hst; simp at hst
    | some r =>
      obtain ⟨fl, q⟩ := r
      rw [hms] at hst
      simp only [Option.map_some, Option.some.injEq, Prod.mk.injEq] at hst
      obtain ⟨-, rfl⟩ := hst
      exact MultiLayer.step_lwc (mlCfg c) (mlCfg_ok h) hmf _ hin _ q fl hi.solid hms L hL

theorem initial_within {c : Site} {m M : ℝ} (hm : 150 ≤ m ∧ m ≤ 270) (h1 : m ≤ c.initTemp) (h2 : c.initTemp ≤ M) :
    Within c m M (initial c) ∧ ∀ L ∈ (initial c).snow.layers, c.lwcMethod = .massFraction → L.lwc ≤ c.maxFrac * L.ice := by
  refine ⟨⟨⟨h1, h2⟩, fun _ _ => ⟨h1, h2⟩, ?_⟩, ?_⟩
  · intro L hL
    obtain ⟨t, -, rfl⟩ := List.mem_map.mp hL
    refine ⟨?_, le_rfl⟩
    have := hm.2
    norm_num [T0]
    linarith
  · intro L hL _
    obtain ⟨t, -, rfl⟩ := List.mem_map.mp hL
    simp

theorem lightRun_take {c : Site} : ∀ (fs : List Forcing) (i : ℕ) (s : State), LightRun c fs s → LightRun c (fs.take i) s
  | [], i, s, _ => by simp [LightRun]
  | f :: fs, 0, s, _ => by simp [LightRun]
  | f :: fs, i + 1, s, h => ⟨h.1, fun x s' hs => lightRun_take fs i s' (h.2 x s' hs)⟩

theorem gentleRun_take {c : Site} {m M : ℝ} :
    ∀ (fs : List Forcing) (i : ℕ) (s : State), GentleRun c m M fs s → GentleRun c m M (fs.take i) s
  | [], i, s, _ => by simp [GentleRun]
  | f :: fs, 0, s, _ => by simp [GentleRun]
  | f :: fs, i + 1, s, h => ⟨h.1, fun x s' hs => gentleRun_take fs i s' (h.2 x s' hs)⟩

/-- The condition of a step that is reached in a run. -/
theorem gentleRun_at {c : Site} {m M : ℝ} : ∀ (fs : List Forcing) (i : ℕ) (s0 s : State) (f : Forcing)
    (xs : List (MultiLayer.Fluxes ℝ)), GentleRun c m M fs s0 → fs[i]? = some f → run c (fs.take i) s0 = some (xs, s) →
    m ≤ f.temp ∧ MildWeather c m M f s ∧ Gentle c m M f s
  | [], i, s0, s, f, xs, _, hf, _ => by simp at hf
  | f :: fs, 0, s0, s, f', xs, h, hf, hr => by
    simp only [List.getElem?_cons_zero, Option.some.injEq] at hf
    simp only [List.take_zero, run, Option.some.injEq, Prod.mk.injEq] at hr
    rw [← hf, ← hr.2]
    exact h.1
  | f :: fs, i + 1, s0, s, f', xs, h, hf, hr => by
    simp only [List.getElem?_cons_succ] at hf
    simp only [List.take_succ_cons, run] at hr
    split at hr
    · simp at hr
    rename_i x s1 hst
    split at hr
    · simp at hr
    rename_i ys s2 hrun
    simp only [Option.some.injEq, Prod.mk.injEq] at hr
    obtain ⟨rfl, rfl⟩ := hr
    exact gentleRun_at fs i s1 s2 f' ys (h.2 x s1 hst) hf hrun

theorem lightRun_at {c : Site} : ∀ (fs : List Forcing) (i : ℕ) (s0 s : State) (f : Forcing)
    (xs : List (MultiLayer.Fluxes ℝ)), LightRun c fs s0 → fs[i]? = some f → run c (fs.take i) s0 = some (xs, s) →
    Light c f s.snow
  | [], i, s0, s, f, xs, _, hf, _ => by simp at hf
  | f :: fs, 0, s0, s, f', xs, h, hf, hr => by
    simp only [List.getElem?_cons_zero, Option.some.injEq] at hf
    simp only [List.take_zero, run, Option.some.injEq, Prod.mk.injEq] at hr
    rw [← hf, ← hr.2]
    exact h.1
  | f :: fs, i + 1, s0, s, f', xs, h, hf, hr => by
    simp only [List.getElem?_cons_succ] at hf
    simp only [List.take_succ_cons, run] at hr
    split at hr
    · simp at hr
    rename_i x s1 hst
    split at hr
    · simp at hr
    rename_i ys s2 hrun
    simp only [Option.some.injEq, Prod.mk.injEq] at hr
    obtain ⟨rfl, rfl⟩ := hr
    exact lightRun_at fs i s1 s2 f' ys (h.2 x s1 hst) hf hrun

end aux

/-- **C127.** In a run under these conditions surface, soil and snow temperatures always lie between `m` and `M`. -/
theorem C127_run (c : Site) (h : SiteOK c) (fs : List Forcing) (hf : ∀ f ∈ fs, ForcingOK c f ∧ Natural f)
    (hl : LightRun c fs (initial c)) (m M : ℝ) (hm : 150 ≤ m ∧ m ≤ 270) (hM : 300 ≤ M)
    (hg : GentleRun c m M fs (initial c)) (h1 : m ≤ c.initTemp) (h2 : c.initTemp ≤ M)
    (xs : List (MultiLayer.Fluxes ℝ)) (s : State) (hr : run c fs (initial c) = some (xs, s)) : Within c m M s :=
  (gentle_run h hm hM fs _ s xs hf hl (initial_inv h) hg (initial_within hm h1 h2).1 (initial_within hm h1 h2).2 hr).2.1

/-- **C127.** If moreover `M` is at most 323 K and liquid water is retained up to a fraction of the ice of at most one,
no layer ever melts by its own heat: a run gives NaN only where a thin remainder is left. -/
theorem C127_nan (c : Site) (h : SiteOK c) (fs : List Forcing) (hf : ∀ f ∈ fs, ForcingOK c f ∧ Natural f)
    (hl : LightRun c fs (initial c)) (m M : ℝ) (hm : 150 ≤ m ∧ m ≤ 270) (hM : 300 ≤ M ∧ M ≤ 323)
    (hmf : c.lwcMethod = .massFraction) (hfr : c.maxFrac ≤ 1)
    (hg : GentleRun c m M fs (initial c)) (h1 : m ≤ c.initTemp) (h2 : c.initTemp ≤ M)
    (hr : run c fs (initial c) = none) :
    ∃ (i : ℕ) (f : Forcing) (xs : List (MultiLayer.Fluxes ℝ)) (s : State), fs[i]? = some f ∧
      run c (fs.take i) (initial c) = some (xs, s) ∧ Remainder c f s := by
  obtain ⟨i, f, xs, s, k1, k2, -, k3⟩ := C122_nan_partial c h fs hf hl hr
  refine ⟨i, f, xs, s, k1, k2, ?_⟩
  obtain ⟨hi, hw, hlw⟩ := gentle_run h hm hM.1 (fs.take i) _ s xs (fun f hf' => hf f (List.mem_of_mem_take hf'))
    (lightRun_take fs i _ hl) (initial_inv h) (gentleRun_take fs i _ hg) (initial_within hm h1 h2).1
    (initial_within hm h1 h2).2 k2
  obtain ⟨hf1, hf2⟩ := hf f (List.mem_of_getElem? k1)
  obtain ⟨g1, g2, g3⟩ := gentleRun_at fs i _ s f xs hg k1 k2
  have hlight := lightRun_at fs i _ s f xs hl k1 k2
  rcases k3 with k3 | k3 | k3
  · exfalso
    have := hw.surface.1
    linarith [hm.1]
  · exfalso
    obtain ⟨p, e, p2, q1, q2, q3, L, hL, hot⟩ := k3
    obtain ⟨-, k4⟩ := (C127_step c h f hf1 hf2 s hi hlight m M hm hM.1 g1 g2 g3 hw).2 p e p2 q1 q2 q3
    obtain ⟨⟨-, t2⟩, hcap, L0, hL0, ei, el⟩ := k4 L hL
    obtain ⟨p', hprep, hinv, g, hpg, -⟩ := step_refines h hf1 hi hlight
    rw [q1, Option.some.injEq] at hprep
    subst hprep
    have hice : 0 < L0.ice := hinv.solid.ok.ice_pos hL0 (hinv.solid.thick L0 hL0)
    have hlwc := (hinv.solid.ok.wf.active L0 hL0).2.2
    have hle : L0.lwc ≤ c.maxFrac * L0.ice := by
      have := prepared_lwc hf1 (ts := s.ts) (g := g) h.frac (fun L hL => hlw L hL hmf)
      rw [← hpg] at this
      exact this L0 (List.mem_of_mem_take hL0)
    have hle' : L.lwc ≤ L.ice := by
      rw [ei, el]
      have := mul_le_mul_of_nonneg_right hfr hice.le
      linarith
    rw [← ei] at hice
    rw [← el] at hlwc
    rw [hcap] at hot
    have e1 : (LF : ℝ) = 334000 ∧ (cIce : ℝ) = 2100 ∧ (cWater : ℝ) = 4180 ∧ (T0 : ℝ) = 273.15 := by
      norm_num [LF, cIce, cWater, T0]
    obtain ⟨e1, e2, e3, e4⟩ := e1
    rw [e1, e2, e3, e4] at hot
    have h5 : (L.temp - 273.15) * (L.ice * 2100 + L.lwc * 4180) ≤ 50 * (L.ice * 2100 + L.lwc * 4180) :=
      mul_le_mul_of_nonneg_right (by linarith [hM.2]) (by positivity)
    linarith
  · exact k3

/-! ## Sufficient conditions -/

/-- **C127.** The condition on the soil is a matter of configuration: it holds in every state with non-negative soil
temperatures if it holds for the conductivity of frozen saturated soil and the heat capacity without phase change. -/
theorem C127_soil (c : Site) (h : SiteOK c)
    (hc : 2 * (c.soil.condDry * (Soil.kIce / Soil.kAir) ^ c.soil.sat) * c.dt ≤
      soilDx c 0 * ((c.soil.capDry + 2100000 * c.moisture) * soilDx c 0)) (s : State) (hs : 0 ≤ s.soilTemp 0) :
    2 * soilLam c s 0 * c.dt ≤ soilDx c 0 * soilHc c s 0 := by
  have hdx := soilDx0_pos h
  obtain ⟨-, k1, -, -, k2, -⟩ := Soil.C81_conductivity c.soil h.soil c.moisture (s.soilTemp 0) h.moisture h.moisture_le
  obtain ⟨k3, -, -⟩ := Soil.C81_heat_capacity c.soil h.soil c.moisture (s.soilTemp 0) (soilDx c 0) h.moisture.le hs hdx
  have hdt := h.dt
  have h1 : 2 * soilLam c s 0 * c.dt ≤ 2 * (c.soil.condDry * (Soil.kIce / Soil.kAir) ^ c.soil.sat) * c.dt := by
    have : soilLam c s 0 ≤ c.soil.condDry * (Soil.kIce / Soil.kAir) ^ c.soil.sat := k1.trans k2
    gcongr
  have h2 : soilDx c 0 * ((c.soil.capDry + 2100000 * c.moisture) * soilDx c 0) ≤ soilDx c 0 * soilHc c s 0 := by
    have : (c.soil.capDry + 2100000 * c.moisture) * soilDx c 0 ≤ soilHc c s 0 := by
      simp only [soilHc]; linarith
    gcongr
  linarith

/-- **C127.** The condition on the snow holds if the top layer is at least as thick as the top soil layer and twice
its conductivity times the time step is at most thickness times heat capacity. -/
theorem C127_thick (c : Site) (h : SiteOK c) (f : Forcing) (s : State) (p : Pixel ℝ) (a m M : ℝ)
    (hth : soilDx c 0 ≤ top Layer.thick p)
    (hst : 2 * c.snowCond * c.dt ≤ top Layer.thick p * top Layer.heatCap p)
    (ht : m ≤ top Layer.temp p ∧ top Layer.temp p ≤ M)
    (hs : m ≤ (surfacePixel c f s p a).energyBalance.ts ∧ (surfacePixel c f s p a).energyBalance.ts ≤ M) :
    top Layer.heatCap p * (m - top Layer.temp p) ≤ c.dt * (surfacePixel c f s p a).energyBalance.ground ∧
      c.dt * (surfacePixel c f s p a).energyBalance.ground ≤ top Layer.heatCap p * (M - top Layer.temp p) := by
  have hdx := soilDx0_pos h
  have hth0 : 0 < top Layer.thick p := lt_of_lt_of_le hdx hth
  have hk := h.snowCond
  have hground := (Surface.C79_new_fluxes (surfacePixel c f s p a)).2
  have e1 : (surfacePixel c f s p a).layerTemp = top Layer.temp p :=
    (Surface.C77_layer_temp _ (soilDx c 0) _ _ hth0.le hdx).2.2.2 hth
  have e2 : (surfacePixel c f s p a).layerThick = top Layer.thick p := max_eq_left hth
  have e3 : (surfacePixel c f s p a).layerCond = c.snowCond := by
    simp only [surfacePixel, Surface.layerCond]
    rw [if_neg (by linarith)]
  rw [e1, e2, e3] at hground
  rw [hground, show ∀ x y : ℝ, 2 * c.snowCond * (x - y) / top Layer.thick p =
    2 * c.snowCond / top Layer.thick p * (x - y) from fun x y => by ring]
  exact no_overshoot (by positivity) h.dt.le le_rfl (by rw [div_mul_eq_mul_div, div_le_iff₀ hth0]; linarith) hs ht

/-! ## Witnesses -/

theorem exSite_soil : 2 * (exSite.soil.condDry * (Soil.kIce / Soil.kAir) ^ exSite.soil.sat) * exSite.dt ≤
    soilDx exSite 0 * ((exSite.soil.capDry + 2100000 * exSite.moisture) * soilDx exSite 0) := by
  have h1 : ((Soil.kIce / Soil.kAir : ℝ)) ^ (2 / 5 : ℝ) ≤ 10 := by
    have h2 : (1 : ℝ) ≤ Soil.kIce / Soil.kAir := by norm_num [Soil.kIce, Soil.kAir]
    have h3 : (Soil.kIce / Soil.kAir : ℝ) ≤ 100 := by norm_num [Soil.kIce, Soil.kAir]
    calc (Soil.kIce / Soil.kAir : ℝ) ^ (2 / 5 : ℝ) ≤ (Soil.kIce / Soil.kAir : ℝ) ^ (1 / 2 : ℝ) :=
          Real.rpow_le_rpow_of_exponent_le h2 (by norm_num)
      _ ≤ (100 : ℝ) ^ (1 / 2 : ℝ) := Real.rpow_le_rpow (by linarith) h3 (by norm_num)
      _ = 10 := by
        rw [← Real.sqrt_eq_rpow, show (100 : ℝ) = 10 ^ 2 by norm_num]
        exact Real.sqrt_sq (by norm_num)
  have e : exSite.soil.sat = 2 / 5 := rfl
  rw [e]
  norm_num [exSite, soilDx] at h1 ⊢
  linarith

/-- The conditions of `C127_step` and `C127_run` are met by a day with sunshine and rain on bare ground. -/
example : GentleRun exSite 240 350 [exDay] (initial exSite) ∧ 240 ≤ exSite.initTemp ∧ exSite.initTemp ≤ 350 := by
  refine ⟨⟨⟨by norm_num [exDay], fun p a h1 h2 _ _ => exDay_mild p a h1 h2, ?_, ?_, ?_⟩, fun _ _ _ => trivial⟩,
    by norm_num [exSite], by norm_num [exSite]⟩
  all_goals try
    have hbare : ∀ p, prepare exSite exDay (initial exSite) = some p → p.n = 0 := by
      intro p hprep
      have hl : Light exSite exDay (initial exSite).snow := by
        intro _ q hq L hL
        simp only [compaction, initial, List.take_zero] at hq
        split at hq
        · simp at hq
        · simp only [Option.some.injEq] at hq
          subst hq
          simp [Pixel.setActive] at hL
      obtain ⟨p', hprep', hinv, g, hpg, -⟩ := step_refines exSite_ok exDay_ok.1 (initial_inv exSite_ok) hl
      rw [hprep, Option.some.injEq] at hprep'
      subst hprep'
      rw [hpg]
      simp [prepared, MultiLayer.updateHeatCap, ageing, MultiLayer.accumulation, exDay, MultiLayer.compact,
        Pixel.setActive, initial]
  · intro p e h1 _ h3
    rw [hbare p h1] at h3
    exact absurd h3 (lt_irrefl 0)
  · exact C127_soil exSite exSite_ok exSite_soil _ (by norm_num [initial, exSite])
  · intro p e x s' h1 _ _ h3
    rw [hbare p h1] at h3
    exact absurd h3 (lt_irrefl 0)

/-- The site of the other examples with water retained in proportion to the mass of the ice. -/
noncomputable def exMassSite : Site := { exSite with lwcMethod := .massFraction }

theorem exMassSite_ok : SiteOK exMassSite := by
  constructor <;> norm_num [exMassSite, exSite]
  · constructor <;> norm_num
  · intro e he; simp at he
  · simp
  · constructor <;> norm_num
  · simp

/-- The day of the other examples with half of the sunshine. -/
noncomputable def dullDay : Forcing := { exDay with swIn := 150 }

theorem dullDay_ok : ForcingOK exMassSite dullDay ∧ Natural dullDay := by
  refine ⟨⟨?_, ?_, ?_⟩, (by constructor <;> norm_num [dullDay, exDay])⟩ <;> norm_num [dullDay, exDay]

theorem dullDay_mild : MildStep exMassSite 240 320 dullDay (initial exMassSite) := by
  intro p a hprep ha
  have hl : Light exMassSite dullDay (initial exMassSite).snow := by
    intro _ q hq L hL
    simp only [compaction, initial, List.take_zero] at hq
    split at hq
    · simp at hq
    · simp only [Option.some.injEq] at hq
      subst hq
      simp [Pixel.setActive] at hL
  obtain ⟨p', hprep', hinv, g, hpg, -⟩ := step_refines exMassSite_ok dullDay_ok.1 (initial_inv exMassSite_ok) hl
  rw [hprep, Option.some.injEq] at hprep'
  subst hprep'
  have hpn : p.n = 0 := by
    rw [hpg]
    simp [prepared, MultiLayer.updateHeatCap, ageing, MultiLayer.accumulation, dullDay, exDay, MultiLayer.compact,
      Pixel.setActive, initial]
  have hdep : fraction exMassSite p = 0 := by
    have hdepth : Snow.depth (p.layers.map toD) = MultiLayer.depth p := by
      simp [Snow.depth, MultiLayer.depth, toD, Function.comp_def]
    have hd := wf_depth_zero hinv.solid.ok.wf hpn
    obtain ⟨-, -, -, hfz, -⟩ := Snow.C27_area_fraction exMassSite.depthScale (p.layers.map toD)
      (by rw [hdepth, hd])
    exact hfz.mpr (by rw [hdepth, hd])
  have hal : a = 1 / 5 := by
    rw [hdep, (Surface.C77_albedo 0 le_rfl zero_le_one 0 exMassSite.soilAlbedo).2.1 p.albedo] at ha
    exact (Option.some.inj ha).symm
  have htop : top Layer.thick p = 0 := by
    unfold top
    cases hlay : p.layers with
    | nil => rfl
    | cons L Ls => exact (hinv.solid.ok.wf.inactive L (by rw [hpn, hlay]; simp)).1
  have hlt : (surfacePixel exMassSite dullDay (initial exMassSite) p a).layerTemp = 280 := by
    simp only [surfacePixel, htop]
    exact (Surface.C77_layer_temp 0 (soilDx exMassSite 0) _ _ le_rfl (by norm_num [soilDx, exMassSite, exSite])).2.2.1
  have hcond : 0 ≤ 2 * (surfacePixel exMassSite dullDay (initial exMassSite) p a).layerCond * (320 - 280) /
      (surfacePixel exMassSite dullDay (initial exMassSite) p a).layerThick := by
    obtain ⟨a', ha', hphys, -⟩ := C122_energy exMassSite exMassSite_ok dullDay dullDay_ok.2 (initial exMassSite)
      (by norm_num [initial, exMassSite, exSite]) p hinv
    rw [ha, Option.some.injEq] at ha'
    subst ha'
    have := hphys.layerCond; have := hphys.layerThick
    positivity
  subst hal
  refine ⟨by norm_num, by norm_num, by norm_num, by norm_num, ?_, ?_, ?_, ?_, ?_, ?_, by rw [hlt]; norm_num,
    by rw [hlt]; norm_num, ?_, ?_⟩
  · norm_num [surfacePixel, dullDay, exDay]
  · norm_num [surfacePixel, dullDay, exDay]
  · norm_num [surfacePixel, dullDay, exDay]
  · intro t _ _; norm_num [surfacePixel, dullDay, exDay]
  · norm_num [surfacePixel, dullDay, exDay]
  · norm_num [surfacePixel, dullDay, exDay]
  · norm_num [Surface.gained, surfacePixel, dullDay, exDay, exMassSite, exSite, initial, Surface.sigma, Surface.cWater, Surface.cIce]
  · rw [hlt]
    refine le_add_of_le_of_nonneg ?_ hcond
    norm_num [Surface.gained, surfacePixel, dullDay, exDay, exMassSite, exSite, initial, Surface.sigma, Surface.cWater, Surface.cIce]

/-- The conditions of `C127_nan`, up to the failure of the run. -/
example : GentleRun exMassSite 240 320 [dullDay] (initial exMassSite) ∧ 240 ≤ exMassSite.initTemp ∧
    exMassSite.initTemp ≤ 320 ∧ exMassSite.lwcMethod = .massFraction ∧ exMassSite.maxFrac ≤ 1 := by
  refine ⟨⟨⟨by norm_num [dullDay, exDay], fun p a h1 h2 _ _ => dullDay_mild p a h1 h2, ?_, ?_, ?_⟩, fun _ _ _ => trivial⟩,
    by norm_num [exMassSite, exSite], by norm_num [exMassSite, exSite], rfl, by norm_num [exMassSite, exSite]⟩
  all_goals try
    have hbare : ∀ p, prepare exMassSite dullDay (initial exMassSite) = some p → p.n = 0 := by
      intro p hprep
      have hl : Light exMassSite dullDay (initial exMassSite).snow := by
        intro _ q hq L hL
        simp only [compaction, initial, List.take_zero] at hq
        split at hq
        · simp at hq
        · simp only [Option.some.injEq] at hq
          subst hq
          simp [Pixel.setActive] at hL
      obtain ⟨p', hprep', hinv, g, hpg, -⟩ := step_refines exMassSite_ok dullDay_ok.1 (initial_inv exMassSite_ok) hl
      rw [hprep, Option.some.injEq] at hprep'
      subst hprep'
      rw [hpg]
      simp [prepared, MultiLayer.updateHeatCap, ageing, MultiLayer.accumulation, dullDay, exDay, MultiLayer.compact,
        Pixel.setActive, initial]
  · intro p e h1 _ h3
    rw [hbare p h1] at h3
    exact absurd h3 (lt_irrefl 0)
  · exact C127_soil exMassSite exMassSite_ok exSite_soil _ (by norm_num [initial, exMassSite, exSite])
  · intro p e x s' h1 _ _ h3
    rw [hbare p h1] at h3
    exact absurd h3 (lt_irrefl 0)

/-- The conditions of `C127_thick` on a layer of 15 cm of snow of 100 kg m-3 at the site with hourly time steps. -/
example (alb : Option ℝ) (Ls : List (Layer ℝ)) :
    soilDx exSite 0 ≤ top Layer.thick ⟨1, ⟨15 / 100, 15, 0, 265, 31500⟩ :: Ls, alb⟩ ∧
      2 * exSite.snowCond * exSite.dt ≤ top Layer.thick ⟨1, ⟨15 / 100, 15, 0, 265, 31500⟩ :: Ls, alb⟩ *
        top Layer.heatCap ⟨1, ⟨15 / 100, 15, 0, 265, 31500⟩ :: Ls, alb⟩ := by
  norm_num [exSite, soilDx, top]

end Verif.Coupled
