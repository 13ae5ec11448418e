import Verif.Model.MultiLayerStep
import Verif.Props.MeltML
import Verif.Props.SublML
import Verif.Props.RunoffML
import Verif.Props.RelayerML

/-! Helper lemmas: plausibility of the snowpack is preserved by all parts of a time step. -/

set_option linter.unusedSectionVars false

namespace Verif

variable {K : Type*} [Field K] [LinearOrder K] [IsStrictOrderedRing K]

theorem cumProfile_le (ρ : K) (hρ : 0 ≤ ρ) (col : List (K × K))
    (h : ∀ x ∈ col, 0 ≤ x.1 ∧ x.2 ≤ ρ * x.1) : ∀ z, 0 ≤ z → cumProfile col z ≤ ρ * z := by
  induction col with
  | nil => intro z hz; simpa [cumProfile] using mul_nonneg hρ hz
  | cons x col ih =>
    intro z hz
    obtain ⟨t, m⟩ := x
    obtain ⟨ht, hm⟩ := h (t, m) (by simp)
    simp only at ht hm
    simp only [cumProfile, smul_eq_mul]
    split_ifs with a
    · have := ih (fun y hy => h y (by simp [hy])) (z - t) (by linarith)
      have e : ρ * (z - t) = ρ * z - ρ * t := by ring
      linarith
    · have ht' : 0 < t := lt_of_le_of_lt hz (not_le.mp a)
      calc z / t * m ≤ z / t * (ρ * t) := mul_le_mul_of_nonneg_left hm (div_nonneg hz ht)
        _ = ρ * z := by field_simp

theorem cumProfile_lip (ρ : K) (hρ : 0 ≤ ρ) (col : List (K × K))
    (h : ∀ x ∈ col, 0 ≤ x.1 ∧ x.2 ≤ ρ * x.1) :
    ∀ z1 z2, 0 ≤ z1 → z1 ≤ z2 → cumProfile col z2 - cumProfile col z1 ≤ ρ * (z2 - z1) := by
  induction col with
  | nil =>
    intro z1 z2 h0 h1
    have := mul_nonneg hρ (sub_nonneg.mpr h1)
    simpa [cumProfile] using this
  | cons x col ih =>
    intro z1 z2 h0 h1
    obtain ⟨t, m⟩ := x
    obtain ⟨ht, hm⟩ := h (t, m) (by simp)
    simp only at ht hm
    have hcol : ∀ y ∈ col, 0 ≤ y.1 ∧ y.2 ≤ ρ * y.1 := fun y hy => h y (by simp [hy])
    simp only [cumProfile, smul_eq_mul]
    by_cases a : t ≤ z1
    · have b : t ≤ z2 := le_trans a h1
      simp only [a, b, if_true]
      have := ih hcol (z1 - t) (z2 - t) (by linarith) (by linarith)
      have e : z2 - t - (z1 - t) = z2 - z1 := by ring
      rw [e] at this
      linarith
    · have a' := not_le.mp a
      have ht' : 0 < t := lt_of_le_of_lt h0 a'
      simp only [a, if_false]
      split_ifs with b
      · have h3 := cumProfile_le ρ hρ col hcol (z2 - t) (by linarith)
        have h4 : m - z1 / t * m = (t - z1) / t * m := by field_simp
        have h5 : (t - z1) / t * m ≤ (t - z1) / t * (ρ * t) :=
          mul_le_mul_of_nonneg_left hm (div_nonneg (by linarith) ht)
        have h6 : (t - z1) / t * (ρ * t) = ρ * (t - z1) := by field_simp
        have h7 : ρ * (z2 - z1) = ρ * (z2 - t) + ρ * (t - z1) := by ring
        linarith
      · have h4 : z2 / t * m - z1 / t * m = (z2 - z1) / t * m := by ring
        have h5 : (z2 - z1) / t * m ≤ (z2 - z1) / t * (ρ * t) :=
          mul_le_mul_of_nonneg_left hm (div_nonneg (by linarith) ht)
        have h6 : (z2 - z1) / t * (ρ * t) = ρ * (z2 - z1) := by field_simp
        linarith

namespace MultiLayer

theorem LayerOK.shrink {m : LwcMethod} {L L' : Layer K} (h : LayerOK m L) (ht : 0 ≤ L.thick)
    (hi : 0 ≤ L.ice) (hi' : 0 ≤ L'.ice) (hle : L'.ice ≤ L.ice)
    (ht' : 0 ≤ L'.thick) (htle : L'.thick ≤ L.thick)
    (hp : 0 < L.ice → L'.thick * L.ice = L.thick * L'.ice) : LayerOK m L' := by
  obtain ⟨h1, h2⟩ := h
  rcases hi.eq_or_lt with hz | hz
  · have hth : L.thick = 0 := h1.mpr hz.symm
    have a : L'.ice = 0 := by linarith
    have b : L'.thick = 0 := by linarith
    exact ⟨by simp [a, b], fun _ => by rw [a, b]; simp⟩
  · have hth : 0 < L.thick := lt_of_le_of_ne ht fun e => hz.ne' (h1.mp e.symm)
    have e := hp hz
    refine ⟨⟨fun h => ?_, fun h => ?_⟩, fun hm => ?_⟩
    · rw [h, zero_mul] at e
      exact (mul_eq_zero.mp e.symm).resolve_left hth.ne'
    · rw [h, mul_zero] at e
      exact (mul_eq_zero.mp e).resolve_right hz.ne'
    · have := h2 hm
      have : L'.ice * L.ice ≤ iceDensity * L'.thick * L.ice := by
        rw [mul_assoc, e]
        calc L'.ice * L.ice ≤ L'.ice * (iceDensity * L.thick) :=
              mul_le_mul_of_nonneg_left this hi'
          _ = _ := by ring
      exact le_of_mul_le_mul_right this hz

theorem PackOK.setActive {m : LwcMethod} {s : ℕ} {p : Pixel K} (hp : PackOK m s p)
    {Ls : List (Layer K)} (hl : Ls.length = (p.layers.take p.n).length)
    (h : ∀ L ∈ Ls, (0 ≤ L.thick ∧ 0 ≤ L.ice ∧ 0 ≤ L.lwc) ∧ LayerOK m L) :
    PackOK m s (p.setActive Ls) where
  wf := hp.wf.setActive hl fun L hL => (h L hL).1
  slots_eq := by rw [setActive_length p Ls hp.wf.n_le hl]; exact hp.slots_eq
  layers := by
    show ∀ L ∈ (p.setActive Ls).layers.take p.n, _
    rw [setActive_take p Ls hp.wf.n_le hl p.n le_rfl]
    intro L hL
    exact (h L (List.mem_of_mem_take hL)).2

theorem PackOK.melt {m : LwcMethod} {s : ℕ} {p : Pixel K} (hp : PackOK m s p) (d : K) (hd : 0 ≤ d) :
    PackOK m s (melt d p).2 := by
  obtain ⟨h1, -⟩ := meltLoop_spec (p.layers.take p.n) ⟨d, 0⟩ hd
    (fun L hL => (hp.wf.active L hL).2.1)
  refine hp.setActive (meltLoop_length ⟨d, 0⟩ (p.layers.take p.n)) fun L' hL' => ?_
  obtain ⟨L, hL, hr⟩ := forall₂_mem_right h1 L' hL'
  obtain ⟨a, b, c⟩ := hp.wf.active L hL
  have hle := hr.ice_le
  refine ⟨⟨hr.thick_nonneg a, hr.ice_nonneg, by rw [hr.lwc_eq]; linarith⟩, ?_⟩
  exact (hp.layers L hL).shrink a b hr.ice_nonneg hr.ice_le (hr.thick_nonneg a) (hr.thick_le a)
    hr.thick_prop

theorem PackOK.sublKernel {m : LwcMethod} {s : ℕ} {p q : Pixel K} (hp : PackOK m s p) (d : K)
    (h : sublKernel d p = some q) : PackOK m s q := by
  simp only [MultiLayer.sublKernel] at h
  split_ifs at h with h0
  · simp only [Option.bind_eq_bind, Option.bind_eq_some_iff, Option.pure_def,
      Option.some.injEq] at h
    obtain ⟨⟨c', Ls'⟩, hl, rfl⟩ := h
    obtain ⟨h1, -, -⟩ := sublLoop_spec _ _ h0.le (fun L hL => (hp.wf.active L hL).2.1) c' Ls' hl
    refine hp.setActive h1.length_eq.symm fun L' hL' => ?_
    obtain ⟨L, hL, hr⟩ := forall₂_mem_right h1 L' hL'
    obtain ⟨a, b, c⟩ := hp.wf.active L hL
    refine ⟨⟨hr.thick_nonneg a, hr.ice_nonneg, by rw [hr.lwc_eq]; exact c⟩, ?_⟩
    exact (hp.layers L hL).shrink a b hr.ice_nonneg hr.ice_le (hr.thick_nonneg a) (hr.thick_le a)
      hr.thick_prop
  · simp only [Option.pure_def, Option.some.injEq] at h
    rw [← h]; exact hp

theorem PackOK.addSnow {m : LwcMethod} {s : ℕ} {p : Pixel K} (hp : PackOK m s p) (hs : 1 ≤ s)
    (a t d x : K) (hd : 0 < d) (hd' : m = .poreVolume → d ≤ iceDensity) (hx : 0 < x) :
    PackOK m s (addSnow a t d (some x) 0 p) := by
  have hne : p.layers ≠ [] := by
    intro h; have := hp.slots_eq; rw [h] at this; simp at this; omega
  have hwf : WF (MultiLayer.addSnow a t d (some x) 0 p) := by
    have := C19_add_snow a t d (some x) 0 p hp.wf hne hd (fun m h => by
      simp at h; rw [← h]; exact hx.le) rfl
    exact this.2.2.2.1
  obtain ⟨n, layers, alb⟩ := p
  obtain ⟨L, Ls, rfl⟩ := List.exists_cons_of_ne_nil hne
  have h0 := hp.wf.all L (by simp)
  have hxd : 0 < x / d := div_pos hx hd
  have hL : ∀ L' : Layer K, L'.thick = L.thick + x / d → L'.ice = L.ice + x →
      (m = .poreVolume → L.ice ≤ iceDensity * L.thick) → LayerOK m L' := by
    intro L' e1 e2 h3
    have p1 : 0 < L'.thick := by rw [e1]; linarith [h0.1]
    have p2 : 0 < L'.ice := by rw [e2]; linarith [h0.2.1]
    refine ⟨⟨fun h => absurd h p1.ne', fun h => absurd h p2.ne'⟩, fun hm => ?_⟩
    rw [e1, e2, mul_add]
    have : x ≤ iceDensity * (x / d) := by
      calc x = d * (x / d) := by field_simp
        _ ≤ iceDensity * (x / d) := mul_le_mul_of_nonneg_right (hd' hm) hxd.le
    linarith [h3 hm]
  refine ⟨hwf, by simpa [MultiLayer.addSnow] using hp.slots_eq, ?_⟩
  intro L' hL'
  by_cases hn : n = 0
  · subst hn
    have hin := hp.wf.inactive L (by simp)
    simp [MultiLayer.addSnow, nanToZero, hx] at hL'
    subst hL'
    exact hL _ rfl rfl fun _ => by rw [hin.1, hin.2.1]; simp
  · obtain ⟨k, rfl⟩ : ∃ k, n = k + 1 := ⟨n - 1, by omega⟩
    simp [MultiLayer.addSnow, nanToZero] at hL'
    rcases hL' with rfl | hL'
    · exact hL _ rfl rfl (hp.layers L (by simp)).2
    · exact hp.layers L' (by simp [hL'])

/-- Raising the ice content of a layer by refrozen water keeps it plausible. -/
theorem maxLwc_facts {m : LwcMethod} {f : K} {L : Layer K} (h : LayerOK m L)
    (hf : 0 ≤ f) (ht : 0 ≤ L.thick) (hi : 0 ≤ L.ice)
    (hf' : m = .poreVolume → waterDensity * f ≤ iceDensity) :
    0 ≤ maxLwc m f L.thick L.ice ∧ (L.thick = 0 → maxLwc m f L.thick L.ice = 0) ∧
      (m = .poreVolume → L.ice + maxLwc m f L.thick L.ice ≤ iceDensity * L.thick) := by
  have hρ : (0 : K) < iceDensity := iceDensity_pos
  have hw : (0 : K) < waterDensity := waterDensity_pos
  cases m with
  | massFraction =>
    refine ⟨mul_nonneg hf hi, fun h0 => ?_, by simp⟩
    simp [maxLwc, h.1.mp h0]
  | poreVolume =>
    have h2 := h.2 rfl
    have hf2 := hf' rfl
    simp only [maxLwc]
    rcases ht.eq_or_lt with h0 | h0
    · have hi0 := h.1.mp h0.symm
      simp [← h0, hi0]
    · simp only [h0, if_true]
      have e : waterDensity * L.thick * (1 - L.ice / (iceDensity * L.thick)) * f
          = waterDensity * f * ((iceDensity * L.thick - L.ice) / iceDensity) := by
        field_simp
      rw [e]
      have hnn : 0 ≤ (iceDensity * L.thick - L.ice) / iceDensity :=
        div_nonneg (by linarith) hρ.le
      refine ⟨mul_nonneg (mul_nonneg hw.le hf) hnn, fun h => absurd h h0.ne', fun _ => ?_⟩
      have : waterDensity * f * ((iceDensity * L.thick - L.ice) / iceDensity)
          ≤ iceDensity * ((iceDensity * L.thick - L.ice) / iceDensity) :=
        mul_le_mul_of_nonneg_right hf2 hnn
      rw [mul_div_cancel₀ _ hρ.ne'] at this
      linarith

theorem PackOK.runoff {m : LwcMethod} {s : ℕ} {p : Pixel K} (hp : PackOK m s p) (f : K)
    (rain : Option K) (hr : 0 ≤ rain.getD 0) (hf : 0 ≤ f)
    (hf' : m = .poreVolume → waterDensity * f ≤ iceDensity) :
    PackOK m s (runoff m f rain p).2.2 := by
  have hcap : ∀ L ∈ p.layers.take p.n, _ := fun L hL =>
    maxLwc_facts (hp.layers L hL) hf (hp.wf.active L hL).1 (hp.wf.active L hL).2.1 hf'
  obtain ⟨-, -, hwf, hb⟩ := C15_runoff_bounds m f rain p hp.wf hr (fun L hL => (hcap L hL).1)
  obtain ⟨hA, -, -⟩ := C15_runoff_per_layer m f rain p hp.wf.n_le
  have hlen := runoff_hlen m f ⟨nanToZero rain, 0⟩ p
  refine ⟨hwf, ?_, ?_⟩
  · have : (MultiLayer.runoff m f rain p).2.2.layers.length = p.layers.length :=
      setActive_length p _ hp.wf.n_le hlen
    rw [this, hp.slots_eq]
  · intro L' hL'
    obtain ⟨k, hk, hg⟩ := mem_take_get hL'
    have hk' : k < p.n := hk
    have hlt : k < p.layers.length := lt_of_lt_of_le hk' hp.wf.n_le
    have hgp : p.layers[k]? = some p.layers[k] := List.getElem?_eq_getElem hlt
    obtain ⟨L'', e1, -, e3, -, -, e6⟩ := hA k _ hk' hgp
    rw [hg] at e1
    obtain rfl := Option.some.inj e1
    obtain ⟨b1, b2, b3, -⟩ := hb k _ L' hk' hgp hg
    obtain ⟨L, hLdef⟩ : ∃ L, p.layers[k] = L := ⟨_, rfl⟩
    rw [hLdef] at hgp e3 e6 b2 b3
    have hmem : L ∈ p.layers.take p.n :=
      List.mem_of_getElem? (i := k) (by rw [List.getElem?_take_of_lt hk']; exact hgp)
    obtain ⟨c1, c2, c3⟩ := hcap L hmem
    have hok := hp.layers L hmem
    have hwL := hp.wf.active L hmem
    have hmass : L'.ice ≤ L.ice + maxLwc m f L.thick L.ice := by
      have := min_le_right (L.lwc + inflow rain p (MultiLayer.runoff m f rain p).2.2 k)
        (maxLwc m f L.thick L.ice)
      linarith
    refine ⟨⟨fun h => ?_, fun h => ?_⟩, fun hm => ?_⟩
    · rw [e6] at h
      have := c2 h
      have := hok.1.mp h
      linarith
    · rw [e6]
      exact hok.1.mpr (by linarith [hwL.2.1])
    · rw [e6]; linarith [c3 hm]

/-- After runoff a layer holds no more ice and water than ice of its volume (pore volume method). -/
theorem PackOK.runoff_mass_le {s : ℕ} {p : Pixel K} (hp : PackOK .poreVolume s p) (f : K)
    (rain : Option K) (hr : 0 ≤ rain.getD 0) (hf : 0 ≤ f) (hf' : waterDensity * f ≤ iceDensity) :
    swe (MultiLayer.runoff .poreVolume f rain p).2.2
      ≤ iceDensity * depth (MultiLayer.runoff .poreVolume f rain p).2.2 := by
  have hok := hp.runoff f rain hr hf (fun _ => hf')
  obtain ⟨hA, -, -⟩ := C15_runoff_per_layer .poreVolume f rain p hp.wf.n_le
  obtain ⟨q, hq⟩ : ∃ q, (MultiLayer.runoff .poreVolume f rain p).2.2 = q := ⟨_, rfl⟩
  have hqn : q.n = p.n := by rw [← hq]; rfl
  rw [hq] at hok hA ⊢
  unfold swe depth
  rw [← hok.wf.sum_active (f := fun L => L.ice + L.lwc) (fun L h => by rw [h.2.1, h.2.2, add_zero]),
    ← hok.wf.sum_active (f := Layer.thick) (fun L h => h.1), ← List.sum_map_mul_left]
  apply List.sum_le_sum
  intro L' hL'
  obtain ⟨k, hk, hg⟩ := mem_take_get hL'
  have hk' : k < p.n := by omega
  have hlt : k < p.layers.length := lt_of_lt_of_le hk' hp.wf.n_le
  have hgp : p.layers[k]? = some p.layers[k] := List.getElem?_eq_getElem hlt
  obtain ⟨L'', e1, -, e3, -, -, e6⟩ := hA k _ hk' hgp
  rw [hg] at e1
  obtain rfl := Option.some.inj e1
  have hmem : p.layers[k] ∈ p.layers.take p.n :=
    List.mem_of_getElem? (i := k) (by rw [List.getElem?_take_of_lt hk']; exact hgp)
  obtain ⟨-, -, c3⟩ := maxLwc_facts (hp.layers _ hmem) hf (hp.wf.active _ hmem).1
    (hp.wf.active _ hmem).2.1 (fun _ => hf')
  rw [e3, e6]
  exact le_trans (add_le_add_right (min_le_right _ _) _) (c3 rfl)

theorem PackOK.updateHeatCap {m : LwcMethod} {s : ℕ} {p : Pixel K} (hp : PackOK m s p) :
    PackOK m s (updateHeatCap p) := by
  refine ⟨⟨by simpa [MultiLayer.updateHeatCap] using hp.wf.n_le, ?_, ?_⟩,
    by simpa [MultiLayer.updateHeatCap] using hp.slots_eq, ?_⟩
  · intro L hL
    simp only [MultiLayer.updateHeatCap, ← List.map_take] at hL
    obtain ⟨L0, h0, rfl⟩ := List.mem_map.mp hL
    exact hp.wf.active L0 h0
  · intro L hL
    simp only [MultiLayer.updateHeatCap, ← List.map_drop] at hL
    obtain ⟨L0, h0, rfl⟩ := List.mem_map.mp hL
    exact hp.wf.inactive L0 h0
  · intro L hL
    simp only [MultiLayer.updateHeatCap, ← List.map_take] at hL
    obtain ⟨L0, h0, rfl⟩ := List.mem_map.mp hL
    exact hp.layers L0 h0

theorem PackOK.conduct {m : LwcMethod} {s : ℕ} {p : Pixel K} (hp : PackOK m s p) (f : ℕ → K) :
    PackOK m s (conduct f p) := by
  refine hp.setActive (by simp) fun L hL => ?_
  obtain ⟨k, hk, rfl⟩ := List.mem_mapIdx.mp hL
  have h1 := hp.wf.active _ (List.getElem_mem hk)
  have h2 := hp.layers _ (List.getElem_mem hk)
  exact ⟨h1, h2⟩

theorem PackOK.compact {m : LwcMethod} {s : ℕ} {p : Pixel K} (hp : PackOK m s p)
    (f : List (Layer K) → ℕ → K)
    (hf : ∀ (Ls : List (Layer K)) (k : ℕ) (L : Layer K), Ls[k]? = some L → 0 ≤ L.thick →
      0 ≤ L.ice → LayerOK m L → 0 ≤ f Ls k ∧ LayerOK m { L with thick := f Ls k }) :
    PackOK m s (compact f p) := by
  refine hp.setActive (by simp) fun L hL => ?_
  obtain ⟨k, hk, rfl⟩ := List.mem_mapIdx.mp hL
  obtain ⟨a, b, c⟩ := hp.wf.active _ (List.getElem_mem hk)
  obtain ⟨d, e⟩ := hf (p.layers.take p.n) k _ (List.getElem?_eq_getElem hk) a b
    (hp.layers _ (List.getElem_mem hk))
  exact ⟨⟨d, b, c⟩, e⟩

/-- Relayering yields a plausible snowpack. -/
theorem PackOK.updateLayers {m : LwcMethod} {p q : Pixel K} {minTh : List K}
    (hp : PackOK m minTh.length p) (hne : minTh ≠ []) (hm : ∀ m ∈ minTh, 1 / 1000000 ≤ m)
    (h : updateLayers minTh p = some q) : PackOK m minTh.length q := by
  by_cases hd : 1 / 1000000 ≤ depth p
  · have hgeom := C17_layer_geometry minTh p q hne hm hp.wf hd h
    have hprof := C16_relayering_profile minTh p q hne hm hp.wf hd h
    obtain ⟨-, -, -, -, hwf, -⟩ := C16_relayering_conserves minTh p q hne hm hp.wf hd h
    refine ⟨hwf, hgeom.1.2.2.1, ?_⟩
    intro L hL
    obtain ⟨k, hk, hg⟩ := mem_take_get hL
    have hth := (hgeom.2 k L hg).1 hk
    have hice := hprof k hk L hg Layer.ice (by simp)
    have htop0 : 0 ≤ topOf q k :=
      sum_map_nonneg _ _ fun x hx => (hwf.all x (List.mem_of_mem_take hx)).1
    have htop1 : topOf q (k + 1) = topOf q k + L.thick :=
      sum_map_take_succ Layer.thick q.layers k L hg
    have htop2 : topOf q (k + 1) ≤ depth p := by
      rw [← hgeom.1.2.2.2, depth, ← sum_map_take_add_drop Layer.thick q.layers (k + 1)]
      have : 0 ≤ ((q.layers.drop (k + 1)).map Layer.thick).sum :=
        sum_map_nonneg _ _ fun x hx => (hwf.all x (List.mem_of_mem_drop hx)).1
      show topOf q (k + 1) ≤ topOf q (k + 1) + _
      linarith
    have hcol : ∀ x ∈ column Layer.ice p, 0 ≤ x.1 ∧ 0 ≤ x.2 := by
      intro x hx
      obtain ⟨L, hL, rfl⟩ := List.mem_map.mp hx
      exact ⟨(hp.wf.active L hL).1, (hp.wf.active L hL).2.1⟩
    have hcol' : ∀ x ∈ column Layer.ice p, 0 < x.1 → 0 < x.2 := by
      intro x hx hx0
      obtain ⟨L, hL, rfl⟩ := List.mem_map.mp hx
      refine lt_of_le_of_ne (hp.wf.active L hL).2.1 fun e => ?_
      exact hx0.ne' ((hp.layers L hL).1.mpr e.symm)
    have hcs : ((column Layer.ice p).map Prod.fst).sum = depth p := by
      rw [depth, ← hp.wf.sum_active (f := Layer.thick) (fun L h => h.1)]
      simp [column, Function.comp_def]
    have hpos1 : ¬ topOf q (k + 1) ≤ 0 := by rw [htop1]; linarith
    have hst := cumProfile_strict _ hcol hcol' (topOf q k) (topOf q (k + 1)) htop0
      (by rw [htop1]; linarith) (by rw [hcs]; exact htop2)
    have hnn := (cumProfile_mono _ hcol _ _ htop0 le_rfl).2
    have hicepos : 0 < L.ice := by
      rw [hice]
      simp only [contentAbove, hpos1, if_false]
      split_ifs <;> linarith
    refine ⟨⟨fun e => absurd e hth.ne', fun e => absurd e hicepos.ne'⟩, fun hpm => ?_⟩
    have hcolρ : ∀ x ∈ column Layer.ice p, 0 ≤ x.1 ∧ x.2 ≤ iceDensity * x.1 := by
      intro x hx
      obtain ⟨L, hL, rfl⟩ := List.mem_map.mp hx
      exact ⟨(hp.wf.active L hL).1, (hp.layers L hL).2 hpm⟩
    have hρ : (0 : K) ≤ iceDensity := iceDensity_pos.le
    rw [hice]
    simp only [contentAbove, hpos1, if_false]
    split_ifs with h0
    · have : topOf q k = 0 := le_antisymm h0 htop0
      have := cumProfile_le iceDensity hρ _ hcolρ (topOf q (k + 1)) (by linarith)
      rw [htop1] at this ⊢
      simp_all
    · have := cumProfile_lip iceDensity hρ _ hcolρ (topOf q k) (topOf q (k + 1)) htop0
        (by linarith)
      rw [htop1] at this ⊢
      simpa using this
  · obtain ⟨h1, -, -, -, -, hwf, -⟩ :=
      C16_thin_snow_deleted minTh p q hne hm (not_le.mp hd) h
    refine ⟨hwf, ?_, by simp [h1]⟩
    simp only [MultiLayer.updateLayers] at h
    split at h
    · split at h
      · simp at h
      · split at h
        · simp only [Option.some.injEq] at h; rw [← h]; simp
        · simp at h
    · simp only [Option.some.injEq] at h; rw [← h]; simp

end MultiLayer

end Verif
