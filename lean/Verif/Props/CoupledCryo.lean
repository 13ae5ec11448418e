import Verif.Lemmas.CoupledCryo

/-!
# C124: the coupled cryolayer model
-/

namespace Verif.CoupledCryo

open Verif.Cryo (CPixel CLayer)

/-! ## Specification -/

/-- A layer at the end of a time step: empty, or with thickness, ice, the density of its mass, and an albedo between
the lowest and the highest configured one. -/
def LayerOK (c : Site) (L : CLayer ℝ) : Prop :=
  (L.thick = 0 ∧ L.ice = 0 ∧ L.lwc = 0 ∧ L.cc = 0) ∨
  (0 < L.thick ∧ 0 < L.ice ∧ 0 ≤ L.lwc ∧ 0 ≤ L.cc ∧ L.dens = some ((L.ice + L.lwc) / L.thick) ∧
    ∃ a, L.alb = some a ∧ snowLow c ≤ a ∧ a ≤ snowHigh c)

/-- One time step of a pixel with mass and water balance, signs of the fluxes, surface temperature and albedo. -/
structure StepOK (c : Site) (f : Forcing) (s : State) (x : Cryo.Fluxes ℝ) (s' : State) : Prop where
  layers : ∀ L ∈ layers s'.snow, LayerOK c L
  ice : s'.snow.iceSum = s.snow.iceSum + f.snow - x.melt + x.refreezing - x.sublimation
  water : s'.snow.lwcSum = s.snow.lwcSum + f.rain + x.melt - x.refreezing - x.runoff
  swe : s'.snow.swe = s.snow.swe + f.snow + f.rain - x.sublimation - x.runoff
  signs : 0 ≤ x.melt ∧ 0 ≤ x.refreezing ∧ 0 ≤ x.runoff
  melt : 0 < x.melt → T0 ≤ f.temp
  refreezing : 0 < x.refreezing → f.temp < T0
  snowy : 0 < s.snow.swe + f.snow → s'.ts ≤ T0 ∧ (T0 ≤ f.temp → s'.ts = T0)
  bare : s.snow.swe + f.snow = 0 → s'.ts = f.temp
  albedo : 0 < s'.snow.swe → ∃ a, s'.snow.albedo = some a ∧ snowLow c ≤ a ∧ a ≤ snowHigh c
  no_albedo : s'.snow.swe = 0 → s'.snow.albedo = none

/-- The pixels of the domain before the first time step. -/
noncomputable def start (c : Site) (idxs : List ℕ) : States := fun i => if i ∈ idxs then some (initial c) else none

/-- In the course of the run compaction leaves no snow layer denser than ice (needed only for retention in the pore
volume), and the balance at the melting point of pixels with snow and frost is at most 360 W m-2 (needed only for the
secant search). See `C124_fair`. -/
def FairRun (c : Site) (idxs : List ℕ) : List (ℕ → Forcing) → States → Prop
  | [], _ => True
  | f :: fs, s => (∀ i ∈ idxs, ∀ si, s i = some si → Light c (f i) si.snow ∧ Mild c (f i) si) ∧
      ∀ x s', step c idxs f s = some (x, s') → FairRun c idxs fs s'

/-! ## Lemmas -/

theorem layerOK_of {c : Site} {L : CLayer ℝ} (h : Cryo.EndLayer L) (ht : Cryo.Tinted (snowLow c) (snowHigh c) L) : LayerOK c L := by
  rcases h.cons with h1 | ⟨h1, h2, h3, h4, h5, d, hd, he⟩
  · exact Or.inl h1
  · exact Or.inr ⟨h1, h.ice h1, h3, h5, by rw [hd, ← he, mul_div_assoc, div_self h1.ne', mul_one], ht h1⟩

theorem layers_ok {c : Site} {p : CPixel ℝ} (hp : Inv c p) : ∀ L ∈ layers p, LayerOK c L := by
  have hpl := palette c
  have hsn : ∀ {L : CLayer ℝ}, Cryo.EndSnow (c.lwcMethod = .poreVolume) c.albedo.min c.albedo.max L →
      Cryo.Tinted (snowLow c) (snowHigh c) L := fun hL ht => by
    obtain ⟨a, a1, a2, a3⟩ := hL.alb ht
    exact ⟨a, a1, hpl.low.trans a2, a3.trans hpl.high⟩
  intro L hL
  simp only [layers, List.mem_cons, List.not_mem_nil, or_false] at hL
  rcases hL with rfl | rfl | rfl | rfl
  · exact layerOK_of hp.pixel.new.toEndLayer (hsn hp.pixel.new)
  · exact layerOK_of hp.pixel.old.toEndLayer (hsn hp.pixel.old)
  · exact layerOK_of hp.pixel.firn hp.firn
  · exact layerOK_of hp.pixel.ice hp.ice

theorem initial_inv (c : Site) : Inv c (initial c).snow := by
  have hE : ∀ {pv : Prop} {lo hi : ℝ}, Cryo.EndSnow pv lo hi (Cryo.emptyLayer : CLayer ℝ) := by
    intro pv lo hi
    exact ⟨⟨Or.inl ⟨rfl, rfl, rfl, rfl⟩, fun h => absurd h (lt_irrefl _)⟩, fun _ => by simp [Cryo.emptyLayer],
      fun h => absurd h (lt_irrefl _)⟩
  exact ⟨⟨hE, hE, (hE (pv := True) (lo := 0) (hi := 0)).toEndLayer, (hE (pv := True) (lo := 0) (hi := 0)).toEndLayer⟩,
    fun h => absurd h (lt_irrefl _), fun h => absurd h (lt_irrefl _)⟩

theorem swe_nonneg {c : Site} {p : CPixel ℝ} (hp : Inv c p) : 0 ≤ p.swe := by
  have h1 := hp.pixel.new.toEndLayer.plausible.nonneg
  have h2 := hp.pixel.old.toEndLayer.plausible.nonneg
  have h3 := hp.pixel.firn.plausible.nonneg
  have h4 := hp.pixel.ice.plausible.nonneg
  unfold CPixel.swe CLayer.we
  linarith [h1.ice, h1.lwc, h2.ice, h2.lwc, h3.ice, h3.lwc, h4.ice, h4.lwc]

theorem mem_frosties {c : Site} {idxs : List ℕ} {f : ℕ → Forcing} {s : States} {i : ℕ} :
    i ∈ frosties c idxs f s ↔ i ∈ idxs ∧ ∃ x, preps c f s i = some x ∧ x.Frosty := by
  simp [frosties]

theorem frosties_nodup {c : Site} {idxs : List ℕ} (hn : idxs.Nodup) (f : ℕ → Forcing) (s : States) :
    (frosties c idxs f s).Nodup := hn.filter _

/-- Air temperature is a part of the prepared pixel. -/
theorem prep_temp {c : Site} {f : Forcing} {s : State} {x : Prep} (h : prep c f s = some x) : x.surf.temp = f.temp := by
  unfold prep at h
  split at h
  · simp at h
  · split at h
    · simp at h
    · rw [← Option.some.inj h]; rfl

/-! ## C124 -/

/-- **C124 (time step).** From states in order, with weather and configuration in their ranges, the search ends and every
pixel of the domain has its fluxes and a next state in order. -/
theorem C124_step (c : Site) (h : SiteOK c) (idxs : List ℕ) (hn : idxs.Nodup) (f : ℕ → Forcing)
    (hw : ∀ i ∈ idxs, Weather c (f i)) (s : States)
    (hs : ∀ i ∈ idxs, ∃ si, s i = some si ∧ Inv c si.snow ∧ Light c (f i) si.snow ∧ Mild c (f i) si) :
    ∃ xs q, step c idxs f s = some (xs, q) ∧ ∀ i ∈ idxs, ∀ si, s i = some si →
      ∃ x si', xs i = some x ∧ q i = some si' ∧ Inv c si'.snow ∧ StepOK c (f i) si x si' := by
  obtain ⟨r, hr⟩ : ∃ r, search c.search (balances c f s) (frosties c idxs f s) (fun i => (f i).temp) = some r := by
    refine search_defined (frosties_nodup hn f s) _ fun hsec i hi => ?_
    obtain ⟨hi', x, hx, hfr⟩ := mem_frosties.1 hi
    obtain ⟨si, hsi, hinv, hlight, hmild⟩ := hs i hi'
    obtain ⟨p, a, hp, -, -, -, ha, hex, -⟩ := prep_spec h (hw i hi') hinv hlight
    have hx' : prep c (f i) si = some x := by rw [preps, hsi] at hx; exact hx
    have hb := hmild hsec x hx' hfr
    obtain rfl := Option.some.inj (hx'.symm.trans hp)
    have := SurfaceTemp.ends_frost (frost h.dt (hw i hi') ha hex hfr.2 hb)
    have hbal : balances c f s i = SurfaceTemp.remainder (surfacePixel c (f i) si.ts p a) 1
        (Prep.lat ⟨p, surfacePixel c (f i) si.ts p a⟩) c.heatFlux := by
      funext t
      simp only [balances, hx]
      rfl
    rw [hbal]
    exact this
  obtain ⟨t, te⟩ := r
  refine ⟨_, _, by simp only [step, hr]; rfl, ?_⟩
  intro i hi si hsi
  obtain ⟨si', hsi', hinv, hlight, -⟩ := hs i hi
  obtain rfl : si' = si := Option.some.inj (hsi'.symm.trans hsi)
  obtain ⟨x, hx, hfin⟩ := finish_spec h (hw i hi) hinv hlight
  obtain ⟨fl, q, hq, hinv', y1, y2, y3, y4, y5, y6, y7, y8, y9, y10⟩ := hfin (t i) (te i)
  obtain ⟨p, a, hp, -, hswe, -⟩ := prep_spec h (hw i hi) hinv hlight
  obtain rfl := Option.some.inj (hx.symm.trans hp)
  have hpi : preps c f s i = some ⟨p, surfacePixel c (f i) si'.ts p a⟩ := by rw [preps, hsi]; exact hx
  refine ⟨fl, ⟨q, surfaceTemp ⟨p, surfacePixel c (f i) si'.ts p a⟩ (t i)⟩, by simp [hpi, hq], by simp [hpi, hq],
    hinv', layers_ok hinv', y1, y2, y3, ⟨y4, y5, y6⟩, fun hm => (y9 hm).1, fun hm => (y10 hm).1, ?_, ?_, y8, y7⟩
  · intro hpos
    rw [← hswe] at hpos
    simp only [surfaceTemp, hpos, if_true]
    by_cases hc : (surfacePixel c (f i) si'.ts p a).temp < T0
    · rw [if_pos hc]
      refine ⟨?_, fun hT => absurd hc (not_lt.2 hT)⟩
      rw [T0_eq]
      refine search_le (frosties_nodup hn f s) ?_ hr (mem_frosties.2 ⟨hi, _, hpi, hpos, hc⟩)
      intro j hj
      obtain ⟨-, y, hy, hfr⟩ := mem_frosties.1 hj
      cases hsj : s j with
      | none => rw [preps, hsj] at hy; simp at hy
      | some sj =>
        rw [preps, hsj] at hy
        have := hfr.2
        rw [prep_temp hy, T0_eq] at this
        exact this
    · rw [if_neg hc]
      exact ⟨le_rfl, fun _ => rfl⟩
  · intro hz
    rw [← hswe] at hz
    simp only [surfaceTemp, hz, lt_irrefl, if_false]
    rfl

/-- **C124 (run).** A domain without snow is driven by any series of weather fields: every search ends, no NaN arises, and
over the run the snow water equivalent of every pixel is precipitation minus sublimation minus runoff. -/
theorem C124_run (c : Site) (h : SiteOK c) (idxs : List ℕ) (hn : idxs.Nodup) (fs : List (ℕ → Forcing))
    (hw : ∀ f ∈ fs, ∀ i ∈ idxs, Weather c (f i)) (hfair : FairRun c idxs fs (start c idxs)) :
    ∃ xs q, run c idxs fs (start c idxs) = some (xs, q) ∧ ∀ i ∈ idxs, ∃ (s : State) (ys : List (Cryo.Fluxes ℝ)), q i = some s ∧
      xs.map (fun x => x i) = ys.map some ∧ ys.length = fs.length ∧ Inv c s.snow ∧ (∀ L ∈ layers s.snow, LayerOK c L) ∧
      s.snow.swe = (fs.map fun f => (f i).snow + (f i).rain).sum - (ys.map fun y => y.sublimation + y.runoff).sum := by
  have key : ∀ (fs : List (ℕ → Forcing)) (st : States), (∀ f ∈ fs, ∀ i ∈ idxs, Weather c (f i)) →
      FairRun c idxs fs st → (∀ i ∈ idxs, ∃ si, st i = some si ∧ Inv c si.snow) →
      ∃ xs q, run c idxs fs st = some (xs, q) ∧ ∀ i ∈ idxs, ∀ si, st i = some si → ∃ (s : State) (ys : List (Cryo.Fluxes ℝ)), q i = some s ∧
        xs.map (fun x => x i) = ys.map some ∧ ys.length = fs.length ∧ Inv c s.snow ∧
        s.snow.swe = si.snow.swe + (fs.map fun f => (f i).snow + (f i).rain).sum -
          (ys.map fun y => y.sublimation + y.runoff).sum := by
    intro fs
    induction fs with
    | nil =>
      intro st _ _ hst
      refine ⟨[], st, rfl, fun i hi si hsi => ?_⟩
      obtain ⟨si', hsi', hinv⟩ := hst i hi
      obtain rfl : si' = si := Option.some.inj (hsi'.symm.trans hsi)
      exact ⟨si', [], hsi, rfl, rfl, hinv, by simp⟩
    | cons f fs ih =>
      intro st hw hf hst
      obtain ⟨xs1, q1, e1, k1⟩ := C124_step c h idxs hn f (hw f (by simp)) st fun i hi => by
        obtain ⟨si, hsi, hinv⟩ := hst i hi
        exact ⟨si, hsi, hinv, hf.1 i hi si hsi⟩
      obtain ⟨xs2, q2, e2, k2⟩ := ih q1 (fun g hg => hw g (by simp [hg])) (hf.2 _ _ e1) fun i hi => by
        obtain ⟨si, hsi, -⟩ := hst i hi
        obtain ⟨x, si', -, hq, hinv, -⟩ := k1 i hi si hsi
        exact ⟨si', hq, hinv⟩
      refine ⟨xs1 :: xs2, q2, by simp [run, e1, e2], fun i hi si hsi => ?_⟩
      obtain ⟨x, si', hx, hq, hinv, hok⟩ := k1 i hi si hsi
      obtain ⟨s, ys, z1, z2, z3, z4, z5⟩ := k2 i hi si' hq
      refine ⟨s, x :: ys, z1, by simp [hx, z2], by simp [z3], z4, ?_⟩
      rw [z5, hok.swe]
      simp only [List.map_cons, List.sum_cons]
      ring
  obtain ⟨xs, q, e, k⟩ := key fs (start c idxs) hw hfair fun i hi =>
    ⟨initial c, by simp [start, hi], initial_inv c⟩
  refine ⟨xs, q, e, fun i hi => ?_⟩
  obtain ⟨s, ys, z1, z2, z3, z4, z5⟩ := k i hi (initial c) (by simp [start, hi])
  refine ⟨s, ys, z1, z2, z3, z4, layers_ok z4, ?_⟩
  rw [z5]
  simp [initial, CPixel.swe, CLayer.we, Cryo.emptyLayer]

/-- **C124.** The conditions of `FairRun` are met if water is retained by mass fraction and, below the freezing point, air is
not above saturation and absorbed radiation at most 670 W m-2 above the configured heat flux. -/
theorem C124_fair (c : Site) (h : SiteOK c) (hm : c.lwcMethod ≠ .poreVolume) (idxs : List ℕ) (hn : idxs.Nodup)
    (fs : List (ℕ → Forcing)) (hw : ∀ f ∈ fs, ∀ i ∈ idxs, Weather c (f i) ∧ (c.search = .secant → Shade c (f i))) :
    FairRun c idxs fs (start c idxs) := by
  have key : ∀ (fs : List (ℕ → Forcing)) (st : States),
      (∀ f ∈ fs, ∀ i ∈ idxs, Weather c (f i) ∧ (c.search = .secant → Shade c (f i))) →
      (∀ i ∈ idxs, ∃ si, st i = some si ∧ Inv c si.snow) → FairRun c idxs fs st := by
    intro fs
    induction fs with
    | nil => intro _ _ _; trivial
    | cons f fs ih =>
      intro st hw hst
      have hone : ∀ i ∈ idxs, ∀ si, st i = some si → Light c (f i) si.snow ∧ Mild c (f i) si := by
        intro i hi si hsi
        obtain ⟨si', hsi', hinv⟩ := hst i hi
        obtain rfl : si' = si := Option.some.inj (hsi'.symm.trans hsi)
        have hl : Light c (f i) si'.snow := fun h => absurd h hm
        exact ⟨hl, fun hsec => mild h (hw f (by simp) i hi).1 ((hw f (by simp) i hi).2 hsec) hinv hl hsec⟩
      refine ⟨hone, fun x s' hx => ih s' (fun g hg => hw g (by simp [hg])) fun i hi => ?_⟩
      obtain ⟨xs1, q1, e1, k1⟩ := C124_step c h idxs hn f (fun i hi => (hw f (by simp) i hi).1) st fun i hi => by
        obtain ⟨si, hsi, hinv⟩ := hst i hi
        exact ⟨si, hsi, hinv, hone i hi si hsi⟩
      rw [e1] at hx
      obtain ⟨si, hsi, -⟩ := hst i hi
      obtain ⟨y, si', -, hq, hinv, -⟩ := k1 i hi si hsi
      have hqs : q1 = s' := congrArg Prod.snd (Option.some.inj hx)
      rw [← hqs]
      exact ⟨si', hq, hinv⟩
  exact key fs _ hw fun i hi => ⟨initial c, by simp [start, hi], initial_inv c⟩

/-! ## Independence of pixels -/

/-- With the secant search, the time step of a pixel is that of a domain of this pixel. -/
theorem step_single {c : Site} (hc : c.search = .secant) {idxs : List ℕ} (hn : idxs.Nodup) {i : ℕ} (hi : i ∈ idxs)
    (f : ℕ → Forcing) {s s' : States} (hs : s i = s' i) {xs : ℕ → Option (Cryo.Fluxes ℝ)} {q : States}
    (h : step c idxs f s = some (xs, q)) : ∃ ys q', step c [i] f s' = some (ys, q') ∧ ys i = xs i ∧ q' i = q i := by
  have hpr : preps c f s' i = preps c f s i := by simp [preps, hs]
  have hbal : balances c f s' i = balances c f s i := by funext t; simp [balances, hpr]
  unfold step at h
  rw [hc] at h
  cases hr : search .secant (balances c f s) (frosties c idxs f s) (fun i => (f i).temp) with
  | none => rw [hr] at h; simp at h
  | some r =>
    obtain ⟨t, te⟩ := r
    rw [hr] at h
    simp only [Option.some.injEq, Prod.mk.injEq] at h
    obtain ⟨rfl, rfl⟩ := h
    have hnd := frosties_nodup (c := c) hn f s
    have hnd' := frosties_nodup (c := c) (List.nodup_singleton i) f s'
    obtain ⟨r', hr'⟩ : ∃ r, search .secant (balances c f s') (frosties c [i] f s') (fun i => (f i).temp) = some r := by
      refine search_defined hnd' _ fun _ j hj => ?_
      obtain ⟨hj', x, hx, hfr⟩ := mem_frosties.1 hj
      obtain rfl : j = i := by simpa using hj'
      obtain ⟨n, h1, -⟩ := search_secant hnd hr (mem_frosties.2 ⟨hi, x, by rw [← hpr]; exact hx, hfr⟩)
      rw [hbal]
      exact ⟨n, h1⟩
    obtain ⟨t', te'⟩ := r'
    have hfin : (preps c f s' i).bind (fun x => finish c (f i) x (t' i) (te' i)) =
        (preps c f s i).bind (fun x => finish c (f i) x (t i) (te i)) := by
      rw [hpr]
      cases hx : preps c f s i with
      | none => rfl
      | some x =>
        simp only [Option.bind_some]
        by_cases hfr : x.Frosty
        · obtain ⟨n, h1, h2, h3⟩ := search_secant hnd hr (mem_frosties.2 ⟨hi, x, hx, hfr⟩)
          obtain ⟨m, k1, k2, k3⟩ := search_secant hnd' hr'
            (mem_frosties.2 ⟨List.mem_singleton_self i, x, hpr.trans hx, hfr⟩)
          rw [hbal] at k1 k2 k3
          have : SurfaceTemp.pixRun (balances c f s i) n (Atmosphere.T0 - 10) Atmosphere.T0 =
              SurfaceTemp.pixRun (balances c f s i) m (Atmosphere.T0 - 10) Atmosphere.T0 := by
            rcases le_total n m with hle | hle
            · exact (SurfaceTemp.pixRun_mono hle h1).symm
            · exact SurfaceTemp.pixRun_mono hle k1
          rw [h2, h3, k2, k3, this]
        · have hst : ∀ u v, surfaceTemp x u = surfaceTemp x v := by
            intro u v
            unfold surfaceTemp
            split_ifs with a1 a2
            · exact absurd ⟨a1, a2⟩ hfr
            · rfl
            · rfl
          simp only [finish, massStep, moisture, hst (t' i) (t i), hst (te' i) (te i)]
    refine ⟨_, _, by simp only [step, hc, hr']; rfl, ?_, ?_⟩
    · simp only [hfin]
    · simp only [hfin]

/-- **C124 (independence).** With the secant search each pixel evolves as if it were alone in the domain. -/
theorem C124_independent (c : Site) (hc : c.search = .secant) (idxs : List ℕ) (hn : idxs.Nodup) (i : ℕ) (hi : i ∈ idxs)
    (fs : List (ℕ → Forcing)) (s s' : States) (hs : s i = s' i) (xs : List (ℕ → Option (Cryo.Fluxes ℝ))) (q : States)
    (h : run c idxs fs s = some (xs, q)) :
    ∃ ys q', run c [i] fs s' = some (ys, q') ∧ ys.map (fun y => y i) = xs.map (fun x => x i) ∧ q' i = q i := by
  induction fs generalizing s s' xs q with
  | nil =>
    simp only [run, Option.some.injEq, Prod.mk.injEq] at h
    obtain ⟨rfl, rfl⟩ := h
    exact ⟨[], s', rfl, rfl, hs.symm⟩
  | cons f fs ih =>
    unfold run at h
    cases h1 : step c idxs f s with
    | none => rw [h1] at h; simp at h
    | some r =>
      obtain ⟨x, s1⟩ := r
      rw [h1] at h
      simp only at h
      cases h2 : run c idxs fs s1 with
      | none => rw [h2] at h; simp at h
      | some r2 =>
        obtain ⟨xs2, q2⟩ := r2
        rw [h2] at h
        simp only [Option.some.injEq, Prod.mk.injEq] at h
        obtain ⟨rfl, rfl⟩ := h
        obtain ⟨y, s1', e1, e2, e3⟩ := step_single hc hn hi f hs h1
        obtain ⟨ys, q', e4, e5, e6⟩ := ih s1 s1' e3.symm xs2 q2 h2
        exact ⟨y :: ys, q', by simp [run, e1, e4], by simp [e2, e5], e6⟩

/-! ## Latent heat -/

/-- Specification: latent heat of sublimation at air temperature. -/
noncomputable def sublimationHeat (f : Forcing) : ℝ := Atmosphere.latentHeat f.temp + 334000

/-- **C124 (latent heat).** A snow-covered pixel has the latent heat of sublimation exactly if the air is below the freezing
point or there is a layer of new snow; otherwise that of vaporization. -/
theorem C124_latent_partial (c : Site) (f : Forcing) (s : State) (x : Prep) (hx : prep c f s = some x) :
    (x.lat = sublimationHeat f ↔ f.temp < T0 ∨ 0 < x.snow.new.ice) ∧
    (T0 ≤ f.temp → x.snow.new.ice ≤ 0 → x.lat = Atmosphere.latentHeat f.temp) := by
  unfold prep at hx
  split at hx
  · simp at hx
  rename_i p hp
  split at hx
  · simp at hx
  rename_i a ha
  obtain rfl := Option.some.inj hx
  have hice : (surfacePixel c f s.ts p a).ice0 = p.new.ice := by
    simp [Surface.Pixel.ice0, surfacePixel, layers]
  have hlat : Prep.lat ⟨p, surfacePixel c f s.ts p a⟩ =
      if 0 < p.new.ice ∨ f.temp < Atmosphere.T0 then Atmosphere.latentHeat f.temp + 334000
      else Atmosphere.latentHeat f.temp := by
    unfold Prep.lat Surface.Pixel.latHeat
    rw [hice]
    rfl
  rw [hlat]
  simp only [sublimationHeat]
  constructor
  · split_ifs with hc
    · rw [T0_eq]
      exact ⟨fun _ => hc.symm, fun _ => rfl⟩
    · rw [T0_eq]
      constructor
      · intro he; linarith
      · intro he; exact absurd he.symm hc
  · intro h1 h2
    rw [T0_eq] at h1
    rw [if_neg]
    rintro (hc | hc) <;> linarith

theorem prepare_new {c : Site} {f : Forcing} {s : State} {p : CPixel ℝ} (h : prepare c f s = some p) (hf : f.snow = 0) :
    p.new.ice = s.snow.new.ice := by
  unfold prepare at h
  cases h0 : compaction c f.temp s.snow with
  | none => rw [h0] at h; simp at h
  | some p0 =>
    rw [h0] at h
    have h1 : p0.new.ice = s.snow.new.ice := by
      unfold compaction at h0
      split at h0
      · rw [← Option.some.inj h0]; rfl
      · simp at h0
    rw [← Option.some.inj h, ← h1]
    simp only [Cryo.updateProperties, (Cryo.updDens_same _).1, Cryo.albedoAging]
    rw [hf]
    simp only [Cryo.accumulation, lt_irrefl, if_false]
    split_ifs <;> rfl

/-! ## Non-vacuity and witness -/

/-- A configuration with the secant search. -/
noncomputable def exSite : Site where
  dt := 10800
  albedo := ⟨55 / 100, 85 / 100, 480, 200, 1 / 2, .binary⟩
  firnAlb := 4 / 10
  iceAlb := 2 / 10
  single := false
  ageByAir := true
  lwcMethod := .massFraction
  maxFrac := 1 / 10
  oldDensity := 200
  iceDens := 900
  coldCapacity := 5 / 100
  refreezeFactor := 1
  heatFlux := 2
  search := .secant
  depthScale := 5 / 1000
  snowRough := 1 / 100
  soilRough := 1 / 10
  soilAlbedo := 15 / 100
  adjust := false
  zt := 2
  zw := 10
  stab := some 1
  initTemp := 280

/-- A winter day with snowfall. -/
noncomputable def snowDay : Forcing where
  temp := 268
  wetBulb := 267
  specHum := 0
  press := 75000
  swIn := 100
  lwIn := 250
  wind := 3
  rain := 0
  snow := 5
  firnDate := false

/-- A mild day without precipitation. -/
noncomputable def mildDay : Forcing := { snowDay with temp := 278, wetBulb := 275, snow := 0 }

theorem exSite_ok : SiteOK exSite := by
  refine ⟨by norm_num [exSite], ⟨by norm_num [exSite], by norm_num [exSite], by norm_num [exSite], by norm_num [exSite]⟩,
    ⟨by norm_num [exSite], by norm_num [exSite], by norm_num [exSite], by norm_num [exSite]⟩, by norm_num [exSite],
    by norm_num [exSite], fun h => by simp [exSite] at h, by norm_num [exSite], by norm_num [exSite],
    by norm_num [exSite], by norm_num [exSite], ⟨by norm_num [exSite], by norm_num [exSite]⟩, fun b hb => ?_⟩
  simp only [exSite, Option.some.injEq] at hb
  rw [← hb]; norm_num

theorem low_exSite : low exSite = 15 / 100 := by norm_num [low, snowLow, exSite]

theorem snowDay_ok : Weather exSite snowDay ∧ Shade exSite snowDay := by
  refine ⟨⟨by norm_num [snowDay], by norm_num [snowDay], by norm_num [snowDay], by norm_num [snowDay],
    by norm_num [snowDay, exSite], by norm_num [snowDay, T0], by norm_num [snowDay], fun h => by simp [exSite] at h,
    by norm_num [snowDay], by norm_num [snowDay]⟩, ⟨fun hT q hq => ?_,
    fun _ => by rw [low_exSite]; norm_num [snowDay, exSite, T0]⟩⟩
  have h1 : (30000 : ℝ) ≤ snowDay.press := by norm_num [snowDay]
  have h2 : (1 : ℝ) ≤ snowDay.temp := by norm_num [snowDay]
  rw [T0_eq] at hT
  rw [SurfaceTemp.satHumidity_ice h1 h2 hT] at hq
  rw [← Option.some.inj hq]
  exact le_trans (by norm_num [snowDay]) (SatHumidity.Q_nonneg (SurfaceTemp.range_cold h1) ⟨h2, hT.le⟩).le

theorem mildDay_ok : Weather exSite mildDay ∧ Shade exSite mildDay := by
  have hT : ¬ mildDay.temp < T0 := by norm_num [mildDay, T0]
  exact ⟨⟨by norm_num [mildDay], by norm_num [mildDay, snowDay], by norm_num [mildDay, snowDay],
    by norm_num [mildDay, snowDay], by norm_num [mildDay, snowDay, exSite], by norm_num [mildDay, snowDay, T0],
    by norm_num [mildDay, snowDay], fun h => by simp [exSite] at h, by norm_num [mildDay, snowDay],
    by norm_num [mildDay, snowDay]⟩, ⟨fun h => absurd h hT, fun h => absurd h hT⟩⟩

/-- Non-vacuity of `C124_run` and `C124_fair`: three pixels, any number of snow and mild days in any order. -/
example (fs : List (ℕ → Forcing)) (hf : ∀ f ∈ fs, ∀ i, f i = snowDay ∨ f i = mildDay) :
    (∀ f ∈ fs, ∀ i ∈ [0, 1, 2], Weather exSite (f i)) ∧ FairRun exSite [0, 1, 2] fs (start exSite [0, 1, 2]) := by
  have hw : ∀ f ∈ fs, ∀ i, Weather exSite (f i) ∧ Shade exSite (f i) := fun f hm i => by
    rcases hf f hm i with e | e <;> rw [e]
    exacts [snowDay_ok, mildDay_ok]
  exact ⟨fun f hm i _ => (hw f hm i).1,
    C124_fair exSite exSite_ok (by simp [exSite]) [0, 1, 2] (by decide) fs fun f hm i _ =>
      ⟨(hw f hm i).1, fun _ => (hw f hm i).2⟩⟩

/-- The snow that fell there earlier is old snow, 100 kg m-2. -/
noncomputable def oldSnow : State where
  snow := ⟨Cryo.emptyLayer, ⟨4 / 10, 100, 0, 0, some 250, some (7 / 10)⟩, Cryo.emptyLayer, Cryo.emptyLayer,
    some (7 / 10)⟩
  ts := 273

theorem oldSnow_inv : Inv exSite oldSnow.snow := by
  have h0 := initial_inv exSite
  refine ⟨⟨h0.pixel.new, ⟨⟨Or.inr ⟨?_, ?_, ?_, ?_, ?_, 250, rfl, ?_⟩, fun _ => ?_⟩, fun h => ?_, fun _ => ?_⟩,
    h0.pixel.firn, h0.pixel.ice⟩, h0.firn, h0.ice⟩
  all_goals first
    | (norm_num [oldSnow]; done)
    | (simp [exSite] at h; done)
    | exact ⟨7 / 10, rfl, by norm_num [exSite], by norm_num [exSite]⟩

/-- **C124 (latent heat), witness.** Old snow on a mild day: the pixel is covered with 100 kg m-2 of snow, but its latent
heat is that of vaporization. -/
theorem C124_latent_false : ∃ (c : Site) (f : Forcing) (s : State) (x : Prep), SiteOK c ∧ Weather c f ∧ Inv c s.snow ∧
    prep c f s = some x ∧ x.snow.swe = 100 ∧ x.lat ≠ sublimationHeat f := by
  have hl : Light exSite mildDay oldSnow.snow := fun h => by simp [exSite] at h
  obtain ⟨p, a, hp, -, hswe, -⟩ := prep_spec exSite_ok mildDay_ok.1 oldSnow_inv hl
  refine ⟨exSite, mildDay, oldSnow, _, exSite_ok, mildDay_ok.1, oldSnow_inv, hp, ?_, fun hlat => ?_⟩
  · simp only
    rw [hswe]
    norm_num [oldSnow, mildDay, CPixel.swe, CLayer.we, Cryo.emptyLayer]
  · rcases (C124_latent_partial exSite mildDay oldSnow _ hp).1.1 hlat with h | h
    · norm_num [mildDay, T0] at h
    · have hprep : prepare exSite mildDay oldSnow = some p := by
        unfold prep at hp
        split at hp
        · simp at hp
        · rename_i p' hp'
          split at hp
          · simp at hp
          · have := congrArg Prep.snow (Option.some.inj hp)
            simp only at this
            rw [← this]; exact hp'
      simp only at h
      rw [prepare_new hprep rfl] at h
      norm_num [oldSnow, Cryo.emptyLayer] at h

/-- Non-vacuity of `C124_step` and `C124_independent`: melting old snow. -/
example : ∃ xs q, step exSite [3] (fun _ => mildDay) (fun _ => some oldSnow) = some (xs, q) := by
  have hl : Light exSite mildDay oldSnow.snow := fun h => by simp [exSite] at h
  obtain ⟨xs, q, e, -⟩ := C124_step exSite exSite_ok [3] (by simp) (fun _ => mildDay) (fun _ _ => mildDay_ok.1)
    (fun _ => some oldSnow) fun _ _ =>
      ⟨oldSnow, rfl, oldSnow_inv, hl, mild exSite_ok mildDay_ok.1 mildDay_ok.2 oldSnow_inv hl⟩
  exact ⟨xs, q, e⟩

end Verif.CoupledCryo
