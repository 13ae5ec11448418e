import Verif.Props.StepML
import Verif.Props.Snow

/-!
# C24: the albedo stays in its range over whole runs of the multilayer model
-/

set_option linter.unusedSectionVars false

namespace Verif.MultiLayer

variable {K : Type*} [Field K] [LinearOrder K] [IsStrictOrderedRing K]

/-- Specification: a snow-covered pixel has an albedo within `[lo, hi]`. -/
def AlbOK (lo hi : K) (p : Pixel K) : Prop :=
  0 < p.n → ∃ a, p.albedo = some a ∧ lo ≤ a ∧ a ≤ hi

theorem AlbOK.addSnow {lo hi : K} {p : Pixel K} (h : AlbOK lo hi p) (albMax T d x : K)
    (hlo : lo ≤ albMax) (hhi : albMax ≤ hi) : AlbOK lo hi (addSnow albMax T d (some x) 0 p) := by
  intro hn
  have key : ∀ q : Pixel K, q = MultiLayer.addSnow albMax T d (some x) 0 p →
      q.n = (if p.n = 0 ∧ 0 < x then 1 else p.n) ∧
      q.albedo = (if p.n = 0 ∧ 0 < x then some albMax else p.albedo) := by
    rintro q rfl
    unfold MultiLayer.addSnow
    by_cases hcond : p.n = 0 ∧ 0 < x <;> cases p.layers <;>
      simp only [nanToZero, Option.getD_some, hcond, if_true, if_false, and_self]
  obtain ⟨h1, h2⟩ := key _ rfl
  rw [h1] at hn
  rw [h2]
  split_ifs at hn ⊢ with hi
  · exact ⟨_, rfl, hlo, hhi⟩
  · exact h hn

/-- One step keeps the albedo of snow-covered pixels in the range. -/
theorem AlbOK.step {lo hi : K} (c : Cfg K) (hc : CfgOK c) (hlo : lo ≤ c.albMax)
    (hhi : c.albMax ≤ hi) (e : StepIn K) (he : InOK c.lwcMethod e)
    (hage : ∀ a, lo ≤ a → a ≤ hi → ∃ a', e.aged (some a) = some a' ∧ lo ≤ a' ∧ a' ≤ hi)
    (p q : Pixel K) (f : Fluxes K) (hp : PackOK c.lwcMethod c.minThickness.length p)
    (ha : AlbOK lo hi p) (h : MultiLayer.step c e p = some (f, q)) : AlbOK lo hi q := by
  have hslots : 1 ≤ c.minThickness.length := List.length_pos_iff.mpr hc.some_layer
  have hp0 := hp.compact e.compacted he.compaction
  have ha0 : AlbOK lo hi (compact e.compacted p) := ha
  obtain ⟨p0, hp0def⟩ : ∃ x, compact e.compacted p = x := ⟨_, rfl⟩
  obtain ⟨p1, hp1def⟩ : ∃ x, accumulation c.albMax e.airTemp e.freshDensity e.snowfall p0 = x :=
    ⟨_, rfl⟩
  simp only [MultiLayer.step, hp0def, hp1def] at h
  rw [hp0def] at hp0 ha0
  have h1 : PackOK c.lwcMethod c.minThickness.length p1 ∧ AlbOK lo hi p1 := by
    rw [← hp1def]
    unfold accumulation
    cases hs : e.snowfall with
    | none => exact ⟨hp0, ha0⟩
    | some x =>
      simp only
      split_ifs with hx
      · exact ⟨hp0.addSnow hslots _ _ _ _ he.density_pos he.density_le hx,
          ha0.addSnow _ _ _ _ hlo hhi⟩
      · exact ⟨hp0, ha0⟩
  obtain ⟨h1ok', ha1'⟩ := h1
  have h1ok : PackOK c.lwcMethod c.minThickness.length { p1 with albedo := e.aged p1.albedo } :=
    ⟨⟨h1ok'.wf.n_le, h1ok'.wf.active, h1ok'.wf.inactive⟩, h1ok'.slots_eq, h1ok'.layers⟩
  have ha1 : AlbOK lo hi { p1 with albedo := e.aged p1.albedo } := by
    intro hn
    obtain ⟨a, e1, e2, e3⟩ := ha1' hn
    simp only [e1]
    exact hage a e2 e3
  obtain ⟨p1a, hp1a⟩ : ∃ x, ({ p1 with albedo := e.aged p1.albedo } : Pixel K) = x := ⟨_, rfl⟩
  rw [hp1a] at h h1ok ha1
  have h3ok := (h1ok.updateHeatCap.conduct e.conducted).melt e.meltDemand he.demand
  have ha3 : AlbOK lo hi (melt e.meltDemand (conduct e.conducted (updateHeatCap p1a))).2 := ha1
  obtain ⟨p3, hp3def⟩ :
    ∃ x, (melt e.meltDemand (conduct e.conducted (updateHeatCap p1a))).2 = x := ⟨_, rfl⟩
  rw [hp3def] at h h3ok ha3
  split at h
  · simp at h
  rename_i p4 hp4
  have hk : ∀ (d : K) (r s : Pixel K), sublKernel d r = some s → AlbOK lo hi r → AlbOK lo hi s := by
    intro d r s hs hr
    simp only [MultiLayer.sublKernel] at hs
    split_ifs at hs with h0
    · simp only [Option.bind_eq_bind, Option.bind_eq_some_iff, Option.pure_def,
        Option.some.injEq] at hs
      obtain ⟨⟨c', Ls'⟩, hl, rfl⟩ := hs
      exact hr
    · simp only [Option.pure_def, Option.some.injEq] at hs
      exact hs ▸ hr
  have h4 : PackOK c.lwcMethod c.minThickness.length p4 ∧ AlbOK lo hi p4 := by
    simp only [sublimation] at hp4
    split_ifs at hp4 with hfrost
    · exact ⟨PackOK.sublKernel
        (h3ok.addSnow hslots _ _ _ _ he.density_pos he.density_le hfrost) _ hp4,
        hk _ _ _ hp4 (ha3.addSnow _ _ _ _ hlo hhi)⟩
    · exact ⟨h3ok.sublKernel _ hp4, hk _ _ _ hp4 ha3⟩
  have hr : 0 ≤ e.rainfall.getD 0 := by
    cases hrr : e.rainfall with
    | none => simp
    | some x => simpa using he.rainfall x hrr
  have h6ok := (h4.1.runoff c.maxFrac e.rainfall hr hc.frac_nonneg hc.frac_le).updateHeatCap
  have ha6 : AlbOK lo hi (updateHeatCap (runoff c.lwcMethod c.maxFrac e.rainfall p4).2.2) := h4.2
  split at h
  · simp at h
  rename_i q0 hq0
  simp only [Option.some.injEq, Prod.mk.injEq] at h
  obtain ⟨rfl, rfl⟩ := h
  obtain ⟨p6, hp6⟩ :
    ∃ x, updateHeatCap (runoff c.lwcMethod c.maxFrac e.rainfall p4).2.2 = x := ⟨_, rfl⟩
  rw [hp6] at hq0 h6ok ha6
  simp only [updateLayers] at hq0
  split at hq0
  · rename_i hd
    split at hq0
    · simp at hq0
    · split at hq0
      · simp only [Option.some.injEq] at hq0
        subst hq0
        intro hn
        simp only at hn ⊢
        rw [if_neg hn.ne']
        apply ha6
        by_contra hn0
        have hz : p6.n = 0 := by omega
        have hin := h6ok.wf.inactive
        rw [hz, List.drop_zero] at hin
        have : depth p6 = 0 := by
          unfold depth
          apply List.sum_eq_zero
          intro x hx
          obtain ⟨L, hL, rfl⟩ := List.mem_map.mp hx
          exact (hin L hL).1
        linarith
      · simp at hq0
  · simp only [Option.some.injEq] at hq0
    subst hq0
    intro hn
    simp at hn

/-- **C24.** Over every run of the multilayer model, if ageing maps the range `[lo, hi]` into itself
and the maximum albedo lies in it, every snow-covered pixel ends with an albedo in the range.
`C24_albedo_in_range` shows that ageing as coded has this property for `lo = min`, `hi = max`. -/
theorem C24_run_generic (c : Cfg K) (hc : CfgOK c) (lo hi : K) (hlo : lo ≤ c.albMax)
    (hhi : c.albMax ≤ hi) :
    ∀ (es : List (StepIn K)) (p q : Pixel K) (fs : List (Fluxes K)),
      (∀ e ∈ es, InOK c.lwcMethod e ∧
        ∀ a, lo ≤ a → a ≤ hi → ∃ a', e.aged (some a) = some a' ∧ lo ≤ a' ∧ a' ≤ hi) →
      PackOK c.lwcMethod c.minThickness.length p → AlbOK lo hi p →
      run c es p = some (fs, q) → AlbOK lo hi q := by
  intro es
  induction es with
  | nil =>
    intro p q fs _ _ ha h
    simp only [run, Option.some.injEq, Prod.mk.injEq] at h
    rw [← h.2]; exact ha
  | cons e es ih =>
    intro p q fs hes hp ha h
    simp only [run] at h
    split at h
    · simp at h
    rename_i f p' hstep
    split at h
    · simp at h
    rename_i fs' q' hrun
    simp only [Option.some.injEq, Prod.mk.injEq] at h
    obtain ⟨rfl, rfl⟩ := h
    obtain ⟨he, hage⟩ := hes e (by simp)
    obtain ⟨hp', -⟩ := C18_step_water_balance c hc e he p p' f hp hstep
    exact ih p' q' fs' (fun x hx => hes x (by simp [hx])) hp'
      (AlbOK.step c hc hlo hhi e he hage p p' f hp ha hstep) hrun

/-- **C24.** The albedo of the multilayer model with the coded ageing: starting from a snow-free
pixel (or any pixel with albedo in range), after any number of steps with any weather the albedo
of a snow-covered pixel lies in `[min, max]`. -/
theorem C24_run_in_range (c : Cfg ℝ) (hc : CfgOK c) (a : Snow.AlbedoCfg) (ha : a.OK)
    (hmax : c.albMax = a.max) (hdt : 0 < c.dt) (es : List (StepIn ℝ)) (p q : Pixel ℝ)
    (fs : List (Fluxes ℝ)) (hin : ∀ e ∈ es, InOK c.lwcMethod e)
    (hage : ∀ e ∈ es, ∃ temp, e.aged = Snow.albedo a c.dt temp e.snowfall)
    (hp : PackOK c.lwcMethod c.minThickness.length p) (hstart : p.n = 0 ∨ AlbOK a.min a.max p)
    (h : run c es p = some (fs, q)) : AlbOK a.min a.max q := by
  refine C24_run_generic c hc a.min a.max (by rw [hmax]; exact ha.range) hmax.le es p q fs ?_ hp ?_ h
  · intro e he
    refine ⟨hin e he, fun x h1 h2 => ?_⟩
    obtain ⟨temp, ht⟩ := hage e he
    rw [ht]
    exact Snow.C24_albedo_in_range a ha c.dt hdt temp e.snowfall (hin e he).snowfall x h1 h2
  · rcases hstart with h0 | h0
    · intro hn; omega
    · exact h0

/-- A step input over ℝ whose ageing is the coded one. -/
noncomputable example : ∃ e : StepIn ℝ, InOK .massFraction e ∧
    e.aged = Snow.albedo Snow.exAlbedo 3600 (some 270) e.snowfall ∧ e.snowfall = some 10 := by
  refine ⟨{ snowfall := some 10, rainfall := some 1, airTemp := 270, surfTemp := 270,
            freshDensity := 100, compacted := fun Ls k => ((Ls[k]?).map Layer.thick).getD 0,
            aged := Snow.albedo Snow.exAlbedo 3600 (some 270) (some 10), conducted := fun _ => 272,
            meltDemand := 2, moistureFlux := some (-1 / 3600) }, ?_, rfl, rfl⟩
  refine ⟨by norm_num, by norm_num, by norm_num, by simp, by norm_num, ?_⟩
  intro Ls k L hL h0 h1 hok
  simp [hL, h0, hok]

end Verif.MultiLayer
