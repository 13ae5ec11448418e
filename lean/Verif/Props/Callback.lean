import Verif.Model.Callback
import Mathlib.Tactic.NormNum
import Mathlib.Tactic.Linarith
import Mathlib.Tactic.Ring
import Mathlib.Data.List.Zip

/-!
# C135: replaying recorded forcing
-/

namespace Verif.Callback

/-! ## Specification -/

/-- The settings and pixels have neither snow redistribution factors nor forest. -/
structure Open (c : Cfg) (ps : List Px) : Prop where
  srf : c.phase.hasSrf = false
  forest : ∀ p ∈ ps, p.forest = none

/-- Arrays of the region of interest have one value per pixel. -/
def Shaped (c : Cfg) (ps : List Px) (gs : List Given) : Prop :=
  gs.length = ps.length ∧ ∀ l, (c.phaseTemp l).length = l.length

/-! ## C135 -/

theorem zip3_record (c : Cfg) (hs : c.phase.hasSrf = false) (pxs : List (Precip.Px ℝ)) :
    ∀ (ps : List Px) (gs : List Given) (ts : List (Option ℝ)), gs.length = ps.length → ts.length = gs.length →
      (∀ p ∈ ps, p.forest = none) →
      (List.zipWith (fun (pg : Px × Given) o => below c pg.1 (above c pg.1 pg.2 o)) (ps.zip gs)
        ((List.zipWith (fun (pg : Px × Given) t => phasePx pg.1 pg.2 t) (ps.zip gs) ts).map fun p =>
          Precip.partition c.phase p (Precip.enforced c.phase pxs p))).map Out.record = gs := by
  intro ps
  induction ps with
  | nil => intro gs ts h1 _ _; cases gs <;> simp_all
  | cons p ps ih =>
    intro gs ts h1 h2 hf
    cases gs with
    | nil => simp at h1
    | cons g gs =>
      cases ts with
      | nil => simp at h2
      | cons t ts =>
        simp only [List.zip_cons_cons, List.zipWith_cons_cons, List.map_cons]
        rw [ih gs ts (by simpa using h1) (by simpa using h2) fun q hq => hf q (List.mem_cons_of_mem _ hq)]
        congr 1
        have hp := hf p (by simp)
        have : below c p (above c p g (Precip.partition c.phase (phasePx p g t)
            (Precip.enforced c.phase pxs (phasePx p g t)))) = above c p g (Precip.partition c.phase (phasePx p g t)
            (Precip.enforced c.phase pxs (phasePx p g t))) := by
          rw [below, hp]
        rw [this]
        simp [above, Out.record, Precip.partition, hs, phasePx]

/-- Without redistribution factors and forest the fields recorded at the end of a time step are those assigned. -/
theorem record_eq {c : Cfg} {ps : List Px} {gs : List Given} (ho : Open c ps) (hl : Shaped c ps gs) {os : List Out}
    (h : step c ps gs = some os) : os.map Out.record = gs := by
  simp only [step, Precip.process] at h
  split_ifs at h with hr
  · simp at h
  simp only [Option.map_some, Option.some.injEq] at h
  rw [← h]
  exact zip3_record c ho.srf _ ps gs _ hl.1 (by rw [hl.2]; simp) ho.forest

/-- **C135** (proved part: no snow redistribution, no forest). Replaying the fields recorded in a run gives the same fields
and the same states after every time step. The recorded run may calculate its fields from anything, in particular from
station data and earlier states. -/
theorem C135_replay_partial {S : Type*} (known : S → Cfg × List Px) (rest : S → List Out → S)
    (ho : ∀ s, Open (known s).1 (known s).2) :
    ∀ (given : List (S → List Given)) (s : S) (l : List (S × List Out)),
      (∀ g ∈ given, ∀ s, Shaped (known s).1 (known s).2 (g s)) →
      run known rest given s = some l →
      run known rest (l.map fun x _ => x.2.map Out.record) s = some l := by
  intro given
  induction given with
  | nil =>
    intro s l _ h
    simp only [run, Option.some.injEq] at h
    subst h
    rfl
  | cons g gs ih =>
    intro s l hl h
    simp only [run] at h
    cases hstep : step (known s).1 (known s).2 (g s) with
    | none => rw [hstep] at h; simp at h
    | some os =>
      rw [hstep] at h
      simp only at h
      obtain ⟨l', h1, h2⟩ := Option.map_eq_some_iff.mp h
      subst h2
      have hrec := record_eq (ho s) (hl g (by simp) s) hstep
      simp only [List.map_cons, run, hrec, hstep]
      rw [ih (rest s os) l' (fun g' hg' => hl g' (List.mem_cons_of_mem _ hg')) h1]
      rfl

/-- A single pixel. -/
theorem step_single (c : Cfg) (p : Px) (g : Given) (hr : 0 ≤ c.phase.range)
    (hs : ∀ l, (c.phaseTemp l).length = l.length) :
    ∃ t, c.phaseTemp [(g.temp, g.relHum)] = [t] ∧ step c [p] [g] = some [below c p (above c p g
      (Precip.partition c.phase (phasePx p g t) (Precip.enforced c.phase [phasePx p g t] (phasePx p g t))))] := by
  obtain ⟨t, ht⟩ := List.length_eq_one_iff.mp (hs [(g.temp, g.relHum)])
  refine ⟨t, ht, ?_⟩
  simp only [step, List.map_cons, List.map_nil, ht, List.zip_cons_cons, List.zip_nil_right, List.zipWith_cons_cons,
    List.zipWith_nil_right, Precip.process]
  rw [if_neg (not_lt.mpr hr)]
  simp

/-- **C135 is false** with snow redistribution: recorded precipitation is already redistributed, and the replay
redistributes it again. A pixel with pure snowfall and factor `r`. -/
theorem C135_srf_false (c : Cfg) (p : Px) (g : Given) {r x : ℝ} (hc : c.phase.hasSrf = true) (he : c.phase.enforce = false)
    (hr : 0 ≤ c.phase.range) (hs : ∀ l, (c.phaseTemp l).length = l.length) (hp : p.srf = some r) (hf : p.forest = none)
    (hx : g.precip = some x)
    (hsnow : ∀ q : Precip.Px ℝ, c.phaseTemp [(g.temp, g.relHum)] = [q.temp] → Precip.frac c.phase q = 1) :
    ∃ o o', step c [p] [g] = some [o] ∧ step c [p] [o.record] = some [o'] ∧
      o.snow = some (r * x) ∧ o'.snow = some (r * (r * x)) := by
  obtain ⟨t, ht, h1⟩ := step_single c p g hr hs
  have hfr : ∀ g' : Given, Precip.enforced c.phase [phasePx p g' t] (phasePx p g' t) = 1 := fun g' => by
    simp only [Precip.enforced, he]
    exact hsnow (phasePx p g' t) (by rw [ht]; rfl)
  have hb : ∀ o, below c p o = o := fun o => by rw [below, hf]
  rw [hfr g, hb] at h1
  obtain ⟨t', ht', h2⟩ := step_single c p (above c p g (Precip.partition c.phase (phasePx p g t) 1)).record hr hs
  have : t' = t := by
    simp only [above, Out.record] at ht'
    rw [ht] at ht'
    simpa using ht'.symm
  subst this
  rw [hfr, hb] at h2
  refine ⟨_, _, h1, h2, ?_, ?_⟩
  · simp [above, Precip.partition, hc, phasePx, hp, hx, Precip.op2, mul_comm]
  · simp [above, Precip.partition, hc, phasePx, hp, hx, Precip.op2, Out.record, mul_comm, mul_left_comm]

/-- **C135 is false** below a canopy: recorded temperature, humidity and wind speed are those below the canopy, and the
replay takes the canopy into account again. -/
theorem C135_canopy_false (c : Cfg) (p : Px) (g : Given) {lai mean24 t x h w f n cs : ℝ}
    (hr : 0 ≤ c.phase.range) (hs : ∀ l, (c.phaseTemp l).length = l.length) (hem : ∀ t h, (c.emissivity t h).isSome)
    (hp : p.forest = some (lai, mean24)) (hcs : p.clearSky = some cs) (hc : c.canopy.flowCoeff * lai ≠ 0) (hw : w ≠ 0)
    (hg : g = ⟨some t, some x, some h, some w, some f, some n⟩) :
    ∃ o o', step c [p] [g] = some [o] ∧ step c [p] [o.record] = some [o'] ∧
      o.wind = some (w * Real.exp (-(4 / 10) * (c.canopy.flowCoeff * lai))) ∧ o'.wind ≠ o.wind := by
  obtain ⟨t1, ht1, h1⟩ := step_single c p g hr hs
  have hlw : ∀ (t h : ℝ) (y : Option ℝ) (w : Option ℝ), ∃ lw,
      lwIn c p ⟨some t, y, some h, w, some f, some n⟩ = some lw := fun t h y w => by
    obtain ⟨em, hem'⟩ := Option.isSome_iff_exists.mp (hem t h)
    exact ⟨Irradiance.longwave em t p.svf n c.rock (cs * f) p.surf, by simp [lwIn, swIn, hem', hcs]⟩
  have hbelow : ∀ (t h w : ℝ) (y : Option ℝ) (q : Precip.Out ℝ), ∃ t' h' : ℝ,
      (below c p (above c p ⟨some t, y, some h, some w, some f, some n⟩ q)).record =
        ⟨some t', q.precip, some h', some (w * Real.exp (-(4 / 10) * (c.canopy.flowCoeff * lai))), some f, some n⟩ := by
    intro t h w y q
    obtain ⟨lw, hl⟩ := hlw t h y (some w)
    simp only [below, above, hp, hl, swIn, hcs, Option.bind_some, Option.map_some, Out.record, Canopy.metStep]
    exact ⟨_, _, rfl⟩
  rw [hg] at h1
  obtain ⟨t', h', hrec⟩ := hbelow t h w (some x) (Precip.partition c.phase (phasePx p ⟨some t, some x, some h, some w, some f, some n⟩ t1)
    (Precip.enforced c.phase [phasePx p ⟨some t, some x, some h, some w, some f, some n⟩ t1]
      (phasePx p ⟨some t, some x, some h, some w, some f, some n⟩ t1)))
  rw [hg]
  generalize hq : Precip.partition c.phase (phasePx p ⟨some t, some x, some h, some w, some f, some n⟩ t1)
    (Precip.enforced c.phase [phasePx p ⟨some t, some x, some h, some w, some f, some n⟩ t1]
      (phasePx p ⟨some t, some x, some h, some w, some f, some n⟩ t1)) = q at h1 hrec
  obtain ⟨t2, ht2, h2⟩ := step_single c p ⟨some t', q.precip, some h',
    some (w * Real.exp (-(4 / 10) * (c.canopy.flowCoeff * lai))), some f, some n⟩ hr hs
  obtain ⟨t'', h'', hrec2⟩ := hbelow t' h' (w * Real.exp (-(4 / 10) * (c.canopy.flowCoeff * lai))) q.precip
    (Precip.partition c.phase (phasePx p ⟨some t', q.precip, some h',
      some (w * Real.exp (-(4 / 10) * (c.canopy.flowCoeff * lai))), some f, some n⟩ t2)
      (Precip.enforced c.phase [phasePx p ⟨some t', q.precip, some h',
        some (w * Real.exp (-(4 / 10) * (c.canopy.flowCoeff * lai))), some f, some n⟩ t2]
        (phasePx p ⟨some t', q.precip, some h',
          some (w * Real.exp (-(4 / 10) * (c.canopy.flowCoeff * lai))), some f, some n⟩ t2)))
  have hw1 := congrArg Given.wind hrec
  have hw2 := congrArg Given.wind hrec2
  simp only [Out.record] at hw1 hw2
  refine ⟨_, _, h1, by rw [hrec]; exact h2, hw1, ?_⟩
  rw [hw1, hw2]
  intro e
  have e' := Option.some.inj e
  have hne : Real.exp (-(4 / 10) * (c.canopy.flowCoeff * lai)) ≠ 1 := by
    intro he
    rw [Real.exp_eq_one_iff] at he
    rcases mul_eq_zero.mp he with h0 | h0
    · norm_num at h0
    · exact hc h0
  have hpos := Real.exp_pos (-(4 / 10) * (c.canopy.flowCoeff * lai))
  have : w * Real.exp (-(4 / 10) * (c.canopy.flowCoeff * lai)) * (Real.exp (-(4 / 10) * (c.canopy.flowCoeff * lai)) - 1) = 0 := by
    rw [mul_sub, e']; ring
  rcases mul_eq_zero.mp this with h0 | h0
  · rcases mul_eq_zero.mp h0 with h0 | h0
    · exact hw h0
    · exact hpos.ne' h0
  · exact hne (by linarith)

/-- **C135** (what a callback has to assign). Without the cloud fraction there is no longwave radiation, although the cloud
factor, from which it follows, is known and gives the shortwave radiation. -/
theorem C135_fraction {c : Cfg} {ps : List Px} {gs : List Given} {os : List Out} (hl : Shaped c ps gs)
    (h : step c ps gs = some os) (hf : ∀ p ∈ ps, p.forest = none) (i : ℕ) (hi : i < ps.length) :
    ∃ (h1 : i < os.length) (h2 : i < gs.length),
      (gs[i].fraction = none → os[i].lw = none) ∧
      os[i].sw = ps[i].clearSky.bind fun cs => gs[i].factor.map fun f => cs * f := by
  simp only [step, Precip.process] at h
  split_ifs at h with hr
  · simp at h
  simp only [Option.map_some, Option.some.injEq] at h
  have hg : i < gs.length := by rw [hl.1]; exact hi
  have ht : i < (c.phaseTemp (gs.map fun g => (g.temp, g.relHum))).length := by rw [hl.2]; simpa using hg
  have hlen : i < os.length := by
    rw [← h]
    simp only [List.length_zipWith, List.length_zip, List.length_map]
    omega
  refine ⟨hlen, hg, ?_⟩
  have hp := hf ps[i] (List.getElem_mem hi)
  have hb : ∀ o, below c ps[i] o = o := fun o => by rw [below, hp]
  subst h
  simp only [List.getElem_zipWith, List.getElem_zip, hb, above]
  refine ⟨fun hn => ?_, rfl⟩
  simp only [lwIn, hn, Option.bind_none]
  cases gs[i].temp with
  | none => rfl
  | some t =>
    cases gs[i].relHum with
    | none => rfl
    | some h => cases hc : c.emissivity t h <;> simp [hc]

/-! ## Examples -/

/-- Threshold 273.15 K, no transition range. -/
noncomputable def exCfg (srf : Bool) : Cfg where
  phase := ⟨5463 / 20, 0, false, srf⟩
  phaseTemp := List.map Prod.fst
  emissivity := fun _ _ => some (3 / 4)
  rock := 1 / 2
  canopy := ⟨71 / 100, 8 / 10, 9 / 10⟩

noncomputable def exPx : Px := ⟨some 2000, 9 / 10, some (1 / 2), 270, some 500, none⟩

noncomputable def exGiven : Given := ⟨some 268, some 4, some 80, some 3, some (8 / 10), some (3 / 10)⟩

/-- A run over two time steps can be replayed. -/
example : ∃ l, run (S := ℕ) (fun _ => (exCfg false, [exPx])) (fun s _ => s + 1)
      [fun _ => [exGiven], fun _ => [exGiven]] 0 = some l ∧
    run (fun _ => (exCfg false, [exPx])) (fun s _ => s + 1) (l.map fun x _ => x.2.map Out.record) 0 = some l := by
  have hstep : ∃ os, step (exCfg false) [exPx] [exGiven] = some os := by
    simp [step, Precip.process, exCfg]
  obtain ⟨os, ho⟩ := hstep
  have hrun : run (S := ℕ) (fun _ => (exCfg false, [exPx])) (fun s _ => s + 1)
      [fun _ => [exGiven], fun _ => [exGiven]] 0 = some [(1, os), (2, os)] := by
    simp [run, ho]
  refine ⟨_, hrun, C135_replay_partial _ _ ?_ _ _ _ ?_ hrun⟩
  · intro s
    exact ⟨rfl, by simp [exPx]⟩
  · intro g hg s
    simp only [List.mem_cons, List.not_mem_nil, or_false, or_self] at hg
    subst hg
    exact ⟨rfl, by simp [exCfg]⟩

/-- With a redistribution factor of 0.5 the replay has half of the snowfall. -/
example : ∃ o o', step (exCfg true) [exPx] [exGiven] = some [o] ∧ step (exCfg true) [exPx] [o.record] = some [o'] ∧
    o.snow = some (1 / 2 * 4) ∧ o'.snow = some (1 / 2 * (1 / 2 * 4)) := by
  refine C135_srf_false (exCfg true) exPx exGiven rfl rfl (by simp [exCfg]) (by simp [exCfg]) rfl rfl rfl ?_
  intro q hq
  have : q.temp = some 268 := by simpa [exCfg, exGiven] using hq.symm
  simp only [Precip.frac, Precip.phase, exCfg, this]
  norm_num

/-- A forest pixel with leaf area index 5. -/
example : ∃ o o', step (exCfg false) [{ exPx with forest := some (5, 268) }] [exGiven] = some [o] ∧
    step (exCfg false) [{ exPx with forest := some (5, 268) }] [o.record] = some [o'] ∧ o'.wind ≠ o.wind := by
  obtain ⟨o, o', h1, h2, _, h3⟩ := C135_canopy_false (exCfg false) { exPx with forest := some (5, 268) } exGiven
    (lai := 5) (mean24 := 268) (t := 268) (x := 4) (h := 80) (w := 3) (f := 8 / 10) (n := 3 / 10) (cs := 500)
    (by simp [exCfg]) (by simp [exCfg]) (fun _ _ => rfl) rfl rfl (by norm_num [exCfg]) (by norm_num) rfl
  exact ⟨o, o', h1, h2, h3⟩

end Verif.Callback
