import Verif.Props.Rounded
import Verif.Props.CryoStep

/-!
# C137: without rounding the model of the water is the cryolayer model
-/

set_option linter.unusedSectionVars false

namespace Verif.Rounded

open Verif.Cryo (CLayer CPixel Cfg StepIn)

variable {K : Type*} [Field K] [LinearOrder K] [IsStrictOrderedRing K]

/-- Contents of a layer. -/
def wat (L : CLayer K) : W K := ⟨L.ice, L.lwc⟩

/-- Contents of a pixel. -/
def contents (p : CPixel K) : Pix K := [wat p.new, wat p.old, wat p.firn, wat p.ice]

theorem meltLayer_wat (d : K) (L : CLayer K) :
    (Cryo.meltLayer d L).1 = (meltLayer id d (wat L)).1 ∧ wat (Cryo.meltLayer d L).2 = (meltLayer id d (wat L)).2 := by
  unfold Cryo.meltLayer meltLayer wat
  split_ifs <;> simp

theorem sublLayer_wat (d : K) (L : CLayer K) :
    (Cryo.sublLayer d L).1 = (sublLayer id d (wat L)).1 ∧ wat (Cryo.sublLayer d L).2 = (sublLayer id d (wat L)).2 := by
  unfold Cryo.sublLayer sublLayer wat
  split_ifs <;> simp

theorem runoffLayer_wat (r cap : K) (L : CLayer K) :
    (Cryo.runoffLayer r cap L).1 = (runoffLayer id r cap (wat L)).1 ∧
      wat (Cryo.runoffLayer r cap L).2 = (runoffLayer id r cap (wat L)).2 := by
  unfold Cryo.runoffLayer runoffLayer wat
  simp only [id]
  split_ifs <;> simp

theorem melt_contents (d : K) (p : CPixel K) : contents (Cryo.melt d p) = melt id d (contents p) := by
  simp only [contents, Cryo.melt, melt, meltLayer_wat]

theorem iceSum_contents (p : CPixel K) : iceSum id (contents p) = p.iceSum := by
  simp [iceSum, contents, wat, CPixel.iceSum]

theorem addSnow_contents (single : Bool) (am d a : K) (p : CPixel K) :
    contents (Cryo.addSnow single am d a p) = addSnow id a (contents p) := by
  simp [contents, Cryo.addSnow, addSnow, wat]

theorem sublLoop_contents (d : K) (p : CPixel K) :
    (Cryo.sublLoop d p).1 = (sublLoop id d (contents p)).1 ∧ contents (Cryo.sublLoop d p).2 = (sublLoop id d (contents p)).2 := by
  simp only [contents, Cryo.sublLoop, sublLoop, sublLayer_wat, and_self]

theorem sublimation_contents (dt dens am : K) (single : Bool) (fl : Option K) (p : CPixel K) :
    (Cryo.sublimation dt dens am single fl p).1 =
        (sublimation id (nanToZero (fl.map fun f => -1 * f * dt)) (contents p)).1 ∧
      contents (Cryo.sublimation dt dens am single fl p).2 =
        (sublimation id (nanToZero (fl.map fun f => -1 * f * dt)) (contents p)).2 := by
  simp only [Cryo.sublimation, sublimation, iceSum_contents, ← (sublLoop_contents _ p).1, ← (sublLoop_contents _ p).2]
  refine ⟨trivial, ?_⟩
  split_ifs <;> first | rw [addSnow_contents] | rfl

theorem runoff_contents (m : MultiLayer.LwcMethod) (frac : K) (rain : Option K) (p : CPixel K) :
    (Cryo.runoff m frac rain p).1 = (runoff id (nanToZero rain) [MultiLayer.maxLwc m frac p.new.thick p.new.ice,
        MultiLayer.maxLwc m frac p.old.thick p.old.ice] (contents p)).1 ∧
      contents (Cryo.runoff m frac rain p).2 = (runoff id (nanToZero rain)
        [MultiLayer.maxLwc m frac p.new.thick p.new.ice, MultiLayer.maxLwc m frac p.old.thick p.old.ice] (contents p)).2 := by
  simp only [contents, Cryo.runoff, runoff, runoffLayer_wat, List.headD_cons, List.tail_cons, List.headD_nil, List.tail_nil,
    and_self]

theorem transition_wat (b : Bool) {src dst s d : CLayer K} (hs : 0 < src.thick ↔ 0 < src.ice + src.lwc)
    (hd : 0 < dst.thick ↔ 0 < dst.ice + dst.lwc) (hd0 : 0 ≤ dst.thick) (h : Cryo.transition b src dst = some (s, d)) :
    transition id b (wat src) (wat dst) = (wat s, wat d) := by
  unfold Cryo.transition at h
  change transition id b ⟨src.ice, src.lwc⟩ ⟨dst.ice, dst.lwc⟩ = (⟨s.ice, s.lwc⟩, ⟨d.ice, d.lwc⟩)
  simp only [transition, id]
  cases b with
  | false =>
    simp only [Bool.false_eq_true, if_false, Option.some.injEq, Prod.mk.injEq] at h ⊢
    obtain ⟨rfl, rfl⟩ := h
    exact ⟨rfl, rfl⟩
  | true =>
    simp only [if_true] at h ⊢
    by_cases h1 : 0 < src.thick
    · rw [if_pos h1] at h
      rw [if_pos (hs.mp h1)]
      by_cases h2 : 0 < dst.thick
      · rw [if_pos h2] at h
        rw [if_pos (hd.mp h2)]
        cases hm : Cryo.mergeLayer src dst with
        | none => rw [hm] at h; simp at h
        | some M =>
          rw [hm] at h
          simp only [Option.some.injEq, Prod.mk.injEq] at h
          obtain ⟨rfl, rfl⟩ := h
          simp only [Cryo.mergeLayer] at hm
          by_cases hz : src.we + dst.we = 0
          · rw [if_pos hz] at hm; simp at hm
          · rw [if_neg hz] at hm
            cases hw : Cryo.wmean (src.we / (src.we + dst.we)) (dst.we / (src.we + dst.we)) src.dens dst.dens with
            | none => rw [hw] at hm; simp at hm
            | some x =>
              rw [hw] at hm
              simp only at hm
              by_cases hx : x = 0
              · rw [if_pos hx] at hm; simp at hm
              · rw [if_neg hx] at hm
                rw [← Option.some.inj hm]
                rfl
      · rw [if_neg h2, if_pos (le_antisymm (not_lt.mp h2) hd0)] at h
        rw [if_neg fun hh => h2 (hd.mpr hh)]
        simp only [Option.some.injEq, Prod.mk.injEq] at h
        obtain ⟨rfl, rfl⟩ := h
        rfl
    · rw [if_neg h1] at h
      rw [if_neg fun hh => h1 (hs.mpr hh)]
      simp only [Option.some.injEq, Prod.mk.injEq] at h
      obtain ⟨rfl, rfl⟩ := h
      rfl

theorem consistent_iff {L : CLayer K} (h : L.Consistent) : (0 < L.thick ↔ 0 < L.ice + L.lwc) ∧ 0 ≤ L.thick := by
  rcases h with ⟨a, b, c, -⟩ | ⟨a, -, -, d, -⟩
  · simp [a, b, c]
  · exact ⟨⟨fun _ => d, fun _ => a⟩, a.le⟩

theorem updateLayers_contents (od idn : K) (fd : Bool) (p q : CPixel K) (hn : p.new.Updatable) (ho : p.old.Updatable)
    (hf : p.firn.Updatable) (hi : p.ice.Updatable) (h : Cryo.updateLayers od idn fd p = some q) :
    ∃ t1 t3, contents q = updateLayers id t1 fd t3 (contents p) := by
  obtain ⟨n0, en, cn, n1, n2, -⟩ := Cryo.refresh_spec _ hn
  obtain ⟨o0, eo, co, o1, o2, -⟩ := Cryo.refresh_spec _ ho
  obtain ⟨f0, ef, cf, f1, f2, -⟩ := Cryo.refresh_spec _ hf
  obtain ⟨i0, ei, ci, i1, i2, -⟩ := Cryo.refresh_spec _ hi
  obtain ⟨n', o', t1, k1, k2, -⟩ := Cryo.transition_total (Cryo.densAtLeast n0 od) n0 o0 cn co
  obtain ⟨o'', f', t2, k3, k4, -⟩ := Cryo.transition_total fd o' f0 k2 cf
  obtain ⟨f'', i', t3, k5, k6, -⟩ := Cryo.transition_total (Cryo.densAtLeast f' idn) f' i0 k4 ci
  have hq : q = { p with new := n', old := o'', firn := f'', ice := i' } := by
    simp [Cryo.updateLayers, en, eo, ef, ei, t1, t2, t3] at h
    exact h.symm
  have re : ∀ {L M : CLayer K}, L.Updatable → M.ice = L.ice → M.lwc = L.lwc → refresh id (wat L) = wat M := by
    intro L M hL e1 e2
    change refresh id ⟨L.ice, L.lwc⟩ = ⟨M.ice, M.lwc⟩
    rw [e1, e2]
    obtain ⟨a, b, -⟩ := hL
    by_cases hz : L.ice + L.lwc ≤ 0
    · have z1 : L.ice = 0 := by linarith
      have z2 : L.lwc = 0 := by linarith
      simp [refresh, z1, z2]
    · simp [refresh, hz]
  refine ⟨Cryo.densAtLeast n0 od, Cryo.densAtLeast f' idn, ?_⟩
  rw [hq]
  simp only [contents, updateLayers]
  rw [re hn n1 n2, re ho o1 o2, re hf f1 f2, re hi i1 i2]
  rw [transition_wat _ (consistent_iff cn).1 (consistent_iff co).1 (consistent_iff co).2 t1]
  dsimp only
  rw [transition_wat _ (consistent_iff k2).1 (consistent_iff cf).1 (consistent_iff cf).2 t2]
  dsimp only
  rw [transition_wat _ (consistent_iff k4).1 (consistent_iff ci).1 (consistent_iff ci).2 t3]

theorem refreezeLayer_wat (cap avail : K) (L : CLayer K) :
    ∃ a, wat (Cryo.refreezeLayer cap avail L).2.2 = refreezeLayer id a (wat L) := by
  unfold Cryo.refreezeLayer
  by_cases h : 0 < L.thick ∧ 0 < avail
  · refine ⟨avail, ?_⟩
    rw [if_pos h, refreezeLayer, if_pos h.2]
    simp [wat]
  · refine ⟨0, ?_⟩
    rw [if_neg h, refreezeLayer, if_neg (lt_irrefl _)]

theorem meltAmount_contents (c : Cfg K) (m : Cryo.MeltIn K) (p : CPixel K) :
    ∃ cold, contents (Cryo.meltAmount c m p).2.2 = refreeze id cold (contents p) := by
  have nil : ∀ p : CPixel K, contents p = refreeze id [] (contents p) := fun p => by simp [refreeze]
  unfold Cryo.meltAmount
  cases m with
  | energy at' eb =>
    dsimp only
    split_ifs
    · refine ⟨[], ?_⟩
      rw [← nil]
      have e : ∀ (s : Cryo.EbAcc K) (L : CLayer K), wat (Cryo.ebLayer eb s L).2 = wat L := by
        intro s L
        unfold Cryo.ebLayer wat
        cases eb with
        | none => rfl
        | some x =>
          dsimp only
          split_ifs <;> rfl
      simp only [contents, Cryo.ebMelt, e]
    · obtain ⟨a, ha⟩ := refreezeLayer_wat c.coldCapacity (Cryo.availableCold eb c.dt c.refreezeFactor) p.new
      obtain ⟨b, hb⟩ := refreezeLayer_wat c.coldCapacity
        (Cryo.refreezeLayer c.coldCapacity (Cryo.availableCold eb c.dt c.refreezeFactor) p.new).1 p.old
      refine ⟨[a, b], ?_⟩
      simp only [contents, Cryo.refreeze, refreeze, ha, hb]
    · exact ⟨[], nil p⟩
  | index m t a s => exact ⟨[], nil p⟩

theorem compaction_contents {c : Cfg K} {e : StepIn K} {p q : CPixel K} (h : Cryo.compaction c e p = some q) :
    contents q = contents p := by
  simp only [Cryo.compaction, Option.bind_eq_bind, Option.bind_eq_some_iff] at h
  obtain ⟨f, hf, i, hi, hq⟩ := h
  obtain rfl := Option.some.inj hq
  have e1 : wat f = wat p.firn := by
    unfold Cryo.compactFirn at hf
    by_cases ht : 0 < p.firn.thick
    · rw [if_pos ht] at hf
      cases hd : p.firn.dens with
      | none => rw [hd] at hf; simp at hf
      | some d =>
        rw [hd] at hf
        simp only at hf
        split_ifs at hf
        rw [← Option.some.inj hf]
        rfl
    · rw [if_neg ht] at hf
      rw [← Option.some.inj hf]
  have e2 : wat i = wat p.ice := by
    unfold Cryo.compactIce at hi
    by_cases ht : 0 < p.ice.thick
    · rw [if_pos ht] at hi
      split_ifs at hi
      rw [← Option.some.inj hi]
      rfl
    · rw [if_neg ht] at hi
      rw [← Option.some.inj hi]
  have e3 : ∀ (f : CLayer K → K) (L : CLayer K), wat (Cryo.compactSnow f L) = wat L := by
    intro f L
    unfold Cryo.compactSnow
    split_ifs <;> rfl
  simp only [contents, e1, e2, e3]

theorem aging_contents (single : Bool) (fa ia : K) (aged : Option K → Option K) (p : CPixel K) :
    contents (Cryo.albedoAging single fa ia aged p) = contents p := by
  have e : ∀ (c : Prop) [Decidable c] (L : CLayer K) (a : Option K),
      wat (if c then { L with alb := a } else L) = wat L := by
    intro c _ L a
    split_ifs <;> rfl
  simp only [contents, Cryo.albedoAging, e]

theorem updateProperties_contents (p : CPixel K) : contents (Cryo.updateProperties p) = contents p := by
  have e : ∀ L : CLayer K, wat (Cryo.updDens L) = wat L := by
    intro L
    unfold Cryo.updDens
    split_ifs <;> rfl
  simp only [contents, Cryo.updateProperties, e]

/-- **C137.** Without rounding the steps are those of the cryolayer model: for every configuration, input and state as in C33
the water contents and the fluxes of a time step are those of `step` for some inputs with the same precipitation. -/
theorem C137_exact (lo : K) (c : Cfg K) (e : StepIn K) (p : CPixel K) (hc : Cryo.CfgOK lo c)
    (he : Cryo.InOK (c.lwcMethod = .poreVolume) lo c.albMax e)
    (hp : Cryo.EndPixel (c.lwcMethod = .poreVolume) lo c.albMax p) :
    ∃ f q i, Cryo.step c e p = some (f, q) ∧ i.Ok ∧ i.snow = e.snowfall.getD 0 ∧ i.rain = e.rainfall.getD 0 ∧
      i.melt = f.melt ∧ i.toFirn = e.firnDate ∧
      step id i (contents p) = (⟨f.sublimation, f.runoff⟩, contents q) := by
  obtain ⟨p0, e0, hprep⟩ := Cryo.prepared_end hc he hp
  simp only at hprep
  obtain ⟨p1, e1⟩ : ∃ x, Cryo.accumulation c.single c.albMax e.freshDensity e.snowfall p0 = x := ⟨_, rfl⟩
  obtain ⟨pa, ea⟩ : ∃ x, Cryo.albedoAging c.single c.firnAlb c.iceAlb e.aged p1 = x := ⟨_, rfl⟩
  obtain ⟨p2, e2⟩ : ∃ x, Cryo.updateProperties pa = x := ⟨_, rfl⟩
  rw [e1, ea, e2] at hprep
  obtain ⟨k3, -⟩ := hprep
  obtain ⟨m, em⟩ : ∃ x, Cryo.meltAmount c e.melt p2 = x := ⟨_, rfl⟩
  have hma := Cryo.meltAmount_mid hc e.melt k3
  rw [em] at hma
  obtain ⟨k4, m1, -⟩ := hma
  obtain ⟨p3, e3⟩ : ∃ x, Cryo.melt m.1 m.2.2 = x := ⟨_, rfl⟩
  have k5 := Cryo.melt_mid m1 k4
  rw [e3] at k5
  have k6 := Cryo.sublimation_mid (fl := e.moistureFlux) k5 hc he.fresh he.fresh1
  obtain ⟨s, es⟩ : ∃ x, Cryo.sublimation c.dt e.freshDensity c.albMax c.single e.moistureFlux p3 = x := ⟨_, rfl⟩
  rw [es] at k6
  have cn := Cryo.maxLwc_nonneg hc k6.new
  have co := Cryo.maxLwc_nonneg hc k6.old
  have rn := Cryo.runoffLayer_spec (nanToZero e.rainfall) _ s.2.new he.rain cn k6.new.nn
  have ro := Cryo.runoffLayer_spec _ _ s.2.old rn.2.2.2.2.2.2.2.1 co k6.old.nn
  have rf := Cryo.runoffLayer_spec _ 0 s.2.firn ro.2.2.2.2.2.2.2.1 (le_refl _) k6.firn.nn
  have ri := Cryo.runoffLayer_spec _ 0 s.2.ice rf.2.2.2.2.2.2.2.1 (le_refl _) k6.ice.nn
  obtain ⟨r, er⟩ : ∃ x, Cryo.runoff c.lwcMethod c.maxFrac e.rainfall s.2 = x := ⟨_, rfl⟩
  have hrn : r.2.new = (Cryo.runoffLayer (nanToZero e.rainfall)
      (MultiLayer.maxLwc c.lwcMethod c.maxFrac s.2.new.thick s.2.new.ice) s.2.new).2 := by rw [← er]; rfl
  have hro : r.2.old = (Cryo.runoffLayer (Cryo.runoffLayer (nanToZero e.rainfall)
      (MultiLayer.maxLwc c.lwcMethod c.maxFrac s.2.new.thick s.2.new.ice) s.2.new).1
      (MultiLayer.maxLwc c.lwcMethod c.maxFrac s.2.old.thick s.2.old.ice) s.2.old).2 := by rw [← er]; rfl
  have hrf : r.2.firn = (Cryo.runoffLayer (Cryo.runoffLayer (Cryo.runoffLayer (nanToZero e.rainfall)
      (MultiLayer.maxLwc c.lwcMethod c.maxFrac s.2.new.thick s.2.new.ice) s.2.new).1
      (MultiLayer.maxLwc c.lwcMethod c.maxFrac s.2.old.thick s.2.old.ice) s.2.old).1 0 s.2.firn).2 := by
    rw [← er]; rfl
  have hri : r.2.ice = (Cryo.runoffLayer (Cryo.runoffLayer (Cryo.runoffLayer (Cryo.runoffLayer (nanToZero e.rainfall)
      (MultiLayer.maxLwc c.lwcMethod c.maxFrac s.2.new.thick s.2.new.ice) s.2.new).1
      (MultiLayer.maxLwc c.lwcMethod c.maxFrac s.2.old.thick s.2.old.ice) s.2.old).1 0 s.2.firn).1 0
      s.2.ice).2 := by rw [← er]; rfl
  rw [← hrn] at rn
  rw [← hro] at ro
  rw [← hrf] at rf
  rw [← hri] at ri
  obtain ⟨-, rn1, rn2, rn3, -, rn4, rn5, -, rn6⟩ := rn
  obtain ⟨-, ro1, ro2, ro3, -, ro4, ro5, -, ro6⟩ := ro
  obtain ⟨-, rf1, rf2, rf3, -, rf4, rf5, -, rf6⟩ := rf
  obtain ⟨-, ri1, ri2, ri3, -, ri4, ri5, -, ri6⟩ := ri
  have zsnow : ∀ {L M : CLayer K}, Cryo.MidSnow (c.lwcMethod = .poreVolume) lo c.albMax L →
      0 ≤ M.lwc → M.lwc ≤ MultiLayer.maxLwc c.lwcMethod c.maxFrac L.thick L.ice → L.ice = 0 → M.lwc = 0 := by
    intro L M hL h0 h1 hz
    rw [hz, hL.iff.mpr hz, Cryo.maxLwc_empty] at h1
    exact le_antisymm h1 h0
  have qn := Cryo.runoff_ready k6.new.toMid rn1 rn2 rn3 rn5.lwc (zsnow k6.new rn5.lwc rn6)
  have qo := Cryo.runoff_ready k6.old.toMid ro1 ro2 ro3 ro5.lwc (zsnow k6.old ro5.lwc ro6)
  have qf := Cryo.runoff_ready k6.firn rf1 rf2 rf3 rf5.lwc fun _ => le_antisymm rf6 rf5.lwc
  have qi := Cryo.runoff_ready k6.ice ri1 ri2 ri3 ri5.lwc fun _ => le_antisymm ri6 ri5.lwc
  obtain ⟨q, eq, -⟩ := Cryo.C29_update_layers c.oldDensity c.iceDens e.firnDate (Cryo.updateProperties r.2) qn.upd qo.upd
    qf.upd qi.upd
  obtain ⟨t1, t3, ht⟩ := updateLayers_contents c.oldDensity c.iceDens e.firnDate _ q qn.upd qo.upd qf.upd qi.upd eq
  obtain ⟨cold, hcold⟩ := meltAmount_contents c e.melt p2
  rw [em] at hcold
  refine ⟨⟨m.1, m.2.1, s.1, r.1⟩, q, ⟨e.snowfall.getD 0, e.rainfall.getD 0, m.1, cold,
    nanToZero (e.moistureFlux.map fun f => -1 * f * c.dt),
    [MultiLayer.maxLwc c.lwcMethod c.maxFrac s.2.new.thick s.2.new.ice,
      MultiLayer.maxLwc c.lwcMethod c.maxFrac s.2.old.thick s.2.old.ice], t1, e.firnDate, t3⟩, ?_, ?_, rfl, rfl, rfl, rfl, ?_⟩
  · simp [Cryo.step, e0, e1, ea, e2, em, e3, es, er, eq]
  · refine ⟨he.snow, he.rain, ?_⟩
    intro x hx
    simp only [List.mem_cons, List.not_mem_nil, or_false] at hx
    rcases hx with rfl | rfl
    · exact cn
    · exact co
  · have h1 : contents p2 = if 0 < e.snowfall.getD 0 then addSnow id (e.snowfall.getD 0) (contents p) else contents p := by
      rw [← e2, updateProperties_contents, ← ea, aging_contents, ← e1, ← compaction_contents e0]
      cases e.snowfall with
      | none => simp [Cryo.accumulation]
      | some f =>
        simp only [Cryo.accumulation, Option.getD_some]
        split_ifs
        · rw [addSnow_contents]
        · rfl
    have h3 : contents p3 = melt id m.1 (refreeze id cold (contents p2)) := by rw [← e3, melt_contents, hcold]
    have h4 := sublimation_contents c.dt e.freshDensity c.albMax c.single e.moistureFlux p3
    rw [es] at h4
    have h5 := runoff_contents c.lwcMethod c.maxFrac e.rainfall s.2
    rw [er] at h5
    rw [updateProperties_contents] at ht
    simp only [step]
    rw [← h1, ← h3, ← h4.2, ← h4.1]
    rw [show e.rainfall.getD 0 = nanToZero e.rainfall from rfl, ← h5.1, ← h5.2, ← ht]

example : ∃ f q i, Cryo.step Cryo.exCfg Cryo.exIn Cryo.exPixel = some (f, q) ∧ In.Ok i ∧ i.snow = 2 ∧ i.rain = 1 ∧
    step id i (contents Cryo.exPixel) = (⟨f.sublimation, f.runoff⟩, contents q) := by
  obtain ⟨f, q, i, h1, h2, h3, h4, -, -, h5⟩ := C137_exact (55 / 100 : ℚ) Cryo.exCfg Cryo.exIn Cryo.exPixel
    (by constructor <;> norm_num [Cryo.exCfg, waterDensity, iceDensity])
    (by
      refine ⟨by norm_num [Cryo.exIn], by norm_num [Cryo.exIn], by norm_num [Cryo.exIn],
        fun _ => by norm_num [Cryo.exIn, iceDensity], fun L => ?_, fun _ L => ?_, fun _ => by norm_num [Cryo.exIn],
        fun _ _ => by norm_num [Cryo.exIn, iceDensity], fun a h1 h2 => ⟨a, rfl, h1, h2⟩⟩
      · exact lt_min (lt_of_lt_of_le (by norm_num) (le_max_right _ _)) (by norm_num)
      · exact le_trans (min_le_right _ _) (by norm_num [iceDensity]))
    (by
      refine ⟨⟨⟨Or.inr ?_, ?_⟩, ?_, ?_⟩, ⟨⟨Or.inr ?_, ?_⟩, ?_, ?_⟩, ⟨Or.inr ?_, ?_⟩, ⟨Or.inr ?_, ?_⟩⟩ <;>
        norm_num [Cryo.exPixel, Cryo.exCfg, iceDensity])
  exact ⟨f, q, i, h1, h2, h3, h4, h5⟩

end Verif.Rounded
