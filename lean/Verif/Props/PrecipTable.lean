import Verif.Model.PrecipTable
import Verif.Model.DerivedMeteo
import Verif.Props.FillStations
import Verif.Props.PrecipCorr

/-!
# Correction of the precipitation of a forcing table (C115)
-/

namespace Verif.PrecipTable

open Verif.Atmosphere
open Verif.FillStations (Rec Config mapM_some fillDate fillAll C99_kept C99_dates)

/-! ## Specification -/

/-- Nothing but the precipitation differs. -/
def SameBut (r r' : Rec) : Prop :=
  r'.x = r.x ∧ r'.y = r.y ∧ r'.z = r.z ∧ r'.temp = r.temp ∧ r'.hum = r.hum ∧ r'.wind = r.wind

/-- The temperature from which the model determines the phase at a pixel with the elevation, temperature and humidity
of the record (`model.py:824-854`). -/
noncomputable def modelTemp (s : Settings) (r : Rec) : Option ℝ :=
  match s.method with
  | .wetBulbTemp => r.temp.bind fun t => r.hum.bind fun h => ((DerivedMeteo.process s.fuel r.z t h).wet).getD none
  | _ => r.temp

/-- What the model itself would make of the recorded precipitation at such a pixel: snowfall and rainfall. -/
noncomputable def modelParts (s : Settings) (r : Rec) (p : Option ℝ) : Precip.Out ℝ :=
  let c : Precip.Cfg ℝ := ⟨s.thr, s.range, false, false⟩
  let px : Precip.Px ℝ := ⟨r.z, modelTemp s r, p, none⟩
  Precip.partition c px (Precip.enforced c [px] px)

/-- All variables needed for the correction are recorded. -/
def Complete (r : Rec) : Prop := r.temp.isSome ∧ r.hum.isSome ∧ r.wind.isSome

/-- A date without precipitation. -/
def Dry (rs : List Rec) : Prop := ∀ r ∈ rs, r.precip = none ∨ r.precip = some 0

/-! ## Lemmas -/

theorem mapM_of_get {α β : Type} (f : α → Option β) (l : List α) (l' : List β) (hl : l'.length = l.length)
    (h : ∀ (i : Nat) (a : α) (b : β), l[i]? = some a → l'[i]? = some b → f a = some b) : l.mapM f = some l' := by
  induction l generalizing l' with
  | nil =>
    have : l' = [] := by simpa using hl
    subst this; rfl
  | cons a t ih =>
    obtain ⟨b, t', rfl⟩ : ∃ b t', l' = b :: t' := by
      cases l' with
      | nil => simp at hl
      | cons b t' => exact ⟨b, t', rfl⟩
    have h0 := h 0 a b (by simp) (by simp)
    have h1 := ih t' (by simpa using hl) fun i x y hx hy => h (i + 1) x y (by simpa using hx) (by simpa using hy)
    simp [List.mapM_cons, h0, h1]

/-- The filled table: as many dates and stations; dates without positive precipitation as they are. -/
theorem fillAll_spec (ds : List (Config × List Rec)) (out : List (List Rec)) (h : fillAll ds = some out)
    (k : Nat) (c : Config) (rs : List Rec) (hk : ds[k]? = some (c, rs)) :
    ∃ gs, out[k]? = some gs ∧ gs.length = rs.length ∧ (gs = rs ∨ fillDate c rs = some gs) := by
  obtain ⟨-, h2⟩ := mapM_some _ _ _ h
  obtain ⟨gs, hgs, e⟩ := h2 k _ hk
  refine ⟨gs, hgs, ?_⟩
  simp only at e
  split_ifs at e
  · exact ⟨(C99_kept _ _ _ e).1, Or.inr e⟩
  · cases e; exact ⟨rfl, Or.inl rfl⟩

/-- What a result of the correction looks like, record by record. -/
theorem table_spec (s : Settings) (es : List Entry) (hes : es ≠ []) (ds : List (Config × List Rec))
    (out : List (List Rec)) (h : correctTable s es ds = some out) :
    out.length = ds.length ∧ ∀ (k : Nat) (c : Config) (rs : List Rec), ds[k]? = some (c, rs) →
      ∃ gs rs', (gs = rs ∨ fillDate c rs = some gs) ∧ out[k]? = some rs' ∧ rs'.length = rs.length ∧
        gs.length = rs.length ∧
        ∀ (i : Nat) (r : Rec), rs[i]? = some r → ∃ g r', gs[i]? = some g ∧ rs'[i]? = some r' ∧
          correctRec s es r g = some r' := by
  unfold correctTable at h
  rw [if_neg (by simpa using hes), Option.bind_eq_some_iff] at h
  obtain ⟨filled, hf, h⟩ := h
  obtain ⟨hl, hm⟩ := mapM_some _ _ _ h
  have hfl := (mapM_some _ _ _ hf).1
  refine ⟨by rw [hl]; simp [hfl], ?_⟩
  intro k c rs hk
  obtain ⟨gs, hgs, hlen, hor⟩ := fillAll_spec ds filled hf k c rs hk
  obtain ⟨rs', hrs', hmm⟩ := hm k (rs, gs) (by
    rw [List.getElem?_zip_eq_some]
    exact ⟨by simp [hk], hgs⟩)
  obtain ⟨hl2, hm2⟩ := mapM_some _ _ _ hmm
  refine ⟨gs, rs', hor, hrs', by rw [hl2]; simp [hlen], hlen, ?_⟩
  intro i r hr
  have hi : i < gs.length := by rw [hlen]; exact (List.getElem?_eq_some_iff.1 hr).1
  obtain ⟨r', hr', e⟩ := hm2 i (r, gs[i]) (by
    rw [List.getElem?_zip_eq_some]
    exact ⟨hr, by simp⟩)
  exact ⟨gs[i], r', by simp, hr', e⟩

theorem correctRec_spec (s : Settings) (es : List Entry) (r g r' : Rec) (h : correctRec s es r g = some r') :
    ∃ f p, snowfallFrac s g = some f ∧
      PrecipCorr.correct s.env (es.filterMap Entry.method?)
        ⟨r.precip, g.temp.map (· - T0), g.wind, f⟩ = some p ∧ r' = { r with precip := p } := by
  unfold correctRec at h
  rw [Option.bind_eq_some_iff] at h
  obtain ⟨f, hf, h⟩ := h
  rw [Option.map_eq_some_iff] at h
  obtain ⟨p, hp, rfl⟩ := h
  exact ⟨f, p, hf, hp, rfl⟩

/-! ## Theorems -/

/-- **C115.** Nothing but the precipitation of the dataset changes: as many dates and stations, coordinates,
temperature, humidity and wind speed as recorded (gaps included); missing precipitation stays missing, zero stays
zero, and recorded values stay recorded. -/
theorem C115_only_precip (s : Settings) (es : List Entry) (ds : List (Config × List Rec)) (out : List (List Rec))
    (h : correctTable s es ds = some out) :
    out.length = ds.length ∧ ∀ (k : Nat) (c : Config) (rs : List Rec), ds[k]? = some (c, rs) →
      ∃ rs', out[k]? = some rs' ∧ rs'.length = rs.length ∧
        ∀ (i : Nat) (r : Rec), rs[i]? = some r → ∃ r', rs'[i]? = some r' ∧ SameBut r r' ∧
          (r'.precip = none ↔ r.precip = none) ∧ (r.precip = some 0 → r'.precip = some 0) := by
  by_cases hes : es = []
  · subst hes
    simp only [correctTable, List.length_nil, if_true, Option.some.injEq] at h
    subst h
    refine ⟨by simp, fun k c rs hk => ⟨rs, by simp [hk], rfl, fun i r hr => ⟨r, hr, ?_, Iff.rfl, id⟩⟩⟩
    exact ⟨rfl, rfl, rfl, rfl, rfl, rfl⟩
  · obtain ⟨hl, hs⟩ := table_spec s es hes ds out h
    refine ⟨hl, fun k c rs hk => ?_⟩
    obtain ⟨gs, rs', -, hrs', hlen, -, hrec⟩ := hs k c rs hk
    refine ⟨rs', hrs', hlen, fun i r hr => ?_⟩
    obtain ⟨g, r', -, hr', e⟩ := hrec i r hr
    obtain ⟨f, p, -, hp, rfl⟩ := correctRec_spec s es r g r' e
    obtain ⟨⟨fs, -, hq⟩, h0, -⟩ := PrecipCorr.C64_sequence _ _ _ _ hp
    refine ⟨_, hr', ⟨rfl, rfl, rfl, rfl, rfl, rfl⟩, ?_, h0⟩
    simp only at hq ⊢
    rw [hq]; simp

/-- **C115.** A date without precipitation is left alone. -/
theorem C115_dry (s : Settings) (es : List Entry) (ds : List (Config × List Rec)) (out : List (List Rec))
    (h : correctTable s es ds = some out) (k : Nat) (c : Config) (rs : List Rec) (hk : ds[k]? = some (c, rs))
    (hd : Dry rs) : out[k]? = some rs := by
  obtain ⟨-, hs⟩ := C115_only_precip s es ds out h
  obtain ⟨rs', hrs', hlen, hrec⟩ := hs k c rs hk
  rw [hrs']
  congr 1
  refine List.ext_getElem? fun i => ?_
  by_cases hi : i < rs.length
  · obtain ⟨r', hr', ⟨h1, h2, h3, h4, h5, h6⟩, h7, h8⟩ := hrec i rs[i] (by simp [hi])
    rw [hr', List.getElem?_eq_getElem hi]
    congr 1
    have hpr : r'.precip = (rs[i]).precip := by
      rcases hd rs[i] (List.getElem_mem hi) with h | h
      · rw [h, h7.2 h]
      · rw [h, h8 h]
    rcases hri : rs[i] with ⟨x, y, z, t, u, w, p⟩
    rcases r' with ⟨x', y', z', t', u', w', p'⟩
    rw [hri] at h1 h2 h3 h4 h5 h6 hpr
    simp only at h1 h2 h3 h4 h5 h6 hpr
    subst h1 h2 h3 h4 h5 h6 hpr
    rfl
  · rw [List.getElem?_eq_none (by omega), List.getElem?_eq_none (by omega)]

theorem snowfallFrac_model (s : Settings) (g : Rec) (f : ℝ) (hf : snowfallFrac s g = some f)
    (p : Option ℝ) :
    (modelParts s g p).snow = p.map (f * ·) ∧ (modelParts s g p).rain = p.map ((1 - f) * ·) := by
  have ht : phaseTemp s g = some (modelTemp s g) := by
    unfold snowfallFrac at hf
    rw [Option.bind_eq_some_iff] at hf
    obtain ⟨t, ht, -⟩ := hf
    rw [ht]
    unfold phaseTemp at ht
    unfold modelTemp
    cases hm : s.method with
    | temp => rw [hm] at ht; exact ht.symm
    | other => rw [hm] at ht; cases ht
    | wetBulbTemp =>
      rw [hm] at ht
      simp only at ht ⊢
      cases h1 : g.temp with
      | none => rw [h1] at ht; simpa using ht.symm
      | some t1 =>
        cases h2 : g.hum with
        | none => rw [h1, h2] at ht; simpa using ht.symm
        | some h2' =>
          rw [h1, h2] at ht
          simp only at ht
          simp only [Option.bind_some]
          have : (DerivedMeteo.process s.fuel g.z t1 h2').wet = some t := by
            rw [← ht]; rfl
          rw [this]; rfl
  have hfr : Precip.frac ⟨s.thr, s.range, false, false⟩ (⟨g.z, modelTemp s g, p, none⟩ : Precip.Px ℝ) = f := by
    unfold snowfallFrac at hf
    rw [ht, Option.bind_some] at hf
    unfold Precip.frac
    simp only
    cases hp : Precip.phase s.thr s.range (modelTemp s g) with
    | none => rw [hp] at hf; cases hf
    | some v => cases v <;> (rw [hp] at hf; simpa using hf)
  unfold modelParts
  simp only [Precip.enforced, Precip.partition]
  rw [if_neg (by simp), if_neg (by simp), hfr]
  exact ⟨rfl, rfl⟩

/-- **C115.** A constant snow correction factor multiplies the snow part of each recorded value and leaves the rain
part alone, with the phase that the model itself would determine at a pixel with the station's elevation and its
temperature and humidity, where missing on a date with precipitation as filled from the other stations. Entries of
other modules in the list play no role. -/
theorem C115_constant (s : Settings) (es : List Entry) (scf : ℝ)
    (hes : es.filterMap Entry.method? = [.constantScf scf]) (ds : List (Config × List Rec)) (out : List (List Rec))
    (h : correctTable s es ds = some out) (k : Nat) (c : Config) (rs : List Rec) (hk : ds[k]? = some (c, rs)) :
    ∃ gs rs', out[k]? = some rs' ∧
      ((∃ r ∈ rs, ∃ p, r.precip = some p ∧ 0 < p) → fillDate c rs = some gs) ∧
      ((∀ r ∈ rs, ∀ p, r.precip = some p → p ≤ 0) → gs = rs) ∧
      ∀ (i : Nat) (r : Rec) (p : ℝ), rs[i]? = some r → r.precip = some p → ∃ g r' snow rain,
        gs[i]? = some g ∧ rs'[i]? = some r' ∧ (modelParts s g (some p)).snow = some snow ∧
        (modelParts s g (some p)).rain = some rain ∧ snow + rain = p ∧ r'.precip = some (rain + scf * snow) := by
  have hne : es ≠ [] := by rintro rfl; simp at hes
  have hall := h
  unfold correctTable at hall
  rw [if_neg (by simpa using hne), Option.bind_eq_some_iff] at hall
  obtain ⟨filled, hf, hall⟩ := hall
  obtain ⟨-, hm⟩ := mapM_some _ _ _ hall
  obtain ⟨gs, hgs, hlen, hor⟩ := fillAll_spec ds filled hf k c rs hk
  obtain ⟨rs', hrs', hmm⟩ := hm k (rs, gs) (by
    rw [List.getElem?_zip_eq_some]
    exact ⟨by simp [hk], hgs⟩)
  obtain ⟨hl2, hm2⟩ := mapM_some _ _ _ hmm
  obtain ⟨hdry, hwet⟩ := (C99_dates ds filled hf).2 k c rs hk
  refine ⟨gs, rs', hrs', fun hw => ?_, fun hd => ?_, ?_⟩
  · rw [← (hwet hw).1, hgs]
  · have := hdry hd; rw [hgs] at this; exact Option.some.inj this
  intro i r p hr hp
  have hi : i < gs.length := by rw [hlen]; exact (List.getElem?_eq_some_iff.1 hr).1
  obtain ⟨r', hr', e⟩ := hm2 i (r, gs[i]) (by
    rw [List.getElem?_zip_eq_some]
    exact ⟨hr, by simp⟩)
  obtain ⟨f, q, hfr, hq, rfl⟩ := correctRec_spec s es r gs[i] r' e
  obtain ⟨h1, h2⟩ := snowfallFrac_model s gs[i] f hfr (some p)
  refine ⟨gs[i], _, f * p, (1 - f) * p, by simp, hr', h1, h2, by ring, ?_⟩
  simp only
  rw [hes] at hq
  simp only [PrecipCorr.correct, List.foldl_cons, List.foldl_nil, PrecipCorr.factor, Option.bind_some,
    Option.map_some, Option.some.injEq] at hq
  rw [← hq, hp]
  simp only [Option.map_some, Option.some.injEq]
  ring

theorem filled_complete (c : Config) (rs gs : List Rec) (h : gs = rs ∨ fillDate c rs = some gs) (i : Nat) (r g : Rec)
    (hr : rs[i]? = some r) (hg : gs[i]? = some g) (hc : Complete r) : g = r := by
  rcases h with rfl | h
  · rw [hr] at hg; exact (Option.some.inj hg).symm
  · obtain ⟨-, hk⟩ := C99_kept c rs gs h
    obtain ⟨h1, h2, h3, h4, h5, h6, h7⟩ := hk i r g hr hg
    obtain ⟨ht, hh, hw⟩ := hc
    obtain ⟨t, ht⟩ := Option.isSome_iff_exists.1 ht
    obtain ⟨u, hu⟩ := Option.isSome_iff_exists.1 hh
    obtain ⟨w, hw⟩ := Option.isSome_iff_exists.1 hw
    have := h5 t ht; have := h6 u hu; have := h7 w hw
    rcases r with ⟨x, y, z, t, u, w, p⟩
    rcases g with ⟨x', y', z', t', u', w', p'⟩
    simp_all

theorem fillDate_single (c : Config) (r : Rec) (hc : Complete r) : fillDate c [r] = some [r] := by
  obtain ⟨ht, hh, hw⟩ := hc
  have key : ∀ (get : Rec → Option ℝ) (set : Rec → Option ℝ → Rec) (f : List Rec → Rec → Option (Option ℝ)),
      (get r).isSome → FillStations.fillVar get set f [r] = some [r] := by
    intro get set f hs
    have hn : (get r).isNone = false := by
      obtain ⟨v, hv⟩ := Option.isSome_iff_exists.1 hs
      rw [hv]; rfl
    simp [FillStations.fillVar, hn]
  unfold fillDate
  rw [key _ _ _ ht, Option.bind_some, key _ _ _ hh, Option.bind_some, key _ _ _ hw]

/-- **C115.** A station with complete records on a date is corrected independently of all other stations and dates:
correcting its record alone gives the same result. -/
theorem C115_independent (s : Settings) (es : List Entry) (ds : List (Config × List Rec)) (out : List (List Rec))
    (h : correctTable s es ds = some out) (k : Nat) (c : Config) (rs rs' : List Rec) (hk : ds[k]? = some (c, rs))
    (hk' : out[k]? = some rs') (i : Nat) (r r' : Rec) (hr : rs[i]? = some r) (hr' : rs'[i]? = some r')
    (hc : Complete r) (c' : Config) : correctTable s es [(c', [r])] = some [[r']] := by
  by_cases hes : es = []
  · subst hes
    simp only [correctTable, List.length_nil, if_true, Option.some.injEq] at h ⊢
    subst h
    simp only [List.getElem?_map, hk, Option.map_some, Option.some.injEq] at hk'
    subst hk'
    rw [hr] at hr'
    cases hr'
    rfl
  · obtain ⟨-, hs⟩ := table_spec s es hes ds out h
    obtain ⟨gs, rs2, hor, hrs2, -, -, hrec⟩ := hs k c rs hk
    obtain ⟨g, r2, hg, hr2, e⟩ := hrec i r hr
    rw [hk'] at hrs2; cases hrs2
    rw [hr'] at hr2; cases hr2
    obtain rfl := filled_complete c rs gs hor i r g hr hg hc
    have hfill : fillAll [(c', [g])] = some [[g]] := by
      simp only [fillAll, List.mapM_cons, List.mapM_nil]
      split_ifs
      · rw [fillDate_single c' g hc]; rfl
      · rfl
    unfold correctTable
    rw [if_neg (by simpa using hes), hfill]
    simp [e]

/-! ## Non-vacuity -/

/-- A complete record of 3 kg m-2 at -5 °C. -/
noncomputable def snowy : Rec := ⟨0, 0, 1000, some (T0 - 5), some 80, some 2, some 3⟩

/-- A date with a complete record and a station without wind and precipitation, and a dry date. -/
noncomputable def sample : List (Config × List Rec) :=
  [(⟨⟨.fixed, 0, true⟩, ⟨.fixed, 0, true⟩, ⟨.fixed, 0, true⟩⟩, [snowy]),
   (⟨⟨.fixed, 0, true⟩, ⟨.fixed, 0, true⟩, ⟨.fixed, 0, true⟩⟩,
     [{ snowy with precip := some 0 }, ⟨1000, 0, 1200, none, some 80, none, none⟩])]

/-- The table is corrected, the snow by one half, although another entry precedes the method. -/
theorem sample_corrected : (∃ out, correctTable ⟨.temp, T0 + 1, 2, ⟨10, 2, 1 / 100, 10 ^ 300⟩, 0⟩
      [.other, .corr (.constantScf (3 / 2))] sample = some out ∧
        (out[0]?.bind (·[0]?)).map Rec.precip = some (some (9 / 2))) ∧
    Complete snowy ∧ (∃ c rs, sample[1]? = some (c, rs) ∧ Dry rs) := by
  refine ⟨?_, by simp [Complete, snowy], ⟨_, _, rfl, by simp [Dry, snowy]⟩⟩
  have hfill : fillAll sample = some (sample.map Prod.snd) := by
    have h1 : fillDate ⟨⟨.fixed, 0, true⟩, ⟨.fixed, 0, true⟩, ⟨.fixed, 0, true⟩⟩ [snowy] = some [snowy] :=
      fillDate_single _ _ (by simp [Complete, snowy])
    have hw1 : FillStations.wet [snowy] = true := by simp [FillStations.wet, snowy]
    have hw2 : FillStations.wet [{ snowy with precip := some 0 }, ⟨1000, 0, 1200, none, some 80, none, none⟩] =
        false := by simp [FillStations.wet]
    simp [fillAll, sample, h1, hw1, hw2]
  have hc : ∀ r g : Rec, g.temp.isNone ∨ g.temp = some (T0 - 5) →
      correctRec ⟨.temp, T0 + 1, 2, ⟨10, 2, 1 / 100, 10 ^ 300⟩, 0⟩ [.other, .corr (.constantScf (3 / 2))] r g =
        some { r with precip := r.precip.map (· * if g.temp.isNone then 1 else 3 / 2) } := by
    intro r g hg
    have hm : [Entry.other, .corr (.constantScf (3 / 2))].filterMap Entry.method? = [.constantScf (3 / 2)] := rfl
    have hf : snowfallFrac ⟨.temp, T0 + 1, 2, ⟨10, 2, 1 / 100, 10 ^ 300⟩, 0⟩ g =
        some (if g.temp.isNone then 0 else 1) := by
      rcases hg with hg | hg
      · rw [Option.isNone_iff_eq_none] at hg
        norm_num [snowfallFrac, phaseTemp, Precip.phase, hg]
      · norm_num [snowfallFrac, phaseTemp, Precip.phase, hg]
        exact div_nonpos_of_nonpos_of_nonneg (by norm_num) (by ring_nf; norm_num)
    unfold correctRec
    rw [hf, Option.bind_some, hm]
    simp only [PrecipCorr.correct, List.foldl_cons, List.foldl_nil, PrecipCorr.factor, Option.bind_some,
      Option.map_some]
    congr 3
    funext x
    split_ifs <;> norm_num
  unfold correctTable
  rw [if_neg (by simp), hfill]
  simp only [sample, List.map_cons, List.map_nil, Option.bind_some, List.zip_cons_cons, List.zip_nil_right,
    List.mapM_cons, List.mapM_nil]
  rw [hc snowy snowy (Or.inr rfl), hc _ { snowy with precip := some 0 } (Or.inr rfl), hc _ ⟨1000, 0, 1200, none, some 80, none, none⟩ (Or.inl rfl)]
  refine ⟨_, rfl, ?_⟩
  simp [snowy]
  norm_num

end Verif.PrecipTable
