import Verif.Props.ForcingPath
import Verif.Props.StationOrder

/-!
# C146: the order in which the station files are read
-/

namespace Verif.Forcing

variable {K : Type*} [Field K] [LinearOrder K]

theorem sorted_union_perm {a b : List ℤ} (h : ∀ t, t ∈ a ↔ t ∈ b) :
    a.dedup.mergeSort (fun a b => decide (a ≤ b)) = b.dedup.mergeSort (fun a b => decide (a ≤ b)) := by
  have hs : ∀ l : List ℤ, (l.mergeSort (fun a b => decide (a ≤ b))).Pairwise (· ≤ ·) := by
    intro l
    have := List.pairwise_mergeSort (le := fun a b : ℤ => decide (a ≤ b)) (by intro a b c; simp; omega)
      (by intro a b; simp; omega) l
    simpa using this
  refine List.Perm.eq_of_pairwise (fun a b _ _ h1 h2 => le_antisymm h1 h2) (hs _) (hs _) ?_
  refine (List.mergeSort_perm _ _).trans (List.Perm.trans ?_ (List.mergeSort_perm _ _).symm)
  rw [List.perm_ext_iff_of_nodup (List.nodup_dedup _) (List.nodup_dedup _)]
  intro t
  rw [List.mem_dedup, List.mem_dedup, h t]

/-- Dates and variables of the combined dataset do not depend on the order of the stations. -/
theorem combine_perm (addMin : Bool) {dss dss' : List (Ds K)} (h : dss.Perm dss') (v : String) :
    (combine addMin dss).map (fun c => (c.times, decide (v ∈ c.vars)))
      = (combine addMin dss').map (fun c => (c.times, decide (v ∈ c.vars))) := by
  have hv : v ∈ combinedVars addMin dss ↔ v ∈ combinedVars addMin dss' := by
    unfold combinedVars
    simp only [List.mem_dedup, List.mem_filter, List.mem_append, List.mem_flatMap, h.mem_iff]
  cases dss with
  | nil => rw [h.nil_eq.symm]
  | cons d0 l =>
    cases dss' with
    | nil => exact absurd h.symm.nil_eq (by simp)
    | cons d1 l' =>
      have hall : ((d0 :: l).all fun ds => decide (ds.times = d0.times)) = true ↔
          ((d1 :: l').all fun ds => decide (ds.times = d1.times)) = true := by
        simp only [List.all_eq_true, decide_eq_true_eq]
        constructor
        · intro h1 ds hds
          rw [h1 ds (h.mem_iff.mpr hds), h1 d1 (h.mem_iff.mpr (by simp))]
        · intro h1 ds hds
          rw [h1 ds (h.mem_iff.mp hds), h1 d0 (h.mem_iff.mp (by simp))]
      have hnd : ((d0 :: l).all fun ds => decide ds.times.Nodup) = true ↔
          ((d1 :: l').all fun ds => decide ds.times.Nodup) = true := by
        simp only [List.all_eq_true, h.mem_iff]
      simp only [combine]
      by_cases h1 : ((d0 :: l).all fun ds => decide (ds.times = d0.times)) = true
      · have ht : d0.times = d1.times := by
          have := hall.mp h1
          simp only [List.all_eq_true, decide_eq_true_eq] at this
          exact this d0 (h.mem_iff.mp (by simp))
        rw [if_pos h1, if_pos (hall.mp h1)]
        simp only [Option.map_some, hv, ht]
      · rw [if_neg h1, if_neg (fun hc => h1 (hall.mpr hc))]
        by_cases h2 : ((d0 :: l).all fun ds => decide ds.times.Nodup) = true
        · rw [if_pos h2, if_pos (hnd.mp h2)]
          have := sorted_union_perm (a := (d0 :: l).flatMap Ds.times) (b := (d1 :: l').flatMap Ds.times)
            (fun t => by simp only [List.mem_flatMap, h.mem_iff])
          simp only [Option.map_some, hv, this]
        · rw [if_neg h2, if_neg (fun hc => h2 (hnd.mpr hc))]

theorem assemble_perm (strict : Bool) (start stop f : ℤ) {dss dss' : List (Ds K)} (h : dss.Perm dss') (v : String) :
    (assemble strict start stop f dss).map (fun c => (c.times, decide (v ∈ c.vars)))
      = (assemble strict start stop f dss').map (fun c => (c.times, decide (v ∈ c.vars))) := by
  have hp := h.filter fun ds => decide (ds.times ≠ [])
  have he : ((dss.filter fun ds => decide (ds.times ≠ [])).isEmpty : Bool)
      = (dss'.filter fun ds => decide (ds.times ≠ [])).isEmpty := by
    rw [Bool.eq_iff_iff, List.isEmpty_iff, List.isEmpty_iff]
    exact ⟨fun e => by rw [e] at hp; exact hp.nil_eq.symm, fun e => by rw [e] at hp; exact hp.eq_nil⟩
  simp only [assemble, he]
  by_cases h0 : (dss'.filter fun ds => decide (ds.times ≠ [])).isEmpty = true
  · simp only [h0, if_true]
  · simp only [h0]
    have hc := combine_perm true hp v
    cases h1 : combine true (dss.filter fun ds => decide (ds.times ≠ [])) with
    | none =>
      rw [h1] at hc
      cases h2 : combine true (dss'.filter fun ds => decide (ds.times ≠ [])) with
      | none => rfl
      | some c' => rw [h2] at hc; simp at hc
    | some c =>
      rw [h1] at hc
      cases h2 : combine true (dss'.filter fun ds => decide (ds.times ≠ [])) with
      | none => rw [h2] at hc; simp at hc
      | some c' =>
        rw [h2] at hc
        simp only [Option.map_some, Option.some.injEq, Prod.mk.injEq] at hc
        simp only [Bool.false_eq_true, if_false, hc.1]
        cases c'.times.head? <;> cases c'.times.getLast? <;> try rfl
        rename_i a b
        simp only
        by_cases h3 : start < a ∨ b < stop
        · simp only [h3, if_true]
          cases strict
          · simp only [Bool.false_eq_true, if_false, Option.map_some, hc.2]
          · rfl
        · simp only [h3, if_false, Option.map_some, hc.1, hc.2]

end Verif.Forcing

namespace Verif.ForcingPath

open Verif.Forcing Verif.StationFiles Verif.MeteoFields

variable {ι : Type*} [DecidableEq ι]

/-- **C146.** The fields of a date do not depend on the order in which the stations are read: either both orders give
the same fields or both raise. -/
theorem C146_files_partial (name : ℕ → String) (inp : Input) (toGrid : ℝ × ℝ → ℝ × ℝ) (ls ls' : List (Loaded ℝ Records))
    (hp : ls.Perm ls') (hreg : ∀ l ∈ ls, Regular l.data ∧ l.data.times ≠ []) (c : Cfgs) (hu : c.Unordered)
    (px : ι → Px) (roi : List ι)
    (hd : ∀ i ∈ roi, ∀ l ∈ ls, ∀ l' ∈ ls, toGrid (l.lon, l.lat) = ((px i).x, (px i).y) →
      toGrid (l'.lon, l'.lat) = ((px i).x, (px i).y) → l = l') (t : ℤ) (old : Fields ι) :
    fieldsFrom name inp toGrid (some ls) c px roi t old = fieldsFrom name inp toGrid (some ls') c px roi t old := by
  have ha := assemble_perm inp.strict inp.start inp.stop inp.f (hp.map (dataset name)) "wind_speed_gust"
  have hreg' : ∀ l ∈ ls', Regular l.data ∧ l.data.times ≠ [] := fun l hl => hreg l (hp.mem_iff.mpr hl)
  have hflag : ∀ ls, (stationsAt name inp.strict inp.start inp.stop inp.f toGrid (some ls) t).map Prod.snd
      = ((assemble inp.strict inp.start inp.stop inp.f (ls.map (dataset name))).map
          fun c => (c.times, decide ("wind_speed_gust" ∈ c.vars))).bind fun q => (q.1.idxOf? t).map fun _ => q.2 := by
    intro ls
    simp only [stationsAt, Option.bind_some]
    cases assemble inp.strict inp.start inp.stop inp.f (ls.map (dataset name)) with
    | none => rfl
    | some c => simp only [Option.bind_some, Option.map_some]; cases c.times.idxOf? t <;> rfl
  have hf : (stationsAt name inp.strict inp.start inp.stop inp.f toGrid (some ls) t).map Prod.snd
      = (stationsAt name inp.strict inp.start inp.stop inp.f toGrid (some ls') t).map Prod.snd := by
    rw [hflag, hflag, ha]
  unfold fieldsFrom
  cases h1 : stationsAt name inp.strict inp.start inp.stop inp.f toGrid (some ls) t with
  | none =>
    rw [h1] at hf
    cases h2 : stationsAt name inp.strict inp.start inp.stop inp.f toGrid (some ls') t with
    | none => rfl
    | some o => rw [h2] at hf; simp at hf
  | some o =>
    rw [h1] at hf
    cases h2 : stationsAt name inp.strict inp.start inp.stop inp.f toGrid (some ls') t with
    | none => rw [h2] at hf; simp at hf
    | some o' =>
      rw [h2] at hf
      simp only [Option.map_some, Option.some.injEq] at hf
      have e1 := (stationsAt_ideal h1 hreg).1
      have e2 := (stationsAt_ideal h2 hreg').1
      simp only [Option.bind_some, e1, e2, hf]
      refine C146_order_partial { c with hasGusts := o'.2 } hu px roi _ _ [] (by simpa using (hp.map (ideal toGrid t)).symm) (by simp) ?_ old
      intro i hi s hs s' hs' a1 a2 a3 a4
      obtain ⟨l, hl, rfl⟩ := List.mem_map.mp hs
      obtain ⟨l', hl', rfl⟩ := List.mem_map.mp hs'
      simp only [ideal, Option.some.injEq] at a1 a2 a3 a4
      rw [hd i hi l hl l' hl' (Prod.ext a1 a2) (Prod.ext a3 a4)]

theorem loaded_perm {ls ls' : List (Loaded ℝ Records)} (h1 : (ls.map Loaded.id).Nodup) (h2 : (ls'.map Loaded.id).Nodup)
    (h : ∀ l, l ∈ ls ↔ l ∈ ls') : ls.Perm ls' :=
  (List.perm_ext_iff_of_nodup h1.of_map h2.of_map).mpr h

/-- **C146.** The fields of a date do not depend on the order of the rows of the table of stations. -/
theorem C146_csv_partial (name : ℕ → String) (inp : Input) (toGrid toLonLat back : ℝ × ℝ → ℝ × ℝ)
    (hback : ∀ p, back (toLonLat p) = p) (rows rows' : List (CsvRow ℝ)) (hp : rows.Perm rows')
    (files : ℕ → Option Records) (hn : (rows.map CsvRow.id).Nodup)
    (hreg : ∀ r ∈ rows, ∀ d, files r.id = some d → Regular d) (c : Cfgs) (hu : c.Unordered) (px : ι → Px) (roi : List ι)
    (hd : ∀ i ∈ roi, ∀ r ∈ rows, ∀ r' ∈ rows, toGrid (r.x, r.y) = ((px i).x, (px i).y) →
      toGrid (r'.x, r'.y) = ((px i).x, (px i).y) → r = r') (t : ℤ) (old : Fields ι) :
    fieldsCsv name inp toGrid toLonLat back rows files c px roi t old
      = fieldsCsv name inp toGrid toLonLat back rows' files c px roi t old := by
  have hn' : (rows'.map CsvRow.id).Nodup := (hp.map _).nodup_iff.mp hn
  have herr : readCsvFiles inp.bounds inp.exclude inp.inclusion inp.strict toGrid toLonLat
        (prep inp.start inp.stop inp.f) (fun d => d.times.isEmpty) (some rows) files = none ↔
      readCsvFiles inp.bounds inp.exclude inp.inclusion inp.strict toGrid toLonLat
        (prep inp.start inp.stop inp.f) (fun d => d.times.isEmpty) (some rows') files = none := by
    rw [C113_csv_error _ _ _ _ _ _ _ _ _ _ (by rintro _ ⟨⟩; exact hn),
      C113_csv_error _ _ _ _ _ _ _ _ _ _ (by rintro _ ⟨⟩; exact hn')]
    have h0 : rows = [] ↔ rows' = [] :=
      ⟨fun e => by subst e; exact hp.nil_eq.symm, fun e => by subst e; exact hp.eq_nil⟩
    simp only [reduceCtorEq, Option.some.injEq, exists_eq_left', false_or, h0, hp.mem_iff]
  unfold fieldsCsv
  cases h1 : readCsvFiles inp.bounds inp.exclude inp.inclusion inp.strict toGrid toLonLat
      (prep inp.start inp.stop inp.f) (fun d => d.times.isEmpty) (some rows) files with
  | none => rw [herr.mp h1]
  | some ls =>
    cases h2 : readCsvFiles inp.bounds inp.exclude inp.inclusion inp.strict toGrid toLonLat
        (prep inp.start inp.stop inp.f) (fun d => d.times.isEmpty) (some rows') files with
    | none => rw [herr.mpr h2] at h1; cases h1
    | some ls' =>
      obtain ⟨a1, a2, -⟩ := C113_csv _ _ _ _ _ _ _ _ rows files hn ls h1
      obtain ⟨b1, b2, -⟩ := C113_csv _ _ _ _ _ _ _ _ rows' files hn' ls' h2
      refine C146_files_partial name inp back ls ls' (loaded_perm a1 b1 fun l => ?_) (fun l hl => ?_) c hu px roi ?_ t old
      · rw [a2, b2]; simp only [hp.mem_iff]
      · obtain ⟨r, hr, -, d, d', e1, e2, e3, rfl⟩ := (a2 l).mp hl
        exact ⟨regular_prep e2 (hreg r hr d e1), fun e => by
          have e : d'.times = [] := e
          rw [e] at e3; simp at e3⟩
      · intro i hi l hl l' hl' e e'
        obtain ⟨r, hr, -, d, d1, e1, e2, -, rfl⟩ := (a2 l).mp hl
        obtain ⟨r', hr', -, d', d1', e1', e2', -, rfl⟩ := (a2 l').mp hl'
        simp only [Prod.mk.eta, hback] at e e'
        have := hd i hi r hr r' hr' e e'
        subst this
        rw [e1] at e1'; cases e1'
        rw [e2] at e2'; cases e2'
        rfl

/-- **C146.** The fields of a date do not depend on the order in which the netCDF files are found. -/
theorem C146_netcdf_partial (name : ℕ → String) (inp : Input) (toGrid : ℝ × ℝ → ℝ × ℝ)
    (files files' : List (NcFile ℝ Records)) (hp : files.Perm files') (hn : (files.map NcFile.id).Nodup)
    (hreg : ∀ g ∈ files, Regular g.data) (c : Cfgs) (hu : c.Unordered) (px : ι → Px) (roi : List ι)
    (hd : ∀ i ∈ roi, ∀ g ∈ files, ∀ g' ∈ files, ∀ lon lat alt lon' lat' alt', g.pos = some (lon, lat, alt) →
      g'.pos = some (lon', lat', alt') → toGrid (lon, lat) = ((px i).x, (px i).y) →
      toGrid (lon', lat') = ((px i).x, (px i).y) → g = g') (t : ℤ) (old : Fields ι) :
    fieldsNetcdf name inp toGrid files c px roi t old = fieldsNetcdf name inp toGrid files' c px roi t old := by
  have hn' : (files'.map NcFile.id).Nodup := (hp.map _).nodup_iff.mp hn
  have herr : readNetcdf inp.bounds inp.exclude inp.inclusion inp.strict toGrid (prep inp.start inp.stop inp.f)
        (fun d => d.times.isEmpty) files = none ↔
      readNetcdf inp.bounds inp.exclude inp.inclusion inp.strict toGrid (prep inp.start inp.stop inp.f)
        (fun d => d.times.isEmpty) files' = none := by
    rw [C113_netcdf_error _ _ _ _ _ _ _ _ hn, C113_netcdf_error _ _ _ _ _ _ _ _ hn']
    have h0 : files = [] ↔ files' = [] :=
      ⟨fun e => by subst e; exact hp.nil_eq.symm, fun e => by subst e; exact hp.eq_nil⟩
    simp only [h0, hp.mem_iff]
  unfold fieldsNetcdf
  cases h1 : readNetcdf inp.bounds inp.exclude inp.inclusion inp.strict toGrid (prep inp.start inp.stop inp.f)
      (fun d => d.times.isEmpty) files with
  | none => rw [herr.mp h1]
  | some ls =>
    cases h2 : readNetcdf inp.bounds inp.exclude inp.inclusion inp.strict toGrid (prep inp.start inp.stop inp.f)
        (fun d => d.times.isEmpty) files' with
    | none => rw [herr.mpr h2] at h1; cases h1
    | some ls' =>
      obtain ⟨a1, a2, -⟩ := C113_netcdf _ _ _ _ _ _ _ files hn ls h1
      obtain ⟨b1, b2, -⟩ := C113_netcdf _ _ _ _ _ _ _ files' hn' ls' h2
      refine C146_files_partial name inp toGrid ls ls' (loaded_perm a1 b1 fun l => ?_) (fun l hl => ?_) c hu px roi ?_ t old
      · rw [a2, b2]; simp only [hp.mem_iff]
      · obtain ⟨g, hg, lon, lat, alt, -, -, d', e2, e3, rfl⟩ := (a2 l).mp hl
        exact ⟨regular_prep e2 (hreg g hg), fun e => by
          have e : d'.times = [] := e
          rw [e] at e3; simp at e3⟩
      · intro i hi l hl l' hl' e e'
        obtain ⟨g, hg, lon, lat, alt, e1, -, d1, e2, -, rfl⟩ := (a2 l).mp hl
        obtain ⟨g', hg', lon', lat', alt', e1', -, d1', e2', -, rfl⟩ := (a2 l').mp hl'
        have := hd i hi g hg g' hg' _ _ _ _ _ _ e1 e1' e e'
        subst this
        rw [e1] at e1'; cases e1'
        rw [e2] at e2'; cases e2'
        rfl

/-- Two files of different lengths, one of them in the centre of the pixel: the order in which they are found does not
matter. -/
example (o : Fields Unit) :
    let cfg : MeteoFields.Cfg := ⟨.fixed, 1 / 100, true⟩
    let a : NcFile ℝ Records := ⟨1, some (5, 5, 900), none, ⟨[0, 3600], [("precip", [some 1, none])]⟩⟩
    let b : NcFile ℝ Records :=
      ⟨2, some (0, 0, 1000), none, ⟨[0, 3600, 7200], [("temp", [some 270, some 271, none])]⟩⟩
    fieldsNetcdf (fun _ => "s") ⟨none, none, none, true, 0, 3600, 3600⟩ id [a, b] ⟨cfg, cfg, cfg, cfg, .idw, false⟩
        (fun _ : Unit => ⟨0, 0, 1000, 0, 0, 0⟩) [()] 3600 o
      = fieldsNetcdf (fun _ => "s") ⟨none, none, none, true, 0, 3600, 3600⟩ id [b, a] ⟨cfg, cfg, cfg, cfg, .idw, false⟩
        (fun _ : Unit => ⟨0, 0, 1000, 0, 0, 0⟩) [()] 3600 o := by
  intro cfg a b
  refine C146_netcdf_partial _ _ _ _ _ (List.Perm.swap b a []) (by simp [a, b]) ?_ _ ?_ _ _ ?_ _ _
  · intro g hg
    simp only [List.mem_cons, List.not_mem_nil, or_false] at hg
    rcases hg with rfl | rfl <;> simp [a, b, Regular]
  · exact ⟨trivial, trivial, trivial, trivial⟩
  · intro i _ g hg g' hg' lon lat alt lon' lat' alt' e e' h h'
    simp only [List.mem_cons, List.not_mem_nil, or_false] at hg hg'
    simp only [id, Prod.mk.injEq] at h h'
    obtain ⟨rfl, rfl⟩ := h
    obtain ⟨rfl, rfl⟩ := h'
    rcases hg with rfl | rfl <;> rcases hg' with rfl | rfl <;> simp_all [a, b]

end Verif.ForcingPath
