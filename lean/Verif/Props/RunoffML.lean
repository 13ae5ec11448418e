import Verif.Lemmas.Runoff

/-!
# C15: runoff and refreezing in the multilayer model
-/

set_option linter.unusedSectionVars false

namespace Verif.MultiLayer

variable {K : Type*} [Field K] [LinearOrder K] [IsStrictOrderedRing K]

theorem runoff_hlen (m : LwcMethod) (f : K) (s : RunoffAcc K) (p : Pixel K) :
    (runoffLoop s ((p.layers.take p.n).map fun L => (L, maxLwc m f L.thick L.ice))).2.length
      = (p.layers.take p.n).length := by
  rw [runoffLoop_length]; simp

/-- **C15** Water balance of the runoff step for every pixel state and rainfall (missing rainfall
counts as zero): rain + old ice + old liquid water = runoff + new ice + new liquid water; the
reported refreezing is the ice gained; without active layers all rain runs off; depth, layer count
and albedo are unchanged. -/
theorem C15_runoff_water_balance (m : LwcMethod) (maxFrac : K) (rain : Option K) (p : Pixel K) :
    rain.getD 0 + totalIce p + totalLwc p
      = (runoff m maxFrac rain p).1 + totalIce (runoff m maxFrac rain p).2.2
        + totalLwc (runoff m maxFrac rain p).2.2 ∧
    (runoff m maxFrac rain p).2.1 = totalIce (runoff m maxFrac rain p).2.2 - totalIce p ∧
    (p.n = 0 → (runoff m maxFrac rain p).1 = rain.getD 0) ∧
    (runoff m maxFrac rain p).2.2.n = p.n ∧ (runoff m maxFrac rain p).2.2.albedo = p.albedo ∧
    depth (runoff m maxFrac rain p).2.2 = depth p := by
  set Ls := (p.layers.take p.n).map fun L => (L, maxLwc m maxFrac L.thick L.ice) with hLs
  obtain ⟨h1, h2, h3, h4⟩ := runoffLoop_spec Ls ⟨nanToZero rain, 0⟩
  have hlen := runoff_hlen m maxFrac ⟨nanToZero rain, 0⟩ p
  have eice : (Ls.map fun x => x.1.ice).sum = ((p.layers.take p.n).map Layer.ice).sum := by
    rw [hLs, List.map_map]; rfl
  have emass : (Ls.map fun x => x.1.ice + x.1.lwc).sum
      = ((p.layers.take p.n).map fun L => L.ice + L.lwc).sum := by
    rw [hLs, List.map_map]; rfl
  have eadd : ∀ l : List (Layer K), (l.map fun L => L.ice + L.lwc).sum
      = (l.map Layer.ice).sum + (l.map Layer.lwc).sum := fun l => List.sum_map_add
  rw [emass, eadd, eadd] at h2
  rw [eice] at h1
  refine ⟨?_, ?_, ?_, rfl, rfl, ?_⟩
  · simp only [totalIce, totalLwc, runoff, ← hLs, setActive_sum]
    simp only [nanToZero] at h2 ⊢
    linarith
  · simp only [totalIce, runoff, ← hLs, setActive_sum]
    rw [h1]; ring
  · intro h0
    have : Ls = [] := by simp [hLs, h0]
    simp [runoff, h0, runoffLoop, nanToZero]
  · simp only [depth, runoff, ← hLs, setActive_sum]
    have : ((runoffLoop ⟨nanToZero rain, 0⟩ Ls).2.map Layer.thick)
        = (p.layers.take p.n).map Layer.thick := by
      apply List.ext_getElem?
      intro k
      simp only [List.getElem?_map]
      rcases hx : Ls[k]? with _ | x
      · have hk : Ls.length ≤ k := List.getElem?_eq_none_iff.mp hx
        have hk2 : (p.layers.take p.n).length ≤ k := by rw [hLs, List.length_map] at hk; exact hk
        rw [List.getElem?_eq_none_iff.mpr hk2, List.getElem?_eq_none_iff.mpr (by rw [hlen]; exact hk2)]
      · obtain ⟨L', g1, g2, -⟩ := h4 k x hx
        rw [g1]
        rw [hLs, List.getElem?_map] at hx
        rcases hy : (p.layers.take p.n)[k]? with _ | y
        · rw [hy] at hx; simp at hx
        · rw [hy] at hx
          simp only [Option.map_some, Option.some.injEq] at hx
          subst hx
          simp [g2.thick_eq]
    rw [this]; ring

/-- Water entering layer `k` from above: rain plus what the layers above lost (independent of the
loop: it is computed from the pixel before and after). -/
def inflow (rain : Option K) (p q : Pixel K) (k : ℕ) : K :=
  rain.getD 0 + massAbove p k - massAbove q k

/-- **C15** Layer by layer description. With `F` the inflow from above and `M` the retention
capacity: the outflow is `max (lwc + F - M) 0`; the liquid water kept is `min (lwc + F) M` of which a
cold layer refreezes as much as its cold content allows; the latent heat released warms the layer;
slots below the active layers are untouched. -/
theorem C15_runoff_per_layer (m : LwcMethod) (maxFrac : K) (rain : Option K) (p : Pixel K)
    (hn : p.n ≤ p.layers.length) :
    (∀ (k : ℕ) (L : Layer K), k < p.n → p.layers[k]? = some L →
      ∃ L', (runoff m maxFrac rain p).2.2.layers[k]? = some L' ∧
        inflow rain p (runoff m maxFrac rain p).2.2 (k + 1)
          = max (L.lwc + inflow rain p (runoff m maxFrac rain p).2.2 k
              - maxLwc m maxFrac L.thick L.ice) 0 ∧
        L'.ice + L'.lwc = L.ice + min (L.lwc + inflow rain p (runoff m maxFrac rain p).2.2 k)
          (maxLwc m maxFrac L.thick L.ice) ∧
        L'.ice - L.ice = (if 0 < L.heatCap * (T0 - L.temp) then
          min (min (L.lwc + inflow rain p (runoff m maxFrac rain p).2.2 k)
            (maxLwc m maxFrac L.thick L.ice)) (L.heatCap * (T0 - L.temp) / LF) else 0) ∧
        L.heatCap * (L'.temp - L.temp) = LF * (L'.ice - L.ice) ∧
        L'.thick = L.thick) ∧
    (runoff m maxFrac rain p).1 = inflow rain p (runoff m maxFrac rain p).2.2 p.n ∧
    (∀ k, p.n ≤ k → (runoff m maxFrac rain p).2.2.layers[k]? = p.layers[k]?) := by
  have hlen := runoff_hlen m maxFrac ⟨nanToZero rain, 0⟩ p
  set Ls := (p.layers.take p.n).map fun L => (L, maxLwc m maxFrac L.thick L.ice) with hLs
  obtain ⟨h1, h2, h3, h4⟩ := runoffLoop_spec Ls ⟨nanToZero rain, 0⟩
  have hin : ∀ k ≤ p.n, inflow rain p (runoff m maxFrac rain p).2.2 k =
      nanToZero rain + ((Ls.take k).map fun x => x.1.ice + x.1.lwc).sum
        - (((runoffLoop ⟨nanToZero rain, 0⟩ Ls).2.take k).map fun L => L.ice + L.lwc).sum := by
    intro k hk
    have e : rain.getD 0 = nanToZero rain := rfl
    simp only [inflow, massAbove, runoff, ← hLs, e]
    rw [setActive_take p _ hn hlen k hk, hLs, ← List.map_take, List.take_take,
      min_eq_left hk, List.map_map]
    rfl
  refine ⟨fun k L hk hL => ?_, ?_, fun k hk => setActive_get_ge p _ hn hlen k hk⟩
  · have hx : Ls[k]? = some (L, maxLwc m maxFrac L.thick L.ice) := by
      simp [hLs, List.getElem?_take, hk, hL]
    obtain ⟨L', g1, g2, g3⟩ := h4 k _ hx
    simp only [← hin k hk.le, ← hin (k + 1) hk] at g2 g3
    exact ⟨L', by simp only [runoff, ← hLs]; rw [setActive_get_lt p _ hn hlen k hk]; exact g1,
      g3, g2.mass, g2.refreeze, g2.energy, g2.thick_eq⟩
  · rw [hin p.n le_rfl]
    have t1 : Ls.take p.n = Ls := List.take_of_length_le (by simp [hLs])
    have t2 : (runoffLoop ⟨nanToZero rain, 0⟩ Ls).2.take p.n
        = (runoffLoop ⟨nanToZero rain, 0⟩ Ls).2 := List.take_of_length_le (by rw [hlen]; simp)
    rw [t1, t2]
    simp only [runoff, ← hLs]
    linarith

/-- **C15** With non-negative rain, liquid water and capacities: runoff and refreezing are
non-negative, each active layer ends with liquid water between 0 and its capacity, refreezing never
warms a layer beyond the melting point, and the pack stays well-formed. -/
theorem C15_runoff_bounds (m : LwcMethod) (maxFrac : K) (rain : Option K) (p : Pixel K) (hp : WF p)
    (hr : 0 ≤ rain.getD 0)
    (hcap : ∀ L ∈ p.layers.take p.n, 0 ≤ maxLwc m maxFrac L.thick L.ice) :
    0 ≤ (runoff m maxFrac rain p).1 ∧ 0 ≤ (runoff m maxFrac rain p).2.1 ∧
    WF (runoff m maxFrac rain p).2.2 ∧
    (∀ (k : ℕ) (L L' : Layer K), k < p.n → p.layers[k]? = some L →
      (runoff m maxFrac rain p).2.2.layers[k]? = some L' →
        0 ≤ L'.lwc ∧ L'.lwc ≤ maxLwc m maxFrac L.thick L.ice ∧ L.ice ≤ L'.ice ∧
        (0 < L.heatCap → L.temp ≤ L'.temp ∧ (L.temp ≤ T0 → L'.temp ≤ T0))) := by
  obtain ⟨hA, hB, hC⟩ := C15_runoff_per_layer m maxFrac rain p hp.n_le
  set q := (runoff m maxFrac rain p).2.2 with hq
  have hF : ∀ k ≤ p.n, 0 ≤ inflow rain p q k := by
    intro k hk
    cases k with
    | zero => simpa [inflow, massAbove] using hr
    | succ k =>
      have hlt : k < p.layers.length := lt_of_lt_of_le hk hp.n_le
      obtain ⟨L', -, e, -⟩ := hA k _ hk (List.getElem?_eq_getElem hlt)
      rw [e]; exact le_max_right _ _
  have key : ∀ (k : ℕ) (L L' : Layer K), k < p.n → p.layers[k]? = some L →
      q.layers[k]? = some L' →
        0 ≤ L'.lwc ∧ L'.lwc ≤ maxLwc m maxFrac L.thick L.ice ∧ L.ice ≤ L'.ice ∧
        (0 < L.heatCap → L.temp ≤ L'.temp ∧ (L.temp ≤ T0 → L'.temp ≤ T0)) ∧
        L'.thick = L.thick := by
    intro k L L' hk hL hL'
    obtain ⟨L'', g1, g2, g3, g4, g5, g6⟩ := hA k L hk hL
    rw [hL'] at g1
    obtain rfl := Option.some.inj g1
    have hmem : L ∈ p.layers.take p.n :=
      List.mem_of_getElem? (i := k) (by simpa [List.getElem?_take, hk] using hL)
    have hm := hcap L hmem
    have hl := (hp.active L hmem).2.2
    have hf := hF k hk.le
    set w := min (L.lwc + inflow rain p q k) (maxLwc m maxFrac L.thick L.ice) with hw
    have hw0 : 0 ≤ w := le_min (by linarith) hm
    have hwm : w ≤ maxLwc m maxFrac L.thick L.ice := min_le_right _ _
    have hd : 0 ≤ L'.ice - L.ice ∧ L'.ice - L.ice ≤ w ∧
        (0 < L.heatCap → L.temp ≤ T0 → L'.ice - L.ice ≤ L.heatCap * (T0 - L.temp) / LF) := by
      rw [g4]
      split_ifs with h
      · exact ⟨le_min hw0 (div_nonneg h.le LF_pos.le), min_le_left _ _,
          fun _ _ => min_le_right _ _⟩
      · exact ⟨le_rfl, hw0, fun hc ht =>
          div_nonneg (mul_nonneg hc.le (by linarith)) LF_pos.le⟩
    refine ⟨by linarith [hd.2.1], by linarith [hd.1], by linarith [hd.1],
      fun hc => ⟨?_, fun ht => ?_⟩, g6⟩
    · have : 0 ≤ L.heatCap * (L'.temp - L.temp) := by
        rw [g5]; exact mul_nonneg LF_pos.le hd.1
      have := nonneg_of_mul_nonneg_right this hc
      linarith
    · have h1 := hd.2.2 hc ht
      have h2 : LF * (L'.ice - L.ice) ≤ L.heatCap * (T0 - L.temp) := by
        rw [le_div_iff₀ LF_pos] at h1; linarith
      rw [← g5] at h2
      have := le_of_mul_le_mul_left h2 hc
      linarith
  have hlen := runoff_hlen m maxFrac ⟨nanToZero rain, 0⟩ p
  have hwf : WF q := by
    have hl2 : q.layers.length = p.layers.length := setActive_length p _ hp.n_le hlen
    refine ⟨by rw [hl2]; exact hp.n_le, ?_, ?_⟩
    · intro L' hL'
      obtain ⟨k, hk, rfl⟩ := List.getElem_of_mem hL'
      have hk' : k < p.n := by
        simp only [List.length_take] at hk
        have : q.n = p.n := rfl
        omega
      have hlt : k < p.layers.length := lt_of_lt_of_le hk' hp.n_le
      have hlt2 : k < q.layers.length := by omega
      obtain ⟨a, b, c, d, f⟩ := key k _ q.layers[k] hk' (List.getElem?_eq_getElem hlt)
        (List.getElem?_eq_getElem hlt2)
      obtain ⟨x, y, z⟩ := hp.all _ (List.getElem_mem hlt)
      rw [List.getElem_take]
      exact ⟨by rw [f]; exact x, by linarith, a⟩
    · exact fun L hL => hp.inactive L (by
        have : q.layers.drop q.n = p.layers.drop p.n := setActive_drop p _ hp.n_le hlen
        rwa [this] at hL)
  refine ⟨by rw [hB]; exact hF p.n le_rfl, ?_, hwf, fun k L L' a b c => ?_⟩
  · obtain ⟨-, h, -⟩ := C15_runoff_water_balance m maxFrac rain p
    rw [h]
    have e1 : iceAbove p p.n = totalIce p := hp.sum_active fun L h => h.2.1
    have e2 : iceAbove q p.n = totalIce q := hwf.sum_active fun L h => h.2.1
    have : ∀ k ≤ p.n, iceAbove p k ≤ iceAbove q k := by
      intro k
      induction k with
      | zero => intro _; simp [iceAbove]
      | succ k ih =>
        intro hk
        have hlt : k < p.layers.length := lt_of_lt_of_le hk hp.n_le
        obtain ⟨L', g1, -⟩ := hA k _ hk (List.getElem?_eq_getElem hlt)
        have e1 : iceAbove p (k + 1) = _ :=
          sum_map_take_succ Layer.ice p.layers k _ (List.getElem?_eq_getElem hlt)
        have e2 : iceAbove q (k + 1) = _ := sum_map_take_succ Layer.ice q.layers k _ g1
        rw [e1, e2]
        have := (key k _ L' hk (List.getElem?_eq_getElem hlt) g1).2.2.1
        exact add_le_add (ih (by omega)) this
    have := this p.n le_rfl
    rw [e1, e2] at this
    linarith
  · obtain ⟨h1, h2, h3, h4, -⟩ := key k L L' a b c
    exact ⟨h1, h2, h3, h4⟩

/-- A pack for which all hypotheses hold: a cold layer with rain on top, capacity exceeded. -/
example : ∃ p : Pixel ℚ, WF p ∧ p.n = 2 ∧
    (∀ L ∈ p.layers.take p.n, 0 ≤ maxLwc .poreVolume (3/100) L.thick L.ice) ∧
    (∀ L ∈ p.layers.take p.n, 0 < L.heatCap) ∧
    0 < (runoff .poreVolume (3/100) (some 20) p).1 ∧
    0 < (runoff .poreVolume (3/100) (some 20) p).2.1 :=
  ⟨{ n := 2, albedo := some (8/10),
     layers := [⟨1/10, 10, 1, 270, 25180⟩, ⟨2/10, 60, 0, 268, 126000⟩, ⟨0, 0, 0, T0, 0⟩] },
    ⟨by decide, by norm_num, by simp⟩, rfl,
    by norm_num [maxLwc, iceDensity, waterDensity], by norm_num,
    by norm_num [runoff, runoffLoop, runoffLayer, maxLwc, iceDensity, waterDensity, T0, LF,
      nanToZero],
    by norm_num [runoff, runoffLoop, runoffLayer, maxLwc, iceDensity, waterDensity, T0, LF,
      nanToZero]⟩

end Verif.MultiLayer
