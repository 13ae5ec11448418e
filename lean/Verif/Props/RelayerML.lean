import Verif.Lemmas.RelayerDef
import Mathlib.LinearAlgebra.Prod

/-!
# C16, C17: relayering of the multilayer snowpack

`updateLayers` is compared with the piecewise uniform profile of the old snowpack
(`Spec/Profile.lean`): each new layer holds exactly what lay between its boundaries.
-/

set_option linter.unusedSectionVars false

namespace Verif.MultiLayer

variable {K : Type*} [Field K] [LinearOrder K] [IsStrictOrderedRing K]

section aux

theorem q_get {minTh : List K} {q : Pixel K} {ths : ℕ → K} {cont : ℕ → K × K × K} {hc : ℕ → K}
    (hq : q.layers = (List.range minTh.length).map fun k => newLayer q.n ths cont (hc k) k)
    {k : ℕ} {L : Layer K} (h : q.layers[k]? = some L) :
    k < minTh.length ∧ L = newLayer q.n ths cont (hc k) k := by
  rw [hq, List.getElem?_map] at h
  obtain ⟨i, hi, rfl⟩ := Option.map_eq_some_iff.mp h
  obtain ⟨hlt, rfl⟩ := List.getElem?_eq_some_iff.mp hi
  simp at hlt ⊢
  exact hlt

theorem newLayer_thick (ns : ℕ) (ths : ℕ → K) (cont : ℕ → K × K × K) (hc : K) (k : ℕ) :
    (newLayer ns ths cont hc k).thick = ths k := by unfold newLayer; split_ifs <;> rfl

theorem newLayer_ice (ns : ℕ) (ths : ℕ → K) (cont : ℕ → K × K × K) (hc : K) (k : ℕ) :
    (newLayer ns ths cont hc k).ice = (cont k).1 := by unfold newLayer; split_ifs <;> rfl

theorem newLayer_lwc (ns : ℕ) (ths : ℕ → K) (cont : ℕ → K × K × K) (hc : K) (k : ℕ) :
    (newLayer ns ths cont hc k).lwc = (cont k).2.1 := by unfold newLayer; split_ifs <;> rfl

theorem newLayer_heat (ns : ℕ) (ths : ℕ → K) (cont : ℕ → K × K × K) (hc : K) (k : ℕ) (hk : k < ns)
    (hz : (cont k).1 * cIce + (cont k).2.1 * cWater ≠ 0) :
    heat (newLayer ns ths cont hc k) = (cont k).2.2 := by
  simp only [newLayer, hk, if_true, heat]
  field_simp
  ring

theorem gain_ge {M : Type*} [AddCommGroup M] [Module K M] (ths : ℕ → K) (ns : ℕ) (x : K)
    (col : List (K × M)) (k : ℕ) (hns : 1 ≤ ns) (hk : ns ≤ k) : gain ths ns 0 x col k = 0 := by
  unfold gain
  have h1 : k ≠ 0 := by omega
  have h2 : ¬ (0 < k ∧ k < ns) := by omega
  simp [h1, h2]

theorem q_sum_take {minTh : List K} {q : Pixel K} {ths : ℕ → K} {cont : ℕ → K × K × K} {hc : ℕ → K}
    (hq : q.layers = (List.range minTh.length).map fun k => newLayer q.n ths cont (hc k) k)
    (f : Layer K → K) (j : ℕ) (hj : j ≤ minTh.length) :
    ((q.layers.take j).map f).sum
      = ∑ k ∈ Finset.range j, f (newLayer q.n ths cont (hc k) k) := by
  rw [hq, ← List.map_take, List.take_range, List.map_map, min_eq_left hj]
  exact sum_range_map _ _

/-- Sum of differences of `contentAbove` over all new layers. -/
theorem sum_contentAbove {minTh : List K} {d : K} {ns : ℕ} {ths : ℕ → K}
    (hg : NewGeom minTh d ns ths) (col : List (K × K)) (hcol : ∀ x ∈ col, 0 ≤ x.1)
    (hd : (col.map Prod.fst).sum = d) (hd0 : 0 < d) :
    ∑ k ∈ Finset.range ns, (contentAbove col (∑ l ∈ Finset.range (k + 1), ths l)
      - contentAbove col (∑ l ∈ Finset.range k, ths l)) = (col.map Prod.snd).sum := by
  rw [Finset.sum_range_sub (fun k => contentAbove col (∑ l ∈ Finset.range k, ths l))]
  rw [hg.sum, ← hd]
  have h0 : ¬ (col.map Prod.fst).sum ≤ 0 := by rw [hd]; exact not_le.mpr hd0
  simp only [contentAbove, h0, if_false, Finset.range_zero, Finset.sum_empty, le_refl, if_true]
  rw [cumProfile_total col hcol, sub_zero]

end aux

/-- **C17.** Layer geometry after relayering a snowpack of at least 1e-6 m: the active layers are
the top ones and at most as many as configured, each has positive thickness, all but the lowest
one have exactly the configured thickness, unused slots are empty at the melting point, the depth
is unchanged. The lowest layer is thicker than the layer above it was configured, and unless the
layers are used up it is at most twice its configured thickness (so the number of layers is
determined by the depth). -/
theorem C17_layer_geometry (minTh : List K) (p q : Pixel K) (hne : minTh ≠ [])
    (hm : ∀ m ∈ minTh, 1 / 1000000 ≤ m) (hp : WF p) (hd : 1 / 1000000 ≤ depth p)
    (h : updateLayers minTh p = some q) :
    (1 ≤ q.n ∧ q.n ≤ minTh.length ∧ q.layers.length = minTh.length ∧ depth q = depth p) ∧
    ∀ k L, q.layers[k]? = some L →
      (k < q.n → 0 < L.thick) ∧
      (k + 1 < q.n → minTh[k]? = some L.thick) ∧
      (k + 1 = q.n → (∀ m, 2 ≤ q.n → minTh[k - 1]? = some m → m < L.thick) ∧
        (∀ m, q.n < minTh.length → minTh[k]? = some m → L.thick ≤ 2 * m)) ∧
      (q.n ≤ k → L.thick = 0 ∧ L.ice = 0 ∧ L.lwc = 0 ∧ L.temp = T0) := by
  obtain ⟨ths, cont, hc, hg, hcont, hz, _, hq⟩ := updateLayers_some minTh p q hne hm hp hd h
  refine ⟨⟨hg.ns_pos, hg.ns_le, by simp [hq], ?_⟩, ?_⟩
  · have h1 := q_sum_take hq Layer.thick minTh.length le_rfl
    have h2 : q.layers.take minTh.length = q.layers := List.take_of_length_le (by simp [hq])
    rw [h2] at h1
    unfold depth at *
    rw [h1]
    simp only [newLayer_thick]
    rw [← hg.sum]
    symm
    apply Finset.sum_subset
    · intro i; simp; have := hg.ns_le; omega
    · intro i _ hi; exact hg.zero i (by simpa using hi)
  · intro k L hL
    obtain ⟨hk, rfl⟩ := q_get hq hL
    refine ⟨?_, ?_, ?_, ?_⟩
    · intro h1; rw [newLayer_thick]; exact hg.pos k h1
    · intro h1
      rw [newLayer_thick, hg.upper k minTh[k] h1 (List.getElem?_eq_getElem hk)]
      exact List.getElem?_eq_getElem hk
    · intro h1
      have e1 : q.n - 2 = k - 1 := by omega
      have e2 : q.n - 1 = k := by omega
      constructor
      · intro m h2 h3
        have := hg.bottom_gt m h2 (by rw [e1]; exact h3)
        rw [newLayer_thick, ← e2]; exact this
      · intro m h2 h3
        have := hg.bottom_le m h2 (by rw [e2]; exact h3)
        rw [newLayer_thick, ← e2]; exact this
    · intro h1
      rw [newLayer_thick, newLayer_ice, newLayer_lwc, hg.zero k h1, hcont k,
        gain_ge _ _ _ _ _ hg.ns_pos h1]
      refine ⟨rfl, rfl, rfl, ?_⟩
      simp [newLayer, not_lt.mpr h1]

/-- **C16.** Every new layer receives exactly the ice, the liquid water and the heat of the part of
the old profile lying in its depth interval. -/
theorem C16_relayering_profile (minTh : List K) (p q : Pixel K) (hne : minTh ≠ [])
    (hm : ∀ m ∈ minTh, 1 / 1000000 ≤ m) (hp : WF p) (hd : 1 / 1000000 ≤ depth p)
    (h : updateLayers minTh p = some q) (k : ℕ) (hk : k < q.n) (L : Layer K)
    (hL : q.layers[k]? = some L) :
    ∀ f ∈ [Layer.ice, Layer.lwc, heat],
      f L = contentAbove (column f p) (topOf q (k + 1)) - contentAbove (column f p) (topOf q k) := by
  obtain ⟨ths, cont, hc, hg, hcont, hz, _, hq⟩ := updateLayers_some minTh p q hne hm hp hd h
  obtain ⟨_, rfl⟩ := q_get hq hL
  have htop : ∀ j, j ≤ minTh.length → topOf q j = ∑ l ∈ Finset.range j, ths l := by
    intro j hj
    have := q_sum_take hq Layer.thick j hj
    simp only [newLayer_thick] at this
    exact this
  have hnl := hg.ns_le
  rw [htop k (by omega), htop (k + 1) (by omega)]
  have hck := hcont k
  rw [gain_start hg _ k hk] at hck
  have key : ∀ g : K × K × K →ₗ[K] K, ∀ f : Layer K → K,
      (∀ L, f L = g (L.ice, L.lwc, L.heatCap * (L.temp - T0))) →
      g (cont k) = contentAbove (column f p) (∑ l ∈ Finset.range (k + 1), ths l)
        - contentAbove (column f p) (∑ l ∈ Finset.range k, ths l) := by
    intro g f hf
    rw [hck, map_sub, contentAbove_map, contentAbove_map, colOf_map]
    simp only [column, hf]
  intro f hf
  simp only [List.mem_cons, List.not_mem_nil, or_false] at hf
  rcases hf with rfl | rfl | rfl
  · rw [newLayer_ice]
    exact key (LinearMap.fst K K (K × K)) Layer.ice (fun L => rfl)
  · rw [newLayer_lwc]
    exact key ((LinearMap.fst K K K).comp (LinearMap.snd K K (K × K))) Layer.lwc (fun L => rfl)
  · rw [newLayer_heat _ _ _ _ _ hk (hz k hk)]
    exact key ((LinearMap.snd K K K).comp (LinearMap.snd K K (K × K))) heat (fun L => rfl)

/-- **C16.** Relayering conserves total ice, liquid water and heat, and layer contents stay
non-negative. -/
theorem C16_relayering_conserves (minTh : List K) (p q : Pixel K) (hne : minTh ≠ [])
    (hm : ∀ m ∈ minTh, 1 / 1000000 ≤ m) (hp : WF p) (hd : 1 / 1000000 ≤ depth p)
    (h : updateLayers minTh p = some q) :
    totalIce q = totalIce p ∧ totalLwc q = totalLwc p ∧ activeSum heat q = activeSum heat p ∧
      swe q = swe p ∧ WF q ∧ q.albedo = p.albedo := by
  have hgeom := C17_layer_geometry minTh p q hne hm hp hd h
  have hprof := C16_relayering_profile minTh p q hne hm hp hd h
  obtain ⟨ths, cont, hc, hg, hcont, hz, halb, hq⟩ := updateLayers_some minTh p q hne hm hp hd h
  have e0 : (0 : K) < depth p := lt_of_lt_of_le (by norm_num) hd
  have hlen : q.layers.length = minTh.length := by simp [hq]
  have hnl := hg.ns_le
  have htop : ∀ j, j ≤ minTh.length → topOf q j = ∑ l ∈ Finset.range j, ths l := by
    intro j hj
    have := q_sum_take hq Layer.thick j hj
    simp only [newLayer_thick] at this
    exact this
  have hthk : ∀ f : Layer K → K, ∀ x ∈ column f p, 0 ≤ x.1 := by
    intro f x hx
    obtain ⟨L, hL, rfl⟩ := List.mem_map.mp hx
    exact (hp.active L hL).1
  have hsumd : ∀ f : Layer K → K, ((column f p).map Prod.fst).sum = depth p := by
    intro f
    rw [depth, ← hp.sum_active (f := Layer.thick) (fun L h => h.1)]
    simp [column, Function.comp_def]
  have hact : ∀ f ∈ [Layer.ice, Layer.lwc, heat], activeSum f q = activeSum f p := by
    intro f hf
    unfold activeSum
    rw [q_sum_take hq f q.n hnl]
    have : ∀ k ∈ Finset.range q.n, f (newLayer q.n ths cont (hc k) k)
        = contentAbove (column f p) (∑ l ∈ Finset.range (k + 1), ths l)
          - contentAbove (column f p) (∑ l ∈ Finset.range k, ths l) := by
      intro k hk
      have hk' : k < q.n := by simpa using hk
      have hL : q.layers[k]? = some (newLayer q.n ths cont (hc k) k) := by
        rw [hq, List.getElem?_map, List.getElem?_range]; simp; omega
      rw [hprof k hk' _ hL f hf, htop k (by omega), htop (k + 1) (by omega)]
    rw [Finset.sum_congr rfl this, sum_contentAbove hg _ (hthk f) (hsumd f) e0]
    simp [column, Function.comp_def]
  have hwf : WF q := by
    refine ⟨by omega, ?_, ?_⟩
    · intro L hL
      obtain ⟨k, hk, hL'⟩ := mem_take_get hL
      have hz0 : 0 ≤ topOf q k := by
        rw [htop k (by omega)]
        exact Finset.sum_nonneg fun i hi => (hg.pos i (by simp at hi; omega)).le
      have hz1 : topOf q k ≤ topOf q (k + 1) := by
        rw [htop k (by omega), htop (k + 1) (by omega), Finset.sum_range_succ]
        have := hg.pos k hk
        linarith
      refine ⟨((hgeom.2 k L hL').1 hk).le, ?_, ?_⟩
      · rw [hprof k hk L hL' Layer.ice (by simp), sub_nonneg]
        refine contentAbove_mono _ ?_ _ _ hz0 hz1
        intro x hx
        obtain ⟨L, hL, rfl⟩ := List.mem_map.mp hx
        exact ⟨(hp.active L hL).1, (hp.active L hL).2.1⟩
      · rw [hprof k hk L hL' Layer.lwc (by simp), sub_nonneg]
        refine contentAbove_mono _ ?_ _ _ hz0 hz1
        intro x hx
        obtain ⟨L, hL, rfl⟩ := List.mem_map.mp hx
        exact ⟨(hp.active L hL).1, (hp.active L hL).2.2⟩
    · intro L hL
      obtain ⟨k, hk, hL'⟩ := mem_drop_get hL
      obtain ⟨a, b, c, _⟩ := (hgeom.2 k L hL').2.2.2 hk
      exact ⟨a, b, c⟩
  have hact' : ∀ f : Layer K → K, (∀ L : Layer K, L.thick = 0 ∧ L.ice = 0 ∧ L.lwc = 0 → f L = 0) →
      activeSum f q = activeSum f p → (q.layers.map f).sum = (p.layers.map f).sum := by
    intro f hf he
    unfold activeSum at he
    rw [← hwf.sum_active hf, ← hp.sum_active hf, he]
  have h1 : totalIce q = totalIce p := hact' Layer.ice (fun L h => h.2.1) (hact _ (by simp))
  have h2 : totalLwc q = totalLwc p := hact' Layer.lwc (fun L h => h.2.2) (hact _ (by simp))
  exact ⟨h1, h2, hact _ (by simp), by rw [swe_eq, swe_eq, h1, h2], hwf, halb⟩

/-- No new layer of a defined redistribution is massless. -/
private theorem relayer_mass (minTh : List K) (p : Pixel K) (hp : WF p) {ns : ℕ} {ths : ℕ → K}
    (hg : NewGeom minTh (depth p) ns ths)
    (hice : ∀ L ∈ p.layers.take p.n, 0 < L.thick → 0 < L.ice) (a : RelayerAcc K (K × K × K))
    (ha : relayerLoop minTh.length ns ths ((p.layers.take p.n).map toOld)
      ⟨0, ths 0, fun _ => 0⟩ = some a) :
    ∀ k < ns, (a.cont k).1 * cIce + (a.cont k).2.1 * cWater ≠ 0 := by
  have ht0 := hg.pos 0 hg.ns_pos
  have hbnd : bnd ths 0 (ths 0) (ns - 1) = depth p := by
    have h1 : ns - 1 + 1 = ns := by have := hg.ns_pos; omega
    simp only [bnd]
    rw [h1, hg.sum]; simp
  have hspec := relayerLoop_spec minTh.length ns ths (fun l hl => (hg.pos l hl).le)
    ((p.layers.take p.n).map toOld) ⟨0, ths 0, fun _ => 0⟩ a (by
      intro o ho
      obtain ⟨L, hL, rfl⟩ := List.mem_map.mp ho
      exact (hp.active L hL).1) ht0.le hg.ns_pos (by
      rw [hbnd, depth, ← hp.sum_active (f := Layer.thick) (fun L h => h.1)]
      simp [Function.comp_def, toOld]) ha
  intro k hk
  have hck : a.cont k = gain ths ns 0 (ths 0) (colOf ((p.layers.take p.n).map toOld)) k := by
    simpa using hspec k
  rw [gain_start hg _ k hk] at hck
  have hz0 : 0 ≤ ∑ l ∈ Finset.range k, ths l :=
    Finset.sum_nonneg fun i hi => (hg.pos i (by simp at hi; omega)).le
  have hz1 : ∑ l ∈ Finset.range k, ths l < ∑ l ∈ Finset.range (k + 1), ths l := by
    rw [Finset.sum_range_succ]; have := hg.pos k hk; linarith
  have hz2 : ∑ l ∈ Finset.range (k + 1), ths l ≤ depth p := by
    rw [← hg.sum]
    apply Finset.sum_le_sum_of_subset_of_nonneg
    · intro l; simp; omega
    · intro l hl _; exact (hg.pos l (by simpa using hl)).le
  have hice' : 0 < (a.cont k).1 := by
    have e := congrArg (LinearMap.fst K K (K × K)) hck
    rw [map_sub, contentAbove_map, contentAbove_map, colOf_map] at e
    have e' : (a.cont k).1 = contentAbove (column Layer.ice p) (∑ l ∈ Finset.range (k + 1), ths l)
      - contentAbove (column Layer.ice p) (∑ l ∈ Finset.range k, ths l) := e
    rw [e', sub_pos]
    have hcol : ∀ x ∈ column Layer.ice p, 0 ≤ x.1 ∧ 0 ≤ x.2 := by
      intro x hx
      obtain ⟨L, hL, rfl⟩ := List.mem_map.mp hx
      exact ⟨(hp.active L hL).1, (hp.active L hL).2.1⟩
    have hcol' : ∀ x ∈ column Layer.ice p, 0 < x.1 → 0 < x.2 := by
      intro x hx hx0
      obtain ⟨L, hL, rfl⟩ := List.mem_map.mp hx
      exact hice L hL hx0
    have hcs : ((column Layer.ice p).map Prod.fst).sum = depth p := by
      rw [depth, ← hp.sum_active (f := Layer.thick) (fun L h => h.1)]
      simp [column, Function.comp_def]
    have hst := cumProfile_strict _ hcol hcol' _ _ hz0 hz1 (by rw [hcs]; exact hz2)
    unfold contentAbove
    rw [if_neg (not_le.mpr (lt_of_le_of_lt hz0 hz1))]
    split_ifs with hle
    · have := (cumProfile_mono _ hcol _ _ hz0 le_rfl).2
      linarith
    · exact hst
  have hlwc : 0 ≤ (a.cont k).2.1 := by
    have e := congrArg ((LinearMap.fst K K K).comp (LinearMap.snd K K (K × K))) hck
    rw [map_sub, contentAbove_map, contentAbove_map, colOf_map] at e
    have e' : (a.cont k).2.1
      = contentAbove (column Layer.lwc p) (∑ l ∈ Finset.range (k + 1), ths l)
      - contentAbove (column Layer.lwc p) (∑ l ∈ Finset.range k, ths l) := e
    rw [e', sub_nonneg]
    refine contentAbove_mono _ ?_ _ _ hz0 hz1.le
    intro x hx
    obtain ⟨L, hL, rfl⟩ := List.mem_map.mp hx
    exact ⟨(hp.active L hL).1, (hp.active L hL).2.2⟩
  have c1 : (0 : K) < cIce := cIce_pos
  have c2 : (0 : K) < cWater := cWater_pos
  exact (add_pos_of_pos_of_nonneg (mul_pos hice' c1) (mul_nonneg hlwc c2.le)).ne'

/-- **C16.** Relayering is defined (no NaN, no write behind the arrays) for every snowpack of at
least 1e-6 m in which completely melted layers (empty, without thickness) occur only on top of the
remaining ones. -/
theorem C16_relayering_defined (minTh : List K) (p : Pixel K) (hne : minTh ≠ [])
    (hm : ∀ m ∈ minTh, 1 / 1000000 ≤ m) (hp : WF p) (hd : 1 / 1000000 ≤ depth p)
    (gone rest : List (Layer K)) (hsplit : p.layers.take p.n = gone ++ rest)
    (hgone : ∀ L ∈ gone, L.thick = 0 ∧ L.ice = 0 ∧ L.lwc = 0)
    (hrest : ∀ L ∈ rest, 0 < L.thick ∧ 0 < L.ice) :
    ∃ q, updateLayers minTh p = some q := by
  have e0 : (0 : K) < 1 / 1000000 := by norm_num
  have hdpos : 0 < depth p := lt_of_lt_of_le e0 hd
  have hg := newGeom minTh (depth p) hne hm hd
  obtain ⟨ns, hns⟩ : ∃ ns, ((dropThin (newThickness (depth p) minTh)).countP
      fun t => decide (0 < t)) = ns := ⟨_, rfl⟩
  obtain ⟨ths, hths⟩ : ∃ ths : ℕ → K,
      (fun k => (dropThin (newThickness (depth p) minTh)).getD k 0) = ths := ⟨_, rfl⟩
  rw [hns, hths] at hg
  have hths0 : (dropThin (newThickness (depth p) minTh)).getD 0 0 = ths 0 := by rw [← hths]
  have ht0 := hg.pos 0 hg.ns_pos
  have hml : ¬ minTh.length ≤ 0 := by have := hg.ns_le; have := hg.ns_pos; omega
  -- the melted layers on top
  have hgoneloop : ∀ (gs : List (Layer K)), (∀ L ∈ gs, L.thick = 0) → ∀ (os) (c : ℕ → K × K × K),
      ∃ c', relayerLoop minTh.length ns ths (gs.map toOld ++ os) ⟨0, ths 0, c⟩
        = relayerLoop minTh.length ns ths os ⟨0, ths 0, c'⟩ := by
    intro gs
    induction gs with
    | nil => intro _ os c; exact ⟨c, rfl⟩
    | cons L gs ih =>
      intro hgs os c
      have hL : (toOld L).thick = 0 := hgs L (by simp)
      have hold : relayerOld minTh.length ns ths (toOld L) ⟨0, ths 0, c⟩
          = some ⟨0, ths 0, Function.update c 0 (c 0 + (1 : K) • (toOld L).cont)⟩ := by
        rw [relayerOld]
        simp [hml, hL, weight, ht0]
      obtain ⟨c', hc'⟩ := ih (fun x hx => hgs x (by simp [hx])) os
        (Function.update c 0 (c 0 + (1 : K) • (toOld L).cont))
      refine ⟨c', ?_⟩
      rw [List.map_cons, List.cons_append, relayerLoop, hold, ← hc']
      rfl
  obtain ⟨c', hc'⟩ := hgoneloop gone (fun L h => (hgone L h).1) (rest.map toOld) (fun _ => 0)
  have hsumrest : ((rest.map toOld).map OldLayer.thick).sum = depth p := by
    rw [depth, ← hp.sum_active (f := Layer.thick) (fun L h => h.1), hsplit, List.map_append,
      List.sum_append]
    have : (gone.map Layer.thick).sum = 0 := by
      apply List.sum_eq_zero
      intro x hx
      obtain ⟨L, hL, rfl⟩ := List.mem_map.mp hx
      exact (hgone L hL).1
    rw [this, zero_add]
    simp [Function.comp_def, toOld]
  have hbnd : bnd ths 0 (ths 0) (ns - 1) = depth p := by
    have h1 : ns - 1 + 1 = ns := by have := hg.ns_pos; omega
    simp only [bnd]
    rw [h1, hg.sum]; simp
  obtain ⟨a, ha⟩ := relayerLoop_defined minTh.length ns ths hg.ns_le
    (fun l hl => (hg.pos l hl).le) (rest.map toOld) ⟨0, ths 0, c'⟩ (by
      intro o ho
      obtain ⟨L, hL, rfl⟩ := List.mem_map.mp ho
      exact (hrest L hL).1) ht0.le hg.ns_pos (by rw [hsumrest, hbnd])
  have ha' : relayerLoop minTh.length ns ths ((p.layers.take p.n).map toOld)
      ⟨0, ths 0, fun _ => 0⟩ = some a := by rw [hsplit, List.map_append, hc', ha]
  -- no new layer is massless
  have hz := relayer_mass minTh p hp hg (fun L hL h0 => by
    rw [hsplit, List.mem_append] at hL
    rcases hL with hL | hL
    · rw [(hgone L hL).1] at h0; exact absurd h0 (lt_irrefl _)
    · exact (hrest L hL).2) a ha'
  simp only [updateLayers, hdpos, if_true]
  rw [hns, hths, hths0, ha']
  simp only
  rw [if_pos hz]
  exact ⟨_, rfl⟩

/-- **C16.** Snow thinner than 1e-6 m is deleted with all its ice, water and heat, whenever the
result is defined at all. -/
theorem C16_thin_snow_deleted (minTh : List K) (p q : Pixel K) (hne : minTh ≠ [])
    (hm : ∀ m ∈ minTh, 1 / 1000000 ≤ m) (hd : depth p < 1 / 1000000)
    (h : updateLayers minTh p = some q) :
    q.n = 0 ∧ q.albedo = none ∧ totalIce q = 0 ∧ totalLwc q = 0 ∧ depth q = 0 ∧ WF q ∧
      ∀ L ∈ q.layers, L.thick = 0 ∧ L.ice = 0 ∧ L.lwc = 0 ∧ L.temp = T0 := by
  have e0 : (0 : K) < 1 / 1000000 := by norm_num
  have key : ∃ hc : ℕ → K, q = { n := 0, albedo := none, layers :=
      (List.range minTh.length).map fun k => newLayer 0 (fun _ => 0) (fun _ => 0) (hc k) k } := by
    by_cases hpos : 0 < depth p
    · obtain ⟨m, ms, rfl⟩ := List.exists_cons_of_ne_nil hne
      have hm0 := hm m (by simp)
      have hnt : newThickness (depth p) (m :: ms) = depth p :: ms.map fun _ => 0 := by
        have : depth p - m ≤ m ∨ ms = [] := Or.inl (by linarith)
        simp only [newThickness, this, if_true, add_sub_cancel]
      have hdt : dropThin (newThickness (depth p) (m :: ms)) = 0 :: ms.map fun _ => 0 := by
        rw [hnt]
        simp only [dropThin, List.map_cons, hd, if_true, List.map_map]
        congr 1
        apply List.map_congr_left
        intro x _
        simp
      have hths : (fun k => (dropThin (newThickness (depth p) (m :: ms))).getD k 0)
          = fun _ => 0 := by
        funext k
        rw [hdt]
        cases k with
        | zero => simp
        | succ k =>
          rw [List.getD_eq_getElem?_getD]
          simp only [List.getElem?_cons_succ, List.getElem?_map]
          cases ms[k]? <;> simp
      have hns : ((dropThin (newThickness (depth p) (m :: ms))).countP
          fun t => decide (0 < t)) = 0 := by
        rw [hdt, List.countP_eq_zero]
        intro x hx
        rcases List.mem_cons.mp hx with rfl | hx
        · simp
        · obtain ⟨y, _, rfl⟩ := List.mem_map.mp hx
          simp
      have hloop : ∀ (os : List (OldLayer K (K × K × K))) (b a : RelayerAcc K (K × K × K)),
          b.newTh = 0 → relayerLoop (m :: ms).length 0 (fun _ => 0) os b = some a →
          a.cont = b.cont := by
        intro os
        induction os with
        | nil => intro b a _ h; simp only [relayerLoop, Option.some.injEq] at h; rw [h]
        | cons o os ih =>
          intro b a hb h
          simp only [relayerLoop, Option.bind_eq_bind, Option.bind_eq_some_iff] at h
          obtain ⟨b', hb', hl⟩ := h
          rw [relayerOld] at hb'
          by_cases hle : (m :: ms).length ≤ b.kNew
          · simp only [hle, if_true] at hb'; exact absurd hb' (by simp)
          · by_cases ho : o.thick = 0
            · simp [hle, weight, ho, hb] at hb'
            · have hw : weight b.newTh o.thick = some 0 := by simp [weight, ho, hb]
              simp only [hle, if_false, hw, zero_smul, add_zero, Function.update_eq_self,
                zero_ne_one, Nat.zero_le, if_true, Option.some.injEq] at hb'
              have := ih b' a (by rw [← hb']; exact hb) hl
              rw [this, ← hb']
      have hths0 : (dropThin (newThickness (depth p) (m :: ms))).getD 0 0 = 0 :=
        congrFun hths 0
      simp only [updateLayers, hpos, if_true] at h
      rw [hns, hths, hths0] at h
      split at h
      · simp at h
      · rename_i a ha
        have hcont := hloop _ _ _ rfl ha
        simp only [Nat.not_lt_zero, false_imp_iff, implies_true, if_true,
          Option.some.injEq, hcont] at h
        exact ⟨_, h.symm⟩
    · simp only [updateLayers, hpos, if_false, Option.some.injEq] at h
      exact ⟨_, h.symm⟩
  obtain ⟨hc, rfl⟩ := key
  have hall : ∀ L ∈ (List.range minTh.length).map
      (fun k => newLayer 0 (fun _ => (0 : K)) (fun _ => 0) (hc k) k),
      L.thick = 0 ∧ L.ice = 0 ∧ L.lwc = 0 ∧ L.temp = T0 := by
    intro L hL
    obtain ⟨k, _, rfl⟩ := List.mem_map.mp hL
    simp [newLayer]
  have hz : ∀ f : Layer K → K, (∀ L : Layer K, L.thick = 0 ∧ L.ice = 0 ∧ L.lwc = 0 → f L = 0) →
      (((List.range minTh.length).map
        (fun k => newLayer 0 (fun _ => (0 : K)) (fun _ => 0) (hc k) k)).map f).sum = 0 := by
    intro f hf
    apply List.sum_eq_zero
    intro x hx
    obtain ⟨L, hL, rfl⟩ := List.mem_map.mp hx
    obtain ⟨a, b, c, _⟩ := hall L hL
    exact hf L ⟨a, b, c⟩
  refine ⟨rfl, rfl, hz _ fun L h => h.2.1, hz _ fun L h => h.2.2, hz _ fun L h => h.1, ?_, hall⟩
  refine ⟨by simp, by simp, ?_⟩
  intro L hL
  obtain ⟨a, b, c, _⟩ := hall L (by simpa using hL)
  exact ⟨a, b, c⟩

/-- **C16.** Exactly when relayering a plausible snowpack of at least 1e-6 m gives NaN: some active
layer has no thickness and lies on the lower boundary of one of the new layers (the bottom of the
snowpack included). -/
theorem C16_relayering_undefined_iff (minTh : List K) (p : Pixel K) (hne : minTh ≠ [])
    (hm : ∀ m ∈ minTh, 1 / 1000000 ≤ m) (hp : WF p) (hd : 1 / 1000000 ≤ depth p)
    (hice : ∀ L ∈ p.layers.take p.n, 0 < L.thick → 0 < L.ice) :
    updateLayers minTh p = none ↔
      ∃ k L j, k < p.n ∧ p.layers[k]? = some L ∧ L.thick = 0 ∧ 0 < j ∧
        topOf p k = ((newThickness (depth p) minTh).take j).sum := by
  have e0 : (0 : K) < 1 / 1000000 := by norm_num
  have hdpos : 0 < depth p := lt_of_lt_of_le e0 hd
  have hg := newGeom minTh (depth p) hne hm hd
  have hsame : dropThin (newThickness (depth p) minTh) = newThickness (depth p) minTh := by
    obtain ⟨j, r, hj, e1, e2, e3, e4, e5⟩ := newThickness_spec minTh (depth p) hne
      (fun m h => lt_of_lt_of_le e0 (hm m h)) hdpos
    have hr : 1 / 1000000 ≤ r := by
      rcases e4 with e4 | ⟨m, hm1, hm2⟩
      · subst e4; simp at e2; rw [e2]; simpa using hd
      · exact (lt_of_le_of_lt (hm m (List.mem_of_getElem? hm1)) hm2).le
    unfold dropThin
    apply (List.map_congr_left ?_).trans (List.map_id _)
    intro x hx
    rw [e1, List.mem_append, List.mem_cons] at hx
    simp only [id]
    rcases hx with hx | rfl | hx
    · rw [if_neg (not_lt.mpr (hm x (List.mem_of_mem_take hx)))]
    · rw [if_neg (not_lt.mpr hr)]
    · rw [List.eq_of_mem_replicate hx]; simp
  obtain ⟨ns, hns⟩ : ∃ ns, ((dropThin (newThickness (depth p) minTh)).countP
      fun t => decide (0 < t)) = ns := ⟨_, rfl⟩
  obtain ⟨ths, hths⟩ : ∃ ths : ℕ → K,
      (fun k => (dropThin (newThickness (depth p) minTh)).getD k 0) = ths := ⟨_, rfl⟩
  rw [hns, hths] at hg
  have hths0 : (dropThin (newThickness (depth p) minTh)).getD 0 0 = ths 0 := by rw [← hths]
  have ht0 := hg.pos 0 hg.ns_pos
  have hbnd0 : ∀ j, bnd ths 0 (ths 0) j = ((newThickness (depth p) minTh).take (j + 1)).sum := by
    intro j
    rw [← getD_sum_range, ← hsame]
    simp only [← hths, bnd]
    simp
  have hbnd : bnd ths 0 (ths 0) (ns - 1) = depth p := by
    have h1 : ns - 1 + 1 = ns := by have := hg.ns_pos; omega
    simp only [bnd]
    rw [h1, hg.sum]; simp
  have hloop := relayerLoop_none_iff minTh.length ns ths hg.ns_le hg.pos
    ((p.layers.take p.n).map toOld) ⟨0, ths 0, fun _ => 0⟩ (by
      intro o ho
      obtain ⟨L, hL, rfl⟩ := List.mem_map.mp ho
      exact (hp.active L hL).1) ht0.le hg.ns_pos (by
      rw [hbnd, depth, ← hp.sum_active (f := Layer.thick) (fun L h => h.1)]
      simp [Function.comp_def, toOld])
  have hupd : updateLayers minTh p = none ↔ relayerLoop minTh.length ns ths
      ((p.layers.take p.n).map toOld) ⟨0, ths 0, fun _ => 0⟩ = none := by
    simp only [updateLayers, hdpos, if_true]
    rw [hns, hths, hths0]
    cases ha : relayerLoop minTh.length ns ths ((p.layers.take p.n).map toOld)
      ⟨0, ths 0, fun _ => 0⟩ with
    | none => simp
    | some a =>
      simp only
      rw [if_pos (relayer_mass minTh p hp hg hice a ha)]
      simp
  rw [hupd, hloop]
  constructor
  · rintro ⟨k, o, h1, h2, j, -, h4, h5⟩
    rw [List.getElem?_map] at h1
    obtain ⟨L, hL, rfl⟩ := Option.map_eq_some_iff.mp h1
    have hk : k < p.n := by
      have := (List.getElem?_eq_some_iff.mp hL).1
      simp at this; exact this.1
    refine ⟨k, L, j + 1, hk, by simpa [List.getElem?_take, hk] using hL, h2, by omega, ?_⟩
    rw [← hbnd0, ← h5, ← List.map_take, List.take_take, min_eq_left hk.le, List.map_map]
    rfl
  · rintro ⟨k, L, j, hk, hL, h2, hj, h5⟩
    refine ⟨k, toOld L, by simp [List.getElem?_take, hk, hL], h2, min (j - 1) (ns - 1), by simp,
      by have := hg.ns_pos; omega, ?_⟩
    have e : ((List.take k ((p.layers.take p.n).map toOld)).map OldLayer.thick).sum
        = topOf p k := by
      rw [← List.map_take, List.take_take, min_eq_left hk.le, List.map_map]
      rfl
    rw [e, h5]
    simp only
    by_cases hle : j ≤ ns
    · rw [min_eq_left (by omega), hbnd0]
      have : j - 1 + 1 = j := by omega
      rw [this]
    · rw [min_eq_right (by omega), hbnd, ← getD_sum_range, ← hsame]
      have h6 : ∀ i, (dropThin (newThickness (depth p) minTh)).getD i 0 = ths i := fun i => by
        rw [← hths]
      simp only [h6]
      rw [← hg.sum]
      symm
      apply Finset.sum_subset
      · intro i; simp; omega
      · intro i _ hi; exact hg.zero i (by simpa using hi)

/-- **C16.** A snowpack thinner than 1e-6 m gives NaN exactly if some of its active layers has no
thickness (and the pack is not empty). -/
theorem C16_thin_undefined_iff (minTh : List K) (p : Pixel K) (hne : minTh ≠ [])
    (hm : ∀ m ∈ minTh, 1 / 1000000 ≤ m) (hp : WF p) (hslots : p.layers.length = minTh.length)
    (hd : depth p < 1 / 1000000) :
    updateLayers minTh p = none ↔ 0 < depth p ∧ ∃ L ∈ p.layers.take p.n, L.thick = 0 := by
  by_cases hpos : 0 < depth p
  · obtain ⟨m, ms, rfl⟩ := List.exists_cons_of_ne_nil hne
    have hm0 := hm m (by simp)
    have hnt : newThickness (depth p) (m :: ms) = depth p :: ms.map fun _ => 0 := by
      have : depth p - m ≤ m ∨ ms = [] := Or.inl (by linarith)
      simp only [newThickness, this, if_true, add_sub_cancel]
    have hdt : dropThin (newThickness (depth p) (m :: ms)) = 0 :: ms.map fun _ => 0 := by
      rw [hnt]
      simp only [dropThin, List.map_cons, hd, if_true, List.map_map]
      congr 1
      apply List.map_congr_left
      intro x _
      simp
    have hths : (fun k => (dropThin (newThickness (depth p) (m :: ms))).getD k 0)
        = fun _ => 0 := by
      funext k
      rw [hdt]
      cases k with
      | zero => simp
      | succ k =>
        rw [List.getD_eq_getElem?_getD]
        simp only [List.getElem?_cons_succ, List.getElem?_map]
        cases ms[k]? <;> simp
    have hns : ((dropThin (newThickness (depth p) (m :: ms))).countP
        fun t => decide (0 < t)) = 0 := by
      rw [hdt, List.countP_eq_zero]
      intro x hx
      rcases List.mem_cons.mp hx with rfl | hx
      · simp
      · obtain ⟨y, _, rfl⟩ := List.mem_map.mp hx
        simp
    have hloop : ∀ (os : List (OldLayer K (K × K × K))) (b : RelayerAcc K (K × K × K)),
        b.newTh = 0 → b.kNew + os.length ≤ (m :: ms).length →
        (relayerLoop (m :: ms).length 0 (fun _ => 0) os b = none ↔ ∃ o ∈ os, o.thick = 0) := by
      intro os
      induction os with
      | nil => intro b _ _; simp [relayerLoop]
      | cons o os ih =>
        intro b hb hk
        have hle : ¬ (m :: ms).length ≤ b.kNew := by simp at hk ⊢; omega
        by_cases ho : o.thick = 0
        · have : relayerOld (m :: ms).length 0 (fun _ => 0) o b = none := by
            rw [relayerOld]
            simp only [hle, if_false, weight, ho, hb, lt_irrefl, if_true]
          simp only [relayerLoop, this, Option.bind_eq_bind, Option.bind_none, true_iff]
          exact ⟨o, by simp, ho⟩
        · have hw : weight b.newTh o.thick = some 0 := by simp [weight, ho, hb]
          have : relayerOld (m :: ms).length 0 (fun _ => 0) o b
              = some { b with kNew := b.kNew + 1 } := by
            rw [relayerOld]
            simp only [hle, if_false, hw, zero_smul, add_zero, Function.update_eq_self,
              zero_ne_one, Nat.zero_le, if_true]
          simp only [relayerLoop, this, Option.bind_eq_bind, Option.bind_some]
          rw [ih { b with kNew := b.kNew + 1 } hb (by simp at hk ⊢; omega)]
          simp [ho]
    have hths0 : (dropThin (newThickness (depth p) (m :: ms))).getD 0 0 = 0 := congrFun hths 0
    have h1 := hloop ((p.layers.take p.n).map toOld) ⟨0, 0, fun _ => 0⟩ rfl (by
      rw [← hslots]; simp)
    have h2 : updateLayers (m :: ms) p = none ↔ relayerLoop (m :: ms).length 0 (fun _ => 0)
        ((p.layers.take p.n).map toOld) ⟨0, 0, fun _ => 0⟩ = none := by
      simp only [updateLayers, hpos, if_true]
      rw [hns, hths, hths0]
      cases relayerLoop (m :: ms).length 0 (fun _ => 0)
        ((p.layers.take p.n).map toOld) ⟨0, 0, fun _ => 0⟩ <;> simp
    rw [h2, h1]
    constructor
    · rintro ⟨o, ho, h0⟩
      obtain ⟨L, hL, rfl⟩ := List.mem_map.mp ho
      exact ⟨hpos, L, hL, h0⟩
    · rintro ⟨-, L, hL, h0⟩
      exact ⟨toOld L, List.mem_map_of_mem hL, h0⟩
  · simp [updateLayers, hpos]

/-! ## Witnesses -/

/-- Two layers of 0.05 m and 0.15 m; relayered to 0.1 m and 0.1 m. -/
def relayerEx : Pixel ℚ :=
  { n := 2, albedo := some (8 / 10),
    layers := [{ thick := 1 / 20, ice := 10, lwc := 1, temp := 270, heatCap := 25000 },
               { thick := 3 / 20, ice := 45, lwc := 0, temp := 268, heatCap := 94500 },
               { thick := 0, ice := 0, lwc := 0, temp := 273, heatCap := 0 }] }

/-- The hypotheses of C16 and C17 are met by a two-layer pack that is redistributed. -/
example : WF relayerEx ∧ (1 : ℚ) / 1000000 ≤ depth relayerEx ∧
    (∃ q, updateLayers [1 / 10, 1 / 20, 1 / 5] relayerEx = some q) := by
  have hwf : WF relayerEx :=
    ⟨by decide, by norm_num [relayerEx], by simp [relayerEx]⟩
  have hd : (1 : ℚ) / 1000000 ≤ depth relayerEx := by norm_num [depth, relayerEx]
  refine ⟨hwf, hd, C16_relayering_defined _ _ (by simp) ?_ hwf hd []
    (relayerEx.layers.take 2) rfl (by simp) ?_⟩
  · intro m hm; simp at hm; rcases hm with rfl | rfl | rfl <;> norm_num
  · intro L hL; simp [relayerEx] at hL; rcases hL with rfl | rfl <;> norm_num

/-- A completely melted top layer above a remainder thinner than 1e-6 m: the weight is `0/0` and
the result is undefined (NaN). Hence the definedness hypotheses of `C16_relayering_defined` are
needed. -/
theorem C16_undefined_witness :
    ∃ p : Pixel ℚ, WF p ∧ 0 < depth p ∧ updateLayers [1 / 10, 1 / 10] p = none := by
  refine ⟨{ n := 2, albedo := none,
            layers := [{ thick := 0, ice := 0, lwc := 0, temp := 273, heatCap := 0 },
              { thick := 1 / 2000000, ice := 1 / 10000, lwc := 0, temp := 273, heatCap := 1 }] },
    ⟨by decide, by norm_num, by simp⟩, by norm_num [depth], ?_⟩
  norm_num [updateLayers, depth, newThickness, dropThin, relayerLoop, toOld, List.countP_cons]
  rw [relayerOld]
  norm_num [weight]

/-- One layer of 0.1 m. -/
def tinyEx : Pixel ℚ :=
  { n := 1, albedo := none,
    layers := [{ thick := 1 / 10, ice := 30, lwc := 0, temp := 273, heatCap := 63000 },
               { thick := 0, ice := 0, lwc := 0, temp := 273, heatCap := 0 },
               { thick := 0, ice := 0, lwc := 0, temp := 273, heatCap := 0 }] }

/-- A configured minimum thickness below 1e-6 m makes relayering of a normal snowpack (0.1 m) fail
(the first layer is removed as too thin, nothing reaches the second one and its temperature is
`0/0`): the hypothesis on `min_thickness`, which the configuration schema does not enforce, is
needed. -/
theorem C16_tiny_min_thickness_witness :
    WF tinyEx ∧ depth tinyEx = 1 / 10 ∧
      updateLayers [1 / 10000000, 1 / 10, 1 / 10] tinyEx = none := by
  have d : depth tinyEx = 1 / 10 := by norm_num [depth, tinyEx]
  refine ⟨⟨by decide, by norm_num [tinyEx], by simp [tinyEx]⟩, d, ?_⟩
  have e : dropThin (newThickness (1 / 10 : ℚ) [1 / 10000000, 1 / 10, 1 / 10])
      = [0, 999999 / 10000000, 0] := by
    rw [newThickness, if_neg (by norm_num; exact List.cons_ne_nil _ _), newThickness,
      if_pos (by norm_num)]
    norm_num [dropThin]
  simp only [updateLayers, d, e]
  norm_num [relayerLoop, toOld, List.countP_cons, tinyEx]
  rw [relayerOld]
  norm_num [weight]

end Verif.MultiLayer
