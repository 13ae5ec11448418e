import Verif.Lemmas.Melt
import Verif.Lemmas.Snowpack

/-!
# C13: melt in the multilayer model
-/

namespace Verif.MultiLayer

variable {K : Type*} [Field K] [LinearOrder K] [IsStrictOrderedRing K]

/-- **C13** Melt moves exactly the reported amount from ice to liquid water; the reported amount is
non-negative and at most the ice present; the snowpack stays well-formed. -/
theorem C13_melt_conserves_mass (demand : K) (p : Pixel K) (hd : 0 ≤ demand) (hp : WF p) :
    totalIce (melt demand p).2 = totalIce p - (melt demand p).1 ∧
    totalLwc (melt demand p).2 = totalLwc p + (melt demand p).1 ∧
    0 ≤ (melt demand p).1 ∧ (melt demand p).1 ≤ totalIce p ∧
    (melt demand p).2.n = p.n ∧ (melt demand p).2.albedo = p.albedo ∧ WF (melt demand p).2 := by
  obtain ⟨h1, h2, h3, h4, h5⟩ := meltLoop_spec (p.layers.take p.n) ⟨demand, 0⟩ hd
    (fun L hL => (hp.active L hL).2.1)
  have hlen := meltLoop_length ⟨demand, 0⟩ (p.layers.take p.n)
  have hwf : WF (melt demand p).2 := hp.setActive hlen fun L' hL' => by
    obtain ⟨L, hL, hr⟩ := forall₂_mem_right h1 L' hL'
    obtain ⟨a, b, c⟩ := hp.active L hL
    exact ⟨hr.thick_nonneg a, hr.ice_nonneg, by rw [hr.lwc_eq]; linarith [hr.ice_le]⟩
  have e1 : totalIce (melt demand p).2 = totalIce p - (melt demand p).1 := by
    simp only [totalIce, melt, setActive_sum]
    rw [h2]; ring
  have hmono : 0 ≤ (melt demand p).1 := by
    simp only [melt] at *
    rw [h2]
    have : ∀ {l l' : List (Layer K)}, List.Forall₂ MeltRel l l' →
        (l'.map Layer.ice).sum ≤ (l.map Layer.ice).sum := by
      intro l l' h
      induction h with
      | nil => simp
      | cons h _ ih => simpa using add_le_add h.ice_le ih
    have := this h1
    simpa using this
  have hle : (melt demand p).1 ≤ totalIce p := by
    have : 0 ≤ totalIce (melt demand p).2 :=
      sum_map_nonneg _ _ fun L hL => (hwf.all L hL).2.1
    linarith
  refine ⟨e1, ?_, hmono, hle, rfl, rfl, hwf⟩
  simp only [totalLwc, melt, setActive_sum]
  rw [h3, h2]; ring

/-- **C13** Layer by layer: what leaves the ice enters the liquid water of the same layer, the
thickness shrinks in proportion to the ice, no active layer stays warmer than the melting point,
and the slots below the active layers are untouched. -/
theorem C13_melt_per_layer (demand : K) (p : Pixel K) (hd : 0 ≤ demand) (hp : WF p)
    (hc : ∀ L ∈ p.layers.take p.n, 0 < L.heatCap) :
    (∀ (k : ℕ) (L : Layer K), k < p.n → p.layers[k]? = some L →
      ∃ L', (melt demand p).2.layers[k]? = some L' ∧
        0 ≤ L'.ice ∧ L'.ice ≤ L.ice ∧ L'.lwc - L.lwc = L.ice - L'.ice ∧
        0 ≤ L'.thick ∧ L'.thick ≤ L.thick ∧ (0 < L.ice → L'.thick * L.ice = L.thick * L'.ice) ∧
        L'.temp = min L.temp T0 ∧ L'.heatCap = L.heatCap) ∧
    (∀ k, p.n ≤ k → (melt demand p).2.layers[k]? = p.layers[k]?) := by
  obtain ⟨h1, -⟩ := meltLoop_spec (p.layers.take p.n) ⟨demand, 0⟩ hd
    (fun L hL => (hp.active L hL).2.1)
  have hlen := meltLoop_length ⟨demand, 0⟩ (p.layers.take p.n)
  refine ⟨fun k L hk hL => ?_, fun k hk => setActive_get_ge p _ hp.n_le hlen k hk⟩
  have hL2 : (p.layers.take p.n)[k]? = some L := by simpa [List.getElem?_take, hk] using hL
  obtain ⟨L', hL', hr⟩ := forall₂_get h1 k L hL2
  have hmem := List.mem_of_getElem? hL2
  obtain ⟨a, b, c⟩ := hp.active L hmem
  refine ⟨L', by rw [melt, setActive_get_lt p _ hp.n_le hlen k hk]; exact hL', hr.ice_nonneg,
    hr.ice_le, by rw [hr.lwc_eq]; ring, hr.thick_nonneg a, hr.thick_le a, hr.thick_prop,
    hr.temp_eq (hc L hmem), hr.heatCap_eq⟩

/-- **C13** Melt proceeds from the top: the melt of the top `k+1` layers is limited only by the
demand plus the heat stored above the melting point in them, and by what the layers above left plus
the ice of layer `k`. Together with the total this determines the melt of every layer. -/
theorem C13_melt_top_down (demand : K) (p : Pixel K) (hd : 0 ≤ demand) (hp : WF p)
    (k : ℕ) (L : Layer K) (hk : k < p.n) (hL : p.layers[k]? = some L) :
    iceAbove p (k + 1) - iceAbove (melt demand p).2 (k + 1) =
      min (demand + warmMeltAbove p (k + 1))
        (iceAbove p k - iceAbove (melt demand p).2 k + L.ice) := by
  have hlen := meltLoop_length ⟨demand, 0⟩ (p.layers.take p.n)
  have hk' : k < (p.layers.take p.n).length := by simp [hp.n_le, hk]
  have := meltLoop_prefix (p.layers.take p.n) ⟨demand, 0⟩ k hk' hd
    (fun L hL => (hp.active L hL).2.1)
  have hg : (p.layers.take p.n)[k] = L := by
    have h2 : (p.layers.take p.n)[k]? = some L := by simpa [List.getElem?_take, hk] using hL
    rw [List.getElem?_eq_getElem hk'] at h2
    exact Option.some.inj h2
  simp only [iceAbove, warmMeltAbove, melt]
  rw [setActive_take p _ hp.n_le hlen (k + 1) hk, setActive_take p _ hp.n_le hlen k hk.le]
  have t1 : (p.layers.take p.n).take (k + 1) = p.layers.take (k + 1) := by
    rw [List.take_take, min_eq_left (by omega)]
  have t2 : (p.layers.take p.n).take k = p.layers.take k := by
    rw [List.take_take, min_eq_left (by omega)]
  rw [t1, t2, hg] at this
  exact this

/-- **C13** If no active layer is warmer than the melting point, the top `k` layers lose exactly
`min demand (their ice)`; in particular the whole pack melts `min demand totalIce`. -/
theorem C13_melt_cold_pack (demand : K) (p : Pixel K) (hd : 0 ≤ demand) (hp : WF p)
    (hcold : ∀ L ∈ p.layers.take p.n, 0 ≤ L.heatCap ∧ L.temp ≤ T0) :
    (∀ k ≤ p.n, iceAbove p k - iceAbove (melt demand p).2 k = min demand (iceAbove p k)) ∧
    (melt demand p).1 = min demand (totalIce p) := by
  have hwarm : ∀ k ≤ p.n, warmMeltAbove p k = 0 := by
    intro k hk
    apply List.sum_eq_zero
    intro x hx
    obtain ⟨L, hL, rfl⟩ := List.mem_map.mp hx
    obtain ⟨a, b⟩ := hcold L (List.take_subset_take_left _ hk hL)
    apply max_eq_right
    apply div_nonpos_of_nonpos_of_nonneg _ LF_pos.le
    exact mul_nonpos_of_nonneg_of_nonpos a (by linarith)
  have key : ∀ k ≤ p.n,
      iceAbove p k - iceAbove (melt demand p).2 k = min demand (iceAbove p k) := by
    intro k
    induction k with
    | zero => intro _; simp [iceAbove, hd]
    | succ k ih =>
      intro hk
      have hlt : k < p.layers.length := lt_of_lt_of_le hk hp.n_le
      have hL : p.layers[k]? = some p.layers[k] := List.getElem?_eq_getElem hlt
      have hice : 0 ≤ p.layers[k].ice := (hp.all _ (List.getElem_mem hlt)).2.1
      rw [C13_melt_top_down demand p hd hp k _ hk hL, hwarm (k + 1) hk, ih (by omega)]
      have : iceAbove p (k + 1) = iceAbove p k + p.layers[k].ice :=
        sum_map_take_succ _ _ _ _ hL
      rw [this, add_zero, ← min_add_add_right, ← min_assoc, min_eq_left (a := demand)]
      linarith
  refine ⟨key, ?_⟩
  have h := key p.n le_rfl
  obtain ⟨e1, -, -, -, -, -, hwf⟩ := C13_melt_conserves_mass demand p hd hp
  have a1 : iceAbove p p.n = totalIce p := hp.sum_active fun L h => h.2.1
  have a2 : iceAbove (melt demand p).2 p.n = totalIce (melt demand p).2 :=
    hwf.sum_active fun L h => h.2.1
  rw [a1, a2, e1] at h
  linarith

/-- A two-layer pack used to show that the hypotheses are satisfiable: the demand exceeds the top
layer and the lower layer is above the melting point. -/
def exPack : Pixel ℚ :=
  { n := 2, albedo := some (8/10),
    layers := [⟨1/10, 10, 1, 270, 25180⟩, ⟨2/10, 60, 0, 274, 126000⟩, ⟨0, 0, 0, T0, 0⟩] }

theorem exPack_wf : WF exPack :=
  ⟨by decide, by norm_num [exPack], by simp [exPack]⟩

example : WF exPack ∧ (∀ L ∈ exPack.layers.take exPack.n, 0 < L.heatCap) ∧
    (melt 15 exPack).1 ≠ 15 ∧ 0 < (melt 15 exPack).1 :=
  ⟨exPack_wf, by simp [exPack], by
    norm_num [melt, meltLoop, meltLayer, exPack, T0, LF], by
    norm_num [melt, meltLoop, meltLayer, exPack, T0, LF]⟩

/-- Cold variant for `C13_melt_cold_pack`. -/
def exCold : Pixel ℚ :=
  { n := 2, albedo := some (8/10),
    layers := [⟨1/10, 10, 1, 270, 25180⟩, ⟨2/10, 60, 0, 268, 126000⟩, ⟨0, 0, 0, T0, 0⟩] }

example : WF exCold ∧ (∀ L ∈ exCold.layers.take exCold.n, 0 ≤ L.heatCap ∧ L.temp ≤ T0) :=
  ⟨⟨by decide, by norm_num [exCold], by simp [exCold]⟩, by norm_num [exCold, T0]⟩

end Verif.MultiLayer
