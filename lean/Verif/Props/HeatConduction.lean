import Verif.Model.HeatConduction
import Verif.Props.Tridiag
import Mathlib.Algebra.BigOperators.Intervals
import Mathlib.Algebra.BigOperators.Ring.Finset
import Mathlib.Algebra.Order.BigOperators.Group.Finset

/-!
# C21, C22, C23: heat conduction in snow and soil columns
-/

set_option linter.unusedSectionVars false

namespace Verif.Heat

open Verif.Tridiag Finset

variable {K : Type*} [Field K] [LinearOrder K] [IsStrictOrderedRing K]

/-! ## Specification -/

/-- Positive material properties and time step. -/
structure Physical (c : Column K) : Prop where
  layers : 0 < c.N
  dt : 0 < c.dt
  dx : ∀ k, k < c.N → 0 < c.dx k
  lam : ∀ k, k < c.N → 0 < c.lam k
  hc : ∀ k, k < c.N → 0 < c.hc k
  dxBottom : 0 < c.dxBottom
  lamBottom : 0 < c.lamBottom

/-- Thermal resistance between the centre and the edge of node `k`; node `N` is the bottom. -/
def halfResistance (c : Column K) (k : ℕ) : K :=
  if k < c.N then c.dx k / 2 / c.lam k else c.dxBottom / 2 / c.lamBottom

/-- Heat flux (positive downwards) out of node `k` into node `k + 1`, by Fourier's law with the
two half layers in series, for node temperatures `U`. -/
def fluxBelow (c : Column K) (U : ℕ → K) (k : ℕ) : K :=
  (U k - U (k + 1)) / (halfResistance c k + halfResistance c (k + 1))

/-- Heat flux entering node `k` from above: the surface heat flux for the top layer. -/
def fluxAbove (c : Column K) (U : ℕ → K) (k : ℕ) : K :=
  if k = 0 then c.flux else fluxBelow c U (k - 1)

/-- Node temperatures: `U` in the layers, the bottom temperature below. -/
def withBottom (c : Column K) (U : ℕ → K) (k : ℕ) : K := if k < c.N then U k else c.Tbottom

section aux

theorem halfResistance_pos {c : Column K} (h : Physical c) (k : ℕ) : 0 < halfResistance c k := by
  unfold halfResistance
  split_ifs with hk
  · exact div_pos (div_pos (h.dx k hk) (by norm_num)) (h.lam k hk)
  · exact div_pos (div_pos h.dxBottom (by norm_num)) h.lamBottom

theorem between_eq {c : Column K} (h : Physical c) (k : ℕ) (hk : k < c.N) :
    between c k = 1 / (halfResistance c k + halfResistance c (k + 1)) := by
  have h1 := h.dx k hk
  have h2 := h.lam k hk
  have h5 := h.dxBottom
  have h6 := h.lamBottom
  unfold between halfResistance
  rw [if_pos hk]
  split_ifs with hk'
  · have h3 := h.dx _ hk'
    have h4 := h.lam _ hk'
    have : c.dx k / c.lam k + c.dx (k + 1) / c.lam (k + 1) > 0 := by positivity
    have : c.dx k / 2 / c.lam k + c.dx (k + 1) / 2 / c.lam (k + 1) > 0 := by positivity
    have e : c.dx k / c.lam k + c.dx (k + 1) / c.lam (k + 1)
        = 2 * (c.dx k / 2 / c.lam k + c.dx (k + 1) / 2 / c.lam (k + 1)) := by
      ring
    rw [e]
    rw [div_eq_div_iff (by positivity) (by positivity)]
    ring
  · have : c.dx k / c.lam k + c.dxBottom / c.lamBottom > 0 := by positivity
    have : c.dx k / 2 / c.lam k + c.dxBottom / 2 / c.lamBottom > 0 := by positivity
    have e : c.dx k / c.lam k + c.dxBottom / c.lamBottom
        = 2 * (c.dx k / 2 / c.lam k + c.dxBottom / 2 / c.lamBottom) := by
      ring
    rw [e]
    rw [div_eq_div_iff (by positivity) (by positivity)]
    ring

theorem between_pos {c : Column K} (h : Physical c) (k : ℕ) (hk : k < c.N) : 0 < between c k := by
  rw [between_eq h k hk]
  have := halfResistance_pos h k
  have := halfResistance_pos h (k + 1)
  positivity

theorem fluxBelow_eq {c : Column K} (h : Physical c) (U : ℕ → K) (k : ℕ) (hk : k < c.N) :
    fluxBelow c U k = between c k * (U k - U (k + 1)) := by
  rw [between_eq h k hk, fluxBelow]; ring

theorem rows_dominant {c : Column K} (h : Physical c) (hN : 2 ≤ c.N) :
    Dominant ((List.range c.N).map (row c)) := by
  intro r hr
  obtain ⟨k, hk, rfl⟩ := List.mem_map.mp hr
  have hkN : k < c.N := List.mem_range.mp hk
  have hb := between_pos h k hkN
  have hdt := h.dt
  have hhc := h.hc k hkN
  unfold row
  split_ifs with h0 h1
  · subst h0
    have : 0 < between c 0 * c.dt := by positivity
    simp only [abs_zero, zero_add]
    rw [neg_mul, abs_neg, abs_of_pos this, abs_of_pos (by positivity)]
    linarith
  · have hb' := between_pos h (k - 1) (by omega)
    have h1 : 0 < between c k * c.dt := by positivity
    have h2 : 0 < between c (k - 1) * c.dt := by positivity
    simp only [neg_mul, abs_neg]
    rw [abs_of_pos h1, abs_of_pos h2, abs_of_pos (by positivity)]
    nlinarith
  · have hb' := between_pos h (k - 1) (by omega)
    have h1 : 0 < between c k * c.dt := by positivity
    have h2 : 0 < between c (k - 1) * c.dt := by positivity
    simp only [neg_mul, abs_neg, abs_zero, add_zero]
    rw [abs_of_pos h2, abs_of_pos (by positivity)]
    nlinarith

/-- The balance of one layer. -/
theorem layer_balance {c : Column K} (h : Physical c) (x : List K) (hx : tempChange c = some x) :
    x.length = c.N ∧ ∀ k, k < c.N →
      c.hc k * x.getD k 0 = c.dt * (fluxAbove c (withBottom c (newTemp c x)) k
        - fluxBelow c (withBottom c (newTemp c x)) k) := by
  have hdt := h.dt
  have hN0 := h.layers
  unfold tempChange at hx
  split_ifs at hx with h1 h2
  · simp only [Option.some.injEq] at hx
    subst hx
    refine ⟨by simp [h1], fun k hk => ?_⟩
    have hk0 : k = 0 := by omega
    subst hk0
    rw [fluxBelow_eq h _ _ hk]
    simp only [fluxAbove, withBottom, newTemp, h1, if_true, List.getD_cons_zero, Nat.lt_one_iff]
    simp
    field_simp
    ring
  · have hs := (C20_solution_unique _ x hx x).mpr rfl
    obtain ⟨hl, he⟩ := hs
    simp only [List.length_map, List.length_range] at hl
    refine ⟨hl, fun k hk => ?_⟩
    have hk' := he k (row c k) (by simp [hk])
    rw [fluxBelow_eq h _ _ hk]
    have hlast : x.getD c.N 0 = 0 := by simp [List.getD_eq_getElem?_getD, ← hl]
    rcases Nat.eq_zero_or_pos k with rfl | hpos
    · have h2 : 0 + 1 < c.N := by omega
      simp only [row, if_true, zero_add, mul_zero] at hk'
      simp only [fluxAbove, withBottom, newTemp, if_true, hk, zero_add, show 1 < c.N by omega]
      linarith
    · obtain ⟨m, rfl⟩ : ∃ m, k = m + 1 := ⟨k - 1, by omega⟩
      have hm : m < c.N := by omega
      have hne : m + 1 ≠ 0 := by omega
      simp only [fluxAbove, if_neg hne, Nat.add_sub_cancel]
      rw [fluxBelow_eq h _ _ hm]
      simp only [hne, if_false, Nat.add_sub_cancel] at hk'
      unfold row at hk'
      simp only [if_neg hne, Nat.add_sub_cancel] at hk'
      simp only [withBottom, newTemp, if_pos hm, if_pos hk]
      split_ifs at hk' ⊢ with h3
      · simp only at hk'
        linarith
      · simp only at hk'
        linarith

end aux

/-- **C21.** For every physical column the temperature change is defined, and each layer gains
exactly the heat flowing in from above minus the heat flowing out below during the time step, the
conductive fluxes being those of the new temperatures. -/
theorem C21_layer_energy_balance (c : Column K) (h : Physical c) :
    ∃ x, tempChange c = some x ∧ x.length = c.N ∧ ∀ k, k < c.N →
      c.hc k * x.getD k 0 = c.dt * (fluxAbove c (withBottom c (newTemp c x)) k
        - fluxBelow c (withBottom c (newTemp c x)) k) := by
  have hdef : ∃ x, tempChange c = some x := by
    unfold tempChange
    split_ifs with h1 h2
    · exfalso
      have := between_pos h 0 h.layers
      have := h.hc 0 h.layers
      have := h.dt
      have : 0 < c.hc 0 + between c 0 * c.dt := by positivity
      exact absurd h2 (ne_of_gt this)
    · exact ⟨_, rfl⟩
    · have hN := h.layers
      have hN2 : 2 ≤ c.N := by omega
      obtain ⟨x, hx, _⟩ := C20_dominant_solved ((List.range c.N).map (row c))
        (by simp; omega) (rows_dominant h hN2)
      exact ⟨x, hx⟩
  obtain ⟨x, hx⟩ := hdef
  exact ⟨x, hx, layer_balance h x hx⟩

/-- **C21.** The heat gained by the whole column is the surface heat flux minus the flux into the
bottom node (at the new temperature of the lowest layer). -/
theorem C21_column_energy_balance (c : Column K) (h : Physical c) (x : List K)
    (hx : tempChange c = some x) :
    ∑ k ∈ range c.N, c.hc k * x.getD k 0 =
      c.dt * (c.flux - (newTemp c x (c.N - 1) - c.Tbottom) /
        (c.dx (c.N - 1) / 2 / c.lam (c.N - 1) + c.dxBottom / 2 / c.lamBottom)) := by
  obtain ⟨_, hb⟩ := layer_balance h x hx
  obtain ⟨U, hU⟩ : ∃ U, withBottom c (newTemp c x) = U := ⟨_, rfl⟩
  rw [hU] at hb
  rw [Finset.sum_congr rfl fun k hk => hb k (Finset.mem_range.mp hk), ← Finset.mul_sum]
  have htel : ∀ n, ∑ k ∈ range (n + 1), (fluxAbove c U k - fluxBelow c U k)
      = c.flux - fluxBelow c U n := by
    intro n
    induction n with
    | zero => simp [fluxAbove]
    | succ n ih => rw [Finset.sum_range_succ, ih]; simp [fluxAbove]
  obtain ⟨m, hm⟩ : ∃ m, c.N = m + 1 := ⟨c.N - 1, by have := h.layers; omega⟩
  rw [hm, htel, ← hU]
  simp [fluxBelow, withBottom, halfResistance, hm]

theorem rowsArr_column {ι : Type*} (c : Columns ι K) (i : ι) (m k : ℕ) (cPrev : ι → K) (hk : 0 < k)
    (hN : k + m = c.N) (hp : cPrev i = -between (c.pixel i) (k - 1) * c.dt) :
    (rowsArr c m k cPrev).map (fun r => r.column i) = (List.range m).map fun j => row (c.pixel i) (k + j) := by
  have hb : ∀ k, betweenArr c k i = between (c.pixel i) k := by
    intro k
    unfold betweenArr between
    simp only [Columns.pixel]
    by_cases h : k + 1 < c.N <;> simp [h]
  induction m using Nat.strong_induction_on generalizing k cPrev with
  | _ m ih =>
    match m with
    | 0 => rfl
    | 1 =>
      have : ¬ k + 1 < c.N := by omega
      simp [rowsArr, Row.column, row, hk.ne', this, hp, hb, Columns.pixel]
    | m + 2 =>
      have : k + 1 < c.N := by omega
      rw [rowsArr, List.map_cons, ih (m + 1) (by omega) (k + 1) _ (by omega) (by omega) (by simp [hb]),
        List.range_succ_eq_map (n := m + 1), List.map_cons, List.map_map]
      congr 1
      · simp [Row.column, row, hk.ne', this, hp, hb, Columns.pixel]
      · apply List.map_congr_left
        intro j _
        simp only [Function.comp]
        congr 1
        omega

/-- **C21.** The array version used for the soil computes for every pixel what the scalar version computes for
the column of that pixel; other pixels have no influence. -/
theorem C21_array {ι : Type*} (c : Columns ι K) (hN : 0 < c.N) (i : ι) (x : List K)
    (hx : tempChange (c.pixel i) = some x) : (tempChangeArr c).map (fun f => f i) = x := by
  have hb : ∀ k, betweenArr c k i = between (c.pixel i) k := by
    intro k
    unfold betweenArr between
    simp only [Columns.pixel]
    by_cases h : k + 1 < c.N <;> simp [h]
  unfold tempChange at hx
  unfold tempChangeArr
  by_cases h1 : c.N = 1
  · rw [if_pos h1]
    rw [if_pos (show (c.pixel i).N = 1 from h1)] at hx
    split_ifs at hx with h0
    simp only [Option.some.injEq] at hx
    subst hx
    simp [hb, Columns.pixel]
  · rw [if_neg h1]
    rw [if_neg (show (c.pixel i).N ≠ 1 from h1)] at hx
    apply C20_array_version
    rw [← hx]
    congr 1
    obtain ⟨n, hn⟩ : ∃ n, c.N = n + 1 := ⟨c.N - 1, by omega⟩
    rw [List.map_cons, rowsArr_column c i _ 1 _ (by omega) (by omega) (by simp [hb])]
    rw [show (c.pixel i).N = n + 1 from hn, List.range_succ_eq_map, List.map_cons, List.map_map, hn]
    congr 1
    · simp [Row.column, row, hb, Columns.pixel]
    · simp only [Nat.add_sub_cancel]
      apply List.map_congr_left
      intro j _
      simp only [Function.comp]
      congr 1
      omega

/-- **C21.** Energy balance of every layer of every pixel of the array version. -/
theorem C21_array_balance {ι : Type*} (c : Columns ι K) (i : ι) (h : Physical (c.pixel i)) :
    (tempChangeArr c).length = c.N ∧ ∀ k, k < c.N →
      c.hc k i * ((tempChangeArr c).map fun f => f i).getD k 0 =
        c.dt * (fluxAbove (c.pixel i) (withBottom (c.pixel i)
            (newTemp (c.pixel i) ((tempChangeArr c).map fun f => f i))) k
          - fluxBelow (c.pixel i) (withBottom (c.pixel i)
            (newTemp (c.pixel i) ((tempChangeArr c).map fun f => f i))) k) := by
  obtain ⟨x, h1, h2, h3⟩ := C21_layer_energy_balance (c.pixel i) h
  have e := C21_array c h.layers i x h1
  refine ⟨?_, fun k hk => ?_⟩
  · rw [← List.length_map (f := fun f : ι → K => f i), e, h2]; rfl
  · rw [e]; exact h3 k hk

example : Physical ((⟨2, fun _ _ => 1, fun k i => k + i, fun _ _ => 1, fun _ _ => 1, 1, fun _ => 0, fun _ => 1,
    fun _ => 1, fun _ => 0⟩ : Columns ℕ ℚ).pixel 3) := by
  constructor <;> simp [Columns.pixel]

/-- **C22.** Maximum principle: without surface heat flux the new temperatures stay within any
bounds of the old temperatures and the bottom temperature, for every time step length. -/
theorem C22_maximum_principle (c : Column K) (h : Physical c) (hf : c.flux = 0) (lo hi : K)
    (hT : ∀ k, k < c.N → lo ≤ c.T k ∧ c.T k ≤ hi) (hb : lo ≤ c.Tbottom ∧ c.Tbottom ≤ hi)
    (x : List K) (hx : tempChange c = some x) :
    ∀ k, k < c.N → lo ≤ newTemp c x k ∧ newTemp c x k ≤ hi := by
  obtain ⟨_, he⟩ := layer_balance h x hx
  have hdt := h.dt
  have hne : (range c.N).Nonempty := by
    have := h.layers
    exact ⟨0, by simpa using this⟩
  have hres := fun k => halfResistance_pos h k
  have hw : ∀ k, k < c.N → withBottom c (newTemp c x) k = newTemp c x k := by
    intro k hk; simp [withBottom, hk]
  have hcases : ∀ k, withBottom c (newTemp c x) k = c.Tbottom ∨
      (k < c.N ∧ withBottom c (newTemp c x) k = newTemp c x k) := by
    intro k
    unfold withBottom
    split_ifs with hk
    · exact Or.inr ⟨hk, rfl⟩
    · exact Or.inl rfl
  have upper : ∀ k, k < c.N → newTemp c x k ≤ hi := by
    obtain ⟨m, hm, hmax⟩ := Finset.exists_max_image (range c.N) (newTemp c x) hne
    have hmN := Finset.mem_range.mp hm
    have key : newTemp c x m ≤ hi := by
      by_contra hcon
      rw [not_le] at hcon
      have hall : ∀ k, withBottom c (newTemp c x) k ≤ newTemp c x m := by
        intro k
        rcases hcases k with e | ⟨hk, e⟩
        · rw [e]; linarith [hb.2]
        · rw [e]; exact hmax k (Finset.mem_range.mpr hk)
      have hbelow : 0 ≤ fluxBelow c (withBottom c (newTemp c x)) m := by
        unfold fluxBelow
        rw [hw m hmN]
        exact div_nonneg (sub_nonneg.mpr (hall _)) (add_pos (hres _) (hres _)).le
      have habove : fluxAbove c (withBottom c (newTemp c x)) m ≤ 0 := by
        unfold fluxAbove
        split_ifs with h0
        · rw [hf]
        · unfold fluxBelow
          rw [show m - 1 + 1 = m by omega, hw m hmN]
          exact div_nonpos_of_nonpos_of_nonneg (sub_nonpos.mpr (hall _))
            (add_pos (hres _) (hres _)).le
      have h1 := he m hmN
      have h2 : c.hc m * x.getD m 0 ≤ 0 := by
        rw [h1]
        exact mul_nonpos_of_nonneg_of_nonpos hdt.le (by linarith)
      have h3 : 0 < x.getD m 0 := by
        have := (hT m hmN).2
        unfold newTemp at hcon
        linarith
      have := mul_pos (h.hc m hmN) h3
      linarith
    intro k hk
    exact le_trans (hmax k (Finset.mem_range.mpr hk)) key
  have lower : ∀ k, k < c.N → lo ≤ newTemp c x k := by
    obtain ⟨m, hm, hmin⟩ := Finset.exists_min_image (range c.N) (newTemp c x) hne
    have hmN := Finset.mem_range.mp hm
    have key : lo ≤ newTemp c x m := by
      by_contra hcon
      rw [not_le] at hcon
      have hall : ∀ k, newTemp c x m ≤ withBottom c (newTemp c x) k := by
        intro k
        rcases hcases k with e | ⟨hk, e⟩
        · rw [e]; linarith [hb.1]
        · rw [e]; exact hmin k (Finset.mem_range.mpr hk)
      have hbelow : fluxBelow c (withBottom c (newTemp c x)) m ≤ 0 := by
        unfold fluxBelow
        rw [hw m hmN]
        exact div_nonpos_of_nonpos_of_nonneg (sub_nonpos.mpr (hall _))
          (add_pos (hres _) (hres _)).le
      have habove : 0 ≤ fluxAbove c (withBottom c (newTemp c x)) m := by
        unfold fluxAbove
        split_ifs with h0
        · rw [hf]
        · unfold fluxBelow
          rw [show m - 1 + 1 = m by omega, hw m hmN]
          exact div_nonneg (sub_nonneg.mpr (hall _)) (add_pos (hres _) (hres _)).le
      have h1 := he m hmN
      have h2 : 0 ≤ c.hc m * x.getD m 0 := by
        rw [h1]
        exact mul_nonneg hdt.le (by linarith)
      have h3 : x.getD m 0 < 0 := by
        have := (hT m hmN).1
        unfold newTemp at hcon
        linarith
      have := mul_neg_of_pos_of_neg (h.hc m hmN) h3
      linarith
    intro k hk
    exact le_trans key (hmin k (Finset.mem_range.mpr hk))
  exact fun k hk => ⟨lower k hk, upper k hk⟩

/-- **C22.** An isothermal column without surface heat flux stays unchanged. -/
theorem C22_isothermal (c : Column K) (h : Physical c) (hf : c.flux = 0)
    (hT : ∀ k, k < c.N → c.T k = c.Tbottom) (x : List K) (hx : tempChange c = some x) :
    ∀ k, k < c.N → newTemp c x k = c.T k := by
  intro k hk
  have := C22_maximum_principle c h hf c.Tbottom c.Tbottom
    (fun j hj => by rw [hT j hj]; exact ⟨le_refl _, le_refl _⟩) ⟨le_refl _, le_refl _⟩ x hx k hk
  rw [hT k hk]
  exact le_antisymm this.2 this.1

/-- A physical column of three layers. -/
def exColumn : Column ℚ where
  N := 3
  dx := fun _ => 1 / 10
  T := fun k => 270 - k
  lam := fun _ => 1 / 4
  hc := fun _ => 50000
  dt := 3600
  Tbottom := 271
  dxBottom := 1 / 10
  lamBottom := 1
  flux := 0

example : Physical exColumn := by
  constructor <;> norm_num [exColumn]

example : (∀ k, k < exColumn.N → 268 ≤ exColumn.T k ∧ exColumn.T k ≤ 271) ∧
    exColumn.T 0 ≠ exColumn.T 1 := by
  refine ⟨fun k hk => ?_, by norm_num [exColumn]⟩
  have : k = 0 ∨ k = 1 ∨ k = 2 := by simp [exColumn] at hk; omega
  rcases this with rfl | rfl | rfl <;> norm_num [exColumn]

/-! ## C23: the bottom boundary of the snow column -/

open Verif.MultiLayer

/-- Specification of the intended call: as the code's, with the soil temperature at the bottom. -/
def intendedColumn (s : SnowBoundary K) (p : Pixel K) : Column K :=
  { snowColumn s p with Tbottom := s.soilTemp }

/-- **C23 (what holds).** The snow column is coupled to the soil with the soil's thickness and
conductivity, and the result is the intended one whenever the last slot of the snow temperature
array happens to hold the soil temperature. Missing: the code passes the soil temperature. -/
theorem C23_bottom_boundary_partial (s : SnowBoundary K) (p : Pixel K)
    (h : (p.layers.map Layer.temp).getLastD 0 = s.soilTemp) :
    snowColumn s p = intendedColumn s p := by
  simp only [intendedColumn, snowColumn, h]

/-- A snow pack of one active layer at 263.15 K in arrays with two slots. -/
def exSnow : Pixel ℚ :=
  { n := 1
    layers := [⟨1 / 10, 30, 0, 26315 / 100, 63000⟩, ⟨0, 0, 0, 27315 / 100, 0⟩]
    albedo := none }

/-- Soil at 271.15 K, hourly time step, no surface heat flux. -/
def exBoundary : SnowBoundary ℚ :=
  { dt := 3600, lam := fun _ => 1 / 4, soilThickness := 1 / 10, soilLam := 1,
    soilTemp := 27115 / 100, flux := 0 }

/-- The specification demanded by C23. -/
def CoupledToSoil (K : Type*) [Field K] [LinearOrder K] : Prop :=
  ∀ (s : SnowBoundary K) (p : Pixel K), 0 < p.n →
    tempChange (snowColumn s p) = tempChange (intendedColumn s p)

/-- **C23 is false of the code.** A snow layer over soil of 271.15 K without surface heat flux:
the temperature change differs from the one with the soil temperature as lower boundary. -/
theorem C23_coupling_false : ¬ CoupledToSoil ℚ := by
  intro h
  have := h exBoundary exSnow (by norm_num [exSnow])
  norm_num [tempChange, snowColumn, intendedColumn, exBoundary, exSnow, between,
    List.getLastD] at this

/-- Consequence of the wrong boundary temperature: snow and soil both at 263.15 K, no surface heat
flux, and yet the snow warms, because the unused second slot holds 273.15 K. -/
theorem C23_spurious_warming_witness :
    ∃ x, tempChange (snowColumn { exBoundary with soilTemp := 26315 / 100 } exSnow) = some [x] ∧
      0 < x := by
  refine ⟨((0 + 4 * (27315 / 100 - 26315 / 100)) * 3600 / (63000 + 4 * 3600)), ?_, by
    norm_num⟩
  norm_num [tempChange, snowColumn, exBoundary, exSnow, between, List.getLastD]

/-- The soil temperature of `C23_bottom_boundary_partial` can be met. -/
example : (exSnow.layers.map Layer.temp).getLastD 0 =
    ({ exBoundary with soilTemp := 27315 / 100 } : SnowBoundary ℚ).soilTemp := by
  norm_num [exSnow]

end Verif.Heat
