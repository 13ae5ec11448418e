import Verif.Props.HeatConduction
import Verif.Props.Soil

/-!
# C158: a warmer column never ends colder
-/

set_option linter.unusedSectionVars false

namespace Verif.HeatComparison

open Verif.Heat Finset

variable {K : Type*} [Field K] [LinearOrder K] [IsStrictOrderedRing K]

/-! ## Specification -/

/-- Specification: the same layers, thermal properties and time step. -/
structure SameColumn (c c' : Column K) : Prop where
  N : c'.N = c.N
  dt : c'.dt = c.dt
  dx : ∀ k, k < c.N → c'.dx k = c.dx k
  lam : ∀ k, k < c.N → c'.lam k = c.lam k
  hc : ∀ k, k < c.N → c'.hc k = c.hc k
  dxBottom : c'.dxBottom = c.dxBottom
  lamBottom : c'.lamBottom = c.lamBottom

/-- A run of a column: time step by time step the temperatures (first argument) are changed by the
heat conduction with the properties, the surface heat flux and the bottom temperature of the time
step. -/
def runColumn (T : ℕ → K) : List (Column K) → Option (ℕ → K)
  | [] => some T
  | c :: cs =>
    match tempChange { c with T := T } with
    | none => none
    | some x => runColumn (newTemp { c with T := T } x) cs

/-- Specification: time steps with the same properties for a column of `n` layers; the second one is
driven at least as warm. -/
def WarmerStep (n : ℕ) (c c' : Column K) : Prop :=
  Physical c ∧ c.N = n ∧ SameColumn c c' ∧ c.flux ≤ c'.flux ∧ c.Tbottom ≤ c'.Tbottom

/-! ## Helper lemmas -/

theorem same_physical {c c' : Column K} (s : SameColumn c c') (h : Physical c) : Physical c' :=
  ⟨by rw [s.N]; exact h.layers, by rw [s.dt]; exact h.dt,
   fun k hk => by rw [s.N] at hk; rw [s.dx k hk]; exact h.dx k hk,
   fun k hk => by rw [s.N] at hk; rw [s.lam k hk]; exact h.lam k hk,
   fun k hk => by rw [s.N] at hk; rw [s.hc k hk]; exact h.hc k hk,
   by rw [s.dxBottom]; exact h.dxBottom, by rw [s.lamBottom]; exact h.lamBottom⟩

theorem same_half {c c' : Column K} (s : SameColumn c c') (k : ℕ) :
    halfResistance c' k = halfResistance c k := by
  unfold halfResistance
  rw [s.N, s.dxBottom, s.lamBottom]
  split_ifs with hk
  · rw [s.dx k hk, s.lam k hk]
  · rfl

/-- A lower bound of the differences is kept if the second column gets no less heat. -/
theorem difference_ge (c c' : Column K) (h : Physical c) (s : SameColumn c c') (m : K)
    (hT : ∀ k, k < c.N → m ≤ c'.T k - c.T k) (hb : m ≤ c'.Tbottom - c.Tbottom)
    (hf : c.flux ≤ c'.flux) (x x' : List K) (hx : tempChange c = some x)
    (hx' : tempChange c' = some x') :
    ∀ k, k < c.N → m ≤ newTemp c' x' k - newTemp c x k := by
  obtain ⟨_, he⟩ := layer_balance h x hx
  obtain ⟨_, he'⟩ := layer_balance (same_physical s h) x' hx'
  obtain ⟨U, hU⟩ : ∃ U, withBottom c (newTemp c x) = U := ⟨_, rfl⟩
  obtain ⟨U', hU'⟩ : ∃ U', withBottom c' (newTemp c' x') = U' := ⟨_, rfl⟩
  rw [hU] at he
  rw [hU'] at he'
  have hres := fun k => halfResistance_pos h k
  have hne : (range c.N).Nonempty := ⟨0, by simpa using h.layers⟩
  have hu : ∀ k, k < c.N → U k = newTemp c x k ∧ U' k = newTemp c' x' k := by
    intro k hk
    rw [← hU, ← hU']
    simp [withBottom, hk, s.N]
  obtain ⟨j, hj, hmin⟩ := exists_min_image (range c.N) (fun k => newTemp c' x' k - newTemp c x k) hne
  have hjN := mem_range.1 hj
  suffices key : m ≤ newTemp c' x' j - newTemp c x j from
    fun k hk => key.trans (hmin k (mem_range.2 hk))
  by_contra hcon
  rw [not_le] at hcon
  obtain ⟨e1, e2⟩ := hu j hjN
  have hall : ∀ k, U' j - U j ≤ U' k - U k := by
    intro k
    by_cases hk : k < c.N
    · rw [e1, e2, (hu k hk).1, (hu k hk).2]
      exact hmin k (mem_range.2 hk)
    · have : U k = c.Tbottom ∧ U' k = c'.Tbottom := by
        rw [← hU, ← hU']
        simp [withBottom, hk, s.N]
      rw [e1, e2, this.1, this.2]
      linarith
  have hbelow : fluxBelow c' U' j - fluxBelow c U j ≤ 0 := by
    unfold fluxBelow
    rw [same_half s, same_half s, ← sub_div]
    exact div_nonpos_of_nonpos_of_nonneg (by linarith [hall (j + 1)]) (add_pos (hres _) (hres _)).le
  have habove : 0 ≤ fluxAbove c' U' j - fluxAbove c U j := by
    unfold fluxAbove
    split_ifs with h0
    · linarith
    · unfold fluxBelow
      rw [same_half s, same_half s, ← sub_div, show j - 1 + 1 = j by omega]
      exact div_nonneg (by linarith [hall (j - 1)]) (add_pos (hres _) (hres _)).le
  have b1 := he j hjN
  have b2 := he' j (by rw [s.N]; exact hjN)
  rw [s.hc j hjN, s.dt] at b2
  have h2 : 0 ≤ c.hc j * (x'.getD j 0 - x.getD j 0) := by
    rw [mul_sub, b1, b2, ← mul_sub]
    exact mul_nonneg h.dt.le (by linarith)
  have h3 : x'.getD j 0 - x.getD j 0 < 0 := by
    have := hT j hjN
    unfold newTemp at hcon
    linarith
  have := mul_neg_of_pos_of_neg (h.hc j hjN) h3
  linarith

theorem SameColumn.symm {c c' : Column K} (s : SameColumn c c') : SameColumn c' c :=
  ⟨s.N.symm, s.dt.symm, fun k hk => (s.dx k (s.N ▸ hk)).symm, fun k hk => (s.lam k (s.N ▸ hk)).symm,
   fun k hk => (s.hc k (s.N ▸ hk)).symm, s.dxBottom.symm, s.lamBottom.symm⟩

theorem with_temp {c c' : Column K} (s : SameColumn c c') (T T' : ℕ → K) :
    SameColumn { c with T := T } { c' with T := T' } :=
  ⟨s.N, s.dt, s.dx, s.lam, s.hc, s.dxBottom, s.lamBottom⟩

theorem physical_temp {c : Column K} (h : Physical c) (T : ℕ → K) : Physical { c with T := T } :=
  ⟨h.layers, h.dt, h.dx, h.lam, h.hc, h.dxBottom, h.lamBottom⟩

/-! ## Theorems -/

/-- **C158.** One time step: a column that is nowhere colder, with at least the same surface heat
flux and bottom temperature, is nowhere colder afterwards. -/
theorem C158_step (c c' : Column K) (h : Physical c) (s : SameColumn c c')
    (hT : ∀ k, k < c.N → c.T k ≤ c'.T k) (hb : c.Tbottom ≤ c'.Tbottom) (hf : c.flux ≤ c'.flux) :
    ∃ x x', tempChange c = some x ∧ tempChange c' = some x' ∧
      ∀ k, k < c.N → newTemp c x k ≤ newTemp c' x' k := by
  obtain ⟨x, hx, -⟩ := C21_layer_energy_balance c h
  obtain ⟨x', hx', -⟩ := C21_layer_energy_balance c' (same_physical s h)
  refine ⟨x, x', hx, hx', fun k hk => sub_nonneg.1 ?_⟩
  exact difference_ge c c' h s 0 (fun k hk => sub_nonneg.2 (hT k hk)) (sub_nonneg.2 hb) hf x x' hx hx'
    k hk

/-- **C158.** Runs of any length: the column that is nowhere colder at the beginning and is driven at
least as warm in every time step is nowhere colder at the end. -/
theorem C158_run (n : ℕ) (cs cs' : List (Column K)) (h : List.Forall₂ (WarmerStep n) cs cs')
    (T T' : ℕ → K) (hT : ∀ k, k < n → T k ≤ T' k) :
    ∃ U U', runColumn T cs = some U ∧ runColumn T' cs' = some U' ∧ ∀ k, k < n → U k ≤ U' k := by
  induction h generalizing T T' with
  | nil => exact ⟨T, T', rfl, rfl, hT⟩
  | cons a _ ih =>
    obtain ⟨p, rfl, s, hf, hb⟩ := a
    obtain ⟨x, x', e, e', g⟩ := C158_step _ _ (physical_temp p T) (with_temp s T T') hT hb hf
    obtain ⟨U, U', f, f', q⟩ := ih _ _ g
    exact ⟨U, U', by simp [runColumn, e, f], by simp [runColumn, e', f'], q⟩

/-- **C158.** With the same surface heat flux the temperatures of two columns never differ by more
than they did at the beginning (or the bottom temperatures do). -/
theorem C158_differences (n : ℕ) (cs cs' : List (Column K)) (M : K)
    (h : List.Forall₂ (fun c c' => Physical c ∧ c.N = n ∧ SameColumn c c' ∧ c.flux = c'.flux ∧
      |c'.Tbottom - c.Tbottom| ≤ M) cs cs')
    (T T' : ℕ → K) (hT : ∀ k, k < n → |T' k - T k| ≤ M) :
    ∃ U U', runColumn T cs = some U ∧ runColumn T' cs' = some U' ∧
      ∀ k, k < n → |U' k - U k| ≤ M := by
  induction h generalizing T T' with
  | nil => exact ⟨T, T', rfl, rfl, hT⟩
  | @cons c c' _ _ a _ ih =>
    obtain ⟨p, rfl, s, hf, hb⟩ := a
    have p1 := physical_temp p T
    have s1 := with_temp s T T'
    obtain ⟨x, hx, -⟩ := C21_layer_energy_balance _ p1
    obtain ⟨x', hx', -⟩ := C21_layer_energy_balance _ (same_physical s1 p1)
    have hb' := abs_le.1 hb
    have lo := difference_ge _ _ p1 s1 (-M) (fun k hk => (abs_le.1 (hT k hk)).1) hb'.1 hf.le x x' hx hx'
    have up := difference_ge _ _ (same_physical s1 p1) s1.symm (-M)
      (fun k hk => by
        have := (abs_le.1 (hT k (by have := s.N; simp only at hk; omega))).2
        simp only
        linarith)
      (by simp only; linarith [hb'.2]) hf.ge x' x hx' hx
    obtain ⟨U, U', f, f', q⟩ := ih (newTemp { c with T := T } x) (newTemp { c' with T := T' } x')
      (fun k hk => abs_le.2 ⟨lo k hk, by
        have := up k (by have := s.N; simp only; omega)
        linarith⟩)
    exact ⟨U, U', by simp [runColumn, hx, f], by simp [runColumn, hx', f'], q⟩

/-- **C158.** An additional surface heat flux cools no layer and stores at most the energy it
supplies in the time step. -/
theorem C158_heat (c : Column K) (h : Physical c) (extra : K) (he : 0 ≤ extra) :
    ∃ x x', tempChange c = some x ∧ tempChange { c with flux := c.flux + extra } = some x' ∧
      (∀ k, k < c.N → x.getD k 0 ≤ x'.getD k 0) ∧
      ∑ k ∈ range c.N, c.hc k * (x'.getD k 0 - x.getD k 0) ≤ extra * c.dt := by
  have s : SameColumn c { c with flux := c.flux + extra } :=
    ⟨rfl, rfl, fun _ _ => rfl, fun _ _ => rfl, fun _ _ => rfl, rfl, rfl⟩
  obtain ⟨x, x', hx, hx', g⟩ := C158_step c { c with flux := c.flux + extra } h s (fun _ _ => le_rfl)
    le_rfl (by simp only; linarith)
  have g' : ∀ k, k < c.N → x.getD k 0 ≤ x'.getD k 0 := by
    intro k hk
    have := g k hk
    simp only [newTemp] at this
    linarith
  refine ⟨x, x', hx, hx', g', ?_⟩
  have b := C21_column_energy_balance c h x hx
  have b' := C21_column_energy_balance _ (same_physical s h) x' hx'
  simp only [mul_sub, sum_sub_distrib]
  simp only at b'
  rw [b, b']
  have hN := h.layers
  have hl : c.N - 1 < c.N := by omega
  have hr : 0 < c.dx (c.N - 1) / 2 / c.lam (c.N - 1) + c.dxBottom / 2 / c.lamBottom := by
    have := h.dx _ hl
    have := h.lam _ hl
    have := h.dxBottom
    have := h.lamBottom
    positivity
  have hd := div_le_div_of_nonneg_right (sub_le_sub_right (g _ hl) c.Tbottom) hr.le
  have := mul_le_mul_of_nonneg_left hd h.dt.le
  simp only [newTemp] at this ⊢
  linarith

/-- Thermal properties and surface heat flux of a soil in a time step, by layer and pixel. -/
structure SoilDrive (ι K : Type*) where
  lam : ℕ → ι → K
  hc : ℕ → ι → K
  flux : ι → K

/-- A run of the soil temperatures of all pixels, `soil.py:215-244` time step by time step. -/
def runSoil {ι : Type*} (N : ℕ) (dx : ℕ → ι → K) (dt : K) (T : ℕ → ι → K) :
    List (SoilDrive ι K) → ℕ → ι → K
  | [] => T
  | d :: ds => runSoil N dx dt (Soil.soilTemperature N dx T d.lam d.hc dt d.flux) ds

/-- **C158.** Soil temperatures of all pixels (array version, bottom temperature taken from the lowest
layer): a pixel that is nowhere colder and gets no less heat from above is nowhere colder at the end
of a run. -/
theorem C158_soil {ι : Type*} (N : ℕ) (hN : 0 < N) (dx : ℕ → ι → K) (dt : K) (hdt : 0 < dt) (i : ι)
    (hdx : ∀ k, k < N → 0 < dx k i) (ds ds' : List (SoilDrive ι K))
    (h : List.Forall₂ (fun d d' => (∀ k, k < N → 0 < d.lam k i ∧ 0 < d.hc k i ∧
      d'.lam k i = d.lam k i ∧ d'.hc k i = d.hc k i) ∧ d.flux i ≤ d'.flux i) ds ds')
    (T T' : ℕ → ι → K) (hT : ∀ k, k < N → T k i ≤ T' k i) :
    ∀ k, k < N → runSoil N dx dt T ds k i ≤ runSoil N dx dt T' ds' k i := by
  induction h generalizing T T' with
  | nil => exact hT
  | @cons d d' _ _ a _ ih =>
    obtain ⟨p, hf⟩ := a
    refine ih _ _ ?_
    have hl : N - 1 < N := by omega
    have ph : Physical (Soil.column N (fun k => dx k i) (fun k => T k i) (fun k => d.lam k i)
        (fun k => d.hc k i) dt (d.flux i)) :=
      ⟨hN, hdt, hdx, fun k hk => (p k hk).1, fun k hk => (p k hk).2.1, hdx _ hl, (p _ hl).1⟩
    have s : SameColumn (Soil.column N (fun k => dx k i) (fun k => T k i) (fun k => d.lam k i)
        (fun k => d.hc k i) dt (d.flux i)) (Soil.column N (fun k => dx k i) (fun k => T' k i)
        (fun k => d'.lam k i) (fun k => d'.hc k i) dt (d'.flux i)) :=
      ⟨rfl, rfl, fun _ _ => rfl, fun k hk => (p k hk).2.2.1, fun k hk => (p k hk).2.2.2, rfl,
        (p _ hl).2.2.1⟩
    obtain ⟨x, x', e, e', g⟩ := C158_step _ _ ph s hT (hT _ hl) hf
    obtain ⟨y, f, -, w⟩ := Soil.C82_field N dx T d.lam d.hc dt d.flux i ph
    obtain ⟨y', f', -, w'⟩ := Soil.C82_field N dx T' d'.lam d'.hc dt d'.flux i (same_physical s ph)
    obtain rfl : x = y := Option.some.inj (e.symm.trans f)
    obtain rfl : x' = y' := Option.some.inj (e'.symm.trans f')
    intro k hk
    rw [w k hk, w' k hk]
    exact g k hk

/-! ## Examples -/

/-- Three soil layers. -/
def exColumn : Column ℚ where
  N := 3
  dx := fun _ => 1 / 10
  T := fun _ => 273
  lam := fun _ => 1
  hc := fun _ => 100000
  dt := 3600
  Tbottom := 275
  dxBottom := 1 / 10
  lamBottom := 1
  flux := 10

theorem exColumn_physical : Physical exColumn :=
  ⟨by decide, by norm_num [exColumn], fun _ _ => by norm_num [exColumn],
   fun _ _ => by norm_num [exColumn], fun _ _ => by norm_num [exColumn], by norm_num [exColumn],
   by norm_num [exColumn]⟩

example : List.Forall₂ (WarmerStep 3) [exColumn, exColumn]
    [{ exColumn with flux := 30 }, { exColumn with Tbottom := 276 }] :=
  .cons ⟨exColumn_physical, rfl, ⟨rfl, rfl, fun _ _ => rfl, fun _ _ => rfl, fun _ _ => rfl, rfl, rfl⟩,
      by norm_num [exColumn], le_rfl⟩
    (.cons ⟨exColumn_physical, rfl,
      ⟨rfl, rfl, fun _ _ => rfl, fun _ _ => rfl, fun _ _ => rfl, rfl, rfl⟩, le_rfl,
      by norm_num [exColumn]⟩ .nil)

example : (tempChange exColumn).map (fun x => x.length) = some 3 ∧
    tempChange exColumn ≠ tempChange { exColumn with flux := 30 } := by
  decide +kernel

example : let d : SoilDrive Unit ℚ := ⟨fun _ _ => 1, fun _ _ => 100000, fun _ => 10⟩
    runSoil 2 (fun _ _ => 1 / 10) 3600 (fun _ _ => 273) [d] 0 () <
      runSoil 2 (fun _ _ => 1 / 10) 3600 (fun _ _ => 273) [{ d with flux := fun _ => 30 }] 0 () := by
  decide +kernel

end Verif.HeatComparison
