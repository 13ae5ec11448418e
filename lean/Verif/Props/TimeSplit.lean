import Verif.Props.CryoMass
import Verif.Props.Snow
import Mathlib.Tactic.Positivity

/-!
# C152: splitting a time step

Specification: `repeated f n` does `n` steps one after the other and adds up what they report.
-/

set_option linter.unusedSectionVars false

namespace Verif.TimeSplit

open Verif.Cryo
open Verif.MultiLayer (LwcMethod maxLwc)

section spec
variable {K σ : Type*} [Field K] [LinearOrder K] [IsStrictOrderedRing K]

/-- Specification: `n` steps, their total and the final state. -/
def repeated (f : σ → K × σ) : ℕ → σ → K × σ
  | 0, p => (0, p)
  | n + 1, p => ((f p).1 + (repeated f n (f p).2).1, (repeated f n (f p).2).2)

/-- A process whose step of length `s + t` is the step of length `t` after that of length `s` can be split into any
number of equal steps. -/
theorem repeated_flow (f : K → σ → K × σ) (I : σ → Prop) (hI : ∀ t p, 0 < t → I p → I (f t p).2)
    (hadd : ∀ s t p, 0 < s → 0 < t → I p →
      f (s + t) p = ((f s p).1 + (f t (f s p).2).1, (f t (f s p).2).2))
    (dt : K) (hdt : 0 < dt) (n : ℕ) (hn : 0 < n) (p : σ) (hp : I p) :
    repeated (f (dt / n)) n p = f dt p := by
  have hn' : (0 : K) < n := by exact_mod_cast hn
  have hh : 0 < dt / n := by positivity
  have key : ∀ (k : ℕ) (p : σ), I p → repeated (f (dt / n)) (k + 1) p = f ((k + 1 : ℕ) * (dt / n)) p := by
    intro k
    induction k with
    | zero => intro p _; simp [repeated]
    | succ k ih =>
      intro p hp
      rw [repeated, ih _ (hI _ _ hh hp)]
      have e : ((k + 1 + 1 : ℕ) : K) * (dt / n) = dt / n + ((k + 1 : ℕ) : K) * (dt / n) := by push_cast; ring
      rw [e, hadd _ _ _ hh (by positivity) hp]
  obtain ⟨k, rfl⟩ : ∃ k, n = k + 1 := ⟨n - 1, by omega⟩
  rw [key k p hp]
  congr 1
  field_simp

/-- Without amounts: iteration. -/
theorem iterate_flow (g : K → σ → σ) (I : σ → Prop) (hI : ∀ t p, 0 < t → I p → I (g t p))
    (hadd : ∀ s t p, 0 < s → 0 < t → I p → g (s + t) p = g t (g s p))
    (dt : K) (hdt : 0 < dt) (n : ℕ) (hn : 0 < n) (p : σ) (hp : I p) : (g (dt / n))^[n] p = g dt p := by
  have h := repeated_flow (fun t q => ((0 : K), g t q)) I hI (fun s t p hs ht hp => by simp [hadd s t p hs ht hp])
    dt hdt n hn p hp
  have key : ∀ (k : ℕ) (q : σ), (repeated (fun q => ((0 : K), g (dt / n) q)) k q).2 = (g (dt / n))^[k] q := by
    intro k
    induction k with
    | zero => intro q; rfl
    | succ k ih => intro q; rw [repeated, Function.iterate_succ_apply, ← ih]
  rw [← key, h]

end spec

/-! ## Layers -/

section cryo
variable {K : Type*} [Field K] [LinearOrder K] [IsStrictOrderedRing K]

namespace aux

theorem meltLayer_add (s t : K) (L : CLayer K) (hs : 0 ≤ s) (ht : 0 ≤ t) (hL : L.Nonneg) :
    meltLayer (s + t) L =
      ((meltLayer s L).1 + (meltLayer t (meltLayer s L).2).1, (meltLayer t (meltLayer s L).2).2) := by
  obtain ⟨h1, h2, h3⟩ := hL
  rcases hs.eq_or_lt with rfl | hs
  · simp [meltLayer]
  rcases ht.eq_or_lt with rfl | ht
  · simp only [add_zero, meltLayer, lt_irrefl, false_and, if_false]
  rcases h2.eq_or_lt with hi | hi
  · simp [meltLayer, ← hi]
  · have e1 : meltLayer s L = (s - min s L.ice,
        { L with thick := L.thick * (1 - min s L.ice / L.ice), ice := L.ice - min s L.ice, lwc := L.lwc + min s L.ice }) := by
      simp only [meltLayer, hs, hi, and_self, if_true]
    have e2 : meltLayer (s + t) L = (s + t - min (s + t) L.ice,
        { L with thick := L.thick * (1 - min (s + t) L.ice / L.ice), ice := L.ice - min (s + t) L.ice,
                 lwc := L.lwc + min (s + t) L.ice }) := by
      have : 0 < s + t := by linarith
      simp only [meltLayer, this, hi, and_self, if_true]
    rw [e1, e2]
    rcases le_or_gt L.ice s with h | h
    · rw [min_eq_right h, min_eq_right (by linarith : L.ice ≤ s + t)]
      simp only [meltLayer, sub_self, lt_irrefl, and_false, if_false]
      simp only [Prod.mk.injEq, and_true]
      ring
    · rw [min_eq_left h.le]
      have hp : 0 < L.ice - s := by linarith
      simp only [meltLayer, ht, hp, and_self, if_true]
      rcases le_total (s + t) L.ice with h' | h'
      · rw [min_eq_left h', min_eq_left (by linarith : t ≤ L.ice - s)]
        simp only [Prod.mk.injEq, CLayer.mk.injEq, and_true]
        refine ⟨by ring, ?_, by ring, by ring⟩
        field_simp
        ring
      · rw [min_eq_right h', min_eq_right (by linarith : L.ice - s ≤ t)]
        simp only [Prod.mk.injEq, CLayer.mk.injEq, and_true]
        refine ⟨by ring, ?_, by ring, by ring⟩
        rw [div_self hi.ne', div_self hp.ne']
        ring

theorem sublLayer_add (s t : K) (L : CLayer K) (hs : 0 ≤ s) (ht : 0 ≤ t) (hL : L.Nonneg) :
    sublLayer (s + t) L =
      ((sublLayer s L).1 + (sublLayer t (sublLayer s L).2).1, (sublLayer t (sublLayer s L).2).2) := by
  obtain ⟨h1, h2, h3⟩ := hL
  rcases hs.eq_or_lt with rfl | hs
  · simp [sublLayer]
  rcases ht.eq_or_lt with rfl | ht
  · simp only [add_zero, sublLayer, lt_irrefl, false_and, if_false]
  rcases h2.eq_or_lt with hi | hi
  · simp [sublLayer, ← hi]
  · have e1 : sublLayer s L = (s - min s L.ice,
        { L with thick := L.thick * (1 - min s L.ice / L.ice), ice := L.ice - min s L.ice }) := by
      simp only [sublLayer, hs, hi, and_self, if_true]
    have e2 : sublLayer (s + t) L = (s + t - min (s + t) L.ice,
        { L with thick := L.thick * (1 - min (s + t) L.ice / L.ice), ice := L.ice - min (s + t) L.ice }) := by
      have : 0 < s + t := by linarith
      simp only [sublLayer, this, hi, and_self, if_true]
    rw [e1, e2]
    rcases le_or_gt L.ice s with h | h
    · rw [min_eq_right h, min_eq_right (by linarith : L.ice ≤ s + t)]
      simp only [sublLayer, sub_self, lt_irrefl, and_false, if_false]
      simp only [Prod.mk.injEq, and_true]
      ring
    · rw [min_eq_left h.le]
      have hp : 0 < L.ice - s := by linarith
      simp only [sublLayer, ht, hp, and_self, if_true]
      rcases le_total (s + t) L.ice with h' | h'
      · rw [min_eq_left h', min_eq_left (by linarith : t ≤ L.ice - s)]
        simp only [Prod.mk.injEq, CLayer.mk.injEq, and_true]
        refine ⟨by ring, ?_, by ring⟩
        field_simp
        ring
      · rw [min_eq_right h', min_eq_right (by linarith : L.ice - s ≤ t)]
        simp only [Prod.mk.injEq, CLayer.mk.injEq, and_true]
        refine ⟨by ring, ?_, by ring⟩
        rw [div_self hi.ne', div_self hp.ne']
        ring

theorem meltLayer_rest {d : K} {L : CLayer K} (hd : 0 ≤ d) (hL : L.Nonneg) :
    0 ≤ (meltLayer d L).1 ∧ (meltLayer d L).2.Nonneg := by
  obtain ⟨e, -, -, -, -, -, hn, -⟩ := Cryo.meltLayer_spec d L hd hL
  exact ⟨by rw [e]; exact sub_nonneg.2 (min_le_left _ _), hn⟩

theorem sublLayer_rest {d : K} {L : CLayer K} (hd : 0 ≤ d) (hL : L.Nonneg) :
    0 ≤ (sublLayer d L).1 ∧ (sublLayer d L).2.Nonneg := by
  obtain ⟨e, -, -, -, -, -, hn, -⟩ := Cryo.sublLayer_spec d L hd hL
  exact ⟨by rw [e]; exact sub_nonneg.2 (min_le_left _ _), hn⟩

theorem melt_add (s t : K) (p : CPixel K) (hs : 0 ≤ s) (ht : 0 ≤ t) (hp : p.Nonneg) :
    melt (s + t) p = melt t (melt s p) := by
  obtain ⟨hn, ho, hf, hi⟩ := hp
  have a1 := meltLayer_rest hs hn
  have a2 := meltLayer_rest ht a1.2
  have b1 := meltLayer_rest a1.1 ho
  have b2 := meltLayer_rest a2.1 b1.2
  have c1 := meltLayer_rest b1.1 hf
  have c2 := meltLayer_rest b2.1 c1.2
  simp only [melt]
  rw [meltLayer_add s t p.new hs ht hn]
  simp only
  rw [meltLayer_add _ _ p.old a1.1 a2.1 ho]
  simp only
  rw [meltLayer_add _ _ p.firn b1.1 b2.1 hf]
  simp only
  rw [meltLayer_add _ _ p.ice c1.1 c2.1 hi]

theorem sublLoop_add (s t : K) (p : CPixel K) (hs : 0 ≤ s) (ht : 0 ≤ t) (hp : p.Nonneg) :
    sublLoop (s + t) p = ((sublLoop s p).1 + (sublLoop t (sublLoop s p).2).1, (sublLoop t (sublLoop s p).2).2) := by
  obtain ⟨hn, ho, hf, hi⟩ := hp
  have a1 := sublLayer_rest hs hn
  have a2 := sublLayer_rest ht a1.2
  have b1 := sublLayer_rest a1.1 ho
  have b2 := sublLayer_rest a2.1 b1.2
  have c1 := sublLayer_rest b1.1 hf
  have c2 := sublLayer_rest b2.1 c1.2
  simp only [sublLoop]
  rw [sublLayer_add s t p.new hs ht hn]
  simp only
  rw [sublLayer_add _ _ p.old a1.1 a2.1 ho]
  simp only
  rw [sublLayer_add _ _ p.firn b1.1 b2.1 hf]
  simp only
  rw [sublLayer_add _ _ p.ice c1.1 c2.1 hi]

theorem runoffLayer_add (r r' cap : K) (L : CLayer K) (hr' : 0 ≤ r') (hc : 0 ≤ cap)
    (hL : L.Nonneg) (hr : 0 ≤ r) :
    runoffLayer (r + r') cap L = ((runoffLayer r cap L).1 + (runoffLayer r' cap (runoffLayer r cap L).2).1,
      (runoffLayer r' cap (runoffLayer r cap L).2).2) ∧ 0 ≤ (runoffLayer r cap L).1 ∧
    (runoffLayer r cap L).2.Nonneg ∧ (runoffLayer r cap L).2.thick = L.thick ∧
    (runoffLayer r cap L).2.ice = L.ice := by
  obtain ⟨h1, h2, h3⟩ := hL
  by_cases h : 0 < L.ice + L.lwc
  · have e : ∀ x, runoffLayer x cap L = (max (L.lwc + x - cap) 0, { L with lwc := L.lwc + x - max (L.lwc + x - cap) 0 }) := by
      intro x; simp only [runoffLayer, h, if_true]
    rw [e r, e (r + r')]
    refine ⟨?_, le_max_right _ _, ⟨h1, h2, ?_⟩, rfl, rfl⟩
    · rcases le_total (L.lwc + r) cap with hle | hle
      · rw [max_eq_right (by linarith : L.lwc + r - cap ≤ 0)]
        simp only [runoffLayer, sub_zero]
        have h4 : 0 < L.ice + (L.lwc + r) := by linarith
        rw [if_pos h4]
        simp only [Prod.mk.injEq, CLayer.mk.injEq, and_true, true_and, zero_add]
        rw [show L.lwc + (r + r') = L.lwc + r + r' by ring]
        exact ⟨rfl, rfl⟩
      · rw [max_eq_left (by linarith : 0 ≤ L.lwc + r - cap), max_eq_left (by linarith : 0 ≤ L.lwc + (r + r') - cap)]
        have hl : L.lwc + r - (L.lwc + r - cap) = cap := by ring
        simp only [runoffLayer, hl]
        split_ifs with h4
        · rw [max_eq_left (by linarith : 0 ≤ cap + r' - cap)]
          simp only [Prod.mk.injEq, CLayer.mk.injEq, and_true, true_and]
          exact ⟨by ring, by ring⟩
        · simp only [Prod.mk.injEq, CLayer.mk.injEq, and_true, true_and]
          exact ⟨by ring, by ring⟩
    · simp only
      rcases le_total (L.lwc + r) cap with hle | hle
      · rw [max_eq_right (by linarith)]; linarith
      · rw [max_eq_left (by linarith)]; linarith
  · have e : ∀ x, runoffLayer x cap L = (x, L) := by intro x; simp only [runoffLayer, h, if_false]
    simp only [e]
    exact ⟨trivial, hr, ⟨h1, h2, h3⟩, trivial, trivial⟩

/-- Layers without ice do not melt. -/
theorem melt_no_ice (d : K) (p : CPixel K) (hp : p.Nonneg) (h : p.iceSum = 0) : melt d p = p := by
  obtain ⟨hn, ho, hf, hi⟩ := hp
  have h1 := hn.ice; have h2 := ho.ice; have h3 := hf.ice; have h4 := hi.ice
  simp only [CPixel.iceSum] at h
  have e1 : p.new.ice = 0 := by linarith
  have e2 : p.old.ice = 0 := by linarith
  have e3 : p.firn.ice = 0 := by linarith
  have e4 : p.ice.ice = 0 := by linarith
  simp only [melt, meltLayer, e1, e2, e3, e4, lt_irrefl, and_false, if_false]

theorem melt_zero (p : CPixel K) : melt 0 p = p := by
  simp only [melt, meltLayer, lt_irrefl, false_and, if_false]

theorem subl_no_ice (d : K) (p : CPixel K) (hp : p.Nonneg) (h : p.iceSum = 0) : sublLoop d p = (d, p) := by
  obtain ⟨hn, ho, hf, hi⟩ := hp
  have h1 := hn.ice; have h2 := ho.ice; have h3 := hf.ice; have h4 := hi.ice
  simp only [CPixel.iceSum] at h
  have e1 : p.new.ice = 0 := by linarith
  have e2 : p.old.ice = 0 := by linarith
  have e3 : p.firn.ice = 0 := by linarith
  have e4 : p.ice.ice = 0 := by linarith
  simp only [sublLoop, sublLayer, e1, e2, e3, e4, lt_irrefl, and_false, if_false]

theorem iceSum_nonneg {p : CPixel K} (hp : p.Nonneg) : 0 ≤ p.iceSum := by
  have h1 := hp.new.ice; have h2 := hp.old.ice; have h3 := hp.firn.ice; have h4 := hp.ice.ice
  simp only [CPixel.iceSum]; linarith

theorem melt_all (d : K) (p : CPixel K) (hp : p.Nonneg) : melt (min d p.iceSum) p = melt d p := by
  rcases le_total d p.iceSum with h | h
  · rw [min_eq_left h]
  · rw [min_eq_right h]
    have hS := iceSum_nonneg hp
    have e : d = p.iceSum + (d - p.iceSum) := by ring
    rw [e, melt_add _ _ p hS (by linarith) hp]
    have hx := C28_melt p.iceSum p hS hp
    simp only at hx
    obtain ⟨-, -, -, -, -, -, -, -, h1, -, h2, -⟩ := hx
    rw [melt_no_ice _ _ h2 (by rw [h1, min_self, sub_self])]

theorem min_split (x y S : K) (hy : 0 ≤ y) :
    min (x + y) S = min x S + min y (S - min x S) := by
  rcases le_total x S with h | h
  · rw [min_eq_left h]
    rcases le_total (x + y) S with h' | h'
    · rw [min_eq_left h', min_eq_left (by linarith)]
    · rw [min_eq_right h', min_eq_right (by linarith)]; ring
  · rw [min_eq_right h, min_eq_right (by linarith : S ≤ x + y), sub_self, min_eq_right hy, add_zero]

/-- Melt per second by the temperature index. -/
def rate (m : TiMethod) (ddf albFactor threshold temp albedo swIn : K) : K :=
  match m with
  | .temperatureIndex => max (ddf * max (temp - threshold) 0) 0 / (3600 * 24)
  | .enhanced =>
    if temp - threshold ≤ 0 then 0
    else max (ddf * (temp - threshold) + albFactor * (1 - albedo) * swIn) 0 / (3600 * 24)

theorem rate_nonneg (m : TiMethod) (ddf albFactor threshold temp albedo swIn : K) :
    0 ≤ rate m ddf albFactor threshold temp albedo swIn := by
  unfold rate
  cases m
  · exact div_nonneg (le_max_right _ _) (by norm_num)
  · simp only
    split_ifs
    · exact le_rfl
    · exact div_nonneg (le_max_right _ _) (by norm_num)

theorem max_mul (a c : K) (hc : 0 ≤ c) : max (a * c) 0 = max a 0 * c := by
  rcases le_total a 0 with h | h
  · rw [max_eq_right h, max_eq_right (mul_nonpos_of_nonpos_of_nonneg h hc), zero_mul]
  · rw [max_eq_left h, max_eq_left (mul_nonneg h hc)]

/-- The pixel has thickness where it has ice. -/
def Thick (p : CPixel K) : Prop := ∀ L ∈ [p.new, p.old, p.firn, p.ice], 0 < L.ice → 0 < L.thick

theorem tiMelt_eq (m : TiMethod) (ddf albFactor threshold temp albedo swIn t : K) (ht : 0 < t) (p : CPixel K)
    (hp : p.Nonneg) (hth : Thick p) :
    tiMelt m t ddf albFactor threshold temp albedo swIn p =
      min (rate m ddf albFactor threshold temp albedo swIn * t) p.iceSum := by
  have hr : 0 ≤ rate m ddf albFactor threshold temp albedo swIn * t :=
    mul_nonneg (rate_nonneg _ _ _ _ _ _ _) ht.le
  have hs : (0 : K) < t / (3600 * 24) := by positivity
  by_cases hd : 0 < p.depth
  · simp only [tiMelt, hd, if_true]
    congr 1
    cases m
    · simp only [rate]
      rw [max_mul (temp - threshold) _ hs.le, ← mul_assoc, max_mul _ _ hs.le]
      field_simp
    · simp only [rate]
      have : (temp - threshold) * (t / (3600 * 24)) ≤ 0 ↔ temp - threshold ≤ 0 := by
        constructor
        · intro h; by_contra hc; have := mul_pos (not_le.1 hc) hs; linarith
        · intro h; exact mul_nonpos_of_nonpos_of_nonneg h hs.le
      by_cases h : temp - threshold ≤ 0
      · rw [if_pos (this.2 h), if_pos h]; simp
      · rw [if_neg (fun k => h (this.1 k)), if_neg h]
        rw [show ddf * ((temp - threshold) * (t / (3600 * 24))) + albFactor * (1 - albedo) * swIn * (t / (3600 * 24)) =
          (ddf * (temp - threshold) + albFactor * (1 - albedo) * swIn) * (t / (3600 * 24)) by ring, max_mul _ _ hs.le]
        field_simp
  · simp only [tiMelt, hd, if_false]
    have h1 := hp.new.thick; have h2 := hp.old.thick; have h3 := hp.firn.thick; have h4 := hp.ice.thick
    simp only [CPixel.depth, not_lt] at hd
    have z : ∀ L ∈ [p.new, p.old, p.firn, p.ice], L.ice ≤ 0 := by
      intro L hL
      by_contra hc
      have := hth L hL (not_le.1 hc)
      simp only [List.mem_cons, List.not_mem_nil, or_false] at hL
      rcases hL with rfl | rfl | rfl | rfl <;> linarith
    have hS := iceSum_nonneg hp
    have : p.iceSum = 0 := by
      have z1 := z p.new (by simp); have z2 := z p.old (by simp)
      have z3 := z p.firn (by simp); have z4 := z p.ice (by simp)
      simp only [CPixel.iceSum] at hS ⊢
      linarith
    rw [this, min_eq_right hr]

theorem thick_melt {d : K} {L : CLayer K} (hd : 0 ≤ d) (hL : L.Nonneg) (h : 0 < L.ice → 0 < L.thick) :
    0 < (meltLayer d L).2.ice → 0 < (meltLayer d L).2.thick := by
  intro h0
  obtain ⟨-, e, -, -, -, -, hn, k, -⟩ := Cryo.meltLayer_spec d L hd hL
  have hm : 0 ≤ min d L.ice := le_min hd hL.ice
  have hi : 0 < L.ice := by linarith
  have : 0 < (meltLayer d L).2.thick * L.ice := by rw [k]; exact mul_pos (h hi) h0
  exact (mul_pos_iff_of_pos_right hi).1 this

theorem thick_pixel {d : K} {p : CPixel K} (hd : 0 ≤ d) (hp : p.Nonneg) (h : Thick p) : Thick (melt d p) := by
  obtain ⟨hn, ho, hf, hi⟩ := hp
  have a1 := meltLayer_rest hd hn
  have b1 := meltLayer_rest a1.1 ho
  have c1 := meltLayer_rest b1.1 hf
  intro L hL
  simp only [melt, List.mem_cons, List.not_mem_nil, or_false] at hL
  rcases hL with rfl | rfl | rfl | rfl
  · exact thick_melt hd hn (h _ (by simp))
  · exact thick_melt a1.1 ho (h _ (by simp))
  · exact thick_melt b1.1 hf (h _ (by simp))
  · exact thick_melt c1.1 hi (h _ (by simp))

theorem subl_pixel {d : K} {p : CPixel K} (hd : 0 ≤ d) (hp : p.Nonneg) :
    0 ≤ (sublLoop d p).1 ∧ (sublLoop d p).2.Nonneg ∧ (sublLoop d p).2.iceSum = p.iceSum - (d - (sublLoop d p).1) := by
  obtain ⟨hn, ho, hf, hi⟩ := hp
  have a1 := sublLayer_rest hd hn
  have b1 := sublLayer_rest a1.1 ho
  have c1 := sublLayer_rest b1.1 hf
  have d1 := sublLayer_rest c1.1 hi
  obtain ⟨x1, x2, -⟩ := Cryo.sublLayer_spec _ _ hd hn
  obtain ⟨y1, y2, -⟩ := Cryo.sublLayer_spec _ _ a1.1 ho
  obtain ⟨z1, z2, -⟩ := Cryo.sublLayer_spec _ _ b1.1 hf
  obtain ⟨w1, w2, -⟩ := Cryo.sublLayer_spec _ _ c1.1 hi
  refine ⟨d1.1, ⟨a1.2, b1.2, c1.2, d1.2⟩, ?_⟩
  simp only [sublLoop, CPixel.iceSum]
  linarith

/-- The amount left over after all layers. -/
theorem subl_left {d : K} {p : CPixel K} (hd : 0 ≤ d) (hp : p.Nonneg) : (sublLoop d p).1 = d - min d p.iceSum := by
  obtain ⟨hn, ho, hf, hi⟩ := hp
  have a1 := sublLayer_rest hd hn
  have b1 := sublLayer_rest a1.1 ho
  have c1 := sublLayer_rest b1.1 hf
  obtain ⟨x1, -⟩ := Cryo.sublLayer_spec _ _ hd hn
  obtain ⟨y1, -⟩ := Cryo.sublLayer_spec _ _ a1.1 ho
  obtain ⟨z1, -⟩ := Cryo.sublLayer_spec _ _ b1.1 hf
  obtain ⟨w1, -⟩ := Cryo.sublLayer_spec _ _ c1.1 hi
  have h1 := hn.ice; have h2 := ho.ice; have h3 := hf.ice; have h4 := hi.ice
  have key : ∀ x i : K, x - min x i = max (x - i) 0 := by
    intro x i
    rcases le_total x i with h | h
    · rw [min_eq_left h, max_eq_right (by linarith), sub_self]
    · rw [min_eq_right h, max_eq_left (by linarith)]
  have key2 : ∀ x i j : K, 0 ≤ j → max (max (x - i) 0 - j) 0 = max (x - (i + j)) 0 := by
    intro x i j hj
    rcases le_total (x - i) 0 with h | h
    · rw [max_eq_right h, max_eq_right (by linarith), max_eq_right (by linarith)]
    · rw [max_eq_left h, sub_sub]
  simp only [sublLoop, CPixel.iceSum]
  rw [w1, z1, y1, x1]
  simp only [key]
  rw [key2 _ _ _ h2, key2 _ _ _ h3, key2 _ _ _ h4]

theorem subl_all (d : K) (p : CPixel K) (hp : p.Nonneg) :
    (sublLoop (min d p.iceSum) p).2 = (sublLoop d p).2 := by
  rcases le_total d p.iceSum with h | h
  · rw [min_eq_left h]
  · rw [min_eq_right h]
    have hS := iceSum_nonneg hp
    have e : d = p.iceSum + (d - p.iceSum) := by ring
    obtain ⟨-, h2, h3⟩ := subl_pixel hS hp
    have h0 : (sublLoop p.iceSum p).2.iceSum = 0 := by
      rw [h3, subl_left hS hp, min_self]; ring
    conv_rhs => rw [e]
    rw [sublLoop_add _ _ p hS (by linarith) hp]
    simp only
    rw [subl_no_ice _ _ h2 h0]

theorem addSnow_add (single : Bool) (albMax density x y : K) (p : CPixel K) (hx : 0 < x) (hy : 0 < y)
    (hd : 0 < density) (hi : 0 ≤ p.new.ice) (ht : 0 ≤ p.new.thick) :
    addSnow single albMax density (x + y) p = addSnow single albMax density y (addSnow single albMax density x p) := by
  have hxy : 0 < x + y := by linarith
  have h1 : ¬ (p.new.ice + x = 0) := by
    have : 0 < p.new.ice + x := by linarith
    exact this.ne'
  have hxd : 0 < x / density := by positivity
  have hyd : 0 < y / density := by positivity
  have t2 : ¬ (p.new.thick + x / density + y / density = 0) := by
    have : 0 < p.new.thick + x / density + y / density := by linarith
    exact this.ne'
  have t3 : p.new.thick + (x + y) / density = p.new.thick + x / density + y / density := by rw [add_div]; ring
  by_cases h : p.new.ice = 0
  · simp only [addSnow, h, hx, hxy, h1, t3, t2, and_self, if_true, if_false, false_and, zero_add]
    simp only [hx.ne', false_and, if_false]
  · simp only [addSnow, h, h1, t3, t2, if_false, false_and, ← add_assoc]

theorem addSnow_nonneg (single : Bool) (albMax density x : K) (p : CPixel K) (hx : 0 < x) (hd : 0 < density)
    (hp : p.Nonneg) : (addSnow single albMax density x p).Nonneg := by
  obtain ⟨⟨h1, h2, h3⟩, ho, hf, hi⟩ := hp
  have : 0 ≤ x / density := by positivity
  exact ⟨⟨by simp only [addSnow]; linarith, by simp only [addSnow]; linarith, h3⟩, ho, hf, hi⟩

end aux

open aux

/-- **C152, temperature-index melt.** The layers after one step and the melt of the step are those of any number of
equal shorter steps. -/
theorem C152_melt (m : TiMethod) (ddf albFactor threshold temp albedo swIn dt : K) (hdt : 0 < dt) (n : ℕ) (hn : 0 < n)
    (p : CPixel K) (hp : p.Nonneg)
    (hth : ∀ L ∈ [p.new, p.old, p.firn, p.ice], 0 < L.ice → 0 < L.thick) :
    let step (t : K) (q : CPixel K) : K × CPixel K :=
      (tiMelt m t ddf albFactor threshold temp albedo swIn q,
        melt (tiMelt m t ddf albFactor threshold temp albedo swIn q) q)
    repeated (step (dt / n)) n p = step dt p := by
  intro step
  have hrate := rate_nonneg m ddf albFactor threshold temp albedo swIn
  set r := rate m ddf albFactor threshold temp albedo swIn with hr
  have e : ∀ t q, 0 < t → q.Nonneg → Thick q → step t q = (min (r * t) q.iceSum, melt (r * t) q) := by
    intro t q ht hq hth
    simp only [step, tiMelt_eq _ _ _ _ _ _ _ _ ht q hq hth]
    rw [← hr, melt_all _ _ hq]
  refine repeated_flow step (fun q => q.Nonneg ∧ Thick q) ?_ ?_ dt hdt n hn p ⟨hp, hth⟩
  · rintro t q ht ⟨hq, hqt⟩
    rw [e t q ht hq hqt]
    have hx := C28_melt (r * t) q (mul_nonneg hrate ht.le) hq
    simp only at hx
    exact ⟨hx.2.2.2.2.2.2.2.2.2.2.1, thick_pixel (mul_nonneg hrate ht.le) hq hqt⟩
  · rintro s t q hs ht ⟨hq, hqt⟩
    have hs' := mul_nonneg hrate hs.le
    have ht' := mul_nonneg hrate ht.le
    have hx := C28_melt (r * s) q hs' hq
    simp only at hx
    obtain ⟨-, -, -, -, -, -, -, -, hS, -, hN, -⟩ := hx
    rw [e _ q (add_pos hs ht) hq hqt, e s q hs hq hqt]
    simp only
    rw [e t _ ht hN (thick_pixel hs' hq hqt)]
    simp only
    rw [hS, mul_add, min_split _ _ _ ht', melt_add _ _ q hs' ht' hq]

/-- **C152, sublimation and deposition.** The same for a constant moisture flux in either direction. -/
theorem C152_sublimation (density albMax dt : K) (single : Bool) (flux : Option K) (hd : 0 < density) (hdt : 0 < dt)
    (n : ℕ) (hn : 0 < n) (p : CPixel K) (hp : p.Nonneg) :
    repeated (sublimation (dt / n) density albMax single flux) n p = sublimation dt density albMax single flux p := by
  have loss : ∀ (x : K) (t : K) (q : CPixel K), 0 ≤ x → q.Nonneg → nanToZero (flux.map fun f => -1 * f * t) = x →
      sublimation t density albMax single flux q = (min x q.iceSum, (sublLoop x q).2) := by
    intro x t q hx hq he
    have hS := iceSum_nonneg hq
    have h1 : (if 0 < q.iceSum then min x q.iceSum else 0) = min x q.iceSum := by
      split_ifs with h
      · rfl
      · rw [le_antisymm (not_lt.1 h) hS, min_eq_right hx]
    have h2 := (subl_pixel (le_min hx hS) hq).1
    simp only [sublimation, he, h1]
    rw [if_neg (not_lt.2 h2), subl_all x q hq]
  have lossy : ∀ e : K, 0 ≤ e → (∀ t, nanToZero (flux.map fun f => -1 * f * t) = e * t) →
      repeated (sublimation (dt / n) density albMax single flux) n p = sublimation dt density albMax single flux p := by
    intro e he heq
    refine repeated_flow (fun t => sublimation t density albMax single flux) (fun q => q.Nonneg) ?_ ?_ dt hdt n hn p hp
    · intro t q ht hq
      have h := mul_nonneg he ht.le
      simp only [loss _ t q h hq (heq t)]
      exact (subl_pixel h hq).2.1
    · intro s t q hs ht hq
      have h1 := mul_nonneg he hs.le
      have h2 := mul_nonneg he ht.le
      have k := subl_pixel h1 hq
      have hS : (sublLoop (e * s) q).2.iceSum = q.iceSum - min (e * s) q.iceSum := by
        rw [k.2.2, subl_left h1 hq]; ring
      simp only [loss _ (s + t) q (mul_nonneg he (add_pos hs ht).le) hq (heq _), loss _ s q h1 hq (heq _)]
      rw [loss _ t _ h2 k.2.1 (heq _)]
      simp only
      rw [hS, mul_add, min_split _ _ _ h2, sublLoop_add _ _ q h1 h2 hq]
  cases flux with
  | none => exact lossy 0 le_rfl (fun t => by simp [nanToZero])
  | some f =>
    rcases le_or_gt f 0 with hf | hf
    · exact lossy (-f) (by linarith) (fun t => by simp [nanToZero])
    · have gain : ∀ t q, 0 < t → q.Nonneg → sublimation t density albMax single (some f) q =
          if 0 < q.iceSum then (-(f * t), addSnow single albMax density (f * t) q) else (0, q) := by
        intro t q ht hq
        have hneg : -(f * t) < 0 := by have := mul_pos hf ht; linarith
        have hpot : nanToZero ((some f).map fun f => -1 * f * t) = -(f * t) := by simp [nanToZero]
        simp only [sublimation, hpot]
        split_ifs with h1 h2 h2
        · rw [min_eq_left (by linarith), Cryo.sublLoop_neg _ _ hneg.le]
          simp
        · exfalso
          rw [min_eq_left (by linarith), Cryo.sublLoop_neg _ _ hneg.le] at h2
          exact h2 hneg
        · exfalso
          rw [Cryo.sublLoop_neg _ _ le_rfl] at h2
          exact lt_irrefl _ h2
        · rw [Cryo.sublLoop_neg _ _ le_rfl]
      refine repeated_flow (fun t => sublimation t density albMax single (some f)) (fun q => q.Nonneg) ?_ ?_ dt hdt n
        hn p hp
      · intro t q ht hq
        simp only [gain t q ht hq]
        split_ifs
        · exact addSnow_nonneg single albMax density _ q (mul_pos hf ht) hd hq
        · exact hq
      · intro s t q hs ht hq
        simp only [gain _ q (add_pos hs ht) hq, gain s q hs hq]
        by_cases h : 0 < q.iceSum
        · have hN := addSnow_nonneg single albMax density _ q (mul_pos hf hs) hd hq
          have hS : 0 < (addSnow single albMax density (f * s) q).iceSum := by
            have := mul_pos hf hs
            simp only [CPixel.iceSum, addSnow] at h ⊢
            linarith
          simp only [if_pos h]
          rw [gain t _ ht hN, if_pos hS, mul_add,
            addSnow_add single albMax density _ _ q (mul_pos hf hs) (mul_pos hf ht) hd hq.new.ice hq.new.thick]
          simp only [Prod.mk.injEq, and_true]
          ring
        · simp only [if_neg h]
          rw [gain t q ht hq, if_neg h]
          simp

/-- **C152, snowfall.** The same for snow falling at a constant rate with a given density. -/
theorem C152_accumulation (single : Bool) (albMax density rate dt : K) (hd : 0 < density) (hdt : 0 < dt) (n : ℕ)
    (hn : 0 < n) (p : CPixel K) (hp : p.Nonneg) :
    (accumulation single albMax density (some (rate * (dt / n))))^[n] p =
      accumulation single albMax density (some (rate * dt)) p := by
  refine iterate_flow (fun t => accumulation single albMax density (some (rate * t))) (fun q => q.Nonneg) ?_ ?_ dt hdt
    n hn p hp
  · intro t q ht hq
    simp only [accumulation]
    split_ifs with h
    · exact addSnow_nonneg single albMax density _ q h hd hq
    · exact hq
  · intro s t q hs ht hq
    rcases le_or_gt rate 0 with h | h
    · have k : ∀ x, 0 < x → ¬ 0 < rate * x := fun x hx => not_lt.2 (mul_nonpos_of_nonpos_of_nonneg h hx.le)
      simp only [accumulation, k _ (add_pos hs ht), k _ hs, k _ ht, if_false]
    · have k : ∀ x, 0 < x → 0 < rate * x := fun x hx => mul_pos h hx
      simp only [accumulation, k _ (add_pos hs ht), k _ hs, k _ ht, if_true]
      rw [mul_add, addSnow_add single albMax density _ _ q (k _ hs) (k _ ht) hd hq.new.ice hq.new.thick]

/-- **C152, drainage.** Rain and liquid water drain from the layers in the same amounts. -/
theorem C152_runoff (m : LwcMethod) (maxFrac rain dt : K) (hr : 0 ≤ rain) (hdt : 0 < dt) (n : ℕ) (hn : 0 < n)
    (p : CPixel K) (hp : p.Nonneg) (hc1 : 0 ≤ maxLwc m maxFrac p.new.thick p.new.ice)
    (hc2 : 0 ≤ maxLwc m maxFrac p.old.thick p.old.ice) :
    repeated (runoff m maxFrac (some (rain * (dt / n)))) n p = runoff m maxFrac (some (rain * dt)) p := by
  refine repeated_flow (fun t => runoff m maxFrac (some (rain * t)))
    (fun q => q.Nonneg ∧ 0 ≤ maxLwc m maxFrac q.new.thick q.new.ice ∧ 0 ≤ maxLwc m maxFrac q.old.thick q.old.ice)
    ?_ ?_ dt hdt n hn p ⟨hp, hc1, hc2⟩
  · rintro t q ht ⟨⟨k1, k2, k3, k4⟩, c1, c2⟩
    have hx : 0 ≤ rain * t := by positivity
    obtain ⟨-, n1, n2, n3, n4⟩ := runoffLayer_add (rain * t) 0 _ q.new le_rfl c1 k1 hx
    obtain ⟨-, o1, o2, o3, o4⟩ := runoffLayer_add _ 0 _ q.old le_rfl c2 k2 n1
    obtain ⟨-, f1, f2, f3, f4⟩ := runoffLayer_add _ 0 0 q.firn le_rfl le_rfl k3 o1
    obtain ⟨-, i1, i2, i3, i4⟩ := runoffLayer_add _ 0 0 q.ice le_rfl le_rfl k4 f1
    refine ⟨⟨n2, o2, f2, i2⟩, ?_, ?_⟩
    · simp only [runoff, nanToZero, Option.getD_some]; rw [n3, n4]; exact c1
    · simp only [runoff, nanToZero, Option.getD_some]; rw [o3, o4]; exact c2
  · rintro s t q hs ht ⟨⟨k1, k2, k3, k4⟩, c1, c2⟩
    have hx : 0 ≤ rain * s := by positivity
    have hy : 0 ≤ rain * t := by positivity
    obtain ⟨n0, n1, n2, n3, n4⟩ := runoffLayer_add (rain * s) (rain * t) _ q.new hy c1 k1 hx
    obtain ⟨-, m1, -⟩ := runoffLayer_add (rain * t) 0 _ _ le_rfl c1 n2 hy
    obtain ⟨o0, o1, o2, o3, o4⟩ := runoffLayer_add _ _ _ q.old m1 c2 k2 n1
    obtain ⟨-, m2, -⟩ := runoffLayer_add _ 0 _ _ le_rfl c2 o2 m1
    obtain ⟨f0, f1, f2, f3, f4⟩ := runoffLayer_add _ _ 0 q.firn m2 le_rfl k3 o1
    obtain ⟨-, m3, -⟩ := runoffLayer_add _ 0 _ _ le_rfl le_rfl f2 m2
    obtain ⟨i0, i1, i2, i3, i4⟩ := runoffLayer_add _ _ 0 q.ice m3 le_rfl k4 f1
    simp only [runoff, nanToZero, mul_add, Option.getD_some]
    simp only [n0, n3, n4, o0, o3, o4, f0, i0]

end cryo

/-! ## Albedo and settling -/

section real
open Verif.Snow Real

namespace aux

theorem decay_add (c : AlbedoCfg) (s t : ℝ) (temp : Option ℝ) (a : ℝ) :
    decay c (s + t) temp a = decay c t temp (decay c s temp a) := by
  simp only [decay]
  rw [mul_add, exp_add]
  ring

end aux
open aux

/-- **C152, albedo.** Ageing and refreshing do not depend on the number of steps, with binary refresh always, with
continuous refresh if there is no snowfall or enough for a full refresh. Missing for the full claim: less snowfall
with continuous refresh (`C152_refresh_false`). -/
theorem C152_albedo_partial (c : AlbedoCfg) (temp : Option ℝ) (rate dt : ℝ) (hdt : 0 < dt)
    (h : c.refresh = .continuous → rate = 0 ∨ c.refreshSnowfall / 3600 ≤ rate ∧ 0 < c.refreshSnowfall) (n : ℕ) (hn : 0 < n)
    (a : Option ℝ) :
    (albedo c (dt / n) temp (some (rate * (dt / n))))^[n] a = albedo c dt temp (some (rate * dt)) a := by
  refine iterate_flow (fun t => albedo c t temp (some (rate * t))) (fun _ => True) (fun _ _ _ _ => trivial) ?_ dt hdt n hn
    a trivial
  intro s t a hs ht _
  have hr : ∀ x : ℝ, 0 < x → nanToZero ((some (rate * x)).map (· / x)) = rate := by
    intro x hx
    simp only [nanToZero, Option.map_some, Option.getD_some]
    field_simp
  simp only [albedo, hr _ (add_pos hs ht), hr _ hs, hr _ ht]
  cases hc : c.refresh with
  | binary =>
    simp only
    split_ifs
    · rfl
    · cases a <;> simp [decay_add]
  | continuous =>
    simp only
    rcases h hc with h0 | ⟨h0, h1⟩
    · subst h0
      by_cases hz : c.refreshSnowfall / 3600 = 0
      · simp [hz]
      · simp only [hz, false_and, if_false, zero_div]
        cases a <;> simp [decay_add]
    · have hpos : 0 < c.refreshSnowfall / 3600 := by positivity
      have hz : ¬ c.refreshSnowfall / 3600 = 0 := hpos.ne'
      have hm : Min.min 1 (rate / (c.refreshSnowfall / 3600)) = 1 := by
        rw [min_eq_left]; rw [le_div_iff₀ hpos]; linarith
      simp only [hz, false_and, if_false, hm]
      cases a <;> simp

/-- **C152 is false for continuous refresh at moderate snowfall.** Two half steps always leave the snow brighter than
one step. -/
theorem C152_refresh_false (c : AlbedoCfg) (temp : Option ℝ) (rate dt a : ℝ) (hdt : 0 < dt) (hc : c.refresh = .continuous)
    (hr : 0 < rate) (hlt : rate < c.refreshSnowfall / 3600) (hts : 0 < c.coldTimescale ∧ 0 < c.meltingTimescale)
    (hmin : c.min < c.max) (ha : c.min ≤ a) (ha' : a ≤ c.max) :
    ∃ x y, albedo c dt temp (some (rate * dt)) (some a) = some x ∧
      (albedo c (dt / 2) temp (some (rate * (dt / 2))))^[2] (some a) = some y ∧ x < y := by
  have hrate : ∀ x : ℝ, 0 < x → nanToZero ((some (rate * x)).map (· / x)) = rate := by
    intro x hx
    simp only [nanToZero, Option.map_some, Option.getD_some]
    field_simp
  have hpos : 0 < c.refreshSnowfall / 3600 := by linarith
  have hz : ¬ c.refreshSnowfall / 3600 = 0 := hpos.ne'
  have h2 : (0 : ℝ) < dt / 2 := by positivity
  have hτ : 0 < decayTimescale c temp := by
    unfold decayTimescale
    split
    · linarith [hts.1]
    · split_ifs
      · linarith [hts.2]
      · linarith [hts.1]
  set f := Min.min 1 (rate / (c.refreshSnowfall / 3600)) with hf
  have hf1 : f < 1 := by
    rw [hf]; exact (min_le_right _ _).trans_lt (by rw [div_lt_one hpos]; exact hlt)
  have hf0 : 0 < f := by rw [hf]; exact lt_min one_pos (by positivity)
  set q := exp (-1 / decayTimescale c temp * (dt / 2)) with hq
  have hq0 : 0 < q := exp_pos _
  have hq1 : q < 1 := by
    rw [hq, exp_lt_one_iff]
    have : 0 < 1 / decayTimescale c temp * (dt / 2) := by positivity
    have e : -1 / decayTimescale c temp * (dt / 2) = -(1 / decayTimescale c temp * (dt / 2)) := by ring
    linarith
  have hqq : exp (-1 / decayTimescale c temp * dt) = q * q := by
    rw [hq, ← exp_add]; congr 1; ring
  refine ⟨c.min + (a - c.min) * (q * q) + (c.max - (c.min + (a - c.min) * (q * q))) * f,
    c.min + (c.min + (a - c.min) * q + (c.max - (c.min + (a - c.min) * q)) * f - c.min) * q +
      (c.max - (c.min + (c.min + (a - c.min) * q + (c.max - (c.min + (a - c.min) * q)) * f - c.min) * q)) * f,
    ?_, ?_, ?_⟩
  · simp only [albedo, hc, hrate dt hdt, hz, false_and, if_false]
    simp only [Option.map_some, decay, hqq, ← hf]
  · simp only [Function.iterate_succ, Function.iterate_zero, Function.comp_apply, id_eq, albedo, hc, hrate _ h2, hz,
      false_and, if_false]
    simp only [Option.map_some, decay, ← hf, ← hq]
  · have hd : 0 < c.max - c.min - (a - c.min) * q := by
      have : (a - c.min) * q ≤ (c.max - c.min) * q := mul_le_mul_of_nonneg_right (by linarith) hq0.le
      have : (c.max - c.min) * q < (c.max - c.min) * 1 := mul_lt_mul_of_pos_left hq1 (by linarith)
      linarith
    have : 0 < (1 - f) * (q * f * (c.max - c.min - (a - c.min) * q)) := by
      have : 0 < 1 - f := by linarith
      positivity
    nlinarith

/-- **C152, empirical settling.** The layer after one step is that of any number of equal shorter steps. -/
theorem C152_settling (c : EmpiricalCfg) (hτ : 0 < c.timescale) (dt : ℝ) (hdt : 0 < dt) (n : ℕ) (hn : 0 < n) (L : DLayer)
    (hL : 0 < L.thick → 0 < L.ice + L.lwc) :
    (fun o : Option DLayer => o.bind (empiricalLayer c (dt / n)))^[n] (some L) = empiricalLayer c dt L := by
  have h := iterate_flow (fun t (o : Option DLayer) => o.bind (empiricalLayer c t))
    (fun o => ∀ L, o = some L → (0 < L.thick → 0 < L.ice + L.lwc)) ?_ ?_ dt hdt n hn (some L)
    (fun L' e => by rw [← Option.some.inj e]; exact hL)
  · simpa using h
  · intro t o ht ho L' hL'
    obtain ⟨L, rfl, hs⟩ := Option.bind_eq_some_iff.1 hL'
    have := ho L rfl
    simp only [empiricalLayer] at hs
    split_ifs at hs with h1 h2 h3
    · cases hs; intro _; exact this h1
    · cases hs; intro _; exact this h1
    · cases hs; exact this
  · intro s t o hs ht ho
    cases o with
    | none => rfl
    | some L =>
      have hm := ho L rfl
      simp only [Option.bind_some]
      by_cases h1 : 0 < L.thick
      · have hm := hm h1
        set m := L.ice + L.lwc with hmdef
        have hrho : 0 < m / L.thick := by positivity
        by_cases h2 : m / L.thick < maxDensity c L
        · set mx := maxDensity c L with hmx
          set rho := m / L.thick with hrhodef
          have low : ∀ x : ℝ, 0 < x → rho ≤ mx + (rho - mx) * exp (-x / c.timescale) ∧
              mx + (rho - mx) * exp (-x / c.timescale) < mx := by
            intro x hx
            have h0 := exp_pos (-x / c.timescale)
            have h1 : exp (-x / c.timescale) ≤ 1 := by
              rw [exp_le_one_iff, neg_div]
              have : 0 < x / c.timescale := by positivity
              linarith
            constructor
            · nlinarith
            · nlinarith
          have e : ∀ x : ℝ, 0 < x → empiricalLayer c x L = some { L with
              dens := some (mx + (rho - mx) * exp (-x / c.timescale)),
              thick := m / (mx + (rho - mx) * exp (-x / c.timescale)) } := by
            intro x hx
            have : ¬ mx + (rho - mx) * exp (-x / c.timescale) = 0 := by
              have := (low x hx).1
              have : 0 < mx + (rho - mx) * exp (-x / c.timescale) := by linarith
              exact this.ne'
            simp only [empiricalLayer, h1, if_true, ← hmdef, ← hmx, ← hrhodef, h2, this, if_false]
          rw [e _ (add_pos hs ht), e s hs]
          simp only [Option.bind_some]
          set r1 := mx + (rho - mx) * exp (-s / c.timescale) with hr1
          have hr1p : 0 < r1 := by have := (low s hs).1; linarith
          have hth : 0 < m / r1 := by positivity
          have hback : m / (m / r1) = r1 := by field_simp
          have hcomp : mx + (r1 - mx) * exp (-t / c.timescale) = mx + (rho - mx) * exp (-(s + t) / c.timescale) := by
            rw [hr1, show -(s + t) / c.timescale = -s / c.timescale + -t / c.timescale by ring, exp_add]
            ring
          have hne : ¬ mx + (rho - mx) * exp (-(s + t) / c.timescale) = 0 := by
            have := (low (s + t) (add_pos hs ht)).1
            have : 0 < mx + (rho - mx) * exp (-(s + t) / c.timescale) := by linarith
            exact this.ne'
          have hmx2 : maxDensity c { L with dens := some r1, thick := m / r1 } = mx := rfl
          have hl : r1 < mx := (low s hs).2
          simp only [empiricalLayer, hth, if_true, ← hmdef, hback, hmx2, hl, hcomp, hne, if_false]
        · have e : ∀ x, empiricalLayer c x L = some { L with dens := some (m / L.thick) } := by
            intro x
            simp only [empiricalLayer, h1, if_true, ← hmdef, h2, if_false]
          rw [e, e]
          simp only [Option.bind_some]
          have : maxDensity c { L with dens := some (m / L.thick) } = maxDensity c L := rfl
          simp only [empiricalLayer, h1, if_true, ← hmdef, this, h2, if_false]
      · have e : ∀ x, empiricalLayer c x L = some L := by
          intro x; simp only [empiricalLayer, h1, if_false]
        rw [e, e]; simp [e]

/-- A thin layer of fresh snow without load. -/
noncomputable def fluff : DLayer := ⟨1 / 10000, 1 / 100, 0, T0, some 100⟩

/-- **C152 is false for Anderson compaction.** Two steps of an hour and a half leave a thinner layer than one step of
three hours. -/
theorem C152_anderson_false : ∃ one half two, anderson 10800 (some T0) [fluff] = some [one] ∧
    anderson 5400 (some T0) [fluff] = some [half] ∧ anderson 5400 (some T0) [half] = some [two] ∧
    two.thick < one.thick := by
  set k := exp (-(21 / 1000) * 100) with hk
  have hk0 : 0 < k := exp_pos _
  have hk1 : k ≤ 1 := by rw [hk, exp_le_one_iff]; norm_num
  have rate : ∀ rho, rho ≤ 150 → andersonRate (some T0) (1 / 200) rho 0 =
      rho * (1 / 200000 * exp (-(21 / 1000) * rho) + 1 / 100) := by
    intro rho hrho
    have h1 : ¬ 150 < rho := not_lt.2 hrho
    simp only [andersonRate, h1, if_false, lt_irrefl, sub_self, mul_zero, exp_zero, zero_sub]
    rw [show -(21 / 1000 * rho) = -(21 / 1000) * rho by ring]
    ring
  have step : ∀ dtH th : ℝ, 0 < dtH → 0 < th → 1 / 100 / th ≤ 150 →
      andersonLoop dtH (some T0) 0 [⟨th, 1 / 100, 0, T0, some (1 / 100 / th)⟩] =
        some [⟨1 / 100 / (1 / 100 / th * (1 + (1 / 200000 * exp (-(21 / 1000) * (1 / 100 / th)) + 1 / 100) * dtH)),
          1 / 100, 0, T0,
          some (1 / 100 / th * (1 + (1 / 200000 * exp (-(21 / 1000) * (1 / 100 / th)) + 1 / 100) * dtH))⟩] := by
    intro dtH th hd hth hr
    have hrho : 0 < 1 / 100 / th := by positivity
    have hx := exp_pos (-(21 / 1000) * (1 / 100 / th))
    have hpos : 0 < 1 / 100 / th * (1 + (1 / 200000 * exp (-(21 / 1000) * (1 / 100 / th)) + 1 / 100) * dtH) := by
      positivity
    have e : 1 / 100 / th + andersonRate (some T0) (0 + 1 / 100 / 2) (1 / 100 / th) 0 * dtH =
        1 / 100 / th * (1 + (1 / 200000 * exp (-(21 / 1000) * (1 / 100 / th)) + 1 / 100) * dtH) := by
      rw [show (0 : ℝ) + 1 / 100 / 2 = 1 / 200 by norm_num, rate _ hr]; ring
    simp only [andersonLoop, andersonLayer, hth, if_true, add_zero, e, hpos.ne', if_false]
  have hfl : fluff = ⟨1 / 10000, 1 / 100, 0, T0, some (1 / 100 / (1 / 10000))⟩ := by
    simp only [fluff]; norm_num
  set r := 1 + (1 / 200000 * k + 1 / 100) * (3 / 2) with hr
  have hrp : 0 < r := by positivity
  have hr2 : r ≤ 3 / 2 := by rw [hr]; linarith
  have e100 : (1 : ℝ) / 100 / (1 / 10000) = 100 := by norm_num
  have hback : (1 : ℝ) / 100 / (1 / 100 / (100 * r)) = 100 * r := by field_simp
  set k2 := exp (-(21 / 1000) * (100 * r)) with hk2
  have hk20 : 0 < k2 := exp_pos _
  refine ⟨⟨1 / 100 / (100 * (1 + (1 / 200000 * k + 1 / 100) * 3)), 1 / 100, 0, T0,
      some (100 * (1 + (1 / 200000 * k + 1 / 100) * 3))⟩,
    ⟨1 / 100 / (100 * r), 1 / 100, 0, T0, some (100 * r)⟩,
    ⟨1 / 100 / (100 * r * (1 + (1 / 200000 * k2 + 1 / 100) * (3 / 2))), 1 / 100, 0, T0,
      some (100 * r * (1 + (1 / 200000 * k2 + 1 / 100) * (3 / 2)))⟩, ?_, ?_, ?_, ?_⟩
  · have h := step 3 (1 / 10000) (by norm_num) (by norm_num) (by norm_num)
    rw [anderson, hfl, show (10800 : ℝ) / 3600 = 3 by norm_num, h, e100, ← hk]
  · have h := step (3 / 2) (1 / 10000) (by norm_num) (by norm_num) (by norm_num)
    rw [anderson, hfl, show (5400 : ℝ) / 3600 = 3 / 2 by norm_num, h, e100, ← hk, ← hr]
  · have h := step (3 / 2) (1 / 100 / (100 * r)) (by norm_num) (by positivity) (by rw [hback]; linarith)
    rw [hback, ← hk2] at h
    rw [anderson, show (5400 : ℝ) / 3600 = 3 / 2 by norm_num, h]
  · simp only
    apply div_lt_div_of_pos_left (by norm_num) (by positivity)
    rw [hr]
    nlinarith [mul_pos hk0 hk20]

end real

/-! ## Examples -/

section examples

/-- New snow on old snow, moist. -/
def pack : CPixel ℚ where
  new := ⟨1 / 10, 10, 1, 0, some 110, some (8 / 10)⟩
  old := ⟨1, 300, 5, 0, some 305, some (7 / 10)⟩
  firn := emptyLayer
  ice := emptyLayer
  albedo := some (8 / 10)

theorem pack_nonneg : pack.Nonneg := by
  refine ⟨⟨?_, ?_, ?_⟩, ⟨?_, ?_, ?_⟩, ⟨?_, ?_, ?_⟩, ⟨?_, ?_, ?_⟩⟩ <;> norm_num [pack, emptyLayer]

/-- Eight steps of three hours melt what one day melts: 30 kg, all of the new snow and part of the old. -/
example : (repeated (fun q => (tiMelt .temperatureIndex (86400 / ((8 : ℕ) : ℚ)) 6 0 273 278 0 0 q,
      melt (tiMelt .temperatureIndex (86400 / ((8 : ℕ) : ℚ)) 6 0 273 278 0 0 q) q)) 8 pack).1 = (30 : ℚ) := by
  have h := C152_melt .temperatureIndex (6 : ℚ) 0 273 278 0 0 86400 (by norm_num) 8 (by norm_num) pack pack_nonneg
    (by
      intro L hL
      simp only [pack, List.mem_cons, List.not_mem_nil, or_false] at hL
      rcases hL with rfl | rfl | rfl | rfl <;> norm_num [emptyLayer])
  simp only at h
  rw [h]
  norm_num [tiMelt, pack, CPixel.depth, CPixel.iceSum, emptyLayer]

example : repeated (sublimation (86400 / ((24 : ℕ) : ℚ)) 100 (9 / 10) true (some (-1 / 10000))) 24 pack =
    sublimation 86400 100 (9 / 10) true (some (-1 / 10000)) pack :=
  C152_sublimation 100 (9 / 10) 86400 true _ (by norm_num) (by norm_num) 24 (by norm_num) pack pack_nonneg

example : (repeated (runoff .massFraction (1 / 10) (some (2 / 3600 * (86400 / ((24 : ℕ) : ℚ))))) 24 pack).1 = (23 : ℚ) := by
  rw [C152_runoff .massFraction (1 / 10) (2 / 3600) 86400 (by norm_num) (by norm_num) 24 (by norm_num) pack pack_nonneg
    (by norm_num [maxLwc, pack]) (by norm_num [maxLwc, pack])]
  norm_num [runoff, runoffLayer, pack, maxLwc, emptyLayer, nanToZero]

example : (accumulation true (9 / 10) 100 (some (1 / 3600 * (86400 / ((24 : ℕ) : ℚ)))))^[24] pack =
    accumulation true (9 / 10) (100 : ℚ) (some (1 / 3600 * 86400)) pack :=
  C152_accumulation true (9 / 10) 100 (1 / 3600) 86400 (by norm_num) (by norm_num) 24 (by norm_num) pack pack_nonneg

/-- The default albedo configuration with continuous refresh: no snowfall, and 0.2 kg per hour. -/
example : ∃ c : Snow.AlbedoCfg, c.refresh = .continuous ∧
    (Snow.albedo c (10800 / (3 : ℕ)) none (some (0 * (10800 / (3 : ℕ)))))^[3] (some (8 / 10)) =
      Snow.albedo c 10800 none (some (0 * 10800)) (some (8 / 10)) ∧
    ∃ x y, Snow.albedo c 10800 none (some (1 / 18000 * 10800)) (some (8 / 10)) = some x ∧
      (Snow.albedo c (10800 / 2) none (some (1 / 18000 * (10800 / 2))))^[2] (some (8 / 10)) = some y ∧ x < y := by
  refine ⟨⟨55 / 100, 85 / 100, 480, 200, 1 / 2, .continuous⟩, rfl, ?_, ?_⟩
  · exact C152_albedo_partial _ none 0 10800 (by norm_num) (fun _ => Or.inl rfl) 3 (by norm_num) _
  · exact C152_refresh_false _ none (1 / 18000) 10800 (8 / 10) (by norm_num) rfl (by norm_num) (by norm_num)
      (by norm_num) (by norm_num) (by norm_num) (by norm_num)

example : (fun o : Option Snow.DLayer => o.bind (Snow.empiricalLayer ⟨720000, 300, 500⟩ (86400 / (8 : ℕ))))^[8]
    (some ⟨1 / 10, 10, 1, 270, some 110⟩) = Snow.empiricalLayer ⟨720000, 300, 500⟩ 86400 ⟨1 / 10, 10, 1, 270, some 110⟩ :=
  C152_settling _ (by norm_num) 86400 (by norm_num) 8 (by norm_num) _ (fun _ => by norm_num)

end examples

end Verif.TimeSplit
