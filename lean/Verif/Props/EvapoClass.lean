import Verif.Model.EvapoClass
import Verif.Props.Evapo

/-!
# C110: evapotranspiration of every land cover class
-/

set_option linter.unusedSectionVars false

namespace Verif.EvapoClass

open Verif.Evapo

variable {K : Type*} [Field K] [LinearOrder K] [IsStrictOrderedRing K]

/-! ## Specification -/

/-- Plausible inputs of a pixel. -/
structure InOK (k : Kind K) (i : PxIn K) : Prop where
  raw : i.soil.raw < i.soil.taw
  taw : 0 ≤ i.soil.taw
  tew : 0 ≤ i.soil.tew
  rew : i.soil.rew ≤ i.soil.tew
  ref : 0 ≤ nn i.et.etRef
  kcb : 0 ≤ i.et.kcb
  kmax : i.et.kcb ≤ i.et.kmax
  few : 0 < i.et.few
  rain : 0 ≤ nn i.et.rain
  max : ∀ m, k = .sealed m → 0 ≤ m

/-- State of a pixel within its limits. -/
def StateOK (k : Kind K) (s : Soil K) (x : PxSt K) : Prop :=
  StOK s x.st ∧ ∀ m, k = .sealed m → 0 ≤ x.int ∧ x.int ≤ m

/-- The class divides evapotranspiration into evaporation and transpiration. -/
def HasParts : Kind K → Prop
  | .sealed _ => True
  | .crop dual _ => dual = true

/-- The class has a root zone. -/
def HasRoots : Kind K → Prop
  | .sealed _ => False
  | .crop _ water => water = false

/-- Snow cover suppresses evapotranspiration. -/
def SnowMatters : Kind K → Prop
  | .sealed _ => True
  | .crop _ water => water = false

/-- Potential evapotranspiration of the class. -/
def potential (k : Kind K) (i : PxIn K) : K :=
  match k with
  | .sealed _ => max (nn i.pot) 0
  | .crop dual _ => (if dual then i.et.kmax else i.et.kcb) * nn i.et.etRef

/-- The books of a time step of a pixel of class `k`. -/
structure Books (k : Kind K) (i : PxIn K) (x y : PxSt K) (et : K) : Prop where
  value : y.et = some et
  nonneg : 0 ≤ et
  limit : et ≤ potential k i
  snow : SnowMatters k → i.et.snow = true → et = 0
  parts : HasParts k → ∃ e t, y.evap = some e ∧ y.transp = some t ∧ 0 ≤ e ∧ 0 ≤ t ∧ et = e + t
  noparts : ¬ HasParts k → y.evap = x.evap ∧ y.transp = x.transp
  root : HasRoots k → RootBooks i.soil.taw x.st.dr y.st.dr (nn i.et.rain) et y.dp
  noroot : ¬ HasRoots k → y.st.dr = x.st.dr
  sealed : ∀ m, k = .sealed m → y.st = x.st ∧
    (i.et.snow = false → y.int + et + y.dp = x.int + nn i.et.rain) ∧
    (i.et.snow = true → y.int = x.int ∧ y.dp = 0)
  unsealed : (∀ m, k ≠ .sealed m) → y.int = x.int
  water : ∀ dual, k = .crop dual true → y.dp = 0 ∧ y.stress = none
  surface : ∀ water, k = .crop false water → y.st.de = x.st.de ∧ y.st.dpe = x.st.dpe

/-! ## Lemmas -/

theorem ke_bounds (s : Soil K) (de : K) (h0 : 0 ≤ de) (h : de ≤ s.tew) (hr : s.rew ≤ s.tew)
    (i : EtIn K) (hk0 : 0 ≤ i.kcb) (hk : i.kcb ≤ i.kmax) (hf : 0 ≤ i.few) :
    0 ≤ ke s de i ∧ i.kcb + ke s de i ≤ i.kmax := by
  obtain ⟨h1, -, h2⟩ := C39_total_coefficient s de h i hk
  exact ⟨h2 hf (hk0.trans hk), h1⟩

theorem sealed_books (m : K) (i : PxIn K) (x : PxSt K) (hi : InOK (.sealed m) i)
    (hx : StateOK (.sealed m) i.soil x) :
    StateOK (.sealed m) i.soil (sealedClass m i (resetPx x)) ∧
    ∃ et, Books (.sealed m) i x (sealedClass m i (resetPx x)) et := by
  obtain ⟨h0, h1⟩ := hx.2 m rfl
  have hm := hi.max m rfl
  obtain ⟨⟨a0, a1⟩, a2, a3, a4, a5, a6, -⟩ :=
    C40_step m x.int hm h0 h1 ⟨i.et.snow, i.et.rain, i.pot⟩
  have hlim : (sealedStep m x.int ⟨i.et.snow, i.et.rain, i.pot⟩).2.evap ≤ max (nn i.pot) 0 := by
    unfold sealedStep
    have := le_max_right (nn i.pot) 0
    cases i.et.snow <;> simp only [Bool.false_eq_true, if_false, if_true]
    · cases i.et.rain with
      | none => exact min_le_left _ _
      | some r =>
        simp only
        split_ifs
        · exact this
        · exact min_le_left _ _
    · exact this
  have hbal : i.et.snow = false →
      (sealedStep m x.int ⟨i.et.snow, i.et.rain, i.pot⟩).1 +
        (sealedStep m x.int ⟨i.et.snow, i.et.rain, i.pot⟩).2.evap +
        (sealedStep m x.int ⟨i.et.snow, i.et.rain, i.pot⟩).2.dp = x.int + nn i.et.rain := by
    intro hs
    cases hr : i.et.rain with
    | none => simp [sealedStep, hs, nn]
    | some r =>
      have hr0 : 0 ≤ r := by have := hi.rain; rw [hr] at this; exact this
      have := a6 r hs hr hr0
      rw [hr] at this
      simp only [nn, Option.getD_some]
      linarith
  refine ⟨⟨hx.1, fun m' e => ?_⟩, (sealedStep m x.int ⟨i.et.snow, i.et.rain, i.pot⟩).2.evap, ?_⟩
  · cases e; exact ⟨a0, a1⟩
  · constructor
    · simp [sealedClass, resetPx]
    · exact a3
    · exact hlim
    · intro _ hs; simp [sealedStep, hs]
    · intro _; exact ⟨_, 0, rfl, rfl, a3, le_rfl, by simp [resetPx]⟩
    · intro h; exact absurd trivial h
    · intro h; exact h.elim
    · intro _; rfl
    · intro m' e
      cases e
      refine ⟨rfl, hbal, fun hs => ?_⟩
      simp [sealedClass, sealedStep, hs, resetPx]
    · intro h; exact absurd rfl (h m)
    · intro _ e; cases e
    · intro _ e; cases e

/-- Standard conditions, single and dual. -/
theorem standard_books (dual sf : Bool) (i : PxIn K) (x : PxSt K) (k : Kind K) (hi : InOK k i)
    (hst : StOK i.soil x.st) :
    ∃ y, (if dual then dualStandard sf i x else some (singleStandard sf i x)) = some y ∧
      StOK i.soil y.st ∧ y.st.dr = x.st.dr ∧ y.int = x.int ∧ y.dp = x.dp ∧ y.stress = x.stress ∧
      (dual = false → y.evap = x.evap ∧ y.transp = x.transp ∧ y.st = x.st ∧
        y.et = some (if sf then i.et.kcb * nn i.et.etRef else 0)) ∧
      (dual = true → ∃ e t, y.evap = some e ∧ y.transp = some t ∧ 0 ≤ e ∧ 0 ≤ t ∧
        y.et = some (e + t) ∧ e + t ≤ i.et.kmax * nn i.et.etRef ∧ (sf = false → e = 0 ∧ t = 0)) := by
  cases dual with
  | false =>
    refine ⟨_, rfl, hst, rfl, rfl, rfl, rfl, fun _ => ⟨rfl, rfl, rfl, rfl⟩, fun h => (by cases h)⟩
  | true =>
    simp only [if_true]
    have hkr : 0 ≤ i.et.kmax * nn i.et.etRef := mul_nonneg (hi.kcb.trans hi.kmax) hi.ref
    cases sf with
    | false =>
      refine ⟨_, rfl, hst, rfl, rfl, rfl, rfl, fun h => (by cases h),
        fun _ => ⟨0, 0, rfl, rfl, le_rfl, le_rfl, by simp, by simpa using hkr, fun _ => ⟨rfl, rfl⟩⟩⟩
    | true =>
      obtain ⟨b0, b1⟩ := ke_bounds i.soil x.st.de hst.1 hst.2.1 hi.rew i.et hi.kcb hi.kmax hi.few.le
      simp only [dualStandard, if_true, surfaceBalance, if_neg hi.few.ne', Option.map_some]
      refine ⟨_, rfl, ⟨le_min (le_max_right _ _) hi.tew, min_le_right _ _, hst.2.2.1, hst.2.2.2.1,
        le_max_right _ _⟩, rfl, rfl, rfl, rfl, fun h => (Bool.noConfusion h),
        fun _ => ⟨_, _, rfl, rfl, mul_nonneg b0 hi.ref, mul_nonneg hi.kcb hi.ref, rfl, ?_,
          fun h => Bool.noConfusion h⟩⟩
      rw [← add_mul]
      exact mul_le_mul_of_nonneg_right (by linarith) hi.ref

theorem crop_books (dual water : Bool) (i : PxIn K) (x : PxSt K) (hi : InOK (.crop dual water) i)
    (hx : StateOK (.crop dual water) i.soil x) :
    ∃ y, cropClass dual water i (resetPx x) = some y ∧ StateOK (.crop dual water) i.soil y ∧
      ∃ et, Books (.crop dual water) i x y et := by
  obtain ⟨sf, hsf⟩ : ∃ sf, (water || !i.et.snow) = sf := ⟨_, rfl⟩
  obtain ⟨y, h1, h2, h3, h4, h5, h6, h7, h8⟩ :=
    standard_books dual sf i (resetPx x) _ hi (show StOK i.soil (resetPx x).st from hx.1)
  simp only [resetPx] at h3 h4 h5 h6 h7
  simp only [cropClass, hsf]
  simp only [resetPx]
  simp only [resetPx] at h1
  rw [h1, Option.bind_some]
  have hkr : 0 ≤ i.et.kmax * nn i.et.etRef := mul_nonneg (hi.kcb.trans hi.kmax) hi.ref
  have hcr : 0 ≤ i.et.kcb * nn i.et.etRef := mul_nonneg hi.kcb hi.ref
  have nos : ∀ (y : PxSt K) m, (Kind.crop dual water : Kind K) = .sealed m → 0 ≤ y.int ∧ y.int ≤ m :=
    fun _ m e => (by cases e)
  cases water with
  | true =>
    simp only [Bool.true_or] at hsf
    subst hsf
    simp only [if_true]
    refine ⟨y, rfl, ⟨h2, nos y⟩, ?_⟩
    cases dual with
    | false =>
      obtain ⟨e1, e2, e3, e4⟩ := h7 rfl
      simp only [if_true] at e4
      refine ⟨_, ⟨e4, hcr, by simp [potential], fun h => (by cases h), fun h => (by cases h),
        fun _ => ⟨e1, e2⟩, fun h => (by cases h), fun _ => h3, fun m e => (by cases e), fun _ => h4,
        fun _ _ => ⟨h5, h6⟩, fun _ _ => ⟨by rw [e3], by rw [e3]⟩⟩⟩
    | true =>
      obtain ⟨e, t, e1, e2, e3, e4, e5, e6, -⟩ := h8 rfl
      refine ⟨_, ⟨e5, add_nonneg e3 e4, by simpa [potential] using e6, fun h => (by cases h),
        fun _ => ⟨e, t, e1, e2, e3, e4, rfl⟩, fun h => absurd rfl h, fun h => (by cases h), fun _ => h3,
        fun m e => (by cases e), fun _ => h4, fun _ _ => ⟨h5, h6⟩, fun _ e => (by cases e)⟩⟩
  | false =>
    simp only [Bool.false_or] at hsf
    simp only [Bool.false_eq_true, if_false]
    -- stress
    obtain ⟨z, et, g1, g2, g3, g4, g5, g6, g7, g8, g9⟩ : ∃ z et, stressed dual sf i y = some z ∧
        z.et = some et ∧ 0 ≤ et ∧ et ≤ potential (.crop dual false) i ∧ (sf = false → et = 0) ∧
        z.st = y.st ∧ z.int = y.int ∧
        (dual = false → z.evap = y.evap ∧ z.transp = y.transp) ∧
        (dual = true → ∃ e t, z.evap = some e ∧ z.transp = some t ∧ 0 ≤ e ∧ 0 ≤ t ∧ et = e + t) := by
      cases sf with
      | false =>
        cases dual with
        | false =>
          obtain ⟨e1, e2, e3, e4⟩ := h7 rfl
          exact ⟨y, 0, rfl, e4, le_rfl, by simpa [potential] using hcr, fun _ => rfl, rfl, rfl,
            fun _ => ⟨rfl, rfl⟩, fun h => (by cases h)⟩
        | true =>
          obtain ⟨e, t, e1, e2, e3, e4, e5, e6, e7⟩ := h8 rfl
          obtain ⟨rfl, rfl⟩ := e7 rfl
          exact ⟨y, 0, rfl, by simpa using e5, le_rfl, by simpa [potential] using hkr, fun _ => rfl, rfl,
            rfl, fun h => (by cases h), fun _ => ⟨0, 0, e1, e2, le_rfl, le_rfl, by simp⟩⟩
      | true =>
        obtain ⟨ks, k1, k2, k3⟩ := stress_some i.soil hi.raw y.st.dr
        simp only [stressed, if_true, k1, Option.map_some]
        cases dual with
        | false =>
          obtain ⟨e1, e2, e3, e4⟩ := h7 rfl
          simp only [if_true] at e4
          refine ⟨_, i.et.kcb * nn i.et.etRef * ks, rfl, ?_, mul_nonneg hcr k2, ?_, fun h => (by cases h),
            rfl, rfl, fun _ => ⟨rfl, rfl⟩, fun h => (by cases h)⟩
          · simp [e4]
          · simpa [potential] using mul_le_of_le_one_right hcr k3
        | true =>
          obtain ⟨e, t, e1, e2, e3, e4, e5, e6, -⟩ := h8 rfl
          refine ⟨_, e + t * ks, rfl, ?_, add_nonneg e3 (mul_nonneg e4 k2), ?_, fun h => (by cases h), rfl,
            rfl, fun h => (by cases h), fun _ => ⟨e, t * ks, ?_, ?_, e3, mul_nonneg e4 k2, rfl⟩⟩
          · simp [e1, e2]
          · have := mul_le_of_le_one_right e4 k3
            simp only [potential, if_true]
            linarith
          · simp [e1]
          · simp [e2]
    rw [g1, Option.map_some]
    have hb := C38_root_zone i.soil hi.taw z.st.dr (nn i.et.rain) et
    have hz : nn z.et = et := by rw [g2]; rfl
    refine ⟨_, rfl, ⟨?_, nos _⟩, et, ?_⟩
    · simp only [rootZone, hz]
      refine ⟨by rw [g6]; exact h2.1, by rw [g6]; exact h2.2.1, hb.1, hb.2.1,
        by rw [g6]; exact h2.2.2.2.2⟩
    · constructor
      · simp [rootZone, g2]
      · exact g3
      · exact g4
      · intro _ hs
        exact g5 (by rw [← hsf, hs]; rfl)
      · intro hp
        obtain ⟨e, t, f1, f2, f3, f4, f5⟩ := g9 hp
        exact ⟨e, t, f1, f2, f3, f4, f5⟩
      · intro hp
        have hd : dual = false := by simpa [HasParts] using hp
        obtain ⟨e1, e2⟩ := g8 hd
        obtain ⟨e3, e4, -⟩ := h7 hd
        exact ⟨e1.trans e3, e2.trans e4⟩
      · intro _
        have e : z.st.dr = x.st.dr := by rw [g6]; exact h3
        rw [e] at hb
        simp only [rootZone, hz, e]
        exact hb
      · intro h; exact absurd rfl h
      · intro m e; cases e
      · intro _; exact g7.trans h4
      · intro _ e; cases e
      · intro w e
        cases e
        obtain ⟨-, -, e3, -⟩ := h7 rfl
        simp only [rootZone, g6, e3, and_self]

/-! ## Properties -/

/-- **C110**, one pixel and time step, any class: the result exists, the state stays within its limits
and the books close. -/
theorem C110_step (k : Kind K) (i : PxIn K) (x : PxSt K) (hi : InOK k i) (hx : StateOK k i.soil x) :
    ∃ y, classStep k i (resetPx x) = some y ∧ StateOK k i.soil y ∧ ∃ et, Books k i x y et := by
  cases k with
  | sealed m => exact ⟨_, rfl, sealed_books m i x hi hx⟩
  | crop dual water => exact crop_books dual water i x hi hx

variable {P : Type*}

theorem foldl_apply (lc : P → Option ℕ) (inp : P → PxIn K) (classes : List (ℕ × Kind K))
    (hnd : (classes.map Prod.fst).Nodup) : ∀ (g : P → Option (PxSt K)) (p : P),
    (∀ c ∈ classes, lc p = some c.1 →
      classes.foldl (applyClass lc inp) g p = (g p).bind (classStep c.2 (inp p))) ∧
    ((∀ c ∈ classes, lc p ≠ some c.1) → classes.foldl (applyClass lc inp) g p = g p) := by
  induction classes with
  | nil => intro g p; exact ⟨fun c hc => by simp at hc, fun _ => rfl⟩
  | cons d ds ih =>
    intro g p
    rw [List.map_cons, List.nodup_cons] at hnd
    obtain ⟨i1, i2⟩ := ih hnd.2 (applyClass lc inp g d) p
    constructor
    · intro c hc hl
      rw [List.foldl_cons]
      rcases List.mem_cons.1 hc with rfl | hc
      · rw [i2 ?_, applyClass, if_pos hl]
        intro e he h
        rw [hl, Option.some.injEq] at h
        exact hnd.1 (h ▸ List.mem_map_of_mem he)
      · rw [i1 c hc hl, applyClass, if_neg]
        intro h
        rw [hl, Option.some.injEq] at h
        exact hnd.1 (h ▸ List.mem_map_of_mem hc)
    · intro h
      rw [List.foldl_cons, i2 fun c hc => h c (List.mem_cons_of_mem _ hc), applyClass,
        if_neg (h d (by simp))]

/-- **C110**, whole grid: every pixel gets the step of its own class and of no other one; pixels
without a parametrised class keep their storages; pixels outside of the ROI are not touched. -/
theorem C110_grid (roi : P → Bool) (lc : P → Option ℕ) (classes : List (ℕ × Kind K))
    (hnd : (classes.map Prod.fst).Nodup) (inp : P → PxIn K) (g : P → Option (PxSt K)) (p : P)
    (hroi : ∀ p, lc p ≠ none → roi p = true) :
    (∀ id k, (id, k) ∈ classes → lc p = some id →
      gridStep roi lc classes inp g p = ((g p).map resetPx).bind (classStep k (inp p))) ∧
    ((∀ c ∈ classes, lc p ≠ some c.1) →
      (gridStep roi lc classes inp g p).map PxSt.st = (g p).map PxSt.st ∧
      (gridStep roi lc classes inp g p).map PxSt.int = (g p).map PxSt.int ∧
      (gridStep roi lc classes inp g p).map PxSt.et = (g p).map PxSt.et) ∧
    (roi p = false → gridStep roi lc classes inp g p = g p) := by
  obtain ⟨h1, h2⟩ := foldl_apply lc inp classes hnd
    (fun p => if roi p then (g p).map resetPx else g p) p
  refine ⟨?_, ?_, ?_⟩
  · intro id k hc hl
    rw [gridStep, h1 (id, k) hc hl, hroi p (by simp [hl]), if_pos rfl]
  · intro h
    rw [gridStep, h2 h]
    cases roi p <;> cases g p <;> simp [resetPx]
  · intro hr
    have : lc p = none := by
      by_contra h
      rw [hroi p h] at hr
      cases hr
    rw [gridStep, h2 (by simp [this])]
    simp [hr]

/-- **C110**, order of the classes: the classes are taken from a Python set, whose order does not
matter. -/
theorem C110_order (roi : P → Bool) (lc : P → Option ℕ) (classes classes' : List (ℕ × Kind K))
    (hnd : (classes.map Prod.fst).Nodup) (hp : classes.Perm classes') (inp : P → PxIn K)
    (g : P → Option (PxSt K)) : gridStep roi lc classes inp g = gridStep roi lc classes' inp g := by
  funext p
  have hnd' : (classes'.map Prod.fst).Nodup := (hp.map Prod.fst).nodup_iff.1 hnd
  obtain ⟨a1, a2⟩ := foldl_apply lc inp classes hnd (fun p => if roi p then (g p).map resetPx else g p) p
  obtain ⟨b1, b2⟩ := foldl_apply lc inp classes' hnd'
    (fun p => if roi p then (g p).map resetPx else g p) p
  unfold gridStep
  by_cases h : ∃ c ∈ classes, lc p = some c.1
  · obtain ⟨c, hc, hl⟩ := h
    rw [a1 c hc hl, b1 c (hp.subset hc) hl]
  · push Not at h
    rw [a2 h, b2 fun c hc => h c (hp.symm.subset hc)]

/-- **C110**, runs: whatever the weather and the snow cover, the state of every pixel of a class stays
within its limits in all time steps, and each further step closes its books. -/
theorem C110_run (roi : P → Bool) (lc : P → Option ℕ) (classes : List (ℕ × Kind K))
    (hnd : (classes.map Prod.fst).Nodup) (hroi : ∀ p, lc p ≠ none → roi p = true) (id : ℕ)
    (k : Kind K) (hc : (id, k) ∈ classes) (p : P) (hl : lc p = some id) (s : Soil K)
    (is : List (P → PxIn K)) : ∀ (g : P → Option (PxSt K)) (x : PxSt K),
    (∀ i ∈ is, InOK k (i p) ∧ (i p).soil = s) → g p = some x → StateOK k s x →
    ∃ y, gridRun roi lc classes is g p = some y ∧ StateOK k s y ∧
      ∀ j : P → PxIn K, InOK k (j p) → (j p).soil = s → ∃ z et,
        gridStep roi lc classes j (gridRun roi lc classes is g) p = some z ∧ Books k (j p) y z et := by
  induction is with
  | nil =>
    intro g x _ hg hx
    refine ⟨x, hg, hx, fun j hj hs => ?_⟩
    obtain ⟨z, h1, -, et, h2⟩ := C110_step k (j p) x hj (hs ▸ hx)
    refine ⟨z, et, ?_, h2⟩
    rw [gridRun, (C110_grid roi lc classes hnd j g p hroi).1 id k hc hl, hg]
    exact h1
  | cons i is ih =>
    intro g x hin hg hx
    obtain ⟨hi, hs⟩ := hin i (by simp)
    obtain ⟨z, h1, h2, -⟩ := C110_step k (i p) x hi (hs.symm ▸ hx)
    refine ih (gridStep roi lc classes i g) z (fun j hj => hin j (List.mem_cons_of_mem _ hj)) ?_
      (hs ▸ h2)
    rw [(C110_grid roi lc classes hnd i g p hroi).1 id k hc hl, hg]
    exact h1

/-- The class step is the step of `Model/Evapo` for which C38 and C39 are proved. -/
theorem C110_refines (i : PxIn K) (x : PxSt K) :
    (cropClass false false i (resetPx x)).map (fun y => (y.st, nn y.et, y.dp)) =
      (singleStep i.soil x.st i.et).map (fun r => (r.1, r.2.et, r.2.dp)) ∧
    (cropClass true false i (resetPx x)).map (fun y => (y.st, nn y.et, y.dp)) =
      (dualStep i.soil x.st i.et).map (fun r => (r.1, r.2.et, r.2.dp)) := by
  constructor
  · cases hs : i.et.snow with
    | true =>
      simp [cropClass, hs, singleStandard, stressed, rootZone, singleStep, nn, resetPx]
    | false =>
      simp only [cropClass, hs, singleStandard, stressed, rootZone, singleStep, resetPx]
      cases hk : stress i.soil x.st.dr <;> simp [hk, nn, rootZone]
  · cases hs : i.et.snow with
    | true =>
      simp [cropClass, hs, dualStandard, stressed, rootZone, dualStep, nn, resetPx]
    | false =>
      by_cases hf : i.et.few = 0
      · simp [cropClass, hs, dualStandard, dualStep, surfaceBalance, hf]
      · simp only [cropClass, hs, dualStandard, stressed, rootZone, dualStep, resetPx, surfaceBalance,
          if_neg hf]
        cases hk : stress i.soil x.st.dr <;> simp [hk, nn, rootZone]

/-! ## A concrete case -/

/-- A dry pixel with dual crop coefficients and one with a lake. -/
def exIn : PxIn ℚ := ⟨⟨20, 8, 100, 50⟩, ⟨false, some 4, some 1, 1, 6 / 5, 1 / 2⟩, some 2⟩

example : InOK (.crop true false) exIn ∧ InOK (.sealed 3) exIn ∧
    StateOK (.crop true false) exIn.soil ⟨⟨5, 0, 30⟩, 0, none, none, none, 0, none⟩ := by
  refine ⟨?_, ?_, ?_, fun m h => (by cases h)⟩
  · constructor <;> first | (intro m h; cases h) | norm_num [exIn, nn]
  · constructor <;> first | (intro m h; cases h; norm_num) | norm_num [exIn, nn]
  · norm_num [StOK, exIn]

example : (classStep (.crop true false) exIn ⟨⟨5, 0, 30⟩, 0, none, none, none, 0, none⟩).map
    (fun y => y.et) = some (some (24 / 5)) := by
  norm_num [classStep, cropClass, dualStandard, stressed, rootZone, exIn, ke, kr, surfaceBalance,
    stress, nn]

end Verif.EvapoClass
