import Verif.Props.EvapoClass

/-!
# C143: the storages of the evapotranspiration model with missing weather data

Reference evapotranspiration, rain and the potential evaporation of sealed surfaces may be missing in any time step.
The crop coefficients do not depend on the weather: the climate correction uses configured means
(`evapotranspiration.py:224-238`).
-/

set_option linter.unusedSectionVars false

namespace Verif.EvapoClass

open Verif.Evapo

variable {K : Type*} [Field K] [LinearOrder K] [IsStrictOrderedRing K] {P : Type*}

/-! ## Specification -/

/-- A value is kept or missing. -/
def Kept (a b : Option K) : Prop := b = a ∨ b = none

/-- The inputs of `j` are those of `i` with any of the weather data missing; the snow cover may differ. -/
structure Thinned (i j : PxIn K) : Prop where
  soil : j.soil = i.soil
  kcb : j.et.kcb = i.et.kcb
  kmax : j.et.kmax = i.et.kmax
  few : j.et.few = i.et.few
  ref : Kept i.et.etRef j.et.etRef
  rain : Kept i.et.rain j.et.rain
  pot : Kept i.pot j.pot

theorem Kept.nonneg {a b : Option K} (h : Kept a b) (ha : 0 ≤ nn a) : 0 ≤ nn b := by
  rcases h with rfl | rfl
  · exact ha
  · exact le_rfl

theorem Thinned.ok {k : Kind K} {i j : PxIn K} (h : Thinned i j) (hi : InOK k i) : InOK k j where
  raw := by rw [h.soil]; exact hi.raw
  taw := by rw [h.soil]; exact hi.taw
  tew := by rw [h.soil]; exact hi.tew
  rew := by rw [h.soil]; exact hi.rew
  ref := h.ref.nonneg hi.ref
  kcb := by rw [h.kcb]; exact hi.kcb
  kmax := by rw [h.kcb, h.kmax]; exact hi.kmax
  few := by rw [h.few]; exact hi.few
  rain := h.rain.nonneg hi.rain
  max := hi.max

/-- The value that drives evapotranspiration of the class is missing. -/
def NoDrive (k : Kind K) (j : PxIn K) : Prop :=
  match k with
  | .sealed _ => j.pot = none
  | .crop _ _ => j.et.etRef = none

/-! ## C143 -/

/-- **C143.** Any weather data may be missing in any time step of any pixel: the storages of every pixel stay numbers
within their limits, the next step closes its books with missing rain counted as none, and without the value that
drives it there is no evapotranspiration. -/
theorem C143_evapo (roi : P → Bool) (lc : P → Option ℕ) (classes : List (ℕ × Kind K))
    (hnd : (classes.map Prod.fst).Nodup) (hroi : ∀ p, lc p ≠ none → roi p = true) (id : ℕ)
    (k : Kind K) (hc : (id, k) ∈ classes) (p : P) (hl : lc p = some id) (s : Soil K)
    (is js : List (P → PxIn K)) (hgap : List.Forall₂ (fun i j => Thinned (i p) (j p)) is js)
    (his : ∀ i ∈ is, InOK k (i p) ∧ (i p).soil = s) (g : P → Option (PxSt K)) (x : PxSt K) (hg : g p = some x)
    (hx : StateOK k s x) :
    ∃ y, gridRun roi lc classes js g p = some y ∧ StateOK k s y ∧
      ∀ i j : P → PxIn K, InOK k (i p) → (i p).soil = s → Thinned (i p) (j p) → ∃ z et,
        gridStep roi lc classes j (gridRun roi lc classes js g) p = some z ∧ Books k (j p) y z et ∧
        (NoDrive k (j p) → et = 0) := by
  have hjs : ∀ j ∈ js, InOK k (j p) ∧ (j p).soil = s := by
    intro j hj
    induction hgap with
    | nil => simp at hj
    | @cons i0 _ _ _ h _ ih =>
      rcases List.mem_cons.1 hj with rfl | hj
      · obtain ⟨h1, h2⟩ := his i0 (by simp)
        exact ⟨h.ok h1, h.soil.trans h2⟩
      · exact ih (fun i hi => his i (by simp [hi])) hj
  obtain ⟨y, h1, h2, h3⟩ := C110_run roi lc classes hnd hroi id k hc p hl s js g x hjs hg hx
  refine ⟨y, h1, h2, fun i j hi hs hij => ?_⟩
  obtain ⟨z, et, h4, h5⟩ := h3 j (hij.ok hi) (hij.soil.trans hs)
  refine ⟨z, et, h4, h5, fun hno => le_antisymm (h5.limit.trans ?_) h5.nonneg⟩
  cases k with
  | «sealed» m =>
    have : (j p).pot = none := hno
    simp [potential, this, nn]
  | crop dual water =>
    have : (j p).et.etRef = none := hno
    simp [potential, this, nn]

/-- Missing reference evapotranspiration and rain. -/
example : Thinned exIn { exIn with et := { exIn.et with etRef := none, rain := none } } ∧
    NoDrive (.crop true false) { exIn with et := { exIn.et with etRef := none, rain := none } } :=
  ⟨⟨rfl, rfl, rfl, rfl, Or.inr rfl, Or.inr rfl, Or.inl rfl⟩, rfl⟩

end Verif.EvapoClass
