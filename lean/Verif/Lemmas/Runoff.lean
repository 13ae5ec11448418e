import Verif.Lemmas.Snowpack

/-! Helper lemmas for the runoff loop of the multilayer model. -/

set_option linter.unusedSectionVars false

namespace Verif.MultiLayer

variable {K : Type*} [Field K] [LinearOrder K] [IsStrictOrderedRing K]

/-- Effect of percolation and refreezing on one layer with inflow `f` and capacity `m`. -/
structure RunoffRel (f m : K) (L L' : Layer K) : Prop where
  thick_eq : L'.thick = L.thick
  heatCap_eq : L'.heatCap = L.heatCap
  mass : L'.ice + L'.lwc = L.ice + min (L.lwc + f) m
  refreeze : L'.ice - L.ice =
    if 0 < L.heatCap * (T0 - L.temp) then
      min (min (L.lwc + f) m) (L.heatCap * (T0 - L.temp) / LF) else 0
  energy : L.heatCap * (L'.temp - L.temp) = LF * (L'.ice - L.ice)

theorem runoffLayer_spec (s : RunoffAcc K) (L : Layer K) (m : K) :
    let r := runoffLayer s L m
    RunoffRel s.runoff m L r.2 ∧ r.1.runoff = max (L.lwc + s.runoff - m) 0 ∧
    r.1.refreezing = s.refreezing + (r.2.ice - L.ice) := by
  have hLF : (LF : K) ≠ 0 := LF_pos.ne'
  have h1 : (if m < L.lwc + s.runoff then m else L.lwc + s.runoff) = min (L.lwc + s.runoff) m := by
    split_ifs with h
    · rw [min_eq_right h.le]
    · rw [min_eq_left (not_lt.mp h)]
  have h2 : (if m < L.lwc + s.runoff then L.lwc + s.runoff - m else 0)
      = max (L.lwc + s.runoff - m) 0 := by
    split_ifs with h
    · rw [max_eq_left (by linarith)]
    · rw [max_eq_right (by linarith [not_lt.mp h])]
  simp only [runoffLayer, h1, h2]
  by_cases hc : 0 < L.heatCap * (T0 - L.temp)
  · have hne : L.heatCap ≠ 0 := by rintro h; simp [h] at hc
    simp only [hc, if_true]
    refine ⟨⟨rfl, rfl, by ring, by simp [hc], ?_⟩, trivial, by ring⟩
    field_simp
    ring
  · simp only [hc, if_false]
    exact ⟨⟨rfl, rfl, by ring, by simp [hc], by ring⟩, trivial, by ring⟩

theorem runoffLoop_length (Ls : List (Layer K × K)) (s : RunoffAcc K) :
    (runoffLoop s Ls).2.length = Ls.length := by
  induction Ls generalizing s with
  | nil => rfl
  | cons L Ls ih => simp [runoffLoop, ih]

theorem runoffLoop_spec (Ls : List (Layer K × K)) : ∀ s : RunoffAcc K,
    let r := runoffLoop s Ls
    r.1.refreezing = s.refreezing
      + ((r.2.map Layer.ice).sum - (Ls.map fun x => x.1.ice).sum) ∧
    r.1.runoff + (r.2.map fun L => L.ice + L.lwc).sum
      = s.runoff + (Ls.map fun x => x.1.ice + x.1.lwc).sum ∧
    (0 ≤ s.runoff → 0 ≤ r.1.runoff) ∧
    ∀ (k : ℕ) (x : Layer K × K), Ls[k]? = some x →
      ∃ L', r.2[k]? = some L' ∧
        RunoffRel (s.runoff + ((Ls.take k).map fun x => x.1.ice + x.1.lwc).sum
          - ((r.2.take k).map fun L => L.ice + L.lwc).sum) x.2 x.1 L' ∧
        s.runoff + ((Ls.take (k + 1)).map fun x => x.1.ice + x.1.lwc).sum
          - ((r.2.take (k + 1)).map fun L => L.ice + L.lwc).sum
        = max (x.1.lwc + (s.runoff + ((Ls.take k).map fun x => x.1.ice + x.1.lwc).sum
          - ((r.2.take k).map fun L => L.ice + L.lwc).sum) - x.2) 0 := by
  induction Ls with
  | nil => intro s; simp [runoffLoop]
  | cons y Ls ih =>
    intro s
    obtain ⟨L, m⟩ := y
    obtain ⟨a1, a2, a3⟩ := runoffLayer_spec s L m
    obtain ⟨b1, b2, b3, b4⟩ := ih (runoffLayer s L m).1
    have hout : (runoffLayer s L m).1.runoff
        = s.runoff + (L.ice + L.lwc) - ((runoffLayer s L m).2.ice + (runoffLayer s L m).2.lwc) := by
      rw [a2, a1.mass]
      rcases le_total (L.lwc + s.runoff) m with h | h
      · rw [min_eq_left h, max_eq_right (by linarith)]; ring
      · rw [min_eq_right h, max_eq_left (by linarith)]; ring
    refine ⟨?_, ?_, ?_, ?_⟩
    · simp only [runoffLoop, List.map_cons, List.sum_cons]; rw [b1, a3]; ring
    · simp only [runoffLoop, List.map_cons, List.sum_cons]
      rw [hout] at b2
      linarith
    · intro hs
      exact b3 (by rw [a2]; exact le_max_right _ _)
    · intro k x hx
      cases k with
      | zero =>
        simp only [List.getElem?_cons_zero, Option.some.injEq] at hx
        subst hx
        refine ⟨(runoffLayer s L m).2, by simp [runoffLoop], by simpa using a1, ?_⟩
        simp only [runoffLoop, List.take_succ_cons, List.take_zero, List.map_cons, List.map_nil,
          List.sum_cons, List.sum_nil, add_zero, sub_zero]
        rw [← a2, hout]
      | succ k =>
        obtain ⟨L', h1, h2, h3⟩ := b4 k x (by simpa using hx)
        rw [hout] at h2 h3
        refine ⟨L', by simpa [runoffLoop] using h1, ?_, ?_⟩
        · simp only [runoffLoop, List.take_succ_cons, List.map_cons, List.sum_cons]
          convert h2 using 1
          ring
        · simp only [runoffLoop, List.take_succ_cons, List.map_cons, List.sum_cons] at h3 ⊢
          have e : ∀ u v w x y : K, u + (v + w) - (x + y) = u + v - x + w - y := by intros; ring
          rw [e s.runoff (L.ice + L.lwc), h3, e s.runoff (L.ice + L.lwc)]

end Verif.MultiLayer
