import Verif.Lemmas.Step

/-! Helper lemmas: the shape of the snowpack inside a time step (emptied layers on top). -/

set_option linter.unusedSectionVars false

namespace Verif.MultiLayer

variable {K : Type*} [Field K] [LinearOrder K] [IsStrictOrderedRing K]

/-- Emptied layers on top of layers that hold ice. -/
def TopGone (Ls : List (Layer K)) : Prop :=
  ∃ gone rest, Ls = gone ++ rest ∧ (∀ L ∈ gone, L.thick = 0 ∧ L.ice = 0) ∧
    ∀ L ∈ rest, 0 < L.thick ∧ 0 < L.ice

theorem TopGone.cons_gone {L : Layer K} {Ls : List (Layer K)} (h : TopGone Ls)
    (hL : L.thick = 0 ∧ L.ice = 0) : TopGone (L :: Ls) := by
  obtain ⟨g, r, rfl, h1, h2⟩ := h
  refine ⟨L :: g, r, rfl, ?_, h2⟩
  intro x hx
  rcases List.mem_cons.mp hx with rfl | hx
  · exact hL
  · exact h1 x hx

theorem TopGone.of_all {Ls : List (Layer K)} (h : ∀ L ∈ Ls, 0 < L.thick ∧ 0 < L.ice) :
    TopGone Ls := ⟨[], Ls, rfl, by simp, h⟩

/-- Without remaining demand no layer is emptied if none is melted by its own heat. -/
theorem meltLoop_rest (Ls : List (Layer K)) : ∀ s : MeltAcc K, s.change = 0 →
    (∀ L ∈ Ls, 0 < L.thick ∧ 0 < L.ice ∧ warmMelt L < L.ice) →
    ∀ L ∈ (meltLoop s Ls).2, 0 < L.thick ∧ 0 < L.ice := by
  induction Ls with
  | nil => intro s _ _; simp [meltLoop]
  | cons L Ls ih =>
    intro s hs h
    obtain ⟨ht, hi, hw⟩ := h L (by simp)
    obtain ⟨r1, -, r3, r4, -⟩ := meltLayer_spec s L hs.ge hi.le
    rw [hs, zero_add, min_eq_left hw.le] at r3
    have hice : 0 < (meltLayer s L).2.ice := by linarith
    have hthick : 0 < (meltLayer s L).2.thick := by
      have := r1.thick_prop hi
      refine lt_of_le_of_ne (r1.thick_nonneg ht.le) fun e => ?_
      rw [← e, zero_mul] at this
      exact (mul_pos ht hice).ne this
    have hnext : (meltLayer s L).1.change = 0 := by rw [r4, hs, r3]; ring
    intro x hx
    simp only [meltLoop, List.mem_cons] at hx
    rcases hx with rfl | hx
    · exact ⟨hthick, hice⟩
    · exact ih _ hnext (fun y hy => h y (by simp [hy])) x hx

/-- Melt empties layers from the top only. -/
theorem meltLoop_topGone (Ls : List (Layer K)) : ∀ s : MeltAcc K, 0 ≤ s.change →
    (∀ L ∈ Ls, 0 < L.thick ∧ 0 < L.ice ∧ warmMelt L < L.ice) → TopGone (meltLoop s Ls).2 := by
  induction Ls with
  | nil => intro s _ _; exact ⟨[], [], rfl, by simp, by simp⟩
  | cons L Ls ih =>
    intro s hs h
    obtain ⟨ht, hi, hw⟩ := h L (by simp)
    have h' : ∀ y ∈ Ls, 0 < y.thick ∧ 0 < y.ice ∧ warmMelt y < y.ice :=
      fun y hy => h y (by simp [hy])
    obtain ⟨r1, -, r3, r4, r5⟩ := meltLayer_spec s L hs hi.le
    have e : (meltLoop s (L :: Ls)).2 = (meltLayer s L).2 :: (meltLoop (meltLayer s L).1 Ls).2 :=
      rfl
    rw [e]
    rcases le_or_gt L.ice (s.change + warmMelt L) with hle | hgt
    · rw [min_eq_right hle] at r3
      have hice : (meltLayer s L).2.ice = 0 := by linarith
      have hthick : (meltLayer s L).2.thick = 0 := by
        have := r1.thick_prop hi
        rw [hice, mul_zero] at this
        exact (mul_eq_zero.mp this).resolve_right hi.ne'
      exact (ih _ r5 h').cons_gone ⟨hthick, hice⟩
    · rw [min_eq_left hgt.le] at r3
      have hice : 0 < (meltLayer s L).2.ice := by linarith
      have hthick : 0 < (meltLayer s L).2.thick := by
        have := r1.thick_prop hi
        refine lt_of_le_of_ne (r1.thick_nonneg ht.le) fun e => ?_
        rw [← e, zero_mul] at this
        exact (mul_pos ht hice).ne this
      have hnext : (meltLayer s L).1.change = 0 := by rw [r4, r3]; ring
      refine TopGone.of_all fun x hx => ?_
      rcases List.mem_cons.mp hx with rfl | hx
      · exact ⟨hthick, hice⟩
      · exact meltLoop_rest Ls _ hnext h' x hx

/-- A demand of at least the ice present empties every layer. -/
theorem meltLoop_all (Ls : List (Layer K)) : ∀ s : MeltAcc K,
    (∀ L ∈ Ls, 0 < L.ice) → 0 ≤ s.change → (Ls.map Layer.ice).sum ≤ s.change →
    ∀ L ∈ (meltLoop s Ls).2, L.thick = 0 ∧ L.ice = 0 := by
  induction Ls with
  | nil => intro s _ _ _; simp [meltLoop]
  | cons L Ls ih =>
    intro s h hs hsum
    have hi := h L (by simp)
    obtain ⟨r1, -, r3, r4, r5⟩ := meltLayer_spec s L hs hi.le
    have hw := warmMelt_nonneg L
    have hrest : 0 ≤ (Ls.map Layer.ice).sum :=
      sum_map_nonneg _ _ fun x hx => (h x (by simp [hx])).le
    simp only [List.map_cons, List.sum_cons] at hsum
    rw [min_eq_right (by linarith)] at r3
    have hice : (meltLayer s L).2.ice = 0 := by linarith
    have hthick : (meltLayer s L).2.thick = 0 := by
      have := r1.thick_prop hi
      rw [hice, mul_zero] at this
      exact (mul_eq_zero.mp this).resolve_right hi.ne'
    intro x hx
    simp only [meltLoop, List.mem_cons] at hx
    rcases hx with rfl | hx
    · exact ⟨hthick, hice⟩
    · exact ih _ (fun y hy => h y (by simp [hy])) r5 (by rw [r4, r3]; linarith) x hx

/-- Without remaining demand sublimation leaves layers with ice alone. -/
theorem sublLoop_zero (Ls : List (Layer K)) (h : ∀ L ∈ Ls, 0 < L.thick ∧ 0 < L.ice) :
    ∃ r, sublLoop 0 Ls = some r ∧ ∀ L ∈ r.2, 0 < L.thick ∧ 0 < L.ice := by
  induction Ls with
  | nil => exact ⟨_, rfl, by simp⟩
  | cons L Ls ih =>
    obtain ⟨ht, hi⟩ := h L (by simp)
    obtain ⟨r, hr, hall⟩ := ih fun y hy => h y (by simp [hy])
    refine ⟨(r.1, { L with thick := L.thick * (1 - 0 / L.ice), ice := L.ice - 0 } :: r.2), ?_, ?_⟩
    · simp only [sublLoop, sublLayer, not_lt.mpr hi.le, hi.ne', if_false, Option.bind_eq_bind,
        Option.bind_some, hr, Option.pure_def]
    · intro x hx
      rcases List.mem_cons.mp hx with rfl | hx
      · exact ⟨by simpa using ht, by simpa using hi⟩
      · exact hall x hx

/-- Sublimation of layers with ice empties layers from the top only. -/
theorem sublLoop_topGone (Ls : List (Layer K)) : ∀ c : K, 0 ≤ c →
    (∀ L ∈ Ls, 0 < L.thick ∧ 0 < L.ice) → ∃ r, sublLoop c Ls = some r ∧ TopGone r.2 := by
  induction Ls with
  | nil => intro c _ _; exact ⟨_, rfl, [], [], rfl, by simp, by simp⟩
  | cons L Ls ih =>
    intro c hc h
    obtain ⟨ht, hi⟩ := h L (by simp)
    have h' : ∀ y ∈ Ls, 0 < y.thick ∧ 0 < y.ice := fun y hy => h y (by simp [hy])
    by_cases h1 : L.ice < c
    · obtain ⟨r, hr, hg⟩ := ih (c - L.ice) (by linarith) h'
      refine ⟨(r.1, { L with thick := 0, ice := 0 } :: r.2), ?_, hg.cons_gone ⟨rfl, rfl⟩⟩
      simp only [sublLoop, sublLayer, h1, if_true, Option.bind_eq_bind, Option.bind_some, hr,
        Option.pure_def]
    · obtain ⟨r, hr, hall⟩ := sublLoop_zero Ls h'
      refine ⟨(r.1, { L with thick := L.thick * (1 - c / L.ice), ice := L.ice - c } :: r.2), ?_, ?_⟩
      · simp only [sublLoop, sublLayer, h1, hi.ne', if_false, Option.bind_eq_bind,
          Option.bind_some, hr, Option.pure_def]
      · rcases (not_lt.mp h1).eq_or_lt with he | hl
        · refine (TopGone.of_all hall).cons_gone ⟨?_, ?_⟩
          · simp only; rw [he, div_self hi.ne', sub_self, mul_zero]
          · simp only; rw [he, sub_self]
        · refine TopGone.of_all fun x hx => ?_
          rcases List.mem_cons.mp hx with rfl | hx
          · exact ⟨mul_pos ht (sub_pos.mpr ((div_lt_one hi).mpr hl)), sub_pos.mpr hl⟩
          · exact hall x hx

/-- Every boundary of the new layers below the surface lies below the surface. -/
theorem newThickness_take_pos (minTh : List K) (d : K) (hne : minTh ≠ []) (hm : ∀ m ∈ minTh, 0 < m)
    (hd : 0 < d) (j : ℕ) (hj : 0 < j) : 0 < ((newThickness d minTh).take j).sum := by
  obtain ⟨i, r, hi, e1, e2, e3, -, -⟩ := newThickness_spec minTh d hne hm hd
  have hnn : ∀ x ∈ newThickness d minTh, 0 ≤ x := by
    intro x hx
    rw [e1, List.mem_append, List.mem_cons] at hx
    rcases hx with hx | rfl | hx
    · exact (hm x (List.mem_of_mem_take hx)).le
    · exact e3.le
    · rw [List.eq_of_mem_replicate hx]
  have hhead : ∃ x xs, newThickness d minTh = x :: xs ∧ 0 < x := by
    rw [e1]
    cases i with
    | zero => exact ⟨r, _, rfl, e3⟩
    | succ i =>
      obtain ⟨m, ms, rfl⟩ := List.exists_cons_of_ne_nil hne
      exact ⟨m, _, rfl, hm m (by simp)⟩
  obtain ⟨x, xs, he, hx⟩ := hhead
  obtain ⟨k, rfl⟩ : ∃ k, j = k + 1 := ⟨j - 1, by omega⟩
  rw [he] at hnn ⊢
  simp only [List.take_succ_cons, List.sum_cons]
  have : 0 ≤ (xs.take k).sum := List.sum_nonneg fun y hy =>
    hnn y (by simp [List.mem_of_mem_take hy])
  linarith

/-- A pack with emptied layers on top is relayered to numbers, unless it is thinner than 1e-6 m. -/
theorem updateLayers_topGone {m : LwcMethod} {minTh : List K} {p : Pixel K}
    (hp : PackOK m minTh.length p) (hne : minTh ≠ []) (hm : ∀ m ∈ minTh, 1 / 1000000 ≤ m)
    (hg : TopGone (p.layers.take p.n)) :
    updateLayers minTh p = none ↔
      0 < depth p ∧ depth p < 1 / 1000000 ∧ ∃ L ∈ p.layers.take p.n, L.thick = 0 := by
  have e0 : (0 : K) < 1 / 1000000 := by norm_num
  rcases lt_or_ge (depth p) (1 / 1000000) with hd | hd
  · rw [C16_thin_undefined_iff minTh p hne hm hp.wf hp.slots_eq hd]
    tauto
  · rw [C16_relayering_undefined_iff minTh p hne hm hp.wf hd (fun L hL ht => by
      refine lt_of_le_of_ne (hp.wf.active L hL).2.1 fun e => ?_
      exact ht.ne' ((hp.layers L hL).1.mpr e.symm))]
    refine ⟨?_, fun h => absurd h.2.1 (not_lt.mpr hd)⟩
    rintro ⟨k, L, j, hk, hL, h0, hj, he⟩
    exfalso
    have hpos := newThickness_take_pos minTh (depth p) hne
      (fun m h => lt_of_lt_of_le e0 (hm m h)) (lt_of_lt_of_le e0 hd) j hj
    obtain ⟨g, r, hs, h1, h2⟩ := hg
    have hgk : (p.layers.take p.n)[k]? = some L := by simp [List.getElem?_take, hk, hL]
    have hkg : k < g.length := by
      by_contra hc
      rw [hs, List.getElem?_append_right (not_lt.mp hc)] at hgk
      exact (h2 L (List.mem_of_getElem? hgk)).1.ne' h0
    have htop : topOf p k = 0 := by
      have : p.layers.take k = (g ++ r).take k := by
        rw [← hs, List.take_take, min_eq_left hk.le]
      unfold topOf
      rw [this, List.take_append_of_le_length hkg.le]
      apply List.sum_eq_zero
      intro x hx
      obtain ⟨y, hy, rfl⟩ := List.mem_map.mp hx
      exact (h1 y (List.mem_of_mem_take hy)).1
    rw [← he, htop] at hpos
    exact lt_irrefl _ hpos

/-- Percolation, refreezing and the heat capacity do not touch the thicknesses. -/
theorem runoff_thick (m : LwcMethod) (f : K) (rain : Option K) (p : Pixel K)
    (hn : p.n ≤ p.layers.length) :
    (updateHeatCap (runoff m f rain p).2.2).layers.map Layer.thick = p.layers.map Layer.thick := by
  have e : (updateHeatCap (runoff m f rain p).2.2).layers.map Layer.thick
      = (runoff m f rain p).2.2.layers.map Layer.thick := by
    simp [updateHeatCap, Function.comp_def]
  rw [e]
  obtain ⟨hA, -, hB⟩ := C15_runoff_per_layer m f rain p hn
  apply List.ext_getElem?
  intro k
  rw [List.getElem?_map, List.getElem?_map]
  by_cases hk : k < p.n
  · have hg : p.layers[k]? = some p.layers[k] := List.getElem?_eq_getElem (by omega)
    obtain ⟨L', h1, -, -, -, -, h6⟩ := hA k _ hk hg
    rw [h1, hg]; simp [h6]
  · rw [hB k (not_lt.mp hk)]

end Verif.MultiLayer
