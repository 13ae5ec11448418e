import Verif.Props.Glacier
import Mathlib.Tactic

/-!
# C101: glacier terminus limit
-/

set_option linter.unusedSectionVars false

namespace Verif.Glacier

variable {K : Type*} [Field K] [LinearOrder K] [IsStrictOrderedRing K] [FloorRing K]

/-- Specification: number of elevations up to (below) a value. -/
def upTo (elevs : List K) (e : K) : ℕ := (elevs.filter fun x => decide (x ≤ e)).length
def below (elevs : List K) (e : K) : ℕ := (elevs.filter fun x => decide (x < e)).length

theorem num_spec (n : ℕ) (hn : 0 < n) (k : ℕ) (hk : k = ⌈(n : K) * (10 / 100)⌉.toNat) :
    0 < k ∧ k ≤ n ∧ n ≤ 10 * k ∧ 10 * (k - 1) < n := by
  have hn' : (0 : K) < n := by exact_mod_cast hn
  have hpos : 0 < ⌈(n : K) * (10 / 100)⌉ := Int.ceil_pos.mpr (by positivity)
  have hkz : (k : ℤ) = ⌈(n : K) * (10 / 100)⌉ := by rw [hk]; omega
  have h1 := Int.le_ceil ((n : K) * (10 / 100))
  have h2 := Int.ceil_lt_add_one ((n : K) * (10 / 100))
  rw [← hkz] at h1 h2
  have h1' : (n : K) ≤ 10 * (k : K) := by push_cast at h1; linarith
  have h2' : 10 * (k : K) < n + 10 := by push_cast at h2; linarith
  have h1n : n ≤ 10 * k := by exact_mod_cast h1'
  have h2n : 10 * k < n + 10 := by exact_mod_cast h2'
  refine ⟨by omega, by omega, h1n, by omega⟩

/-- **C101.** The elevation up to which the mass balance of the terminus is looked at: at least ten percent of the pixels
lie at or below it, it reaches at least 50 m above the lowest pixel, and it is the lowest such elevation: either it is
50 m above the lowest pixel, or it is the elevation of a pixel below which there are less than ten percent of the
pixels. -/
theorem C101_elevation (elevs : List K) (hne : elevs ≠ []) :
    elevs.length ≤ 10 * upTo elevs (maxTerminusElev elevs) ∧
    (∃ m ∈ elevs, (∀ x ∈ elevs, m ≤ x) ∧ m + 50 ≤ maxTerminusElev elevs ∧
      (maxTerminusElev elevs = m + 50 ∨
        maxTerminusElev elevs ∈ elevs ∧ 10 * below elevs (maxTerminusElev elevs) < elevs.length)) := by
  obtain ⟨hm1, hm2⟩ := lmin_spec elevs hne
  obtain ⟨s, hs⟩ : ∃ s, elevs.insertionSort (· ≤ ·) = s := ⟨_, rfl⟩
  obtain ⟨k, hk⟩ : ∃ k, ⌈(elevs.length : K) * (10 / 100)⌉.toNat = k := ⟨_, rfl⟩
  have hperm : s.Perm elevs := hs ▸ List.perm_insertionSort _ _
  have hsort : s.Pairwise (· ≤ ·) := hs ▸ List.pairwise_insertionSort _ _
  obtain ⟨k0, kn, kn1, kn2⟩ := num_spec (K := K) elevs.length (List.length_pos_iff.mpr hne) k hk.symm
  have hlen : (s.take k).length = k := by rw [List.length_take, hperm.length_eq]; omega
  have htne : s.take k ≠ [] := by
    intro h; rw [h] at hlen; simp at hlen; omega
  obtain ⟨hx1, hx2⟩ := lmax_spec (s.take k) htne
  have hdef : maxTerminusElev elevs = max (lmax (s.take k)) (lmin elevs + 50) := by
    simp only [maxTerminusElev, hs, hk]
  obtain ⟨x, hx⟩ : ∃ x, lmax (s.take k) = x := ⟨_, rfl⟩
  rw [hx] at hx1 hx2 hdef
  have hup : ∀ e, x ≤ e → k ≤ upTo elevs e := by
    intro e he
    unfold upTo
    rw [← (hperm.filter _).length_eq]
    calc k = ((s.take k).filter fun y => decide (y ≤ e)).length := by
          rw [List.filter_eq_self.mpr, hlen]
          intro y hy
          simpa using (hx2 y hy).trans he
      _ ≤ (s.filter fun y => decide (y ≤ e)).length :=
          ((List.take_sublist k s).filter _).length_le
  have hbelow : below elevs x ≤ k - 1 := by
    unfold below
    rw [← (hperm.filter _).length_eq]
    have hsplit : s.filter (fun y => decide (y < x)) = (s.take k).filter fun y => decide (y < x) := by
      conv_lhs => rw [← List.take_append_drop k s]
      rw [List.filter_append, List.append_right_eq_self.mpr]
      rw [List.filter_eq_nil_iff]
      intro y hy
      rw [← List.take_append_drop k s] at hsort
      have := (List.pairwise_append.mp hsort).2.2 x hx1 y hy
      simpa using this
    rw [hsplit]
    have hlt : ((s.take k).filter fun y => decide (y < x)).length < (s.take k).length := by
      apply List.length_filter_lt_length_iff_exists.mpr
      exact ⟨x, hx1, by simp⟩
    omega
  refine ⟨?_, lmin elevs, hm1, hm2, ?_, ?_⟩
  · have := hup (maxTerminusElev elevs) (by rw [hdef]; exact le_max_left _ _)
    omega
  · rw [hdef]; exact le_max_right _ _
  · rcases max_choice x (lmin elevs + 50) with h | h
    · right
      rw [hdef, h]
      exact ⟨hperm.mem_iff.mp (List.mem_of_mem_take hx1), by omega⟩
    · left
      rw [hdef, h]

/-- **C101.** The limit is the lowest mass balance of the pixels up to that elevation, or 0 if all of these gained mass;
it is never positive and never above the mass balance of a pixel with the lowest elevation. -/
theorem C101_limit (px : List (K × K)) (hne : px ≠ []) :
    maxAllowedChange px ≤ 0 ∧
    (∀ p ∈ px, p.1 ≤ maxTerminusElev (px.map Prod.fst) → maxAllowedChange px ≤ p.2) ∧
    (maxAllowedChange px = 0 ∨
      ∃ p ∈ px, p.1 ≤ maxTerminusElev (px.map Prod.fst) ∧ maxAllowedChange px = p.2) ∧
    (∀ p ∈ px, (∀ q ∈ px, p.1 ≤ q.1) → maxAllowedChange px ≤ p.2) := by
  obtain ⟨-, m, hm, hmin, hm50, -⟩ := C101_elevation (px.map Prod.fst) (by simpa using hne)
  obtain ⟨q, hq, hqm⟩ := List.mem_map.mp hm
  obtain ⟨e, he⟩ : ∃ e, maxTerminusElev (px.map Prod.fst) = e := ⟨_, rfl⟩
  rw [he] at hm50 ⊢
  have hsel : (px.filter fun p => decide (p.1 ≤ e)).map Prod.snd ≠ [] := by
    intro h
    have : q.2 ∈ (px.filter fun p => decide (p.1 ≤ e)).map Prod.snd :=
      List.mem_map.mpr ⟨q, List.mem_filter.mpr ⟨hq, by simp only [decide_eq_true_eq]; linarith⟩, rfl⟩
    rw [h] at this
    simp at this
  obtain ⟨h1, h2⟩ := lmin_spec _ hsel
  have hdef : maxAllowedChange px = min (lmin ((px.filter fun p => decide (p.1 ≤ e)).map Prod.snd)) 0 := by
    simp only [maxAllowedChange, he]
  rw [hdef]
  have hall : ∀ p ∈ px, p.1 ≤ e → min (lmin ((px.filter fun p => decide (p.1 ≤ e)).map Prod.snd)) 0 ≤ p.2 := by
    intro p hp hpe
    exact (min_le_left _ _).trans (h2 _ (List.mem_map.mpr ⟨p, List.mem_filter.mpr ⟨hp, by simpa using hpe⟩, rfl⟩))
  refine ⟨min_le_right _ _, hall, ?_, ?_⟩
  · rcases min_choice (lmin ((px.filter fun p : K × K => decide (p.1 ≤ e)).map Prod.snd)) (0 : K) with h | h
    · right
      rw [h]
      obtain ⟨p, hp, hp2⟩ := List.mem_map.mp h1
      obtain ⟨hp1, hpe⟩ := List.mem_filter.mp hp
      exact ⟨p, hp1, by simpa using hpe, hp2.symm⟩
    · left; exact h
  · intro p hp hlow
    apply hall p hp
    have := hlow q hq
    linarith

/-- **C101.** If no pixel near the terminus lost mass, the lowering is not limited. -/
theorem C101_unlimited (px : List (K × K)) (hne : px ≠ [])
    (h : ∀ p ∈ px, p.1 ≤ maxTerminusElev (px.map Prod.fst) → 0 ≤ p.2) (elevs : List K) (total area : K) :
    iceMassChange elevs total area (maxAllowedChange px) =
      if total < 0 then unrestricted elevs total area else some (elevs.map fun _ => total / elevs.length) := by
  obtain ⟨h1, -, h3, -⟩ := C101_limit px hne
  have h0 : maxAllowedChange px = 0 := by
    rcases h3 with h3 | ⟨p, hp, hpe, h3⟩
    · exact h3
    · have := h p hp hpe
      linarith
  rw [h0]
  unfold iceMassChange
  split_ifs with ht
  · cases hu : unrestricted elevs total area with
    | none => rfl
    | some mc =>
      simp only
      rw [restrict, if_neg (by simp)]
      have hlen : mc.length = elevs.length := by
        simp only [unrestricted] at hu
        split_ifs at hu
        rw [← Option.some.inj hu]
        simp
      rw [List.map_snd_zip (by omega)]
  · rfl

/-- **C101.** Pixels of other glaciers and without ice have no influence on the limit of a glacier. -/
theorem C101_glacier (gid : ℕ) (res : K) (px : List (Pix K)) :
    updateLimited gid res px = updateGlacier gid res
      (maxAllowedChange ((px.filter fun p => decide (p.gid = gid ∧ 0 < p.iceStart)).map fun p => (p.elev, p.mb))) px := by
  have : px.filter (inGlacier gid) = px.filter fun p => decide (p.gid = gid ∧ 0 < p.iceStart) := by
    apply List.filter_congr
    intro p _
    have hd : (0 : K) < iceDensity := by unfold iceDensity; norm_num
    simp only [inGlacier, Pix.old, div_pos_iff_of_pos_right hd]
  rw [updateLimited, this]

-- C101_elevation: of eleven pixels two are in the lowest ten percent, which reach higher than 50 m above the terminus.
example : maxTerminusElev ([2000, 2100, 2200, 2300, 2400, 2500, 2600, 2700, 2800, 2900, 3000] : List ℚ) = 2100 := by
  have h : ⌈(11 : ℚ) * (10 / 100)⌉ = 2 := by rw [Int.ceil_eq_iff]; norm_num
  simp only [maxTerminusElev, List.length_cons, List.length_nil, Nat.cast_ofNat, zero_add, Nat.reduceAdd, h]
  simp only [List.insertionSort, List.foldr]
  norm_num [List.orderedInsert, lmax, lmin, show Int.toNat 2 = 2 from rfl]

end Verif.Glacier
