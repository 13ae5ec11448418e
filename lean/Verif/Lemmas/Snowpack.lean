import Verif.Spec.Snowpack
import Verif.Lemmas.ListSum

/-! Helper lemmas on pixels. -/

set_option linter.unusedSectionVars false

namespace Verif.MultiLayer

variable {K : Type*} [Field K] [LinearOrder K] [IsStrictOrderedRing K]

theorem swe_eq (p : Pixel K) : swe p = totalIce p + totalLwc p := by
  simp [swe, totalIce, totalLwc, List.sum_map_add]

theorem setActive_sum (p : Pixel K) (Ls : List (Layer K)) (f : Layer K → K) :
    ((p.setActive Ls).layers.map f).sum
      = (p.layers.map f).sum + ((Ls.map f).sum - ((p.layers.take p.n).map f).sum) := by
  have h := sum_map_take_add_drop f p.layers p.n
  simp only [Pixel.setActive, List.map_append, List.sum_append]
  rw [← h]; ring

theorem setActive_take (p : Pixel K) (Ls : List (Layer K)) (hn : p.n ≤ p.layers.length)
    (hl : Ls.length = (p.layers.take p.n).length) (k : ℕ) (hk : k ≤ p.n) :
    (p.setActive Ls).layers.take k = Ls.take k := by
  have : Ls.length = p.n := by simpa [hn] using hl
  simp [Pixel.setActive, List.take_append, this, hk]

theorem setActive_get_lt (p : Pixel K) (Ls : List (Layer K)) (hn : p.n ≤ p.layers.length)
    (hl : Ls.length = (p.layers.take p.n).length) (k : ℕ) (hk : k < p.n) :
    (p.setActive Ls).layers[k]? = Ls[k]? := by
  have : Ls.length = p.n := by simpa [hn] using hl
  simp [Pixel.setActive, List.getElem?_append, this, hk]

theorem setActive_get_ge (p : Pixel K) (Ls : List (Layer K)) (hn : p.n ≤ p.layers.length)
    (hl : Ls.length = (p.layers.take p.n).length) (k : ℕ) (hk : p.n ≤ k) :
    (p.setActive Ls).layers[k]? = p.layers[k]? := by
  have : Ls.length = p.n := by simpa [hn] using hl
  have h' : ¬ k < p.n := by omega
  simp only [Pixel.setActive, List.getElem?_append, this, h', if_false, List.getElem?_drop]
  congr 1; omega

theorem setActive_length (p : Pixel K) (Ls : List (Layer K)) (hn : p.n ≤ p.layers.length)
    (hl : Ls.length = (p.layers.take p.n).length) :
    (p.setActive Ls).layers.length = p.layers.length := by
  have : Ls.length = p.n := by simpa [hn] using hl
  simp [Pixel.setActive, this, hn]

theorem setActive_drop (p : Pixel K) (Ls : List (Layer K)) (hn : p.n ≤ p.layers.length)
    (hl : Ls.length = (p.layers.take p.n).length) :
    (p.setActive Ls).layers.drop p.n = p.layers.drop p.n := by
  have : Ls.length = p.n := by simpa [hn] using hl
  simp [Pixel.setActive, this]

theorem WF.setActive {p : Pixel K} (hp : WF p) {Ls : List (Layer K)}
    (hl : Ls.length = (p.layers.take p.n).length)
    (h : ∀ L ∈ Ls, 0 ≤ L.thick ∧ 0 ≤ L.ice ∧ 0 ≤ L.lwc) : WF (p.setActive Ls) where
  n_le := by rw [setActive_length p Ls hp.n_le hl]; exact hp.n_le
  active := by
    show ∀ L ∈ (p.setActive Ls).layers.take p.n, _
    rw [setActive_take p Ls hp.n_le hl p.n le_rfl]
    intro L hL
    exact h L (List.mem_of_mem_take hL)
  inactive := by
    show ∀ L ∈ (p.setActive Ls).layers.drop p.n, _
    rw [setActive_drop p Ls hp.n_le hl]
    exact hp.inactive

theorem WF.all {p : Pixel K} (hp : WF p) : ∀ L ∈ p.layers, 0 ≤ L.thick ∧ 0 ≤ L.ice ∧ 0 ≤ L.lwc := by
  intro L hL
  rw [← List.take_append_drop p.n p.layers, List.mem_append] at hL
  rcases hL with h | h
  · exact hp.active L h
  · obtain ⟨a, b, c⟩ := hp.inactive L h
    simp [a, b, c]

theorem WF.sum_active {p : Pixel K} (hp : WF p) {f : Layer K → K}
    (hf : ∀ L : Layer K, L.thick = 0 ∧ L.ice = 0 ∧ L.lwc = 0 → f L = 0) :
    ((p.layers.take p.n).map f).sum = (p.layers.map f).sum := by
  rw [← sum_map_take_add_drop f p.layers p.n]
  have : ((p.layers.drop p.n).map f).sum = 0 := by
    apply List.sum_eq_zero
    intro x hx
    obtain ⟨L, hL, rfl⟩ := List.mem_map.mp hx
    exact hf L (hp.inactive L hL)
  rw [this, add_zero]

theorem forall₂_mem_right {α β : Type*} {R : α → β → Prop} {l : List α} {l' : List β}
    (h : List.Forall₂ R l l') : ∀ y ∈ l', ∃ x ∈ l, R x y := by
  induction h with
  | nil => simp
  | cons h _ ih =>
    intro y hy
    rcases List.mem_cons.mp hy with rfl | hy
    · exact ⟨_, by simp, h⟩
    · obtain ⟨x, hx, hr⟩ := ih y hy
      exact ⟨x, by simp [hx], hr⟩

theorem forall₂_get {α β : Type*} {R : α → β → Prop} {l : List α} {l' : List β}
    (h : List.Forall₂ R l l') : ∀ (k : ℕ) (x : α), l[k]? = some x → ∃ y, l'[k]? = some y ∧ R x y := by
  induction h with
  | nil => simp
  | cons h _ ih =>
    intro k x hx
    cases k with
    | zero => simp at hx; subst hx; exact ⟨_, by simp, h⟩
    | succ k => simpa using ih k x (by simpa using hx)

end Verif.MultiLayer
