import Verif.Prelude
import Verif.Model.Snow

namespace WG

theorem mean_add (α : Type) (l : List α) (f g : α → ℝ) :
    mean (l.map fun a => f a + g a) = mean (l.map f) + mean (l.map g) := by
  unfold mean
  simp only [List.length_map]
  rw [← add_div]
  congr 1
  induction l with
  | nil => simp
  | cons a l ih => simp [ih]; ring

theorem mean_congr {α β : Type} {l : List α} {k : List β} {f : α → ℝ} {g : β → ℝ}
    (h : List.Forall₂ (fun a b => f a = g b) l k) : mean (l.map f) = mean (k.map g) := by
  have : l.map f = k.map g := by
    induction h with
    | nil => rfl
    | cons h _ ih => simp [h, ih]
  rw [this]

theorem mean_const {α : Type} (l : List α) (c : ℝ) (h : l ≠ []) : mean (l.map fun _ => c) = c := by
  unfold mean
  have : (l.length : ℝ) ≠ 0 := by
    simp [h]
  simp [List.map_const', List.sum_replicate]
  field_simp

theorem mean_nonneg {α : Type} (l : List α) (f : α → ℝ) (h : ∀ a ∈ l, 0 ≤ f a) :
    0 ≤ mean (l.map f) := by
  unfold mean
  apply div_nonneg
  · apply List.sum_nonneg
    simpa using h
  · positivity

theorem mean_mono {α : Type} (l : List α) (f g : α → ℝ) (h : ∀ a ∈ l, f a ≤ g a) :
    mean (l.map f) ≤ mean (l.map g) := by
  unfold mean
  simp only [List.length_map]
  apply div_le_div_of_nonneg_right _ (by positivity)
  induction l with
  | nil => simp
  | cons a l ih =>
    simp
    have := h a (by simp)
    have := ih (fun x hx => h x (by simp [hx]))
    linarith

theorem mean_le {α : Type} (l : List α) (f : α → ℝ) (c : ℝ) (hc : 0 ≤ c) (h : ∀ a ∈ l, f a ≤ c) :
    mean (l.map f) ≤ c := by
  by_cases hl : l = []
  · subst hl; simpa [mean] using hc
  · rw [← mean_const l c hl]
    exact mean_mono l f _ h

end WG
