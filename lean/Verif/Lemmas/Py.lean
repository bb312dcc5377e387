import Verif.Model.Py

/-! Running a sequence backwards. -/

namespace PT
variable {σ α β : Type}

theorem Py.ok_of_bind {m : Py σ α} {f : α → Py σ β} {s t : σ} {b : β} (h : Py.bind m f s = (.ok b, t)) :
    ∃ a u, m s = (.ok a, u) ∧ f a u = (.ok b, t) := by
  unfold Py.bind at h
  generalize m s = x at h ⊢
  obtain ⟨r, u⟩ := x
  cases r with
  | ok a => exact ⟨a, u, rfl, h⟩
  | error e => cases h

theorem Py.error_of_bind {m : Py σ α} {f : α → Py σ β} {s t : σ} {e : Exc} (h : Py.bind m f s = (.error e, t)) :
    m s = (.error e, t) ∨ ∃ a u, m s = (.ok a, u) ∧ f a u = (.error e, t) := by
  unfold Py.bind at h
  generalize m s = x at h ⊢
  obtain ⟨r, u⟩ := x
  cases r with
  | ok a => exact Or.inr ⟨a, u, rfl, h⟩
  | error e =>
    injection h with h1 h2
    injection h1 with h1
    exact Or.inl (by rw [h1, h2])

theorem Py.run_bind_ok {m : Py σ α} {f : α → Py σ β} {s u : σ} {a : α} (h : m s = (.ok a, u)) :
    Py.bind m f s = f a u := by unfold Py.bind; rw [h]

theorem Py.run_bind_error {m : Py σ α} {f : α → Py σ β} {s u : σ} {e : Exc} (h : m s = (.error e, u)) :
    Py.bind m f s = (.error e, u) := by unfold Py.bind; rw [h]

end PT
