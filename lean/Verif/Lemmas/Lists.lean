import Mathlib.Data.Int.Bitwise

namespace PT

/-- In a list whose images are distinct, equal images come from equal elements. -/
theorem nodup_map_inj {α β : Type} {f : α → β} : ∀ {l : List α}, (l.map f).Nodup → ∀ {x y : α}, x ∈ l → y ∈ l →
    f x = f y → x = y
  | [], _, x, _, hx, _, _ => by cases hx
  | a :: l, h, x, y, hx, hy, e => by
    rw [List.map_cons, List.nodup_cons] at h
    rcases List.mem_cons.1 hx with rfl | hx'
    · rcases List.mem_cons.1 hy with rfl | hy'
      · rfl
      · exact absurd (by rw [e]; exact List.mem_map_of_mem hy') h.1
    · rcases List.mem_cons.1 hy with rfl | hy'
      · exact absurd (by rw [← e]; exact List.mem_map_of_mem hx') h.1
      · exact nodup_map_inj h.2 hx' hy' e

end PT
