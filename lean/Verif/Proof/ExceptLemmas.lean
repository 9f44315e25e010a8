import Verif.Model.Basic

/-! # Inversion of `Except.map` and `Except.bind` -/

namespace Ngmix

theorem exMap_ok {ε α β : Type} {f : α → β} {x : Except ε α} {d : β} (h : Except.map f x = .ok d) :
    ∃ a, x = .ok a ∧ f a = d := by
  cases x with
  | error e => simp [Except.map] at h
  | ok a => exact ⟨a, rfl, by simpa [Except.map] using h⟩

theorem exBind_ok {ε α β : Type} {f : α → Except ε β} {x : Except ε α} {d : β} (h : Except.bind x f = .ok d) :
    ∃ a, x = .ok a ∧ f a = .ok d := by
  cases x with
  | error e => simp [Except.bind] at h
  | ok a => exact ⟨a, rfl, by simpa [Except.bind] using h⟩

end Ngmix
