/-! Strict weak orders, as used by comparison callbacks. -/
namespace Nghttp3

/-- strict weak order: asymmetric, and "not less" is transitive -/
structure StrictWeak {α : Type} (less : α → α → Bool) : Prop where
  asymm : ∀ a b, less a b = true → less b a = false
  ntrans : ∀ a b c, less a b = false → less b c = false → less a c = false

namespace StrictWeak
variable {α : Type} {lt : α → α → Bool}

theorem irr (h : StrictWeak lt) (a : α) : lt a a = false := by
  cases e : lt a a with
  | false => rfl
  | true => exact absurd (h.asymm _ _ e) (by simp [e])

theorem lt_le (h : StrictWeak lt) {a b c : α} (h1 : lt a b = true) (h2 : lt c b = false) : lt a c = true := by
  cases e : lt a c with
  | true => rfl
  | false => have := h.ntrans _ _ _ e h2; rw [h1] at this; cases this

theorem le_lt (h : StrictWeak lt) {a b c : α} (h1 : lt b a = false) (h2 : lt b c = true) : lt a c = true := by
  cases e : lt a c with
  | true => rfl
  | false => have := h.ntrans _ _ _ h1 e; rw [h2] at this; cases this

theorem trans (h : StrictWeak lt) {a b c : α} (h1 : lt a b = true) (h2 : lt b c = true) : lt a c = true :=
  h.lt_le h1 (h.asymm _ _ h2)

end StrictWeak
end Nghttp3
