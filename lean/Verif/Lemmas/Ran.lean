/-! For the examples beside the theorems. -/

namespace LinuxLoader

/-- For the examples: a result together with the state it leaves. -/
theorem ran {α β : Type} {p : α × β} {a : α} (h : p.1 = a) : p = (a, p.2) := by rw [← h]

end LinuxLoader
