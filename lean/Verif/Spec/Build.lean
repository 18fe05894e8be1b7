import Verif.Base.Res

/-!
# Builds with and without overflow checks

When an outcome in the build with overflow checks carries over to the release build.
-/

namespace Essay

variable {α σ : Type}

/-- If the first outcome is a value, the second is the same value. -/
def Keeps (x y : Res α) : Prop := ∀ v, x = .ok v → y = .ok v

/-- The same from every state of the closures: also the state afterwards is the same. -/
def KeepsM (x y : Exec σ α) : Prop := ∀ s, Keeps (x.run s) (y.run s)

/-- If the build with overflow checks returns a value, the release build returns the same. -/
def Carries (f : [Build] → Res α) : Prop := Keeps (@f .checked) (@f .release)

end Essay
