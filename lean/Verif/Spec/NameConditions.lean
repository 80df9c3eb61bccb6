import Verif.Spec.Diffraction
import Verif.Spec.HermannMauguin

/-! # Specification: reflection conditions of the symbols of a Hermann-Mauguin name -/

namespace Verif.HM

/-- `e` is at right angles to `d` in every cell of the system. -/
def Across (sys : System) (d e : V3) : Prop := ∀ g ∈ sys.metrics, V3.dot (g.mulVec d) e = 0

/-- The planes `h x + k y + l z = const` are at right angles to `d` in every cell of the system. -/
def AlongAxis (sys : System) (d h : V3) : Prop := ∀ e, Across sys d e → V3.dot h e = 0

/-- The condition for reflections the International Tables give with a symbol for the direction `d`: for an axis `n_s`, the
phase `s (h·d) / n` of reflections along the axis is whole; for a plane, the phase of reflections of its zone (`h·d = 0`)
under one of the glides of that letter is whole (`glides` are twice the glide in twelfths). -/
def Part.Condition (sys : System) (d h : V3) : Part → Prop
  | .axis n s => AlongAxis sys d h → (n : Int) ∣ s * V3.dot h d
  | .bar _ => True
  | .plane g => V3.dot h d = 0 → ∃ v ∈ glides sys d g, (24 : Int) ∣ V3.dot h v

end Verif.HM
