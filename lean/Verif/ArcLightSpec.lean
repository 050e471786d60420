import Verif.ArcLight
import Verif.ArcCamSpec

/-! # What a light should be after saving and loading -/

namespace Verif.FArc

open Verif.FEff (Text text)
open Verif.FConv (Ov DateTime shown)

/-- No parameter of the extra tree is called as a value of lights. -/
def NoLightParams (ts : List FExtra.Tech) : Prop := ∀ t ∈ ts, ∀ c ∈ t.node.children, c.name ∉ lightNames ∧ c.name ≠ text "penumbra_angle"

/-- A light as it is read back: the values that its type of light has in a file, the others as in a new light. -/
def lightAfter (rnd : ℚ → ℚ) (l : Light) (e : Ent) : Light :=
  { ent := e
    kind := l.kind
    color := (shown rnd l.color.1, shown rnd l.color.2.1, shown rnd l.color.2.2)
    intensity := shown rnd l.intensity
    constAtt := if l.kind = .ambient then 1 else shown rnd l.constAtt
    linAtt := if l.kind = .ambient then 0 else shown rnd l.linAtt
    quadAtt := if l.kind = .ambient then 0 else shown rnd l.quadAtt
    fallExp := if l.kind = .spot ∨ l.kind = .directional then shown rnd l.fallExp else 1
    fallAngle := if l.kind = .spot ∨ l.kind = .directional then shown rnd l.fallAngle else 5
    outer := if l.kind = .spot ∨ l.kind = .directional then shown rnd l.outer else 5
    dropoff := if l.kind = .spot then shown rnd l.dropoff else 0 }

end Verif.FArc
