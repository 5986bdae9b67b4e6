import Verif.Model.PalmerSpell

/-!
# Wet and dry exchanged

The entries of a month when every number is replaced by its negative: the indices change sign, the incipient wet and dry indices change
places, the probability stays.
-/

namespace CI.Spec
variable {F : Type} [FloatOps F]

/-- the entries of a month with wet and dry exchanged -/
def mirror (c : Cell F) : Cell F :=
  { pdsi := -c.pdsi, phdi := -c.phdi, wplm := -c.wplm, ppr := c.ppr, px1 := -c.px2, px2 := -c.px1, px3 := -c.px3, x := -c.x }

end CI.Spec
