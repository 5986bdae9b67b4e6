import Verif.Base.Py
import Mathlib.Data.Rat.Defs

/-!
# The valid ranges that the tools write beside the values

`_get_variable_attributes` of both tools builds the attributes of the written variable; only `valid_min` and `valid_max` are modelled here (the names of the variables are in
`Verif.Model.Cli` and `Verif.Model.SpiTool`, the unit of PET is in the written variable there; `long_name` is not modelled).
-/

namespace CI

/-- `valid_min` and `valid_max` of the main tool, by index (__main__.py:523-558) -/
def validRange (index : String) : Res (ℚ × ℚ) :=
  if index = "spi" then .ok (-3.09, 3.09)
  else if index = "spei" then .ok (-3.09, 3.09)
  else if index = "pnp" then .ok (-1000, 1000)
  else if index = "pet" then .ok (0, 10000)
  else .error .valueError

/-- `valid_min` and `valid_max` of the SPI tool (__spi__.py:223-238) -/
def spiValidRange : ℚ × ℚ := (-3.09, 3.09)

end CI
