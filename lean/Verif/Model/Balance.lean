import Verif.Model.Float
/-!
# `BALANCE`: screenlogicpy/device_const/chemistry.py:25-38
-/
namespace SL

/-- `BALANCE.from_saturation` on the value of a double (NaN is not modelled; the literals are the doubles nearest to
one tenth and one half): device_const/chemistry.py:31-38. -/
def fromSaturation (sat : Rat) : String :=
  if -(intDiv 1 10) ≤ sat ∧ sat ≤ intDiv 1 10 then "Ideal"
  else if -(intDiv 5 10) ≤ sat ∧ sat ≤ intDiv 5 10 then "Normal"
  else if sat < -(intDiv 5 10) then "Corrosive"
  else "Scaling"

end SL
