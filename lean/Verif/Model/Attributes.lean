import Verif.Model.Gateway
/-!
# The gateway's attributes

The read-only properties of a gateway that are computed from its data.
-/
namespace SL

/-- `gateway.version`: gateway.py:85-87. -/
def Gw.version (g : Gw) : Except PyErr Val := getValue false [.s "adapter", .s "firmware"] g.data

/-- `gateway.controller_model`: gateway.py:89-91. -/
def Gw.controllerModel (g : Gw) : Except PyErr Val := getValue false [.s "controller", .s "model"] g.data

/-- `gateway.equipment_flags`: gateway.py:93-97. -/
def Gw.equipmentFlags (g : Gw) : Except PyErr Nat := SL.equipmentFlags g.data

/-- `gateway.temperature_unit`: gateway.py:99-101, requests/utility.py:148-156. -/
def Gw.temperatureUnit (g : Gw) : Except PyErr String := (getTemperatureUnit.run [] 0 g.data).1.map (·.1)

end SL
