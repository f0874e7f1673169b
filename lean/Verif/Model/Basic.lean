/-!
# Basic types: bytes, exceptions

Python `bytes`/`bytearray` are modelled as `List UInt8`, Python `int` as `Int`.
-/
namespace SL

/-- Python `bytes`. -/
abbrev Bytes := List UInt8

/-- The exceptions the modelled code can raise, as values.
`unicodeError` is `UnicodeDecodeError` (a subclass of `ValueError`).
The `sl*` constructors are the classes of screenlogicpy/const/common.py:20-67. -/
inductive PyErr
  | structError | unicodeError | valueError | typeError | keyError | indexError
  | attributeError | runtimeError | zeroDivision | overflowError | assertionError
  | cancelled      -- asyncio.CancelledError
  | slError        -- ScreenLogicError            (common.py:34)
  | slRequest      -- ScreenLogicRequestError     (common.py:46)
  | slConnection   -- ScreenLogicConnectionError  (common.py:52)
  | slResponse     -- ScreenLogicResponseError    (common.py:58)
  | slLogin        -- ScreenLogicLoginError       (common.py:64)
deriving DecidableEq, Repr

/-- `isinstance(e, ScreenLogicCommunicationError)`: common.py:40-67, the four subclasses. -/
def PyErr.isComm : PyErr → Bool
  | .slRequest | .slConnection | .slResponse | .slLogin => true
  | _ => false

/-- `isinstance(e, ScreenLogicException)`: common.py:20-67. -/
def PyErr.isScreenLogic : PyErr → Bool
  | .slError => true
  | e => e.isComm

-- Decidable equality of results, for concrete checks.
deriving instance DecidableEq for Except

end SL
