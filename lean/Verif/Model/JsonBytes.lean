import Verif.Model.Message
import Verif.Py.JsonBytes

/-! # `Message.from_json` of `bytes` -/

namespace Verif

/-- `from_json(txt)` where `txt` is a `bytes` instance, message.py:456-466 -/
def fromJsonBytes (sch : Schema) (st : Dict) (b : List Nat) : Res Dict := do
  let v ← loadsBytes b
  let d ← v.itemsOf
  fromDictR sch st d

end Verif
