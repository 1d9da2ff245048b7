import Verif.Py.JsonIndent
import Verif.Model.Message

/-!
# Messages as indented JSON documents, /repo/src/oidcmsg/message.py
-/

namespace Verif

/-- `Message.to_json(indent=indent)`, message.py:443-454 -/
def toJsonIndent (env : SerEnv) (c : Cls) (st : Dict) (indent : Val) : Res String := do
  let d ← toDict env c st
  dumpsIndent (.dict d) indent

end Verif
