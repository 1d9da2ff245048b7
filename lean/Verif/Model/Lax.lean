import Verif.Model.Message

/-!
# Lax messages: `msg.lax = True`

`lax` is a plain attribute of an instance (`False` after construction, message.py:42) that a program may set.  It is read
in one place, at the start of `to_urlencoded`.  The messages inside a message have an attribute of their own, taken here
as not set.
-/

namespace Verif

/-- `Message.to_urlencoded`, message.py:80-146, with the value of `self.lax`: the loop over the required parameters
(88-92) runs only when it is false -/
def toUrlencodedWith (lax : Bool) (env : SerEnv) (sch : Schema) (st : Dict) : Res String :=
  if lax then (urlPairsAll env false sch.params st).map urlencode
  else urlFinish env sch.cls sch.params st (urlPairsAll env false sch.params st)

/-- `msg.request(location, fragment_enc)`, message.py:681-699, with the value of `self.lax` -/
def requestWith (lax : Bool) (env : SerEnv) (sch : Schema) (st : Dict) (location : String) (frag : Bool) : Res String := do
  let qp ← toUrlencodedWith lax env sch st
  if frag then .ok (location ++ "#" ++ qp)
  else if location.toList.contains '?' then .ok (location ++ "&" ++ qp)
  else .ok (location ++ "?" ++ qp)

end Verif
