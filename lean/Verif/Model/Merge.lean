import Verif.Model.Message

/-!
# `oauth2.AuthorizationRequest.merge`, `src/oidcmsg/oauth2/__init__.py:110-136`
-/

namespace Verif

/-- `for param in list(self.keys()): if <not kept>: del self[param]`, oauth2/__init__.py:122-126 and
130-133. -/
def dropKeys (kept : String → Bool) (st : Dict) : Dict :=
  ((dkeys st).filter (fun k => !kept k)).foldl ddel st

/-- oauth2/__init__.py:122-134: what is left of the request before the update.  `whitelist = none`
is the default `None`; an unknown treatment or an empty white list falls through like `lax`. -/
def mergeBase (st ro : Dict) (treatment : String) (whitelist : Option (List String)) : Dict :=
  if treatment = "strict" then dropKeys (fun k => dhas ro k) st
  else if treatment = "lax" then st
  else if treatment = "whitelist" ∧ (whitelist.getD []) ≠ [] then
    dropKeys (fun k => (whitelist.getD []).contains k) st
  else st

/-- `merge`, oauth2/__init__.py:110-136, for a request object that is a dict or message (anything
else makes the final `update` raise). -/
def merge (st ro : Dict) (treatment : String) (whitelist : Option (List String)) : Dict :=
  dupdate (mergeBase st ro treatment whitelist) ro

end Verif
