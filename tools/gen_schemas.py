#!/usr/bin/env python3
"""Reads the class bodies in /repo as text (ast, nothing is imported or executed) and writes
lean/Verif/Model/Schemas.lean: one Lean `Schema` per message class, with the source lines."""
import ast, pathlib
SRC = pathlib.Path("/repo/src/oidcmsg")
MODS = [("oauth2", "oauth2/__init__.py"), ("oidc", "oidc/__init__.py"),
        ("device", "oauth2/device_authorization.py"), ("session", "oidc/session.py"),
        ("ida", "oidc/identity_assurance.py")]
SPEC = {
 "SINGLE_REQUIRED_STRING": "singleRequiredString", "SINGLE_OPTIONAL_STRING": "singleOptionalString",
 "SINGLE_OPTIONAL_INT": "singleOptionalInt", "SINGLE_REQUIRED_INT": "singleRequiredInt",
 "SINGLE_REQUIRED_BOOLEAN": "singleRequiredBoolean", "SINGLE_OPTIONAL_BOOLEAN": "singleOptionalBoolean",
 "OPTIONAL_LOGICAL": "singleOptionalBoolean",
 "OPTIONAL_LIST_OF_STRINGS": "optionalListOfStrings", "REQUIRED_LIST_OF_STRINGS": "requiredListOfStrings",
 "OPTIONAL_LIST_OF_SP_SEP_STRINGS": "optionalListOfSpSepStrings",
 "REQUIRED_LIST_OF_SP_SEP_STRINGS": "requiredListOfSpSepStrings",
 "SINGLE_OPTIONAL_JSON": "singleOptionalJson", "SINGLE_REQUIRED_JSON": "singleRequiredJson",
 "OPTIONAL_MESSAGE": "optionalMessage",
 ("oidc", "OPTIONAL_ADDRESS"): "⟨.single messageTy, false, some .msg, some (deserializeFromOneOf oidc_AddressClaim), false⟩",
 "OPTIONAL_MULTIPLE_Claims": "⟨.single messageTy, false, some .claims, some (deserializeFromOneOf oidc_Claims), false⟩",
 "SINGLE_OPTIONAL_IDTOKEN": "⟨.single messageTy, false, some .msg, none, false⟩",
 "SINGLE_REQUIRED_IDTOKEN": "⟨.single messageTy, true, some .msg, none, false⟩",
 ("oidc", "SINGLE_OPTIONAL_CLAIMSREQ"): "⟨.single messageTy, false, some .msgJson, some (jsonMsgDeser oidc_ClaimsRequest), false⟩",
 "SINGLE_OPTIONAL_DICT": "⟨.single .dict, false, some .msgJson, some dictDeser, false⟩",
 "REQUIRED_LINKS": "⟨.list (tyOf oidc_Link), true, some .linkList, some (linkDeser oidc_Link), false⟩",
 "REQURIED_TIME_STAMP": "{ optionalTimeStamp with required := true }", "OPTIONAL_TIME_STAMP": "optionalTimeStamp",
 "OPTIONAL_IDA_CLAIMS": "⟨.single (tyOf ida_IdentityAssuranceClaims), false, some .msg, some msgDeser, false⟩",
 "REQUIRED_VERIFIER": "⟨.single (tyOf ida_Verifier), true, some .msg, some (msgDeserFor ida_Verifier), false⟩",
 "REQUIRED_ISSUER": "⟨.single (tyOf ida_Issuer), true, some .msg, some (msgDeserFor ida_Issuer), false⟩",
 "OPTIONAL_DOCUMENT": "⟨.single (tyOf ida_Document), false, some .msg, some (deserializeFromOneOf ida_Document), false⟩",
 "OPTIONAL_EVIDENCE_LIST": "⟨.list (tyOf ida_Evidence [⟨\"ida\", \"IdDocument\"⟩, ⟨\"ida\", \"UtilityBill\"⟩, ⟨\"ida\", \"QES\"⟩]), false, some .msgList, some (evidenceListDeser ida_Evidence), true⟩",
 "REQUIRED_PROVIDER": "⟨.single (tyOf ida_Provider), true, some .msg, some (msgDeserFor ida_Provider), false⟩",
 "OPTIONAL_VERIFICATION_ELEMENT": "⟨.single (tyOf ida_VerificationElement), false, some .msg, some (msgDeserFor ida_VerificationElement), false⟩",
}
ORDER_FIRST = [("oidc", "AddressClaim"), ("oidc", "Claims"), ("oidc", "ClaimsRequest"), ("oidc", "Link")]
classes = {}   # (mod,name) -> dict
order = []
def lit(n):
    v = ast.literal_eval(n); return v
def val(v):
    if v is None: return ".none"
    if v is True: return ".bool true"
    if v is False: return ".bool false"
    if isinstance(v, int): return f".int {v}"
    if isinstance(v, str): return f".str {q(v)}"
    if isinstance(v, list): return ".list [" + ", ".join(val(x) for x in v) + "]"
    raise Exception(v)
def q(s): return '"' + s.replace('\\', '\\\\').replace('"', '\\"') + '"'
def baseref(mod, node):
    """(mod, class) named by an expression such as X.c_param or oauth2.X.c_param"""
    if isinstance(node, ast.Call): node = node.func.value     # X.c_param.copy()
    assert isinstance(node, ast.Attribute), ast.dump(node)
    return cls(mod, node.value)
IMPORTS = {"session": {"ResponseMessage": "oauth2", "MessageWithIdToken": "oidc", "IdToken": "oidc"},
           "oidc": {"ResponseMessage": "oauth2"},
           "ida": {"AddressClaim": "oidc", "OpenIDSchema": "oidc", "ClaimsRequest": "oidc"}}
def cls(mod, node):
    if isinstance(node, ast.Attribute): return (node.value.id, node.attr)
    n = node.id
    if (mod, n) in classes: return (mod, n)
    if n in IMPORTS.get(mod, {}): return (IMPORTS[mod][n], n)
    if n == "Message": return None
    raise Exception((mod, n))
def specname(mod, node):
    n = node.id
    return SPEC.get((mod, n)) or SPEC[n]
def attr_of(key, a):
    """inherited attribute (python MRO is linear here: first base that defines it)"""
    c = classes[key]
    if a in c: return c[a]
    for b in c["bases"]:
        if b is None: continue
        r = attr_of(b, a)
        if r is not None: return r
    return None
for mod, f in MODS:
    tree = ast.parse((SRC / f).read_text())
    for node in tree.body:
        if not isinstance(node, ast.ClassDef): continue
        try: bases = [cls(mod, b) for b in node.bases]
        except Exception: continue
        if not bases or node.name in ("ClaimsConstructor",): continue
        if any(isinstance(b, ast.Name) and b.id.endswith("Error") for b in node.bases): continue
        d = {"bases": bases, "line": (node.lineno, node.end_lineno), "file": f}
        key = (mod, node.name)
        for st in node.body:
            if isinstance(st, ast.Assign):
                t = st.targets[0]
                if isinstance(t, ast.Name) and t.id == "c_param":
                    if isinstance(st.value, ast.Dict):
                        d["params"] = {lit(k): specname(mod, v) for k, v in zip(st.value.keys, st.value.values)}
                    else:
                        d["params"] = dict(attr_of(baseref(mod, st.value), "params") or {})
                elif isinstance(t, ast.Name) and t.id == "c_default":
                    d["default"] = lit(st.value)
                elif isinstance(t, ast.Name) and t.id == "c_allowed_values":
                    if isinstance(st.value, ast.Dict): d["allowed"] = lit(st.value)
                    else: d["allowed"] = {k: v for k, v in (attr_of(baseref(mod, st.value), "allowed") or {}).items()}
            elif isinstance(st, ast.Expr) and isinstance(st.value, ast.Call) and isinstance(st.value.func, ast.Attribute):
                fn = st.value.func
                arg = st.value.args[0]
                if fn.attr == "update":
                    tgt = "params" if fn.value.id == "c_param" else "allowed"
                    if isinstance(arg, ast.Dict):
                        for k, v in zip(arg.keys, arg.values):
                            d[tgt][lit(k)] = specname(mod, v) if tgt == "params" else lit(v)
                    else:
                        d[tgt].update(attr_of(baseref(mod, arg), "params"))
                elif fn.attr == "extend":
                    # c_allowed_values["error"].extend([...]) : the list object is shared with the base class
                    d["allowed"]["error"].extend(lit(arg))
        classes[key] = d; order.append(key)
out = ["import Verif.Model.Deser", "", "/-!", "# The message classes of the library", "",
 "Written by `tools/gen_schemas.py` from the class bodies: `c_param`, `c_default` and `c_allowed_values` with",
 "inheritance resolved, in the order of the dict literals.  The `error` list that",
 "`oidc.AuthorizationErrorResponse` extends is the same list object as that of",
 "`oauth2.AuthorizationErrorResponse` (oidc/__init__.py:390-401), so both classes have the extended list.",
 "-/", "", "namespace Verif", ""]
names = []
for key in ORDER_FIRST + [k for k in order if k not in ORDER_FIRST]:
    mod, n = key
    c = classes[key]
    ps = attr_of(key, "params") or {}; df = attr_of(key, "default") or {}; al = attr_of(key, "allowed") or {}
    out.append(f"/-- `{n}`, {c['file']}:{c['line'][0]}-{c['line'][1]} -/")
    out.append(f"def {mod}_{n} : Schema where")
    out.append(f'  cls := ⟨"{mod}", "{n}"⟩')
    out.append("  params := [" + ",\n    ".join(f"({q(k)}, {v})" for k, v in ps.items()) + "]")
    if df: out.append("  default := [" + ", ".join(f"({q(k)}, {val(v)})" for k, v in df.items()) + "]")
    if al: out.append("  allowed := [" + ",\n    ".join(f"({q(k)}, [" + ", ".join(val(x) for x in v) + "])" for k, v in al.items()) + "]")
    out.append("")
    names.append(f"{mod}_{n}")
out.append("/-- Every message class of the library. -/")
out.append("def allSchemas : List Schema := [messageSchema,\n  " + ",\n  ".join(names) + "]")
out += ["", "/-- The serialiser each library class uses for a parameter. -/",
 "def libEnv : SerEnv := fun c k =>",
 "  match allSchemas.find? (fun s => s.cls == c) with", "  | some s => serFor s.params k", "  | none => none", "", "end Verif", ""]
pathlib.Path("/verif/lean/Verif/Model/Schemas.lean").write_text("\n".join(out))
print(len(names), "classes")
