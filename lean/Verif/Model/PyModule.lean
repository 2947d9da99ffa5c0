import Verif.Spec.PyModule
/-! pyhmac/pyhmac.c: creation of the module (the branches for Python 3). -/

namespace Model

open Spec (Kind PyMember)

/-- `pyhmac_module_methods` (pyhmac.c:48-128): names and functions. -/
def pyMethods : List (String × PyMember) :=
  [("get_version", .version),
   ("md5_calculate", .calculate .md5),
   ("md5_calculate_hmac", .calculateHmac .md5),
   ("sha1_calculate", .calculate .sha1),
   ("sha1_calculate_hmac", .calculateHmac .sha1),
   ("sha224_calculate", .calculate .sha224),
   ("sha224_calculate_hmac", .calculateHmac .sha224),
   ("sha256_calculate", .calculate .sha256),
   ("sha256_calculate_hmac", .calculateHmac .sha256),
   ("sha512_calculate", .calculate .sha512),
   ("sha512_calculate_hmac", .calculateHmac .sha512)]

/-- The names under which the types are added, in order (pyhmac.c:236-319). -/
def pyTypes : List (String × Kind) := [("md5_context", .md5), ("sha1_context", .sha1), ("sha224_context", .sha224), ("sha256_context", .sha256), ("sha512_context", .sha512)]

/-- What the interpreter does: outcomes of PyModule_Create, PyType_Ready and PyModule_AddObject. A failure sets an exception. (pyhmac/pyhmac.c:215, 240, 248.) -/
structure PyInterp where
  create : Bool
  ready : Kind → Bool
  add : Kind → Bool

/-- The state of the interpreter as far as it matters: how often the interpreter lock is held by PyGILState_Ensure, members of the module (`none`: not created), references to the module and to the types held by the code or by
nobody, references to the types held by the module, and whether an exception is set. (pyhmac/pyhmac.c:192-339.) -/
structure PyImport where
  gil : Int
  members : Option (List (String × PyMember))
  moduleRefs : Int
  typeRefs : Kind → Int
  addedRefs : Kind → Int
  exception : Bool

/-- One type: PyType_Ready, Py_IncRef, PyModule_AddObject, whose result is not tested (for example pyhmac.c:238-251). `false`: `goto on_error`. PyModule_AddObject takes over the reference only if it succeeds. -/
def pyAddType (I : PyInterp) (t : String × Kind) (s : PyImport) : Bool × PyImport :=
  if I.ready t.2 then
    let s := { s with typeRefs := fun k => if k = t.2 then s.typeRefs k + 1 else s.typeRefs k }
    if I.add t.2 then
      (true, { s with members := s.members.map (· ++ [(t.1, .context t.2)]), typeRefs := fun k => if k = t.2 then s.typeRefs k - 1 else s.typeRefs k, addedRefs := fun k => if k = t.2 then s.addedRefs k + 1 else s.addedRefs k })
    else (true, { s with exception := true })
  else (false, { s with exception := true })

/-- The five types in order. (pyhmac/pyhmac.c:236-319.) -/
def pyAddTypes (I : PyInterp) : List (String × Kind) → PyImport → Bool × PyImport
  | [], s => (true, s)
  | t :: ts, s =>
    let (ok, s) := pyAddType I t s
    if ok then pyAddTypes I ts s else (false, s)

/-- `PyInit_pyhmac` (pyhmac.c:191-339): `true` if the module is returned, `false` for NULL; the reference that is returned belongs to the caller. -/
def pyModuleInit (I : PyInterp) (s : PyImport) : Bool × PyImport :=
  if I.create then
    let s := { s with members := some pyMethods, moduleRefs := s.moduleRefs + 1, gil := s.gil + 1 }
    let (ok, s) := pyAddTypes I pyTypes s
    let s := { s with gil := s.gil - 1 }
    if ok then (true, { s with moduleRefs := s.moduleRefs - 1 }) else (false, s)
  else (false, { s with exception := true })

end Model
