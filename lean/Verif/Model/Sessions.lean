import Verif.Model.Endpoint

/-!
# HTTP sessions and the EUMETSAT data store

`pyrtlib/apiwebservices/webservices.py:18-56, 85-106, 108-129`, `pyrtlib/apiwebservices/eps_sandbox.py:31-79`.

Simplified: values of options are immutable here (in Python one object given as option is shared by all sessions); attributes of a
session that are properties or that refuse assignment are not distinguished; the network calls of `eumdac` succeed.
-/

namespace Verif.Model

open Verif.Py

/-- HTTP headers. -/
abbrev Headers := String → Option String

/-- A value given to an attribute of a session. -/
inductive SessionVal where
  | headers (h : Headers)
  | plain (n : Nat)

/-- A `requests.Session`: its attributes. -/
abbrev Session := String → Option SessionVal

/-- Keyword arguments, in order. -/
abbrev Kwargs := List (String × SessionVal)

/-- `ret.headers['User-Agent'] = agent` on a new session with attributes `fresh`, whose headers are `h`, webservices.py:52-53. -/
def withAgent (fresh : Session) (h : Headers) (agent : String) : Session := fun a =>
  if a = "headers" then some (.headers fun k => if k = "User-Agent" then some agent else h k) else fresh a

/-- `for k, v in options.items(): setattr(ret, k, v)`, webservices.py:54-55. -/
def setAttrs (s : Session) (o : Kwargs) : Session :=
  o.foldl (fun s kv => fun a => if a = kv.1 then some kv.2 else s a) s

/-- Attributes and headers of a new session of `requests`, and the agent string of pyrtlib, webservices.py:23. -/
structure HttpLib where
  fresh : Session
  headers : Headers
  agent : String

/-- `HTTPSessionManager.create_session`, webservices.py:39-56. -/
def createSession (L : HttpLib) (o : Kwargs) : Session := setAttrs (withAgent L.fresh L.headers L.agent) o

/-- The manager shared by the process and the endpoints created so far, webservices.py:24, 85, 95-106. -/
structure Web where
  options : Kwargs
  endpoints : List Session

/-- A statement of the user's program. -/
inductive WebOp where
  /-- `session_manager.set_session_options(**o)`, webservices.py:26-37 -/
  | setOptions (o : Kwargs)
  /-- `HTTPEndPoint(url)`, `IGRAUpperAir()`, `WyomingUpperAir()` -/
  | endpoint

/-- Effect of a statement. -/
def Web.step (L : HttpLib) (w : Web) : WebOp → Web
  | .setOptions o => { w with options := o }
  | .endpoint => { w with endpoints := w.endpoints ++ [createSession L w.options] }

/-- After a program. -/
def Web.after (L : HttpLib) (h : List WebOp) : Web := h.foldl (Web.step L) ⟨[], []⟩

/-- The address of `HTTPEndPoint._get_query`, webservices.py:128. -/
def queryUrl (base : List Char) : Except PyErr (List Char) :=
  match base.getLast? with
  | none => .error .indexError
  | some c => .ok (if c = '/' then base.dropLast else base)

/-! ## EUMETSAT -/

/-- Credentials from the lines of `~/.eumdacrc`, eps_sandbox.py:45-50. -/
def credentials (lines : List (List Char)) : Except PyErr (List Char × List Char) := do
  let key ← metaField lines 0
  let secret ← metaField lines 1
  return (key, secret)

/-- A collection of the data store: title and identifier. -/
structure Collection where
  title : List Char
  ident : String

/-- `EUMETSATProduct`: the data store is `None` until authentication, eps_sandbox.py:34-39. -/
structure Product where
  store : Option (List Collection)

/-- `authentication()`, eps_sandbox.py:41-55: `file` is the content of `~/.eumdacrc` if there is one; `catalogue` what the service
offers for given credentials. -/
def Product.authenticate (p : Product) (file : Option (List (List Char)))
    (catalogue : List Char × List Char → List Collection) : Except PyErr Product :=
  match file with
  | none => .ok p
  | some lines => (credentials lines).map fun c => ⟨some (catalogue c)⟩

/-- `list_collections(keyword)`, eps_sandbox.py:57-79. -/
def Product.list (p : Product) (keyword : Option (List Char)) : Except PyErr (List String × List Collection) :=
  match p.store with
  | none => .error .attributeError
  | some cs =>
    match keyword with
    | none | some [] => .ok (cs.map Collection.ident, cs)
    | some w =>
      .ok (cs.foldl (fun acc c => if isInfix w c.title then (acc.1 ++ [c.ident], acc.2 ++ [c]) else acc) ([], []))

end Verif.Model
