import Verif.Model.Messages
import Verif.Model.Auth

/-!
# Dict objects held by more than one Python object

The message classes and the client authenticators keep a reference to the dict they are given; they do not copy it.
Two methods of the package write into such a dict afterwards: the `options`/`details` property of the four messages with a
payload serializer, and the constructor of the cryptosign client.  Elsewhere in the model dicts are values.  Here they are
objects with an address, so that what one holder writes is seen by the others.

Only the constructors and the two writing methods are here.  The caller's own writes to a dict are not.
-/

namespace Wamp.Sharing
open Wamp

/-- The identity of a dict object. -/
abbrev Addr := Nat

/-- The two attributes of a `Call`, `Invocation`, `Yield` or `Result` that its `options`/`details` property uses
(`call.py:49-51`, `invocation.py:49-51`, `yield_.py:43-45`, `result.py:43-45`). -/
structure Msg where
  options : Addr
  serializer : Option Int
  deriving DecidableEq, Repr

/-- A `CryptoSignAuthenticator` object: the dict it announces in HELLO and its private key. -/
structure Client where
  authExtra : Addr
  seed : Bytes
  deriving DecidableEq, Repr

/-- All dict objects, and the message and client objects in the order of their construction. -/
structure Store where
  dicts : List PyDict := []
  msgs : List Msg := []
  clients : List Client := []

namespace Store

/-- The present content of a dict object. -/
def deref (s : Store) (a : Addr) : PyDict := (s.dicts[a]?).getD []
/-- Change the content of a dict object. -/
def write (s : Store) (a : Addr) (d : PyDict) : Store := { s with dicts := s.dicts.set a d }
/-- `{...}`: a new dict object. -/
def alloc (s : Store) (d : PyDict) : Store × Addr := ({ s with dicts := s.dicts ++ [d] }, s.dicts.length)

/-- `{} if x is None else x` (`call.py:49`, `invocation.py:49`, `yield_.py:43`, `result.py:43`, `auth.py:9`). -/
def orNew (s : Store) : Option Addr → Store × Addr
  | none => s.alloc []
  | some a => (s, a)

/-- Constructing a `Call`, `Invocation`, `Yield` or `Result`; the fields object passes the dict through. -/
def newMsg (s : Store) (o : Option Addr) (serializer : Option Int) : Store :=
  let (s, a) := s.orNew o
  { s with msgs := s.msgs ++ [⟨a, serializer⟩] }

/-- Reading `Call.options` (`call.py:126-130`), `Invocation.details` (`invocation.py:125-129`), `Yield.options`
(`yield_.py:102-106`) or `Result.details` (`result.py:102-106`): the entry is written into the held dict, which is returned.
`marshal` reads the property too. -/
def readOptions (s : Store) (m : Msg) : Store × PyDict :=
  match m.serializer with
  | none => (s, s.deref m.options)
  | some n =>
    let s := s.write m.options (PyDict.set (s.deref m.options) "x_payload_serializer" (.int n))
    (s, s.deref m.options)

/-- `CryptoSignAuthenticator.__init__` (`cryptosign.py:15-21`); nothing is written when the private key is refused. -/
def newClient (cr : Crypto) (s : Store) (o : Option Addr) (privateKey : String) : Store :=
  let (s, a) := s.orNew o
  match unhexlify privateKey with
  | .error _ => s
  | .ok seed =>
    if seed.length ≠ 32 then s
    else
      let s := if (PyDict.get? (s.deref a) "pubkey").isSome then s
        else s.write a (PyDict.set (s.deref a) "pubkey" (.str (hexlify (cr.publicKey seed))))
      { s with clients := s.clients ++ [⟨a, seed⟩] }

end Store

/-- What a program does with these objects. -/
inductive Op where
  /-- create a dict object -/
  | dict (d : PyDict)
  /-- construct a message around a dict object, or around none -/
  | msg (o : Option Addr) (serializer : Option Int)
  /-- read the property of the `i`-th message, or marshal it -/
  | read (i : Nat)
  /-- construct a cryptosign client around a dict object, or around none -/
  | client (o : Option Addr) (privateKey : String)
  deriving Repr

/-- The dict object the operation is given. -/
def Op.passes : Op → Option Addr
  | .msg o _ => o
  | .client o _ => o
  | _ => none

def step (cr : Crypto) (s : Store) : Op → Store
  | .dict d => (s.alloc d).1
  | .msg o ser => s.newMsg o ser
  | .read i => match s.msgs[i]? with
    | some m => (s.readOptions m).1
    | none => s
  | .client o k => s.newClient cr o k

/-- The objects after a sequence of operations. -/
def after (cr : Crypto) (ops : List Op) : Store := ops.foldl (step cr) {}

/-- A program can only pass a dict object that exists. -/
def Possible (cr : Crypto) (ops : List Op) : Prop :=
  ∀ pre op post, ops = pre ++ op :: post → ∀ a, op.passes = some a → a < (after cr pre).dicts.length

/-- What the `i`-th message answers when its property is read now. -/
def answer (s : Store) (i : Nat) : Option PyDict := (s.msgs[i]?).map fun m => (s.readOptions m).2

/-- The `auth_extra` the `i`-th client announces in HELLO now (`auth.py:19-21`, `joiner.py:39-47`). -/
def announced (s : Store) (i : Nat) : Option PyDict := (s.clients[i]?).map fun c => s.deref c.authExtra

end Wamp.Sharing
