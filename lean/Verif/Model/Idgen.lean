/-!
# Id generation — `wampproto/idgen.py`

`generate_session_id()` (`idgen.py:6-7`) is `random.randint(1, ID_MAX)`: randomness, so a session id is an input of
the model wherever one is drawn.
-/

namespace Wamp

/-- `ID_MAX = 1 << 53` (`idgen.py:3`) -/
def ID_MAX : Int := 2 ^ 53

/-- `SessionScopeIDGenerator` (`idgen.py:10-13`) -/
structure IdGen where
  id : Int := 0
  deriving DecidableEq, Repr

/-- `SessionScopeIDGenerator.next` (`idgen.py:15-20`): new generator state and the id returned. -/
def IdGen.next (g : IdGen) : IdGen × Int :=
  let id := if g.id = ID_MAX then 0 else g.id
  (⟨id + 1⟩, id + 1)

/-- The generator after `n` calls of `next()` on a fresh one. -/
def IdGen.after : Nat → IdGen
  | 0 => {}
  | n + 1 => (IdGen.after n).next.1

/-- The id returned by the `n`-th call (counting from 0) of `next()` on a fresh generator. -/
def IdGen.draw (n : Nat) : Int := (IdGen.after n).next.2

end Wamp
