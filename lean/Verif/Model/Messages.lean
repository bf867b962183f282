import Verif.Model.Util

/-!
# Messages — `wampproto/messages/*.py`, `wampproto/serializers/serializer.py`

Each Python class pair `XFields`/`X` is one structure: `X` only forwards properties to its fields object.
Field types are the annotated ones; `request_id: int` is a `PyInt` because `True` passes
`isinstance(_, int)`.  `args`, `kwargs`, `options`, ... are values: sharing of the same list/dict object
between a message and its source is not modelled (no modelled function mutates them, except the
`x_payload_serializer` entry, see `withSerializer`).
-/

namespace Wamp

/-- `Hello`/`HelloFields` (`messages/hello.py:32-105`) -/
structure Hello where
  realm : String
  roles : PyDict
  authid : Option String := none
  authmethods : Option (List Value) := none
  authextra : Option PyDict := none
  deriving DecidableEq, Repr

/-- `Welcome`/`WelcomeFields` (`messages/welcome.py:36-119`); `authextra` `None` becomes `{}` (line 52). -/
structure Welcome where
  sessionId : PyInt
  roles : PyDict
  authid : Option String := none
  authrole : Option String := none
  authmethod : Option String := none
  authextra : PyDict := []
  deriving DecidableEq, Repr

/-- `Abort`/`AbortFields` (`messages/abort.py:28-87`) -/
structure Abort where
  details : PyDict
  reason : String
  args : Option (List Value) := none
  kwargs : Option PyDict := none
  deriving DecidableEq, Repr

/-- `Challenge`/`ChallengeFields` (`messages/challenge.py:20-58`) -/
structure Challenge where
  authmethod : String
  extra : PyDict := []
  deriving DecidableEq, Repr

/-- `Authenticate`/`AuthenticateFields` (`messages/authenticate.py:20-59`) -/
structure Authenticate where
  signature : String
  extra : PyDict := []
  deriving DecidableEq, Repr

/-- `Goodbye`/`GoodbyeFields` (`messages/goodbye.py:20-58`) -/
structure Goodbye where
  details : PyDict
  reason : String
  deriving DecidableEq, Repr

/-- `Call`/`CallFields` (`messages/call.py:32-141`); `options` is the stored dict `_fields._options`. -/
structure Call where
  requestId : PyInt
  procedure : String
  args : Option (List Value) := none
  kwargs : Option PyDict := none
  options_ : PyDict := []
  serializer : Option Int := none
  payload : Option (List UInt8) := none
  binary : Bool := false
  deriving DecidableEq, Repr

/-- `Invocation`/`InvocationFields` (`messages/invocation.py:32-140`) -/
structure Invocation where
  requestId : PyInt
  registrationId : PyInt
  args : Option (List Value) := none
  kwargs : Option PyDict := none
  details_ : PyDict := []
  serializer : Option Int := none
  payload : Option (List UInt8) := none
  binary : Bool := false
  deriving DecidableEq, Repr

/-- `Yield`/`YieldFields` (`messages/yield_.py:28-125`) -/
structure Yield where
  requestId : PyInt
  args : Option (List Value) := none
  kwargs : Option PyDict := none
  options_ : PyDict := []
  payload : Option (List UInt8) := none
  serializer : Option Int := none
  binary : Bool := false
  deriving DecidableEq, Repr

/-- `Result`/`ResultFields` (`messages/result.py:28-125`) -/
structure Result where
  requestId : PyInt
  args : Option (List Value) := none
  kwargs : Option PyDict := none
  details_ : PyDict := []
  payload : Option (List UInt8) := none
  serializer : Option Int := none
  binary : Bool := false
  deriving DecidableEq, Repr

/-- `Register`/`RegisterFields` (`messages/register.py:24-72`) -/
structure Register where
  requestId : PyInt
  procedure : String
  options : PyDict := []
  deriving DecidableEq, Repr

/-- `Registered`/`RegisteredFields` (`messages/registered.py:20-59`) -/
structure Registered where
  requestId : PyInt
  registrationId : PyInt
  deriving DecidableEq, Repr

/-- `Unregister`/`UnregisterFields` (`messages/unregister.py:20-59`) -/
structure Unregister where
  requestId : PyInt
  registrationId : PyInt
  deriving DecidableEq, Repr

/-- `Unregistered`/`UnregisteredFields` (`messages/unregistered.py:16-45`) -/
structure Unregistered where
  requestId : PyInt
  deriving DecidableEq, Repr

/-- `Subscribe`/`SubscribeFields` (`messages/subscribe.py:24-73`) -/
structure Subscribe where
  requestId : PyInt
  topic : String
  options : PyDict := []
  deriving DecidableEq, Repr

/-- `Subscribed`/`SubscribedFields` (`messages/subscribed.py:20-59`) -/
structure Subscribed where
  requestId : PyInt
  subscriptionId : PyInt
  deriving DecidableEq, Repr

/-- `Unsubscribe`/`UnsubscribeFields` (`messages/unsubscribe.py:20-59`) -/
structure Unsubscribe where
  requestId : PyInt
  subscriptionId : PyInt
  deriving DecidableEq, Repr

/-- `Unsubscribed`/`UnsubscribedFields` (`messages/unsubscribed.py:16-45`) -/
structure Unsubscribed where
  requestId : PyInt
  deriving DecidableEq, Repr

/-- `Publish`/`PublishFields` (`messages/publish.py:32-130`); the payload properties are constants. -/
structure Publish where
  requestId : PyInt
  topic : String
  args : Option (List Value) := none
  kwargs : Option PyDict := none
  options : PyDict := []
  deriving DecidableEq, Repr

/-- `Published`/`PublishedFields` (`messages/published.py:20-58`) -/
structure Published where
  requestId : PyInt
  publicationId : PyInt
  deriving DecidableEq, Repr

/-- `Event`/`EventFields` (`messages/event.py:32-130`) -/
structure Event where
  subscriptionId : PyInt
  publicationId : PyInt
  args : Option (List Value) := none
  kwargs : Option PyDict := none
  details : PyDict := []
  deriving DecidableEq, Repr

/-- `Error`/`ErrorFields` (`messages/error.py:36-145`) -/
structure ErrorMsg where
  messageType : PyInt
  requestId : PyInt
  uri : String
  args : Option (List Value) := none
  kwargs : Option PyDict := none
  details : PyDict := []
  deriving DecidableEq, Repr

/-- `Cancel`/`CancelFields` (`messages/cancel.py:19-58`) -/
structure Cancel where
  requestId : PyInt
  options : PyDict := []
  deriving DecidableEq, Repr

/-- `Interrupt`/`InterruptFields` (`messages/interrupt.py:19-57`) -/
structure Interrupt where
  requestId : PyInt
  options : PyDict := []
  deriving DecidableEq, Repr

/-- An instance of one of the 24 message classes (`messages/__init__.py:1-25`). -/
inductive Message where
  | hello (m : Hello)
  | welcome (m : Welcome)
  | abort (m : Abort)
  | challenge (m : Challenge)
  | authenticate (m : Authenticate)
  | goodbye (m : Goodbye)
  | call (m : Call)
  | invocation (m : Invocation)
  | yield_ (m : Yield)
  | result (m : Result)
  | register (m : Register)
  | registered (m : Registered)
  | unregister (m : Unregister)
  | unregistered (m : Unregistered)
  | subscribe (m : Subscribe)
  | subscribed (m : Subscribed)
  | unsubscribe (m : Unsubscribe)
  | unsubscribed (m : Unsubscribed)
  | publish (m : Publish)
  | published (m : Published)
  | event (m : Event)
  | error (m : ErrorMsg)
  | cancel (m : Cancel)
  | interrupt (m : Interrupt)
  deriving DecidableEq, Repr

/-- `str(type(msg))`: module and name of the class (`messages/__init__.py:1-25`). -/
def Message.pyType : Message → String
  | .hello _ => "<class 'wampproto.messages.hello.Hello'>"
  | .welcome _ => "<class 'wampproto.messages.welcome.Welcome'>"
  | .abort _ => "<class 'wampproto.messages.abort.Abort'>"
  | .challenge _ => "<class 'wampproto.messages.challenge.Challenge'>"
  | .authenticate _ => "<class 'wampproto.messages.authenticate.Authenticate'>"
  | .goodbye _ => "<class 'wampproto.messages.goodbye.Goodbye'>"
  | .call _ => "<class 'wampproto.messages.call.Call'>"
  | .invocation _ => "<class 'wampproto.messages.invocation.Invocation'>"
  | .yield_ _ => "<class 'wampproto.messages.yield_.Yield'>"
  | .result _ => "<class 'wampproto.messages.result.Result'>"
  | .register _ => "<class 'wampproto.messages.register.Register'>"
  | .registered _ => "<class 'wampproto.messages.registered.Registered'>"
  | .unregister _ => "<class 'wampproto.messages.unregister.Unregister'>"
  | .unregistered _ => "<class 'wampproto.messages.unregistered.Unregistered'>"
  | .subscribe _ => "<class 'wampproto.messages.subscribe.Subscribe'>"
  | .subscribed _ => "<class 'wampproto.messages.subscribed.Subscribed'>"
  | .unsubscribe _ => "<class 'wampproto.messages.unsubscribe.Unsubscribe'>"
  | .unsubscribed _ => "<class 'wampproto.messages.unsubscribed.Unsubscribed'>"
  | .publish _ => "<class 'wampproto.messages.publish.Publish'>"
  | .published _ => "<class 'wampproto.messages.published.Published'>"
  | .event _ => "<class 'wampproto.messages.event.Event'>"
  | .error _ => "<class 'wampproto.messages.error.Error'>"
  | .cancel _ => "<class 'wampproto.messages.cancel.Cancel'>"
  | .interrupt _ => "<class 'wampproto.messages.interrupt.Interrupt'>"

/-! ## Type codes: the `TYPE` class attributes -/

/-- `hello.py:71` -/ def Hello.TYPE : Int := 1
/-- `welcome.py:81` -/ def Welcome.TYPE : Int := 2
/-- `abort.py:55` -/ def Abort.TYPE : Int := 3
/-- `challenge.py:36` -/ def Challenge.TYPE : Int := 4
/-- `authenticate.py:37` -/ def Authenticate.TYPE : Int := 5
/-- `goodbye.py:36` -/ def Goodbye.TYPE : Int := 6
/-- `error.py:92` -/ def ErrorMsg.TYPE : Int := 8
/-- `publish.py:82` -/ def Publish.TYPE : Int := 16
/-- `published.py:36` -/ def Published.TYPE : Int := 17
/-- `subscribe.py:46` -/ def Subscribe.TYPE : Int := 32
/-- `subscribed.py:37` -/ def Subscribed.TYPE : Int := 33
/-- `unsubscribe.py:37` -/ def Unsubscribe.TYPE : Int := 34
/-- `unsubscribed.py:28` -/ def Unsubscribed.TYPE : Int := 35
/-- `event.py:82` -/ def Event.TYPE : Int := 36
/-- `call.py:89` -/ def Call.TYPE : Int := 48
/-- `cancel.py:36` -/ def Cancel.TYPE : Int := 49
/-- `result.py:79` -/ def Result.TYPE : Int := 50
/-- `register.py:45` -/ def Register.TYPE : Int := 64
/-- `registered.py:37` -/ def Registered.TYPE : Int := 65
/-- `unregister.py:37` -/ def Unregister.TYPE : Int := 66
/-- `unregistered.py:28` -/ def Unregistered.TYPE : Int := 67
/-- `invocation.py:89` -/ def Invocation.TYPE : Int := 68
/-- `interrupt.py:35` -/ def Interrupt.TYPE : Int := 69
/-- `yield_.py:79` -/ def Yield.TYPE : Int := 70

/-! ## The serializer option -/

/-- The `options`/`details` properties of `Call`, `Invocation`, `Yield`, `Result`
(`call.py:126-130`, `invocation.py:125-129`, `yield_.py:102-106`, `result.py:102-106`): reading the property
first writes the `x_payload_serializer` entry into the stored dict.  The write is idempotent; the
model returns the resulting dict. -/
def withSerializer (d : PyDict) (serializer : Option Int) : PyDict :=
  match serializer with
  | none => d
  | some n => PyDict.set d "x_payload_serializer" (.int n)

/-- `Call.options` (`call.py:126-130`) -/
def Call.options (m : Call) : PyDict := withSerializer m.options_ m.serializer
/-- `Invocation.details` (`invocation.py:125-129`) -/
def Invocation.details (m : Invocation) : PyDict := withSerializer m.details_ m.serializer
/-- `Yield.options` (`yield_.py:102-106`) -/
def Yield.options (m : Yield) : PyDict := withSerializer m.options_ m.serializer
/-- `Result.details` (`result.py:102-106`) -/
def Result.details (m : Result) : PyDict := withSerializer m.details_ m.serializer

/-! ## Marshalling -/

/-- The tail appended by every `marshal` with a payload (e.g. `call.py:150-157`): args if not `None`; kwargs if not
`None`, preceded by `[]` when args is `None`. -/
def payloadTail (args : Option (List Value)) (kwargs : Option PyDict) : List Value :=
  (match args with | some a => [Value.list a] | none => []) ++
  (match kwargs with
    | some k => (match args with | none => [Value.list []] | some _ => []) ++ [Value.dict k]
    | none => [])

/-- `Hello.marshal`'s details dict (`hello.py:121-130`).  The dict is built by appending fresh keys. -/
def Hello.detailsDict (m : Hello) : PyDict :=
  [(Value.str "roles", Value.dict m.roles)] ++
  (match m.authid with | some a => [(Value.str "authid", Value.str a)] | none => []) ++
  (match m.authmethods with | some a => [(Value.str "authmethods", Value.list a)] | none => []) ++
  (match m.authextra with | some a => [(Value.str "authextra", Value.dict a)] | none => [])

/-- `Welcome.marshal`'s details dict (`welcome.py:136-148`). -/
def Welcome.detailsDict (m : Welcome) : PyDict :=
  [(Value.str "roles", Value.dict m.roles)] ++
  (match m.authid with | some a => [(Value.str "authid", Value.str a)] | none => []) ++
  (match m.authrole with | some a => [(Value.str "authrole", Value.str a)] | none => []) ++
  (match m.authmethod with | some a => [(Value.str "authmethod", Value.str a)] | none => []) ++
  [(Value.str "authextra", Value.dict m.authextra)]

/-- `marshal()` of every class (last method of each file in `wampproto/messages`). -/
def Message.marshal : Message → List Value
  | .hello m => [.int Hello.TYPE, .str m.realm, .dict m.detailsDict]                            -- hello.py:120-132
  | .welcome m => [.int Welcome.TYPE, m.sessionId.toValue, .dict m.detailsDict]                 -- welcome.py:135-150
  | .abort m => [.int Abort.TYPE, .dict m.details, .str m.reason]                               -- abort.py:94-95
  | .challenge m => [.int Challenge.TYPE, .str m.authmethod, .dict m.extra]                     -- challenge.py:65-66
  | .authenticate m => [.int Authenticate.TYPE, .str m.signature, .dict m.extra]                -- authenticate.py:66-67
  | .goodbye m => [.int Goodbye.TYPE, .dict m.details, .str m.reason]                           -- goodbye.py:65-66
  | .call m => [.int Call.TYPE, m.requestId.toValue, .dict m.options, .str m.procedure]
      ++ payloadTail m.args m.kwargs                                                            -- call.py:148-159
  | .invocation m => [.int Invocation.TYPE, m.requestId.toValue, m.registrationId.toValue, .dict m.details]
      ++ payloadTail m.args m.kwargs                                                            -- invocation.py:147-158
  | .yield_ m => [.int Yield.TYPE, m.requestId.toValue, .dict m.options]
      ++ payloadTail m.args m.kwargs                                                            -- yield_.py:132-143
  | .result m => [.int Result.TYPE, m.requestId.toValue, .dict m.details]
      ++ payloadTail m.args m.kwargs                                                            -- result.py:132-143
  | .register m => [.int Register.TYPE, m.requestId.toValue, .dict m.options, .str m.procedure] -- register.py:79-80
  | .registered m => [.int Registered.TYPE, m.requestId.toValue, m.registrationId.toValue]      -- registered.py:66-67
  | .unregister m => [.int Unregister.TYPE, m.requestId.toValue, m.registrationId.toValue]      -- unregister.py:66-67
  | .unregistered m => [.int Unregistered.TYPE, m.requestId.toValue]                            -- unregistered.py:52-53
  | .subscribe m => [.int Subscribe.TYPE, m.requestId.toValue, .dict m.options, .str m.topic]   -- subscribe.py:80-81
  | .subscribed m => [.int Subscribed.TYPE, m.requestId.toValue, m.subscriptionId.toValue]      -- subscribed.py:66-67
  | .unsubscribe m => [.int Unsubscribe.TYPE, m.requestId.toValue, m.subscriptionId.toValue]    -- unsubscribe.py:66-67
  | .unsubscribed m => [.int Unsubscribed.TYPE, m.requestId.toValue]                            -- unsubscribed.py:52-53
  | .publish m => [.int Publish.TYPE, m.requestId.toValue, .dict m.options, .str m.topic]
      ++ payloadTail m.args m.kwargs                                                            -- publish.py:137-148
  | .published m => [.int Published.TYPE, m.requestId.toValue, m.publicationId.toValue]         -- published.py:65-66
  | .event m => [.int Event.TYPE, m.subscriptionId.toValue, m.publicationId.toValue, .dict m.details]
      ++ payloadTail m.args m.kwargs                                                            -- event.py:137-148
  | .error m => [.int ErrorMsg.TYPE, m.messageType.toValue, m.requestId.toValue, .dict m.details, .str m.uri]
      ++ payloadTail m.args m.kwargs                                                            -- error.py:152-163
  | .cancel m => [.int Cancel.TYPE, m.requestId.toValue, .dict m.options]                       -- cancel.py:65-66
  | .interrupt m => [.int Interrupt.TYPE, m.requestId.toValue, .dict m.options]                 -- interrupt.py:64-65

/-! ## Validation specs: the `VALIDATION_SPEC` class attributes -/

/-- `hello.py:73-81` -/
def Hello.spec : ValidationSpec := ⟨3, 3, "HELLO", [(1, validateRealm), (2, validateHelloDetails)]⟩
/-- `welcome.py:83-91` -/
def Welcome.spec : ValidationSpec := ⟨3, 3, "WELCOME", [(1, validateSessionId), (2, validateWelcomeDetails)]⟩
/-- `abort.py:57-67` -/
def Abort.spec : ValidationSpec :=
  ⟨3, 5, "ABORT", [(1, validateDetails), (2, validateReason), (3, validateArgs), (4, validateKwargs)]⟩
/-- `challenge.py:38-46` -/
def Challenge.spec : ValidationSpec := ⟨3, 3, "CHALLENGE", [(1, validateAuthmethod), (2, validateExtra)]⟩
/-- `authenticate.py:39-47` -/
def Authenticate.spec : ValidationSpec := ⟨3, 3, "AUTHENTICATE", [(1, validateSignature), (2, validateExtra)]⟩
/-- `goodbye.py:38-46` -/
def Goodbye.spec : ValidationSpec := ⟨3, 3, "GOODBYE", [(1, validateDetails), (2, validateReason)]⟩
/-- `call.py:92-103` -/
def Call.spec : ValidationSpec :=
  ⟨4, 6, "CALL", [(1, validateRequestId), (2, validateOptions), (3, validateProcedure), (4, validateArgs), (5, validateKwargs)]⟩
/-- `invocation.py:91-102` -/
def Invocation.spec : ValidationSpec :=
  ⟨4, 6, "INVOCATION", [(1, validateRequestId), (2, validateRegistrationId), (3, validateDetails), (4, validateArgs), (5, validateKwargs)]⟩
/-- `yield_.py:81-91` -/
def Yield.spec : ValidationSpec :=
  ⟨3, 5, "YIELD", [(1, validateRequestId), (2, validateOptions), (3, validateArgs), (4, validateKwargs)]⟩
/-- `result.py:81-91` -/
def Result.spec : ValidationSpec :=
  ⟨3, 5, "RESULT", [(1, validateRequestId), (2, validateDetails), (3, validateArgs), (4, validateKwargs)]⟩
/-- `register.py:47-56` -/
def Register.spec : ValidationSpec :=
  ⟨4, 4, "REGISTER", [(1, validateRequestId), (2, validateOptions), (3, validateProcedure)]⟩
/-- `registered.py:39-47` -/
def Registered.spec : ValidationSpec := ⟨3, 3, "REGISTERED", [(1, validateRequestId), (2, validateRegistrationId)]⟩
/-- `unregister.py:39-47` -/
def Unregister.spec : ValidationSpec := ⟨3, 3, "UNREGISTER", [(1, validateRequestId), (2, validateRegistrationId)]⟩
/-- `unregistered.py:30-37` -/
def Unregistered.spec : ValidationSpec := ⟨2, 2, "UNREGISTERED", [(1, validateRequestId)]⟩
/-- `subscribe.py:48-57` -/
def Subscribe.spec : ValidationSpec :=
  ⟨4, 4, "SUBSCRIBE", [(1, validateRequestId), (2, validateOptions), (3, validateTopic)]⟩
/-- `subscribed.py:39-47` -/
def Subscribed.spec : ValidationSpec := ⟨3, 3, "SUBSCRIBED", [(1, validateRequestId), (2, validateSubscriptionId)]⟩
/-- `unsubscribe.py:39-47` -/
def Unsubscribe.spec : ValidationSpec := ⟨3, 3, "UNSUBSCRIBE", [(1, validateRequestId), (2, validateSubscriptionId)]⟩
/-- `unsubscribed.py:30-37` -/
def Unsubscribed.spec : ValidationSpec := ⟨2, 2, "UNSUBSCRIBED", [(1, validateRequestId)]⟩
/-- `publish.py:84-95` -/
def Publish.spec : ValidationSpec :=
  ⟨4, 6, "PUBLISH", [(1, validateRequestId), (2, validateOptions), (3, validateTopic), (4, validateArgs), (5, validateKwargs)]⟩
/-- `published.py:38-46` -/
def Published.spec : ValidationSpec := ⟨3, 3, "PUBLISHED", [(1, validateRequestId), (2, validatePublicationId)]⟩
/-- `event.py:84-95` -/
def Event.spec : ValidationSpec :=
  ⟨4, 6, "EVENT", [(1, validateSubscriptionId), (2, validatePublicationId), (3, validateDetails), (4, validateArgs), (5, validateKwargs)]⟩
/-- `error.py:94-106` -/
def ErrorMsg.spec : ValidationSpec :=
  ⟨5, 7, "ERROR", [(1, validateMessageType), (2, validateRequestId), (3, validateDetails), (4, validateUri), (5, validateArgs), (6, validateKwargs)]⟩
/-- `cancel.py:38-46` -/
def Cancel.spec : ValidationSpec := ⟨3, 3, "CANCEL", [(1, validateRequestId), (2, validateOptions)]⟩
/-- `interrupt.py:37-45` -/
def Interrupt.spec : ValidationSpec := ⟨3, 3, "INTERRUPT", [(1, validateRequestId), (2, validateOptions)]⟩

/-! ## Parsing: the `parse` class methods -/

/-- Reading a field that validation has filled.  `None` here would put `None` into a message; the model has no such
message, so it reports `untyped` (proved unreachable). -/
def need {α : Type} (o : Option α) : Except Exc α :=
  match o with
  | some a => .ok a
  | none => .error .untyped

/-- `hello.py:107-118` -/
def Hello.parse (v : Value) : Except Exc Hello := do
  let f ← validateMessage v Hello.TYPE Hello.spec
  return { realm := ← need f.realm, roles := ← need f.roles, authid := f.authid, authmethods := f.authmethods, authextra := f.authextra }
/-- `welcome.py:121-133` -/
def Welcome.parse (v : Value) : Except Exc Welcome := do
  let f ← validateMessage v Welcome.TYPE Welcome.spec
  return { sessionId := ← need f.sessionId, roles := ← need f.roles, authid := f.authid, authrole := f.authrole, authmethod := f.authmethod, authextra := f.authextra.getD [] }
/-- `abort.py:89-92` -/
def Abort.parse (v : Value) : Except Exc Abort := do
  let f ← validateMessage v Abort.TYPE Abort.spec
  return { details := ← need f.details, reason := ← need f.reason, args := f.args, kwargs := f.kwargs }
/-- `challenge.py:60-63` -/
def Challenge.parse (v : Value) : Except Exc Challenge := do
  let f ← validateMessage v Challenge.TYPE Challenge.spec
  return { authmethod := ← need f.authmethod, extra := f.extra.getD [] }
/-- `authenticate.py:61-64` -/
def Authenticate.parse (v : Value) : Except Exc Authenticate := do
  let f ← validateMessage v Authenticate.TYPE Authenticate.spec
  return { signature := ← need f.signature, extra := f.extra.getD [] }
/-- `goodbye.py:60-63` -/
def Goodbye.parse (v : Value) : Except Exc Goodbye := do
  let f ← validateMessage v Goodbye.TYPE Goodbye.spec
  return { details := ← need f.details, reason := ← need f.reason }
/-- `call.py:143-146` -/
def Call.parse (v : Value) : Except Exc Call := do
  let f ← validateMessage v Call.TYPE Call.spec
  return { requestId := ← need f.requestId, procedure := ← need f.procedure, args := f.args, kwargs := f.kwargs, options_ := f.options.getD [] }
/-- `invocation.py:142-145` -/
def Invocation.parse (v : Value) : Except Exc Invocation := do
  let f ← validateMessage v Invocation.TYPE Invocation.spec
  return { requestId := ← need f.requestId, registrationId := ← need f.registrationId, args := f.args, kwargs := f.kwargs, details_ := f.details.getD [] }
/-- `yield_.py:127-130` -/
def Yield.parse (v : Value) : Except Exc Yield := do
  let f ← validateMessage v Yield.TYPE Yield.spec
  return { requestId := ← need f.requestId, args := f.args, kwargs := f.kwargs, options_ := f.options.getD [] }
/-- `result.py:127-130` -/
def Result.parse (v : Value) : Except Exc Result := do
  let f ← validateMessage v Result.TYPE Result.spec
  return { requestId := ← need f.requestId, args := f.args, kwargs := f.kwargs, details_ := f.details.getD [] }
/-- `register.py:74-77` -/
def Register.parse (v : Value) : Except Exc Register := do
  let f ← validateMessage v Register.TYPE Register.spec
  return { requestId := ← need f.requestId, procedure := ← need f.procedure, options := f.options.getD [] }
/-- `registered.py:61-64` -/
def Registered.parse (v : Value) : Except Exc Registered := do
  let f ← validateMessage v Registered.TYPE Registered.spec
  return { requestId := ← need f.requestId, registrationId := ← need f.registrationId }
/-- `unregister.py:61-64` -/
def Unregister.parse (v : Value) : Except Exc Unregister := do
  let f ← validateMessage v Unregister.TYPE Unregister.spec
  return { requestId := ← need f.requestId, registrationId := ← need f.registrationId }
/-- `unregistered.py:47-50` -/
def Unregistered.parse (v : Value) : Except Exc Unregistered := do
  let f ← validateMessage v Unregistered.TYPE Unregistered.spec
  return { requestId := ← need f.requestId }
/-- `subscribe.py:75-78` -/
def Subscribe.parse (v : Value) : Except Exc Subscribe := do
  let f ← validateMessage v Subscribe.TYPE Subscribe.spec
  return { requestId := ← need f.requestId, topic := ← need f.topic, options := f.options.getD [] }
/-- `subscribed.py:61-64` -/
def Subscribed.parse (v : Value) : Except Exc Subscribed := do
  let f ← validateMessage v Subscribed.TYPE Subscribed.spec
  return { requestId := ← need f.requestId, subscriptionId := ← need f.subscriptionId }
/-- `unsubscribe.py:61-64` -/
def Unsubscribe.parse (v : Value) : Except Exc Unsubscribe := do
  let f ← validateMessage v Unsubscribe.TYPE Unsubscribe.spec
  return { requestId := ← need f.requestId, subscriptionId := ← need f.subscriptionId }
/-- `unsubscribed.py:47-50` -/
def Unsubscribed.parse (v : Value) : Except Exc Unsubscribed := do
  let f ← validateMessage v Unsubscribed.TYPE Unsubscribed.spec
  return { requestId := ← need f.requestId }
/-- `publish.py:132-135` -/
def Publish.parse (v : Value) : Except Exc Publish := do
  let f ← validateMessage v Publish.TYPE Publish.spec
  return { requestId := ← need f.requestId, topic := ← need f.topic, args := f.args, kwargs := f.kwargs, options := f.options.getD [] }
/-- `published.py:60-63` -/
def Published.parse (v : Value) : Except Exc Published := do
  let f ← validateMessage v Published.TYPE Published.spec
  return { requestId := ← need f.requestId, publicationId := ← need f.publicationId }
/-- `event.py:132-135` -/
def Event.parse (v : Value) : Except Exc Event := do
  let f ← validateMessage v Event.TYPE Event.spec
  return { subscriptionId := ← need f.subscriptionId, publicationId := ← need f.publicationId, args := f.args, kwargs := f.kwargs, details := f.details.getD [] }
/-- `error.py:147-150` -/
def ErrorMsg.parse (v : Value) : Except Exc ErrorMsg := do
  let f ← validateMessage v ErrorMsg.TYPE ErrorMsg.spec
  return { messageType := ← need f.messageType, requestId := ← need f.requestId, uri := ← need f.uri, args := f.args, kwargs := f.kwargs, details := f.details.getD [] }
/-- `cancel.py:60-63` -/
def Cancel.parse (v : Value) : Except Exc Cancel := do
  let f ← validateMessage v Cancel.TYPE Cancel.spec
  return { requestId := ← need f.requestId, options := f.options.getD [] }
/-- `interrupt.py:59-62` -/
def Interrupt.parse (v : Value) : Except Exc Interrupt := do
  let f ← validateMessage v Interrupt.TYPE Interrupt.spec
  return { requestId := ← need f.requestId, options := f.options.getD [] }

/-- `to_message` (`serializers/serializer.py:17-75`).  `match message_type: case X.TYPE` compares with `==` in source
order; `message[0]` of an empty list raises `IndexError`. -/
def toMessage (v : Value) : Except Exc Message :=
  match v.asList? with
  | none => .error (.typeError ("invalid type '" ++ v.pyType ++ "', expected a list"))
  | some msg =>
    match index msg 0 with
    | .error e => .error e
    | .ok first =>
      match first.asInt? with
      | none => .error (.typeError ("invalid message type '" ++ first.pyType ++ "', expected an integer"))
      | some t =>
        if t.val = Hello.TYPE then (Hello.parse v).map .hello
        else if t.val = Welcome.TYPE then (Welcome.parse v).map .welcome
        else if t.val = Abort.TYPE then (Abort.parse v).map .abort
        else if t.val = Challenge.TYPE then (Challenge.parse v).map .challenge
        else if t.val = Authenticate.TYPE then (Authenticate.parse v).map .authenticate
        else if t.val = Goodbye.TYPE then (Goodbye.parse v).map .goodbye
        else if t.val = Call.TYPE then (Call.parse v).map .call
        else if t.val = Invocation.TYPE then (Invocation.parse v).map .invocation
        else if t.val = Yield.TYPE then (Yield.parse v).map .yield_
        else if t.val = Result.TYPE then (Result.parse v).map .result
        else if t.val = Register.TYPE then (Register.parse v).map .register
        else if t.val = Registered.TYPE then (Registered.parse v).map .registered
        else if t.val = Unregister.TYPE then (Unregister.parse v).map .unregister
        else if t.val = Unregistered.TYPE then (Unregistered.parse v).map .unregistered
        else if t.val = Subscribe.TYPE then (Subscribe.parse v).map .subscribe
        else if t.val = Subscribed.TYPE then (Subscribed.parse v).map .subscribed
        else if t.val = Unsubscribe.TYPE then (Unsubscribe.parse v).map .unsubscribe
        else if t.val = Unsubscribed.TYPE then (Unsubscribed.parse v).map .unsubscribed
        else if t.val = Publish.TYPE then (Publish.parse v).map .publish
        else if t.val = Published.TYPE then (Published.parse v).map .published
        else if t.val = Event.TYPE then (Event.parse v).map .event
        else if t.val = ErrorMsg.TYPE then (ErrorMsg.parse v).map .error
        else if t.val = Cancel.TYPE then (Cancel.parse v).map .cancel
        else if t.val = Interrupt.TYPE then (Interrupt.parse v).map .interrupt
        else .error (.valueError "unknown message type")

end Wamp
