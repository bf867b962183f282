import Verif.Model.Py

/-!
# Field validation — `wampproto/messages/util.py`, `validation_spec.py`

The legacy helpers `validate_*_or_raise` of `util.py:29-83` that raise
`InvalidRealmError`/`InvalidUriError`/... are not called by any message class; they are modelled in
`Model/Legacy.lean`.
-/

namespace Wamp

/-- `MIN_ID` (`util.py:8`) -/
def MIN_ID : Int := 1
/-- `MAX_ID = 2**53` (`util.py:9`) -/
def MAX_ID : Int := 2 ^ 53

/-- `AllowedRoles.get_allowed_roles()` (`util.py:16-26`) -/
def allowedRoles : List String :=
  ["callee", "caller", "publisher", "subscriber", "dealer", "broker"]

/-- The text of a field error: the format strings of `exceptions.py:3-7`, filled in as in `util.py:135-177`, `238-300`,
and the two role texts (`util.py:310-320`). -/
def FieldError.text : FieldError → String
  | .dataType message i expected actual =>
    message ++ ": value at index " ++ toString i ++ " must be of type '" ++ expected ++ "' but was " ++ actual
  | .range message i start stop actual =>
    message ++ ": value at index " ++ toString i ++ " must be between '" ++ toString start ++ "' and '" ++ toString stop
      ++ "' but was " ++ actual.toValue.pyStr
  | .detail message i key expected actual =>
    message ++ ": value at index " ++ toString i ++ " for key '" ++ key ++ "' must be of type '" ++ expected
      ++ "' but was " ++ actual
  | .rolesEmpty message i =>
    message ++ ": value at index " ++ toString i ++ " for roles key must be in "
      ++ (Value.list (allowedRoles.map .str)).pyRepr ++ " but was empty"
  | .rolesInvalid message i role =>
    message ++ ": value at index " ++ toString i ++ " for roles key must be in "
      ++ (Value.list (allowedRoles.map .str)).pyRepr ++ " but was " ++ role.pyStr

/-- `str(ValueError(*errors))`: the text itself for one argument, the `repr` of the tuple for several. -/
def errorsText : List FieldError → String
  | [e] => e.text
  | es => "(" ++ ", ".intercalate (es.map fun e => Value.reprStr e.text) ++ ")"

/-- `class Fields` (`util.py:101-132`): everything starts as `None`.  `realm_` to `registrationId` in source
order; annotated types. -/
structure Fields where
  requestId : Option PyInt := none
  uri : Option String := none
  procedure : Option String := none
  args : Option (List Value) := none
  kwargs : Option PyDict := none
  sessionId : Option PyInt := none
  realm : Option String := none
  authid : Option String := none
  authrole : Option String := none
  authmethod : Option String := none
  authmethods : Option (List Value) := none
  authextra : Option PyDict := none
  roles : Option PyDict := none
  messageType : Option PyInt := none
  signature : Option String := none
  reason : Option String := none
  topic : Option String := none
  extra : Option PyDict := none
  options : Option PyDict := none
  details : Option PyDict := none
  subscriptionId : Option PyInt := none
  publicationId : Option PyInt := none
  registrationId : Option PyInt := none

/-- A validator `func(msg, index, fields, name)`: mutates `fields` and returns the errors found (`None` and
"no errors" are both `[]`; a single error string is a one-element list, as `validate_message`
treats them, `util.py:466-467`).  Indexing may raise `IndexError`. -/
abbrev Validator := List Value → Nat → Fields → String → Except Exc (Fields × List FieldError)

/-- `msg[index]` -/
def index (msg : List Value) (i : Nat) : Except Exc Value :=
  match msg[i]? with
  | some v => .ok v
  | none => .error .indexError

/-- `validate_int_or_raise` (`util.py:135-141`), returning the int on success. -/
def validateInt (v : Value) (i : Nat) (name : String) : Except FieldError PyInt :=
  match v.asInt? with
  | some n => .ok n
  | none => .error (.dataType name i "int" v.typeName)

/-- `validate_string_or_raise` (`util.py:144-150`) -/
def validateString (v : Value) (i : Nat) (name : String) : Except FieldError String :=
  match v.asStr? with
  | some s => .ok s
  | none => .error (.dataType name i "string" v.typeName)

/-- `validate_list_or_raise` (`util.py:153-159`) -/
def validateList (v : Value) (i : Nat) (name : String) : Except FieldError (List Value) :=
  match v.asList? with
  | some s => .ok s
  | none => .error (.dataType name i "list" v.typeName)

/-- `validate_dict_or_raise` (`util.py:162-168`) -/
def validateDict (v : Value) (i : Nat) (name : String) : Except FieldError PyDict :=
  match v.asDict? with
  | some s => .ok s
  | none => .error (.dataType name i "dict" v.typeName)

/-- `validate_id_or_raise` (`util.py:171-177`) -/
def validateId (v : Value) (i : Nat) (name : String) : Except FieldError PyInt :=
  match validateInt v i name with
  | .error e => .error e
  | .ok n =>
    if n.val < MIN_ID || n.val > MAX_ID then .error (.range name i MIN_ID MAX_ID n)
    else .ok n

/-- The common shape of `validate_request_id`, `validate_uri`, ... (`util.py:180-201`, `222-235`, ...):
check `msg[index]`, return the error or store the value. -/
def fieldValidator {α : Type} (check : Value → Nat → String → Except FieldError α)
    (store : Fields → α → Fields) : Validator := fun msg i f name =>
  match index msg i with
  | .error e => .error e
  | .ok v =>
    match check v i name with
    | .error e => .ok (f, [e])
    | .ok a => .ok (store f a, [])

/-- `validate_request_id` (`util.py:180-185`) -/
def validateRequestId : Validator := fieldValidator validateId fun f n => { f with requestId := some n }
/-- `validate_uri` (`util.py:188-193`) -/
def validateUri : Validator := fieldValidator validateString fun f s => { f with uri := some s }
/-- `validate_procedure` (`util.py:196-201`) -/
def validateProcedure : Validator := fieldValidator validateString fun f s => { f with procedure := some s }
/-- `validate_session_id` (`util.py:222-227`) -/
def validateSessionId : Validator := fieldValidator validateId fun f n => { f with sessionId := some n }
/-- `validate_realm` (`util.py:230-235`) -/
def validateRealm : Validator := fieldValidator validateString fun f s => { f with realm := some s }
/-- `validate_authmethod` (`util.py:260-265`) -/
def validateAuthmethod : Validator := fieldValidator validateString fun f s => { f with authmethod := some s }
/-- `validate_message_type` (`util.py:326-331`) -/
def validateMessageType : Validator := fieldValidator validateInt fun f n => { f with messageType := some n }
/-- `validate_signature` (`util.py:334-339`) -/
def validateSignature : Validator := fieldValidator validateString fun f s => { f with signature := some s }
/-- `validate_reason` (`util.py:342-347`) -/
def validateReason : Validator := fieldValidator validateString fun f s => { f with reason := some s }
/-- `validate_topic` (`util.py:350-355`) -/
def validateTopic : Validator := fieldValidator validateString fun f s => { f with topic := some s }
/-- `validate_extra` (`util.py:358-363`) -/
def validateExtra : Validator := fieldValidator validateDict fun f d => { f with extra := some d }
/-- `validate_options` (`util.py:366-371`) -/
def validateOptions : Validator := fieldValidator validateDict fun f d => { f with options := some d }
/-- `validate_details` (`util.py:374-379`) -/
def validateDetails : Validator := fieldValidator validateDict fun f d => { f with details := some d }
/-- `validate_subscription_id` (`util.py:436-441`) -/
def validateSubscriptionId : Validator := fieldValidator validateId fun f n => { f with subscriptionId := some n }
/-- `validate_publication_id` (`util.py:444-449`) -/
def validatePublicationId : Validator := fieldValidator validateId fun f n => { f with publicationId := some n }
/-- `validate_registration_id` (`util.py:452-457`) -/
def validateRegistrationId : Validator := fieldValidator validateId fun f n => { f with registrationId := some n }

/-- `validate_args` (`util.py:204-210`): optional element. -/
def validateArgs : Validator := fun msg i f name =>
  if msg.length > i then fieldValidator validateList (fun f l => { f with args := some l }) msg i f name
  else .ok (f, [])

/-- `validate_kwargs` (`util.py:213-219`): optional element. -/
def validateKwargs : Validator := fun msg i f name =>
  if msg.length > i then fieldValidator validateDict (fun f d => { f with kwargs := some d }) msg i f name
  else .ok (f, [])

/-- The common shape of `validate_authid`, `validate_authrole`, `validate_authmethods`,
`validate_welcome_authmethod`, `validate_authextra` (`util.py:238-300`): an absent or `None` entry is fine
and stored as `None`; otherwise it must have the given type. -/
def detailEntry {α : Type} (as? : Value → Option α) (key expected : String) (store : Fields → Option α → Fields)
    (details : PyDict) (i : Nat) (f : Fields) (name : String) : Fields × List FieldError :=
  match PyDict.getD details key with
  | .none => (store f none, [])
  | v =>
    match as? v with
    | some a => (store f (some a), [])
    | none => (f, [.detail name i key expected v.typeName])

/-- `validate_authid` (`util.py:238-246`) -/
def validateAuthid := detailEntry Value.asStr? "authid" "string" fun f v => { f with authid := v }
/-- `validate_authrole` (`util.py:249-257`) -/
def validateAuthrole := detailEntry Value.asStr? "authrole" "string" fun f v => { f with authrole := v }
/-- `validate_authmethods` (`util.py:268-277`) -/
def validateAuthmethods := detailEntry Value.asList? "authmethods" "list" fun f v => { f with authmethods := v }
/-- `validate_welcome_authmethod` (`util.py:280-288`) -/
def validateWelcomeAuthmethod := detailEntry Value.asStr? "authmethod" "string" fun f v => { f with authmethod := v }
/-- `validate_authextra` (`util.py:291-300`) -/
def validateAuthextra := detailEntry Value.asDict? "authextra" "dict" fun f v => { f with authextra := v }

/-- `role in AllowedRoles.get_allowed_roles()` (`util.py:316`): a key that is not a string is not in the list. -/
def roleAllowed (role : Value) : Bool :=
  match role with
  | .str s => allowedRoles.contains s
  | _ => false

/-- The loop `for role in roles` (`util.py:315-320`): error for the first role not allowed. -/
def firstBadRole : PyDict → Option Value
  | [] => none
  | (role, _) :: rest => if roleAllowed role then firstBadRole rest else some role

/-- `validate_roles` (`util.py:303-323`) -/
def validateRoles (details : PyDict) (i : Nat) (f : Fields) (name : String) : Fields × List FieldError :=
  let roles := PyDict.getD details "roles"
  match roles.asDict? with
  | none => (f, [.detail name i "roles" "dict" roles.typeName])
  | some d =>
    if d.length = 0 then (f, [.rolesEmpty name i])
    else
      match firstBadRole d with
      | some role => (f, [.rolesInvalid name i role])
      | none => ({ f with roles := some d }, [])

/-- Threads the mutable `fields` and the `errors` list through a sequence of detail validators
(the repeated `if (error := ...) is not None: errors.append(error)` of `util.py:387-400`, `414-427`). -/
def seqDetails (vs : List (PyDict → Nat → Fields → String → Fields × List FieldError))
    (d : PyDict) (i : Nat) (f : Fields) (name : String) : Fields × List FieldError :=
  match vs with
  | [] => (f, [])
  | v :: rest =>
    let (f1, e1) := v d i f name
    let (f2, e2) := seqDetails rest d i f1 name
    (f2, e1 ++ e2)

/-- The common shape of `validate_hello_details` / `validate_welcome_details`: type check, then the entries; the
details are stored only if there was no error (`util.py:402-406`, `429-433`). -/
def detailsValidator (vs : List (PyDict → Nat → Fields → String → Fields × List FieldError)) : Validator :=
  fun msg i f name =>
    match index msg i with
    | .error e => .error e
    | .ok v =>
      match validateDict v i name with
      | .error e => .ok (f, [e])
      | .ok d =>
        let (f', errors) := seqDetails vs d i f name
        if errors.length > 0 then .ok (f', errors)
        else .ok ({ f' with details := some d }, [])

/-- `validate_hello_details` (`util.py:382-406`) -/
def validateHelloDetails : Validator :=
  detailsValidator [validateAuthid, validateAuthrole, validateAuthmethods, validateRoles, validateAuthextra]
/-- `validate_welcome_details` (`util.py:409-433`) -/
def validateWelcomeDetails : Validator :=
  detailsValidator [validateRoles, validateAuthid, validateAuthrole, validateAuthextra, validateWelcomeAuthmethod]

/-- `class ValidationSpec` (`validation_spec.py:4-9`); `spec` is a dict literal with ascending keys, iterated in
order. -/
structure ValidationSpec where
  minLength : Nat
  maxLength : Nat
  message : String
  spec : List (Nat × Validator)

/-- `sanity_check` (`util.py:86-98`); returns the list so that later code can use it. -/
def sanityCheck (v : Value) (minLength maxLength : Nat) (expectedId : Int) (name : String) : Except Exc (List Value) :=
  match v.asList? with
  | none => .error (.valueError ("invalid message type " ++ v.typeName ++ " for " ++ name ++ ", type should be a list"))
  | some msg =>
    if msg.length < minLength then
      .error (.valueError ("invalid message length " ++ toString msg.length ++ ", must be at least " ++ toString minLength))
    else if msg.length > maxLength then
      .error (.valueError ("invalid message length " ++ toString msg.length ++ ", must be at most " ++ toString maxLength))
    else
      match index msg 0 with
      | .error e => .error e
      | .ok messageId =>
        if !(messageId.eqInt expectedId) then
          .error (.valueError ("invalid message id " ++ messageId.pyStr ++ " for " ++ name ++ ", expected " ++ toString expectedId))
        else .ok msg

/-- The loop of `validate_message` (`util.py:463-467`). -/
def runSpec (spec : List (Nat × Validator)) (msg : List Value) (f : Fields) (name : String) :
    Except Exc (Fields × List FieldError) :=
  match spec with
  | [] => .ok (f, [])
  | (idx, func) :: rest =>
    match func msg idx f name with
    | .error e => .error e
    | .ok (f1, e1) =>
      match runSpec rest msg f1 name with
      | .error e => .error e
      | .ok (f2, e2) => .ok (f2, e1 ++ e2)

/-- `validate_message` (`util.py:460-472`) -/
def validateMessage (v : Value) (type_ : Int) (s : ValidationSpec) : Except Exc Fields :=
  match sanityCheck v s.minLength s.maxLength type_ s.message with
  | .error e => .error e
  | .ok msg =>
    match runSpec s.spec msg {} s.message with
    | .error e => .error e
    | .ok (f, errors) => if errors.length ≠ 0 then .error (.invalid errors) else .ok f

end Wamp
