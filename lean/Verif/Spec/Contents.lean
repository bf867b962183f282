import Verif.Model.Dealer

/-!
# Messages without their contents

What a client sends through a router to another client: args, kwargs, binary payload, error URI and error details.  `bare`
takes all that away, and every option the router has no use for.  `fill` puts it into the message the router made.
-/

namespace Wamp.Spec.Contents

/-- The entries of a dict under some keys. -/
def only (keys : List String) (d : PyDict) : PyDict :=
  keys.filterMap fun k => (PyDict.get? d k).map fun v => (Value.str k, v)

/-- The message without its contents. -/
def bare : Message → Message
  | .call m => .call { requestId := m.requestId, procedure := m.procedure, options_ := only ["receive_progress", "progress"] m.options_ }
  | .yield_ m => .yield_ { requestId := m.requestId, options_ := only ["progress"] m.options_ }
  | .error m => .error { messageType := m.messageType, requestId := m.requestId, uri := "" }
  | .register m => .register { requestId := m.requestId, procedure := m.procedure }
  | .subscribe m => .subscribe { requestId := m.requestId, topic := m.topic }
  | m => m

/-- The publication without its contents. -/
def barePublish (m : Publish) : Publish :=
  { requestId := m.requestId, topic := m.topic, options := only ["acknowledge"] m.options }

/-- Who has joined, without what else is known of them. -/
def anyone (d : SessionDetails) : SessionDetails := { sessionId := .int d.sessionId.val, realm := "" }

/-- The call of the broker's API without contents. -/
def barePub : Broker.Op → Broker.Op
  | .addSession d => .addSession (anyone d)
  | .receiveMessage s m => .receiveMessage s (bare m)
  | .receivePublish s m => .receivePublish s (barePublish m)
  | op => op

/-- The call of the dealer's API without contents. -/
def bareRpc : Dealer.Op → Dealer.Op
  | .addSession d => .addSession (anyone d)
  | .receiveMessage s m => .receiveMessage s (bare m)
  | op => op

/-- The contents of the first message put into the second. -/
def fill : Message → Message → Message
  | .call m, .invocation i => .invocation { i with args := m.args, kwargs := m.kwargs, payload := m.payload, serializer := m.serializer }
  | .yield_ m, .result r => .result { r with args := m.args, kwargs := m.kwargs }
  | .error m, .error e => .error { e with uri := m.uri, args := m.args, kwargs := m.kwargs, details := m.details }
  | _, x => x

/-- The contents of a call of the broker's API put into what it returned. -/
def fillPub : Broker.Op → Broker.Out → Broker.Out
  | .receivePublish _ m, .publication p =>
    .publication { p with event := p.event.map fun e => { e with args := m.args, kwargs := m.kwargs } }
  | _, x => x

/-- The contents of a call of the dealer's API put into what it returned. -/
def fillRpc : Dealer.Op → Dealer.Out → Dealer.Out
  | .receiveMessage _ m, .reply r => .reply ⟨fill m r.message, r.recipient⟩
  | _, x => x

end Wamp.Spec.Contents
