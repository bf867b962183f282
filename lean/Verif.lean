import Verif.Conformance.Broker
import Verif.Conformance.Crypto
import Verif.Conformance.Dealer
import Verif.Conformance.Handshake
import Verif.Conformance.Messages
import Verif.Conformance.Session
import Verif.Model.Acceptor
import Verif.Model.Auth
import Verif.Model.Broker
import Verif.Model.Bytes
import Verif.Model.Cbor
import Verif.Model.Dealer
import Verif.Model.Dict
import Verif.Model.Encoding
import Verif.Model.Float
import Verif.Model.Hmac
import Verif.Model.Idgen
import Verif.Model.Joiner
import Verif.Model.Json
import Verif.Model.Legacy
import Verif.Model.Messages
import Verif.Model.MsgPack
import Verif.Model.Py
import Verif.Model.RawSocket
import Verif.Model.Serializer
import Verif.Model.Session
import Verif.Model.Sharing
import Verif.Model.Types
import Verif.Model.Util
import Verif.Proofs.AcceptorInv
import Verif.Proofs.Arrives
import Verif.Proofs.Base64Read
import Verif.Proofs.BrokerIds
import Verif.Proofs.BrokerInv
import Verif.Proofs.BrokerRel
import Verif.Proofs.BrokerView
import Verif.Proofs.ByteNet
import Verif.Proofs.Bytes
import Verif.Proofs.Cbor
import Verif.Proofs.Complaints
import Verif.Proofs.Conforms
import Verif.Proofs.Contents
import Verif.Proofs.DealerInv
import Verif.Proofs.DealerRel
import Verif.Proofs.DealerView
import Verif.Proofs.DetailsOk
import Verif.Proofs.DictLemmas
import Verif.Proofs.Encoding
import Verif.Proofs.Encodings
import Verif.Proofs.ErrorsTrue
import Verif.Proofs.Float
import Verif.Proofs.Formats
import Verif.Proofs.Hmac
import Verif.Proofs.JoinerInv
import Verif.Proofs.Json
import Verif.Proofs.KeepsType
import Verif.Proofs.Lists
import Verif.Proofs.LoginEnds
import Verif.Proofs.LoginSucceeds
import Verif.Proofs.MsgPack
import Verif.Proofs.NetBase
import Verif.Proofs.NetConn
import Verif.Proofs.NetLive
import Verif.Proofs.NetLost
import Verif.Proofs.NetOnce
import Verif.Proofs.NetPub
import Verif.Proofs.NetRest
import Verif.Proofs.NetRpc
import Verif.Proofs.NetStory
import Verif.Proofs.NetStream
import Verif.Proofs.NetUnanswered
import Verif.Proofs.NetWait
import Verif.Proofs.Numbers
import Verif.Proofs.OneReading
import Verif.Proofs.ParseOk
import Verif.Proofs.Refuses
import Verif.Proofs.Renaming
import Verif.Proofs.RenamingDealer
import Verif.Proofs.Rfc4648
import Verif.Proofs.Room
import Verif.Proofs.RoomNet
import Verif.Proofs.SessionStep
import Verif.Proofs.SessionView
import Verif.Proofs.Sharing
import Verif.Proofs.Shortest
import Verif.Proofs.Slots
import Verif.Proofs.SpecRun
import Verif.Proofs.SpellingsCbor
import Verif.Proofs.SpellingsJson
import Verif.Proofs.SpellingsMsgPack
import Verif.Proofs.Stack
import Verif.Proofs.Strangers
import Verif.Proofs.ToMessage
import Verif.Proofs.Truncated
import Verif.Proofs.TruncatedJson
import Verif.Proofs.WireLemmas
import Verif.Props.Acceptor
import Verif.Props.AcceptorExact
import Verif.Props.Answers
import Verif.Props.Arrives
import Verif.Props.AsNew
import Verif.Props.Asked
import Verif.Props.Auth
import Verif.Props.Broker
import Verif.Props.BrokerEffects
import Verif.Props.BrokerTable
import Verif.Props.BrokerWrap
import Verif.Props.Bystanders
import Verif.Props.ByteContents
import Verif.Props.ByteNet
import Verif.Props.Challenge
import Verif.Props.Channels
import Verif.Props.Complaints
import Verif.Props.Connection
import Verif.Props.Contents
import Verif.Props.Dealer
import Verif.Props.DealerEffects
import Verif.Props.DealerExact
import Verif.Props.DealerPayload
import Verif.Props.DealerTable
import Verif.Props.DealerWrap
import Verif.Props.Departed
import Verif.Props.Flood
import Verif.Props.Formats
import Verif.Props.Handshake
import Verif.Props.HandshakeFormats
import Verif.Props.Idgen
import Verif.Props.Joiner
import Verif.Props.LastWord
import Verif.Props.Legacy
import Verif.Props.LoginEnds
import Verif.Props.LoginSucceeds
import Verif.Props.Members
import Verif.Props.Neighbours
import Verif.Props.Network
import Verif.Props.NetworkRest
import Verif.Props.NetworkRpc
import Verif.Props.NetworkStory
import Verif.Props.NetworkStream
import Verif.Props.NetworkUnanswered
import Verif.Props.NetworkWait
import Verif.Props.Newcomers
import Verif.Props.Numbers
import Verif.Props.Order
import Verif.Props.Overheard
import Verif.Props.OverheardBytes
import Verif.Props.Payload
import Verif.Props.Present
import Verif.Props.PresentExact
import Verif.Props.Progressive
import Verif.Props.RawSocket
import Verif.Props.RawSocketStream
import Verif.Props.Refused
import Verif.Props.RefusedFormats
import Verif.Props.Renaming
import Verif.Props.Room
import Verif.Props.Secrecy
import Verif.Props.Secret
import Verif.Props.Server
import Verif.Props.Session
import Verif.Props.SessionGrammar
import Verif.Props.SessionIds
import Verif.Props.Sharing
import Verif.Props.SharingExact
import Verif.Props.Shortest
import Verif.Props.Slots
import Verif.Props.Spelling
import Verif.Props.Spellings
import Verif.Props.Stack
import Verif.Props.StackLost
import Verif.Props.StackRest
import Verif.Props.Strangers
import Verif.Props.Tally
import Verif.Props.TallyBytes
import Verif.Props.Tenants
import Verif.Props.Undone
import Verif.Props.Unrelated
import Verif.Props.Unseen
import Verif.Props.Visitors
import Verif.Props.Wire
import Verif.Props.WireErrors
import Verif.Spec.Acceptor
import Verif.Spec.Answers
import Verif.Spec.Arrives
import Verif.Spec.AsNew
import Verif.Spec.Asked
import Verif.Spec.Broker
import Verif.Spec.BrokerTable
import Verif.Spec.ByteNet
import Verif.Spec.Channels
import Verif.Spec.Complaints
import Verif.Spec.Connection
import Verif.Spec.Contents
import Verif.Spec.Dealer
import Verif.Spec.DealerTable
import Verif.Spec.Effects
import Verif.Spec.Encoding
import Verif.Spec.Encodings
import Verif.Spec.Flood
import Verif.Spec.Formats
import Verif.Spec.Frames
import Verif.Spec.Handshake
import Verif.Spec.Hmac
import Verif.Spec.Joiner
import Verif.Spec.LoginEnds
import Verif.Spec.Members
import Verif.Spec.Neighbours
import Verif.Spec.Network
import Verif.Spec.Newcomers
import Verif.Spec.Numbers
import Verif.Spec.Order
import Verif.Spec.Overheard
import Verif.Spec.Present
import Verif.Spec.Renaming
import Verif.Spec.Rest
import Verif.Spec.Roles
import Verif.Spec.Room
import Verif.Spec.Secrecy
import Verif.Spec.Server
import Verif.Spec.Session
import Verif.Spec.SessionIds
import Verif.Spec.Slots
import Verif.Spec.Spellings
import Verif.Spec.Stack
import Verif.Spec.StackLost
import Verif.Spec.StackRest
import Verif.Spec.Story
import Verif.Spec.Strangers
import Verif.Spec.Stream
import Verif.Spec.Tally
import Verif.Spec.Tenants
import Verif.Spec.Unrelated
import Verif.Spec.Visitors
import Verif.Spec.Wait
import Verif.Spec.Wire
