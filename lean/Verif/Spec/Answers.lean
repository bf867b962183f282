import Verif.Model.Auth

/-!
# What a CHALLENGE asks of a client
-/

namespace Wamp.Spec

/-- There is no such entry, or it is `None`. -/
def Unset (d : PyDict) (k : String) : Prop := PyDict.get? d k = none ∨ PyDict.get? d k = some .none

/-- The entry is missing or zero. -/
def IsZero (d : PyDict) (k : String) : Prop := ∀ v, PyDict.get? d k = some v → v.eqInt 0 = true

/-- What the CHALLENGE asks a WAMP-CRA client to sign with: the secret, or what PBKDF2 makes of it -/
inductive CraKey (cr : Crypto) (secret : String) (extra : PyDict) : Bytes → Prop where
  | plain (h : Unset extra "salt") : CraKey cr secret extra (utf8 secret)
  | salted (salt : String) (iterations keylen : Value) (dk : Bytes) (h1 : PyDict.get? extra "salt" = some (.str salt))
      (h2 : PyDict.get? extra "iterations" = some iterations) (h3 : PyDict.get? extra "keylen" = some keylen)
      (h4 : iterations.eqInt 0 = false) (h5 : keylen.eqInt 0 = false)
      (h6 : cr.pbkdf2 (utf8 secret) (utf8 salt) iterations keylen = .ok dk) : CraKey cr secret extra (utf8 (b64encode dk))

/-- Why a WAMP-CRA client does not answer -/
inductive CraRefusal (cr : Crypto) (secret : String) (extra : PyDict) : Exc → Prop where
  | oddSalt (v : Value) (h : PyDict.get? extra "salt" = some v) (h1 : v ≠ .none) (h2 : ∀ s, v ≠ .str s) : CraRefusal cr secret extra .attributeError
  | iterations (s : String) (h : PyDict.get? extra "salt" = some (.str s)) (h1 : IsZero extra "iterations") :
      CraRefusal cr secret extra (.valueError "iterations string required in extra & should be greater than 0")
  | keylen (s : String) (h : PyDict.get? extra "salt" = some (.str s)) (h1 : ¬ IsZero extra "iterations") (h2 : IsZero extra "keylen") :
      CraRefusal cr secret extra (.valueError "keylen string missing in extra & should be greater than 0")
  | pbkdf2 (salt : String) (iterations keylen : Value) (e : Exc) (h1 : PyDict.get? extra "salt" = some (.str salt))
      (h2 : PyDict.get? extra "iterations" = some iterations) (h3 : PyDict.get? extra "keylen" = some keylen)
      (h4 : iterations.eqInt 0 = false) (h5 : keylen.eqInt 0 = false)
      (h6 : cr.pbkdf2 (utf8 secret) (utf8 salt) iterations keylen = .error e) : CraRefusal cr secret extra e
  | missing (k : Bytes) (h : CraKey cr secret extra k) (h1 : PyDict.get? extra "challenge" = none) : CraRefusal cr secret extra .keyError
  | oddChallenge (k : Bytes) (v : Value) (h : CraKey cr secret extra k) (h1 : PyDict.get? extra "challenge" = some v) (h2 : ∀ s, v ≠ .str s) :
      CraRefusal cr secret extra .attributeError

end Wamp.Spec
