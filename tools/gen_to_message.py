classes=[("Hello","hello",1,"HELLO"),("Welcome","welcome",2,"WELCOME"),("Abort","abort",3,"ABORT"),("Challenge","challenge",4,"CHALLENGE"),("Authenticate","authenticate",5,""),("Goodbye","goodbye",6,""),("Call","call",48,""),("Invocation","invocation",68,""),("Yield","yield_",70,""),("Result","result",50,""),("Register","register",64,""),("Registered","registered",65,""),("Unregister","unregister",66,""),("Unregistered","unregistered",67,""),("Subscribe","subscribe",32,""),("Subscribed","subscribed",33,""),("Unsubscribe","unsubscribe",34,""),("Unsubscribed","unsubscribed",35,""),("Publish","publish",16,""),("Published","published",17,""),("Event","event",36,""),("ErrorMsg","error",8,""),("Cancel","cancel",49,""),("Interrupt","interrupt",69,"")]
o=[]
P=o.append
P('''import Verif.Proofs.SpecRun
import Verif.Proofs.ParseOk

set_option linter.unusedSimpArgs false

/-! `to_message` in terms of the grammar rows. -/

namespace Wamp
open Spec
''')
for v,k,c in [("RequestId","id","Id"),("SessionId","id","Id"),("SubscriptionId","id","Id"),("PublicationId","id","Id"),("RegistrationId","id","Id"),("Uri","str","String"),("Procedure","str","String"),("Realm","str","String"),("Authmethod","str","String"),("Signature","str","String"),("Reason","str","String"),("Topic","str","String"),("MessageType","int","Int"),("Extra","dict","Dict"),("Options","dict","Dict"),("Details","dict","Dict")]:
    P(f"theorem validate{v}_impl : Impl validate{v} .{k} := fieldValidator_impl validate{c}_cases")
allimpl=", ".join(f"validate{v}_impl" for v in "RequestId SessionId SubscriptionId PublicationId RegistrationId Uri Procedure Realm Authmethod Signature Reason Topic MessageType Extra Options Details Args Kwargs HelloDetails WelcomeDetails".split())
P('''
theorem Hello.parse_total (v : Value) (f : Fields) (h : validateMessage v Hello.TYPE Hello.spec = .ok f) :
    ∃ m, Hello.parse v = .ok m := by
  have h' := h
  unfold Hello.spec at h'
  simp only [validateMessage_ok, runSpec_cons_ok, runSpec_nil_ok,
    fieldValidator_ok, validateRealm, validateString_ok, validateHelloDetails, detailsValidator_ok,
    seqDetails_cons_ok, seqDetails_nil_ok, validateAuthid, validateAuthrole, validateAuthmethods, validateAuthextra,
    validateRoles_ok, detailEntry_ok str_wrap (fun _ => Value.noConfusion),
    detailEntry_ok list_wrap (fun _ => Value.noConfusion), detailEntry_ok dict_wrap (fun _ => Value.noConfusion)] at h'
  obtain ⟨msg, rfl, h1, h2, ⟨t, ht, ht'⟩, _, ⟨_, realm, hr, rfl, rfl⟩, _,
      ⟨d, _, hd, ⟨_, ⟨authid, haid, rfl⟩, _, ⟨authrole, har, rfl⟩, _, ⟨am, ham, rfl⟩, _, ⟨r, hro, hro1, hro2, rfl⟩,
        _, ⟨ae, hae, rfl⟩, rfl⟩, rfl⟩, rfl⟩ := h'
  simp [Hello.parse, h, need, bind, Except.bind, pure, Except.pure]

theorem Welcome.parse_total (v : Value) (f : Fields) (h : validateMessage v Welcome.TYPE Welcome.spec = .ok f) :
    ∃ m, Welcome.parse v = .ok m := by
  have h' := h
  unfold Welcome.spec at h'
  simp only [validateMessage_ok, runSpec_cons_ok, runSpec_nil_ok,
    fieldValidator_ok, validateSessionId, validateId_ok, validateWelcomeDetails, detailsValidator_ok,
    seqDetails_cons_ok, seqDetails_nil_ok, validateAuthid, validateAuthrole, validateWelcomeAuthmethod, validateAuthextra,
    validateRoles_ok, detailEntry_ok str_wrap (fun _ => Value.noConfusion),
    detailEntry_ok dict_wrap (fun _ => Value.noConfusion)] at h'
  obtain ⟨msg, rfl, h1, h2, ⟨t, ht, ht'⟩, _, ⟨_, sid, hr, ⟨rfl, hv⟩, rfl⟩, _,
      ⟨d, _, hd, ⟨_, ⟨r, hro, hro1, hro2, rfl⟩, _, ⟨authid, haid, rfl⟩, _, ⟨authrole, har, rfl⟩,
        _, ⟨ae, hae, rfl⟩, _, ⟨am, ham, rfl⟩, rfl⟩, rfl⟩, rfl⟩ := h'
  simp [Welcome.parse, h, need, bind, Except.bind, pure, Except.pure]

/-- A parser's outcome on any value is the one the row prescribes. -/
def ParseImpl {α : Type} (r : Row) (p : Value → Except Exc α) : Prop := ∀ v : Value,
  (∃ t elems, v = .list (t :: elems) ∧ t.eqInt r.code = true ∧ r.lengthOk elems ∧
      ((r.offences elems = [] ∧ ∃ m, p v = .ok m) ∨
       (r.offences elems ≠ [] ∧ ∃ es, p v = .error (.invalid es) ∧ es.map subject = r.offences elems))) ∨
    ((¬ ∃ t elems, v = .list (t :: elems) ∧ t.eqInt r.code = true ∧ r.lengthOk elems) ∧
      ∃ msg, p v = .error (.valueError msg))

theorem parseImpl {α : Type} {type_ s r} {p : Value → Except Exc α} (h : Implements type_ s r)
    (hok : ∀ v f, validateMessage v type_ s = .ok f → ∃ m, p v = .ok m)
    (herr : ∀ v e, validateMessage v type_ s = .error e → p v = .error e) : ParseImpl r p := by
  intro v
  rcases validateMessage_impl h v with ⟨t, elems, h1, h2, h3, h4⟩ | ⟨h1, msg, h2⟩
  · left; refine ⟨t, elems, h1, h2, h3, ?_⟩
    rcases h4 with ⟨h5, f, h6⟩ | ⟨h5, es, h6, h7⟩
    · left; exact ⟨h5, hok v f h6⟩
    · right; exact ⟨h5, es, herr v _ h6, h7⟩
  · right; exact ⟨h1, msg, herr v _ h2⟩

/-- The grammar row of a type code. -/
def rowAt (i : Nat) (h : i < grammar.length := by decide) : Row := grammar[i]
''')
order=[1,2,3,4,5,6,8,16,17,32,33,34,35,36,48,49,50,64,65,66,67,68,69,70]
for c,k,n,_ in classes:
    i=order.index(n)
    P(f'''theorem {c}.impl : Implements {c}.TYPE {c}.spec grammar[{i}] :=
  ⟨rfl, rfl, rfl, rfl, by simp [{c}.spec, grammar, Row.kinds, Impls, {allimpl}, validateArgs_opt, validateKwargs_opt]⟩
theorem {c}.parseImpl : ParseImpl grammar[{i}] {c}.parse :=
  Wamp.parseImpl {c}.impl {c}.parse_total (fun v e h => by simp [{c}.parse, h, bind, Except.bind])
''')
P('''/-- The outcome `ParseImpl` prescribes on a list that starts with the row's code. -/
def Outcome {α : Type} (r : Row) (elems : List Value) (res : Except Exc α) : Prop :=
  (r.lengthOk elems ∧ ((r.offences elems = [] ∧ ∃ m, res = .ok m) ∨
       (r.offences elems ≠ [] ∧ ∃ es, res = .error (.invalid es) ∧ es.map subject = r.offences elems))) ∨
  (¬ r.lengthOk elems ∧ ∃ msg, res = .error (.valueError msg))

theorem ParseImpl.outcome {α : Type} {r : Row} {p : Value → Except Exc α} (h : ParseImpl r p) (t : Value)
    (elems : List Value) (ht : t.eqInt r.code = true) : Outcome r elems (p (.list (t :: elems))) := by
  rcases h (.list (t :: elems)) with ⟨t', elems', he, h1, h2, h3⟩ | ⟨h1, h2⟩
  · cases he; left; exact ⟨h2, h3⟩
  · right; exact ⟨fun hl => h1 ⟨t, elems, rfl, ht, hl⟩, h2⟩

theorem Outcome.map {α β : Type} {r : Row} {elems : List Value} {res : Except Exc α} (h : Outcome r elems res) (g : α → β) :
    Outcome r elems (res.map g) := by
  rcases h with ⟨h0, ⟨h1, m, rfl⟩ | ⟨h1, es, rfl, h2⟩⟩ | ⟨h0, msg, rfl⟩
  · exact .inl ⟨h0, .inl ⟨h1, g m, rfl⟩⟩
  · exact .inl ⟨h0, .inr ⟨h1, es, rfl, h2⟩⟩
  · exact .inr ⟨h0, msg, rfl⟩

theorem eqInt_toValue (n : PyInt) (c : Int) : n.toValue.eqInt c = true ↔ n.val = c := by
  cases n with
  | int n => simp [PyInt.toValue, Value.eqInt, PyInt.val]
  | bool b => cases b <;> simp [PyInt.toValue, Value.eqInt, PyInt.val]

theorem isCode_iff (t : Value) (c : Int) (hc : c ≠ 0) : isCode t c = true ↔ ∃ n : PyInt, t = n.toValue ∧ n.val = c := by
  constructor
  · intro h
    cases t <;> simp [isCode] at h
    · obtain ⟨rfl, rfl⟩ := h; exact ⟨.bool true, rfl, rfl⟩
    · exact ⟨.int _, rfl, h⟩
  · rintro ⟨n, rfl, rfl⟩
    cases n with
    | int n => simp [PyInt.toValue, isCode, PyInt.val]
    | bool b => cases b <;> simp_all [PyInt.toValue, isCode, PyInt.val]

theorem toMessage_row (n : PyInt) (elems : List Value) :
    (∃ r ∈ grammar, n.val = r.code ∧ Outcome r elems (toMessage (.list (n.toValue :: elems)))) ∨
    ((∀ r ∈ grammar, n.val ≠ r.code) ∧
      toMessage (.list (n.toValue :: elems)) = .error (.valueError "unknown message type")) := by
  have hv : (Value.list (n.toValue :: elems)).asList? = some (n.toValue :: elems) := rfl
  have hi : index (n.toValue :: elems) 0 = .ok n.toValue := rfl
  have key : ∀ {α : Type} (i : Nat) (hi : i < grammar.length) (p : Value → Except Exc α) (g : α → Message) (c : Int)
      (_ : ParseImpl grammar[i] p) (_ : c = grammar[i].code) (_ : n.val = c),
      ∃ r ∈ grammar, n.val = r.code ∧ Outcome r elems ((p (.list (n.toValue :: elems))).map g) := by
    intro α i hi p g c hp hc hn
    refine ⟨grammar[i], List.getElem_mem _, by rw [hn, hc], ?_⟩
    exact (hp.outcome _ _ ((eqInt_toValue _ _).2 (by rw [hn, hc]))).map g
  simp only [toMessage, hv, hi, asInt?_toValue]''')
for c,k,n,_ in classes:
    i=order.index(n)
    P(f"  by_cases h{n} : n.val = {c}.TYPE\n  · rw [if_pos h{n}]; exact .inl (key {i} (by decide) _ _ _ {c}.parseImpl rfl h{n})\n  rw [if_neg h{n}]")
hs=" ".join(f"h{n}" for _,_,n,_ in classes)
ts=", ".join(f"{c}.TYPE" for c,_,_,_ in classes)
P(f'''  right
  refine ⟨?_, rfl⟩
  intro r hr hc
  simp only [{ts}] at {hs}
  simp only [grammar, List.mem_cons, List.not_mem_nil, or_false] at hr
  rcases hr with {' | '.join(['rfl']*24)} <;> simp only at hc <;> contradiction

/-- `X.parse v = .ok m` for the class of `m`. -/
def parseAs (v : Value) : Message → Prop''')
for c,k,n,_ in classes:
    P(f"  | .{k} m => {c}.parse v = .ok m")
P('''
theorem except_map_ok {ε α β : Type} {x : Except ε α} {g : α → β} {b : β} :
    x.map g = .ok b ↔ ∃ a, x = .ok a ∧ g a = b := by
  cases x <;> simp [Except.map]

theorem toMessage_ok {v : Value} {m : Message} (h : toMessage v = .ok m) :
    ∃ (n : PyInt) (elems : List Value), v = .list (n.toValue :: elems) ∧ n.val = code m ∧ parseAs v m := by
  unfold toMessage at h
  split at h
  · cases h
  · rename_i msg hv
    simp at hv; subst hv
    split at h
    · cases h
    · rename_i first hf
      rw [index_ok] at hf
      split at h
      · cases h
      · rename_i n hn
        simp at hn; subst hn
        cases msg with
        | nil => simp at hf
        | cons x xs =>
          simp at hf; subst hf
          refine ⟨n, xs, rfl, ?_⟩''')
for c,k,n,_ in classes:
    P(f"          by_cases h{n} : n.val = {c}.TYPE\n          · rw [if_pos h{n}, except_map_ok] at h; obtain ⟨a, h', rfl⟩ := h; exact ⟨h{n}, h'⟩\n          rw [if_neg h{n}] at h")
P('''          cases h

theorem toMessage_of_parseAs {v : Value} {m : Message} {n : PyInt} {elems : List Value}
    (hv : v = .list (n.toValue :: elems)) (hc : n.val = code m) (h : parseAs v m) : toMessage v = .ok m := by
  subst hv
  have hi : index (n.toValue :: elems) 0 = .ok n.toValue := rfl
  unfold toMessage
  cases m <;> simp only [parseAs] at h <;> simp only [code] at hc <;>
    simp [Value.asList?, hi, hc, h, Except.map, '''+ts+''']

end Wamp''')
open('/verif/lean/Verif/Proofs/ToMessage.lean','w').write("\n".join(o)+"\n")
