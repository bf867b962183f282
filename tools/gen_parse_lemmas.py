"""Generates lean/Verif/Proofs/ParseOk.lean: for each message class without a details grammar,
`X.parse v = .ok m ↔ ...` (22 lemmas of the same shape)."""
import os
C = [
 ("Abort", [("dict","Details","details"),("str","Reason","reason")], True),
 ("Challenge", [("str","Authmethod","authmethod"),("dict","Extra","extra")], False),
 ("Authenticate", [("str","Signature","signature"),("dict","Extra","extra")], False),
 ("Goodbye", [("dict","Details","details"),("str","Reason","reason")], False),
 ("Call", [("id","RequestId","requestId"),("dict","Options","options_"),("str","Procedure","procedure")], True),
 ("Invocation", [("id","RequestId","requestId"),("id","RegistrationId","registrationId"),("dict","Details","details_")], True),
 ("Yield", [("id","RequestId","requestId"),("dict","Options","options_")], True),
 ("Result", [("id","RequestId","requestId"),("dict","Details","details_")], True),
 ("Register", [("id","RequestId","requestId"),("dict","Options","options"),("str","Procedure","procedure")], False),
 ("Registered", [("id","RequestId","requestId"),("id","RegistrationId","registrationId")], False),
 ("Unregister", [("id","RequestId","requestId"),("id","RegistrationId","registrationId")], False),
 ("Unregistered", [("id","RequestId","requestId")], False),
 ("Subscribe", [("id","RequestId","requestId"),("dict","Options","options"),("str","Topic","topic")], False),
 ("Subscribed", [("id","RequestId","requestId"),("id","SubscriptionId","subscriptionId")], False),
 ("Unsubscribe", [("id","RequestId","requestId"),("id","SubscriptionId","subscriptionId")], False),
 ("Unsubscribed", [("id","RequestId","requestId")], False),
 ("Publish", [("id","RequestId","requestId"),("dict","Options","options"),("str","Topic","topic")], True),
 ("Published", [("id","RequestId","requestId"),("id","PublicationId","publicationId")], False),
 ("Event", [("id","SubscriptionId","subscriptionId"),("id","PublicationId","publicationId"),("dict","Details","details")], True),
 ("ErrorMsg", [("int","MessageType","messageType"),("id","RequestId","requestId"),("dict","Details","details"),("str","Uri","uri")], True),
 ("Cancel", [("id","RequestId","requestId"),("dict","Options","options")], False),
 ("Interrupt", [("id","RequestId","requestId"),("dict","Options","options")], False),
]
ALL = "validateMessage, sanityCheck, index, Value.asList?, runSpec, fieldValidator, need, validateDict, validateString, validateList, validateInt, Value.asDict?, Value.asStr?, bind, Except.bind, pure, Except.pure, validateArgs, validateKwargs"
out = ["import Verif.Proofs.WireLemmas", "", "set_option linter.unusedSimpArgs false", "", "/-! Generated by `tools/gen_parse_lemmas.py`: what each `parse` accepts and returns. -/", "", "namespace Wamp", ""]
for name, fs, pay in C:
    vs = [f"x{i}" for i in range(1, len(fs)+1)]
    wire = []
    for (k, _, f), x in zip(fs, vs):
        wire.append({"id": f"PyInt.toValue {x}", "int": f"PyInt.toValue {x}", "str": f".str {x}", "dict": f".dict {x}"}[k])
    ids = [x for (k, _, f), x in zip(fs, vs) if k == "id"]
    vals = sorted({v for _, v, _ in fs})
    vlist = ", ".join("validate"+v for v in vals)
    assign = ", ".join(f"{f} := {x}" for (k, _, f), x in zip(fs, vs))
    if pay: assign += ", args := args, kwargs := kwargs"
    ex = " ".join(vs + (["args", "kwargs"] if pay else []))
    w = "[t, " + ", ".join(wire) + "]"
    if pay: w = f"({w} ++ payloadTail args kwargs)"
    conds = []
    if pay: conds.append("(kwargs.isSome → args.isSome)")
    conds.append(f"t.eqInt {name}.TYPE = true")
    conds += [f"ValidId {x}" for x in ids]
    conds.append(f"m = {{ {assign} }}")
    out.append(f"theorem {name}.parse_ok (v : Value) (m : {name}) : {name}.parse v = .ok m ↔")
    out.append(f"    ∃ t {ex}, v = .list {w} ∧")
    out.append("      " + " ∧ ".join(conds) + " := by")
    out.append(f"  unfold {name}.parse {name}.spec")
    out.append("  constructor")
    kinds = {k for k, _, _ in fs}
    chk = {"id": "validateId_ok", "int": "validateInt_ok", "str": "validateString_ok", "dict": "validateDict_ok"}
    extra = ", ".join(chk[k] for k in ["id","int","str","dict"] if k in kinds)
    if pay: extra += ", validateArgs_ok, validateKwargs_ok"
    out.append(f"  · simp only [except_bind_ok, except_pure_ok, need_ok, validateMessage_ok, runSpec_cons_ok, runSpec_nil_ok, fieldValidator_ok, {vlist}, {extra}]")
    pat = ""
    for (k, _, f), x in zip(fs, vs):
        inner = {"id": f"⟨rfl, hv{x}⟩"}.get(k, "rfl")
        pat += f"⟨_, ⟨_, {x}, h{x}, {inner}, rfl⟩, "
    if pay: pat += "⟨_, ha, ⟨_, hk, rfl⟩⟩"
    else: pat += "rfl"
    pat += "⟩" * len(fs)
    out.append(f"    rintro ⟨f, ⟨msg, rfl, h1, h2, ⟨t, ht, ht'⟩, {pat}⟩, hm⟩")
    n = 1 + len(fs) + (2 if pay else 0)
    rc = "⟨z, zs⟩"
    for i in range(n-1, -1, -1):
        rc = f"_ | ⟨y{i}, {rc}⟩" if i else f"_ | ⟨y0, {rc}⟩"
    out.append(f"    rcases msg with {rc}")
    hx = " ".join("h"+x for x in vs)
    out.append(f"    all_goals simp at h1 h2 ht {hx}")
    out.append("    all_goals (try omega)")
    out.append(f"    all_goals subst ht {hx}")
    hv = ", ".join("hv"+x for x in ids)
    hv = (", " + hv) if hv else ""
    vx = ", ".join(vs)
    if pay:
        out.append(f"    · simp at ha hk; subst ha hk; simp at hm; subst hm")
        out.append(f"      exact ⟨y0, {vx}, none, none, rfl, by simp, ht'{hv}, rfl⟩")
        out.append(f"    · simp at ha hk; obtain ⟨la, rfl, rfl⟩ := ha; subst hk; simp at hm; subst hm")
        out.append(f"      exact ⟨y0, {vx}, some la, none, rfl, by simp, ht'{hv}, rfl⟩")
        out.append(f"    · simp at ha hk; obtain ⟨la, rfl, rfl⟩ := ha; obtain ⟨lk, rfl, rfl⟩ := hk; simp at hm; subst hm")
        out.append(f"      exact ⟨y0, {vx}, some la, some lk, rfl, by simp, ht'{hv}, rfl⟩")
    else:
        out.append(f"    simp at hm; subst hm")
        out.append(f"    exact ⟨y0, {vx}, rfl, ht'{hv}, rfl⟩")
    hb = ", ".join(["hp"] * pay + ["ht"] + ["hv"+x for x in ids] + ["rfl"])
    if pay: vx += ", args, kwargs"
    out.append(f"  · rintro ⟨t, {vx}, rfl, {hb}⟩")
    idl = "".join(f", validateId_ok.2 ⟨rfl, hv{x}⟩" for x in ids)
    if pay:
        out.append(f"    rcases args with _ | args <;> rcases kwargs with _ | kwargs <;>")
        out.append(f"      simp_all [payloadTail, {ALL}, {vlist}{idl}]")
    else:
        out.append(f"    simp_all [{ALL}, {vlist}{idl}]")
    out.append("")
    out.append(f"theorem {name}.parse_total (v : Value) (f : Fields) (h : validateMessage v {name}.TYPE {name}.spec = .ok f) :")
    out.append(f"    ∃ m, {name}.parse v = .ok m := by")
    out.append(f"  have h' := h")
    out.append(f"  unfold {name}.spec at h'")
    out.append(f"  simp only [validateMessage_ok, runSpec_cons_ok, runSpec_nil_ok, fieldValidator_ok, {vlist}, {extra}] at h'")
    pat2 = pat
    if pay: pat2 = pat2.replace("⟨_, ha, ⟨_, hk, rfl⟩⟩", "⟨_, ha, ⟨_, hk, rfl⟩⟩")
    out.append(f"  obtain ⟨msg, rfl, h1, h2, ⟨t, ht, ht'⟩, {pat2}⟩ := h'")
    if pay:
        out.append("  rcases ha with ⟨-, rfl⟩ | ⟨la, -, rfl⟩ <;> rcases hk with ⟨-, rfl⟩ | ⟨lk, -, rfl⟩ <;>")
        out.append(f"    simp [{name}.parse, h, need, bind, Except.bind, pure, Except.pure]")
    else:
        out.append(f"  simp [{name}.parse, h, need, bind, Except.bind, pure, Except.pure]")
    out.append("")
out.append("end Wamp")
open(os.path.join(os.path.dirname(__file__), "../lean/Verif/Proofs/ParseOk.lean"), "w").write("\n".join(out) + "\n")
