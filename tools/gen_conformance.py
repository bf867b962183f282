"""Writes lean/Verif/Conformance/Messages.lean from the text of /repo/tests/messages/test_*.py.

The test files are read with `ast`; nothing of /repo is imported or run.  A small interpreter follows the statements of each test
(assignments, loops over literals, `pytest.raises`, asserts); calls of the code under test stay symbolic and every assert about them
becomes an equation about the model.  A statement it does not understand makes it stop.
"""
import ast, json, os, re, struct
REPO = "/repo"
here = os.path.dirname(os.path.abspath(__file__))
FILES = ["hello", "welcome", "abort", "challenge", "authenticate", "goodbye", "call", "invocation", "yield", "result", "util"]
lean = open(os.path.join(here, "../lean/Verif/Model/Messages.lean")).read()
STRUCT = {}
for m in re.finditer(r"^structure (\w+) where\n((?:  \w+ : .*\n)+)", lean, re.M):
    STRUCT[m.group(1)] = [(x.group(1), x.group(2).split(" := ")[0].strip()) for x in re.finditer(r"  (\w+) : (.*)", m.group(2))]
CTOR = {"Yield": "yield_", "Error": "error"}
def camel(s):
    a = s.split("_"); return a[0] + "".join(x.capitalize() for x in a[1:])

# class constants and signatures, from the text of the package
CONST = {}; SIG = {}; EXC = {}
mdir = REPO + "/wampproto/messages"
for f in os.listdir(mdir):
    if not f.endswith(".py"): continue
    for n in ast.parse(open(mdir + "/" + f).read()).body:
        if isinstance(n, ast.ClassDef):
            for s in n.body:
                if isinstance(s, ast.Assign) and isinstance(s.value, ast.Constant): CONST[n.name + "." + s.targets[0].id] = s.value.value
                if isinstance(s, ast.FunctionDef) and s.name == "__init__" and n.name.endswith("Fields"):
                    SIG[n.name] = [a.arg for a in s.args.args][1:]
        if isinstance(n, ast.Assign) and isinstance(n.value, ast.Constant):
            (EXC if f == "exceptions.py" else CONST)[n.targets[0].id if f == "exceptions.py" else f[:-3] + "." + n.targets[0].id] = n.value.value
        if isinstance(n, ast.Assign) and f == "util.py" and isinstance(n.value, ast.BinOp):
            CONST["util." + n.targets[0].id] = eval(compile(ast.Expression(n.value), "", "eval"), {})
KIND = {"InvalidRealmError": "realm", "InvalidDetailsError": "details", "ProtocolError": "protocol", "InvalidUriError": "uri"}
ROLES = ["callee", "caller", "publisher", "subscriber", "dealer", "broker"]

class Sym:
    """A symbolic result: `kind` and a Lean term."""
    def __init__(self, **k): self.__dict__.update(k)

def val(v):
    if v is None: return ".none"
    if v is True or v is False: return ".bool " + str(v).lower()
    if isinstance(v, int): return f".int {v}" if v >= 0 else f".int ({v})"
    if isinstance(v, float): return f".float ⟨0x{struct.pack('>d', v).hex()}⟩"
    if isinstance(v, str): return ".str " + json.dumps(v, ensure_ascii=False)
    if isinstance(v, list): return ".list [" + ", ".join(val(x) for x in v) + "]"
    if isinstance(v, dict): return ".dict " + dct(v)
    raise Exception(v)
def dct(v): return "[" + ", ".join(f"({val(k)}, {val(x)})" for k, x in v.items()) + "]"
def typed(v, ty):
    if ty.startswith("Option"):
        return "none" if v is None else f"(some {typed(v, ty[7:].strip('()'))})"
    if ty == "PyInt": return f"(.int {v})" if v is not True and v is not False else f"(.bool {str(v).lower()})"
    if ty == "String": return json.dumps(v, ensure_ascii=False)
    if ty == "PyDict": return dct(v)
    if ty == "List Value": return "[" + ", ".join(val(x) for x in v) + "]"
    raise Exception((v, ty))

out = []
class T:
    def __init__(self, path): self.path = path
    def emit(self, eq, subj=None):
        """`eq` talks about `r`, the value of the Lean term `subj`."""
        self.lines.append((subj, eq))
    def name(self, e):
        if isinstance(e, ast.Name): return e.id
        if isinstance(e, ast.Attribute): return (self.name(e.value) or "?") + "." + e.attr
    def ev(self, e):
        if isinstance(e, ast.Constant): return e.value
        if isinstance(e, ast.List): return [self.ev(x) for x in e.elts]
        if isinstance(e, ast.Tuple): return tuple(self.ev(x) for x in e.elts)
        if isinstance(e, ast.Dict):
            d = {}
            for k, v in zip(e.keys, e.values):
                if k is None: d.update(self.ev(v))
                else: d[self.ev(k)] = self.ev(v)
            return d
        if isinstance(e, ast.UnaryOp) and isinstance(e.op, ast.USub): return -self.ev(e.operand)
        if isinstance(e, ast.BinOp): return eval("a" + {"Add": "+", "Sub": "-", "Pow": "**"}[type(e.op).__name__] + "b", {"a": self.ev(e.left), "b": self.ev(e.right)})
        if isinstance(e, ast.JoinedStr): return "".join(x.value if isinstance(x, ast.Constant) else format(self.ev(x.value)) for x in e.values)
        if isinstance(e, ast.Name): return self.env[e.id]
        if isinstance(e, ast.Subscript):
            v = self.ev(e.value)
            i = self.ev(e.slice)
            return Sym(kind="item", of=v, i=i) if isinstance(v, Sym) else v[i]
        if isinstance(e, ast.Attribute):
            if e.attr == "__name__": return self.ev(e.value).__name__
            n = self.name(e).replace("messages.", "") if self.name(e) else None
            if n in CONST: return CONST[n]
            if n and n.split(".")[0] == "exceptions": return EXC[n.split(".")[1]]
            v = self.ev(e.value)
            if isinstance(v, Sym) and v.kind == "parsed": return Sym(kind="field", of=v, f=e.attr)
            raise Exception(ast.dump(e))
        if isinstance(e, ast.Call):
            n = (self.name(e.func) or "").replace("messages.", "")
            if n == "dict": return {}
            if n == "type": return type(self.ev(e.args[0]))
            if n == "len":
                v = self.ev(e.args[0])
                return Sym(kind="len", of=v) if isinstance(v, Sym) else len(v)
            if n == "util.AllowedRoles.get_allowed_roles": return list(ROLES)
            if n == "ValueError": return ValueError(*[y for x in e.args for y in (self.ev(x.value) if isinstance(x, ast.Starred) else [self.ev(x)])])
            if n == "str":
                v = self.ev(e.args[0])
                return v if isinstance(v, Sym) else str(v)
            if isinstance(e.func, ast.Attribute) and e.func.attr == "format":
                return self.ev(e.func.value).format(*[self.ev(x) for x in e.args], **{k.arg: self.ev(k.value) for k in e.keywords})
            if isinstance(e.func, ast.Attribute) and e.func.attr == "parse":
                cls = n.split(".")[0]
                return Sym(kind="parsed", cls=cls, term=f"{cls}.parse ({val(self.ev(e.args[0]))})")
            if isinstance(e.func, ast.Attribute) and e.func.attr == "marshal":
                o = self.ev(e.func.value)
                return Sym(kind="marshalled", term=f"(Message.{CTOR.get(o.cls, o.cls.lower())} {o.term}).marshal")
            if n.endswith("Fields"):
                sig = SIG[n]; cls = n[:-6]; kw = {}
                for p, x in zip(sig, e.args): kw[p] = self.ev(x)
                for k in e.keywords:
                    if k.arg is None: kw.update(self.ev(k.value))
                    else: kw[k.arg] = self.ev(k.value)
                fs = []
                for f, ty in STRUCT[cls]:
                    for p, v in kw.items():
                        if camel(p) in (f, f.rstrip("_")) and not (v is None and not ty.startswith("Option")):
                            fs.append(f"{f} := {typed(v, ty)}")
                assert len(fs) == len([v for v in kw.values() if v is not None or True]) or None in kw.values(), (kw, fs)
                return Sym(kind="obj", cls=cls, term="{ " + ", ".join(fs) + " }")
            if n in STRUCT: return self.ev(e.args[0])
            if n.startswith("util.validate_") or n == "util.sanity_check":
                args = [self.ev(x) for x in e.args]
                if n == "util.sanity_check":
                    return Sym(kind="call", term=f"(sanityCheck ({val(args[0])}) {args[1]} {args[2]} {args[3]} {json.dumps(args[4])}).map fun _ => Value.none", legacy=False)
                fn = "Legacy." + camel(n[5:].replace("_or_raise", "")) + (" Value.pyStr" if "details" in n else "")
                return Sym(kind="call", term=f"{fn} ({val(args[0])})" + "".join(" " + json.dumps(a) for a in args[1:]), legacy=True)
        raise Exception(self.path + ": " + ast.dump(e)[:300])
    def run(self, body):
        for s in body:
            if isinstance(s, ast.Assign): self.env[s.targets[0].id] = self.ev(s.value)
            elif isinstance(s, ast.With):
                v = self.ev(s.body[0].value if not isinstance(s.body[0], ast.Assign) else s.body[0].value)
                self.env[s.items[0].optional_vars.id] = Sym(kind="exc", of=v, cls=self.name(s.items[0].context_expr.args[0]))
                self.env["exc_info"] = self.env[s.items[0].optional_vars.id]
                if len(s.body) == 1: continue
                self.run(s.body[1:])
            elif isinstance(s, ast.For):
                for x in self.ev(s.iter):
                    self.env[s.target.id] = x; self.run(s.body)
            elif isinstance(s, ast.Expr):
                v = self.ev(s.value); self.emit(f"r.isOk = true", v.term)
            elif isinstance(s, ast.Assert): self.check(s.test)
            else: raise Exception(ast.dump(s))
    def check(self, t):
        if isinstance(t, ast.Call):  # isinstance(x, T)
            v = self.ev(t.args[0]); c = (self.name(t.args[1])).split(".")[-1]
            if isinstance(v, Sym):
                if v.kind == "parsed": self.emit("r.isOk = true", v.term)
                elif v.kind == "item": self.emit(f"r[{v.i}]?.map Value.typeName = some {json.dumps(c)}", v.of.term)
                elif v.kind == "field": self.emit(f"{self.field(v)}.map Value.typeName = some {json.dumps(c)}", v.of.term)
                elif v.kind == "marshalled": pass
                else: raise Exception(v.kind)
            else: assert type(v).__name__ == c
            return
        assert isinstance(t, ast.Compare) and len(t.ops) == 1, ast.dump(t)
        l = t.left
        r = self.ev(t.comparators[0])
        if isinstance(l, ast.Call) and self.name(l.func) == "str" and isinstance(l.args[0], ast.Attribute) and l.args[0].attr == "value":
            x = self.env[self.name(l.args[0].value)]
            if x.of.kind == "call" and x.of.legacy:
                self.emit(f"r = .error (.{KIND[x.cls.split('.')[1]]} {json.dumps(r)})", x.of.term)
            else:
                self.emit(f"text r = some {json.dumps(r)}", x.of.term)
            return
        v = self.ev(l)
        if not isinstance(v, Sym): assert v == r; return
        if v.kind == "len" and v.of.kind == "marshalled": self.emit(f"r.length = {r}", v.of.term)
        elif v.kind == "item" and v.of.kind == "marshalled": self.same(f"r[{v.i}]?", r, v.of.term)
        elif v.kind == "field": self.same(self.field(v), r, v.of.term)
        elif v.kind == "len": self.emit(f"{self.field(v.of)}.map size = some {r}", v.of.of.term)
        elif v.kind == "item": self.emit(f"{self.field(v.of)}.bind (elem {v.i}) = some ({val(r)})", v.of.of.term)
        elif v.kind == "call" and v.legacy: self.emit(f"r = .ok ({val(r)})", v.term)
        elif v.kind == "marshalled": self.emit(f"r = {typed(r, 'List Value')}", v.term)
        else: raise Exception(v.kind)
    def same(self, t, r, subj):
        self.emit(f"{t} = some ({val(r)})" if not isinstance(r, dict) or len(r) < 2 else f"{t}.map (same {dct(r)}) = some true", subj)
    def field(self, v):
        f = camel(v.f)
        fs = dict(STRUCT[v.of.cls])
        if f not in fs and f + "_" in fs: pass
        return f"(r.toOption.map fun m => toValue m.{f})"

total = asserts = 0
for f in FILES:
    path = f"tests/messages/test_{f}.py"
    t = T(path); glob = {}; out.append(f"/-! ## `{path}` -/\n")
    for n in ast.parse(open(REPO + "/" + path).read()).body:
        if isinstance(n, ast.Assign): glob[n.targets[0].id] = (setattr(t, "env", glob), t.ev(n.value))[1]
        if not isinstance(n, ast.FunctionDef): continue
        t.lines = []; t.env = dict(glob)
        cases = [{}]
        for d in n.decorator_list:
            names, vals = [ast.literal_eval(d.args[0]), d.args[1]]
            names = [x.strip() for x in names.split(",")] if isinstance(names, str) else list(names)
            vals = t.ev(vals)
            cases = [dict(zip(names, v if len(names) > 1 else [v])) for v in vals]
        for c in cases:
            t.env = dict(glob, **c); t.run(n.body)
        total += 1
        out.append(f"-- `{n.name}` ({path.split('/')[-1]}:{n.lineno}-{n.end_lineno})")
        subjs = []
        for x, _ in t.lines:
            if x not in subjs: subjs.append(x)
        for x in subjs:
            eqs = []
            for y, e in t.lines:
                if y == x and e not in eqs: eqs.append(e)
            asserts += len(eqs)
            p = " ∧ ".join(eqs)
            out.append(f"example : On ({x}) fun r => {p} := by decide +kernel")
        out.append("")
head = '''import Verif.Model.Legacy
import Verif.Model.Messages

/-!
# The project's tests of the message classes, as checks of the model

Written by `tools/gen_conformance.py` from `/repo/tests/messages/test_*.py`; every assert of those files is a conjunct below.
These are tests of the transcription, not proofs (see DESIGN.md).
-/

namespace Wamp.Conformance

/-- `str(exc_info.value)` inside `pytest.raises(ValueError)`. -/
def text {α : Type} : Except Exc α → Option String
  | .error (.valueError s) => some s
  | .error (.invalid es) => some (errorsText es)
  | _ => none

/-- What a test asserts of one result. -/
abbrev On {α : Type} (a : α) (p : α → Prop) : Prop := p a

class ToValue (α : Type) where
  toValue : α → Value
export ToValue (toValue)
instance : ToValue PyInt := ⟨PyInt.toValue⟩
instance : ToValue String := ⟨.str⟩
instance : ToValue PyDict := ⟨.dict⟩
instance : ToValue (List Value) := ⟨.list⟩
instance {α : Type} [ToValue α] : ToValue (Option α) := ⟨fun o => o.elim .none toValue⟩

/-- `len(v)` of a list or dict. -/
def size : Value → Nat
  | .list l => l.length
  | .dict d => d.length
  | _ => 0
/-- `v == d` for a dict `d`: the order of the entries does not matter. -/
def same (d : PyDict) : Value → Bool
  | .dict e => d.length = e.length && d.all fun kv => kv ∈ e
  | _ => false
/-- `v[i]` of a list. -/
def elem (i : Nat) : Value → Option Value
  | .list l => l[i]?
  | _ => none

'''
open(os.path.join(here, "../lean/Verif/Conformance/Messages.lean"), "w").write(head + "\n".join(out) + "\nend Wamp.Conformance\n")
print(total, "tests,", asserts, "asserts")
