#!/usr/bin/env python3
"""Compares Verif/Model/Json.lean with the json module of the Python that runs this script, on random texts and values.
A test of the transcription; no claim rests on it.  Usage: python3 tools/compare_json.py [SEED]"""
import json, os, random, struct, subprocess, sys
rnd = random.Random(int(sys.argv[1]) if len(sys.argv) > 1 else 1)
here = os.path.dirname(os.path.abspath(__file__))

def canon(v):
    if v is None: return "None"
    if v is True: return "True"
    if v is False: return "False"
    if isinstance(v, int): return f"i{v}"
    if isinstance(v, float): return "f" + str(struct.unpack(">Q", struct.pack(">d", v))[0])
    if isinstance(v, str): return "s" + v
    if isinstance(v, list): return "[" + ",".join(map(canon, v)) + "]"
    return "{" + ",".join("s" + k + ":" + canon(x) for k, x in v.items()) + "}"

def dbl():
    while True:
        x = struct.unpack(">d", struct.pack(">Q", rnd.getrandbits(64)))[0]
        if x == x: return x

def val(d):
    k = rnd.randrange(9 if d else 6)
    if k == 0: return rnd.choice([None, True, False])
    if k == 1: return rnd.randint(-10 ** rnd.randrange(25), 10 ** rnd.randrange(25))
    if k in (2, 3): return rnd.choice([dbl(), rnd.randint(-1000, 1000) / 8, 10.0 ** rnd.randint(-320, 308), float("inf"), -0.0])
    if k in (4, 5): return "".join(rnd.choice("ab\"\\/é 𝄞\x1f ") for _ in range(rnd.randrange(6)))
    if k in (6, 7): return [val(d - 1) for _ in range(rnd.randrange(4))]
    return {"".join(rnd.choice("ab") for _ in range(rnd.randrange(3))): val(d - 1) for _ in range(rnd.randrange(4))}

TOK = ["0", "1", "9", "12", "-", ".", "e", "E", "+", "[", "]", ",", " ", "NaN", "Infinity", "null", "1.5", "{}", '"a"', '"', "{", "}", ":", "\\u0041"]
rows = []
for i in range(4000):
    if i % 2:
        t, form = json.dumps(val(3)), "W"
    else:
        t, form = "".join(rnd.choice(TOK) for _ in range(rnd.randrange(1, 9))), "R"
    try: r = canon(json.loads(t))
    except json.JSONDecodeError: r = "ERR"
    if "\n" not in r and "\t" not in r: rows.append(f"{form}\t{t}\t{r}")
open("/tmp/compare_json.txt", "w").write("\n".join(rows) + "\n")
open("/tmp/compare_json.lean", "w").write('''import Verif.Model.Json
open Wamp
partial def canon : Value → String
  | .none => "None" | .bool b => if b then "True" else "False" | .int n => s!"i{n}" | .float f => s!"f{f.bits.toNat}"
  | .str s => "s" ++ s | .list l => "[" ++ ",".intercalate (l.map canon) ++ "]"
  | .dict d => "{" ++ ",".intercalate (d.map fun kv => canon kv.1 ++ ":" ++ canon kv.2) ++ "}" | _ => "?"
#eval show IO Unit from do
  let mut n := 0
  let mut bad := 0
  for l in (← IO.FS.readFile "/tmp/compare_json.txt").splitOn "\\n" do
    match l.splitOn "\\t" with
    | [w, t, r] =>
      n := n + 1
      let v := Json.loads t
      let s := match v with | .ok v => canon v | .error (.valueError _) => "ERR" | .error _ => "??"
      let d := match v with | .ok v => (Json.dumps v).toOption | _ => none
      if s ≠ r ∨ (w = "W" ∧ d ≠ some t) then
        bad := bad + 1
        IO.println s!"{l} {s} {d}"
    | _ => if l ≠ "" then IO.println s!"? {l}"
  IO.println s!"{n} compared, {bad} differ"
''')
subprocess.run(["lake", "env", "lean", "/tmp/compare_json.lean"], cwd=os.path.join(here, "../lean"), check=True)
