#!/usr/bin/env python3
"""Run the project's own document tests against the model.

Reads the Go tests of /repo as text, evaluates the literals they build (no Go code is run), and writes
a Lean program that does with the model what each test does with the code and compares the outcome with
what the test expects:

    python3 tools/conform.py > /tmp/Conform.lean
    cd lean && lake env lean --run /tmp/Conform.lean /repo/samples/*/*.[oq]fx

The arguments are the sample files of TestValidSamples.  This is evidence that the model is the program; it is not part of any proof."""
import re

REPO = "/repo/"
TOK = re.compile(r'''\s+|//[^\n]*|/\*.*?\*/|(?P<str>"(?:\\.|[^"\\])*")|(?P<raw>`[^`]*`)|(?P<num>\d+(?:\.\d+)?)'''
                 r'''|(?P<id>[A-Za-z_]\w*)|(?P<rune>'(?:\\.|[^'])')|(?P<op>:=|==|!=|&&|\|\||\+\+|<=|>=|[-+*/%&|!<>=(){}\[\].,;:])''', re.S)


def lex(s):
    out, i, nl = [], 0, False
    while i < len(s):
        m = TOK.match(s, i)
        if not m:
            raise SystemExit("lex: " + s[i:i + 40])
        i = m.end()
        k = m.lastgroup
        if k is None:
            nl = nl or "\n" in m.group(0)
            continue
        out.append((k, m.group(0), nl))
        nl = False
    out.append(("eof", "", True))
    return out


# ---- the constants of constants.go --------------------------------------------------------------
CONST = {}
for m in re.finditer(r"^const \(\n(.*?)^\)", open(REPO + "constants.go").read(), re.S | re.M):
    n = 0
    for line in m.group(1).split("\n"):
        w = line.split("//")[0].split()
        if not w:
            continue
        n += 1
        CONST[w[0]] = n

# ---- the types of the model ---------------------------------------------------------------------
STRUCT, SUM, ALIAS = {}, {}, {}
cur = None
for line in open("/verif/lean/Verif/Gen/Structs.lean"):
    if m := re.match(r"structure (\w+) where", line):
        cur = STRUCT.setdefault(m[1], {})
    elif m := re.match(r"inductive (\w+) where", line):
        cur = SUM.setdefault(m[1], {})
    elif m := re.match(r"abbrev (\w+) := (.*)", line):
        ALIAS[m[1]] = m[2].strip().replace("Ofx.", "")
    elif m := re.match(r"  \| (\w+) \(v : Ofx\.(\w+)\)", line):
        cur[m[2]] = m[1]
    elif m := re.match(r"  (\w+) : (.*)", line):
        if cur is not None:
            cur[m[1]] = m[2].strip().replace("Ofx.", "")
MESSAGE = {}
for m in re.finditer(r"\| (\w+) \(\w+ : (\w+)\)", open("/verif/lean/Verif/Model/Message.lean").read()
                     .split("inductive Message ")[1]):
    MESSAGE[m[2]] = m[1]


class Obj:
    def __init__(self, typ, fields=None):
        self.typ, self.f = typ, dict(fields or {})


class Skip(Exception):
    pass


class P:
    """A parser and evaluator for the statements the tests use to build values."""

    def __init__(self, toks):
        self.t, self.i, self.env, self.calls = toks, 0, {}, []

    def pk(self, o=0):
        return self.t[self.i + o][1]

    def eat(self, x):
        if self.pk() != x:
            raise Skip("expected %r, found %r" % (x, [q[1] for q in self.t[self.i - 5:self.i + 5]]))
        self.i += 1

    def typ(self):
        if self.pk() == "[":
            self.eat("["), self.eat("]")
            return "[]" + self.typ()
        if self.pk() in "*&":
            self.i += 1
            return self.typ()
        n = self.pk()
        self.i += 1
        if self.pk() == ".":
            self.i += 1
            n += "." + self.pk()
            self.i += 1
        return n

    def composite(self, typ):
        self.eat("{")
        if typ.startswith("[]") or typ in ALIAS:
            el = typ[2:] if typ.startswith("[]") else None
            xs = []
            while self.pk() != "}":
                xs.append(self.composite(el) if self.pk() == "{" else self.expr())
                if self.pk() == ",":
                    self.i += 1
            self.eat("}")
            return xs
        o = Obj(typ)
        while self.pk() != "}":
            name = self.pk()
            self.i += 1
            self.eat(":")
            o.f[name] = self.expr()
            if self.pk() == ",":
                self.i += 1
        self.eat("}")
        return o

    def args(self):
        self.eat("(")
        a = []
        while self.pk() != ")":
            a.append(self.expr())
            if self.pk() == ",":
                self.i += 1
        self.eat(")")
        return a

    def expr(self):
        k, s, _ = self.t[self.i]
        if s in ("&", "*"):
            self.i += 1
            return self.expr()
        if s == "-":
            self.i += 1
            return -self.expr()
        if k == "num":
            self.i += 1
            return int(s) * self.product()
        if k == "str":
            self.i += 1
            return eval(s)
        if k == "raw":
            self.i += 1
            return s[1:-1]
        if s == "[":
            return self.composite(self.typ())
        if k == "id":
            if s in ("true", "false"):
                self.i += 1
                return s == "true"
            if s == "nil":
                self.i += 1
                return None
            if s in CONST:
                self.i += 1
                return CONST[s]
            if s in ("NewDateGMT", "NewDate", "NewCurrSymbol", "append", "String", "UID", "Boolean") \
                    or (s in ("time", "strings") and self.pk(1) == "."):
                self.i += 1
                if s in ("time", "strings"):
                    self.eat(".")
                    s += "." + self.pk()
                    self.i += 1
                a = self.args()
                if s == "NewDateGMT":
                    return ("date", a, None)
                if s == "NewDate":
                    return ("date", a[:7], a[7])
                if s == "time.FixedZone":
                    return ("zone", a[0], a[1])
                if s == "NewCurrSymbol":
                    return ("curr", a[0])
                if s == "append":
                    return (a[0] or []) + a[1:]
                if s in ("strings.NewReader", "String", "UID", "Boolean"):
                    return a[0]
                raise Skip(s)
            if s in self.env and self.pk(1) != "{":
                self.i += 1
                o = self.env[s]
                while self.pk() == ".":
                    self.i += 1
                    o = o.f.get(self.pk()) if isinstance(o, Obj) else None
                    self.i += 1
                return o
            if self.pk(1) == "{":
                return self.composite(self.typ())
        raise Skip("expression %r" % [q[1] for q in self.t[self.i:self.i + 8]])

    def product(self):
        if self.pk() != "*":
            return 1
        self.i += 1
        return self.expr()

    def block(self):
        """skip a brace block"""
        d = 0
        while True:
            if self.pk() == "{":
                d += 1
            if self.pk() == "}":
                d -= 1
                if d == 0:
                    self.i += 1
                    return
            self.i += 1

    def stmts(self):
        self.eat("{")
        while self.pk() != "}":
            self.stmt()

    def stmt(self):
        s = self.pk()
        if s == "if":
            while self.pk() != "{":
                self.i += 1
            self.block()
            while self.pk() == "else":
                while self.pk() != "{":
                    self.i += 1
                self.block()
            return
        if s == "var":
            self.i += 1
            names = [self.pk()]
            self.i += 1
            while self.pk() == ",":
                self.i += 1
                names.append(self.pk())
                self.i += 1
            if self.pk() == "=":
                self.i += 1
                self.env[names[0]] = self.expr()
                return
            t = self.typ()
            if self.pk() == "=":
                self.i += 1
                self.env[names[0]] = self.expr()
                return
            for n in names:
                self.env[n] = ("amt", 0, 1) if t == "Amount" else [] if t in ALIAS else Obj(t)
            return
        # left-hand side, or a call
        path = [self.pk()]
        self.i += 1
        while self.pk() == ".":
            self.i += 1
            path.append(self.pk())
            self.i += 1
        if self.pk() == "(":
            if path[-1] in ("SetFrac64", "SetInt64"):
                a = self.args()
                self.env[path[0]] = ("amt", a[0], a[1] if len(a) > 1 else 1)
                return
            self.calls.append((path, self.i))
            if path[-1] in ("SetClientFields", "marshalCheckRequest", "checkResponsesEqual", "checkEqual",
                            "checkResponseRoundTrip"):
                d = 0
                toks = []
                while True:
                    if self.pk() == "(":
                        d += 1
                    if self.pk() == ")":
                        d -= 1
                    toks.append(self.pk())
                    self.i += 1
                    if d == 0:
                        break
                self.calls[-1] = (path[-1], toks, path)
                if path[-1] == "SetClientFields":
                    self.env[path[0]].f["!client"] = self.env["client"]
                return
            raise Skip("call %s" % path)
        if self.pk() == ",":           # x, err := f(...)
            self.i += 1
            self.i += 1
        if self.pk() not in (":=", "="):
            raise Skip("statement %s %s" % (path, self.pk()))
        self.i += 1
        if self.pk() in ("ParseResponse", "request", "xml"):
            while self.pk() != ")" or self.pk(1) in (",",):
                self.i += 1
            self.i += 1
            return
        v = self.expr()
        if self.t[self.i][1] == ")":
            raise Skip("trailing )")
        o = self.env
        for n in path[:-1]:
            if isinstance(o, dict):
                o = o[n]
            else:
                o = o.f.setdefault(n, Obj(None))
        if isinstance(o, dict):
            o[path[-1]] = v
        else:
            o.f[path[-1]] = v


def q(s):
    r = '"'
    for c in s:
        r += {'"': '\\"', "\\": "\\\\", "\n": "\\n", "\t": "\\t", "\r": "\\r"}.get(c, c)
    return r + '"'


def lean(v, t):
    t = t.strip()
    if t.startswith("("):
        t = t[1:-1]
    if t in ALIAS:
        t = ALIAS[t]
    if t.startswith("Option "):
        return "(none)" if v is None else "(some %s)" % lean(v, t[7:])
    if t.startswith("List "):
        return "[" + ", ".join(lean(x, t[5:]) for x in v or []) + "]"
    if t in SUM:
        return "(.%s %s)" % (SUM[t][v.typ], lean(v, v.typ))
    if t in STRUCT:
        if v is None:
            v = Obj(t)
        fs = []
        for n, x in v.f.items():
            if n.startswith("!"):
                continue
            fs.append("%s := %s" % (n, lean(x, STRUCT[t][n])))
        if t == "MessageSet":
            zero = {"Str": "", "Int": 0, "Nat": 0, "Bool": False}
            fs += ["%s := %s" % (n, lean(zero.get(ft), ft)) for n, ft in STRUCT[t].items() if n not in v.f]
            return "({ %s } : Ofx.%s)" % (", ".join(fs), t)
        z = "(OfxType.ofDen (OfxType.ty Ofx.%s).zero : Ofx.%s)" % (t, t)
        return "({ %s with %s } : Ofx.%s)" % (z, ", ".join(fs), t) if fs else z
    if t == "Str":
        return "%s.toList" % q(v or "")
    if t == "Bool":
        return "true" if v else "false"
    if t == "Nat":
        return str(v)
    if t == "Int":
        return "(%d)" % v
    if t == "Rat":
        return "((%d : Rat) / %d)" % (v[1], v[2])
    if t == "GoTime":
        a = " ".join("(%d)" % x for x in v[1])
        if v[2] is None:
            return "(newDateGMT %s)" % a
        return "(newDate %s (fixedZone %s.toList (%d)))" % (a, q(v[2][1]), v[2][2])
    if t == "CurrSymbol":
        return "(⟨%s.toList⟩ : CurrSymbol)" % q(v[1])
    raise SystemExit("type " + t)


def eqof(t, a, b):
    t = t.strip()
    if t.startswith("("):
        t = t[1:-1]
    if t in ALIAS:
        t = ALIAS[t]
    if t.startswith("Option "):
        return "optEq (fun a b => %s) %s %s" % (eqof(t[7:], "a", "b"), a, b)
    if t.startswith("List "):
        return "listEq (fun a b => %s) %s %s" % (eqof(t[5:], "a", "b"), a, b)
    if t in STRUCT or t in SUM:
        return "eq%s %s %s" % (t, a, b)
    if t == "Rat":
        return "Amount.equal %s %s" % (a, b)
    if t == "GoTime":
        return "Date.equal %s %s" % (a, b)
    if t == "CurrSymbol":
        return "CurrSymbol.equal %s %s" % (a, b)
    return "(%s == %s)" % (a, b)


HEAD = """import Verif.Model.Client
import Verif.Model.NewDate
import Verif.Gen.Types
open Ofx
def nt : NameTable := ⟨fun _ => true, fun _ => true⟩
def env : Env := ⟨fun _ => ("UTC".toList, 0), ⟨fun c => c.length == 3, by decide⟩⟩
def optEq {α} (f : α → α → Bool) : Option α → Option α → Bool
  | none, none => true
  | some a, some b => f a b
  | _, _ => false
def listEq {α} (f : α → α → Bool) : List α → List α → Bool
  | [], [] => true
  | a :: as, b :: bs => f a b && listEq f as bs
  | _, _ => false
/-- request_test.go 10: white space at the ends of lines, and line ends, are ignored. -/
def squeeze (s : Str) : Str :=
  ((String.ofList (s.filter (· != '\\r'))).splitOn "\\n").flatMap (fun l =>
    ((l.toList.dropWhile (fun c => c == ' ' || c == '\\t')).reverse.dropWhile (fun c => c == ' ' || c == '\\t')).reverse)
/-- The element as the content of a statement response. -/
def readsAs (doc : Str) (f : InvStatementResponse → Bool) : Bool :=
  match skipBlank (lex true nt ("<INVSTMTTRNRS><INVSTMTRS>".toList ++ doc ++ "</INVSTMTRS></INVSTMTTRNRS>".toList)) with
  | .start n :: rest =>
    (match build true (n, []) [] rest with
    | .ok (.elem _ cs, _) =>
      (match decodeNew (α := InvStatementResponse) env n cs with
      | .ok a => f a
      | .error _ => false)
    | _ => false)
  | _ => false
def report (name : String) (ok : Bool) : IO Unit := IO.println s!"{if ok then "ok  " else "FAIL"} {name}"
"""


def main():
    out = [HEAD]
    for t, fs in STRUCT.items():
        body = " && ".join("(%s)" % eqof(ft, "a." + f, "b." + f) for f, ft in fs.items() if f != "XMLName") or "true"
        STRUCT_EQ[t] = "def eq%s (a b : Ofx.%s) : Bool := %s" % (t, t, body)
    for t, cs in SUM.items():
        STRUCT_EQ[t] = "def eq%s : Ofx.%s → Ofx.%s → Bool\n%s\n  | _, _ => false" % (
            t, t, t, "\n".join("  | .%s a, .%s b => eq%s a b" % (c, c, s) for s, c in cs.items()))
    done = set()

    def emit(t):
        if t in done:
            return
        done.add(t)
        for d in re.findall(r"\beq(\w+)", STRUCT_EQ[t]):
            if d != t and d in STRUCT_EQ:
                emit(d)
        out.append(STRUCT_EQ[t])
    for t in STRUCT_EQ:
        emit(t)
    out.append("def eqMessage : Message → Message → Bool\n%s\n  | _, _ => false" % "\n".join(
        "  | .%s a, .%s b => eq%s a b" % (c, c, s) for s, c in MESSAGE.items()))
    out.append("def eqResponse (a b : Response Message) : Bool := a.version == b.version && eqSignonResponse a.signon b.signon &&"
               " MsgSet.lists.all (fun s => listEq eqMessage (a.sets s) (b.sets s))")
    tests = []
    for f in ("bank", "creditcard", "invstmt", "profile", "signup"):
        src = open(REPO + f + "_test.go").read()
        for m in re.finditer(r"^func (Test\w+)\(t \*testing\.T\) (\{.*?^\})", src, re.S | re.M):
            name = m[1]
            p = P(lex(m[2]))
            try:
                p.stmts()
            except Skip as e:
                print("-- skipped %s: %s" % (name, e))
                continue
            kinds = [c[0] for c in p.calls]
            if "marshalCheckRequest" in kinds:
                r, c = p.env["request"], p.env["request"].f["!client"]
                want = [x for x in p.env.values() if isinstance(x, str)][0]
                so = dict(r.f["Signon"].f)
                dt = so.pop("DtClient")
                arms = "".join("  | .%s => [%s]\n" % (k[0].lower() + k[1:], ", ".join(
                    ".%s %s" % (MESSAGE[x.typ], lean(x, x.typ)) for x in v))
                    for k, v in r.f.items() if isinstance(v, list))
                out.append("def %s_sets : MsgSet → List Message\n%s  | _ => []" % (name, arms))
                out.append("def %s_r : Request Message := { url := [], version := 0, indent := false, carriageReturn := false, signon := %s, sets := %s_sets }"
                           % (name, lean(Obj("SignonRequest", so), "SignonRequest"), name))
                cl = c.f
                out.append("def %s_c : BasicClient := { AppID := %s.toList, AppVer := %s.toList, SpecVersion := %d, NoIndent := %s, CarriageReturn := %s, UserAgent := [], HTTPClient := none }"
                           % (name, q(cl["AppID"]), q(cl["AppVer"]), cl["SpecVersion"],
                              "true" if cl.get("NoIndent") else "false", "true" if cl.get("CarriageReturn") else "false"))
                out.append("def %s : Bool :=\n  let r := %s_r.setClientFields (newDateGMT 2000 1 1 0 0 0 0) %s_c\n"
                           "  let r := { r with signon := { r.signon with DtClient := %s } }\n"
                           "  match r.marshal.1 with\n  | .ok d => squeeze d.text == squeeze %s.toList\n  | .error _ => false"
                           % (name, name, name, lean(dt, "GoTime"), q(want)))
                tests.append(name)
            elif "checkResponsesEqual" in kinds:
                r = p.env["expected"]
                doc = [x for x in p.env.values() if isinstance(x, str)][0]
                arms = "".join("  | .%s => [%s]\n" % (k[0].lower() + k[1:], ", ".join(
                    ".%s %s" % (MESSAGE[x.typ], lean(x, x.typ)) for x in v))
                    for k, v in r.f.items() if isinstance(v, list))
                out.append("def %s_sets : MsgSet → List Message\n%s  | _ => []" % (name, arms))
                out.append("def %s_want : Response Message := { version := %d, signon := %s, sets := %s_sets }"
                           % (name, r.f["Version"], lean(Obj("SignonResponse", r.f["Signon"].f), "SignonResponse"), name))
                out.append("def %s_doc : Str := %s.toList" % (name, q(doc)))
                out.append("def %s : Bool :=\n  match parseResponse env nt (toBytes %s_doc) with\n"
                           "  | (some r, none) => eqResponse %s_want r && (match r.marshal.1 with\n"
                           "    | .ok d => (match parseResponse env nt d.bytes with\n"
                           "      | (some r', none) => eqResponse r r'\n      | _ => false)\n    | .error _ => false)\n  | _ => false" % (name, name, name))
                tests.append(name)
            elif "checkEqual" in kinds:
                v = p.env["expected"]
                t = {"TestUnmarshalInvTranList": "InvTranList", "TestUnmarshalPositionList": "PositionList",
                     "TestUnmarshalOOList": "OOList"}[name]
                ft = {"InvTranList": "InvTranList", "PositionList": "InvPosList", "OOList": "InvOOList"}[t]
                doc = p.env["input"]
                out.append("def %s_want : %s := %s" % (name, t if t not in ALIAS else ALIAS[t], lean(v, t)))
                out.append("def %s_doc : Str := %s.toList" % (name, q(doc)))
                opt = "Option " if t == "InvTranList" else ""
                want = "(some %s_want)" % name if opt else name + "_want"
                out.append("def %s : Bool := readsAs %s_doc (fun a => %s)" % (name, name, eqof(opt + t, want, "a." + ft)))
                tests.append(name)
            else:
                print("-- skipped %s" % name)
    bad = re.search(r"const invalidResponse = `(.*?)`", open(REPO + "response_test.go").read(), re.S)[1]
    out.append("def TestInvalidResponse_doc : Str := %s.toList" % q(bad))
    out.append("""def TestInvalidResponse : Bool :=
  let a := parseResponse env nt (toBytes TestInvalidResponse_doc)
  let b := parseResponse env nt []
  (a.2.map Err.error == some "Validation failed: Invalid STATUS>SEVERITY; Invalid STATUS>SEVERITY") && a.1.isSome &&
    b.1.isNone && b.2.isSome""")
    tests.append("TestInvalidResponse")
    out.append("""def sample (bs : List UInt8) : Bool :=
  match parseResponse env nt bs with
  | (some r, none) => (match r.marshal.1 with
    | .ok d => (match parseResponse env nt d.bytes with
      | (some r', none) => eqResponse r r'
      | _ => false)
    | .error _ => false)
  | _ => false""")
    out.append("def main (args : List String) : IO Unit := do\n  for a in args do\n    report a (sample (← IO.FS.readBinFile a).toList)\n" + "\n".join('  report "%s" %s' % (n, n) for n in tests))
    print("\n".join(out))


STRUCT_EQ = {}
main()
