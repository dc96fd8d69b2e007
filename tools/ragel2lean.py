#!/usr/bin/env python3
"""Translate the ragel-generated parsers of /repo/internal/ddl into Lean tables.

The generated Go code is a goto program: one block per state that branches on data[p] with a small
language of switch/if statements, and transition labels (trN) that run actions before jumping to a
state. For each state this tool evaluates the branching code for all 256 byte values, follows the
label, and prints one rule per maximal interval of bytes with the same outcome. Bytes that go to
st0 (the error state) have no rule.

usage: ragel2lean.py   (writes lean/Verif/Ddl/Tables/*.lean)
"""
import re, os

ROOT = "/repo/internal/ddl/"
OUT = os.path.join(os.path.dirname(os.path.abspath(__file__)), "..", "lean", "Verif", "Ddl", "Tables")

MACHINES = {
    "check": ("check", "CheckAct", {
        "mark1 = p": "setMark1", "mark2 = p": "setMark2",
        "check.Deferrable = true": "matchDeferrable",
        "check.InitiallyDeferred = true": "matchInitiallyDeferred"}),
    "index": ("index", "IndexAct", {
        "index.addColumn": "addColumn", "index.addExpression": "addExpression",
        "index.setName": "setName", "index.setOpClass": "setOpClass", "index.setTable": "setTable",
        "index.setUsing": "setUsing", "index.setWhere": "setWhere",
        "index.Unique = true": "matchUnique"}),
    "foreign_key": ("foreignKey", "FkAct", {
        "fk.addColumn": "addColumn", "fk.addReferenced": "addReferenced", "fk.setMatch": "setMatch",
        "fk.setOnDelete": "setOnDelete", "fk.setOnUpdate": "setOnUpdate", "fk.setTable": "setTable",
        "fk.Deferrable = true": "matchDeferrable",
        "fk.InitiallyDeferred = true": "matchInitiallyDeferred"}),
    "trigger": ("trigger", "TriggerAct", {
        "trigger.addColumn": "addColumn", "trigger.setFunction": "setFunction",
        "trigger.setName": "setName", "trigger.setTable": "setTable", "trigger.setWhen": "setWhen",
        "trigger.Constraint = true": "matchConstraint",
        "trigger.Deferrable = true": "matchDeferrable",
        "trigger.InitiallyDeferred = true": "matchInitiallyDeferred",
        "trigger.ForEachRow = true": "matchForEachRow",
        "trigger.Delete = true": "matchDelete", "trigger.Insert = true": "matchInsert",
        "trigger.Truncate = true": "matchTruncate", "trigger.Update = true": "matchUpdate"}),
}


class Lines:
    def __init__(self, lines):  # list of (number, text)
        self.l = lines
        self.i = 0

    def peek(self):
        return self.l[self.i][1]

    def pop(self):
        t = self.l[self.i]
        self.i += 1
        return t[1]


def cond(text):
    """A condition on data[p] as a predicate."""
    text = text.replace("data[p]", "b")
    if not re.fullmatch(r"[b0-9<>=& ]+", text):
        raise Exception("condition: " + text)
    return eval("lambda b: " + text.replace("&&", "and"))


def block(ls):
    """Statements up to a closing brace or a case/default label (not consumed)."""
    out = []
    while True:
        t = ls.peek()
        if t == "}" or t.startswith("case ") or t == "default:":
            return out
        out.append(stmt(ls))
        if ls.i >= len(ls.l):
            return out


def stmt(ls):
    t = ls.pop()
    m = re.fullmatch(r"goto (st\d+|tr\d+)", t)
    if m:
        return ("goto", m[1])
    m = re.fullmatch(r"if (.*) \{", t)
    if m:
        body = block(ls)
        assert ls.pop() == "}"
        return ("if", cond(m[1]), body)
    if t in ("switch data[p] {", "switch {"):
        valued = t == "switch data[p] {"
        cases = []
        while ls.peek() != "}":
            h = ls.pop()
            if h == "default:":
                c = lambda b: True
            else:
                m = re.fullmatch(r"case (.*):", h)
                c = (lambda n: (lambda b: b == n))(int(m[1])) if valued else cond(m[1])
            cases.append((c, block(ls)))
        ls.pop()
        return ("switch", cases)
    raise Exception("statement: " + t)


def run(stmts, b):
    """The label the code jumps to on byte b, or None when it falls through."""
    for s in stmts:
        if s[0] == "goto":
            return s[1]
        if s[0] == "if":
            if s[1](b):
                r = run(s[2], b)
                if r:
                    return r
        if s[0] == "switch":
            for c, body in s[1]:
                if c(b):
                    r = run(body, b)
                    if r:
                        return r
                    break
    return None


def actions(lines, table):
    """The actions in a list of source lines (without the closing goto)."""
    out = []
    lines = [x.strip() for _, x in lines]
    lines = [x for x in lines if x and not x.startswith("//line")]
    i = 0
    while i < len(lines):
        x = lines[i]
        if x == "buffer.WriteByte(data[p])":
            out.append(".push")
        elif x in table:
            out.append(".act ." + table[x])
        elif x.endswith("(buffer.String())") and x[:-len("(buffer.String())")] in table:
            assert lines[i + 1] == "buffer.Reset()"
            out.append(".act ." + table[x[:-len("(buffer.String())")]])
            i += 1
        else:
            raise Exception("action: " + x)
        i += 1
    return out


def translate(name):
    lname, ty, table = MACHINES[name]
    src = open(ROOT + name + "_parser.go").read().split("\n")
    num = [(i + 1, x) for i, x in enumerate(src)]
    const = {m[1]: int(m[2]) for m in re.finditer(name + r"_(start|first_final|error) int = (\d+)", "\n".join(src))}
    assert const["error"] == 0
    # the dispatch switch sends state n to st_case_n
    for m in re.finditer(r"case (\d+):\n\t\tgoto (\w+)", "\n".join(src)):
        assert m[2] == "st_case_" + m[1]
    # split into labelled blocks
    begin = next(i for i, x in num if x == "\tgoto st_out")
    end = next(i for i, x in num if x == "\tst_out:")
    blocks, cur = {}, None
    order = []
    for i, x in num[begin:end - 1]:
        m = re.fullmatch(r"\s*(st\d+|tr\d+|st_case_\d+):", x)
        if m:
            cur = m[1]
            assert cur not in blocks
            blocks[cur] = []
            order.append(cur)
        else:
            blocks[cur].append((i, x))
    labels, states = {}, {}
    for k, lab in enumerate(order):
        body = [(i, x.strip()) for i, x in blocks[lab] if x.strip() and not x.strip().startswith("//line")]
        if lab.startswith("tr"):
            m = re.fullmatch(r"goto st(\d+)", body[-1][1])
            labels[lab] = (actions(body[:-1], table), int(m[1]))
        elif lab.startswith("st_case_"):
            n = int(lab[8:])
            if n == 0:  # falls into st0
                assert body == []
                continue
            ls = Lines(body)
            code = []
            while ls.i < len(ls.l):
                code.append(stmt(ls))
            states[n] = (blocks["st%d" % n][0][0] if blocks["st%d" % n] else body[0][0], body[-1][0], code)
        else:
            n = int(lab[2:])
            if n == 0:
                assert [x for _, x in body] == ["cs = 0", "goto _out"]
            else:
                assert [x for _, x in body] == ["if p++; p == pe {", "goto _test_eof%d" % n, "}"]
                assert order[k + 1] == "st_case_%d" % n
            labels[lab] = ([], n)
    # eof actions
    eof = {}
    text = "\n".join(src)
    i = next((i for i, x in num if x == "\tif p == eof {"), None)
    if i is not None:
        pend, acc = [], []
        assert src[i] == "\t\tswitch cs {"
        for j, x in num[i + 1:]:
            m = re.fullmatch(r"\t\tcase ([\d, ]+):", x)
            if m or x == "\t\t}":
                for q in pend:
                    eof[q] = actions(acc, table)
                if not m:
                    break
                pend, acc = [int(v) for v in m[1].split(",")], []
            else:
                acc.append((j, x))
    # _test_eofN sets cs = N
    for m in re.finditer(r"_test_eof(\d+): cs = (\d+); goto _test_eof\n", text):
        assert m[1] == m[2]
    N = max(states)
    assert sorted(states) == list(range(1, N + 1))
    rows = ["  { state := 0, rules := [], eof := [] }"]
    for q in range(1, N + 1):
        a, z, code = states[q]
        rules, prev = [], None
        for b in range(256):
            lab = run(code, b)
            assert lab is not None
            acts, tgt = labels[lab]
            key = (tuple(acts), tgt)
            if tgt == 0:
                assert acts == []
                prev = None
                continue
            if prev == key:
                rules[-1][1] = b
            else:
                rules.append([b, b, key])
            prev = key
        rs = ["⟨%d, %d, [%s], %d⟩" % (lo, hi, ", ".join(k[0]), k[1]) for lo, hi, k in rules]
        # wrap
        line, linesout = "", []
        for r in rs:
            if len(line) + len(r) > 84:
                linesout.append(line.rstrip())
                line = ""
            line += r + ", "
        linesout.append(line.rstrip(", "))
        e = "[%s]" % ", ".join(x[len(".act "):] for x in eof.get(q, []))
        rows.append("  -- %s_parser.go:%d-%d\n  { state := %d, rules := [\n      %s],\n    eof := %s }"
                    % (name, a, z, q, "\n      ".join(linesout), e))
    ctor = []
    for v in table.values():
        ctor.append("  | " + v)
    o = "import Verif.Ragel.Machine\n\n/-!\n# The state machine of `/repo/internal/ddl/%s_parser.go`\n\nGenerated by tools/ragel2lean.py from the generated Go code; do not edit.\n-/\n\nnamespace Verif.Ddl\nopen Verif.Ragel\n\n" % name
    o += "/-- The actions of %s_parser.rl:1-%d other than `addToBuffer`. -/\ninductive %s where\n%s\nderiving DecidableEq, Repr\n\n" % (
        name, next(i for i, x in enumerate(open(ROOT + name + "_parser.rl").read().split("\n"), 1) if "write exec" in x), ty, "\n".join(ctor))
    o += "/-- %s_parser.go:%d-%d: one row per state. -/\ndef %sRows : List (Row %s) := [\n%s]\n\n" % (
        name, begin + 1, end - 1, lname, ty, ",\n".join(rows))
    cl = next(i for i, x in num if x.startswith("const " + name + "_start"))
    o += "/-- %s_parser.go:%d-%d: the constants and the table. -/\ndef %sMachine : Machine %s :=\n  { start := %d, firstFinal := %d, rows := %sRows }\n\nend Verif.Ddl\n" % (
        name, cl, cl + 2, lname, ty, const["start"], const["first_final"], lname)
    fn = lname[0].upper() + lname[1:]
    open(os.path.join(OUT, fn + ".lean"), "w").write(o)
    print(name, "states", N, "rules", sum(r.count("⟨") for r in rows), "eof", eof)


for n in MACHINES:
    translate(n)
