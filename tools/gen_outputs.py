#!/usr/bin/env python3
"""Writes lean/Verif/Model/OutputTable.lean: every variable saved with units, read from the source in /repo."""
import glob, re

ROOT = "/repo/"
FILES = sorted(glob.glob(ROOT + "src/*.cxx") + glob.glob(ROOT + "include/*.hxx")) + [ROOT + "hermes-3.cxx"]
SYMS = {"SI::qe": "qe", "SI::Mp": "Mp"}
NAMES = "qe Mp Nnorm Tnorm Bnorm Cs0 Omega_ci rho_s0 Pnorm SPnorm DivQnorm FreqNorm Lnorm".split()


def strip_comments(t):
    t = re.sub(r"/\*.*?\*/", lambda m: re.sub(r"[^\n]", " ", m.group(0)), t, flags=re.S)
    return re.sub(r"//[^\n]*", "", t)


def parse(s):
    """product / quotient of symbols, SQ(x) and 1 -> Lean term of type Factor"""
    toks = re.findall(r"SI::\w+|\w+\.?\d*|[()*/]", s)
    pos = 0

    def expr():
        nonlocal pos
        x = atom()
        while pos < len(toks) and toks[pos] in "*/":
            op = toks[pos]
            pos += 1
            x = f"({x} {op} {atom()})"
        return x

    def atom():
        nonlocal pos
        t = toks[pos]
        pos += 1
        if t == "(":
            x = expr()
            pos += 1
            return x
        if t == "SQ":
            pos += 1
            x = expr()
            pos += 1
            return f"({x} * {x})"
        t = SYMS.get(t, t)
        if t in ("1", "1.0"):
            return "one"
        assert t in NAMES, (s, t)
        return t

    r = expr()
    assert pos == len(toks), s
    return r[1:-1] if r.startswith("(") and depth_ok(r) else r


def depth_ok(r):
    d = 0
    for i, ch in enumerate(r):
        d += (ch == "(") - (ch == ")")
        if d == 0 and i < len(r) - 1:
            return False
    return True


def name_of(e):
    parts = re.findall(r"""["']([^"']*)["']|([A-Za-z_][\w.>-]*)""", e)
    out = ""
    if "format(" in e:
        return re.search(r'"([^"]*)"', e).group(1)
    for lit, ident in parts:
        if ident in ("std", "string", "fmt", "format"):
            continue
        out += lit if lit or not ident else "{" + ident + "}"
    return out


rows = []
for f in FILES:
    t = strip_comments(open(f).read())
    for m in re.finditer(r'"units"\s*(?:,|\]\s*=)\s*("?[^,;}]*"?)', t):
        ln = t.count("\n", 0, m.start()) + 1
        # the statement that contains the attribute
        start = max(t.rfind(";", 0, m.start()), t.rfind("{\n", 0, m.start())) + 1
        k = t.rfind("set_with_attrs", 0, m.start())
        end = t.find(";", m.start())
        if k < 0 or t.find(";", k) < m.start():
            # evolving variables, saved by the solver: `state[...].setAttributes({...})`
            stmt = t[start:end]
            v = re.search(r"state\[(.*)\]\.setAttributes", stmt)
            if not v:
                print("skipped", f, ln, m.group(0)[:60])
                continue
            c = re.search(r'"conversion"\s*,\s*([^,}]*)', stmt)
            rows.append((f.replace(ROOT, ""), ln, name_of(v.group(1)), m.group(1).strip(), c.group(1).strip(), "one"))
            continue
        stmt = t[k:end]
        v = re.search(r"set_with_attrs\s*\(\s*(\w+)\s*\[", stmt)
        d, i = 1, v.end()
        while d:
            d += (stmt[i] == "[") - (stmt[i] == "]")
            i += 1
        var = name_of(stmt[v.end():i - 1])
        c = re.search(r'"conversion"\s*,\s*([^,}]*)', stmt)
        value = re.match(r"\s*,\s*([^,]*),", stmt[i:])
        rows.append((f.replace(ROOT, ""), ln, var, m.group(1).strip(), c.group(1).strip() if c else None,
                     re.sub(r"\s+", " ", value.group(1).strip())))

lines = []
for f, ln, var, units, conv, value in rows:
    if units == "source_units":
        for u, cv in (("Pa / s", "Pnorm * Omega_ci"), ("m^-3 / s", "Nnorm * Omega_ci")):
            lines.append(f'  ⟨"{f}", {ln}, "{var}", "{u}", one, {parse(cv)}⟩')
        continue
    if conv is None:
        print("no conversion", f, ln, var)
        continue
    saved = value if f == "hermes-3.cxx" and value in NAMES else "one"
    lines.append(f'  ⟨"{f}", {ln}, "{var}", {units}, {saved}, {parse(conv)}⟩')

print(len(lines))
with open("/verif/lean/Verif/Model/OutputTable.lean", "w") as o:
    o.write('''import Verif.Model.OutputFactor

/-!
# The variables saved with units

Written by `tools/gen_outputs.py` from the calls of `set_with_attrs` in `/repo`: file and line of the attribute `"units"`, name of the variable (`{x}`
stands for the value of `x`), the attribute `"units"`, the constant that is saved (`one`: a field in normalised units), the attribute
`"conversion"`.  Of the two variables whose units `include/detachment_controller.hxx:133-143` chooses there is a row for each choice.
-/

namespace Hermes.Outputs
open Factor

/-- Every variable saved with both attributes, in the order of the files. -/
def outputs : List Output := [
''' + ",\n".join(lines) + ''']

end Hermes.Outputs
''')
