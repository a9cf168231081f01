#!/usr/bin/env python3
"""Writes lean/Verif/Model/AdasData.lean from the tables in json_database that the OpenADAS reactions read."""
import json, os, sys

REPO = sys.argv[1] if len(sys.argv) > 1 else "/repo"
FILES = ["scd96_c", "acd96_c", "plt96_c", "prb96_c", "ccd96_c", "scd96_li", "acd96_li", "plt96_li", "prb96_li", "ccd89_li",
         "scd96_ne", "acd96_ne", "plt96_ne", "prb96_ne", "ccd89_ne"]


def code(v):
    c = round((v + 100) * 1e5)
    assert abs((v + 100) * 1e5 - c) < 1e-4 and 10**6 <= c < 10**8, v
    return c


out = ["import Verif.Model.AdasFile", "", "/-!", "# The tables of `json_database` that the OpenADAS reactions read", "",
       "Written by `tools/gen_adas.py`.  Every number `v` of a file is stored as `(v + 100) * 10^5`, which is a whole number up to the rounding of",
       "the decimal digits in the file; a level of a table is one number, eight decimal digits for each coefficient, density running fastest.", "-/", "",
       "namespace Hermes.AdasData", ""]
for f in FILES:
    d = json.load(open(os.path.join(REPO, "json_database", f + ".json")))
    T, n, C = d["log_temperature"], d["log_density"], d["log_coeff"]
    for level in C:
        assert len(level) == len(T) and all(len(r) == len(n) for r in level)
    out.append(f"/-- `json_database/{f}.json`. -/")
    out.append(f"def {f} : PackedFile where")
    out.append("  temperature := [" + ", ".join(str(code(v)) for v in T) + "]")
    out.append("  density := [" + ", ".join(str(code(v)) for v in n) + "]")
    out.append("  levels := [")
    out.append(",\n".join("    " + "".join("%08d" % code(v) for r in level for v in r).lstrip("0") for level in C) + "]")
    out.append("")
out.append("/-- The files by name. -/")
out.append("def database : List (String × PackedFile) :=\n  [" + ",\n   ".join(f'("{f}.json", {f})' for f in FILES) + "]")
out += ["", "end Hermes.AdasData", ""]
p = os.path.join(os.path.dirname(os.path.abspath(__file__)), "../lean/Verif/Model/AdasData.lean")
open(p, "w").write("\n".join(out))
print(len(FILES), "files", os.path.getsize(p))
