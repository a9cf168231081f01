#!/usr/bin/env python3
"""Writes lean/Verif/Model/AmjuelData.lean from the coefficient tables in /repo/src/amjuel_*.cxx."""
import os, re
from fractions import Fraction

HERE = os.path.dirname(os.path.abspath(__file__))
REPO = "/repo/src/"
FILES = [("amjuel_hyd_ionisation.cxx", {"rate_coefs": "hydIonisationRate", "radiation_coefs": "hydIonisationLoss"}),
         ("amjuel_hyd_recombination.cxx", {"rate_coefs": "hydRecombinationRate", "radiation_coefs": "hydRecombinationLoss"}),
         ("amjuel_helium.cxx", {"he01_rate_coefs": "heIonisationRate", "he01_radiation_coefs": "heIonisationLoss",
                                "he10_rate_coefs": "heRecombinationRate", "he10_radiation_coefs": "heRecombinationLoss"})]
out = ["""/-!
# Coefficients of the AMJUEL fits

Generated by `tools/gen_amjuel.py` from the tables in `src/amjuel_hyd_ionisation.cxx`, `src/amjuel_hyd_recombination.cxx` and `src/amjuel_helium.cxx`.
The numbers are multiples of `10⁻³⁰`, exactly those of the source.  Rows belong to powers of `log T`, columns to powers of `log n`.
-/

namespace Hermes.AmjuelData
"""]
for name, tables in FILES:
    text = open(REPO + name).read()
    for m in re.finditer(r"const BoutReal (\w+)\[9\]\[9\] = \{(.*?)\};", text, re.S):
        first = text[:m.start()].count("\n") + 1
        last = text[:m.end()].count("\n") + 1
        rows = [[Fraction(x.strip()) * 10 ** 30 for x in r.split(",")] for r in re.findall(r"\{([^{}]*)\}", m.group(2))]
        assert len(rows) == 9 and all(len(r) == 9 for r in rows) and all(v.denominator == 1 for r in rows for v in r)
        out.append("/-- `%s`, `src/%s:%d-%d`. -/" % (m.group(1), name, first, last))
        out.append("def %s : List (List Int) :=" % tables[m.group(1)])
        lines = []
        for r in rows:
            lines.append("[" + ",\n     ".join(str(int(v)) for v in r) + "]")
        out.append("  [" + ",\n   ".join(lines) + "]\n")
out.append("end Hermes.AmjuelData")
open(os.path.join(HERE, "..", "lean", "Verif", "Model", "AmjuelData.lean"), "w").write("\n".join(out) + "\n")
