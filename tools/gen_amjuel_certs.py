#!/usr/bin/env python3
"""Writes lean/Verif/Lemmas/AmjuelCerts.lean: trees of halvings that show that combinations of the AMJUEL fits are positive (see Lemmas/BoxPoly.lean).
The trees are checked by the kernel; nothing depends on this program being right."""
import os, re
from fractions import Fraction as F

HERE = os.path.dirname(os.path.abspath(__file__))
S = 10 ** 30


def tables(fn):
    out = {}
    for m in re.finditer(r'const BoutReal (\w+)\[9\]\[9\] = \{(.*?)\};', open(fn).read(), re.S):
        out[m.group(1)] = [[int(F(x.strip()) * S) for x in r.split(',')] for r in re.findall(r'\{([^{}]*)\}', m.group(2))]
    return out


HI = tables('/repo/src/amjuel_hyd_ionisation.cxx')
HR = tables('/repo/src/amjuel_hyd_recombination.cxx')
HE = tables('/repo/src/amjuel_helium.cxx')


def sub(a, b): return [[x - y for x, y in zip(r, q)] for r, q in zip(a, b)]
def neg(p): return [[-v for v in r] for r in p]
def dx(p): return [[(i + 1) * v for v in r] for i, r in enumerate(p[1:])]
def tr(p): return [list(c) for c in zip(*p)]


def affine1(l, A, H, D):
    q = []
    n = len(l)
    for k in range(n - 1, -1, -1):
        r = [0] * (len(q) + 1)
        for i, v in enumerate(q):
            r[i] += A * v
            r[i + 1] += H * v
        r[0] += l[k] * D ** (n - 1 - k)
        q = r
    return q[:n]


def affine(p, ax, ay):
    p = [affine1(r, *ay) for r in p]
    return tr([affine1(r, *ax) for r in tr(p)])


def lb(l):
    r = 0
    for c in reversed(l):
        r = c + min(0, r)
    return r


def lb2(p): return lb([lb(r) for r in p])


def halves(p, axis):
    if axis == 'y':
        return [affine1(r, 0, 1, 2) for r in p], [affine1(r, 1, 1, 2) for r in p]
    q = tr(p)
    return tr([affine1(r, 0, 1, 2) for r in q]), tr([affine1(r, 1, 1, 2) for r in q])


def cert(p, depth=0):
    if lb2(p) > 0:
        return '.ok'
    assert depth < 40
    best = None
    for axis in 'xy':
        a, b = halves(p, axis)
        v = min(lb2(a), lb2(b))
        if best is None or v > best[0]:
            best = (v, axis, a, b)
    _, axis, a, b = best
    f = lambda c: c if c == '.ok' else '(' + c + ')'
    return '.%s %s %s' % (axis, f(cert(a, depth + 1)), f(cert(b, depth + 1)))


out = ["""import Verif.Lemmas.BoxPoly

/-!
# Trees for the AMJUEL fits

Generated by `tools/gen_amjuel_certs.py`.  Each tree shows that one combination of fits is positive on one rectangle; the theorems that use them are in
`Props/AmjuelFits.lean`.
-/

namespace Hermes.AmjuelCerts
open BoxPoly
"""]


def go(name, p, x0=-2303, x1=9211, y0=0, y1=18422, const='0'):
    p = [r[:] for r in p]
    p[0][0] += int(F(const) * S)
    c = cert(affine(p, (x0, x1 - x0, 1000), (y0, y1 - y0, 1000)))
    words = c.split(' ')
    lines, cur = [], ''
    for w in words:
        if len(cur) + len(w) > 145:
            lines.append(cur)
            cur = ''
        cur += (' ' if cur else '') + w
    lines.append(cur)
    out.append('def %s : Cert :=\n  %s\n' % (name, '\n  '.join(lines)))


hi, hl = HI['rate_coefs'], HI['radiation_coefs']
hr = HR['rate_coefs']
ei, el, er = HE['he01_rate_coefs'], HE['he01_radiation_coefs'], HE['he10_rate_coefs']
go('hIon', neg(hi), const='-13.816')
go('hRec', neg(hr), const='-13.816')
go('hCold', sub(hr, hi), x1=0)
go('hHot', sub(hi, hr), x0=693)
go('hCost', sub(hl, hi), const='-2.61014')
go('hCostTop', sub(hi, hl), x0=2302, const='3.688')
go('hRadiates', sub(HR['radiation_coefs'], hr), const='-1.792')
go('hRadiatesTop', sub(hr, HR['radiation_coefs']), x1=2303, const='3.178')
go('heCostTop', sub(ei, el), x0=2302, const='3.806')
go('hRecFalls', neg(dx(hr)))
go('hIonRises', dx(hi), x1=3900)
go('heIonRises', dx(ei), x1=4600)
go('heIon', neg(ei), const='-13.816')
go('heCold', sub(er, ei), x1=0)
go('heHot', sub(ei, er), x0=1098)
go('heCost', sub(el, ei), x0=-1205, const='-3.20235')
go('heCheap', sub(ei, el), x1=-2302, y0=18420, const='1.0986')
stops = neg(er)
stops[0] = [0] * 9
go('heStops', stops, x1=-1609, y1=11513, const='-13.816')
go('heHuge', er, x1=-2302, y0=18420, const='9.3')
out.append('end Hermes.AmjuelCerts')
open(os.path.join(HERE, '..', 'lean', 'Verif', 'Lemmas', 'AmjuelCerts.lean'), 'w').write('\n'.join(out) + '\n')
