#!/usr/bin/env python3
"""Translate the multi-phase data files of /repo/src/pyromat/data/mp/*.hpd into Lean.

Writes lean/Verif/Shipped/MpData.lean: the numbers of the files exactly as they are written there, as
mantissa and number of decimals.
"""
import glob, json, os
from decimal import Decimal
from shipped import dec, OUT

SRC = '/repo/src/pyromat/data/mp'


def D(x):
    return dec(Decimal(x))


def g1(g):
    return '⟨%s, %s, [%s]⟩' % (D(g[0]), D(g[1]), ', '.join('(%d, %s)' % (int(i), D(c)) for i, c in g[2:]))


def g2(g):
    return '⟨%s, %s, %s, %s, [%s]⟩' % (D(g[0][0]), D(g[0][1]), D(g[1][0]), D(g[1][1]), ', '.join(
        '(%d, %d, %s)' % (int(i), int(j), D(c)) for i, j, c in g[2:]))


def opt(d, k):
    return 'some (%s)' % D(d[k]) if k in d else 'none'


def sat(d, k):
    return '⟨%s, %s, %d, [%s]⟩' % (D(d['Tscale']), D(d[k]), d['fn'], ', '.join(g1(g) for g in d['coef']))


def row(r):
    return '[' + ', '.join(D(x) for x in r) + ']'


def lean(d):
    o, r = d['AOgroup'], d['ARgroup']
    out = '/-- `%s`. -/\ndef %s : MpFile where\n' % (d['id'], d['id'].replace('mp.', '').replace('_', ''))
    out += '  id := "%s"\n  mw := %s\n  R := %s\n' % (d['id'], D(d['mw']), D(d['R']))
    for k in ('Tlim', 'plim', 'dlim'):
        out += '  %s := (%s, %s)\n' % (k, D(d[k][0]), D(d[k][1]))
    for k in ('Tt', 'Tc', 'pt', 'pc', 'dc'):
        out += '  %s := %s\n' % (k, D(d[k]))
    out += '  ps := %s\n' % sat(d['PSgroup'], 'pscale')
    out += '  dsl := %s\n' % sat(d['DSLgroup'], 'dscale')
    out += '  dsv := %s\n' % sat(d['DSVgroup'], 'dscale')
    out += '  ao := ⟨%s, %s, %s, %s,\n    some [%s],\n    [%s]⟩\n' % (
        D(o['Tscale']), D(o['dscale']), opt(o, 'logt'), opt(o, 'tlogt'), ', '.join(g1(g) for g in o['coef0']),
        ', '.join('(%s, %s)' % (D(a), D(b)) for a, b in o.get('coef1', [])))
    out += '  ar := ⟨%s, %s,\n    [%s],\n    [%s],\n    [%s]⟩\n' % (
        D(r['Tscale']), D(r['dscale']),
        ',\n     '.join('[' + ', '.join(g2(g) for g in t) + ']' for t in r['coef0']),
        ', '.join(row(x) for x in r.get('coef1', [])), ', '.join(row(x) for x in r.get('coef2', [])))
    out += '  atoms := [%s]\n' % ', '.join('("%s", %d)' % (k, int(v)) for k, v in d['atoms'].items())
    return out


def num(x):
    return Decimal(x)


def main():
    files = sorted(glob.glob(SRC + '/*.hpd'))
    ds = [json.load(open(f), parse_float=Decimal, parse_int=Decimal) for f in files]
    for d in ds:
        for k in ('PSgroup', 'DSLgroup', 'DSVgroup'):
            d[k]['fn'] = int(d[k]['fn'])
    names = [d['id'].replace('mp.', '').replace('_', '') for d in ds]
    with open(os.path.join(OUT, 'MpData.lean'), 'w') as f:
        f.write('import Verif.Shipped.MpBasic\n\n/-!\n# Shipped multi-phase data\n\nGenerated by '
                '`tools/shipped_mp.py` from `/repo/src/pyromat/data/mp/*.hpd`; do not edit.\n-/\n\n'
                'namespace PyroMat.Shipped.Data\n\nopen PyroMat.Shipped (MpFile)\n'
                'open PyroMat.Shipped.Dec (p n)\n\n')
        f.write('\n'.join(lean(d) for d in ds))
        f.write('\n/-- The multi-phase substances that come with the package. -/\ndef shippedMp : List MpFile :=\n'
                '  [%s]\n' % ', '.join(names))
        f.write('\nend PyroMat.Shipped.Data\n')


if __name__ == '__main__':
    main()
